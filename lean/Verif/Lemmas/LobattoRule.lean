import Verif.Lemmas.LegendreRoots
import Mathlib.Analysis.Calculus.Deriv.MeanValue

/-! Size of Legendre polynomials, distance from a point to a root, and the Gauss-Lobatto rule at
points near its nodes. -/

namespace Verif.Lemmas

open Polynomial Verif.Spec

/-- `n (n + 1)` -/
def kappa (n : ℕ) : ℝ := (n : ℝ) * (n + 1)

theorem kappa_pos {n : ℕ} (hn : 1 ≤ n) : 0 < kappa n := by
  unfold kappa
  have : (0 : ℝ) < n := by exact_mod_cast hn
  positivity

/-- On `[-1, 1]` Legendre polynomials are at most one. -/
theorem legendre_abs_le (n : ℕ) {x : ℝ} (h0 : -1 ≤ x) (h1 : x ≤ 1) :
    |(legendre n).eval x| ≤ 1 := by
  rcases Nat.eq_zero_or_pos n with rfl | hn
  · simp [legendre_zero]
  have key : ∀ y : ℝ, 0 ≤ y → y ≤ 1 → |(legendre n).eval y| ≤ 1 := by
    intro y hy0 hy1
    set E : ℝ[X] := C (kappa n) * legendre n ^ 2 + (1 - X ^ 2) * derivative (legendre n) ^ 2 with hE
    have hder : derivative E = C 2 * X * derivative (legendre n) ^ 2 := by
      have hode := lobattoPoly_derivative n
      unfold lobattoPoly at hode
      simp only [derivative_mul, derivative_sub, derivative_one, derivative_X_pow] at hode
      rw [hE]
      simp only [derivative_add, derivative_mul, derivative_C, derivative_pow, derivative_sub,
        derivative_one, derivative_X, zero_mul, zero_add, zero_sub]
      unfold kappa
      have hode' := congrArg (fun p => p * (C 2 * derivative (legendre n))) hode
      simp only [Nat.cast_ofNat, map_ofNat] at hode' ⊢
      ring_nf at hode' ⊢
      linear_combination hode'
    have hmono : MonotoneOn (fun y => E.eval y) (Set.Icc 0 1) := by
      refine monotoneOn_of_deriv_nonneg (convex_Icc 0 1) E.continuous.continuousOn
        (fun z _ => E.differentiable.differentiableAt.differentiableWithinAt) fun z hz => ?_
      rw [interior_Icc] at hz
      rw [Polynomial.deriv, hder]
      simp only [eval_mul, eval_C, eval_X, eval_pow]
      have := hz.1.le
      positivity
    have h := hmono ⟨hy0, hy1⟩ (Set.right_mem_Icc.2 zero_le_one) hy1
    simp only [hE, eval_add, eval_mul, eval_C, eval_pow, eval_sub, eval_one, eval_X,
      legendre_eval_one, one_pow, sub_self, zero_mul, add_zero, mul_one] at h
    have h2 : 0 ≤ (1 - y ^ 2) * (derivative (legendre n)).eval y ^ 2 :=
      mul_nonneg (by nlinarith) (sq_nonneg _)
    have h3 : kappa n * (legendre n).eval y ^ 2 ≤ kappa n * 1 := by linarith
    have h4 := le_of_mul_le_mul_left h3 (kappa_pos hn)
    exact abs_le_one_iff_mul_self_le_one.2 (by nlinarith)
  rcases le_total 0 x with h | h
  · exact key x h h1
  · have := key (-x) (by linarith) (by linarith)
    rwa [legendre_eval_neg, abs_mul, abs_pow, abs_neg, abs_one, one_pow, one_mul] at this

theorem legendre_deriv_abs_le (n : ℕ) {x : ℝ} (h0 : -1 ≤ x) (h1 : x ≤ 1) :
    |(derivative (legendre n)).eval x| ≤ kappa n / 2 := by
  induction n using Nat.twoStepInduction with
  | zero => simp [legendre_zero, kappa]
  | one => simp [legendre_one, kappa]
  | more n ih _ =>
    rw [deriv_two_step, eval_add, eval_mul, eval_C]
    refine (abs_add_le _ _).trans ?_
    rw [abs_mul, abs_of_pos (by positivity : (0 : ℝ) < 2 * n + 3)]
    have h2 := mul_le_mul_of_nonneg_left (legendre_abs_le (n + 1) h0 h1)
      (by positivity : (0 : ℝ) ≤ 2 * n + 3)
    unfold kappa at ih ⊢
    push_cast
    nlinarith

/-- Legendre polynomials change at most at the rate `n (n + 1) / 2`. -/
theorem legendre_lipschitz (n : ℕ) {x y : ℝ} (hx : x ∈ Set.Icc (-1 : ℝ) 1)
    (hy : y ∈ Set.Icc (-1 : ℝ) 1) :
    |(legendre n).eval x - (legendre n).eval y| ≤ kappa n / 2 * |x - y| := by
  have := Convex.norm_image_sub_le_of_norm_hasDerivWithin_le (s := Set.Icc (-1 : ℝ) 1)
    (f := fun z => (legendre n).eval z) (f' := fun z => (derivative (legendre n)).eval z)
    (C := kappa n / 2) (fun z _ => ((legendre n).hasDerivAt z).hasDerivWithinAt)
    (fun z hz => legendre_deriv_abs_le n hz.1 hz.2) (convex_Icc _ _) hy hx
  simpa [Real.norm_eq_abs] using this

/-! ### Distance to a root -/

theorem prod_deriv {n : ℕ} {z : ℕ → ℝ} {x : ℝ} (h : ∀ i < n, x ≠ z i) :
    (derivative (∏ i ∈ Finset.range n, (X - C (z i)))).eval x =
      (∏ i ∈ Finset.range n, (x - z i)) * ∑ i ∈ Finset.range n, 1 / (x - z i) := by
  induction n with
  | zero => simp
  | succ n ih =>
    have h1 : x - z n ≠ 0 := sub_ne_zero.2 (h n (Nat.lt_succ_self n))
    rw [Finset.prod_range_succ, derivative_mul, eval_add, eval_mul, eval_mul,
      ih fun i hi => h i (by omega), Finset.sum_range_succ, Finset.prod_range_succ]
    simp only [eval_prod, derivative_sub, derivative_X, derivative_C, sub_zero, eval_one, eval_sub,
      eval_X, eval_C]
    field_simp

/-- A polynomial whose roots are all real has a root within `n` times the length of a step of
Newton's method. -/
theorem RootList.near {p : ℝ[X]} {n : ℕ} {z : ℕ → ℝ} (h : RootList p n z) (hd : p.natDegree = n)
    (h0 : p ≠ 0) {x : ℝ} (h' : (derivative p).eval x ≠ 0) :
    ∃ i < n, |x - z i| ≤ n * |p.eval x / (derivative p).eval x| := by
  by_cases hx : p.eval x = 0
  · obtain ⟨i, hi, rfl⟩ := h.mem hd h0 hx
    exact ⟨i, hi, by simp [hx]⟩
  have hne : ∀ i < n, x ≠ z i := by
    rintro i hi rfl
    exact hx (h.root i hi)
  have hn : 0 < n := by
    rcases Nat.eq_zero_or_pos n with rfl | h1
    · rw [eq_C_of_natDegree_eq_zero hd] at h'
      simp at h'
    · exact h1
  set s := ∑ i ∈ Finset.range n, 1 / (x - z i) with hs
  have hps : (derivative p).eval x = p.eval x * s := by
    conv_lhs => rw [h.prod hd]
    conv_rhs => rw [h.prod hd]
    rw [derivative_C_mul, eval_mul, eval_C, prod_deriv hne, eval_mul, eval_C, eval_prod]
    simp only [eval_sub, eval_X, eval_C]
    ring
  have hs0 : s ≠ 0 := by
    intro h1
    rw [hps, h1, mul_zero] at h'
    exact h' rfl
  have hq : p.eval x / (derivative p).eval x = 1 / s := by
    rw [hps]; field_simp
  by_contra hcon
  push Not at hcon
  rw [hq] at hcon
  have h2 : ∀ i ∈ Finset.range n, |1 / (x - z i)| < |s| / n := by
    intro i hi
    have h3 := hcon i (Finset.mem_range.1 hi)
    have h4 : 0 < |s| := abs_pos.2 hs0
    have h5 : (0 : ℝ) < n := by exact_mod_cast hn
    rw [abs_div, abs_one, mul_one_div] at h3
    rw [abs_div, abs_one, div_lt_div_iff₀ (abs_pos.2 (sub_ne_zero.2 (hne i (Finset.mem_range.1 hi))))
      h5, one_mul]
    rw [div_lt_iff₀ h4] at h3
    linarith
  have h3 : |s| < |s| := by
    calc |s| ≤ ∑ i ∈ Finset.range n, |1 / (x - z i)| := Finset.abs_sum_le_sum_abs _ _
      _ < ∑ _i ∈ Finset.range n, |s| / n :=
        Finset.sum_lt_sum_of_nonempty (Finset.nonempty_range_iff.2 hn.ne') h2
      _ = |s| := by
        rw [Finset.sum_const, Finset.card_range, nsmul_eq_mul]
        have : (n : ℝ) ≠ 0 := by exact_mod_cast hn.ne'
        field_simp
  exact lt_irrefl _ h3

/-! ### The rule near its nodes -/

/-- The nodes made from the roots of the derivative and the end points. -/
noncomputable def lobattoNodes (m : ℕ) (z : ℕ → ℝ) (i : ℕ) : ℝ :=
  if i = 0 then -1 else if i = m + 1 then 1 else z (i - 1)

theorem lobattoNodes_zero (m : ℕ) (z : ℕ → ℝ) : lobattoNodes m z 0 = -1 := rfl

theorem lobattoNodes_last (m : ℕ) (z : ℕ → ℝ) : lobattoNodes m z (m + 1) = 1 := by
  simp [lobattoNodes]

theorem lobattoNodes_mid {m : ℕ} (z : ℕ → ℝ) {i : ℕ} (hi : i < m) :
    lobattoNodes m z (i + 1) = z i := by
  unfold lobattoNodes
  rw [if_neg (by omega), if_neg (by omega), Nat.add_sub_cancel]

theorem lobattoNodes_cases {m i : ℕ} (hi : i ≤ m + 1) : i = 0 ∨ i = m + 1 ∨ ∃ j < m, i = j + 1 := by
  rcases Nat.eq_zero_or_pos i with h | h
  · exact Or.inl h
  · rcases Nat.eq_or_lt_of_le hi with h1 | h1
    · exact Or.inr (Or.inl h1)
    · exact Or.inr (Or.inr ⟨i - 1, by omega, by omega⟩)

theorem lobattoNodes_root {m : ℕ} {z : ℕ → ℝ} (hz : RootList (derivative (legendre (m + 1))) m z) :
    ∀ i ≤ m + 1, (lobattoPoly (m + 1)).eval (lobattoNodes m z i) = 0 := by
  intro i hi
  rcases lobattoNodes_cases hi with rfl | rfl | ⟨j, hj, rfl⟩
  · rw [lobattoNodes_zero]; exact (lobattoPoly_ends _).2
  · rw [lobattoNodes_last]; exact (lobattoPoly_ends _).1
  · rw [lobattoNodes_mid z hj, lobattoPoly, eval_mul, hz.root j hj, mul_zero]

theorem lobattoNodes_inc {m : ℕ} {z : ℕ → ℝ} (hz : ∀ i, i + 1 < m → z i < z (i + 1))
    (hin : ∀ i < m, -1 < z i ∧ z i < 1) :
    ∀ i, i + 1 < m + 2 → lobattoNodes m z i < lobattoNodes m z (i + 1) := by
  intro i hi
  rcases lobattoNodes_cases (show i ≤ m + 1 by omega) with rfl | rfl | ⟨j, hj, rfl⟩
  · rw [lobattoNodes_zero]
    rcases Nat.eq_zero_or_pos m with rfl | h
    · rw [lobattoNodes_last]; norm_num
    · rw [lobattoNodes_mid z h]; exact (hin 0 h).1
  · omega
  · rw [lobattoNodes_mid z hj]
    rcases Nat.lt_or_ge (j + 1) m with h | h
    · rw [lobattoNodes_mid z h]; exact hz j h
    · rw [show j + 1 + 1 = m + 1 by omega, lobattoNodes_last]; exact (hin j hj).2

theorem lobattoNodes_mem {m : ℕ} {z : ℕ → ℝ} (hin : ∀ i < m, -1 < z i ∧ z i < 1) :
    ∀ i ≤ m + 1, lobattoNodes m z i ∈ Set.Icc (-1 : ℝ) 1 := by
  intro i hi
  rcases lobattoNodes_cases hi with rfl | rfl | ⟨j, hj, rfl⟩
  · rw [lobattoNodes_zero]; norm_num
  · rw [lobattoNodes_last]; norm_num
  · rw [lobattoNodes_mid z hj]; exact ⟨(hin j hj).1.le, (hin j hj).2.le⟩

/-- The weight that belongs to a node. -/
noncomputable def lobattoW (n : ℕ) (x : ℝ) : ℝ := 2 / kappa n / (legendre n).eval x ^ 2

theorem lobattoW_sum {m : ℕ} {z : ℕ → ℝ} (hz : RootList (derivative (legendre (m + 1))) m z)
    (hin : ∀ i < m, -1 < z i ∧ z i < 1) (p : ℝ[X]) (hp : p.natDegree < 2 * (m + 1)) :
    ∑ i ∈ Finset.range (m + 2), lobattoW (m + 1) (lobattoNodes m z i) *
      p.eval (lobattoNodes m z i) = I p :=
  lobatto_exact (by omega) (lobattoNodes_root hz)
    (fun _ hi _ hj h => inc_inj (lobattoNodes_inc hz.inc hin) (by omega) (by omega) h) p hp

/-- At the nodes the Legendre polynomial is not small. -/
theorem legendre_at_node {m : ℕ} {z : ℕ → ℝ} (hz : RootList (derivative (legendre (m + 1))) m z)
    (hin : ∀ i < m, -1 < z i ∧ z i < 1) {i : ℕ} (hi : i ≤ m + 1) :
    1 ≤ kappa (m + 1) * (legendre (m + 1)).eval (lobattoNodes m z i) ^ 2 := by
  have hK := kappa_pos (n := m + 1) (by omega)
  have hne := legendre_ne_zero_at (by omega) (lobattoNodes_root hz i hi)
  have h1 := lobattoW_sum hz hin 1 (by simp)
  simp only [eval_one, mul_one] at h1
  have hI : I (1 : ℝ[X]) = 2 := by
    have := I_sq 0
    rw [legendre_zero, mul_one] at this
    rw [this]; norm_num
  have h2 : lobattoW (m + 1) (lobattoNodes m z i) ≤ 2 := by
    rw [← hI, ← h1]
    exact Finset.single_le_sum (f := fun i => lobattoW (m + 1) (lobattoNodes m z i))
      (fun j _ => div_nonneg (by positivity) (sq_nonneg _)) (Finset.mem_range.2 (by omega))
  unfold lobattoW at h2
  have h3 : 0 < (legendre (m + 1)).eval (lobattoNodes m z i) ^ 2 := by positivity
  rw [div_div, div_le_iff₀ (mul_pos hK h3)] at h2
  linarith

/-- The rule with points and weights taken near its nodes. -/
theorem lobatto_near {m : ℕ} {z : ℕ → ℝ} (hz : RootList (derivative (legendre (m + 1))) m z)
    (hin : ∀ i < m, -1 < z i ∧ z i < 1) {x : ℕ → ℝ} {δ : ℝ}
    (hx : ∀ i ≤ m + 1, x i ∈ Set.Icc (-1 : ℝ) 1)
    (hd : ∀ i ≤ m + 1, |x i - lobattoNodes m z i| ≤ δ) (hδ : kappa (m + 1) ^ 2 * δ ≤ 1 / 2)
    (p : ℝ[X]) (hp : p.natDegree < 2 * (m + 1)) {B B' : ℝ}
    (hB : ∀ y ∈ Set.Icc (-1 : ℝ) 1, |p.eval y| ≤ B)
    (hB' : ∀ y ∈ Set.Icc (-1 : ℝ) 1, |(derivative p).eval y| ≤ B') :
    |∑ i ∈ Finset.range (m + 2), lobattoW (m + 1) (x i) * p.eval (x i) - I p| ≤
      (4 * (m + 2) * kappa (m + 1) ^ 2 * B + 2 * B') * δ := by
  have hK := kappa_pos (n := m + 1) (by omega)
  set K := kappa (m + 1) with hKd
  have hδ0 : 0 ≤ δ := (abs_nonneg _).trans (hd 0 (by omega))
  have hB0 : 0 ≤ B := (abs_nonneg _).trans (hB 0 (by norm_num))
  have hB0' : 0 ≤ B' := (abs_nonneg _).trans (hB' 0 (by norm_num))
  have hy := lobattoNodes_mem hin
  have hW : ∀ i ≤ m + 1, |lobattoW (m + 1) (x i) - lobattoW (m + 1) (lobattoNodes m z i)| ≤
      4 * K ^ 2 * δ := by
    intro i hi
    have h1 := legendre_at_node hz hin hi
    have h2 := legendre_lipschitz (m + 1) (hx i hi) (hy i hi)
    have h3 := legendre_abs_le (m + 1) (hx i hi).1 (hx i hi).2
    have h4 := legendre_abs_le (m + 1) (hy i hi).1 (hy i hi).2
    unfold lobattoW
    rw [← hKd] at h1 h2 ⊢
    set a := (legendre (m + 1)).eval (x i)
    set b := (legendre (m + 1)).eval (lobattoNodes m z i)
    have h5 : |b ^ 2 - a ^ 2| ≤ K * δ := by
      have e : b ^ 2 - a ^ 2 = -((a - b) * (a + b)) := by ring
      rw [e, abs_neg, abs_mul]
      have h6 : |a - b| ≤ K / 2 * δ :=
        h2.trans (mul_le_mul_of_nonneg_left (hd i hi) (by positivity))
      have h7 : |a + b| ≤ 2 := (abs_add_le _ _).trans (by linarith)
      calc |a - b| * |a + b| ≤ K / 2 * δ * 2 :=
            mul_le_mul h6 h7 (abs_nonneg _) (by positivity)
        _ = K * δ := by ring
    have hb : 1 / K ≤ b ^ 2 := by rw [div_le_iff₀ hK]; linarith
    have ha : 1 / (2 * K) ≤ a ^ 2 := by
      have h6 := (abs_le.1 h5).2
      have h7 : K * δ ≤ 1 / (2 * K) := by
        rw [le_div_iff₀ (by positivity)]
        nlinarith
      have h8 : 1 / K = 1 / (2 * K) + 1 / (2 * K) := by field_simp; norm_num
      linarith
    have ha0 : 0 < a ^ 2 := lt_of_lt_of_le (by positivity) ha
    have hb0 : 0 < b ^ 2 := lt_of_lt_of_le (by positivity) hb
    have e : 2 / K / a ^ 2 - 2 / K / b ^ 2 = 2 / K * (b ^ 2 - a ^ 2) * (1 / (a ^ 2 * b ^ 2)) := by
      have : a ≠ 0 := fun h => ha0.ne' (by rw [h]; ring)
      have : b ≠ 0 := fun h => hb0.ne' (by rw [h]; ring)
      field_simp
    rw [e, abs_mul, abs_mul, abs_of_pos (by positivity : (0 : ℝ) < 2 / K),
      abs_of_pos (by positivity : (0 : ℝ) < 1 / (a ^ 2 * b ^ 2))]
    have h9 : 1 / (a ^ 2 * b ^ 2) ≤ 2 * K ^ 2 := by
      rw [div_le_iff₀ (by positivity)]
      have := mul_le_mul ha hb (by positivity) ha0.le
      have h10 : 1 / (2 * K) * (1 / K) * (2 * K ^ 2) = 1 := by field_simp
      nlinarith [mul_le_mul_of_nonneg_right this (by positivity : (0 : ℝ) ≤ 2 * K ^ 2)]
    calc 2 / K * |b ^ 2 - a ^ 2| * (1 / (a ^ 2 * b ^ 2)) ≤ 2 / K * (K * δ) * (2 * K ^ 2) :=
          mul_le_mul (mul_le_mul_of_nonneg_left h5 (by positivity)) h9 (by positivity)
            (by positivity)
      _ = 4 * K ^ 2 * δ := by field_simp; ring
  have hp' : ∀ i ≤ m + 1, |p.eval (x i) - p.eval (lobattoNodes m z i)| ≤ B' * δ := by
    intro i hi
    have := Convex.norm_image_sub_le_of_norm_hasDerivWithin_le (s := Set.Icc (-1 : ℝ) 1)
      (f := fun z => p.eval z) (f' := fun z => (derivative p).eval z)
      (C := B') (fun z _ => (p.hasDerivAt z).hasDerivWithinAt)
      (fun z hz => hB' z hz) (convex_Icc _ _) (hy i hi) (hx i hi)
    simp only [Real.norm_eq_abs] at this
    exact this.trans (mul_le_mul_of_nonneg_left (hd i hi) hB0')
  have hsum : ∑ i ∈ Finset.range (m + 2), lobattoW (m + 1) (lobattoNodes m z i) = 2 := by
    have h1 := lobattoW_sum hz hin 1 (by simp)
    simp only [eval_one, mul_one] at h1
    rw [h1]
    have := I_sq 0
    rw [legendre_zero, mul_one] at this
    rw [this]; norm_num
  have hWn : ∀ i, 0 ≤ lobattoW (m + 1) (lobattoNodes m z i) := fun i =>
    div_nonneg (by positivity) (sq_nonneg _)
  rw [← lobattoW_sum hz hin p hp, ← Finset.sum_sub_distrib]
  refine (Finset.abs_sum_le_sum_abs _ _).trans ?_
  calc ∑ i ∈ Finset.range (m + 2), |lobattoW (m + 1) (x i) * p.eval (x i) -
        lobattoW (m + 1) (lobattoNodes m z i) * p.eval (lobattoNodes m z i)|
      ≤ ∑ i ∈ Finset.range (m + 2),
        (4 * K ^ 2 * δ * B + lobattoW (m + 1) (lobattoNodes m z i) * (B' * δ)) := by
        refine Finset.sum_le_sum fun i hi => ?_
        have hi : i ≤ m + 1 := by have := Finset.mem_range.1 hi; omega
        have e : lobattoW (m + 1) (x i) * p.eval (x i) -
            lobattoW (m + 1) (lobattoNodes m z i) * p.eval (lobattoNodes m z i) =
            (lobattoW (m + 1) (x i) - lobattoW (m + 1) (lobattoNodes m z i)) * p.eval (x i) +
            lobattoW (m + 1) (lobattoNodes m z i) *
              (p.eval (x i) - p.eval (lobattoNodes m z i)) := by ring
        rw [e]
        refine (abs_add_le _ _).trans (add_le_add ?_ ?_)
        · rw [abs_mul]
          exact mul_le_mul (hW i hi) (hB _ (hx i hi)) (abs_nonneg _) (by positivity)
        · rw [abs_mul, abs_of_nonneg (hWn i)]
          exact mul_le_mul_of_nonneg_left (hp' i hi) (hWn i)
    _ = (4 * (m + 2) * K ^ 2 * B + 2 * B') * δ := by
        rw [Finset.sum_add_distrib, Finset.sum_const, ← Finset.sum_mul, hsum, Finset.card_range,
          nsmul_eq_mul]
        push_cast
        ring

end Verif.Lemmas
