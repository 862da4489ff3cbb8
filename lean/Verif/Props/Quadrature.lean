import Verif.Model.Quadrature
import Verif.Lemmas.LobattoRule
import Verif.Spec.Mirror
import Verif.Props.Numerics
import Verif.Props.Angular

/-! Property C114: Gauss-Lobatto points and weights. -/

namespace Verif.Props

open Polynomial Verif.Spec Verif.Model Verif.Lemmas

/-- What `numpy` documents about `leggauss`: the points are the roots of the Legendre polynomial, in
increasing order. -/
def GaussPoints (leg : ℕ → ℕ → ℝ) : Prop := ∀ n, 1 ≤ n → RootList (legendre n) n (leg n)

theorem gaussPoints_exists : ∃ leg, GaussPoints leg :=
  ⟨fun n => (legendre_roots n).choose, fun n _ => (legendre_roots n).choose_spec.1⟩

theorem gaussPoints_inside {leg : ℕ → ℕ → ℝ} (h : GaussPoints leg) {n i : ℕ} (hi : i < n) :
    -1 < leg n i ∧ leg n i < 1 := by
  obtain ⟨x, hx, hin⟩ := legendre_roots n
  have h0 : legendre n ≠ 0 := fun e => (legendre_coeff n).ne' (by rw [e, coeff_zero])
  rw [(h n (by omega)).unique hx (legendre_natDegree_eq n) h0 i hi]
  exact hin i hi

/-! ### The formulas for the derivatives -/

/-- C114: away from `-1` and `1` the two routines are the first and the second derivative of the
Legendre polynomial. -/
theorem c114_derivatives {x : ℝ} (hx : x ^ 2 ≠ 1) (n : ℕ) :
    legDeriv (n + 1) x = (derivative (legendre (n + 1))).eval x ∧
      legDeriv2 (n + 2) x = (derivative (derivative (legendre (n + 2)))).eval x := by
  have hx' : x ^ 2 - 1 ≠ 0 := sub_ne_zero.2 hx
  have key : ∀ n, legDeriv (n + 1) x = (derivative (legendre (n + 1))).eval x := by
    intro n
    have h := congrArg (fun p => p.eval x) (sq_sub_one_deriv n)
    simp only [eval_mul, eval_sub, eval_pow, eval_X, eval_one, eval_C] at h
    unfold legDeriv
    rw [Nat.add_sub_cancel, div_div_eq_mul_div, div_eq_iff hx']
    push_cast
    linarith
  refine ⟨key n, ?_⟩
  unfold legDeriv2
  rw [show n + 2 - 1 = n + 1 from rfl, key (n + 1), key n]
  have h := congrArg (fun p => p.eval x) (sq_sub_one_deriv (n + 1))
  have h2 := congrArg (fun p => (derivative p).eval x) (sq_sub_one_deriv (n + 1))
  simp only [derivative_mul, derivative_sub, derivative_X_pow, derivative_one, derivative_C,
    derivative_X, eval_mul, eval_sub, eval_pow, eval_X, eval_one, eval_C, eval_add, zero_mul,
    zero_add, sub_zero, one_mul] at h h2
  have hne : (-1 + x ^ 2) ≠ 0 := by rw [neg_add_eq_sub]; exact hx'
  rw [div_eq_iff (pow_ne_zero 2 hne)]
  push_cast at h h2 ⊢
  simp only [pow_one] at h2
  linear_combination (-(x ^ 2 - 1)) * h2 + 2 * x * h

/-- Order three at one half. -/
example : legDeriv 3 (1 / 2) = 3 / 8 ∧ legDeriv2 3 (1 / 2) = 15 / 2 := by
  obtain ⟨h1, -⟩ := c114_derivatives (x := 1 / 2) (by norm_num) 2
  obtain ⟨-, h2⟩ := c114_derivatives (x := 1 / 2) (by norm_num) 1
  rw [h1, h2]
  norm_num [legendre, derivative_mul]

/-! ### What the search returns -/

/-- The last step of the search. -/
theorem lobattoRoot_last {n : ℕ} {x0 r : ℝ} (h : LobattoRoot (n + 2) x0 r) :
    ∃ x, (derivative (derivative (legendre (n + 2)))).eval x ≠ 0 ∧
      r = x - (derivative (legendre (n + 2))).eval x /
        (derivative (derivative (legendre (n + 2)))).eval x ∧ |r - x| ≤ 1 / 10 ^ 14 := by
  unfold LobattoRoot at h
  induction h with
  | @stop x h0 h =>
    have hx : x ^ 2 ≠ 1 := fun e => h0 (if_pos e)
    simp only [if_neg hx] at h0
    unfold newtonIterate at h ⊢
    simp only [if_neg hx, (c114_derivatives hx (n + 1)).1, (c114_derivatives hx n).2] at h0 h ⊢
    exact ⟨x, h0, rfl, h⟩
  | step _ _ _ ih => exact ih

/-- C114: whatever point the search returns, it is within `(n - 1) 10⁻¹⁴` of a root of the
derivative of the Legendre polynomial of order `n - 1`. -/
theorem c114_near_root {leg : ℕ → ℕ → ℝ} {n : ℕ} {xs ws : ℕ → ℝ}
    (h : LobattoQuadrature leg n xs ws) {i : ℕ} (hi : i + 2 < n) :
    ∃ z, (derivative (legendre (n - 1))).eval z = 0 ∧ -1 < z ∧ z < 1 ∧
      |xs (i + 1) - z| ≤ ((n : ℝ) - 1) * (1 / 10 ^ 14) := by
  obtain ⟨m, rfl⟩ : ∃ m, n = m + 3 := ⟨n - 3, by omega⟩
  obtain ⟨x, h0, hr, ht⟩ := lobattoRoot_last (h.inner i hi)
  obtain ⟨a, ha, hin⟩ := legendre_roots (m + 2)
  obtain ⟨z, hz, hb⟩ := derivative_roots ha
  obtain ⟨hd, hne⟩ := derivative_legendre_natDegree (m + 1)
  obtain ⟨j, hj, hn⟩ := hz.near hd hne h0
  refine ⟨z j, hz.root j hj, ?_, ?_, ?_⟩
  · exact (hin j (by omega)).1.trans (hb j hj).1
  · exact (hb j hj).2.trans (hin (j + 1) (by omega)).2
  · have e : (derivative (legendre (m + 2))).eval x /
        (derivative (derivative (legendre (m + 2)))).eval x = -(xs (i + 1) - x) := by
      rw [hr]; ring
    rw [e, abs_neg] at hn
    have h1 : |xs (i + 1) - z j| ≤ |xs (i + 1) - x| + |x - z j| := abs_sub_le _ _ _
    push_cast at hn ⊢
    have h2 : ((m : ℝ) + 1) * |xs (i + 1) - x| ≤ ((m : ℝ) + 1) * (1 / 10 ^ 14) :=
      mul_le_mul_of_nonneg_left ht (by positivity)
    linarith

theorem newtons_neg {f f' : ℝ → ℝ} {s tol : ℝ} (hs : s ≠ 0) (hf : ∀ x, f (-x) = s * f x)
    (hf' : ∀ x, f' (-x) = -s * f' x) {x r : ℝ} (h : Newtons f f' tol x r) :
    Newtons f f' tol (-x) (-r) := by
  have hi : ∀ x, newtonIterate f f' (-x) = -newtonIterate f f' x := by
    intro x
    unfold newtonIterate
    rw [hf, hf', neg_mul, div_neg, mul_div_mul_left _ _ hs]
    ring
  induction h with
  | @stop x h0 h =>
    rw [← hi]
    refine Newtons.stop (by rw [hf']; exact mul_ne_zero (neg_ne_zero.2 hs) h0) ?_
    rw [hi, ← neg_sub', abs_neg]
    exact h
  | @step x r h0 h _ ih =>
    refine Newtons.step (by rw [hf']; exact mul_ne_zero (neg_ne_zero.2 hs) h0) ?_ (by rwa [hi])
    rw [hi, ← neg_sub', abs_neg]
    exact h

theorem legDeriv_neg (n : ℕ) (x : ℝ) : legDeriv (n + 1) (-x) = (-1) ^ n * legDeriv (n + 1) x := by
  unfold legDeriv
  rw [Nat.add_sub_cancel, legendre_eval_neg, legendre_eval_neg, pow_succ, neg_sq]
  ring

theorem legDeriv2_neg (n : ℕ) (x : ℝ) :
    legDeriv2 (n + 2) (-x) = -(-1) ^ (n + 1) * legDeriv2 (n + 2) x := by
  unfold legDeriv2
  rw [show n + 2 - 1 = n + 1 from rfl, legDeriv_neg (n + 1), legDeriv_neg n, legendre_eval_neg,
    legendre_eval_neg, neg_sq, show n + 1 + 1 = n + 2 from rfl, pow_add (-1 : ℝ) n 2,
    pow_add (-1 : ℝ) n 1]
  ring

theorem lobattoRoot_neg {n : ℕ} {x r : ℝ} (h : LobattoRoot (n + 2) x r) :
    LobattoRoot (n + 2) (-x) (-r) := by
  unfold LobattoRoot at h ⊢
  refine newtons_neg (s := (-1) ^ (n + 1)) (by simp) (legDeriv_neg (n + 1)) (fun x => ?_) h
  rw [neg_sq, legDeriv2_neg]
  split_ifs <;> simp

/-- C114: points and weights are symmetric about zero. -/
theorem c114_symmetric {leg : ℕ → ℕ → ℝ} (hl : GaussPoints leg) {n : ℕ} (hn : 2 ≤ n)
    {xs ws : ℕ → ℝ} (h : LobattoQuadrature leg n xs ws) : Spec.SymmetricSet n xs ws := by
  have hx : ∀ i < n, xs (n - 1 - i) = -xs i := by
    intro i hi
    rcases Nat.eq_zero_or_pos i with rfl | h0
    · rw [Nat.sub_zero, h.last, h.first hn, neg_neg]
    rcases Nat.lt_or_ge (i + 1) n with h1 | h1
    · obtain ⟨m, rfl⟩ : ∃ m, n = m + 3 := ⟨n - 3, by omega⟩
      obtain ⟨j, rfl⟩ : ∃ j, i = j + 1 := ⟨i - 1, by omega⟩
      have e1 : m + 3 - 1 - (j + 1) = (m - j) + 1 := by omega
      rw [e1]
      have a := h.inner (m - j) (by omega)
      have b := lobattoRoot_neg (h.inner j (by omega))
      have hsym := (hl (m + 2) (by omega)).symm (legendre_natDegree_eq _)
        (fun e => (legendre_coeff (m + 2)).ne' (by rw [e, coeff_zero])) (legendre_eval_neg _)
      have e2 : lobattoSeed leg (m + 3) (m - j) = -lobattoSeed leg (m + 3) j := by
        unfold lobattoSeed
        have s1 := hsym (j + 1) (by omega)
        have s2 := hsym j (by omega)
        rw [show m + 2 - 1 - (j + 1) = m - j by omega] at s1
        rw [show m + 2 - 1 - j = m - j + 1 by omega] at s2
        rw [show m + 3 - 1 = m + 2 from rfl, s1, s2]
        ring
      rw [e2] at a
      exact c35_newtons_deterministic a b
    · have : i = n - 1 := by omega
      subst this
      rw [Nat.sub_self, h.first hn, h.last]
  refine ⟨hx, fun i hi => ?_⟩
  rw [h.weights i hi, h.weights _ (by omega)]
  unfold lobattoWeight
  have e : (n - 1 - i = 0 ∨ n - 1 - i = n - 1) ↔ (i = 0 ∨ i = n - 1) := by omega
  simp only [e, hx i hi, legendre_eval_neg]
  rw [mul_pow, ← pow_mul, mul_comm _ 2, pow_mul]
  simp

/-! ### The rule -/

/-- The search for the root between two Gauss points has not left that interval. -/
def InBrackets (leg : ℕ → ℕ → ℝ) (n : ℕ) (xs : ℕ → ℝ) : Prop :=
  ∀ i, i + 2 < n → leg (n - 1) i < xs (i + 1) ∧ xs (i + 1) < leg (n - 1) (i + 1)

theorem lobatto_weights {leg : ℕ → ℕ → ℝ} {m : ℕ} {xs ws : ℕ → ℝ}
    (h : LobattoQuadrature leg (m + 3) xs ws) {i : ℕ} (hi : i < m + 3) :
    ws i = lobattoW (m + 2) (xs i) := by
  have hk : ((m + 3 : ℕ) : ℝ) * (((m + 3 : ℕ) : ℝ) - 1) = kappa (m + 2) := by
    unfold kappa; push_cast; ring
  rw [h.weights i hi]
  unfold lobattoWeight lobattoW
  rw [if_neg (by omega), hk]
  split_ifs with h1
  · rcases h1 with rfl | rfl
    · rw [h.first (by omega), legendre_eval_neg_one, ← pow_mul, mul_comm, pow_mul]
      simp
    · rw [h.last, legendre_eval_one]
      simp
  · rfl

theorem lobatto_mono {leg : ℕ → ℕ → ℝ} (hl : GaussPoints leg) {n : ℕ} (hn : 3 ≤ n)
    {xs ws : ℕ → ℝ} (h : LobattoQuadrature leg n xs ws) (hb : InBrackets leg n xs) :
    DirectionSet n xs := by
  obtain ⟨m, rfl⟩ : ∃ m, n = m + 3 := ⟨n - 3, by omega⟩
  refine ⟨by omega, (h.first (by omega)).ge, h.last.le, fun k hk => ?_⟩
  rcases Nat.eq_zero_or_pos k with rfl | h0
  · rw [h.first (by omega)]
    exact (gaussPoints_inside hl (by omega)).1.trans (hb 0 (by omega)).1
  · obtain ⟨j, rfl⟩ : ∃ j, k = j + 1 := ⟨k - 1, by omega⟩
    rcases Nat.lt_or_ge (j + 3) (m + 3) with h1 | h1
    · exact (hb j (by omega)).2.trans (hb (j + 1) (by omega)).1
    · have : j = m := by omega
      subst this
      have e := h.last
      rw [show j + 3 - 1 = j + 1 + 1 by omega] at e
      rw [e]
      exact (hb j (by omega)).2.trans (gaussPoints_inside hl (by omega)).2

/-- In its interval the point found belongs to the root of that interval. -/
theorem lobatto_close {leg : ℕ → ℕ → ℝ} (hl : GaussPoints leg) {m : ℕ} (hm : m + 2 ≤ 500)
    {xs ws : ℕ → ℝ} (h : LobattoQuadrature leg (m + 3) xs ws) (hb : InBrackets leg (m + 3) xs) :
    ∃ z, RootList (derivative (legendre (m + 2))) (m + 1) z ∧
      (∀ i < m + 1, leg (m + 2) i < z i ∧ z i < leg (m + 2) (i + 1)) ∧
      ∀ i ≤ m + 2, |xs i - lobattoNodes (m + 1) z i| ≤ ((m : ℝ) + 2) * (1 / 10 ^ 14) := by
  have hg := hl (m + 2) (by omega)
  obtain ⟨z, hz, hzb⟩ := derivative_roots hg
  obtain ⟨hd, hne⟩ := derivative_legendre_natDegree (m + 1)
  have hgi := fun i (hi : i < m + 2) => gaussPoints_inside hl hi
  have hin : ∀ i < m + 1, -1 < z i ∧ z i < 1 := fun i hi =>
    ⟨(hgi i (by omega)).1.trans (hzb i hi).1, (hzb i hi).2.trans (hgi (i + 1) (by omega)).2⟩
  refine ⟨z, hz, hzb, ?_⟩
  set δ : ℝ := ((m : ℝ) + 2) * (1 / 10 ^ 14) with hδ
  have hδ0 : 0 ≤ δ := by positivity
  -- roots of the derivative are far from roots of the polynomial
  have hfar : ∀ j < m + 1, ∀ a ∈ Set.Icc (-1 : ℝ) 1, (legendre (m + 2)).eval a = 0 →
      δ < |z j - a| := by
    intro j hj a ha h0
    have h1 := legendre_at_node hz hin (i := j + 1) (by omega)
    rw [lobattoNodes_mid z hj] at h1
    have h2 := legendre_lipschitz (m + 2) (x := z j) (y := a)
      ⟨(hin j hj).1.le, (hin j hj).2.le⟩ ha
    rw [h0, sub_zero] at h2
    have hK := kappa_pos (n := m + 2) (by omega)
    have hKle : kappa (m + 2) ≤ 250500 := by
      unfold kappa
      have : ((m + 2 : ℕ) : ℝ) ≤ 500 := by exact_mod_cast hm
      nlinarith [(Nat.cast_nonneg (m + 2) : (0 : ℝ) ≤ ((m + 2 : ℕ) : ℝ))]
    have hδle : δ ≤ 1 / 10 ^ 11 := by
      have : ((m : ℝ) + 2) ≤ 500 := by exact_mod_cast hm
      rw [hδ]
      norm_num at this ⊢
      linarith
    by_contra hcon
    push Not at hcon
    have h3 : |(legendre (m + 2)).eval (z j)| ≤ 250500 / 2 * (1 / 10 ^ 11) := by
      refine h2.trans (mul_le_mul (by linarith) (hcon.trans hδle) (abs_nonneg _) (by norm_num))
    have h4 : (legendre (m + 2)).eval (z j) ^ 2 ≤ (250500 / 2 * (1 / 10 ^ 11)) ^ 2 := by
      rw [← sq_abs]
      exact pow_le_pow_left₀ (abs_nonneg _) h3 2
    have h5 : kappa (m + 2) * (legendre (m + 2)).eval (z j) ^ 2 ≤
        250500 * (250500 / 2 * (1 / 10 ^ 11)) ^ 2 :=
      mul_le_mul hKle h4 (sq_nonneg _) (by norm_num)
    have h6 := h1.trans h5
    norm_num at h6
  have hga : ∀ i < m + 2, leg (m + 2) i ∈ Set.Icc (-1 : ℝ) 1 := fun i hi =>
    ⟨(hgi i hi).1.le, (hgi i hi).2.le⟩
  intro i hi
  rcases lobattoNodes_cases hi with rfl | rfl | ⟨k, hk, rfl⟩
  · rw [lobattoNodes_zero, h.first (by omega)]; simpa using hδ0
  · have e := h.last
    rw [show m + 3 - 1 = m + 1 + 1 by omega] at e
    rw [lobattoNodes_last, e]; simpa using hδ0
  · rw [lobattoNodes_mid z hk]
    obtain ⟨y, hy, -, -, hyd⟩ := c114_near_root h (i := k) (by omega)
    obtain ⟨j, hj, rfl⟩ := hz.mem hd hne hy
    have hyd : |xs (k + 1) - z j| ≤ δ := by
      refine hyd.trans (le_of_eq ?_)
      rw [hδ]; push_cast; ring
    obtain ⟨b1, b2⟩ := hb k (by omega)
    rw [show m + 3 - 1 = m + 2 from rfl] at b1 b2
    rcases lt_trichotomy j k with h1 | h1 | h1
    · exfalso
      have h2 := hfar j hj (leg (m + 2) (j + 1)) (hga _ (by omega)) (hg.root _ (by omega))
      have h3 := (hzb j hj).2
      have h4 : leg (m + 2) (j + 1) ≤ leg (m + 2) k := by
        rcases Nat.eq_or_lt_of_le (show j + 1 ≤ k from h1) with h5 | h5
        · rw [h5]
        · exact (inc_lt hg.inc h5 (by omega)).le
      rw [abs_of_neg (by linarith)] at h2
      rw [abs_of_pos (by linarith)] at hyd
      linarith
    · rw [← h1] at hyd ⊢; exact hyd
    · exfalso
      have h2 := hfar j hj (leg (m + 2) j) (hga _ (by omega)) (hg.root _ (by omega))
      have h3 := (hzb j hj).1
      have h4 : leg (m + 2) (k + 1) ≤ leg (m + 2) j := by
        rcases Nat.eq_or_lt_of_le (show k + 1 ≤ j from h1) with h5 | h5
        · rw [h5]
        · exact (inc_lt hg.inc h5 (by omega)).le
      rw [abs_of_pos (by linarith)] at h2
      rw [abs_of_neg (by linarith)] at hyd
      linarith

/-- C114 (partial: three to 500 points, and no step of the search has left the interval between two
Gauss points in which it began; for fewer points `c114_two_fails`): the points are increasing, from
`-1` to `1`, the weights are positive, and a polynomial of degree at most `2 n - 3` is integrated up
to an error of the order of the tolerance. -/
theorem c114_rule_partial {leg : ℕ → ℕ → ℝ} (hl : GaussPoints leg) {n : ℕ} (hn : 3 ≤ n)
    (hn' : n ≤ 500) {xs ws : ℕ → ℝ} (h : LobattoQuadrature leg n xs ws)
    (hb : InBrackets leg n xs) :
    DirectionSet n xs ∧ xs 0 = -1 ∧ xs (n - 1) = 1 ∧ (∀ i < n, 0 < ws i) ∧
      ∀ p : ℝ[X], p.natDegree ≤ 2 * n - 3 → ∀ B B' : ℝ,
        (∀ y ∈ Set.Icc (-1 : ℝ) 1, |p.eval y| ≤ B) →
        (∀ y ∈ Set.Icc (-1 : ℝ) 1, |(derivative p).eval y| ≤ B') →
        |∑ i ∈ Finset.range n, ws i * p.eval (xs i) - ∫ x in (-1 : ℝ)..1, p.eval x| ≤
          (4 * n * ((n : ℝ) * (n - 1)) ^ 2 * B + 2 * B') * (((n : ℝ) - 1) * (1 / 10 ^ 14)) := by
  have hdir := lobatto_mono hl hn h hb
  obtain ⟨m, rfl⟩ : ∃ m, n = m + 3 := ⟨n - 3, by omega⟩
  obtain ⟨z, hz, hzb, hcl⟩ := lobatto_close hl (by omega) h hb
  have hin : ∀ i < m + 1, -1 < z i ∧ z i < 1 := fun i hi =>
    ⟨(gaussPoints_inside hl (by omega)).1.trans (hzb i hi).1,
      (hzb i hi).2.trans (gaussPoints_inside hl (by omega)).2⟩
  have hmem : ∀ i ≤ m + 2, xs i ∈ Set.Icc (-1 : ℝ) 1 := by
    intro i hi
    constructor
    · rcases Nat.eq_zero_or_pos i with rfl | h0
      · exact hdir.lower
      · exact (lt_of_le_of_lt hdir.lower (inc_lt hdir.mono h0 (by omega))).le
    · rcases Nat.eq_or_lt_of_le hi with rfl | h0
      · exact hdir.upper
      · exact ((inc_lt hdir.mono h0 (by omega)).trans_le hdir.upper).le
  have hK := kappa_pos (n := m + 2) (by omega)
  have hKe : ((m + 3 : ℕ) : ℝ) * (((m + 3 : ℕ) : ℝ) - 1) = kappa (m + 2) := by
    unfold kappa; push_cast; ring
  have hsmall : kappa (m + 2) ^ 2 * (((m : ℝ) + 2) * (1 / 10 ^ 14)) ≤ 1 / 2 := by
    have h1 : ((m + 2 : ℕ) : ℝ) ≤ 499 := by exact_mod_cast (by omega : m + 2 ≤ 499)
    have h0 : (0 : ℝ) ≤ ((m + 2 : ℕ) : ℝ) := Nat.cast_nonneg _
    have h2 : kappa (m + 2) ≤ 499 * 500 := by
      unfold kappa
      nlinarith
    have h3 : kappa (m + 2) ^ 2 ≤ (499 * 500) ^ 2 := pow_le_pow_left₀ hK.le h2 2
    have h4 : (m : ℝ) + 2 ≤ 499 := by push_cast at h1; exact h1
    calc kappa (m + 2) ^ 2 * (((m : ℝ) + 2) * (1 / 10 ^ 14))
        ≤ (499 * 500) ^ 2 * (499 * (1 / 10 ^ 14)) :=
          mul_le_mul h3 (mul_le_mul_of_nonneg_right h4 (by norm_num)) (by positivity)
            (by norm_num)
      _ ≤ 1 / 2 := by norm_num
  refine ⟨hdir, h.first (by omega), h.last, fun i hi => ?_, fun p hp B B' hB hB' => ?_⟩
  · rw [lobatto_weights h hi]
    unfold lobattoW
    have h1 := legendre_at_node hz hin (i := i) (by omega)
    have h2 := legendre_lipschitz (m + 2) (hmem i (by omega))
      (lobattoNodes_mem hin i (by omega))
    have h3 := hcl i (by omega)
    have h0 : (legendre (m + 2)).eval (xs i) ≠ 0 := by
      intro e
      rw [e, zero_sub, abs_neg] at h2
      have h4 : |(legendre (m + 2)).eval (lobattoNodes (m + 1) z i)| ≤
          kappa (m + 2) / 2 * (((m : ℝ) + 2) * (1 / 10 ^ 14)) :=
        h2.trans (mul_le_mul_of_nonneg_left h3 (by positivity))
      have h5 := legendre_abs_le (m + 2) (lobattoNodes_mem hin i (by omega)).1
        (lobattoNodes_mem hin i (by omega)).2
      have h6 : kappa (m + 2) * (legendre (m + 2)).eval (lobattoNodes (m + 1) z i) ^ 2 ≤ 1 / 4 := by
        rw [← sq_abs, sq]
        calc kappa (m + 2) * (|(legendre (m + 2)).eval (lobattoNodes (m + 1) z i)| *
              |(legendre (m + 2)).eval (lobattoNodes (m + 1) z i)|)
            ≤ kappa (m + 2) * (kappa (m + 2) / 2 * (((m : ℝ) + 2) * (1 / 10 ^ 14)) * 1) :=
              mul_le_mul_of_nonneg_left (mul_le_mul h4 h5 (abs_nonneg _) (by positivity)) hK.le
          _ ≤ 1 / 4 := by nlinarith
      have h7 := h1.trans h6
      norm_num at h7
    positivity
  · have h1 := lobatto_near hz hin hmem hcl hsmall p (by omega) hB hB'
    rw [Finset.sum_congr rfl fun i hi => by
      rw [lobatto_weights h (Finset.mem_range.1 hi)]]
    refine h1.trans (le_of_eq ?_)
    rw [hKe]
    push_cast
    ring

/-- C114: points that are the roots themselves integrate polynomials of degree at most `2 n - 3`
exactly. -/
theorem c114_exact {leg : ℕ → ℕ → ℝ} (hl : GaussPoints leg) {n : ℕ} (hn : 3 ≤ n) {xs ws : ℕ → ℝ}
    (h : LobattoQuadrature leg n xs ws) (hb : InBrackets leg n xs)
    (hr : ∀ i, i + 2 < n → (derivative (legendre (n - 1))).eval (xs (i + 1)) = 0) (p : ℝ[X])
    (hp : p.natDegree ≤ 2 * n - 3) :
    ∑ i ∈ Finset.range n, ws i * p.eval (xs i) = ∫ x in (-1 : ℝ)..1, p.eval x := by
  have hdir := lobatto_mono hl hn h hb
  obtain ⟨m, rfl⟩ : ∃ m, n = m + 3 := ⟨n - 3, by omega⟩
  rw [Finset.sum_congr rfl fun i hi => by rw [lobatto_weights h (Finset.mem_range.1 hi)]]
  refine lobatto_exact (n := m + 2) (by omega) (fun i hi => ?_)
    (fun i hi j hj e => inc_inj hdir.mono (by omega) (by omega) e) p (by omega)
  rcases lobattoNodes_cases (m := m + 1) hi with rfl | rfl | ⟨j, hj, rfl⟩
  · rw [h.first (by omega)]; exact (lobattoPoly_ends _).2
  · have e := h.last
    rw [show m + 3 - 1 = m + 1 + 1 by omega] at e
    rw [e]; exact (lobattoPoly_ends _).1
  · have e := hr j (by omega)
    rw [show m + 3 - 1 = m + 2 from rfl] at e
    rw [lobattoPoly, eval_mul, e, mul_zero]

/-! ### Few points -/

/-- With three points the rule is Simpson's. -/
theorem c114_three {leg : ℕ → ℕ → ℝ} (hl : GaussPoints leg) {xs ws : ℕ → ℝ} :
    LobattoQuadrature leg 3 xs ws ↔
      (xs 0 = -1 ∧ xs 1 = 0 ∧ xs 2 = 1) ∧ ws 0 = 1 / 3 ∧ ws 1 = 4 / 3 ∧ ws 2 = 1 / 3 := by
  have hsym := (hl 2 (by omega)).symm (legendre_natDegree_eq _)
    (fun e => (legendre_coeff 2).ne' (by rw [e, coeff_zero])) (legendre_eval_neg _) 0 (by omega)
  have hseed : lobattoSeed leg 3 0 = 0 := by
    unfold lobattoSeed
    rw [show 3 - 1 = 2 from rfl]
    rw [show 2 - 1 - 0 = 0 + 1 from rfl] at hsym
    rw [hsym]
    ring
  have hd := c114_derivatives (x := 0) (by norm_num)
  have h1 : legDeriv 2 0 = 0 := by
    rw [(hd 1).1]
    simp [legendre, derivative_mul]
  have h2 : legDeriv2 2 0 = 3 := by
    rw [(hd 0).2]
    norm_num [legendre, derivative_mul]
  have hroot : ∀ r, LobattoRoot 2 0 r ↔ r = 0 := by
    intro r
    unfold LobattoRoot
    exact c35_newtons_root (by norm_num) h1 (by norm_num [h2]) r
  have hP : (legendre 2).eval 0 = -(1 / 2) := by norm_num [legendre]
  constructor
  · intro h
    have a := h.inner 0 (by omega)
    rw [hseed] at a
    have b := (hroot _).1 a
    refine ⟨⟨h.first (by omega), b, h.last⟩, ?_, ?_, ?_⟩
    · rw [h.weights 0 (by omega)]; norm_num [lobattoWeight]
    · rw [h.weights 1 (by omega)]
      unfold lobattoWeight
      rw [if_neg (by omega), if_neg (by omega), b, hP]
      norm_num
    · rw [h.weights 2 (by omega)]; norm_num [lobattoWeight]
  · rintro ⟨⟨x0, x1, x2⟩, w0, w1, w2⟩
    refine ⟨by omega, fun i hi => ?_, fun _ => x0, x2, fun i hi => ?_⟩
    · have : i = 0 := by omega
      subst this
      rw [hseed]
      exact (hroot _).2 x1
    · have : i = 0 ∨ i = 1 ∨ i = 2 := by omega
      rcases this with rfl | rfl | rfl
      · rw [w0]; norm_num [lobattoWeight]
      · rw [w1]
        unfold lobattoWeight
        rw [if_neg (by omega), if_neg (by omega), x1, hP]
        norm_num
      · rw [w2]; norm_num [lobattoWeight]

/-- C114 fails for two points, and for one: all weights are zero. -/
theorem c114_two_fails {leg : ℕ → ℕ → ℝ} {n : ℕ} (hn : n ≤ 2) {xs ws : ℕ → ℝ}
    (h : LobattoQuadrature leg n xs ws) (p : ℝ[X]) :
    (∀ i < n, ws i = 0) ∧ ∑ i ∈ Finset.range n, ws i * p.eval (xs i) = 0 := by
  have h0 : ∀ i < n, ws i = 0 := fun i hi => by
    rw [h.weights i hi]
    unfold lobattoWeight
    rw [if_pos hn]
  exact ⟨h0, Finset.sum_eq_zero fun i hi => by rw [h0 i (Finset.mem_range.1 hi), zero_mul]⟩

/-! ### Against the angular cells -/

/-- With the end points among the directions the cells make the trapezoidal rule. -/
theorem cells_trapezoidal {m : ℕ} {x : ℕ → ℝ} (h0 : x 0 = -1) (h1 : x (m + 1) = 1) (f : ℕ → ℝ) :
    ∑ l ∈ Finset.range (m + 2), angularWidth (m + 2) x l * f l =
      ∑ k ∈ Finset.range (m + 1), (x (k + 1) - x k) * (f k + f (k + 1)) / 2 := by
  have hmid : ∀ k < m + 1, angularEdge (m + 2) x (k + 1) = (x k + x (k + 1)) / 2 := by
    intro k hk
    unfold angularEdge
    rw [if_neg (by omega), if_neg (by omega), Nat.add_sub_cancel]
  have hfirst : angularEdge (m + 2) x 0 = -1 := rfl
  have hlast : angularEdge (m + 2) x (m + 2) = 1 := by simp [angularEdge]
  have hsplit : ∀ l, angularWidth (m + 2) x l * f l =
      (angularEdge (m + 2) x (l + 1) - x l) * f l + (x l - angularEdge (m + 2) x l) * f l := by
    intro l; unfold angularWidth; ring
  simp only [hsplit]
  rw [Finset.sum_add_distrib, Finset.sum_range_succ, Finset.sum_range_succ' (fun l =>
    (x l - angularEdge (m + 2) x l) * f l), hlast, hfirst, h1, h0]
  simp only [sub_self, zero_mul, add_zero]
  rw [← Finset.sum_add_distrib]
  refine Finset.sum_congr rfl fun k hk => ?_
  rw [hmid k (Finset.mem_range.1 hk)]
  ring

/-- The trapezoidal rule overestimates the mean of the square. -/
theorem cells_square {m : ℕ} {x : ℕ → ℝ} (h0 : x 0 = -1) (h1 : x (m + 1) = 1)
    (hx : ∀ k < m + 1, x k < x (k + 1)) :
    2 / 3 + 4 / (3 * ((m : ℝ) + 1) ^ 2) ≤
      ∑ l ∈ Finset.range (m + 2), angularWidth (m + 2) x l * x l ^ 2 := by
  rw [cells_trapezoidal h0 h1]
  have hm : (0 : ℝ) < (m : ℝ) + 1 := by positivity
  set c : ℝ := 2 / ((m : ℝ) + 1) with hc
  have hc0 : 0 < c := by positivity
  have hterm : ∀ k ∈ Finset.range (m + 1),
      ((x (k + 1) ^ 3 / 3 + c ^ 2 / 2 * x (k + 1)) - (x k ^ 3 / 3 + c ^ 2 / 2 * x k)) - c ^ 3 / 3 ≤
        (x (k + 1) - x k) * (x k ^ 2 + x (k + 1) ^ 2) / 2 := by
    intro k hk
    have h2 := hx k (Finset.mem_range.1 hk)
    have h3 : 0 ≤ (x (k + 1) - x k - c) ^ 2 * (x (k + 1) - x k + 2 * c) :=
      mul_nonneg (sq_nonneg _) (by linarith)
    nlinarith
  refine le_trans ?_ (Finset.sum_le_sum hterm)
  rw [Finset.sum_sub_distrib, Finset.sum_range_sub (fun k => x k ^ 3 / 3 + c ^ 2 / 2 * x k), h0, h1,
    Finset.sum_const, Finset.card_range, nsmul_eq_mul]
  apply le_of_eq
  rw [hc]
  push_cast
  field_simp
  ring

theorem cells_one {m : ℕ} (x : ℕ → ℝ) :
    ∑ l ∈ Finset.range (m + 2), angularWidth (m + 2) x l = 2 := c15_widths_sum (m + 2) (by omega) x

/-- Gauss-Lobatto weights are never proportional to the angular cells of `finite_diff_uneven`; by
`c16_conserves_iff_partial` redistribution in angle then does not conserve the counted particles. -/
theorem c114_not_cells_partial {leg : ℕ → ℕ → ℝ} (hl : GaussPoints leg) {n : ℕ} (hn : 3 ≤ n)
    (hn' : n ≤ 40) {xs ws : ℕ → ℝ} (h : LobattoQuadrature leg n xs ws)
    (hb : InBrackets leg n xs) : ¬ ∃ α, ∀ l < n, ws l = α * angularWidth n xs l := by
  rintro ⟨α, hα⟩
  obtain ⟨hdir, hx0, hx1, -, hrule⟩ := c114_rule_partial hl hn (by omega) h hb
  obtain ⟨m, rfl⟩ : ∃ m, n = m + 3 := ⟨n - 3, by omega⟩
  have hI0 : ∫ x in (-1 : ℝ)..1, (1 : ℝ[X]).eval x = 2 := by simp; norm_num
  have hI2 : ∫ x in (-1 : ℝ)..1, (X ^ 2 : ℝ[X]).eval x = 2 / 3 := by
    simp only [eval_pow, eval_X, integral_pow]; norm_num
  have e0 := hrule 1 (by simp) 1 0 (fun y _ => by simp) (fun y _ => by simp)
  have e2 := hrule (X ^ 2) (by rw [natDegree_X_pow]; omega) 1 2
    (fun y hy => by
      rw [eval_pow, eval_X, abs_of_nonneg (sq_nonneg _)]
      nlinarith [hy.1, hy.2])
    (fun y hy => by
      rw [derivative_X_pow]
      simp only [eval_mul, eval_X, eval_pow, Nat.cast_ofNat, eval_C, abs_mul]
      norm_num
      exact abs_le.2 ⟨by linarith [hy.1], hy.2⟩)
  rw [hI0] at e0
  rw [hI2] at e2
  simp only [eval_one, mul_one, eval_pow, eval_X] at e0 e2
  have s0 : ∑ i ∈ Finset.range (m + 3), ws i = 2 * α := by
    rw [Finset.sum_congr rfl fun i hi => hα i (Finset.mem_range.1 hi), ← Finset.mul_sum,
      cells_one (m := m + 1)]
    ring
  have s2 : ∑ i ∈ Finset.range (m + 3), ws i * xs i ^ 2 =
      α * ∑ i ∈ Finset.range (m + 3), angularWidth (m + 3) xs i * xs i ^ 2 := by
    rw [Finset.mul_sum]
    exact Finset.sum_congr rfl fun i hi => by rw [hα i (Finset.mem_range.1 hi), mul_assoc]
  have hq := cells_square (m := m + 1) hx0 hx1 fun k hk => hdir.mono k (by omega)
  rw [s0] at e0
  rw [s2] at e2
  set S := ∑ i ∈ Finset.range (m + 3), angularWidth (m + 3) xs i * xs i ^ 2 with hS
  have hm37 : (m : ℝ) ≤ 37 := by exact_mod_cast (by omega : m ≤ 37)
  have hm0 : (0 : ℝ) ≤ m := Nat.cast_nonneg m
  push_cast at e0 e2 hq
  have hK2 : (((m : ℝ) + 3) * ((m : ℝ) + 3 - 1)) ^ 2 ≤ 1560 ^ 2 :=
    pow_le_pow_left₀ (by nlinarith) (by nlinarith) 2
  have hE : 4 * ((m : ℝ) + 3) * (((m : ℝ) + 3) * ((m : ℝ) + 3 - 1)) ^ 2 ≤ 160 * 1560 ^ 2 :=
    mul_le_mul (by linarith) hK2 (sq_nonneg _) (by norm_num)
  have hE0 : 0 ≤ 4 * ((m : ℝ) + 3) * (((m : ℝ) + 3) * ((m : ℝ) + 3 - 1)) ^ 2 := by positivity
  have hδ : ((m : ℝ) + 3 - 1) * (1 / 10 ^ 14) ≤ 39 / 10 ^ 14 := by
    norm_num; linarith
  have hδ0 : 0 ≤ ((m : ℝ) + 3 - 1) * (1 / 10 ^ 14) := mul_nonneg (by linarith) (by norm_num)
  have b0 : |2 * α - 2| ≤ 1 / 6000 := by
    refine e0.trans ((mul_le_mul (by linarith : _ ≤ (160 : ℝ) * 1560 ^ 2) hδ hδ0
      (by norm_num)).trans (by norm_num))
  have b2 : |α * S - 2 / 3| ≤ 1 / 6000 := by
    refine e2.trans ((mul_le_mul (by linarith : _ ≤ (160 : ℝ) * 1560 ^ 2 + 4) hδ hδ0
      (by norm_num)).trans (by norm_num))
  have hg : (1 : ℝ) / 1200 ≤ 4 / (3 * ((m : ℝ) + 1 + 1) ^ 2) := by
    rw [div_le_div_iff₀ (by norm_num) (by positivity)]
    nlinarith
  have hS1 : 2 / 3 + 1 / 1200 ≤ S := le_trans (by linarith) hq
  have ha := (abs_le.1 b0).1
  have hb2 := (abs_le.1 b2).2
  have : (1 - 1 / 12000) * (2 / 3 + 1 / 1200) ≤ α * S :=
    mul_le_mul (by linarith) hS1 (by norm_num) (by linarith)
  norm_num at this hb2
  linarith

/-! ### Four points -/

/-- Newton's method ends where every step brings the iterate closer to a point by a fixed factor. -/
theorem newtons_ends {f f' : ℝ → ℝ} {tol q r : ℝ} {S : Set ℝ} (ht : 0 < tol) (hq0 : 0 ≤ q)
    (hq : q < 1) (hS : ∀ x ∈ S, f' x ≠ 0 ∧ newtonIterate f f' x ∈ S ∧
      |newtonIterate f f' x - r| ≤ q * |x - r|) {x : ℝ} (hx : x ∈ S) :
    ∃ y ∈ S, Newtons f f' tol x y := by
  have key : ∀ k : ℕ, ∀ x ∈ S, q ^ k * (2 * |x - r|) ≤ tol → ∃ y ∈ S, Newtons f f' tol x y := by
    intro k
    induction k with
    | zero =>
      intro x hx hk
      obtain ⟨h0, h1, h2⟩ := hS x hx
      refine ⟨_, h1, Newtons.stop h0 ?_⟩
      have h3 : |newtonIterate f f' x - x| ≤ |newtonIterate f f' x - r| + |r - x| := abs_sub_le _ _ _
      rw [abs_sub_comm r x] at h3
      rw [pow_zero, one_mul] at hk
      have : q * |x - r| ≤ 1 * |x - r| := mul_le_mul_of_nonneg_right hq.le (abs_nonneg _)
      linarith
    | succ k ih =>
      intro x hx hk
      obtain ⟨h0, h1, h2⟩ := hS x hx
      by_cases h : |newtonIterate f f' x - x| ≤ tol
      · exact ⟨_, h1, Newtons.stop h0 h⟩
      · obtain ⟨y, hy, h3⟩ := ih _ h1 (by
          refine le_trans ?_ hk
          rw [pow_succ, mul_assoc]
          refine mul_le_mul_of_nonneg_left ?_ (pow_nonneg hq0 _)
          linarith)
        exact ⟨y, hy, Newtons.step h0 h h3⟩
  obtain ⟨k, hk⟩ := exists_pow_lt_of_lt_one (show 0 < tol / (2 * |x - r| + 1) by positivity) hq
  refine key k x hx ?_
  rw [lt_div_iff₀ (by positivity)] at hk
  have : 0 ≤ q ^ k := pow_nonneg hq0 _
  nlinarith

theorem legendre_three (x : ℝ) : (legendre 3).eval x = (5 * x ^ 3 - 3 * x) / 2 ∧
    (derivative (legendre 3)).eval x = (15 * x ^ 2 - 3) / 2 ∧
    (derivative (derivative (legendre 3))).eval x = 15 * x := by
  refine ⟨?_, ?_, ?_⟩ <;> simp [legendre, derivative_mul] <;> ring

/-- The step of the search with four points, on an interval that it does not leave. -/
theorem four_step {x : ℝ} (hx : x ∈ Set.Icc (3 / 8 : ℝ) (1 / 2)) :
    ¬ x ^ 2 = 1 ∧ legDeriv2 3 x ≠ 0 ∧ x - legDeriv 3 x / legDeriv2 3 x ∈ Set.Icc (3 / 8 : ℝ) (1 / 2) ∧
      |x - legDeriv 3 x / legDeriv2 3 x - √(1 / 5)| ≤ 1 / 2 * |x - √(1 / 5)| := by
  obtain ⟨h0, h1⟩ := hx
  have hx0 : (0 : ℝ) < x := by linarith
  have hne : ¬ x ^ 2 = 1 := by nlinarith
  rw [(c114_derivatives hne 2).1, (c114_derivatives hne 1).2, (legendre_three x).2.1,
    (legendre_three x).2.2]
  have e : x - (15 * x ^ 2 - 3) / 2 / (15 * x) = (5 * x ^ 2 + 1) / (10 * x) := by
    field_simp; ring
  set s := √(1 / 5) with hs
  have hs2 : s ^ 2 = 1 / 5 := Real.sq_sqrt (by norm_num)
  have hs0 : 0 ≤ s := Real.sqrt_nonneg _
  have hs1 : s ≤ 1 / 2 := by nlinarith
  have hs3 : 3 / 8 ≤ s := by nlinarith
  refine ⟨hne, by positivity, ?_, ?_⟩
  · rw [e]
    constructor
    · rw [le_div_iff₀ (by positivity)]; nlinarith [sq_nonneg (x - s)]
    · rw [div_le_iff₀ (by positivity)]; nlinarith
  · have e2 : x - (15 * x ^ 2 - 3) / 2 / (15 * x) - s = (x - s) ^ 2 / (2 * x) := by
      rw [e]
      have : (10 * x * s : ℝ) = 10 * x * s := rfl
      field_simp
      nlinarith
    rw [e2, abs_div, abs_of_pos (by positivity : (0 : ℝ) < 2 * x), abs_pow, sq]
    rw [div_le_iff₀ (by positivity)]
    have h2 : |x - s| ≤ 1 / 8 := abs_le.2 ⟨by linarith, by linarith⟩
    nlinarith [abs_nonneg (x - s)]

theorem gauss_three {leg : ℕ → ℕ → ℝ} (hl : GaussPoints leg) :
    leg 3 0 = -√(3 / 5) ∧ leg 3 1 = 0 ∧ leg 3 2 = √(3 / 5) := by
  have hs : √(3 / 5) ^ 2 = 3 / 5 := Real.sq_sqrt (by norm_num)
  have hs0 : (0 : ℝ) < √(3 / 5) := Real.sqrt_pos.2 (by norm_num)
  set s := √(3 / 5)
  have h : RootList (legendre 3) 3 fun i => if i = 0 then -s else if i = 1 then 0 else s := by
    refine ⟨fun i hi => ?_, fun i hi => ?_⟩
    · rw [(legendre_three _).1]
      have : i = 0 ∨ i = 1 ∨ i = 2 := by omega
      rcases this with rfl | rfl | rfl
      · simp only [if_pos]
        have : s ^ 3 = 3 / 5 * s := by rw [← hs]; ring
        rw [neg_pow, this]; ring
      · simp
      · simp only [OfNat.ofNat_ne_zero, if_false, OfNat.ofNat_ne_one]
        have : s ^ 3 = 3 / 5 * s := by rw [← hs]; ring
        rw [this]; ring
    · have : i = 0 ∨ i = 1 := by omega
      rcases this with rfl | rfl
      · simpa using hs0
      · simpa using hs0
  have hu := (hl 3 (by omega)).unique h (legendre_natDegree_eq _)
    (fun e => (legendre_coeff 3).ne' (by rw [e, coeff_zero]))
  exact ⟨by simpa using hu 0 (by omega), by simpa using hu 1 (by omega),
    by simpa using hu 2 (by omega)⟩

/-- C114: with four points the routine ends, and its points satisfy what the theorems above ask. -/
theorem c114_four {leg : ℕ → ℕ → ℝ} (hl : GaussPoints leg) :
    (∃ xs ws, LobattoQuadrature leg 4 xs ws) ∧
      ∀ xs ws, LobattoQuadrature leg 4 xs ws → InBrackets leg 4 xs := by
  obtain ⟨g0, g1, g2⟩ := gauss_three hl
  have hs : √(3 / 5) ^ 2 = 3 / 5 := Real.sq_sqrt (by norm_num)
  have hs0 : (0 : ℝ) < √(3 / 5) := Real.sqrt_pos.2 (by norm_num)
  set s := √(3 / 5)
  have hs1 : 3 / 4 ≤ s := by nlinarith
  have hs2 : s ≤ 1 := by nlinarith
  have e1 : lobattoSeed leg 4 1 = s / 2 := by
    show (leg 3 1 + leg 3 2) * 0.5 = _
    rw [g1, g2]; norm_num; ring
  have e0 : lobattoSeed leg 4 0 = -(s / 2) := by
    show (leg 3 0 + leg 3 1) * 0.5 = _
    rw [g0, g1]; norm_num; ring
  have hmem : s / 2 ∈ Set.Icc (3 / 8 : ℝ) (1 / 2) := ⟨by linarith, by linarith⟩
  have hend : ∃ y ∈ Set.Icc (3 / 8 : ℝ) (1 / 2), LobattoRoot 3 (s / 2) y := by
    unfold LobattoRoot
    refine newtons_ends (q := 1 / 2) (r := √(1 / 5)) (by norm_num) (by norm_num) (by norm_num)
      (fun x hx => ?_) hmem
    obtain ⟨a, b, c, d⟩ := four_step hx
    unfold newtonIterate
    simp only [if_neg a]
    exact ⟨b, c, d⟩
  obtain ⟨y, hy, hr⟩ := hend
  constructor
  · set xs : ℕ → ℝ := fun i => if i = 0 then -1 else if i = 1 then -y else if i = 2 then y else 1
      with hxs
    refine ⟨xs, fun i => lobattoWeight 4 xs i, by omega, fun i hi => ?_, fun _ => by simp [hxs],
      by simp [hxs], fun i _ => rfl⟩
    have : i = 0 ∨ i = 1 := by omega
    rcases this with rfl | rfl
    · rw [e0]
      have : xs (0 + 1) = -y := by simp [hxs]
      rw [this]
      exact lobattoRoot_neg (n := 1) hr
    · rw [e1]
      have : xs (1 + 1) = y := by simp [hxs]
      rw [this]
      exact hr
  · intro xs ws h i hi
    rw [show 4 - 1 = 3 from rfl]
    have : i = 0 ∨ i = 1 := by omega
    rcases this with rfl | rfl
    · have a := h.inner 0 (by omega)
      rw [e0] at a
      rw [c35_newtons_deterministic a (lobattoRoot_neg (n := 1) hr)]
      show leg 3 0 < -y ∧ -y < leg 3 1
      rw [g0, g1]
      exact ⟨by linarith [hy.2], by linarith [hy.1]⟩
    · have a := h.inner 1 (by omega)
      rw [e1] at a
      rw [c35_newtons_deterministic a hr]
      show leg 3 1 < y ∧ y < leg 3 2
      rw [g1, g2]
      exact ⟨by linarith [hy.1], by linarith [hy.2]⟩

/-! ### Examples -/

/-- With four points `x⁴` is integrated to nine digits. -/
example : ∃ leg xs ws, GaussPoints leg ∧ LobattoQuadrature leg 4 xs ws ∧ SymmetricSet 4 xs ws ∧
    |∑ i ∈ Finset.range 4, ws i * xs i ^ 4 - 2 / 5| ≤ 1 / 10 ^ 9 ∧
    ¬ ∃ α, ∀ l < 4, ws l = α * angularWidth 4 xs l := by
  obtain ⟨leg, hl⟩ := gaussPoints_exists
  obtain ⟨⟨xs, ws, h⟩, hb⟩ := c114_four hl
  refine ⟨leg, xs, ws, hl, h, c114_symmetric hl (by omega) h, ?_,
    c114_not_cells_partial hl (by omega) (by omega) h (hb xs ws h)⟩
  have := (c114_rule_partial hl (by omega) (by omega) h (hb xs ws h)).2.2.2.2 (X ^ 4)
    (by rw [natDegree_X_pow]; omega) 1 4
    (fun y hy => by
      rw [eval_pow, eval_X, abs_pow]
      exact pow_le_one₀ (abs_nonneg _) (abs_le.2 hy))
    (fun y hy => by
      rw [derivative_X_pow]
      simp only [eval_mul, eval_X, eval_pow, eval_C, abs_mul, abs_pow]
      norm_num
      exact pow_le_one₀ (abs_nonneg _) (abs_le.2 hy))
  simp only [eval_pow, eval_X, integral_pow] at this
  norm_num at this ⊢
  refine le_trans this (by norm_num)

/-- Three points integrate the cube and the square exactly. -/
example (leg : ℕ → ℕ → ℝ) (hl : GaussPoints leg) (xs ws : ℕ → ℝ)
    (h : LobattoQuadrature leg 3 xs ws) :
    ∑ i ∈ Finset.range 3, ws i * (X ^ 3 + X ^ 2 : ℝ[X]).eval (xs i) =
      ∫ x in (-1 : ℝ)..1, (X ^ 3 + X ^ 2 : ℝ[X]).eval x := by
  have h3 := (c114_three hl).1 h
  refine c114_exact hl le_rfl h (fun i hi => ?_) (fun i hi => ?_) _ ?_
  · have : i = 0 := by omega
    subst this
    have hsym := (hl 2 (by omega)).symm (legendre_natDegree_eq _)
      (fun e => (legendre_coeff 2).ne' (by rw [e, coeff_zero])) (legendre_eval_neg _) 0 (by omega)
    have hinc := (hl 2 (by omega)).inc 0 (by omega)
    rw [show 2 - 1 - 0 = 0 + 1 from rfl] at hsym
    rw [show 3 - 1 = 2 from rfl, zero_add, h3.1.2.1]
    rw [zero_add] at hsym hinc
    constructor <;> linarith
  · have : i = 0 := by omega
    subst this
    rw [zero_add, h3.1.2.1]
    simp [legendre, derivative_mul]
  · refine (natDegree_add_le _ _).trans ?_
    simp

/-- Two points. -/
example (leg : ℕ → ℕ → ℝ) (xs ws : ℕ → ℝ) (h : LobattoQuadrature leg 2 xs ws) :
    ∑ i ∈ Finset.range 2, ws i * (1 : ℝ[X]).eval (xs i) ≠ 2 := by
  rw [(c114_two_fails le_rfl h 1).2]; norm_num

end Verif.Props
