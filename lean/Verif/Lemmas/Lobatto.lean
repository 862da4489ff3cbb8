import Verif.Lemmas.Triple
import Mathlib.LinearAlgebra.Lagrange
import Mathlib.Analysis.Calculus.MeanValue
import Mathlib.Analysis.Calculus.LocalExtr.Rolle

/-! Roots of Legendre derivatives and the Gauss-Lobatto rule. -/

namespace Verif.Lemmas

open Polynomial Verif.Spec

theorem legendre_coeff (n : ℕ) : 0 < (legendre n).coeff n := by
  induction n using Nat.twoStepInduction with
  | zero => simp [legendre_zero]
  | one => simp [legendre_one]
  | more n _ h1 =>
    have hb := congrArg (fun p => p.coeff (n + 2)) (bonnet n)
    have h0 : (legendre n).coeff (n + 2) = 0 :=
      coeff_eq_zero_of_natDegree_lt (lt_of_le_of_lt (legendre_natDegree n) (by omega))
    simp only [coeff_C_mul, coeff_sub, mul_assoc, coeff_X_mul, h0, mul_zero, sub_zero] at hb
    have : 0 < ((n : ℝ) + 2) * (legendre (n + 2)).coeff (n + 2) := by rw [hb]; positivity
    exact (pos_iff_pos_of_mul_pos this).1 (by positivity)

theorem legendre_natDegree_eq (n : ℕ) : (legendre n).natDegree = n :=
  le_antisymm (legendre_natDegree n) (le_natDegree_of_ne_zero (legendre_coeff n).ne')

/-- A polynomial of degree at most `n` against the Legendre polynomial of order `n`. -/
theorem I_legendre_top {n : ℕ} (q : ℝ[X]) (hq : q.natDegree ≤ n) :
    I (legendre n * q) = q.coeff n / (legendre n).coeff n * (2 / (2 * (n : ℝ) + 1)) := by
  have ha := (legendre_coeff n).ne'
  set c := q.coeff n / (legendre n).coeff n with hc
  by_cases hn : n = 0
  · subst hn
    rw [eq_C_of_natDegree_le_zero hq] at hc ⊢
    simp only [legendre_zero] at hc ⊢
    simp at hc
    rw [← hc, mul_comm, I_C_mul]
    have := I_sq 0
    rw [legendre_zero, mul_one] at this
    rw [this]
  · have hlow : (q - C c * legendre n).natDegree < n := by
      have h1 : (q - C c * legendre n).natDegree ≤ n :=
        (natDegree_sub_le _ _).trans (max_le hq ((natDegree_C_mul_le _ _).trans
          (legendre_natDegree n)))
      refine lt_of_le_of_ne h1 fun h => ?_
      have h2 : (q - C c * legendre n).coeff n = 0 := by
        rw [coeff_sub, coeff_C_mul, hc, div_mul_cancel₀ _ ha, sub_self]
      have h3 : (q - C c * legendre n).leadingCoeff = 0 := by rw [leadingCoeff, h, h2]
      rw [leadingCoeff_eq_zero.1 h3, natDegree_zero] at h
      exact hn h.symm
    have h4 := I_legendre_lower _ hlow
    have h5 : legendre n * q = legendre n * (q - C c * legendre n) +
        C c * (legendre n * legendre n) := by ring
    rw [h5, I_add, h4, I_C_mul, I_sq, zero_add]

theorem antiderivative_exists (m : ℕ) (q : ℝ[X]) (hq : q.natDegree < m) :
    ∃ Q : ℝ[X], Q.natDegree ≤ m ∧ derivative Q = q := by
  refine ⟨∑ k ∈ Finset.range m, C (q.coeff k / ((k : ℝ) + 1)) * X ^ (k + 1), ?_, ?_⟩
  · refine natDegree_sum_le_of_forall_le _ _ fun k hk => ?_
    exact (natDegree_C_mul_X_pow_le _ _).trans (Finset.mem_range.1 hk)
  · rw [derivative_sum]
    conv_rhs => rw [q.as_sum_range_C_mul_X_pow' hq]
    refine Finset.sum_congr rfl fun k _ => ?_
    have : ((k : ℝ) + 1) ≠ 0 := by positivity
    rw [derivative_C_mul, derivative_X_pow, Nat.add_sub_cancel, ← mul_assoc]
    congr 1
    rw [← C_mul]
    congr 1
    push_cast
    field_simp

/-- `(1 - X²) Pₙ'` -/
noncomputable def lobattoPoly (n : ℕ) : ℝ[X] := (1 - X ^ 2) * derivative (legendre n)

theorem lobattoPoly_derivative (n : ℕ) :
    derivative (lobattoPoly n) = -(C ((n : ℝ) * (n + 1)) * legendre n) := legendre_ode n

theorem lobattoPoly_ends (n : ℕ) : (lobattoPoly n).eval 1 = 0 ∧ (lobattoPoly n).eval (-1) = 0 := by
  simp [lobattoPoly]

theorem I_lobatto_derivative (n : ℕ) (Q : ℝ[X]) :
    I (lobattoPoly n * derivative Q) = (n : ℝ) * (n + 1) * I (legendre n * Q) := by
  have h := I_derivative (lobattoPoly n * Q)
  rw [derivative_mul, lobattoPoly_derivative, I_add, eval_mul, eval_mul, (lobattoPoly_ends n).1,
    (lobattoPoly_ends n).2, zero_mul, zero_mul, sub_zero] at h
  have e : -(C ((n : ℝ) * (n + 1)) * legendre n) * Q =
      C (-((n : ℝ) * (n + 1))) * (legendre n * Q) := by
    rw [C_neg]; ring
  rw [e, I_C_mul] at h
  linarith

/-- `(1 - X²) Pₙ'` is orthogonal to polynomials of degree below `n - 1`. -/
theorem I_lobatto_lower {n : ℕ} (q : ℝ[X]) (hq : q.natDegree + 1 < n) :
    I (lobattoPoly n * q) = 0 := by
  obtain ⟨Q, h1, rfl⟩ := antiderivative_exists (n - 1) q (by omega)
  rw [I_lobatto_derivative, I_legendre_lower Q (by omega), mul_zero]

theorem lobattoPoly_natDegree {n : ℕ} (hn : 1 ≤ n) : (lobattoPoly n).natDegree ≤ n + 1 := by
  unfold lobattoPoly
  refine natDegree_mul_le.trans ?_
  have h1 : (1 - X ^ 2 : ℝ[X]).natDegree ≤ 2 := by
    refine (natDegree_sub_le _ _).trans (max_le (by simp) (by simp))
  have h2 := (natDegree_derivative_le (legendre n)).trans
    (Nat.sub_le_sub_right (legendre_natDegree n) 1)
  omega

theorem lobattoPoly_coeff {n : ℕ} (hn : 1 ≤ n) :
    (lobattoPoly n).coeff (n + 1) = -(n * (legendre n).coeff n) := by
  obtain ⟨m, rfl⟩ : ∃ m, n = m + 1 := ⟨n - 1, by omega⟩
  unfold lobattoPoly
  have e : (1 - X ^ 2) * derivative (legendre (m + 1)) =
      derivative (legendre (m + 1)) - derivative (legendre (m + 1)) * X ^ 2 := by ring
  rw [e, coeff_sub, coeff_mul_X_pow, coeff_derivative, coeff_derivative,
    coeff_eq_zero_of_natDegree_lt (lt_of_le_of_lt (legendre_natDegree (m + 1)) (by omega))]
  push_cast
  ring

/-- A root `x` splits off. -/
theorem root_quotient {p : ℝ[X]} {x : ℝ} (h : p.eval x = 0) :
    ∃ q, p = (X - C x) * q := by
  obtain ⟨q, hq⟩ := dvd_iff_isRoot.2 (show p.IsRoot x from h)
  exact ⟨q, hq⟩

theorem quotient_natDegree {p q : ℝ[X]} {x : ℝ} {m : ℕ} (h : p = (X - C x) * q)
    (hp : p.natDegree ≤ m + 1) : q.natDegree ≤ m ∧ q.coeff m = p.coeff (m + 1) := by
  have hd : q.natDegree ≤ m := by
    by_cases h0 : q = 0
    · simp [h0]
    · rw [h, natDegree_mul (X_sub_C_ne_zero x) h0, natDegree_X_sub_C] at hp
      omega
  refine ⟨hd, ?_⟩
  have h1 : q.coeff (m + 1) = 0 := coeff_eq_zero_of_natDegree_lt (by omega)
  rw [h, sub_mul, coeff_sub, coeff_X_mul, coeff_C_mul, h1, mul_zero, sub_zero]

/-- The integral of the quotient by a root of `(1 - X²) Pₙ'`. -/
theorem I_lobatto_quotient {n : ℕ} (hn : 1 ≤ n) {x : ℝ} {q : ℝ[X]}
    (h : lobattoPoly n = (X - C x) * q) : (legendre n).eval x * I q = -2 := by
  have ha := (legendre_coeff n).ne'
  have hn0 : (n : ℝ) ≠ 0 := by positivity
  have h2n : (2 * (n : ℝ) + 1) ≠ 0 := by positivity
  obtain ⟨d1, c1⟩ := quotient_natDegree h (lobattoPoly_natDegree hn)
  have e1 : I (legendre n * q) = -(n : ℝ) * (2 / (2 * (n : ℝ) + 1)) := by
    rw [I_legendre_top q d1, c1, lobattoPoly_coeff hn]
    field_simp
  obtain ⟨s, hs⟩ := root_quotient (p := legendre n - C ((legendre n).eval x)) (x := x) (by simp)
  obtain ⟨m, rfl⟩ : ∃ m, n = m + 1 := ⟨n - 1, by omega⟩
  have hpd : (legendre (m + 1) - C ((legendre (m + 1)).eval x)).natDegree ≤ m + 1 := by
    rw [natDegree_sub_C]; exact legendre_natDegree _
  obtain ⟨d2, c2⟩ := quotient_natDegree hs hpd
  have e2 : I (lobattoPoly (m + 1) * s) = 2 * ((m : ℝ) + 2) / (2 * ((m : ℝ) + 1) + 1) := by
    have hc : s.coeff m = (legendre (m + 1)).coeff (m + 1) := by
      rw [c2, coeff_sub, coeff_C, if_neg (by omega), sub_zero]
    obtain ⟨Q, h1, h2⟩ := antiderivative_exists (m + 1) s (by omega)
    have hQ : Q.coeff (m + 1) = (legendre (m + 1)).coeff (m + 1) / ((m : ℝ) + 1) := by
      have := congrArg (fun p => p.coeff m) h2
      simp only [coeff_derivative, hc] at this
      rw [eq_div_iff (by positivity)]
      exact this
    rw [← h2, I_lobatto_derivative, I_legendre_top Q h1, hQ]
    push_cast
    field_simp
    ring
  have e3 : legendre (m + 1) * q = lobattoPoly (m + 1) * s + C ((legendre (m + 1)).eval x) * q := by
    rw [h]
    have : legendre (m + 1) = (X - C x) * s + C ((legendre (m + 1)).eval x) := by rw [← hs]; ring
    linear_combination q * this
  rw [e3, I_add, I_C_mul, e2] at e1
  have : (legendre (m + 1)).eval x * I q =
      -((m : ℝ) + 1) * (2 / (2 * ((m : ℝ) + 1) + 1)) - 2 * ((m : ℝ) + 2) / (2 * ((m : ℝ) + 1) + 1) := by
    push_cast at e1
    linarith
  rw [this]
  have : (2 * ((m : ℝ) + 1) + 1) ≠ 0 := by positivity
  field_simp
  ring

theorem legendre_ne_zero_at {n : ℕ} (hn : 1 ≤ n) {x : ℝ} (h : (lobattoPoly n).eval x = 0) :
    (legendre n).eval x ≠ 0 := by
  obtain ⟨q, hq⟩ := root_quotient h
  intro h0
  have := I_lobatto_quotient hn hq
  rw [h0, zero_mul] at this
  norm_num at this

/-- The Gauss-Lobatto rule: at `n + 1` different roots of `(1 - X²) Pₙ'` with the weights
`2 / (n (n + 1) Pₙ²)` it is exact for polynomials of degree at most `2 n - 1`. -/
theorem lobatto_exact {n : ℕ} (hn : 1 ≤ n) {x : ℕ → ℝ}
    (hx : ∀ i ≤ n, (lobattoPoly n).eval (x i) = 0)
    (hinj : ∀ i ≤ n, ∀ j ≤ n, x i = x j → i = j) (p : ℝ[X]) (hp : p.natDegree < 2 * n) :
    ∑ i ∈ Finset.range (n + 1),
      2 / ((n : ℝ) * (n + 1)) / (legendre n).eval (x i) ^ 2 * p.eval (x i) = I p := by
  have hn0 : (n : ℝ) * (n + 1) ≠ 0 := by positivity
  have hlc : (lobattoPoly n).coeff (n + 1) ≠ 0 := by
    rw [lobattoPoly_coeff hn]
    have := legendre_coeff n
    have : (n : ℝ) ≠ 0 := by positivity
    simp [this, (legendre_coeff n).ne']
  have hW0 : lobattoPoly n ≠ 0 := fun h => hlc (by rw [h, coeff_zero])
  have hdeg : (lobattoPoly n).natDegree = n + 1 :=
    le_antisymm (lobattoPoly_natDegree hn) (le_natDegree_of_ne_zero hlc)
  -- division
  set W := lobattoPoly n with hW
  have hlc' : W.leadingCoeff ≠ 0 := leadingCoeff_ne_zero.2 hW0
  set q := C W.leadingCoeff⁻¹ * (p /ₘ (W * C W.leadingCoeff⁻¹)) with hq
  set r := p %ₘ (W * C W.leadingCoeff⁻¹) with hr
  have hmon : (W * C W.leadingCoeff⁻¹).Monic := monic_mul_leadingCoeff_inv hW0
  have hdm : (W * C W.leadingCoeff⁻¹).natDegree = n + 1 := by
    rw [natDegree_mul_leadingCoeff_inv _ hW0, hdeg]
  have hpqr : p = W * q + r := by
    have := modByMonic_add_div p (W * C W.leadingCoeff⁻¹)
    rw [← hr] at this
    rw [hq]
    linear_combination -this
  have hqd : q.natDegree + 1 < n ∨ q = 0 := by
    by_cases h0 : p /ₘ (W * C W.leadingCoeff⁻¹) = 0
    · right; rw [hq, h0, mul_zero]
    · left
      have h1 : q.natDegree ≤ (p /ₘ (W * C W.leadingCoeff⁻¹)).natDegree := natDegree_C_mul_le _ _
      have h2 := natDegree_divByMonic p hmon
      have h3 : n + 1 ≤ p.natDegree := by
        by_contra hlt
        apply h0
        rw [divByMonic_eq_zero_iff hmon]
        apply degree_lt_degree
        rw [hdm]
        omega
      omega
  have hIq : I (W * q) = 0 := by
    rcases hqd with h | h
    · exact I_lobatto_lower q h
    · rw [h, mul_zero, I_zero]
  have hrd : r.degree < (n + 1 : ℕ) := by
    have := degree_modByMonic_lt p hmon
    rwa [degree_eq_natDegree hmon.ne_zero, hdm] at this
  have hev : ∀ i ≤ n, p.eval (x i) = r.eval (x i) := by
    intro i hi
    rw [hpqr, eval_add, eval_mul, hx i hi, zero_mul, zero_add]
  -- interpolation
  choose! Q hQ using fun i (hi : i ≤ n) => root_quotient (hx i hi)
  have hQd : ∀ i ≤ n, (Q i).natDegree ≤ n := fun i hi =>
    (quotient_natDegree (hQ i hi) (lobattoPoly_natDegree hn)).1
  have hQ0 : ∀ i ≤ n, ∀ j ≤ n, j ≠ i → (Q i).eval (x j) = 0 := by
    intro i hi j hj hji
    have := congrArg (fun p => p.eval (x j)) (hQ i hi)
    simp only [hx j hj, eval_mul, eval_sub, eval_X, eval_C] at this
    rcases mul_eq_zero.1 this.symm with h | h
    · exact absurd (hinj j hj i hi (sub_eq_zero.1 h)) hji
    · exact h
  have hQ1 : ∀ i ≤ n, (Q i).eval (x i) = -((n : ℝ) * (n + 1)) * (legendre n).eval (x i) := by
    intro i hi
    have := congrArg (fun p => (derivative p).eval (x i)) (hQ i hi)
    simp only [derivative_mul, derivative_sub, derivative_X, derivative_C, sub_zero, one_mul,
      eval_add, eval_mul, eval_sub, eval_X, eval_C, sub_self, zero_mul, add_zero] at this
    rw [← this, hW, lobattoPoly_derivative]
    simp
  have hL : ∀ i ≤ n, (legendre n).eval (x i) ≠ 0 := fun i hi => legendre_ne_zero_at hn (hx i hi)
  have hint : r = ∑ i ∈ Finset.range (n + 1),
      C (r.eval (x i) / (-((n : ℝ) * (n + 1)) * (legendre n).eval (x i))) * Q i := by
    have hcard : ((Finset.range (n + 1)).image x).card = n + 1 := by
      rw [Finset.card_image_of_injOn, Finset.card_range]
      intro i hi j hj hij
      have hi : i < n + 1 := by simpa using hi
      have hj : j < n + 1 := by simpa using hj
      exact hinj i (by omega) j (by omega) hij
    have hsd : (∑ i ∈ Finset.range (n + 1),
        C (r.eval (x i) / (-((n : ℝ) * (n + 1)) * (legendre n).eval (x i))) * Q i).degree <
          (n + 1 : ℕ) := by
      refine lt_of_le_of_lt (degree_le_of_natDegree_le (n := n)
        (natDegree_sum_le_of_forall_le _ _ fun i hi => (natDegree_C_mul_le _ _).trans
          (hQd i (by have := Finset.mem_range.1 hi; omega)))) ?_
      exact_mod_cast Nat.lt_succ_self n
    refine Polynomial.eq_of_degrees_lt_of_eval_finset_eq ((Finset.range (n + 1)).image x)
      (by rw [hcard]; exact hrd) (by rw [hcard]; exact hsd) ?_
    intro y hy
    obtain ⟨j, hj, rfl⟩ := Finset.mem_image.1 hy
    have hj' : j ≤ n := by have := Finset.mem_range.1 hj; omega
    rw [eval_finsetSum, Finset.sum_eq_single_of_mem j hj]
    · rw [eval_mul, eval_C, hQ1 j hj', div_mul_cancel₀]
      exact mul_ne_zero (neg_ne_zero.2 hn0) (hL j hj')
    · intro i hi hij
      rw [eval_mul, hQ0 i (by have := Finset.mem_range.1 hi; omega) j hj' (Ne.symm hij), mul_zero]
  rw [hpqr, I_add, hIq, zero_add, ← hpqr]
  conv_rhs => rw [hint]
  rw [I_finset_sum]
  refine Finset.sum_congr rfl fun i hi => ?_
  have hi : i ≤ n := by have := Finset.mem_range.1 hi; omega
  have h2 := I_lobatto_quotient hn (hQ i hi)
  have h3 := hL i hi
  have h4 : I (Q i) = -2 / (legendre n).eval (x i) := by
    rw [eq_div_iff h3, mul_comm]; exact h2
  rw [I_C_mul, hev i hi, h4]
  field_simp

end Verif.Lemmas
