import Verif.Lemmas.SphereProjection
import Verif.Lemmas.Approximation
import Mathlib.Analysis.ODE.Gronwall

/-! Helper facts: how well projections in the volume weight approximate smooth functions. -/

namespace Verif.Lemmas

open Polynomial Verif.Spec Verif.Model MeasureTheory Set

/-- Pythagoras in the volume weight. -/
theorem sphere_pythagoras {M : ℕ} {f : ℝ → ℝ} (hf : Continuous f) {a b : ℝ} (h : a < b)
    {P : ℕ → ℝ} (hP : IsSphereProjection M f a b P) (V : ℕ → ℝ) :
    ∫ r in a..b, r ^ 2 * (sphereField M V a b r - f r) ^ 2 =
      (∫ r in a..b, r ^ 2 * sphereField M (fun i => V i - P i) a b r ^ 2)
        + ∫ r in a..b, r ^ 2 * (sphereField M P a b r - f r) ^ 2 := by
  have h1 := projection_orthogonal hf h hP fun i => V i - P i
  have hV := continuous_sphereField M V h
  have hPc := continuous_sphereField M P h
  have hD := continuous_sphereField M (fun i => V i - P i) h
  have e : ∀ r, sphereField M V a b r =
      sphereField M (fun i => V i - P i) a b r + sphereField M P a b r := by
    intro r
    unfold sphereField
    rw [← Finset.sum_add_distrib]
    exact Finset.sum_congr rfl fun i _ => by ring
  have e2 : ∀ r, r ^ 2 * (sphereField M V a b r - f r) ^ 2 =
      r ^ 2 * sphereField M (fun i => V i - P i) a b r ^ 2
        + r ^ 2 * (sphereField M P a b r - f r) ^ 2
        - 2 * (r ^ 2 * ((f r - sphereField M P a b r) *
          sphereField M (fun i => V i - P i) a b r)) := by
    intro r; rw [e r]; ring
  simp_rw [e2]
  rw [intervalIntegral.integral_sub, intervalIntegral.integral_add,
    intervalIntegral.integral_const_mul, h1]
  · ring
  all_goals exact Continuous.intervalIntegrable (by fun_prop) _ _

theorem natDegree_chebPoly (M : ℕ) (U : ℕ → ℝ) (w : ℝ) : (chebPoly M U w).natDegree ≤ M := by
  unfold chebPoly
  refine natDegree_sum_le_of_forall_le _ _ fun j hj => ?_
  have hj : j ≤ M := by simpa [Nat.lt_succ_iff] using hj
  refine (natDegree_C_mul_le _ _).trans ?_
  rw [Chebyshev.natDegree_T]
  simpa using hj

theorem natDegree_refPoly (M : ℕ) (U : ℕ → ℝ) (w : ℝ) : (refPoly M U w).natDegree ≤ M := by
  unfold refPoly
  refine natDegree_sum_le_of_forall_le _ _ fun j hj => ?_
  have hj : j ≤ M := by simpa [Nat.lt_succ_iff] using hj
  exact (natDegree_C_mul_le _ _).trans ((natDegree_legendre_le j).trans hj)

/-- A smooth function is close to a radial field of order `M`. -/
theorem exists_close_sphere_field (M : ℕ) {f : ℝ → ℝ} {a b B : ℝ} (h : a < b)
    (hf : ContDiffOn ℝ (M + 1) f (Icc a b))
    (hB : ∀ y ∈ Icc a b, |iteratedDerivWithin (M + 1) f (Icc a b) y| ≤ B) :
    ∃ U : ℕ → ℝ, ∀ x ∈ Icc a b,
      |sphereField M U a b x - f x| ≤ B * (b - a) ^ (M + 1) / (M.factorial : ℝ) := by
  obtain ⟨W, hW⟩ := exists_close_field M h hf hB
  obtain ⟨U, hU⟩ := exists_sphere_field (natDegree_refPoly M W (b - a)) h
  refine ⟨U, fun x hx => ?_⟩
  rw [hU x, ← slabField_eq_refPoly]
  exact hW x hx

/-- On `[-1, 1]` a polynomial is bounded by its mean square over `[0, 1]`. -/
theorem poly_sup_le (M : ℕ) : ∃ K : ℝ, 0 ≤ K ∧ ∀ q : ℝ[X], q.natDegree ≤ M →
    ∀ x ∈ Icc (-1 : ℝ) 1, q.eval x ^ 2 ≤ K * ∫ ξ in (0 : ℝ)..1, q.eval ξ ^ 2 := by
  have hcont : Continuous fun x : ℝ => ∑ i ∈ Finset.range (M + 1), slabBasis i x 0 1 ^ 2 :=
    continuous_finsetSum _ fun i _ => (continuous_slabBasis i 0 1).pow 2
  obtain ⟨z, -, hz⟩ := isCompact_Icc.exists_isMaxOn (nonempty_Icc.2 (by norm_num : (-1 : ℝ) ≤ 1))
    hcont.continuousOn
  refine ⟨∑ i ∈ Finset.range (M + 1), slabBasis i z 0 1 ^ 2,
    Finset.sum_nonneg fun _ _ => sq_nonneg _, fun q hq x hx => ?_⟩
  set p : ℝ[X] := q.comp (C (1 / 2) * X + C (1 / 2)) with hp
  have hdeg : p.natDegree ≤ M := by
    rw [hp]
    refine natDegree_comp_le.trans ?_
    have h1 : (C (1 / 2) * X + C (1 / 2) : ℝ[X]).natDegree ≤ 1 := natDegree_linear_le
    calc q.natDegree * _ ≤ q.natDegree * 1 := Nat.mul_le_mul_left _ h1
      _ ≤ M := by omega
  obtain ⟨U, hU⟩ := exists_field hdeg (zero_lt_one (α := ℝ))
  have hUq : ∀ y, slabField M U 0 1 y = q.eval y := by
    intro y
    rw [hU y, hp, eval_comp]
    congr 1
    simp only [eval_add, eval_mul, eval_C, eval_X, ref]
    ring
  have h2 := integral_slabField_sq M U (zero_lt_one (α := ℝ))
  simp_rw [hUq] at h2
  rw [h2, ← hUq x]
  have hcs := Finset.sum_mul_sq_le_sq_mul_sq (Finset.range (M + 1)) U fun i => slabBasis i x 0 1
  refine hcs.trans ?_
  rw [mul_comm]
  exact mul_le_mul_of_nonneg_right (hz hx) (Finset.sum_nonneg fun _ _ => sq_nonneg _)

/-- On a shell the projection is at most a constant worse than the best field. -/
theorem sphere_projection_sup (M : ℕ) : ∃ K : ℝ, 1 ≤ K ∧ ∀ (f : ℝ → ℝ), Continuous f →
    ∀ (a b ε : ℝ), 0 ≤ a → a < b → ∀ P : ℕ → ℝ, IsSphereProjection M f a b P → ∀ U : ℕ → ℝ,
    (∀ x ∈ Icc a b, |sphereField M U a b x - f x| ≤ ε) →
    ∀ x ∈ Icc a b, |sphereField M P a b x - f x| ≤ K * ε := by
  obtain ⟨K, hK, hsup⟩ := poly_sup_le M
  refine ⟨1 + Real.sqrt (8 * K), by linarith [Real.sqrt_nonneg (8 * K)], ?_⟩
  intro f hf a b ε ha h P hP U hU x hx
  have hε : 0 ≤ ε := (abs_nonneg _).trans (hU a ⟨le_rfl, h.le⟩)
  have hb : 0 < b := ha.trans_lt h
  have hba : 0 < b - a := by linarith
  set E : ℕ → ℝ := fun i => U i - P i with hE
  set q := chebPoly M E (b - a) with hq
  have hUc := continuous_sphereField M U h
  have hEc := continuous_sphereField M E h
  have h1 : ∫ r in a..b, r ^ 2 * sphereField M E a b r ^ 2 ≤ ε ^ 2 * b ^ 2 * (b - a) := by
    have h2 := sphere_pythagoras hf h hP U
    have h3 : 0 ≤ ∫ r in a..b, r ^ 2 * (sphereField M P a b r - f r) ^ 2 :=
      intervalIntegral.integral_nonneg h.le fun _ _ => mul_nonneg (sq_nonneg _) (sq_nonneg _)
    have h4 : ∫ r in a..b, r ^ 2 * (sphereField M U a b r - f r) ^ 2 ≤
        ∫ _ in a..b, b ^ 2 * ε ^ 2 := by
      refine intervalIntegral.integral_mono_on h.le
        (Continuous.intervalIntegrable (by fun_prop) _ _)
        (continuous_const.intervalIntegrable _ _) fun y hy => ?_
      refine mul_le_mul (pow_le_pow_left₀ (ha.trans hy.1) hy.2 2) ?_ (sq_nonneg _) (sq_nonneg _)
      rw [← sq_abs]
      exact pow_le_pow_left₀ (abs_nonneg _) (hU y hy) 2
    rw [intervalIntegral.integral_const, smul_eq_mul] at h4
    nlinarith
  have h5 : (b - a) / 2 * ((b / 2) ^ 2 * ∫ ξ in (0 : ℝ)..1, q.eval ξ ^ 2) ≤
      ∫ r in a..b, r ^ 2 * sphereField M E a b r ^ 2 := by
    rw [integral_cell h]
    refine mul_le_mul_of_nonneg_left ?_ (by linarith)
    have hc : Continuous fun ξ => cellPoint a b ξ ^ 2 * sphereField M E a b (cellPoint a b ξ) ^ 2 := by
      have : Continuous fun ξ => cellPoint a b ξ := by unfold cellPoint; fun_prop
      exact (this.pow 2).mul ((hEc.comp this).pow 2)
    rw [← intervalIntegral.integral_add_adjacent_intervals (a := (-1 : ℝ)) (b := 0) (c := 1)
      (hc.intervalIntegrable _ _) (hc.intervalIntegrable _ _)]
    have h6 : 0 ≤ ∫ ξ in (-1 : ℝ)..0,
        cellPoint a b ξ ^ 2 * sphereField M E a b (cellPoint a b ξ) ^ 2 :=
      intervalIntegral.integral_nonneg (by norm_num) fun _ _ => mul_nonneg (sq_nonneg _) (sq_nonneg _)
    have h7 : (b / 2) ^ 2 * ∫ ξ in (0 : ℝ)..1, q.eval ξ ^ 2 ≤
        ∫ ξ in (0 : ℝ)..1, cellPoint a b ξ ^ 2 * sphereField M E a b (cellPoint a b ξ) ^ 2 := by
      rw [← intervalIntegral.integral_const_mul]
      have hqc := q.continuous
      refine intervalIntegral.integral_mono_on zero_le_one
        (Continuous.intervalIntegrable (by fun_prop) _ _) (hc.intervalIntegrable _ _) fun ξ hξ => ?_
      rw [sphereField_eq_chebPoly, ref_cellPoint h]
      refine mul_le_mul_of_nonneg_right (pow_le_pow_left₀ (by linarith) ?_ 2) (sq_nonneg _)
      unfold cellPoint
      nlinarith [mul_nonneg hba.le hξ.1]
    linarith
  have h8 : ∫ ξ in (0 : ℝ)..1, q.eval ξ ^ 2 ≤ 8 * ε ^ 2 := by
    have h9 := h5.trans h1
    have h10 : 0 < (b - a) * b ^ 2 := by positivity
    by_contra hcon
    push Not at hcon
    nlinarith [mul_lt_mul_of_pos_left hcon h10]
  have hz : ref x a b ∈ Icc (-1 : ℝ) 1 := by
    unfold ref
    constructor
    · rw [le_div_iff₀ hba]; linarith [hx.1]
    · rw [div_le_iff₀ hba]; linarith [hx.2]
  have h11 : sphereField M E a b x ^ 2 ≤ (Real.sqrt (8 * K) * ε) ^ 2 := by
    rw [sphereField_eq_chebPoly, mul_pow, Real.sq_sqrt (by linarith)]
    refine (hsup q (natDegree_chebPoly _ _ _) _ hz).trans ?_
    have := mul_le_mul_of_nonneg_left h8 hK
    linarith
  have h12 := abs_le_of_sq_le_sq h11 (mul_nonneg (Real.sqrt_nonneg _) hε)
  have e : sphereField M P a b x - f x =
      (sphereField M U a b x - f x) - sphereField M E a b x := by
    have : sphereField M E a b x = sphereField M U a b x - sphereField M P a b x := by
      unfold sphereField
      rw [← Finset.sum_sub_distrib]
      exact Finset.sum_congr rfl fun i _ => by simp only [hE]; ring
    rw [this]; ring
  rw [e]
  refine (abs_sub _ _).trans ?_
  have := hU x hx
  linarith

/-- The Gronwall bound in closed form. -/
theorem gronwallBound_le_exp {δ K ε x : ℝ} (hδ : 0 ≤ δ) (hε : 0 ≤ ε) (hx : 0 ≤ x) :
    gronwallBound δ K ε x ≤ (δ + ε * x) * Real.exp (max K 0 * x) := by
  by_cases h : K = 0
  · subst h; rw [gronwallBound_K0]; simp
  rw [gronwallBound_of_K_ne_0 h]
  have h2 : K * x + 1 ≤ Real.exp (K * x) := Real.add_one_le_exp _
  rcases lt_or_gt_of_ne h with hK | hK
  · rw [max_eq_right hK.le, zero_mul, Real.exp_zero, mul_one]
    have h1 : Real.exp (K * x) ≤ 1 :=
      Real.exp_le_one_iff.2 (mul_nonpos_of_nonpos_of_nonneg hK.le hx)
    have h3 : ε / K * (Real.exp (K * x) - 1) ≤ ε * x := by
      have : ε / K * (Real.exp (K * x) - 1) = ε * ((1 - Real.exp (K * x)) / (-K)) := by
        field_simp; ring
      rw [this]
      refine mul_le_mul_of_nonneg_left ?_ hε
      rw [div_le_iff₀ (by linarith)]
      linarith
    nlinarith
  · rw [max_eq_left hK.le, add_mul]
    refine add_le_add le_rfl ?_
    have h3 : -(K * x) + 1 ≤ Real.exp (-(K * x)) := Real.add_one_le_exp _
    have h4 : Real.exp (-(K * x)) * Real.exp (K * x) = 1 := by
      rw [← Real.exp_add]; simp
    have h5 : Real.exp (K * x) - 1 ≤ K * x * Real.exp (K * x) := by
      nlinarith [Real.exp_pos (K * x)]
    have h6 : (Real.exp (K * x) - 1) / K ≤ x * Real.exp (K * x) := by
      rw [div_le_iff₀ hK]; linarith
    have := mul_le_mul_of_nonneg_left h6 hε
    calc _ = ε * ((Real.exp (K * x) - 1) / K) := by ring
      _ ≤ _ := this
      _ = _ := by ring

end Verif.Lemmas
