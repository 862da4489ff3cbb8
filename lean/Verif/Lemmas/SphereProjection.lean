import Verif.Spec.SphereExact
import Verif.Lemmas.Projection
import Verif.Lemmas.SphereContinuity
import Verif.Lemmas.SphereStability

/-! Helper facts: projections in the volume weight of smooth functions on moving shells. -/

namespace Verif.Lemmas

open Polynomial Verif.Spec Verif.Model MeasureTheory Set

/-! ### Chebyshev expansion -/

/-- Polynomials of degree at most `M` are combinations of the first Chebyshev polynomials. -/
theorem exists_cheb (M : ℕ) (q : ℝ[X]) (hq : q.natDegree ≤ M) : ∃ y : ℕ → ℝ,
    q = ∑ j ∈ Finset.range (M + 1), C (y j) * Chebyshev.T ℝ (j : ℕ) := by
  induction M generalizing q with
  | zero =>
    refine ⟨fun _ => q.coeff 0, ?_⟩
    rw [Finset.sum_range_one]
    simpa using eq_C_of_natDegree_le_zero hq
  | succ M ih =>
    set T := Chebyshev.T ℝ ((M + 1 : ℕ) : ℤ) with hT
    have hdeg : T.natDegree = M + 1 := by rw [hT, Chebyshev.natDegree_T]; exact Int.natAbs_natCast _
    have hlc : T.coeff (M + 1) ≠ 0 := by
      have : T ≠ 0 := by
        intro h; rw [h] at hdeg; simp at hdeg
      have h1 := leadingCoeff_ne_zero.2 this
      rwa [leadingCoeff, hdeg] at h1
    set s := q.coeff (M + 1) / T.coeff (M + 1) with hs
    obtain ⟨y, hy⟩ := ih (q - C s * T) (by
      rw [natDegree_le_iff_coeff_eq_zero]
      intro N hN
      rw [coeff_sub, coeff_C_mul]
      rcases Nat.eq_or_lt_of_le (Nat.succ_le_of_lt hN) with h | h
      · rw [← h, hs, div_mul_cancel₀ _ hlc, sub_self]
      · rw [coeff_eq_zero_of_natDegree_lt (lt_of_le_of_lt hq h),
          coeff_eq_zero_of_natDegree_lt (by rw [hdeg]; exact h)]
        ring)
    refine ⟨fun j => if j = M + 1 then s else y j, ?_⟩
    rw [Finset.sum_range_succ]
    simp only [if_true]
    have e : ∀ j ∈ Finset.range (M + 1), C (if j = M + 1 then s else y j) * Chebyshev.T ℝ (j : ℕ) =
        C (y j) * Chebyshev.T ℝ (j : ℕ) := by
      intro j hj
      rw [if_neg (by have := Finset.mem_range.1 hj; omega)]
    rw [Finset.sum_congr rfl e, ← hy]
    ring

theorem bb_ne (n : ℕ) : bb n ≠ 0 := by
  unfold bb
  split_ifs
  · norm_num
  · exact (Real.sqrt_pos.2 (by norm_num)).ne'

/-- A radial field in the reference coordinate. -/
noncomputable def chebPoly (M : ℕ) (U : ℕ → ℝ) (w : ℝ) : ℝ[X] :=
  ∑ j ∈ Finset.range (M + 1), C (U j * (bb j / Real.sqrt (Real.pi * w))) * Chebyshev.T ℝ (j : ℕ)

theorem sphereField_eq_chebPoly (M : ℕ) (U : ℕ → ℝ) (a b r : ℝ) :
    sphereField M U a b r = (chebPoly M U (b - a)).eval (ref r a b) := by
  unfold sphereField chebPoly
  rw [eval_finsetSum]
  refine Finset.sum_congr rfl fun j _ => ?_
  rw [sphereBasis_eq, eval_mul, eval_C]
  ring

/-- Every polynomial of degree at most `M` is a radial field of order `M`. -/
theorem exists_sphere_field {M : ℕ} {q : ℝ[X]} (hq : q.natDegree ≤ M) {a b : ℝ} (h : a < b) :
    ∃ U : ℕ → ℝ, ∀ r, sphereField M U a b r = q.eval (ref r a b) := by
  obtain ⟨y, hy⟩ := exists_cheb M q hq
  obtain ⟨-, hw⟩ := sqrt_pi_mul h
  refine ⟨fun j => y j * (bb j / Real.sqrt (Real.pi * (b - a)))⁻¹, fun r => ?_⟩
  rw [sphereField_eq_chebPoly, hy]
  unfold chebPoly
  congr 1
  refine Finset.sum_congr rfl fun j _ => ?_
  rw [mul_assoc, inv_mul_cancel₀ (div_ne_zero (bb_ne j) hw.ne'), mul_one]

/-! ### Moments -/

theorem weightedMoment_eq {a b : ℝ} (h : a < b) (f : ℝ → ℝ) (i : ℕ) :
    weightedMoment f a b i = bb i / (2 * Real.sqrt Real.pi) * Real.sqrt (b - a) *
      ∫ ξ in (-1 : ℝ)..1, cellPoint a b ξ ^ 2 * f (cellPoint a b ξ) *
        (Chebyshev.T ℝ (i : ℕ)).eval ξ := by
  have hw : 0 < b - a := by linarith
  unfold weightedMoment
  rw [integral_cell h]
  have e : ∀ ξ, cellPoint a b ξ ^ 2 * (f (cellPoint a b ξ) * sphereBasis i (cellPoint a b ξ) a b) =
      bb i / Real.sqrt (Real.pi * (b - a)) * (cellPoint a b ξ ^ 2 * f (cellPoint a b ξ) *
        (Chebyshev.T ℝ (i : ℕ)).eval ξ) := by
    intro ξ; rw [sphereBasis_eq, ref_cellPoint h]; ring
  simp_rw [e]
  rw [intervalIntegral.integral_const_mul, Real.sqrt_mul Real.pi_pos.le]
  have h2 : Real.sqrt (b - a) * Real.sqrt (b - a) = b - a := Real.mul_self_sqrt hw.le
  have h3 : Real.sqrt (b - a) ≠ 0 := (Real.sqrt_pos.2 hw).ne'
  have h4 : Real.sqrt Real.pi ≠ 0 := (Real.sqrt_pos.2 Real.pi_pos).ne'
  set J := ∫ ξ in (-1 : ℝ)..1, cellPoint a b ξ ^ 2 * f (cellPoint a b ξ) *
        (Chebyshev.T ℝ (i : ℕ)).eval ξ
  field_simp
  linear_combination (-J * bb i) * h2

theorem weightedMoment_field (M : ℕ) (P : ℕ → ℝ) {a b : ℝ} (h : a < b) (i : ℕ) :
    weightedMoment (sphereField M P a b) a b i = matVec M (fun i j => sphereMass i j a b) P i := by
  unfold weightedMoment matVec sphereMass
  have e : ∀ r, r ^ 2 * (sphereField M P a b r * sphereBasis i r a b) =
      ∑ j ∈ Finset.range (M + 1), P j * (r ^ 2 * (sphereBasis i r a b * sphereBasis j r a b)) := by
    intro r
    unfold sphereField
    rw [Finset.sum_mul, Finset.mul_sum]
    exact Finset.sum_congr rfl fun j _ => by ring
  simp_rw [e]
  rw [intervalIntegral.integral_finsetSum]
  · refine Finset.sum_congr rfl fun j _ => ?_
    rw [intervalIntegral.integral_const_mul, mul_comm]
  · intro j _
    exact (continuous_const.mul ((continuous_id.pow 2).mul ((continuous_sphereBasis h i).mul
      (continuous_sphereBasis h j)))).intervalIntegrable _ _

theorem weightedMoment_sub {f g : ℝ → ℝ} (hf : Continuous f) (hg : Continuous g) {a b : ℝ}
    (h : a < b) (i : ℕ) :
    ∫ r in a..b, r ^ 2 * ((f r - g r) * sphereBasis i r a b) =
      weightedMoment f a b i - weightedMoment g a b i := by
  have hb := continuous_sphereBasis h i
  unfold weightedMoment
  rw [← intervalIntegral.integral_sub]
  · exact intervalIntegral.integral_congr fun r _ => by ring
  · exact Continuous.intervalIntegrable (by fun_prop) _ _
  · exact Continuous.intervalIntegrable (by fun_prop) _ _

/-- The projection through the mass matrix. -/
theorem isSphereProjection_iff {M : ℕ} {f : ℝ → ℝ} (hf : Continuous f) {a b : ℝ} (h : a < b)
    (P : ℕ → ℝ) : IsSphereProjection M f a b P ↔ ∀ i ≤ M,
      matVec M (fun i j => sphereMass i j a b) P i = weightedMoment f a b i := by
  unfold IsSphereProjection
  refine forall_congr' fun i => forall_congr' fun _ => ?_
  rw [weightedMoment_sub hf (continuous_sphereField M P h) h, weightedMoment_field M P h, sub_eq_zero,
    eq_comm]

/-- Coefficients of the projection in closed form. -/
theorem isSphereProjection_eq {M : ℕ} {f : ℝ → ℝ} (hf : Continuous f) {a b : ℝ} (h : a < b)
    {P : ℕ → ℝ} (hP : IsSphereProjection M f a b P) (i : Fin (M + 1)) :
    P i = ∑ j : Fin (M + 1), (massMatrix M a b)⁻¹ i j * weightedMoment f a b j := by
  rw [isSphereProjection_iff hf h] at hP
  have hu : IsUnit (massMatrix M a b).det := isUnit_iff_ne_zero.2 (massMatrix_det_ne h)
  have h1 : (massMatrix M a b).mulVec (fun j : Fin (M + 1) => P j) =
      fun j : Fin (M + 1) => weightedMoment f a b j := by
    funext j
    rw [← hP j (Nat.lt_succ_iff.1 j.2)]
    unfold matVec
    rw [Finset.sum_range]
    rfl
  have h2 : (fun j : Fin (M + 1) => P j) =
      (massMatrix M a b)⁻¹.mulVec (fun j : Fin (M + 1) => weightedMoment f a b j) := by
    rw [← h1, Matrix.mulVec_mulVec, Matrix.nonsing_inv_mul _ hu, Matrix.one_mulVec]
  exact congrFun h2 i

theorem exists_sphere_projection (M : ℕ) {f : ℝ → ℝ} (hf : Continuous f) {a b : ℝ} (h : a < b) :
    ∃ P, IsSphereProjection M f a b P := by
  obtain ⟨Minv, hM⟩ := exists_mass_inverse M h
  exact ⟨_, (isSphereProjection_iff hf h _).2 fun i hi => hM (weightedMoment f a b) i hi⟩

theorem sphere_projection_unique {M : ℕ} {f : ℝ → ℝ} (hf : Continuous f) {a b : ℝ} (h : a < b)
    {P P' : ℕ → ℝ} (hP : IsSphereProjection M f a b P) (hP' : IsSphereProjection M f a b P')
    (i : ℕ) (hi : i ≤ M) : P i = P' i := by
  have h1 := isSphereProjection_eq hf h hP ⟨i, Nat.lt_succ_of_le hi⟩
  have h2 := isSphereProjection_eq hf h hP' ⟨i, Nat.lt_succ_of_le hi⟩
  exact h1.trans h2.symm

/-- The error of the projection is orthogonal to every polynomial of degree at most `M`. -/
theorem projection_orthogonal {M : ℕ} {f : ℝ → ℝ} (hf : Continuous f) {a b : ℝ} (h : a < b)
    {P : ℕ → ℝ} (hP : IsSphereProjection M f a b P) (x : ℕ → ℝ) :
    ∫ r in a..b, r ^ 2 * ((f r - sphereField M P a b r) * sphereField M x a b r) = 0 := by
  have hF := continuous_sphereField M P h
  have e : ∀ r, r ^ 2 * ((f r - sphereField M P a b r) * sphereField M x a b r) =
      ∑ i ∈ Finset.range (M + 1), x i * (r ^ 2 * ((f r - sphereField M P a b r) *
        sphereBasis i r a b)) := by
    intro r
    unfold sphereField
    rw [Finset.mul_sum, Finset.mul_sum]
    exact Finset.sum_congr rfl fun j _ => by ring
  simp_rw [e]
  rw [intervalIntegral.integral_finsetSum]
  · refine Finset.sum_eq_zero fun i hi => ?_
    rw [intervalIntegral.integral_const_mul, hP i (by simpa [Nat.lt_succ_iff] using hi), mul_zero]
  · intro i _
    have := continuous_sphereBasis h i
    exact Continuous.intervalIntegrable (by fun_prop) _ _

/-- Moments with polynomials of degree at most `M` in the reference coordinate are those of the
projection. -/
theorem sphere_projection_moment {M : ℕ} {f : ℝ → ℝ} (hf : Continuous f) {a b : ℝ} (h : a < b)
    {P : ℕ → ℝ} (hP : IsSphereProjection M f a b P) {q : ℝ[X]} (hq : q.natDegree ≤ M) :
    ∫ ξ in (-1 : ℝ)..1, q.eval ξ * (cellPoint a b ξ ^ 2 * f (cellPoint a b ξ)) =
      I (radius a b ^ 2 * (q * chebPoly M P (b - a))) := by
  have hb : 0 < b - a := by linarith
  obtain ⟨x, hx⟩ := exists_sphere_field hq h
  have h1 := projection_orthogonal hf h hP x
  rw [integral_cell h] at h1
  have h2 : ∫ ξ in (-1 : ℝ)..1, cellPoint a b ξ ^ 2 * ((f (cellPoint a b ξ) -
      sphereField M P a b (cellPoint a b ξ)) * sphereField M x a b (cellPoint a b ξ)) = 0 := by
    rcases mul_eq_zero.1 h1 with h3 | h3
    · linarith
    · exact h3
  have hcp : Continuous fun ξ => cellPoint a b ξ := by unfold cellPoint; fun_prop
  have hfc : Continuous fun ξ => f (cellPoint a b ξ) := hf.comp hcp
  have e : ∀ ξ, cellPoint a b ξ ^ 2 * ((f (cellPoint a b ξ) -
      sphereField M P a b (cellPoint a b ξ)) * sphereField M x a b (cellPoint a b ξ)) =
      q.eval ξ * (cellPoint a b ξ ^ 2 * f (cellPoint a b ξ)) -
        (radius a b ^ 2 * (q * chebPoly M P (b - a))).eval ξ := by
    intro ξ
    have hr : (radius a b).eval ξ = cellPoint a b ξ := by
      unfold radius cellPoint; simp only [eval_add, eval_mul, eval_C, eval_X]; ring
    rw [hx, sphereField_eq_chebPoly, ref_cellPoint h]
    simp only [eval_mul, eval_pow, hr]
    ring
  simp_rw [e] at h2
  rw [intervalIntegral.integral_sub] at h2
  · unfold I
    linarith
  · have := q.continuous
    exact Continuous.intervalIntegrable (by fun_prop) _ _
  · exact (Polynomial.continuous _).intervalIntegrable _ _

theorem I_mul_chebPoly (r q : ℝ[X]) (M : ℕ) (P : ℕ → ℝ) (w : ℝ) :
    I (r * (q * chebPoly M P w)) = ∑ j ∈ Finset.range (M + 1),
      P j * (bb j / Real.sqrt (Real.pi * w)) * I (r * (q * Chebyshev.T ℝ (j : ℕ))) := by
  unfold chebPoly
  rw [Finset.mul_sum, Finset.mul_sum, I_sum]
  refine Finset.sum_congr rfl fun j _ => ?_
  rw [← I_C_mul]
  congr 1
  ring

/-! ### Rate of a moment on a moving shell -/

theorem hasDerivWithinAt_weightedMoment {u : ℝ → ℝ → ℝ}
    (hu : ContDiff ℝ 1 fun q : ℝ × ℝ => u q.1 q.2) {a b : ℝ → ℝ} {a' b' t : ℝ} {s : Set ℝ}
    (ha : HasDerivWithinAt a a' s t) (hb : HasDerivWithinAt b b' s t)
    (h : a t < b t) (mul : ℝ) (i : ℕ) :
    HasDerivWithinAt (fun τ => weightedMoment (fun x => u x τ) (a τ) (b τ) i)
      (bb i / Real.sqrt (Real.pi * (b t - a t)) / 2 * (∫ ξ in (-1 : ℝ)..1,
          (C (-(1 / 2) * (b' - a')) * Chebyshev.T ℝ (i : ℕ)
            + C (-(a' + b')) * derivative (Chebyshev.T ℝ (i : ℕ))
            + C (-(b' - a')) * (X * derivative (Chebyshev.T ℝ (i : ℕ)))).eval ξ *
          (cellPoint (a t) (b t) ξ ^ 2 * u (cellPoint (a t) (b t) ξ) t))
        + mul * (bb i / Real.sqrt (Real.pi * (b t - a t)) * ∫ ξ in (-1 : ℝ)..1,
          (derivative (Chebyshev.T ℝ (i : ℕ))).eval ξ *
          (cellPoint (a t) (b t) ξ ^ 2 * u (cellPoint (a t) (b t) ξ) t))
        - (sphereBasis i (b t) (a t) (b t) * ((mul - b') * (b t ^ 2 * u (b t) t))
          - sphereBasis i (a t) (a t) (b t) * ((mul - a') * (a t ^ 2 * u (a t) t)))
        + ∫ r in (a t)..(b t), (r ^ 2 * deriv (fun τ => u r τ) t
            + mul * deriv (fun y => y ^ 2 * u y t) r) * sphereBasis i r (a t) (b t)) s t := by
  have hpos : 0 < b t - a t := by linarith
  set T := Chebyshev.T ℝ (i : ℤ) with hT
  -- the weighted function
  set U : ℝ → ℝ → ℝ := fun x τ => x ^ 2 * u x τ with hU
  have hUc : ContDiff ℝ 1 fun q : ℝ × ℝ => U q.1 q.2 := (contDiff_fst.pow 2).mul hu
  have hUt : ∀ x, deriv (fun τ => U x τ) t = x ^ 2 * deriv (fun τ => u x τ) t := fun x =>
    ((hasDerivAt_of_contDiff hu x t).2.1.const_mul (x ^ 2)).deriv
  obtain ⟨hcx, hct⟩ := continuous_deriv_of_contDiff hUc
  have hcp : Continuous fun ξ => cellPoint (a t) (b t) ξ := by unfold cellPoint; fun_prop
  have hUx : Continuous fun ξ => U (cellPoint (a t) (b t) ξ) t :=
    hUc.continuous.comp (hcp.prodMk continuous_const)
  have hgx : Continuous fun ξ => deriv (fun y => U y t) (cellPoint (a t) (b t) ξ) :=
    hcx.comp (hcp.prodMk continuous_const)
  have hgt : Continuous fun ξ => deriv (fun τ => U (cellPoint (a t) (b t) ξ) τ) t :=
    hct.comp (hcp.prodMk continuous_const)
  -- the moment as a product
  have hev : ∀ᶠ τ in nhdsWithin t s, a τ < b τ :=
    ha.continuousWithinAt.eventually_lt hb.continuousWithinAt h
  have hc : HasDerivWithinAt (fun τ => bb i / (2 * Real.sqrt Real.pi) * Real.sqrt (b τ - a τ))
      (bb i / (2 * Real.sqrt Real.pi) * ((b' - a') / (2 * Real.sqrt (b t - a t)))) s t :=
    ((hb.sub ha).sqrt hpos.ne').const_mul _
  have hJ := hasDerivWithinAt_moment hUc T ha hb
  have hprod := hc.mul hJ
  refine (hprod.congr_of_eventuallyEq (hev.mono fun τ hτ => weightedMoment_eq hτ _ i)
    (weightedMoment_eq h _ i)).congr_deriv ?_
  -- integration by parts
  set K : ℝ[X] := (C ((b' - a') / 2) * X + C ((a' + b') / 2 - mul)) * T with hK
  have hg : ∀ ξ, HasDerivAt (fun ξ => U (cellPoint (a t) (b t) ξ) t)
      (deriv (fun y => U y t) (cellPoint (a t) (b t) ξ) * ((b t - a t) / 2)) ξ := by
    intro ξ
    have h1 := (hasDerivAt_of_contDiff hUc (cellPoint (a t) (b t) ξ) t).1
    have h2 : HasDerivAt (fun ξ => cellPoint (a t) (b t) ξ) ((b t - a t) / 2) ξ := by
      unfold cellPoint
      simpa using ((hasDerivAt_id ξ).const_mul ((b t - a t) / 2)).add_const ((a t + b t) / 2)
    exact HasDerivAt.comp ξ h1 h2
  have hparts := intervalIntegral.integral_mul_deriv_eq_deriv_mul (a := -1) (b := 1)
    (u := fun ξ => K.eval ξ) (v := fun ξ => U (cellPoint (a t) (b t) ξ) t)
    (fun ξ _ => K.hasDerivAt ξ) (fun ξ _ => hg ξ)
    ((derivative K).continuous.intervalIntegrable _ _)
    ((hgx.mul continuous_const).intervalIntegrable _ _)
  have hm1 : cellPoint (a t) (b t) 1 = b t := by unfold cellPoint; ring
  have hm2 : cellPoint (a t) (b t) (-1) = a t := by unfold cellPoint; ring
  rw [hm1, hm2] at hparts
  have hK1 : K.eval 1 = (b' - mul) * T.eval 1 := by
    simp only [hK, eval_mul, eval_add, eval_C, eval_X]; ring
  have hK2 : K.eval (-1) = (a' - mul) * T.eval (-1) := by
    simp only [hK, eval_mul, eval_add, eval_C, eval_X]; ring
  rw [hK1, hK2] at hparts
  have hsplit : ∫ ξ in (-1 : ℝ)..1,
      (deriv (fun y => U y t) (cellPoint (a t) (b t) ξ) * cellPoint a' b' ξ +
        deriv (fun τ => U (cellPoint (a t) (b t) ξ) τ) t) * T.eval ξ =
      (2 / (b t - a t)) * (∫ ξ in (-1 : ℝ)..1, K.eval ξ *
        (deriv (fun y => U y t) (cellPoint (a t) (b t) ξ) * ((b t - a t) / 2))) +
      ∫ ξ in (-1 : ℝ)..1, (deriv (fun τ => U (cellPoint (a t) (b t) ξ) τ) t +
        mul * deriv (fun y => U y t) (cellPoint (a t) (b t) ξ)) * T.eval ξ := by
    rw [← intervalIntegral.integral_const_mul, ← intervalIntegral.integral_add]
    · congr 1; funext ξ
      simp only [hK, eval_mul, eval_add, eval_C, eval_X, cellPoint]
      field_simp
      ring
    · exact (continuous_const.mul (K.continuous.mul (hgx.mul continuous_const))).intervalIntegrable
        _ _
    · exact ((hgt.add (continuous_const.mul hgx)).mul T.continuous).intervalIntegrable _ _
  have hdK : ∀ ξ, (derivative K).eval ξ = (b' - a') / 2 * T.eval ξ +
      ((b' - a') / 2 * ξ + ((a' + b') / 2 - mul)) * (derivative T).eval ξ := by
    intro ξ
    simp only [hK, derivative_mul, derivative_add, derivative_C, derivative_X, eval_add, eval_mul,
      eval_C, eval_X, eval_zero, eval_one]
    ring
  have hTc := T.continuous
  have hTc' := (derivative T).continuous
  set J0 := ∫ ξ in (-1 : ℝ)..1, T.eval ξ * U (cellPoint (a t) (b t) ξ) t with hJ0
  set J1 := ∫ ξ in (-1 : ℝ)..1, (derivative T).eval ξ * U (cellPoint (a t) (b t) ξ) t with hJ1
  set J2 := ∫ ξ in (-1 : ℝ)..1, ξ * (derivative T).eval ξ * U (cellPoint (a t) (b t) ξ) t with hJ2
  have i0 : IntervalIntegrable (fun ξ => T.eval ξ * U (cellPoint (a t) (b t) ξ) t) volume (-1) 1 :=
    (hTc.mul hUx).intervalIntegrable _ _
  have i1 : IntervalIntegrable (fun ξ => (derivative T).eval ξ * U (cellPoint (a t) (b t) ξ) t)
      volume (-1) 1 := (hTc'.mul hUx).intervalIntegrable _ _
  have i2 : IntervalIntegrable (fun ξ => ξ * (derivative T).eval ξ *
      U (cellPoint (a t) (b t) ξ) t) volume (-1) 1 :=
    ((continuous_id.mul hTc').mul hUx).intervalIntegrable _ _
  have e1 : ∫ ξ in (-1 : ℝ)..1, (derivative K).eval ξ * U (cellPoint (a t) (b t) ξ) t =
      (b' - a') / 2 * J0 + (b' - a') / 2 * J2 + ((a' + b') / 2 - mul) * J1 := by
    rw [hJ0, hJ1, hJ2, ← intervalIntegral.integral_const_mul, ← intervalIntegral.integral_const_mul,
      ← intervalIntegral.integral_const_mul, ← intervalIntegral.integral_add (i0.const_mul _)
      (i2.const_mul _), ← intervalIntegral.integral_add ((i0.const_mul _).add (i2.const_mul _))
      (i1.const_mul _)]
    refine intervalIntegral.integral_congr fun ξ _ => ?_
    simp only [hdK]
    ring
  have e2 : ∫ ξ in (-1 : ℝ)..1, (C (-(1 / 2) * (b' - a')) * T + C (-(a' + b')) * derivative T
      + C (-(b' - a')) * (X * derivative T)).eval ξ *
        (cellPoint (a t) (b t) ξ ^ 2 * u (cellPoint (a t) (b t) ξ) t) =
      -(1 / 2) * (b' - a') * J0 + -(b' - a') * J2 + -(a' + b') * J1 := by
    rw [hJ0, hJ1, hJ2, ← intervalIntegral.integral_const_mul, ← intervalIntegral.integral_const_mul,
      ← intervalIntegral.integral_const_mul, ← intervalIntegral.integral_add (i0.const_mul _)
      (i2.const_mul _), ← intervalIntegral.integral_add ((i0.const_mul _).add (i2.const_mul _))
      (i1.const_mul _)]
    refine intervalIntegral.integral_congr fun ξ _ => ?_
    simp only [hU, eval_add, eval_mul, eval_C, eval_X]
    ring
  have e3 : ∫ r in (a t)..(b t), (r ^ 2 * deriv (fun τ => u r τ) t
      + mul * deriv (fun y => y ^ 2 * u y t) r) * sphereBasis i r (a t) (b t) =
      bb i / Real.sqrt (Real.pi * (b t - a t)) * ((b t - a t) / 2 * ∫ ξ in (-1 : ℝ)..1,
        (deriv (fun τ => U (cellPoint (a t) (b t) ξ) τ) t +
        mul * deriv (fun y => U y t) (cellPoint (a t) (b t) ξ)) * T.eval ξ) := by
    rw [integral_cell h, mul_left_comm]
    congr 1
    rw [← intervalIntegral.integral_const_mul]
    refine intervalIntegral.integral_congr fun ξ _ => ?_
    rw [sphereBasis_eq, ref_cellPoint h, hUt]
    ring
  have e4 : ∫ ξ in (-1 : ℝ)..1, U (cellPoint (a t) (b t) ξ) t * T.eval ξ = J0 :=
    intervalIntegral.integral_congr fun ξ _ => mul_comm _ _
  rw [hsplit, hparts, e1, e2, e3, e4, sphereBasis_eq, sphereBasis_eq, ref_left h, ref_right h,
    Real.sqrt_mul Real.pi_pos.le]
  change _ = _ + mul * (_ * J1) - _ + _
  set Z := ∫ ξ in (-1 : ℝ)..1, (deriv (fun τ => U (cellPoint (a t) (b t) ξ) τ) t +
        mul * deriv (fun y => U y t) (cellPoint (a t) (b t) ξ)) * T.eval ξ
  have h2 : Real.sqrt (b t - a t) * Real.sqrt (b t - a t) = b t - a t := Real.mul_self_sqrt hpos.le
  have h3 : Real.sqrt (b t - a t) ≠ 0 := (Real.sqrt_pos.2 hpos).ne'
  have h4 : Real.sqrt Real.pi ≠ 0 := (Real.sqrt_pos.2 Real.pi_pos).ne'
  have hUb : b t ^ 2 * u (b t) t = U (b t) t := rfl
  have hUa : a t ^ 2 * u (a t) t = U (a t) t := rfl
  rw [hUb, hUa, ← hT]
  generalize U (b t) t = Ub
  generalize U (a t) t = Ua
  generalize eval 1 T = T1
  generalize eval (-1) T = T2
  set w := Real.sqrt (b t - a t) with hw
  rw [← h2]
  field_simp
  ring

/-! ### The projection moves with the shell -/

theorem differentiableWithinAt_det {n : ℕ} {A : ℝ → Matrix (Fin n) (Fin n) ℝ} {s : Set ℝ} {t : ℝ}
    (h : ∀ i j, DifferentiableWithinAt ℝ (fun τ => A τ i j) s t) :
    DifferentiableWithinAt ℝ (fun τ => (A τ).det) s t := by
  simp_rw [Matrix.det_apply]
  refine DifferentiableWithinAt.fun_sum fun σ _ => ?_
  exact (DifferentiableWithinAt.fun_finsetProd fun i _ => h (σ i) i).const_smul _

theorem differentiableWithinAt_massInv {a b : ℝ → ℝ} {a' b' t : ℝ}
    (ha : HasDerivWithinAt a a' (Ici t) t) (hb : HasDerivWithinAt b b' (Ici t) t) (h : a t < b t)
    (M : ℕ) (i j : Fin (M + 1)) :
    DifferentiableWithinAt ℝ (fun τ => (massMatrix M (a τ) (b τ))⁻¹ i j) (Ici t) t := by
  have hA : ∀ i j, DifferentiableWithinAt ℝ (fun τ => massMatrix M (a τ) (b τ) i j) (Ici t) t :=
    fun i j => (hasDerivWithinAt_sphereMass ha hb h i j).differentiableWithinAt
  have hdet := differentiableWithinAt_det hA
  have hadj : DifferentiableWithinAt ℝ (fun τ => (massMatrix M (a τ) (b τ)).adjugate i j) (Ici t) t := by
    simp_rw [Matrix.adjugate_apply]
    refine differentiableWithinAt_det fun k l => ?_
    simp_rw [Matrix.updateRow_apply]
    split_ifs
    · exact differentiableWithinAt_const _
    · exact hA k l
  have e : ∀ τ, (massMatrix M (a τ) (b τ))⁻¹ i j =
      (massMatrix M (a τ) (b τ)).det⁻¹ * (massMatrix M (a τ) (b τ)).adjugate i j := by
    intro τ
    rw [Matrix.inv_def, Matrix.smul_apply, smul_eq_mul, Ring.inverse_eq_inv']
  simp_rw [e]
  exact (hdet.inv (massMatrix_det_ne h)).mul hadj

/-- Mass matrix times the rate of the projection of a smooth function on a moving shell. -/
theorem sphere_projection_rate {M : ℕ} {u : ℝ → ℝ → ℝ}
    (hu : ContDiff ℝ 1 fun q : ℝ × ℝ => u q.1 q.2) {a b : ℝ → ℝ} {a' b' t : ℝ}
    (ha : HasDerivWithinAt a a' (Ici t) t) (hb : HasDerivWithinAt b b' (Ici t) t) (h : a t < b t)
    {P : ℝ → ℕ → ℝ} (hP : ∀ᶠ τ in nhdsWithin t (Ici t),
      IsSphereProjection M (fun x => u x τ) (a τ) (b τ) (P τ)) (mul : ℝ) :
    ∃ R : ℕ → ℝ, (∀ i ≤ M, HasDerivWithinAt (fun τ => P τ i) (R i) (Ici t) t) ∧ ∀ i ≤ M,
      matVec M (fun i j => sphereMass i j (a t) (b t)) R i =
        matVec M (fun i j => gExact i j (a t) (b t) a' b' / Real.pi) (P t) i
        + mul * matVec M (fun i j => sphereL i j (a t) (b t)) (P t) i
        - (sphereBasis i (b t) (a t) (b t) * ((mul - b') * (b t ^ 2 * u (b t) t))
          - sphereBasis i (a t) (a t) (b t) * ((mul - a') * (a t ^ 2 * u (a t) t)))
        + (∫ r in (a t)..(b t), (r ^ 2 * deriv (fun τ => u r τ) t
            + mul * deriv (fun y => y ^ 2 * u y t) r) * sphereBasis i r (a t) (b t))
        - matVec M (fun i j => mpExact i j (a t) (b t) a' b' / Real.pi) (P t) i := by
  have hcu : ∀ τ, Continuous fun x => u x τ := fun τ =>
    hu.continuous.comp (continuous_id.prodMk continuous_const)
  have hev : ∀ᶠ τ in nhdsWithin t (Ici t), a τ < b τ :=
    ha.continuousWithinAt.eventually_lt hb.continuousWithinAt h
  have hmem : t ∈ Ici t := self_mem_Ici
  have hPt := hP.self_of_nhdsWithin hmem
  have hdiff : ∀ i ≤ M, DifferentiableWithinAt ℝ (fun τ => P τ i) (Ici t) t := by
    intro i hi
    have h1 : DifferentiableWithinAt ℝ (fun τ => ∑ j : Fin (M + 1),
        (massMatrix M (a τ) (b τ))⁻¹ ⟨i, Nat.lt_succ_of_le hi⟩ j *
          weightedMoment (fun x => u x τ) (a τ) (b τ) j) (Ici t) t := by
      refine DifferentiableWithinAt.fun_sum fun j _ => ?_
      exact (differentiableWithinAt_massInv ha hb h M _ j).mul
        (hasDerivWithinAt_weightedMoment hu ha hb h 0 j).differentiableWithinAt
    refine h1.congr_of_eventuallyEq ?_ ?_
    · filter_upwards [hP, hev] with τ h2 h3
      exact isSphereProjection_eq (hcu τ) h3 h2 ⟨i, Nat.lt_succ_of_le hi⟩
    · exact isSphereProjection_eq (hcu t) h hPt ⟨i, Nat.lt_succ_of_le hi⟩
  refine ⟨fun i => derivWithin (fun τ => P τ i) (Ici t) t,
    fun i hi => (hdiff i hi).hasDerivWithinAt, fun i hi => ?_⟩
  -- two expressions for the rate of the moment
  have h1 : HasDerivWithinAt (fun τ => weightedMoment (fun x => u x τ) (a τ) (b τ) i)
      (∑ j ∈ Finset.range (M + 1), (mpExact i j (a t) (b t) a' b' / Real.pi * P t j
        + sphereMass i j (a t) (b t) * derivWithin (fun τ => P τ j) (Ici t) t)) (Ici t) t := by
    have h2 : HasDerivWithinAt (fun τ => matVec M (fun i j => sphereMass i j (a τ) (b τ)) (P τ) i)
        (∑ j ∈ Finset.range (M + 1), (mpExact i j (a t) (b t) a' b' / Real.pi * P t j
          + sphereMass i j (a t) (b t) * derivWithin (fun τ => P τ j) (Ici t) t)) (Ici t) t := by
      unfold matVec
      refine HasDerivWithinAt.fun_sum fun j hj => ?_
      exact (hasDerivWithinAt_sphereMass ha hb h i j).mul
        (hdiff j (by simpa [Nat.lt_succ_iff] using hj)).hasDerivWithinAt
    refine h2.congr_of_eventuallyEq ?_ ?_
    · filter_upwards [hP, hev] with τ h3 h4
      exact ((isSphereProjection_iff (hcu τ) h4 _).1 h3 i hi).symm
    · exact ((isSphereProjection_iff (hcu t) h _).1 hPt i hi).symm
  have h2 := hasDerivWithinAt_weightedMoment hu ha hb h mul i
  have h3 := (uniqueDiffOn_Ici t t hmem).eq_deriv _ h1 h2
  rw [Finset.sum_add_distrib] at h3
  -- the projection in the volume terms
  have hdT : (derivative (Chebyshev.T ℝ (i : ℕ))).natDegree ≤ M := by
    refine (natDegree_derivative_le _).trans ?_
    rw [Chebyshev.natDegree_T]
    simp only [Int.natAbs_natCast]
    omega
  have hKq : (C (-(1 / 2) * (b' - a')) * Chebyshev.T ℝ (i : ℕ)
      + C (-(a' + b')) * derivative (Chebyshev.T ℝ (i : ℕ))
      + C (-(b' - a')) * (X * derivative (Chebyshev.T ℝ (i : ℕ)))).natDegree ≤ M := by
    refine (natDegree_add_le _ _).trans (max_le ((natDegree_add_le _ _).trans (max_le ?_ ?_)) ?_)
    · refine (natDegree_C_mul_le _ _).trans ?_
      rw [Chebyshev.natDegree_T]
      simpa using hi
    · exact (natDegree_C_mul_le _ _).trans hdT
    · refine (natDegree_C_mul_le _ _).trans ?_
      rcases Nat.eq_zero_or_pos i with h0 | h0
      · subst h0; simp
      · refine natDegree_mul_le.trans ?_
        have h4 := natDegree_derivative_le (Chebyshev.T ℝ (i : ℕ))
        rw [Chebyshev.natDegree_T] at h4
        simp only [Int.natAbs_natCast] at h4
        have h5 : (X : ℝ[X]).natDegree ≤ 1 := natDegree_X_le
        omega
  rw [sphere_projection_moment (hcu t) h hPt hKq, sphere_projection_moment (hcu t) h hPt hdT,
    I_mul_chebPoly, I_mul_chebPoly] at h3
  obtain ⟨hw1, hw2⟩ := sqrt_pi_mul h
  have hpi := Real.pi_pos
  have hba : b t - a t ≠ 0 := by linarith
  have eG : bb i / Real.sqrt (Real.pi * (b t - a t)) / 2 * ∑ j ∈ Finset.range (M + 1),
      P t j * (bb j / Real.sqrt (Real.pi * (b t - a t))) * I (radius (a t) (b t) ^ 2 *
        ((C (-(1 / 2) * (b' - a')) * Chebyshev.T ℝ (i : ℕ)
          + C (-(a' + b')) * derivative (Chebyshev.T ℝ (i : ℕ))
          + C (-(b' - a')) * (X * derivative (Chebyshev.T ℝ (i : ℕ)))) * Chebyshev.T ℝ (j : ℕ))) =
      matVec M (fun i j => gExact i j (a t) (b t) a' b' / Real.pi) (P t) i := by
    unfold matVec
    rw [Finset.mul_sum]
    refine Finset.sum_congr rfl fun j _ => ?_
    simp only
    rw [gExact_eq_I]
    have e : radius (a t) (b t) ^ 2 * ((C (-(1 / 2) * (b' - a')) * Chebyshev.T ℝ (i : ℕ)
          + C (-(a' + b')) * derivative (Chebyshev.T ℝ (i : ℕ))
          + C (-(b' - a')) * (X * derivative (Chebyshev.T ℝ (i : ℕ)))) * Chebyshev.T ℝ (j : ℕ)) =
        radius (a t) (b t) ^ 2 * (C (-(b' - a') / 2) * (Chebyshev.T ℝ i * Chebyshev.T ℝ j) -
        (C (a' + b') + C (b' - a') * X) *
          (derivative (Chebyshev.T ℝ i) * Chebyshev.T ℝ j)) := by
      rw [show -(1 / 2) * (b' - a') = -(b' - a') / 2 by ring, C_neg, C_neg]
      ring
    rw [e]
    generalize I _ = y
    generalize Real.sqrt (Real.pi * (b t - a t)) = w at hw1 hw2
    have : bb i / w / 2 * (P t j * (bb j / w) * y) = bb i * bb j * P t j * y / (2 * (w * w)) := by
      field_simp
    rw [this, hw1]
    field_simp
  have eL : bb i / Real.sqrt (Real.pi * (b t - a t)) * ∑ j ∈ Finset.range (M + 1),
      P t j * (bb j / Real.sqrt (Real.pi * (b t - a t))) * I (radius (a t) (b t) ^ 2 *
        (derivative (Chebyshev.T ℝ (i : ℕ)) * Chebyshev.T ℝ (j : ℕ))) =
      matVec M (fun i j => sphereL i j (a t) (b t)) (P t) i := by
    unfold matVec
    rw [Finset.mul_sum]
    refine Finset.sum_congr rfl fun j _ => ?_
    simp only
    rw [sphereL_eq_I h]
    generalize I _ = y
    generalize Real.sqrt (Real.pi * (b t - a t)) = w at hw1 hw2
    have : bb i / w * (P t j * (bb j / w) * y) = bb i * bb j * P t j * y / (w * w) := by
      field_simp
    rw [this, hw1]
    field_simp
  rw [eG, eL] at h3
  have h4 : matVec M (fun i j => mpExact i j (a t) (b t) a' b' / Real.pi) (P t) i =
      ∑ j ∈ Finset.range (M + 1), mpExact i j (a t) (b t) a' b' / Real.pi * P t j := rfl
  have h5 : matVec M (fun i j => sphereMass i j (a t) (b t))
      (fun i => derivWithin (fun τ => P τ i) (Ici t) t) i =
      ∑ j ∈ Finset.range (M + 1),
        sphereMass i j (a t) (b t) * derivWithin (fun τ => P τ j) (Ici t) t := rfl
  rw [h4, h5]
  linarith

end Verif.Lemmas
