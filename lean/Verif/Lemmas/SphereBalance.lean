import Verif.Lemmas.SphereMatrices
import Verif.Model.ActiveRhs

/-! Helper facts: integration by parts for the sphere matrices, content of a cell. -/

namespace Verif.Lemmas

open Polynomial Verif.Spec Verif.Model

theorem I_radius (a b : ℝ) (k : ℕ) (q : ℝ[X]) :
    I (X ^ k * (radius a b * q)) =
      (a + b) / 2 * I (X ^ k * q) + (b - a) / 2 * I (X ^ (k + 1) * q) := by
  have e : X ^ k * (radius a b * q) =
      C ((a + b) / 2) * (X ^ k * q) + C ((b - a) / 2) * (X ^ (k + 1) * q) := by
    unfold radius; ring
  rw [e, I_add, I_C_mul, I_C_mul]

theorem radius_one (a b : ℝ) : (radius a b).eval 1 = b := by
  simp [radius]; ring

theorem radius_neg_one (a b : ℝ) : (radius a b).eval (-1) = a := by
  simp [radius]; ring

theorem derivative_radius (a b : ℝ) : derivative (radius a b) = C ((b - a) / 2) := by
  unfold radius
  rw [derivative_add, derivative_C, derivative_C_mul, derivative_X]; simp

theorem sphereBasis_left {a b : ℝ} (h : a < b) (i j : ℕ) :
    sphereBasis i a a b * sphereBasis j a a b =
      bb i * bb j / (Real.pi * (b - a)) *
        (Chebyshev.T ℝ i * Chebyshev.T ℝ j).eval (-1) := by
  rw [sphereBasis_mul h, ref_left h]

theorem sphereBasis_right {a b : ℝ} (h : a < b) (i j : ℕ) :
    sphereBasis i b a b * sphereBasis j b a b =
      bb i * bb j / (Real.pi * (b - a)) *
        (Chebyshev.T ℝ i * Chebyshev.T ℝ j).eval 1 := by
  rw [sphereBasis_mul h, ref_right h]

/-- Moment form of the mesh-motion matrix. -/
theorem gExact_eq_I (i j : ℕ) (a b ap bp : ℝ) :
    gExact i j a b ap bp = bb i * bb j / (2 * (b - a)) *
      I (radius a b ^ 2 * (C (-(bp - ap) / 2) * (Chebyshev.T ℝ i * Chebyshev.T ℝ j) -
        (C (ap + bp) + C (bp - ap) * X) *
          (derivative (Chebyshev.T ℝ i) * Chebyshev.T ℝ j))) := by
  have e : radius a b ^ 2 * (C (-(bp - ap) / 2) * (Chebyshev.T ℝ i * Chebyshev.T ℝ j) -
        (C (ap + bp) + C (bp - ap) * X) * (derivative (Chebyshev.T ℝ i) * Chebyshev.T ℝ j)) =
      C (-(bp - ap) / 2) * (X ^ 0 * (radius a b ^ 2 * (Chebyshev.T ℝ i * Chebyshev.T ℝ j))) -
        C (ap + bp) * (X ^ 0 * (radius a b ^ 2 *
          (derivative (Chebyshev.T ℝ i) * Chebyshev.T ℝ j))) -
        C (bp - ap) * (X ^ 1 * (radius a b ^ 2 *
          (derivative (Chebyshev.T ℝ i) * Chebyshev.T ℝ j))) := by ring
  rw [e, I_sub, I_sub, I_C_mul, I_C_mul, I_C_mul, I_radius_sq, I_radius_sq, I_radius_sq]
  simp_rw [I_X_pow_mul_T_T, I_X_pow_mul_dT_T]
  rfl

/-- Moment form of the derivative of the mass matrix. -/
theorem mpExact_eq_I (i j : ℕ) (a b ap bp : ℝ) :
    mpExact i j a b ap bp = bb i * bb j / 2 *
      I (radius a b * (C (ap + bp) + C (bp - ap) * X) *
        (Chebyshev.T ℝ i * Chebyshev.T ℝ j)) := by
  have e : radius a b * (C (ap + bp) + C (bp - ap) * X) *
        (Chebyshev.T ℝ i * Chebyshev.T ℝ j) =
      C (ap + bp) * (X ^ 0 * (radius a b * (Chebyshev.T ℝ i * Chebyshev.T ℝ j))) +
        C (bp - ap) * (X ^ 1 * (radius a b * (Chebyshev.T ℝ i * Chebyshev.T ℝ j))) := by ring
  rw [e, I_add, I_C_mul, I_C_mul, I_radius, I_radius]
  simp_rw [I_X_pow_mul_T_T]
  unfold mpExact
  ring

/-- Reynolds' transport theorem for the tables. -/
theorem reynolds_tables {a b : ℝ} (h : a < b) (i j : ℕ) (ap bp : ℝ) :
    gExact i j a b ap bp / Real.pi + gExact j i a b ap bp / Real.pi
      + (bp * b ^ 2 * (sphereBasis i b a b * sphereBasis j b a b)
        - ap * a ^ 2 * (sphereBasis i a a b * sphereBasis j a a b)) =
      mpExact i j a b ap bp / Real.pi := by
  have hba : b - a ≠ 0 := by linarith
  have hpi := Real.pi_ne_zero
  rw [sphereBasis_left h, sphereBasis_right h, gExact_eq_I, gExact_eq_I, mpExact_eq_I]
  set Ti := Chebyshev.T ℝ (i : ℤ)
  set Tj := Chebyshev.T ℝ (j : ℤ)
  have hc : (C ((b - a) / 2) : ℝ[X]) * 2 = C (b - a) := by
    have : (2 : ℝ[X]) = C 2 := rfl
    rw [this, ← C_mul]; congr 1; ring
  have hb2 : (C (-(bp - ap) / 2) : ℝ[X]) * 2 = -C (bp - ap) := by
    have : (2 : ℝ[X]) = C 2 := rfl
    rw [this, ← C_mul, ← C_neg]; congr 1; ring
  have hd := I_derivative (radius a b ^ 2 * (C (ap + bp) + C (bp - ap) * X) * (Ti * Tj))
  have e : derivative (radius a b ^ 2 * (C (ap + bp) + C (bp - ap) * X) * (Ti * Tj)) =
      C (b - a) * (radius a b * (C (ap + bp) + C (bp - ap) * X) * (Ti * Tj)) -
      (radius a b ^ 2 * (C (-(bp - ap) / 2) * (Ti * Tj) -
        (C (ap + bp) + C (bp - ap) * X) * (derivative Ti * Tj)) +
      radius a b ^ 2 * (C (-(bp - ap) / 2) * (Tj * Ti) -
        (C (ap + bp) + C (bp - ap) * X) * (derivative Tj * Ti))) := by
    simp only [pow_two, derivative_mul, derivative_add, derivative_C, derivative_X,
      derivative_radius, zero_add, zero_mul, mul_one]
    linear_combination (radius a b * (C (ap + bp) + C (bp - ap) * X) * (Ti * Tj)) * hc +
      (radius a b ^ 2 * (Ti * Tj)) * hb2
  rw [e, I_sub, I_add, I_C_mul] at hd
  simp only [eval_mul, eval_add, eval_pow, eval_C, eval_X, radius_one, radius_neg_one] at hd
  simp only [eval_mul]
  generalize I (radius a b ^ 2 * (C (-(bp - ap) / 2) * (Ti * Tj) -
        (C (ap + bp) + C (bp - ap) * X) * (derivative Ti * Tj))) = y1 at hd ⊢
  generalize I (radius a b ^ 2 * (C (-(bp - ap) / 2) * (Tj * Ti) -
        (C (ap + bp) + C (bp - ap) * X) * (derivative Tj * Ti))) = y2 at hd ⊢
  generalize I (radius a b * (C (ap + bp) + C (bp - ap) * X) * (Ti * Tj)) = y3 at hd ⊢
  field_simp
  linear_combination (-(bb i * bb j)) * hd

theorem sphereMass_eq_I {a b : ℝ} (h : a < b) (i j : ℕ) :
    sphereMass i j a b = bb i * bb j / (2 * Real.pi) *
      I (radius a b ^ 2 * (Chebyshev.T ℝ i * Chebyshev.T ℝ j)) := by
  have := I_radius_sq a b 0 (Chebyshev.T ℝ i * Chebyshev.T ℝ j)
  simp_rw [I_X_pow_mul_T_T] at this
  rw [sphereMass_eq h, ← this, pow_zero, one_mul]

theorem sphereJ_eq_I {a b : ℝ} (h : a < b) (i j : ℕ) :
    sphereJ i j a b = bb i * bb j / (2 * Real.pi) *
      I (radius a b * (Chebyshev.T ℝ i * Chebyshev.T ℝ j)) := by
  have hpi := Real.pi_pos
  have hb : b - a ≠ 0 := by linarith
  have e : ∀ r, r * (sphereBasis i r a b * sphereBasis j r a b) =
      bb i * bb j / (Real.pi * (b - a)) *
        (radius a b * (Chebyshev.T ℝ i * Chebyshev.T ℝ j)).eval (ref r a b) := by
    intro r
    rw [sphereBasis_mul h, eval_mul (p := radius a b), radius_eval h]
    ring
  unfold sphereJ
  simp_rw [e]
  rw [integral_ref_poly h]
  field_simp

theorem sphereL_eq_I {a b : ℝ} (h : a < b) (i j : ℕ) :
    sphereL i j a b = bb i * bb j / (Real.pi * (b - a)) *
      I (radius a b ^ 2 * (derivative (Chebyshev.T ℝ i) * Chebyshev.T ℝ j)) := by
  have hpi := Real.pi_pos
  have hb : b - a ≠ 0 := by linarith
  obtain ⟨h1, h2⟩ := sqrt_pi_mul h
  have e : ∀ r, r ^ 2 * (deriv (fun x => sphereBasis i x a b) r * sphereBasis j r a b) =
      bb i * bb j / (Real.pi * (b - a)) * (2 / (b - a)) *
        (radius a b ^ 2 * (derivative (Chebyshev.T ℝ i) * Chebyshev.T ℝ j)).eval
          (ref r a b) := by
    intro r
    rw [(hasDerivAt_sphereBasis h i r).deriv, sphereBasis_eq j]
    generalize Real.sqrt (Real.pi * (b - a)) = w at h1 h2 ⊢
    rw [← h1]
    simp only [eval_mul, eval_pow, radius_eval h]
    field_simp
  unfold sphereL
  simp_rw [e]
  rw [integral_ref_poly h]
  field_simp

/-- Row 0 of the streaming matrix is zero. -/
theorem sphereL_zero {a b : ℝ} (h : a < b) (j : ℕ) : sphereL 0 j a b = 0 := by
  rw [sphereL_eq_I h]; simp [I_zero]

/-- Integration by parts. -/
theorem sphereL_parts {a b : ℝ} (h : a < b) (i j : ℕ) :
    sphereL i j a b + sphereL j i a b + 2 * sphereJ i j a b =
      b ^ 2 * (sphereBasis i b a b * sphereBasis j b a b)
        - a ^ 2 * (sphereBasis i a a b * sphereBasis j a a b) := by
  have hba : b - a ≠ 0 := by linarith
  have hpi := Real.pi_ne_zero
  rw [sphereBasis_left h, sphereBasis_right h, sphereL_eq_I h, sphereL_eq_I h, sphereJ_eq_I h]
  set Ti := Chebyshev.T ℝ (i : ℤ)
  set Tj := Chebyshev.T ℝ (j : ℤ)
  have hc : (C ((b - a) / 2) : ℝ[X]) * 2 = C (b - a) := by
    have : (2 : ℝ[X]) = C 2 := rfl
    rw [this, ← C_mul]; congr 1; ring
  have hd := I_derivative (radius a b ^ 2 * (Ti * Tj))
  have e : derivative (radius a b ^ 2 * (Ti * Tj)) =
      C (b - a) * (radius a b * (Ti * Tj)) + radius a b ^ 2 * (derivative Ti * Tj) +
        radius a b ^ 2 * (derivative Tj * Ti) := by
    simp only [pow_two, derivative_mul, derivative_radius]
    linear_combination (radius a b * (Ti * Tj)) * hc
  rw [e, I_add, I_add, I_C_mul] at hd
  simp only [eval_mul, eval_pow, radius_one, radius_neg_one] at hd
  simp only [eval_mul]
  generalize I (radius a b * (Ti * Tj)) = y1 at hd ⊢
  generalize I (radius a b ^ 2 * (derivative Ti * Tj)) = y2 at hd ⊢
  generalize I (radius a b ^ 2 * (derivative Tj * Ti)) = y3 at hd ⊢
  field_simp
  linear_combination (bb i * bb j) * hd

/-- Row 0 of the mesh-motion matrix. -/
theorem gExact_zero {a b : ℝ} (h : a < b) (j : ℕ) (ap bp : ℝ) :
    gExact 0 j a b ap bp / Real.pi = -((bp - ap) / (2 * (b - a))) * sphereMass 0 j a b := by
  have hba : b - a ≠ 0 := by linarith
  have hpi := Real.pi_ne_zero
  rw [gExact_eq_I, sphereMass_eq_I h]
  have e : radius a b ^ 2 * (C (-(bp - ap) / 2) * (Chebyshev.T ℝ (0 : ℕ) * Chebyshev.T ℝ j) -
        (C (ap + bp) + C (bp - ap) * X) *
          (derivative (Chebyshev.T ℝ (0 : ℕ)) * Chebyshev.T ℝ j)) =
      C (-(bp - ap) / 2) * (radius a b ^ 2 * (Chebyshev.T ℝ (0 : ℕ) * Chebyshev.T ℝ j)) := by
    simp; ring
  rw [e, I_C_mul]
  field_simp

theorem sphereBasis_zero (x a b : ℝ) :
    sphereBasis 0 x a b = 1 / Real.sqrt (Real.pi * (b - a)) := by
  rw [sphereBasis_eq]; simp [bb]

theorem continuous_ref {a b : ℝ} (h : a < b) : Continuous fun x => ref x a b :=
  continuous_iff_continuousAt.2 fun x => (hasDerivAt_ref h x).continuousAt

theorem continuous_sphereBasis {a b : ℝ} (h : a < b) (n : ℕ) :
    Continuous fun x => sphereBasis n x a b :=
  continuous_iff_continuousAt.2 fun x => (hasDerivAt_sphereBasis h n x).continuousAt

/-- Content of a cell from row 0 of the mass matrix. -/
theorem sphereContent_eq (M : ℕ) (U : ℕ → ℝ) {a b : ℝ} (h : a < b) :
    sphereContent M U a b =
      Real.sqrt (Real.pi * (b - a)) * ∑ j ∈ Finset.range (M + 1), sphereMass 0 j a b * U j := by
  obtain ⟨-, h2⟩ := sqrt_pi_mul h
  have e : ∀ r, r ^ 2 * sphereField M U a b r = ∑ j ∈ Finset.range (M + 1),
      (Real.sqrt (Real.pi * (b - a)) * U j) *
        (r ^ 2 * (sphereBasis 0 r a b * sphereBasis j r a b)) := by
    intro r
    unfold sphereField
    rw [Finset.mul_sum]
    refine Finset.sum_congr rfl fun j _ => ?_
    rw [sphereBasis_zero]; field_simp
  unfold sphereContent
  simp_rw [e]
  rw [intervalIntegral.integral_finsetSum, Finset.mul_sum]
  · refine Finset.sum_congr rfl fun j _ => ?_
    rw [intervalIntegral.integral_const_mul]; unfold sphereMass; ring
  · intro j _
    apply Continuous.intervalIntegrable
    have := continuous_sphereBasis h 0
    have := continuous_sphereBasis h j
    fun_prop

/-- First moment of a field from row 0 of `J`. -/
theorem sphereJ_field (M : ℕ) (U : ℕ → ℝ) {a b : ℝ} (h : a < b) :
    ∫ r in a..b, r * sphereField M U a b r =
      Real.sqrt (Real.pi * (b - a)) * ∑ j ∈ Finset.range (M + 1), sphereJ 0 j a b * U j := by
  obtain ⟨-, h2⟩ := sqrt_pi_mul h
  have e : ∀ r, r * sphereField M U a b r = ∑ j ∈ Finset.range (M + 1),
      (Real.sqrt (Real.pi * (b - a)) * U j) *
        (r * (sphereBasis 0 r a b * sphereBasis j r a b)) := by
    intro r
    unfold sphereField
    rw [Finset.mul_sum]
    refine Finset.sum_congr rfl fun j _ => ?_
    rw [sphereBasis_zero]; field_simp
  simp_rw [e]
  rw [intervalIntegral.integral_finsetSum, Finset.mul_sum]
  · refine Finset.sum_congr rfl fun j _ => ?_
    rw [intervalIntegral.integral_const_mul]; unfold sphereJ; ring
  · intro j _
    apply Continuous.intervalIntegrable
    have := continuous_sphereBasis h 0
    have := continuous_sphereBasis h j
    fun_prop

end Verif.Lemmas
