import Verif.Lemmas.GmatExact
import Verif.Lemmas.Flux
import Verif.Lemmas.SlabBasis
import Verif.Spec.Sphere
import Mathlib.Analysis.SpecialFunctions.Sqrt

/-! Helper facts: integrals of products of the sphere basis as Chebyshev moments. -/

namespace Verif.Lemmas

open Polynomial Verif.Spec

/-- Change of variables from a cell to `[-1,1]` for polynomials in the reference coordinate. -/
theorem integral_ref_poly {a b : ℝ} (h : a < b) (c : ℝ) (p : ℝ[X]) :
    ∫ x in a..b, c * p.eval (ref x a b) = c * ((b - a) / 2 * I p) := by
  rw [← integral_zSlab_poly h c p]
  simp_rw [zSlab_eq_ref _ h]

/-- The radius as a polynomial in the reference coordinate. -/
noncomputable def radius (a b : ℝ) : ℝ[X] := C ((a + b) / 2) + C ((b - a) / 2) * X

theorem radius_eval {a b : ℝ} (h : a < b) (r : ℝ) : (radius a b).eval (ref r a b) = r := by
  have h1 : b - a ≠ 0 := by linarith
  simp only [radius, eval_add, eval_C, eval_mul, eval_X, ref]
  field_simp; ring

theorem sphere_factor (n : ℕ) (a b : ℝ) :
    Real.sqrt ((if n = 0 then 1 else 2) / (Real.pi * (b - a))) =
      bb n / Real.sqrt (Real.pi * (b - a)) := by
  unfold bb
  split_ifs
  · rw [Real.sqrt_div zero_le_one, Real.sqrt_one]
  · rw [Real.sqrt_div zero_le_two]

theorem sphereBasis_eq (n : ℕ) (x a b : ℝ) :
    sphereBasis n x a b =
      bb n / Real.sqrt (Real.pi * (b - a)) * (Chebyshev.T ℝ n).eval (ref x a b) := by
  unfold sphereBasis; rw [sphere_factor]

theorem sqrt_pi_mul {a b : ℝ} (h : a < b) :
    Real.sqrt (Real.pi * (b - a)) * Real.sqrt (Real.pi * (b - a)) = Real.pi * (b - a) ∧
      0 < Real.sqrt (Real.pi * (b - a)) := by
  have hp : 0 < Real.pi * (b - a) := mul_pos Real.pi_pos (by linarith)
  exact ⟨Real.mul_self_sqrt hp.le, Real.sqrt_pos.2 hp⟩

theorem sphereBasis_mul {a b : ℝ} (h : a < b) (i j : ℕ) (x : ℝ) :
    sphereBasis i x a b * sphereBasis j x a b =
      bb i * bb j / (Real.pi * (b - a)) *
        (Chebyshev.T ℝ i * Chebyshev.T ℝ j).eval (ref x a b) := by
  obtain ⟨h1, h2⟩ := sqrt_pi_mul h
  rw [sphereBasis_eq, sphereBasis_eq, eval_mul]
  generalize Real.sqrt (Real.pi * (b - a)) = w at h1 h2 ⊢
  rw [← h1]
  field_simp

theorem hasDerivAt_ref {a b : ℝ} (h : a < b) (x : ℝ) :
    HasDerivAt (fun y => ref y a b) (2 / (b - a)) x := by
  have := hasDerivAt_zSlab h x
  refine this.congr_of_eventuallyEq ?_
  exact Filter.Eventually.of_forall fun y => (zSlab_eq_ref y h).symm

theorem hasDerivAt_sphereBasis {a b : ℝ} (h : a < b) (n : ℕ) (x : ℝ) :
    HasDerivAt (fun y => sphereBasis n y a b)
      (bb n / Real.sqrt (Real.pi * (b - a)) *
        ((derivative (Chebyshev.T ℝ n)).eval (ref x a b) * (2 / (b - a)))) x := by
  simp_rw [sphereBasis_eq]
  exact (((Chebyshev.T ℝ n).hasDerivAt _).comp x (hasDerivAt_ref h x)).const_mul _

/-- Time derivative at fixed `r` of a basis function on a cell with moving edges. -/
theorem hasDerivAt_sphereBasis_time {a b : ℝ → ℝ} {a' b' t : ℝ} (ha : HasDerivAt a a' t)
    (hb : HasDerivAt b b' t) (h : a t < b t) (n : ℕ) (x : ℝ) :
    HasDerivAt (fun s => sphereBasis n x (a s) (b s))
      (bb n / Real.sqrt (Real.pi * (b t - a t)) / (b t - a t) *
        (-(1 / 2) * (b' - a') * (Chebyshev.T ℝ n).eval (ref x (a t) (b t))
          - ((a' + b') + ref x (a t) (b t) * (b' - a')) *
            (derivative (Chebyshev.T ℝ n)).eval (ref x (a t) (b t)))) t := by
  have hpos : 0 < b t - a t := by linarith
  have hne' : b t - a t ≠ 0 := hpos.ne'
  have hpi := Real.pi_pos
  have hz : HasDerivAt (fun s => ref x (a s) (b s))
      (-((a' + b') + ref x (a t) (b t) * (b' - a')) / (b t - a t)) t := by
    unfold ref
    have := ((ha.const_sub (2 * x)).sub hb).div (hb.sub ha) hne'
    refine this.congr_deriv ?_
    simp only [Pi.sub_apply]
    field_simp
    ring
  have hq : HasDerivAt (fun s => Real.pi * (b s - a s)) (Real.pi * (b' - a')) t :=
    (hb.sub ha).const_mul _
  have hqp : 0 < Real.pi * (b t - a t) := mul_pos hpi hpos
  have hs := hq.sqrt hqp.ne'
  have hP := ((Chebyshev.T ℝ n).hasDerivAt (ref x (a t) (b t))).comp t hz
  have hsne : Real.sqrt (Real.pi * (b t - a t)) ≠ 0 := (Real.sqrt_pos.2 hqp).ne'
  have := ((hasDerivAt_const t (bb n)).div hs hsne).mul hP
  simp_rw [sphereBasis_eq]
  refine this.congr_deriv ?_
  simp only [Function.comp_apply, Pi.div_apply]
  have hsq : Real.sqrt (Real.pi * (b t - a t)) ^ 2 = Real.pi * (b t - a t) := Real.sq_sqrt hqp.le
  rw [hsq]
  field_simp
  ring

theorem I_radius_sq (a b : ℝ) (k : ℕ) (q : ℝ[X]) :
    I (X ^ k * (radius a b ^ 2 * q)) =
      rho2 ((a + b) / 2) ((b - a) / 2) (fun k => I (X ^ k * q)) k := by
  have e : X ^ k * (radius a b ^ 2 * q) =
      C (((a + b) / 2) ^ 2) * (X ^ k * q) +
        C (2 * ((a + b) / 2) * ((b - a) / 2)) * (X ^ (k + 1) * q) +
        C (((b - a) / 2) ^ 2) * (X ^ (k + 2) * q) := by
    have h2 : (C (2 : ℝ)) = (2 : ℝ[X]) := rfl
    unfold radius
    simp only [C_mul, C_pow, h2]
    ring
  rw [e, I_add, I_add, I_C_mul, I_C_mul, I_C_mul, rho2]

theorem sphereMass_eq {a b : ℝ} (h : a < b) (i j : ℕ) :
    sphereMass i j a b = bb i * bb j / (2 * Real.pi) *
      rho2 ((a + b) / 2) ((b - a) / 2) (fun k => ttMom k i j) 0 := by
  have hpi := Real.pi_pos
  have hb : b - a ≠ 0 := by linarith
  have e : ∀ r, r ^ 2 * (sphereBasis i r a b * sphereBasis j r a b) =
      bb i * bb j / (Real.pi * (b - a)) *
        (X ^ 0 * (radius a b ^ 2 * (Chebyshev.T ℝ i * Chebyshev.T ℝ j))).eval (ref r a b) := by
    intro r
    rw [sphereBasis_mul h]
    simp only [eval_mul, eval_pow, radius_eval h, pow_zero, eval_one]
    ring
  unfold sphereMass
  simp_rw [e]
  rw [integral_ref_poly h, I_radius_sq]
  simp_rw [I_X_pow_mul_T_T]
  field_simp

theorem sphereG_eq {a b : ℝ → ℝ} {a' b' t : ℝ} (ha : HasDerivAt a a' t)
    (hb : HasDerivAt b b' t) (h : a t < b t) (i j : ℕ) :
    ∫ r in (a t)..(b t), r ^ 2 * (deriv (fun s => sphereBasis i r (a s) (b s)) t *
      sphereBasis j r (a t) (b t)) = gExact i j (a t) (b t) a' b' / Real.pi := by
  have hpi := Real.pi_pos
  have hba : b t - a t ≠ 0 := by linarith
  obtain ⟨h1, h2⟩ := sqrt_pi_mul h
  set q := Chebyshev.T ℝ i * Chebyshev.T ℝ j
  set d := derivative (Chebyshev.T ℝ i) * Chebyshev.T ℝ j
  have e : ∀ r, r ^ 2 * (deriv (fun s => sphereBasis i r (a s) (b s)) t *
      sphereBasis j r (a t) (b t)) =
      bb i * bb j / (Real.pi * (b t - a t)) / (b t - a t) *
        (C (-(b' - a') / 2) * (X ^ 0 * (radius (a t) (b t) ^ 2 * q)) +
          C (-(a' + b')) * (X ^ 0 * (radius (a t) (b t) ^ 2 * d)) +
          C (-(b' - a')) * (X ^ 1 * (radius (a t) (b t) ^ 2 * d))).eval
            (ref r (a t) (b t)) := by
    intro r
    rw [(hasDerivAt_sphereBasis_time ha hb h i r).deriv, sphereBasis_eq j]
    generalize Real.sqrt (Real.pi * (b t - a t)) = w at h1 h2 ⊢
    rw [← h1]
    simp only [eval_add, eval_mul, eval_pow, eval_C, radius_eval h, eval_X, q, d]
    field_simp
    ring
  simp_rw [e]
  rw [integral_ref_poly h, I_add, I_add, I_C_mul, I_C_mul, I_C_mul, I_radius_sq, I_radius_sq,
    I_radius_sq]
  simp_rw [q, d, I_X_pow_mul_T_T, I_X_pow_mul_dT_T]
  unfold gExact
  field_simp
  ring

theorem hasDerivAt_sphereMass {a b : ℝ → ℝ} {a' b' t : ℝ} (ha : HasDerivAt a a' t)
    (hb : HasDerivAt b b' t) (h : a t < b t) (i j : ℕ) :
    HasDerivAt (fun s => sphereMass i j (a s) (b s))
      (mpExact i j (a t) (b t) a' b' / Real.pi) t := by
  have hpi := Real.pi_pos
  have hev : ∀ᶠ s in nhds t, a s < b s :=
    (ha.continuousAt.eventually_lt hb.continuousAt h)
  have hm := ((ha.add hb).div_const 2)
  have hd := ((hb.sub ha).div_const 2)
  have key := (((hm.pow 2).mul_const (ttMom 0 i j)).add
    (((hm.const_mul 2).mul hd).mul_const (ttMom 1 i j))).add
    ((hd.pow 2).mul_const (ttMom 2 i j))
  have key2 := key.const_mul (bb i * bb j / (2 * Real.pi))
  have hcong := key2.congr_of_eventuallyEq (f₁ := fun s => sphereMass i j (a s) (b s))
    (hev.mono fun s hs => by
      simp only [Pi.add_apply, Pi.sub_apply, Pi.pow_apply, Pi.mul_apply, sphereMass_eq hs, rho2])
  refine hcong.congr_deriv ?_
  simp only [Pi.add_apply, Pi.sub_apply]
  unfold mpExact
  field_simp
  ring

end Verif.Lemmas
