import Verif.Lemmas.Legendre
import Verif.Model.Basis
import Mathlib.Analysis.SpecialFunctions.Integrals.Basic
import Mathlib.Analysis.SpecialFunctions.Sqrt

/-! Helper facts about the slab basis: change of variables, derivatives. -/

namespace Verif.Lemmas

open Polynomial Verif.Spec Verif.Model

theorem zSlab_eq {a b : ℝ} (h : a < b) (x : ℝ) :
    zSlab x a b = (2 / (b - a)) * x - (a + b) / (b - a) := by
  have h1 : b - a ≠ 0 := by linarith
  have h2 : a - b ≠ 0 := by linarith
  unfold zSlab
  field_simp
  ring

theorem zSlab_left {a b : ℝ} (h : a < b) : zSlab a a b = -1 := by
  have h2 : a - b ≠ 0 := by linarith
  unfold zSlab; field_simp; ring

theorem zSlab_right {a b : ℝ} (h : a < b) : zSlab b a b = 1 := by
  have h2 : a - b ≠ 0 := by linarith
  unfold zSlab; field_simp; ring

/-- Change of variables from a cell to `[-1,1]`. -/
theorem integral_zSlab {a b : ℝ} (h : a < b) (f : ℝ → ℝ) :
    ∫ x in a..b, f (zSlab x a b) = (b - a) / 2 * ∫ z in (-1 : ℝ)..1, f z := by
  have h1 : b - a ≠ 0 := by linarith
  have hc : (2 / (b - a)) ≠ 0 := div_ne_zero two_ne_zero h1
  simp_rw [zSlab_eq h]
  rw [intervalIntegral.integral_comp_mul_sub _ hc]
  have e1 : (2 / (b - a)) * a - (a + b) / (b - a) = -1 := by field_simp; ring
  have e2 : (2 / (b - a)) * b - (a + b) / (b - a) = 1 := by field_simp; ring
  rw [e1, e2, smul_eq_mul, inv_div]

theorem integral_zSlab_poly {a b : ℝ} (h : a < b) (c : ℝ) (p : ℝ[X]) :
    ∫ x in a..b, c * p.eval (zSlab x a b) = c * ((b - a) / 2 * I p) := by
  rw [intervalIntegral.integral_const_mul, integral_zSlab h (fun z => p.eval z)]; rfl

theorem sqrt_split {a b : ℝ} (h : a < b) (n : ℕ) :
    Real.sqrt ((2 * (n : ℝ) + 1) / (b - a)) =
      Real.sqrt (2 * (n : ℝ) + 1) / Real.sqrt (b - a) :=
  Real.sqrt_div' _ (by linarith)

theorem sqrt_mul_sqrt {a b : ℝ} (h : a < b) (n m : ℕ) :
    Real.sqrt ((2 * (n : ℝ) + 1) / (b - a)) * Real.sqrt ((2 * (m : ℝ) + 1) / (b - a)) =
      Real.sqrt (2 * (n : ℝ) + 1) * Real.sqrt (2 * (m : ℝ) + 1) / (b - a) := by
  have hs : Real.sqrt (b - a) * Real.sqrt (b - a) = b - a := Real.mul_self_sqrt (by linarith)
  have hp : 0 < Real.sqrt (b - a) := Real.sqrt_pos.2 (by linarith)
  rw [sqrt_split h, sqrt_split h, div_mul_div_comm, hs]

theorem hasDerivAt_zSlab {a b : ℝ} (h : a < b) (x : ℝ) :
    HasDerivAt (fun y => zSlab y a b) (2 / (b - a)) x := by
  simp_rw [zSlab_eq h]
  simpa using ((hasDerivAt_id x).const_mul (2 / (b - a))).sub_const ((a + b) / (b - a))

theorem hasDerivAt_normPn {a b : ℝ} (h : a < b) (n : ℕ) (x : ℝ) :
    HasDerivAt (fun y => normPn n y a b)
      ((derivative (legendre n)).eval (zSlab x a b) * (2 / (b - a)) *
        Real.sqrt ((2 * (n : ℝ) + 1) / (b - a))) x := by
  unfold normPn
  exact (((legendre n).hasDerivAt _).comp x (hasDerivAt_zSlab h x)).mul_const _

/-- Time derivative at fixed `x` of a basis function on a cell with moving edges. -/
theorem hasDerivAt_normPn_time {a b : ℝ → ℝ} {a' b' t : ℝ} (ha : HasDerivAt a a' t)
    (hb : HasDerivAt b b' t) (h : a t < b t) (n : ℕ) (x : ℝ) :
    HasDerivAt (fun s => normPn n x (a s) (b s))
      (Real.sqrt ((2 * (n : ℝ) + 1) / (b t - a t)) / (b t - a t) *
        (-(1 / 2) * (b' - a') * (legendre n).eval (zSlab x (a t) (b t))
          - ((a' + b') + zSlab x (a t) (b t) * (b' - a')) *
            (derivative (legendre n)).eval (zSlab x (a t) (b t)))) t := by
  have hne : a t - b t ≠ 0 := by linarith
  have hpos : 0 < b t - a t := by linarith
  have hne' : b t - a t ≠ 0 := hpos.ne'
  have hz : HasDerivAt (fun s => zSlab x (a s) (b s))
      (-((a' + b') + zSlab x (a t) (b t) * (b' - a')) / (b t - a t)) t := by
    unfold zSlab
    have := ((hb.add ha).sub_const (2 * x)).div (ha.sub hb) hne
    refine this.congr_deriv ?_
    simp only [Pi.add_apply, Pi.sub_apply]
    field_simp
    ring
  have hq : HasDerivAt (fun s => (2 * (n : ℝ) + 1) / (b s - a s))
      (-((2 * (n : ℝ) + 1) * (b' - a')) / (b t - a t) ^ 2) t := by
    have := (hasDerivAt_const t (2 * (n : ℝ) + 1)).div (hb.sub ha) hne'
    refine this.congr_deriv ?_
    simp only [Pi.sub_apply]
    ring
  have hp : (2 * (n : ℝ) + 1) / (b t - a t) ≠ 0 := by positivity
  have hs := hq.sqrt hp
  have hP := ((legendre n).hasDerivAt (zSlab x (a t) (b t))).comp t hz
  have := hP.mul hs
  unfold normPn
  refine this.congr_deriv ?_
  simp only [Function.comp_apply]
  set q := (2 * (n : ℝ) + 1) / (b t - a t) with hqdef
  have hsq : Real.sqrt q * Real.sqrt q = q := Real.mul_self_sqrt (by positivity)
  have hspos : Real.sqrt q ≠ 0 := (Real.sqrt_pos.2 (by positivity)).ne'
  have hk : -((2 * (n : ℝ) + 1) * (b' - a')) / (b t - a t) ^ 2 / (2 * Real.sqrt q) =
      -(1 / 2) * (b' - a') / (b t - a t) * Real.sqrt q := by
    rw [div_eq_iff (by positivity)]
    have : -(1 / 2) * (b' - a') / (b t - a t) * Real.sqrt q * (2 * Real.sqrt q) =
      -((b' - a') / (b t - a t)) * (Real.sqrt q * Real.sqrt q) := by ring
    rw [this, hsq, hqdef]
    field_simp
  rw [hk]
  field_simp
  ring

end Verif.Lemmas
