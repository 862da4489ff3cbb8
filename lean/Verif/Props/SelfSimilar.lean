import Verif.Spec.Diffusion
import Verif.Model.Benchmarks
import Mathlib.Analysis.SpecialFunctions.Gaussian.GaussianIntegral
import Mathlib.Analysis.SpecialFunctions.Pow.Real
import Mathlib.Analysis.Calculus.Deriv.Inv
import Mathlib.Analysis.SpecialFunctions.Sqrt

/-!
Diffusion benchmarks (C93 to C96).
-/

namespace Verif.Props

open Verif.Model Verif.Spec Real Filter Topology MeasureTheory

/-- The heat kernel without its constant; `s` is diffusion coefficient times time. -/
noncomputable def heatKernel (z s : ℝ) : ℝ := exp (-z ^ 2 / (4 * s)) / √s

theorem heatKernel_deriv_z {s : ℝ} (_hs : 0 < s) (z : ℝ) :
    HasDerivAt (fun z => heatKernel z s) (-z / (2 * s) * heatKernel z s) z := by
  unfold heatKernel
  have h1 : HasDerivAt (fun z : ℝ => -z ^ 2 / (4 * s)) (-(2 * z) / (4 * s)) z := by
    have := ((hasDerivAt_pow 2 z).neg).div_const (4 * s)
    simpa using this
  have h2 := h1.exp.div_const (√s)
  refine h2.congr_deriv ?_
  field_simp
  ring

theorem heatKernel_deriv_s {s : ℝ} (hs : 0 < s) (z : ℝ) :
    HasDerivAt (fun s => heatKernel z s)
      ((z ^ 2 / (4 * s ^ 2) - 1 / (2 * s)) * heatKernel z s) s := by
  unfold heatKernel
  have hq : 0 < √s := sqrt_pos.mpr hs
  have hsq : √s * √s = s := mul_self_sqrt hs.le
  have h1 : HasDerivAt (fun s : ℝ => -z ^ 2 / (4 * s)) (z ^ 2 * 4 / (4 * s) ^ 2) s := by
    have h := (hasDerivAt_const s (-z ^ 2)).div ((hasDerivAt_id s).const_mul 4)
      (by simp only [id]; positivity)
    refine h.congr_deriv ?_
    simp only [id]
    ring
  have h2 := h1.exp.div (hasDerivAt_sqrt hs.ne') hq.ne'
  refine h2.congr_deriv ?_
  have hsq2 : √s ^ 2 = s := sq_sqrt hs.le
  rw [hsq2]
  have : 1 / (2 * √s) = √s / (2 * s) := by
    rw [div_eq_div_iff (by positivity) (by positivity)]
    nlinarith
  rw [this]
  rw [show exp (-z ^ 2 / (4 * s)) / √s = exp (-z ^ 2 / (4 * s)) * √s / s by
    rw [div_eq_div_iff hq.ne' hs.ne', mul_assoc, hsq]]
  field_simp

/-- The kernel, and any multiple, with `s = D τ + s0`. -/
theorem kernel_diffusion {D s0 K : ℝ} {u : ℝ → ℝ → ℝ} {z τ : ℝ} (hs : 0 < D * τ + s0)
    (hu : ∀ᶠ τ' in 𝓝 τ, ∀ y, u y τ' = K * heatKernel y (D * τ' + s0)) : DiffusionAt D u z τ := by
  have hu0 := hu.self_of_nhds
  refine ⟨fun y => K * (-y / (2 * (D * τ + s0)) * heatKernel y (D * τ + s0)),
    K * ((z ^ 2 / (4 * (D * τ + s0) ^ 2) - 1 / (2 * (D * τ + s0))) * heatKernel z (D * τ + s0)),
    fun y => ?_, ?_, ?_⟩
  · rw [show (fun y => u y τ) = fun y => K * heatKernel y (D * τ + s0) from funext hu0]
    exact (heatKernel_deriv_z hs y).const_mul K
  · have h1 : HasDerivAt (fun y : ℝ => -y / (2 * (D * τ + s0))) (-1 / (2 * (D * τ + s0))) z :=
      ((hasDerivAt_id z).neg).div_const _
    have h2 := (h1.mul (heatKernel_deriv_z hs z)).const_mul K
    refine h2.congr_deriv ?_
    field_simp
    ring
  · have h1 : HasDerivAt (fun τ' : ℝ => D * τ' + s0) D τ := by
      simpa using ((hasDerivAt_id τ).const_mul D).add_const s0
    have h2 := ((heatKernel_deriv_s hs z).comp τ h1).const_mul K
    refine (h2.congr_of_eventuallyEq ?_).congr_deriv ?_
    · filter_upwards [hu] with τ' h
      exact h z
    · ring

/-- The derivative of the kernel, and any multiple, with `s = D τ + s0`. -/
theorem dipole_diffusion {D s0 K : ℝ} {u : ℝ → ℝ → ℝ} {z τ : ℝ} (hs : 0 < D * τ + s0)
    (hu : ∀ᶠ τ' in 𝓝 τ, ∀ y, u y τ' =
      K * (y / (D * τ' + s0) * heatKernel y (D * τ' + s0))) : DiffusionAt D u z τ := by
  have hu0 := hu.self_of_nhds
  refine ⟨fun y => K * ((1 / (D * τ + s0) - y ^ 2 / (2 * (D * τ + s0) ^ 2)) *
      heatKernel y (D * τ + s0)),
    K * ((z ^ 3 / (4 * (D * τ + s0) ^ 3) - 3 * z / (2 * (D * τ + s0) ^ 2)) *
      heatKernel z (D * τ + s0)),
    fun y => ?_, ?_, ?_⟩
  · rw [show (fun y => u y τ) = fun y => K * (y / (D * τ + s0) * heatKernel y (D * τ + s0)) from
      funext hu0]
    have h1 : HasDerivAt (fun y : ℝ => y / (D * τ + s0)) (1 / (D * τ + s0)) y :=
      (hasDerivAt_id y).div_const _
    have h2 := (h1.mul (heatKernel_deriv_z hs y)).const_mul K
    refine h2.congr_deriv ?_
    field_simp
    ring
  · have h1 : HasDerivAt (fun y : ℝ => 1 / (D * τ + s0) - y ^ 2 / (2 * (D * τ + s0) ^ 2))
        (-(2 * z / (2 * (D * τ + s0) ^ 2))) z := by
      have := ((hasDerivAt_pow 2 z).div_const (2 * (D * τ + s0) ^ 2)).const_sub (1 / (D * τ + s0))
      simpa using this
    have h2 := (h1.mul (heatKernel_deriv_z hs z)).const_mul K
    refine h2.congr_deriv ?_
    field_simp
    ring
  · have h1 : HasDerivAt (fun τ' : ℝ => D * τ' + s0) D τ := by
      simpa using ((hasDerivAt_id τ).const_mul D).add_const s0
    have h3 : HasDerivAt (fun s : ℝ => z / s) (-(z / (D * τ + s0) ^ 2)) (D * τ + s0) := by
      have := (hasDerivAt_const (D * τ + s0) z).div (hasDerivAt_id (D * τ + s0)) hs.ne'
      refine this.congr_deriv ?_
      simp only [id]
      ring
    have h2 := (((h3.mul (heatKernel_deriv_s hs z)).comp τ h1)).const_mul K
    refine (h2.congr_of_eventuallyEq ?_).congr_deriv ?_
    · filter_upwards [hu] with τ' h
      exact h z
    · field_simp
      ring

theorem heatKernel_mass {s : ℝ} (hs : 0 < s) : ∫ z, heatKernel z s = 2 * √π := by
  unfold heatKernel
  rw [integral_div]
  have h := integral_gaussian (1 / (4 * s))
  rw [show (fun x : ℝ => exp (-(1 / (4 * s)) * x ^ 2)) = fun x => exp (-x ^ 2 / (4 * s)) from
    funext fun x => by congr 1; ring] at h
  rw [h, show π / (1 / (4 * s)) = 2 ^ 2 * π * s by field_simp; ring, sqrt_mul (by positivity),
    sqrt_mul (by positivity), sqrt_sq (by norm_num)]
  have : 0 < √s := sqrt_pos.mpr hs
  field_simp

/-! ### C93 -/

/-- The plane benchmark in the variables of the solver. -/
theorem ssTransport_eq {c σ t : ℝ} (hc : 0 < c) (hσ : 0 < σ) (ht : 0 < t) (x : ℝ) :
    ssTransport c σ x t = 1 / (2 * √π) * heatKernel x (1 / 3 * t + 0) := by
  have hpi : 0 < √π := sqrt_pos.mpr pi_pos
  have e1 : c / 3 / σ * (t / c / σ) = 1 / 3 * t / σ ^ 2 := by field_simp
  have hq : 0 < √(1 / 3 * t) := sqrt_pos.mpr (by positivity)
  have e2 : √(1 / 3 * t / σ ^ 2) = √(1 / 3 * t) / σ := by
    rw [sqrt_div (by positivity), sqrt_sq hσ.le]
  have e3 : √(1 / (1 / 3 * t / σ ^ 2)) = σ / √(1 / 3 * t) := by
    rw [one_div, sqrt_inv, e2, inv_div]
  unfold ssTransport ssBenchmark heatKernel
  simp only
  rw [e1, e2, e3, add_zero]
  have e4 : -(x / σ / (√(1 / 3 * t) / σ)) ^ 2 / 4 = -x ^ 2 / (4 * (1 / 3 * t)) := by
    rw [div_div_div_cancel_right₀ hσ.ne', div_pow, sq_sqrt (by positivity)]
    field_simp
  rw [e4]
  field_simp
  norm_num

/-- C93: the benchmark for the plane pulse solves the diffusion equation with the diffusion
coefficient 1/3 of transport with unit cross section, whatever `c` and `sigma` are used for
scaling. -/
theorem c93_plane_solves {c σ t : ℝ} (hc : 0 < c) (hσ : 0 < σ) (ht : 0 < t) (x : ℝ) :
    DiffusionAt (1 / 3) (ssTransport c σ) x t := by
  refine kernel_diffusion (s0 := 0) (K := 1 / (2 * √π)) (by positivity) ?_
  filter_upwards [eventually_gt_nhds ht] with t' ht' y
  exact ssTransport_eq hc hσ ht' y

/-- C93: and contains one particle at all times. -/
theorem c93_plane_mass {c σ t : ℝ} (hc : 0 < c) (hσ : 0 < σ) (ht : 0 < t) :
    ∫ x, ssTransport c σ x t = 1 := by
  rw [show (fun x => ssTransport c σ x t) = fun x => 1 / (2 * √π) * heatKernel x (1 / 3 * t + 0)
    from funext (ssTransport_eq hc hσ ht)]
  rw [integral_const_mul, heatKernel_mass (by positivity)]
  have hpi : 0 < √π := sqrt_pos.mpr pi_pos
  field_simp

theorem ssDipole_eq {c σ x0 t : ℝ} (hc : 0 < c) (hσ : 0 < σ) (hx0 : 0 < x0)
    (ht : 0 < 1 / 3 * t + x0 ^ 2 / 6) (x : ℝ) :
    ssDipole c σ x0 x t = x0 / (2 * √π) *
      (x / (1 / 3 * t + x0 ^ 2 / 6) * heatKernel x (1 / 3 * t + x0 ^ 2 / 6)) := by
  have hpi : 0 < √π := sqrt_pos.mpr pi_pos
  have e1 : c / 3 / σ * (t / c / σ - -(x0 / σ) ^ 2 / 6 / (c / 3 / σ)) =
      (1 / 3 * t + x0 ^ 2 / 6) / σ ^ 2 := by
    field_simp
    ring
  unfold ssDipole dipoleBenchmark heatKernel
  simp only
  rw [e1]
  obtain ⟨s, hs⟩ : ∃ s, s = 1 / 3 * t + x0 ^ 2 / 6 := ⟨_, rfl⟩
  rw [← hs] at ht ⊢
  have hq : 0 < √s := sqrt_pos.mpr ht
  have e2 : √(s / σ ^ 2) = √s / σ := by rw [sqrt_div ht.le, sqrt_sq hσ.le]
  rw [e2, div_div_div_cancel_right₀ hσ.ne']
  have e4 : -(x / √s) ^ 2 / 4 = -x ^ 2 / (4 * s) := by
    rw [div_pow, sq_sqrt ht.le]
    field_simp
  rw [e4]
  field_simp
  norm_num
  ring

/-- C93: the dipole benchmark solves the same equation, and vanishes at the plane of symmetry. -/
theorem c93_dipole_solves {c σ x0 t : ℝ} (hc : 0 < c) (hσ : 0 < σ) (hx0 : 0 < x0) (ht : 0 ≤ t)
    (x : ℝ) : DiffusionAt (1 / 3) (ssDipole c σ x0) x t ∧ ssDipole c σ x0 0 t = 0 := by
  have hpos : 0 < 1 / 3 * t + x0 ^ 2 / 6 := by positivity
  constructor
  · refine dipole_diffusion (s0 := x0 ^ 2 / 6) (K := x0 / (2 * √π)) hpos ?_
    have : Tendsto (fun t' : ℝ => 1 / 3 * t' + x0 ^ 2 / 6) (𝓝 t) (𝓝 (1 / 3 * t + x0 ^ 2 / 6)) :=
      ((continuous_const.mul continuous_id).add continuous_const).tendsto t
    filter_upwards [this.eventually (eventually_gt_nhds hpos)] with t' ht' y
    exact ssDipole_eq hc hσ hx0 ht' y
  · rw [ssDipole_eq hc hσ hx0 hpos]
    ring

/-- C93 fails for `benchmarkfull`: it reads a global instead of computing the similarity variable
from its arguments, so it gives the same value at every position and is no solution. -/
theorem c93_full_not_diffusion {xi A z tau : ℝ} (hA : 0 < A) (ht : 0 < tau) :
    ¬ DiffusionAt A (fun z τ => ssBenchmarkFull xi z τ A) z tau := by
  rintro ⟨uz, uzz, h1, h2, h3⟩
  have hpi : 0 < √π := sqrt_pos.mpr pi_pos
  have e1 : uz = fun _ => 0 := by
    funext y
    exact (h1 y).unique (hasDerivAt_const y _)
  rw [e1] at h2
  have e2 : uzz = 0 := h2.unique (hasDerivAt_const z _)
  rw [e2, mul_zero] at h3
  have hpos : 0 < A * tau := by positivity
  have h4 : HasDerivAt (fun s => √(A * s)) (A / (2 * √(A * tau))) tau := by
    have := (hasDerivAt_sqrt hpos.ne').comp tau ((hasDerivAt_id tau).const_mul A)
    refine this.congr_deriv ?_
    ring
  have h5 := (((hasDerivAt_const tau (1 : ℝ)).div h4 (sqrt_pos.mpr hpos).ne').mul_const
    0.5).mul_const (1 / √π) |>.mul_const (exp (-xi ^ 2 / 4))
  have h6 := h3.unique h5
  have hq : 0 < √(A * tau) := sqrt_pos.mpr hpos
  have h7 : 0 < A / (2 * √(A * tau)) / √(A * tau) ^ 2 * 0.5 * (1 / √π) * exp (-xi ^ 2 / 4) := by
    positivity
  rw [zero_mul, one_mul, zero_sub, neg_div] at h6
  linarith

example : DiffusionAt (1 / 3) (ssTransport 29.998 800) 3 5 :=
  c93_plane_solves (by norm_num) (by norm_num) (by norm_num) 3
example : ∫ x, ssTransport 29.998 1 x 16384 = 1 :=
  c93_plane_mass (by norm_num) (by norm_num) (by norm_num)
example : DiffusionAt (1 / 3) (ssDipole 29.998 1600 (1 / 10)) 3 5 :=
  (c93_dipole_solves (by norm_num) (by norm_num) (by norm_num) (by norm_num) 3).1
example : ¬ DiffusionAt 10 (fun z τ => ssBenchmarkFull 1 z τ 10) 3 2 :=
  c93_full_not_diffusion (by norm_num) (by norm_num)

/-! ### C94 -/

theorem gaussICFull_eq {τ ω A : ℝ} (hω : 0 < ω) (hA : 0 < A) (hτ : 0 < τ) (z : ℝ) :
    gaussICFull z τ ω A = ω / 2 * heatKernel z (A * τ + ω ^ 2 / 4) := by
  unfold gaussICFull heatKernel
  have hs : 0 < A * τ + ω ^ 2 / 4 := by positivity
  have e1 : √(A * τ) * √(4 / ω ^ 2 + 1 / A / τ) = 2 / ω * √(A * τ + ω ^ 2 / 4) := by
    rw [← sqrt_mul (by positivity), show A * τ * (4 / ω ^ 2 + 1 / A / τ) =
      (2 / ω) ^ 2 * (A * τ + ω ^ 2 / 4) by field_simp; ring, sqrt_mul (by positivity),
      sqrt_sq (by positivity)]
  rw [div_div, e1, show ω ^ 2 + 4 * A * τ = 4 * (A * τ + ω ^ 2 / 4) by ring]
  have : 0 < √(A * τ + ω ^ 2 / 4) := sqrt_pos.mpr hs
  field_simp

/-- C94: the benchmark for a Gaussian start solves the diffusion equation. -/
theorem c94_solves {τ ω A : ℝ} (hω : 0 < ω) (hA : 0 < A) (hτ : 0 < τ) (z : ℝ) :
    DiffusionAt A (fun z τ => gaussICFull z τ ω A) z τ := by
  refine kernel_diffusion (s0 := ω ^ 2 / 4) (K := ω / 2) (by positivity) ?_
  filter_upwards [eventually_gt_nhds hτ] with t' ht' y
  exact gaussICFull_eq hω hA ht' y

/-- C94: it starts from the Gaussian `exp (-z²/ω²)`. -/
theorem c94_initial {ω A : ℝ} (hω : 0 < ω) (hA : 0 < A) (z : ℝ) :
    Tendsto (fun τ => gaussICFull z τ ω A) (𝓝[>] 0) (𝓝 (exp (-z ^ 2 / ω ^ 2))) := by
  have hs : (0 : ℝ) < A * 0 + ω ^ 2 / 4 := by positivity
  have h1 : ContinuousAt (fun τ : ℝ => ω / 2 * heatKernel z (A * τ + ω ^ 2 / 4)) 0 := by
    have h2 : ContinuousAt (fun s => heatKernel z s) (A * 0 + ω ^ 2 / 4) :=
      (heatKernel_deriv_s hs z).continuousAt
    have h3 : ContinuousAt (fun τ : ℝ => A * τ + ω ^ 2 / 4) 0 := by fun_prop
    exact continuousAt_const.mul (ContinuousAt.comp (f := fun τ : ℝ => A * τ + ω ^ 2 / 4) h2 h3)
  have h4 : ω / 2 * heatKernel z (A * 0 + ω ^ 2 / 4) = exp (-z ^ 2 / ω ^ 2) := by
    unfold heatKernel
    rw [mul_zero, zero_add, show ω ^ 2 / 4 = (ω / 2) ^ 2 by ring, sqrt_sq (by positivity),
      show 4 * (ω / 2) ^ 2 = ω ^ 2 by ring]
    field_simp
  have h5 := h1.tendsto
  simp only [h4] at h5
  refine (h5.mono_left nhdsWithin_le_nhds).congr' ?_
  filter_upwards [self_mem_nhdsWithin] with τ hτ
  exact (gaussICFull_eq hω hA hτ z).symm

/-- C94: the number of particles stays that of the start. -/
theorem c94_mass {τ ω A : ℝ} (hω : 0 < ω) (hA : 0 < A) (hτ : 0 < τ) :
    ∫ z, gaussICFull z τ ω A = ∫ z, exp (-z ^ 2 / ω ^ 2) := by
  rw [show (fun z => gaussICFull z τ ω A) = fun z => ω / 2 * heatKernel z (A * τ + ω ^ 2 / 4)
    from funext (gaussICFull_eq hω hA hτ), integral_const_mul, heatKernel_mass (by positivity)]
  have h := integral_gaussian (1 / ω ^ 2)
  rw [show (fun x : ℝ => exp (-(1 / ω ^ 2) * x ^ 2)) = fun x => exp (-x ^ 2 / ω ^ 2) from
    funext fun x => by congr 1; ring] at h
  rw [h, show π / (1 / ω ^ 2) = ω ^ 2 * π by field_simp, sqrt_mul (by positivity), sqrt_sq hω.le]
  ring

/-- C94: with the scaling of line 448 it tends to `gaussian_IC_benchmark` at late times. -/
theorem c94_late {ω A : ℝ} (hω : 0 < ω) (hA : 0 < A) (xi : ℝ) :
    Tendsto (fun τ => gaussICFull (xi * √(A * τ)) τ ω A * (√(1 / ω ^ 2) * √(A * τ))) atTop
      (𝓝 (gaussICBenchmark xi)) := by
  have h1 : Tendsto (fun τ : ℝ => ω ^ 2 / (4 * (A * τ))) atTop (𝓝 0) := by
    refine Tendsto.div_atTop tendsto_const_nhds ?_
    exact (tendsto_id.const_mul_atTop hA).const_mul_atTop (by norm_num)
  have h2 : ContinuousAt (fun r : ℝ => exp (-xi ^ 2 / (4 * (1 + r))) / (2 * √(1 + r))) 0 := by
    have h3 : ContinuousAt (fun r : ℝ => -xi ^ 2 / (4 * (1 + r))) 0 :=
      ContinuousAt.div (by fun_prop) (by fun_prop) (by norm_num)
    have h4 : ContinuousAt (fun r : ℝ => 2 * √(1 + r)) 0 := by fun_prop
    exact ContinuousAt.div h3.rexp h4 (by simp)
  have h5 := h2.tendsto.comp h1
  have e : exp (-xi ^ 2 / (4 * (1 + 0))) / (2 * √(1 + 0)) = gaussICBenchmark xi := by
    unfold gaussICBenchmark
    rw [add_zero, sqrt_one]
    norm_num
    ring
  rw [e] at h5
  refine h5.congr' ?_
  filter_upwards [eventually_gt_atTop 0] with τ hτ
  have hp : 0 < A * τ := by positivity
  have hq : 0 < √(A * τ) := sqrt_pos.mpr hp
  simp only [Function.comp]
  rw [gaussICFull_eq hω hA hτ, heatKernel]
  have e1 : A * τ + ω ^ 2 / 4 = A * τ * (1 + ω ^ 2 / (4 * (A * τ))) := by field_simp
  have e2 : 0 < 1 + ω ^ 2 / (4 * (A * τ)) := by positivity
  have e3 : 0 < √(1 + ω ^ 2 / (4 * (A * τ))) := sqrt_pos.mpr e2
  have e4 : √(1 / ω ^ 2) = 1 / ω := by
    rw [sqrt_div (by norm_num), sqrt_one, sqrt_sq hω.le]
  have e5 : -(xi * √(A * τ)) ^ 2 / (4 * (A * τ * (1 + ω ^ 2 / (4 * (A * τ))))) =
      -xi ^ 2 / (4 * (1 + ω ^ 2 / (4 * (A * τ)))) := by
    rw [mul_pow, sq_sqrt hp.le]
    field_simp
  rw [e1, e4, e5, sqrt_mul hp.le]
  field_simp

example : DiffusionAt 10 (fun z τ => gaussICFull z τ 4 10) 3 (1 / 100) :=
  c94_solves (by norm_num) (by norm_num) (by norm_num) 3
example : Tendsto (fun τ => gaussICFull 1 τ 4 10) (𝓝[>] 0) (𝓝 (exp (-1 ^ 2 / 4 ^ 2))) :=
  c94_initial (by norm_num) (by norm_num) 1
example : ∫ z, gaussICFull z 7 4 10 = ∫ z, exp (-z ^ 2 / 4 ^ 2) :=
  c94_mass (by norm_num) (by norm_num) (by norm_num)
example : Tendsto (fun τ => gaussICFull (2 * √(10 * τ)) τ 4 10 * (√(1 / 4 ^ 2) * √(10 * τ))) atTop
    (𝓝 (gaussICBenchmark 2)) := c94_late (by norm_num) (by norm_num) 2

/-! ### C95 -/

/-- C95: the anisotropic part relaxes at the collision rate `1/ε²`. -/
theorem c95_relaxes (z ω ε μ τ : ℝ) :
    HasDerivAt (fun τ => nonisoPart z τ ω ε μ) (-(1 / ε ^ 2) * nonisoPart z τ ω ε μ) τ := by
  unfold nonisoPart
  simp only
  have h1 : HasDerivAt (fun τ : ℝ => -τ / ε ^ 2) (-1 / ε ^ 2) τ :=
    ((hasDerivAt_id τ).neg).div_const _
  refine (h1.exp.mul_const _).congr_deriv ?_
  ring

/-- C95: at the start, half the Gaussian plus the anisotropic part is the Gaussian in the
directions with positive cosine and nothing in the others. -/
theorem c95_initial (z ω ε μ : ℝ) :
    exp (-z ^ 2 / ω ^ 2) / 2 + nonisoPart z 0 ω ε μ =
      if 0 < μ then exp (-z ^ 2 / ω ^ 2) else 0 := by
  unfold nonisoPart
  simp only [neg_zero, zero_div, exp_zero, one_mul]
  split_ifs <;> ring

/-- C95: the anisotropic part does not contribute to the scalar flux: its angular sum vanishes for
a quadrature made of pairs of opposite directions. -/
theorem c95_no_scalar_flux (z τ ω ε : ℝ) (half : List (ℝ × ℝ)) (h : ∀ q ∈ half, 0 < q.1) :
    ((half.flatMap fun q => [(q.1, q.2), (-q.1, q.2)]).map fun q =>
      q.2 * nonisoPart z τ ω ε q.1).sum = 0 := by
  induction half with
  | nil => simp
  | cons q l ih =>
    have h0 := h q List.mem_cons_self
    have ih' := ih fun p hp => h p (List.mem_cons_of_mem _ hp)
    rw [List.flatMap_cons, List.map_append, List.sum_append, ih']
    simp only [List.map_cons, List.map_nil, List.sum_cons, List.sum_nil, nonisoPart]
    rw [if_pos h0, if_neg (by linarith)]
    ring

example : ((([(1 / 3, 1), (2 / 3, 2)] : List (ℝ × ℝ)).flatMap fun q => [(q.1, q.2), (-q.1, q.2)]).map
    fun q => q.2 * nonisoPart 1 2 3 4 q.1).sum = 0 :=
  c95_no_scalar_flux 1 2 3 4 _ (by
    intro q hq
    simp only [List.mem_cons, List.not_mem_nil, or_false] at hq
    rcases hq with h | h <;> rw [h] <;> norm_num)

/-! ### C96 -/

/-- C96: errors `C x^(-p)` at distinct sizes give the order `p`, wherever the averaging starts. -/
theorem c96_order {n start : ℕ} {x : ℕ → ℝ} {C : ℝ} (p : ℝ) (hC : 0 < C)
    (hx : ∀ i, i < n → 0 < x i) (hinj : ∀ i j, i < n → j < n → x i = x j → i = j)
    (hn : start + 1 < n) :
    loglogConverge n x (fun i => C * x i ^ (-p)) start = p := by
  unfold loglogConverge
  have hterm : ∀ k ∈ Finset.range (n - 1 - start),
      -log (C * x (prevIndex n (start + k)) ^ (-p) / (C * x (start + k) ^ (-p))) /
        log (x (prevIndex n (start + k)) / x (start + k)) = p := by
    intro k hk
    rw [Finset.mem_range] at hk
    have hi : start + k < n := by omega
    have hj : prevIndex n (start + k) < n := by unfold prevIndex; split_ifs <;> omega
    have hne : prevIndex n (start + k) ≠ start + k := by unfold prevIndex; split_ifs <;> omega
    have h1 := hx _ hi
    have h2 := hx _ hj
    have e : C * x (prevIndex n (start + k)) ^ (-p) / (C * x (start + k) ^ (-p)) =
        (x (prevIndex n (start + k)) / x (start + k)) ^ (-p) := by
      rw [Real.div_rpow h2.le h1.le]
      field_simp
    have hl : log (x (prevIndex n (start + k)) / x (start + k)) ≠ 0 := by
      refine Real.log_ne_zero_of_pos_of_ne_one (div_pos h2 h1) ?_
      intro h
      exact hne (hinj _ _ hj hi ((div_eq_one_iff_eq h1.ne').mp h))
    rw [e, Real.log_rpow (div_pos h2 h1)]
    field_simp
  rw [Finset.sum_congr rfl hterm, Finset.sum_const, Finset.card_range, nsmul_eq_mul]
  have : ((n - 1 - start : ℕ) : ℝ) ≠ 0 := by
    rw [Nat.cast_ne_zero]; omega
  field_simp

/-- C96 fails for the last point: the estimate does not depend on the last error unless the
averaging starts at the first point, where the last entry takes the place of the one before the
first. -/
theorem c96_last_ignored {n start : ℕ} {x e e' : ℕ → ℝ} (hs : 0 < start)
    (he : ∀ i, i + 1 < n → e i = e' i) : loglogConverge n x e start = loglogConverge n x e' start := by
  unfold loglogConverge
  congr 1
  refine Finset.sum_congr rfl fun k hk => ?_
  rw [Finset.mem_range] at hk
  rw [he (start + k) (by omega), he (prevIndex n (start + k)) (by
    unfold prevIndex; rw [if_neg (by omega)]; omega)]

example : loglogConverge 4 (fun i => 2 ^ (i + 1)) (fun i => 3 * ((2 : ℝ) ^ (i + 1)) ^ (-(2 : ℝ))) 0 =
    2 :=
  c96_order 2 (by norm_num) (fun i _ => by positivity) (fun i j _ _ h => by
    have := pow_right_injective₀ (by norm_num : (0 : ℝ) < 2) (by norm_num) h
    omega) (by norm_num)

example : loglogConverge 4 (fun i => 2 ^ (i + 1)) (fun i => if i = 3 then 100 else 1 / (i + 1)) 1 =
    loglogConverge 4 (fun i => 2 ^ (i + 1)) (fun i => 1 / (i + 1)) 1 :=
  c96_last_ignored (by norm_num) fun i hi => if_neg (by omega)

end Verif.Props
