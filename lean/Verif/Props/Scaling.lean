import Verif.Model.Driver
import Verif.Spec.Scaling
import Mathlib.Analysis.SpecialFunctions.ExpDeriv
import Mathlib.MeasureTheory.Integral.IntervalIntegral.FundThmCalculus
import Mathlib.MeasureTheory.Measure.Haar.NormedSpace
import Mathlib.Topology.Algebra.Order.LiminfLimsup
import Mathlib.Analysis.SpecialFunctions.Trigonometric.Basic
import Mathlib.Tactic.FieldSimp
import Mathlib.Tactic.Linarith

/-!
C97: the benchmark for a scattering ratio below one, obtained by scaling one for ratio one.
-/

namespace Verif.Props

open Verif.Model Verif.Spec Filter Topology MeasureTheory

/-- The angular flux behind solver.py 241. -/
noncomputable def scaledField (c : ℝ) (ψ : ℝ → ℝ → ℝ → ℝ) (x μ t : ℝ) : ℝ :=
  c * Real.exp (-(1 - c) * t) * ψ (x * c) μ (t * c)

/-- The scaled benchmark is the scalar flux of the scaled angular flux. -/
theorem scaledBench_eq {φ : ℝ → ℝ → ℝ} {ψ : ℝ → ℝ → ℝ → ℝ}
    (hφ : ∀ t x, φ t x = ∫ μ in (-1)..1, ψ x μ t) (heven : ∀ t x, φ t (-x) = φ t x) (c t x : ℝ) :
    scaledBench true φ c t x = ∫ μ in (-1)..1, scaledField c ψ x μ t := by
  unfold scaledField
  rw [intervalIntegral.integral_const_mul, ← hφ]
  have : φ (t * c) |x * c| = φ (t * c) (x * c) := by
    rcases abs_choice (x * c) with h | h <;> rw [h]
    exact heven _ _
  simp only [scaledBench, benchTime, if_true, this]

/-- C97: if the benchmark solves the transport equation with scattering ratio one, the scaled
benchmark solves the one with ratio `c`. -/
theorem c97_solves_partial {c x μ t : ℝ} {ψ : ℝ → ℝ → ℝ → ℝ} (h : IsotropicTransportAt 1 ψ (x * c) μ (t * c)) :
    IsotropicTransportAt c (scaledField c ψ) x μ t := by
  obtain ⟨ψt, ψx, h1, h2, h3⟩ := h
  have e1 : HasDerivAt (fun s : ℝ => Real.exp (-(1 - c) * s))
      (Real.exp (-(1 - c) * t) * (-(1 - c) * 1)) t :=
    ((hasDerivAt_id t).const_mul (-(1 - c))).exp
  have e2 : HasDerivAt (fun s : ℝ => ψ (x * c) μ (s * c)) (ψt * (1 * c)) t :=
    HasDerivAt.comp t h1 ((hasDerivAt_id t).mul_const c)
  have e3 : HasDerivAt (fun y : ℝ => ψ (y * c) μ (t * c)) (ψx * (1 * c)) x :=
    HasDerivAt.comp (h₂ := fun y => ψ y μ (t * c)) x h2 ((hasDerivAt_id x).mul_const c)
  refine ⟨_, _, (e1.const_mul c).mul e2, e3.const_mul (c * Real.exp (-(1 - c) * t)), ?_⟩
  unfold scaledField
  rw [intervalIntegral.integral_const_mul]
  linear_combination c * (c * Real.exp (-(1 - c) * t)) * h3

/-- C97: it has lost the particles absorbed so far. -/
theorem c97_mass_partial {φ : ℝ → ℝ → ℝ} (heven : ∀ t x, φ t (-x) = φ t x) {c : ℝ} (hc : 0 < c)
    (t : ℝ) : ∫ x, scaledBench true φ c t x = Real.exp (-(1 - c) * t) * ∫ x, φ (t * c) x := by
  have e : ∀ x, scaledBench true φ c t x =
      c * Real.exp (-(1 - c) * t) * φ (t * c) (x * c) := by
    intro x
    have : φ (t * c) |x * c| = φ (t * c) (x * c) := by
      rcases abs_choice (x * c) with h | h <;> rw [h]
      exact heven _ _
    simp only [scaledBench, benchTime, if_true, this]
  simp_rw [e]
  rw [integral_const_mul, Measure.integral_comp_mul_right (fun y => φ (t * c) y) c,
    abs_of_pos (inv_pos.mpr hc), smul_eq_mul]
  field_simp

/-- C97: it starts from the unit plane pulse if the benchmark does. -/
theorem c97_pulse_start_partial {φ : ℝ → ℝ → ℝ} (heven : ∀ t x, φ t (-x) = φ t x)
    (hpulse : ∀ g : ℝ → ℝ, Continuous g → (∃ B, ∀ x, |g x| ≤ B) →
      Tendsto (fun s => ∫ x, φ s x * g x) (𝓝[>] 0) (𝓝 (g 0)))
    {c : ℝ} (hc : 0 < c) {g : ℝ → ℝ} (hg : Continuous g) (hB : ∃ B, ∀ x, |g x| ≤ B) :
    Tendsto (fun s => ∫ x, scaledBench true φ c s x * g x) (𝓝[>] 0) (𝓝 (g 0)) := by
  have e : ∀ s, ∫ x, scaledBench true φ c s x * g x =
      Real.exp (-(1 - c) * s) * ∫ y, φ (s * c) y * g (y / c) := by
    intro s
    have e1 : ∀ x, scaledBench true φ c s x * g x =
        c * Real.exp (-(1 - c) * s) * (φ (s * c) (x * c) * g ((x * c) / c)) := by
      intro x
      have : φ (s * c) |x * c| = φ (s * c) (x * c) := by
        rcases abs_choice (x * c) with h | h <;> rw [h]
        exact heven _ _
      simp only [scaledBench, benchTime, if_true, this]
      rw [mul_div_cancel_right₀ _ hc.ne']
      ring
    simp_rw [e1]
    rw [integral_const_mul, Measure.integral_comp_mul_right (fun y => φ (s * c) y * g (y / c)) c,
      abs_of_pos (inv_pos.mpr hc), smul_eq_mul]
    field_simp
  simp_rw [e]
  have t1 : Tendsto (fun s : ℝ => Real.exp (-(1 - c) * s)) (𝓝[>] 0) (𝓝 1) := by
    have : Continuous fun s : ℝ => Real.exp (-(1 - c) * s) := by fun_prop
    have h := this.tendsto 0
    rw [mul_zero, Real.exp_zero] at h
    exact h.mono_left nhdsWithin_le_nhds
  have t2 : Tendsto (fun s : ℝ => s * c) (𝓝[>] 0) (𝓝[>] 0) := by
    refine tendsto_nhdsWithin_iff.mpr ⟨?_, ?_⟩
    · have : Continuous fun s : ℝ => s * c := by fun_prop
      have h := this.tendsto 0
      rw [zero_mul] at h
      exact h.mono_left nhdsWithin_le_nhds
    · filter_upwards [self_mem_nhdsWithin] with s hs
      exact mul_pos hs hc
  obtain ⟨B, hB⟩ := hB
  have t3 := hpulse (fun y => g (y / c)) (hg.comp (continuous_id.div_const c)) ⟨B, fun x => hB _⟩
  have := t1.mul (t3.comp t2)
  simpa using this

/-- C97 fails for every other start: where the initial flux at the origin is finite and not zero,
the scaled benchmark starts from another one. -/
theorem c97_finite_start {φ : ℝ → ℝ → ℝ} (h0 : φ 0 0 ≠ 0) {c : ℝ} (hc : c ≠ 1) :
    scaledBench true φ c 0 0 ≠ φ 0 0 := by
  simp only [scaledBench, benchTime, if_true, mul_zero, zero_mul, Real.exp_zero, mul_one, abs_zero]
  intro h
  exact hc (mul_right_cancel₀ h0 (by linarith))

/-- C97: a volume source is scaled too: the scaled flux solves the equation with the source
`c^2 exp(-(1-c)t) Q(cx, ct)`, not `Q`. -/
theorem c97_source {c x μ t q : ℝ} {ψ : ℝ → ℝ → ℝ → ℝ}
    (h : ∃ ψt ψx, HasDerivAt (fun s => ψ (x * c) μ s) ψt (t * c) ∧
      HasDerivAt (fun y => ψ y μ (t * c)) ψx (x * c) ∧
      ψt + μ * ψx + ψ (x * c) μ (t * c) = 1 / 2 * (∫ μ' in (-1)..1, ψ (x * c) μ' (t * c)) + q) :
    ∃ ψt ψx, HasDerivAt (fun s => scaledField c ψ x μ s) ψt t ∧
      HasDerivAt (fun y => scaledField c ψ y μ t) ψx x ∧
      ψt + μ * ψx + scaledField c ψ x μ t =
        c / 2 * (∫ μ' in (-1)..1, scaledField c ψ x μ' t) +
          c ^ 2 * Real.exp (-(1 - c) * t) * q := by
  obtain ⟨ψt, ψx, h1, h2, h3⟩ := h
  have e1 : HasDerivAt (fun s : ℝ => Real.exp (-(1 - c) * s))
      (Real.exp (-(1 - c) * t) * (-(1 - c) * 1)) t :=
    ((hasDerivAt_id t).const_mul (-(1 - c))).exp
  have e2 : HasDerivAt (fun s : ℝ => ψ (x * c) μ (s * c)) (ψt * (1 * c)) t :=
    HasDerivAt.comp t h1 ((hasDerivAt_id t).mul_const c)
  have e3 : HasDerivAt (fun y : ℝ => ψ (y * c) μ (t * c)) (ψx * (1 * c)) x :=
    HasDerivAt.comp (h₂ := fun y => ψ y μ (t * c)) x h2 ((hasDerivAt_id x).mul_const c)
  refine ⟨_, _, (e1.const_mul c).mul e2, e3.const_mul (c * Real.exp (-(1 - c) * t)), ?_⟩
  unfold scaledField
  rw [intervalIntegral.integral_const_mul]
  linear_combination c * (c * Real.exp (-(1 - c) * t)) * h3

/-- A solution for ratio one: constant in space and angle. -/
example : IsotropicTransportAt (1 / 2) (scaledField (1 / 2) fun _ _ _ => 3) 1 (1 / 3) 2 :=
  c97_solves_partial ⟨0, 0, hasDerivAt_const _ _, hasDerivAt_const _ _, by
    rw [intervalIntegral.integral_const]; norm_num⟩

example : ∫ x, scaledBench true (fun t x => Real.exp (-t) * Real.exp (-x ^ 2)) (1 / 2) 3 x =
    Real.exp (-(1 - 1 / 2) * 3) * ∫ x, Real.exp (-(3 * (1 / 2))) * Real.exp (-x ^ 2) :=
  c97_mass_partial (φ := fun t x => Real.exp (-t) * Real.exp (-x ^ 2))
    (fun t x => by simp only [neg_sq]) (by norm_num) 3

/-- Spreading boxes are a pulse. -/
theorem box_pulse (g : ℝ → ℝ) (hg : Continuous g) :
    Tendsto (fun s : ℝ => ∫ x, Set.indicator (Set.Ioc (-s) s) (fun _ => 1 / (2 * s)) x * g x)
      (𝓝[>] 0) (𝓝 (g 0)) := by
  have hF : HasDerivAt (fun s => (∫ x in (0 : ℝ)..s, g x) - ∫ x in (0 : ℝ)..(-s), g x)
      (g 0 - g (-0) * (-1)) 0 := by
    refine HasDerivAt.sub (intervalIntegral.integral_hasDerivAt_right (hg.intervalIntegrable _ _)
      (hg.stronglyMeasurableAtFilter _ _) hg.continuousAt) ?_
    exact HasDerivAt.comp (h₂ := fun s => ∫ x in (0 : ℝ)..s, g x) (0 : ℝ)
      (intervalIntegral.integral_hasDerivAt_right (hg.intervalIntegrable _ _)
      (hg.stronglyMeasurableAtFilter _ _) hg.continuousAt) (hasDerivAt_neg 0)
  have hs := hF.hasDerivWithinAt (s := Set.Ioi 0)
  rw [hasDerivWithinAt_iff_tendsto_slope' (Set.self_notMem_Ioi)] at hs
  have := hs.const_mul (1 / 2)
  have e0 : 1 / 2 * (g 0 - g (-0) * (-1)) = g 0 := by rw [neg_zero]; ring
  rw [e0] at this
  refine this.congr' ?_
  filter_upwards [self_mem_nhdsWithin] with s hs
  have hs0 : (0 : ℝ) < s := hs
  have e1 : ∀ x, Set.indicator (Set.Ioc (-s) s) (fun _ => 1 / (2 * s)) x * g x =
      Set.indicator (Set.Ioc (-s) s) (fun x => 1 / (2 * s) * g x) x := by
    intro x
    by_cases hx : x ∈ Set.Ioc (-s) s
    · rw [Set.indicator_of_mem hx, Set.indicator_of_mem hx]
    · rw [Set.indicator_of_notMem hx, Set.indicator_of_notMem hx, zero_mul]
  simp_rw [e1]
  rw [integral_indicator measurableSet_Ioc, integral_const_mul,
    ← intervalIntegral.integral_of_le (by linarith), slope_def_field,
    intervalIntegral.integral_interval_sub_left (hg.intervalIntegrable _ _)
      (hg.intervalIntegrable _ _)]
  simp only [intervalIntegral.integral_same, neg_zero, sub_zero]
  field_simp

/-- The start of the plane pulse, with a benchmark that spreads out from the origin. -/
example : Tendsto (fun s => ∫ x, scaledBench true (fun s x => if 0 < s ∧ |x| ≤ s then 1 / (2 * s)
    else 0) (1 / 2) s x * Real.cos x) (𝓝[>] 0) (𝓝 (Real.cos 0)) := by
  refine c97_pulse_start_partial (fun t x => by rw [abs_neg]) ?_ (by norm_num) Real.continuous_cos
    ⟨1, Real.abs_cos_le_one⟩
  intro g hg _
  refine (box_pulse g hg).congr' ?_
  filter_upwards [self_mem_nhdsWithin] with s hs
  have hs0 : (0 : ℝ) < s := hs
  refine integral_congr_ae ?_
  have : ∀ᵐ x : ℝ, x ≠ -s := by
    rw [ae_iff]
    simp
  filter_upwards [this] with x hx
  congr 1
  by_cases h : x ∈ Set.Ioc (-s) s
  · rw [Set.indicator_of_mem h, if_pos ⟨hs0, abs_le.mpr ⟨h.1.le, h.2⟩⟩]
  · rw [Set.indicator_of_notMem h, if_neg]
    rintro ⟨-, h'⟩
    rw [abs_le] at h'
    exact h ⟨lt_of_le_of_ne h'.1 (Ne.symm hx), h'.2⟩

/-- The square pulse. -/
example : scaledBench true (fun _ x => if |x| ≤ 1 / 2 then 1 else 0) (1 / 2) 0 0 ≠
    (fun _ x : ℝ => if |x| ≤ 1 / 2 then (1 : ℝ) else 0) 0 0 :=
  c97_finite_start (φ := fun _ x => if |x| ≤ 1 / 2 then (1 : ℝ) else 0)
    (by norm_num) (by norm_num)

end Verif.Props
