import Mathlib.MeasureTheory.Integral.IntervalIntegral.Basic
import Mathlib.Analysis.SpecialFunctions.Exp

/-!
Specification: a beam entering through the left end and attenuated on its way.

A particle found at `x` at time `t` in direction `μ > 0` crossed the left end `a` at time
`t - (x - a) / μ`, and was at `s` at time `t - (x - s) / μ`.
-/

namespace Verif.Spec

open Real

/-- Time at which a particle found at `x` at time `t` was at `s`. -/
noncomputable def passTime (s x t μ : ℝ) : ℝ := t - (x - s) / μ

/-- Number of mean free paths between the left end `a` and `x`, for an opacity `σ position time`. -/
noncomputable def opticalDepth (σ : ℝ → ℝ → ℝ) (a x t μ : ℝ) : ℝ :=
  (∫ s in a..x, σ s (passTime s x t μ)) / μ

/-- Angular flux of the beam that enters through `a` with strength `inflow time`. -/
noncomputable def beam (σ : ℝ → ℝ → ℝ) (inflow : ℝ → ℝ) (a x t μ : ℝ) : ℝ :=
  inflow (passTime a x t μ) * exp (-opticalDepth σ a x t μ)

end Verif.Spec
