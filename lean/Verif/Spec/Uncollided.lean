import Mathlib.MeasureTheory.Measure.Lebesgue.Basic
import Mathlib.MeasureTheory.Integral.IntervalIntegral.Basic
import Mathlib.Analysis.SpecialFunctions.Sqrt
import Mathlib.Analysis.SpecialFunctions.Trigonometric.Basic

/-!
Specification: particles that have not collided.

A particle at `x` moving in direction `μ` that started a time `s` ago started at `x - μ s`, and has
not collided yet with probability `exp (-s)`.  Time is measured in mean free times, so that the
total cross section and the speed are one.
-/

namespace Verif.Spec

open MeasureTheory Real

/-- The directions in which a particle found at `x` after a time `s` can have started within `x0`
of the origin. -/
def directions (x s x0 : ℝ) : Set ℝ := {μ | -1 ≤ μ ∧ μ ≤ 1 ∧ |x - μ * s| ≤ x0}

/-- Scalar flux, a time `s` after a unit isotropic pulse on `[-x0, x0]`. -/
noncomputable def squarePulse (x s x0 : ℝ) : ℝ :=
  exp (-s) * ((volume (directions x s x0)).toReal / 2)

/-- Scalar flux at time `t` of a unit isotropic source on `[-x0, x0]`, on from time 0 to `t0`. -/
noncomputable def squareSource (x t x0 t0 : ℝ) : ℝ :=
  ∫ τ in (0 : ℝ)..min t t0, squarePulse x (t - τ) x0

/-- The number of the two directions `±1/√3` in `directions`. -/
noncomputable def twoRays (x s x0 : ℝ) : ℝ :=
  (if |x - s / √3| ≤ x0 then 1 else 0) + (if |x + s / √3| ≤ x0 then 1 else 0)

/-- `squareSource` with the two directions `±1/√3` instead of all. -/
noncomputable def squareSourceS2 (x t x0 t0 : ℝ) : ℝ :=
  ∫ τ in (0 : ℝ)..min t t0, exp (-(t - τ)) / 2 * twoRays x (t - τ) x0

/-- Scalar flux, a time `s` after an isotropic pulse `exp (-x²/σ²)`. -/
noncomputable def gaussPulse (x s σ : ℝ) : ℝ :=
  exp (-s) * ((∫ μ in (-1 : ℝ)..1, exp (-((x - μ * s) ^ 2 / σ ^ 2))) / 2)

/-- Scalar flux at time `t` of a Gaussian source with the two directions `±1/√3`. -/
noncomputable def gaussSourceS2 (x t σ t0 : ℝ) : ℝ :=
  ∫ τ in (0 : ℝ)..min t t0, exp (-(t - τ)) / 2 *
    (exp (-((x - (t - τ) / √3) ^ 2 / σ ^ 2)) + exp (-((x + (t - τ) / √3) ^ 2 / σ ^ 2)))

/-- In the sphere: the direction cosines at radius `r` in which a particle can have started, a time
`s` ago, inside the ball of radius `x0`. -/
def ballDirections (r s x0 : ℝ) : Set ℝ :=
  {μ | -1 ≤ μ ∧ μ ≤ 1 ∧ r ^ 2 + s ^ 2 - 2 * μ * r * s ≤ x0 ^ 2}

/-- The error function. -/
noncomputable def erf (x : ℝ) : ℝ := 2 / √π * ∫ u in (0 : ℝ)..x, exp (-u ^ 2)

/-- What is used of the exponential integral: its derivative on the negative axis. -/
def IsExpi (Ei : ℝ → ℝ) : Prop := ∀ u, u < 0 → HasDerivAt Ei (exp u / u) u

end Verif.Spec
