import Mathlib.Analysis.Calculus.Deriv.Basic
import Mathlib.MeasureTheory.Integral.IntervalIntegral.Basic

/-!
The one-speed transport equation with isotropic scattering, in mean free paths.
-/

namespace Verif.Spec

/-- `ψ_t + μ ψ_x + ψ = (c/2) ∫ ψ dμ` at one point. -/
def IsotropicTransportAt (c : ℝ) (ψ : ℝ → ℝ → ℝ → ℝ) (x μ t : ℝ) : Prop :=
  ∃ ψt ψx, HasDerivAt (fun s => ψ x μ s) ψt t ∧ HasDerivAt (fun y => ψ y μ t) ψx x ∧
    ψt + μ * ψx + ψ x μ t = c / 2 * ∫ μ' in (-1)..1, ψ x μ' t

end Verif.Spec
