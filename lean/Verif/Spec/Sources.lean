import Verif.Spec.Transport
import Mathlib.Analysis.Calculus.Deriv.Basic

/-!
Specification for sources and initial conditions.
-/

namespace Verif.Spec

/-- The angular flux `ψ x t μ` satisfies, at one point, the transport equation with unit total
cross section, scattering ratio `c`, discrete directions `dirs` (cosine, weight; weights summing to
one) and isotropic source density `q / 2`:
`ψ_t + μ ψ_x + ψ = c Σ_l w_l ψ(μ_l) + q / 2`. -/
def TransportAt (dirs : List (ℝ × ℝ)) (c q : ℝ) (ψ : ℝ → ℝ → ℝ → ℝ) (x t μ : ℝ) : Prop :=
  ∃ dt dx, HasDerivAt (fun s => ψ x s μ) dt t ∧ HasDerivAt (fun y => ψ y t μ) dx x ∧
    dt + μ * dx + ψ x t μ = c * (dirs.map fun d => d.2 * ψ x t d.1).sum + q / 2

/-- The cell `[a, b]` lies inside or outside `[-r, r]`. -/
def Aligned (r a b : ℝ) : Prop := (-r ≤ a ∧ b ≤ r) ∨ b ≤ -r ∨ r ≤ a

end Verif.Spec
