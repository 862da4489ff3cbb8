import Mathlib.Analysis.Calculus.Deriv.Basic
import Mathlib.Analysis.SpecialFunctions.Exp

/-!
Specification: the diffusion equation in one dimension.
-/

namespace Verif.Spec

/-- At the point `z` and time `τ` the function `u position time` satisfies `∂u/∂τ = D ∂²u/∂z²`. -/
def DiffusionAt (D : ℝ) (u : ℝ → ℝ → ℝ) (z τ : ℝ) : Prop :=
  ∃ (uz : ℝ → ℝ) (uzz : ℝ), (∀ y, HasDerivAt (fun y => u y τ) (uz y) y) ∧ HasDerivAt uz uzz z ∧
    HasDerivAt (fun s => u z s) (D * uzz) τ

end Verif.Spec
