import Verif.Spec.Transport

/-!
Specification: projection of a function to the polynomials of a cell.
-/

namespace Verif.Spec

/-- Coefficient `i` of the orthogonal projection of `f` on the cell `[a,b]`. -/
noncomputable def projection (f : ℝ → ℝ) (a b : ℝ) (i : ℕ) : ℝ :=
  ∫ x in a..b, f x * slabBasis i x a b

/-- Point of the cell `[a,b]` with reference coordinate `ξ`. -/
noncomputable def cellPoint (a b ξ : ℝ) : ℝ := (b - a) / 2 * ξ + (a + b) / 2

end Verif.Spec
