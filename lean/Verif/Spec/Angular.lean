import Mathlib.Algebra.BigOperators.Group.Finset.Basic
import Mathlib.Data.Real.Basic

/-! Specification: angular cells implied by a set of direction cosines. -/

namespace Verif.Spec

/-- Edges of the angular cells for `n` increasing cosines: `-1`, midpoints, `1`. -/
noncomputable def angularEdge (n : ℕ) (mus : ℕ → ℝ) (k : ℕ) : ℝ :=
  if k = 0 then -1 else if k = n then 1 else (mus (k - 1) + mus k) / 2

/-- Width of angular cell `k`. -/
noncomputable def angularWidth (n : ℕ) (mus : ℕ → ℝ) (k : ℕ) : ℝ :=
  angularEdge n mus (k + 1) - angularEdge n mus k

/-- Strictly increasing cosines in `[-1,1]`, at least two of them. -/
structure DirectionSet (n : ℕ) (mus : ℕ → ℝ) : Prop where
  two : 2 ≤ n
  lower : -1 ≤ mus 0
  upper : mus (n - 1) ≤ 1
  mono : ∀ k, k + 1 < n → mus k < mus (k + 1)

end Verif.Spec
