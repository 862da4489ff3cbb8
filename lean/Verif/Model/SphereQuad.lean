import Verif.Model.Numerics

/-!
The points and weights with which `solve` integrates over the cells of a sphere
(`solver_functions/main_functions.py` 119-120).
-/

namespace Verif.Model

/-- main_functions.py 120: `xs_quad, ws_quad = quadrature(6*M+1, 'chebyshev')`. -/
noncomputable def sphereQuad (M : ℕ) : List (ℝ × ℝ) :=
  (List.range (6 * M + 1)).map fun i => (chebNode (6 * M + 1) i, chebWeight (6 * M + 1) i)

end Verif.Model
