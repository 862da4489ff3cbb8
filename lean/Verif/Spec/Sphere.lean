import Verif.Spec.Transport
import Mathlib.Analysis.Calculus.Deriv.Basic

/-!
Specification: Galerkin matrices of the spherical transport equation on one cell `[a,b]` with the
Chebyshev basis and the volume weight `r²`.
-/

namespace Verif.Spec

/-- Mass matrix `∫ r² B_i B_j`. -/
noncomputable def sphereMass (i j : ℕ) (a b : ℝ) : ℝ :=
  ∫ r in a..b, r ^ 2 * (sphereBasis i r a b * sphereBasis j r a b)

/-- `∫ r B_i B_j`, the matrix of the angular redistribution term. -/
noncomputable def sphereJ (i j : ℕ) (a b : ℝ) : ℝ :=
  ∫ r in a..b, r * (sphereBasis i r a b * sphereBasis j r a b)

/-- Streaming matrix `∫ r² B_i' B_j`. -/
noncomputable def sphereL (i j : ℕ) (a b : ℝ) : ℝ :=
  ∫ r in a..b, r ^ 2 * (deriv (fun x => sphereBasis i x a b) r * sphereBasis j r a b)

/-- Particle content of a spherical shell cell (without the factor `4π`). -/
noncomputable def sphereContent (M : ℕ) (U : ℕ → ℝ) (a b : ℝ) : ℝ :=
  ∫ r in a..b, r ^ 2 * sphereField M U a b r

end Verif.Spec
