import Verif.Spec.Sphere
import Verif.Spec.Angular

/-!
Specification: square norm, first moment and jumps of a discontinuous radial field on a mesh with
`N` shells, and the middle of an angular cell.
-/

namespace Verif.Spec

/-- Square integral of the field over all shells (up to `4π`). -/
noncomputable def sphereSqNorm (N M : ℕ) (e : ℕ → ℝ) (u : ℕ → ℕ → ℝ) : ℝ :=
  ∑ k ∈ Finset.range N,
    ∫ r in (e k)..(e (k + 1)), r ^ 2 * sphereField M (u k) (e k) (e (k + 1)) r ^ 2

/-- Square integral of the field over all shells with the weight `r` instead of `r²`. -/
noncomputable def sphereSqMoment (N M : ℕ) (e : ℕ → ℝ) (u : ℕ → ℕ → ℝ) : ℝ :=
  ∑ k ∈ Finset.range N,
    ∫ r in (e k)..(e (k + 1)), r * sphereField M (u k) (e k) (e (k + 1)) r ^ 2

/-- Value of the field just inside of edge `k`; zero inside of the first edge. -/
noncomputable def sphereTraceLeft (M : ℕ) (e : ℕ → ℝ) (u : ℕ → ℕ → ℝ) : ℕ → ℝ
  | 0 => 0
  | k + 1 => sphereField M (u k) (e k) (e (k + 1)) (e (k + 1))

/-- Value of the field just outside of edge `k`; zero outside of the last edge. -/
noncomputable def sphereTraceRight (N M : ℕ) (e : ℕ → ℝ) (u : ℕ → ℕ → ℝ) (k : ℕ) : ℝ :=
  if k < N then sphereField M (u k) (e k) (e (k + 1)) (e k) else 0

/-- Jump of the field at edge `k`. -/
noncomputable def sphereJump (N M : ℕ) (e : ℕ → ℝ) (u : ℕ → ℕ → ℝ) (k : ℕ) : ℝ :=
  sphereTraceRight N M e u k - sphereTraceLeft M e u k

/-- Middle of angular cell `k`. -/
noncomputable def angularMid (n : ℕ) (mus : ℕ → ℝ) (k : ℕ) : ℝ :=
  (angularEdge n mus k + angularEdge n mus (k + 1)) / 2

end Verif.Spec
