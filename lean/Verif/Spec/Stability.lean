import Verif.Spec.Transport

/-!
Specification: square norm and jumps of a discontinuous field on a mesh with `N` cells.
-/

namespace Verif.Spec

/-- Square integral of the field over all cells. -/
noncomputable def meshSqNorm (N M : ℕ) (e : ℕ → ℝ) (u : ℕ → ℕ → ℝ) : ℝ :=
  ∑ k ∈ Finset.range N, ∫ x in (e k)..(e (k + 1)), slabField M (u k) (e k) (e (k + 1)) x ^ 2

/-- Value of the field just left of edge `k`; zero left of the first edge. -/
noncomputable def traceLeft (M : ℕ) (e : ℕ → ℝ) (u : ℕ → ℕ → ℝ) : ℕ → ℝ
  | 0 => 0
  | k + 1 => slabField M (u k) (e k) (e (k + 1)) (e (k + 1))

/-- Value of the field just right of edge `k`; zero right of the last edge. -/
noncomputable def traceRight (N M : ℕ) (e : ℕ → ℝ) (u : ℕ → ℕ → ℝ) (k : ℕ) : ℝ :=
  if k < N then slabField M (u k) (e k) (e (k + 1)) (e k) else 0

/-- Jump of the field at edge `k`. -/
noncomputable def edgeJump (N M : ℕ) (e : ℕ → ℝ) (u : ℕ → ℕ → ℝ) (k : ℕ) : ℝ :=
  traceRight N M e u k - traceLeft M e u k

end Verif.Spec
