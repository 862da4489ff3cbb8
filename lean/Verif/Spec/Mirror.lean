import Verif.Spec.Transport

/-! Specification: reflection `x ↦ -x` of meshes and expansions with `N` cells. -/

namespace Verif.Spec

/-- Positions or velocities of the edges of the reflected mesh. -/
def mirrorEdges (N : ℕ) (e : ℕ → ℝ) (k : ℕ) : ℝ := -e (N - k)

/-- Coefficients of the reflected field. -/
def mirrorField (N : ℕ) (u : ℕ → ℕ → ℝ) (k i : ℕ) : ℝ := (-1) ^ i * u (N - 1 - k) i

/-- Reflection of an angular flux with `n` directions: directions are reversed too. -/
def mirrorState (n N : ℕ) (V : ℕ → ℕ → ℕ → ℝ) (l : ℕ) : ℕ → ℕ → ℝ := mirrorField N (V (n - 1 - l))

/-- Directions and weights symmetric about zero. -/
structure SymmetricSet (n : ℕ) (mus ws : ℕ → ℝ) : Prop where
  mu : ∀ l < n, mus (n - 1 - l) = -mus l
  w : ∀ l < n, ws (n - 1 - l) = ws l

end Verif.Spec
