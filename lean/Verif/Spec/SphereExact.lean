import Verif.Spec.Sphere
import Verif.Spec.Angular
import Mathlib.Analysis.Calculus.ContDiff.Basic

/-!
Specification: solutions of the discrete-ordinates equation in spherical symmetry that are smooth on
every shell of a moving mesh, the projection of a function to the polynomials of a shell, and the
distance of a discrete state from such a solution.
-/

namespace Verif.Spec

open Set

/-- Redistribution term of direction `l`: difference of `(1 - μ²) ψ` over the edges of its angular
cell, with the mean of the two neighbours at an edge, divided by the width of the cell. -/
noncomputable def angularDifference (n : ℕ) (mus x : ℕ → ℝ) (l : ℕ) : ℝ :=
  ((1 - angularEdge n mus (l + 1) ^ 2) * ((x l + x (l + 1)) / 2)
    - (1 - angularEdge n mus l ^ 2) * ((x (l - 1) + x l) / 2)) / angularWidth n mus l

/-- `u l k r t` is the angular flux in direction `l` on shell `k`.  On the interior of the time
interval, outside the times `F`, it satisfies

`r² ∂u/∂t + μ_l ∂(r² u)/∂r + r D_l u = r² (-u + c ∑ w u + q)`

on every shell, where `D_l` is the angular difference; across an edge moving with velocity `v` the
flux `(μ_l - v) u` is continuous; nothing enters the sphere from outside. -/
structure SphereSolution (n : ℕ) (mus ws : ℕ → ℝ) (scat : ℝ) (N : ℕ) (e v : ℝ → ℕ → ℝ)
    (q : ℕ → ℝ → ℝ → ℝ) (a b : ℝ) (F : Set ℝ) (u : ℕ → ℕ → ℝ → ℝ → ℝ) : Prop where
  smooth : ∀ l < n, ∀ k < N, ContDiff ℝ 1 fun z : ℝ × ℝ => u l k z.1 z.2
  equation : ∀ t ∈ Ico a b \ F, ∀ l < n, ∀ k < N, ∀ r ∈ Icc (e t k) (e t (k + 1)),
    r ^ 2 * deriv (fun τ => u l k r τ) t + mus l * deriv (fun y => y ^ 2 * u l k y t) r
        + r * angularDifference n mus (fun l => u l k r t) l =
      r ^ 2 * (-u l k r t + scat * (∑ l' ∈ Finset.range n, ws l' * u l' k r t) + q k r t)
  continuousFlux : ∀ t ∈ Ico a b \ F, ∀ l < n, ∀ k, k + 1 < N →
    (mus l - v t (k + 1)) * u l k (e t (k + 1)) t =
      (mus l - v t (k + 1)) * u l (k + 1) (e t (k + 1)) t
  vacuum : ∀ t ∈ Ico a b \ F, ∀ l < n, mus l - v t N < 0 → u l (N - 1) (e t N) t = 0

/-- Moment of `f` with basis function `i` and the volume weight. -/
noncomputable def weightedMoment (f : ℝ → ℝ) (a b : ℝ) (i : ℕ) : ℝ :=
  ∫ r in a..b, r ^ 2 * (f r * sphereBasis i r a b)

/-- `P` are the coefficients of the projection of `f` in the volume weight: the difference is
orthogonal to all basis functions. -/
def IsSphereProjection (M : ℕ) (f : ℝ → ℝ) (a b : ℝ) (P : ℕ → ℝ) : Prop :=
  ∀ i ≤ M, ∫ r in a..b, r ^ 2 * ((f r - sphereField M P a b r) * sphereBasis i r a b) = 0

/-- Squared distance of the discrete state `V` from `u`, summed over directions and shells. -/
noncomputable def sphereSqDistance (n : ℕ) (ws : ℕ → ℝ) (N M : ℕ) (e : ℕ → ℝ) (V : ℕ → ℕ → ℕ → ℝ)
    (u : ℕ → ℕ → ℝ → ℝ) : ℝ :=
  ∑ l ∈ Finset.range n, ws l * ∑ k ∈ Finset.range N,
    ∫ r in (e k)..(e (k + 1)), r ^ 2 * (sphereField M (V l k) (e k) (e (k + 1)) r - u l k r) ^ 2

end Verif.Spec
