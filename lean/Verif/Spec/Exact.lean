import Verif.Spec.Projection
import Verif.Spec.Stability
import Mathlib.Analysis.Calculus.ContDiff.Basic

/-!
Specification: solutions of the discrete-ordinates equation in a slab that are smooth on every cell
of a moving mesh, and the distance of a discrete state from such a solution.
-/

namespace Verif.Spec

open Set

/-- `u l k x t` is the angular flux in direction `l` on cell `k`.  On the interior of the time
interval, outside the times `F`, it satisfies

`∂u/∂t + μ_l ∂u/∂x = -u + c ∑ w u + q`

on every cell; across an edge moving with velocity `v` the flux `(μ_l - v) u` is continuous; where
particles enter the mesh `u` takes the prescribed value.  Jumps and kinks of `u` are allowed at the
edges.  `u l k` is smooth as a function on the plane; only its values on the cell matter. -/
structure PiecewiseSolution (n : ℕ) (mus ws : ℕ → ℝ) (scat : ℝ) (N : ℕ) (e v : ℝ → ℕ → ℝ)
    (inL inR : ℝ → ℝ) (q : ℕ → ℝ → ℝ → ℝ) (a b : ℝ) (F : Set ℝ)
    (u : ℕ → ℕ → ℝ → ℝ → ℝ) : Prop where
  smooth : ∀ l < n, ∀ k < N, ContDiff ℝ 1 fun z : ℝ × ℝ => u l k z.1 z.2
  equation : ∀ t ∈ Ico a b \ F, ∀ l < n, ∀ k < N, ∀ x ∈ Icc (e t k) (e t (k + 1)),
    deriv (fun τ => u l k x τ) t + mus l * deriv (fun y => u l k y t) x =
      -u l k x t + scat * (∑ l' ∈ Finset.range n, ws l' * u l' k x t) + q k x t
  continuousFlux : ∀ t ∈ Ico a b \ F, ∀ l < n, ∀ k, k + 1 < N →
    (mus l - v t (k + 1)) * u l k (e t (k + 1)) t =
      (mus l - v t (k + 1)) * u l (k + 1) (e t (k + 1)) t
  inflowLeft : ∀ t ∈ Ico a b \ F, ∀ l < n, 0 < mus l - v t 0 → u l 0 (e t 0) t = inL t
  inflowRight : ∀ t ∈ Ico a b \ F, ∀ l < n, mus l - v t N < 0 → u l (N - 1) (e t N) t = inR t

/-- Squared distance of the discrete state `V` from `u`, summed over directions and cells. -/
noncomputable def sqDistance (n : ℕ) (ws : ℕ → ℝ) (N M : ℕ) (e : ℕ → ℝ) (V : ℕ → ℕ → ℕ → ℝ)
    (u : ℕ → ℕ → ℝ → ℝ) : ℝ :=
  ∑ l ∈ Finset.range n, ws l * ∑ k ∈ Finset.range N,
    ∫ x in (e k)..(e (k + 1)), (slabField M (V l k) (e k) (e (k + 1)) x - u l k x) ^ 2

/-- Coefficients of the square-integrable projection of `u` onto the mesh. -/
noncomputable def meshProjection (e : ℕ → ℝ) (u : ℕ → ℕ → ℝ → ℝ) (l k i : ℕ) : ℝ :=
  projection (u l k) (e k) (e (k + 1)) i

end Verif.Spec
