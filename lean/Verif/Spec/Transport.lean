import Verif.Spec.Legendre
import Mathlib.Analysis.Real.Sqrt
import Mathlib.Analysis.Real.Pi.Bounds
import Mathlib.RingTheory.Polynomial.Chebyshev
import Mathlib.MeasureTheory.Integral.IntervalIntegral.Basic

/-!
Specification: orthonormal bases on a cell, discontinuous fields and the upwind flux.
Nothing here refers to the model of the code.
-/

namespace Verif.Spec

open Polynomial

/-- Reference coordinate of `x` in the cell `[a,b]`: `-1` at `a`, `1` at `b`. -/
noncomputable def ref (x a b : ℝ) : ℝ := (2 * x - a - b) / (b - a)

/-- Orthonormal Legendre function of order `n` on `[a,b]`. -/
noncomputable def slabBasis (n : ℕ) (x a b : ℝ) : ℝ :=
  Real.sqrt ((2 * (n : ℝ) + 1) / (b - a)) * (legendre n).eval (ref x a b)

/-- Orthonormal (for the Chebyshev weight) Chebyshev function of order `n` on `[a,b]`. -/
noncomputable def sphereBasis (n : ℕ) (x a b : ℝ) : ℝ :=
  Real.sqrt ((if n = 0 then 1 else 2) / (Real.pi * (b - a))) *
    (Chebyshev.T ℝ n).eval (ref x a b)

/-- Value at `x` of the expansion with coefficients `U` of order `M` on the cell `[a,b]`. -/
noncomputable def slabField (M : ℕ) (U : ℕ → ℝ) (a b x : ℝ) : ℝ :=
  ∑ j ∈ Finset.range (M + 1), U j * slabBasis j x a b

/-- Same with the Chebyshev basis. -/
noncomputable def sphereField (M : ℕ) (U : ℕ → ℝ) (a b x : ℝ) : ℝ :=
  ∑ j ∈ Finset.range (M + 1), U j * sphereBasis j x a b

/-- Upwind flux through a surface: `v` is the particle velocity relative to the surface, `l` and
`r` the states on its left and right. -/
noncomputable def upwind (v l r : ℝ) : ℝ := max v 0 * l + min v 0 * r

/-- Particle content of a cell. -/
noncomputable def slabContent (M : ℕ) (U : ℕ → ℝ) (a b : ℝ) : ℝ :=
  ∫ x in a..b, slabField M U a b x

/-- The quadrature rule (pairs of node and weight on `[-1,1]`) is exact up to degree `n`. -/
def QuadExact (q : List (ℝ × ℝ)) (n : ℕ) : Prop :=
  ∀ p : ℝ[X], p.natDegree ≤ n → (q.map fun r => r.2 * p.eval r.1).sum = ∫ x in (-1 : ℝ)..1, p.eval x

end Verif.Spec
