import Mathlib.Algebra.Polynomial.Derivative
import Mathlib.Data.Real.Basic

/-!
Specification: Legendre polynomials.

This is the mathematical contract of `scipy.special.eval_legendre`, which the code calls
through `numba_eval_legendre_float64` (functions.py 22-31).  They are defined by Bonnet's
recurrence, independently of any table or matrix in the code.
-/

namespace Verif.Spec

open Polynomial

/-- Legendre polynomials over the reals: `P₀ = 1`, `P₁ = X`,
`(n+2) Pₙ₊₂ = (2n+3) X Pₙ₊₁ - (n+1) Pₙ`. -/
noncomputable def legendre : ℕ → ℝ[X]
  | 0 => 1
  | 1 => X
  | n + 2 =>
    C (1 / ((n : ℝ) + 2)) *
      (C (2 * (n : ℝ) + 3) * X * legendre (n + 1) - C ((n : ℝ) + 1) * legendre n)

/-- Kronecker delta. -/
def delta (i j : ℕ) : ℝ := if i = j then 1 else 0

end Verif.Spec
