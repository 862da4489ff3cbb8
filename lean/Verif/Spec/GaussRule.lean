import Verif.Spec.Angular
import Mathlib.Algebra.Polynomial.Eval.Degree
import Mathlib.MeasureTheory.Integral.IntervalIntegral.Basic

/-! Specification: rules for sums over directions that are exact for polynomials. -/

namespace Verif.Spec

open Polynomial

/-- A rule with `n` points that is exact for polynomials of degree at most `d`. -/
def ExactRule (n : ℕ) (x w : ℕ → ℝ) (d : ℕ) : Prop :=
  ∀ p : ℝ[X], p.natDegree ≤ d →
    ∑ l ∈ Finset.range n, w l * p.eval (x l) = ∫ y in (-1 : ℝ)..1, p.eval y

/-- Rules with the degree of exactness of the Gauss rule or, if both ends are points, of the Lobatto rule. -/
structure GaussLike (n : ℕ) (x w : ℕ → ℝ) : Prop where
  points : DirectionSet n x
  exact : ExactRule n x w (2 * n - 2) ∨ x 0 = -1 ∧ x (n - 1) = 1 ∧ ExactRule n x w (2 * n - 3)

end Verif.Spec
