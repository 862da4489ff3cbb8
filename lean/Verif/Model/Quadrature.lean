import Verif.Model.Numerics
import Verif.Spec.Legendre

/-!
Model: `quadrature(n, 'gauss_lobatto')`, in `solver_classes/functions.py`.

The points of `leggauss(n)` are an argument `leg n`; `scipy.special.eval_legendre` is
`Spec.legendre`.  The search for the roots may not end, so the whole routine is a relation between
its argument and its result.
-/

namespace Verif.Model

open Verif.Spec Polynomial

/-- functions.py 674-678 `eval_legendre_deriv` -/
noncomputable def legDeriv (n : ℕ) (x : ℝ) : ℝ :=
  (x * (legendre n).eval x - (legendre (n - 1)).eval x) / ((x ^ 2 - 1) / n)

/-- functions.py 680-681 `eval_second_legendre_deriv` -/
noncomputable def legDeriv2 (n : ℕ) (x : ℝ) : ℝ :=
  (n * (-((1 + x ^ 2) * (legendre n).eval x) + 2 * x * (legendre (n - 1)).eval x +
    (-1 + x ^ 2) * (x * legDeriv n x - legDeriv (n - 1) x))) / (-1 + x ^ 2) ^ 2

/-- functions.py 639: where the search for root `i` starts. -/
noncomputable def lobattoSeed (leg : ℕ → ℕ → ℝ) (n i : ℕ) : ℝ :=
  (leg (n - 1) i + leg (n - 1) (i + 1)) * 0.5

/-- functions.py 640: the search for a root of the derivative of order `n`.  At `-1` and `1` both
formulas divide by zero, the iterate is not a number and the loop never ends; here the derivative is
put to zero at these points, for which `Newtons` has no result. -/
noncomputable def LobattoRoot (n : ℕ) (x0 r : ℝ) : Prop :=
  open Classical in
  Newtons (legDeriv n) (fun x => if x ^ 2 = 1 then 0 else legDeriv2 n x) (1 / 10 ^ 14) x0 r

/-- functions.py 645-649: the weights.  The two outer ones are written inside the loop over the
inner ones. -/
noncomputable def lobattoWeight (n : ℕ) (xs : ℕ → ℝ) (i : ℕ) : ℝ :=
  if n ≤ 2 then 0
  else if i = 0 ∨ i = n - 1 then 2 / ((n : ℝ) * ((n : ℝ) - 1))
  else 2 / ((n : ℝ) * ((n : ℝ) - 1)) / (legendre (n - 1)).eval (xs i) ^ 2

/-- functions.py 612-660: `quadrature(n, 'gauss_lobatto')` returns the nodes `xs` and the weights
`ws`.  With `n = 0` line 643 is an error; with `n = 1` line 644 overwrites line 643. -/
structure LobattoQuadrature (leg : ℕ → ℕ → ℝ) (n : ℕ) (xs ws : ℕ → ℝ) : Prop where
  pos : 1 ≤ n
  inner : ∀ i, i + 2 < n → LobattoRoot (n - 1) (lobattoSeed leg n i) (xs (i + 1))
  first : 2 ≤ n → xs 0 = -1
  last : xs (n - 1) = 1
  weights : ∀ i < n, ws i = lobattoWeight n xs i

end Verif.Model
