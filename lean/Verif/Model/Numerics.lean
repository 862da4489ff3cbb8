import Mathlib.Analysis.SpecialFunctions.Trigonometric.Basic
import Mathlib.Analysis.SpecialFunctions.Log.Basic
import Mathlib.Data.Sign.Defs
import Mathlib.Data.List.Sort
import Verif.Model.Flux

/-!
Model: quadrature, evaluation nodes, root finders, convergence order and time steps, in
`solver_classes/functions.py` and `solver_functions/main_functions.py`.

Loops that may not end are modelled by their big-step relation: `R x r` says that the loop started
at `x` ends with result `r`.
-/

namespace Verif.Model

open Real

/-- functions.py 624: node number `i` (from zero) of `quadrature(n, 'chebyshev')`. -/
noncomputable def chebNode (n i : ℕ) : ℝ := cos ((2 * ((i : ℝ) + 1) - 1) / 2 / n * π)

/-- functions.py 625: its weights. -/
noncomputable def chebWeight (n : ℕ) (_i : ℕ) : ℝ := π / n

/-- functions.py 619-625: the nodes of `quadrature(n, 'chebyshev')` in order. -/
noncomputable def chebNodes (n : ℕ) : List ℝ := (List.range n).map (chebNode n)

/-- functions.py 195 and 204: the nodes of one cell. -/
noncomputable def cellNodes (xs : List ℝ) (xL xR : ℝ) : List ℝ :=
  xs.map fun x => xL + (x + 1) * (xR - xL) / 2

/-- functions.py 185-186: the number of points per cell. -/
def nodeOrder (M : ℕ) : ℕ := if M = 0 then 1 else M

/-- functions.py 188 and 198: the points used; `leg n` is the library routine `leggauss(n)`. -/
noncomputable def nodePoints (g : Geometry) (leg : ℕ → List ℝ) (M : ℕ) : List ℝ :=
  match g with
  | .slab => leg (nodeOrder M)
  | .sphere => chebNodes (nodeOrder M)

open Classical in
/-- functions.py 192-195 and 201-204: the slice of the result written for cell `k`. -/
noncomputable def cellSlice (g : Geometry) (leg : ℕ → List ℝ) (M : ℕ) (edges : ℕ → ℝ) (k : ℕ) :
    List ℝ :=
  match g with
  | .slab => cellNodes (nodePoints .slab leg M) (edges k) (edges (k + 1))
  | .sphere =>
    (cellNodes (nodePoints .sphere leg M) (edges k) (edges (k + 1))).insertionSort (· ≤ ·)

/-- functions.py 183-206 `find_nodes`; `edges` has `cells + 1` entries. -/
noncomputable def findNodes (g : Geometry) (leg : ℕ → List ℝ) (M : ℕ) (edges : ℕ → ℝ)
    (cells : ℕ) : List ℝ :=
  (List.range cells).flatMap (cellSlice g leg M edges)

/-! ### Root finders -/

/-- functions.py 665-670: one pass of the loop of `bisection`. -/
noncomputable def bisectStep (f : ℝ → ℝ) (ab : ℝ × ℝ) : ℝ × ℝ :=
  if SignType.sign (f ab.1) ≠ SignType.sign (f (ab.1 + (ab.2 - ab.1) / 2)) then
    (ab.1, ab.1 + (ab.2 - ab.1) / 2)
  else (ab.1 + (ab.2 - ab.1) / 2, ab.2)

/-- functions.py 664-672: the loop and the return of `bisection`.  The third argument is the
present value of `m`, `none` while it is unbound; a result `none` is the error of line 672. -/
inductive BisectLoop (f : ℝ → ℝ) (tol : ℝ) : ℝ × ℝ → Option ℝ → Option ℝ → Prop
  | stop {ab : ℝ × ℝ} {m : Option ℝ} (h : ¬ tol < ab.2 - ab.1) : BisectLoop f tol ab m m
  | step {ab : ℝ × ℝ} {m r : Option ℝ} (h : tol < ab.2 - ab.1)
      (h' : BisectLoop f tol (bisectStep f ab) (some (ab.1 + (ab.2 - ab.1) / 2)) r) :
      BisectLoop f tol ab m r

/-- functions.py 662-672 `bisection`; the assertion is a premise. -/
def Bisection (f : ℝ → ℝ) (a b tol : ℝ) (r : Option ℝ) : Prop :=
  SignType.sign (f a) ≠ SignType.sign (f b) ∧ BisectLoop f tol (a, b) none r

/-- functions.py 693-694 -/
noncomputable def newtonIterate (f f' : ℝ → ℝ) (x : ℝ) : ℝ := x - f x / f' x

/-- functions.py 692-701 `newtons`; no result when a derivative is zero. -/
inductive Newtons (f f' : ℝ → ℝ) (tol : ℝ) : ℝ → ℝ → Prop
  | stop {x : ℝ} (h0 : f' x ≠ 0) (h : |newtonIterate f f' x - x| ≤ tol) :
      Newtons f f' tol x (newtonIterate f f' x)
  | step {x r : ℝ} (h0 : f' x ≠ 0) (h : ¬ |newtonIterate f f' x - x| ≤ tol)
      (h' : Newtons f f' tol (newtonIterate f f' x) r) : Newtons f f' tol x r

/-- functions.py 687-690: the loop of `newtons2`, state `(old_guess, new_guess)`. -/
inductive Newtons2Loop (f f' : ℝ → ℝ) (tol : ℝ) : ℝ → ℝ → ℝ → Prop
  | stop {old new : ℝ} (h : ¬ tol < |old - new|) : Newtons2Loop f f' tol old new old
  | step {old new r : ℝ} (h : tol < |old - new|) (h0 : f' old ≠ 0)
      (h' : Newtons2Loop f f' tol (newtonIterate f f' old) (newtonIterate f f' old) r) :
      Newtons2Loop f f' tol old new r

/-- functions.py 683-690 `newtons2`. -/
def Newtons2 (f f' : ℝ → ℝ) (tol x0 r : ℝ) : Prop := Newtons2Loop f f' tol x0 1000 r

/-! ### Convergence order and time steps -/

/-- functions.py 208-209 `convergence`. -/
noncomputable def convergence (err1 x1 err2 x2 : ℝ) : ℝ := -log (err2 / err1) / log (x2 / x1)

/-- main_functions.py 79-84 `time_step_function`; `np.zeros(-1)` fails for no times at all. -/
def timeSteps (ts : List ℝ) : Option (List ℝ) :=
  if ts.length = 0 then none
  else some ((List.range (ts.length - 1)).map fun i => ts.getD (i + 1) 0 - ts.getD i 0)

end Verif.Model
