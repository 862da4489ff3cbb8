import Verif.Model.Mesh
import Verif.Model.Uncollided

/-!
Model: functions of other files that no run calls: `boundary_source_init_func_outside` and `set_func`
(`solver_classes/mesh_functions.py`), `find_edge` (`solver_functions/wavespeed_estimator.py`), `su_olson_s2_integrand`
and `rttwo_mistake_undoer` (`solver_classes/functions.py`), `gaussian_plane` (`solver_classes/mutables.py`).
`print` statements are left out.
-/

namespace Verif.Model

open Real

/-- mesh_functions.py 122-138 `boundary_source_init_func_outside`: edges, first edges and velocities.  `none` where the
arrays differ in size (line 132), except that an array of one entry is stretched. -/
noncomputable def boundaryInitOutside (v0 : ℝ) (N : ℕ) (x0 tfinal : ℝ) :
    Option ((ℕ → ℝ) × (ℕ → ℝ) × (ℕ → ℝ)) :=
  let e := linspace (-x0) x0 (N + 1)
  let shock := -tfinal * v0
  let left := linspace (-x0) shock (N / 2 + 1)
  let right := linspace shock x0 (N / 2 + 1)
  let f := left.dropLast.append right
  if f.size = e.size then some (e.get, e.get, fun k => (f.get k - e.get k) / tfinal)
  else if f.size = 1 then some (e.get, e.get, fun k => (f.get 0 - e.get k) / tfinal)
  else none

/-- mesh_functions.py 18-25 `set_func`, turns `count` and later of the loop. -/
def setFunc (loc speed : ℕ → ℝ) : List ℕ → ℕ → (ℕ → ℝ) × (ℕ → ℝ) → (ℕ → ℝ) × (ℕ → ℝ)
  | [], _, s => s
  | index :: rest, count, s =>
    setFunc loc speed rest (count + 1) (Function.update s.1 index (loc count), Function.update s.2 index (speed count))

/-- `a[i]` for an array of `n` entries; a negative index counts from the end. -/
def pyGet (n : ℕ) (a : ℕ → ℝ) (i : ℤ) : Option ℝ :=
  if 0 ≤ i ∧ i < n then some (a i.toNat)
  else if i < 0 ∧ -(n : ℤ) ≤ i then some (a (i + n).toNat)
  else none

open Classical in
/-- wavespeed_estimator.py 98-106 and 107-116: from position `i` in steps of `step`, at most `fuel` of them. -/
noncomputable def edgeSearch (n : ℕ) (deriv : ℕ → ℝ) (step : ℤ) : ℕ → ℤ → Option ℤ
  | 0, _ => none
  | fuel + 1, i =>
    match pyGet n deriv i with
    | none => none
    | some d =>
      if |d| ≤ 1 / 10 ^ 16 then some i
      else if |d| ≤ 1 / 10 ^ 13 then some i
      else edgeSearch n deriv step fuel (i + step)

/-- wavespeed_estimator.py 82-117 `find_edge`.  There are `2 n` positions at most, so that `2 n + 1` steps end either
search.  `xs`, `x0` and `t` are not used for the result. -/
noncomputable def findEdge (n : ℕ) (deriv : ℕ → ℝ) (ilOld irOld : ℤ) : Option (ℤ × ℤ) := do
  let il ← edgeSearch n deriv (-1) (2 * n + 1) ilOld
  let ir ← edgeSearch n deriv 1 (2 * n + 1) irOld
  return (il, ir)

open Classical in
/-- `np.heaviside(x, 1)` -/
noncomputable def heavisideOne (x : ℝ) : ℝ := if x < 0 then 0 else 1

/-- functions.py 318-319 `su_olson_s2_integrand`; `t0` is not used. -/
noncomputable def suOlsonS2Integrand (τ x t x0 : ℝ) : ℝ :=
  (exp (-t + τ) * (-heavisideOne ((-3 * x - 3 * x0 + √3 * (t - τ)) / (t - τ))
    - heavisideOne ((3 * x - 3 * x0 + √3 * (t - τ)) / (t - τ))
    + heavisideOne ((-3 * x + 3 * x0 + √3 * (t - τ)) / (t - τ))
    + heavisideOne ((3 * x + 3 * x0 + √3 * (t - τ)) / (t - τ)))) / 2

/-- functions.py 722-736 `rttwo_mistake_undoer`; `none` is the failed assertion. -/
def rttwoMistakeUndoer (i j : ℕ) : Option ℕ :=
  if (i = 0 ∧ j = 0) ∨ (i ≠ 0 ∧ j ≠ 0) then some 1
  else if i = 0 ∧ j ≠ 0 then if j % 2 = 0 then some 2 else some 1
  else if j = 0 ∧ i ≠ 0 then if i % 2 = 0 then some 2 else some 1
  else none

/-- mutables.py 101-104 `gaussian_plane` -/
noncomputable def gaussianPlane (x0 x : ℝ) : ℝ := √(1 / π / 2) / x0 * exp (-0.5 * x ^ 2 / x0 ^ 2)

end Verif.Model
