import Verif.Model.Output
import Verif.Model.Uncollided

/-!
Model: functions of `solver_classes/functions.py` that classes and later functions have replaced:
`make_phi`, `surf_func`, `LU_surf_func`, `uncollided_su_olson_s2_2`, `problem_identifier`, and `shaper`,
whose result the right-hand side stores but does not use.

Simplifications: `speed` is never nan, so `surf_func` always has a value; a side is `L` or `R`.
-/

namespace Verif.Model

open Real

/-- functions.py 116-129 `make_phi`, one point.  `N + 1` is `edges.size`. -/
noncomputable def oldMakePhi (Nang : ℕ) (ws : ℕ → ℝ) (x : ℝ) (u : ℕ → ℕ → ℕ → ℝ) (M N : ℕ) (edges : ℕ → ℝ) : ℝ :=
  let idx := searchsorted N edges x
  let idx := if idx = 0 then 1 else idx
  let idx := if N + 1 ≤ idx then N else idx
  ∑ ang ∈ Finset.range Nang,
    (∑ i ∈ Finset.range (M + 1), u ang (idx - 1) i * normPn i x (edges (idx - 1)) (edges idx)) * ws ang

/-- The argument `side` of `surf_func`. -/
inductive Side where
  | L
  | R

/-- functions.py 131-158 `surf_func` -/
noncomputable def surfFunc (speed : ℝ) (u : ℕ → ℕ → ℝ) (space j : ℕ) (side : Side) (xL xR : ℝ) (N : ℕ) : ℝ :=
  let right := if j = 0 then 1 / √(xR - xL) else √(2 * (j : ℝ) + 1) / √(xR - xL)
  let left := if j = 0 then 1 / √(xR - xL)
    else if j % 2 = 0 then √(2 * (j : ℝ) + 1) / √(xR - xL) else -√(2 * (j : ℝ) + 1) / √(xR - xL)
  if speed = 0 then 0
  else if 0 < speed then
    match side with
    | .R => u space j * right
    | .L => if space ≠ 0 then u (space - 1) j * right else 0
  else
    match side with
    | .R => if space + 1 ≠ N then u (space + 1) j * left else 0
    | .L => u space j * left

/-- functions.py 160-188 `LU_surf_func`, entry `i`.  Line 174 asks for `j`, which the loop before has left at
`M`; if it were zero the values of the entry before would be used, but then there is only one entry. -/
noncomputable def luSurfFunc (u : ℕ → ℕ → ℝ) (space N : ℕ) (mul : ℝ) (M : ℕ) (xL xR dxL dxR : ℝ) (i : ℕ) : ℝ :=
  let rightspeed := mul - dxR
  let leftspeed := mul - dxL
  let sumright := ∑ j ∈ Finset.range (M + 1), surfFunc rightspeed u space j .R xL xR N
  let sumleft := ∑ j ∈ Finset.range (M + 1), surfFunc leftspeed u space j .L xL xR N
  let right := if i = 0 then 1 / √(xR - xL) else if 0 < M then √(2 * (i : ℝ) + 1) / √(xR - xL) else 1 / √(xR - xL)
  let left := if i = 0 then 1 / √(xR - xL)
    else if 0 < M then
      if i % 2 = 0 then √(2 * (i : ℝ) + 1) / √(xR - xL) else -√(2 * (i : ℝ) + 1) / √(xR - xL)
    else 1 / √(xR - xL)
  rightspeed * right * sumright - leftspeed * left * sumleft

/-- functions.py 368-398 `uncollided_su_olson_s2_2`; `none` is the end of the function without a value. -/
noncomputable def suOlsonS2Second (x t x0 t0 : ℝ) : Option ℝ :=
  let T0 := min t t0
  if t0 < t then
    let x := |x|
    if x0 - √3 * (t - T0) / 3 ≤ |x| ∧ |x| ≤ x0 + √3 * (t - T0) / 3 then some (s2F t T0 - s2F t 0)
    else if |x| < x0 - √3 * (t - T0) / 3 then
      let arg := t - (x0 - x) * 3 / √3
      if t - (x0 - x) * 3 / √3 ≤ 0 then some (2 * (s2F t T0 - s2F t 0))
      else if 0 < t - (x0 - x) * 3 / √3 ∧ t - (x0 - x) * 3 / √3 < T0 then
        some (2 * (s2F t T0 - s2F t arg) + s2F t arg - s2F t 0)
      else none
    else if x0 + √3 * (t - T0) / 3 < x then
      let arg := max (t - (x - x0) * 3 / √3) 0
      some (s2F t arg - s2F t 0)
    else none
  else some 0

/-- functions.py 333-348 `problem_identifier`.  Line 347 compares instead of assigning, so that line 348 reads
a variable without a value; `none` is that error, or a list that is too short. -/
def problemIdentifier (st : List ℤ) : Option String := do
  if (← st[0]?) = 1 then return "plane_IC"
  if (← st[1]?) = 1 then return "square_IC"
  if (← st[2]?) = 1 then return "square_source"
  if (← st[3]?) = 1 then return "gaussian_IC"
  if (← st[4]?) = 1 then return "gaussian_source"
  none

/-- functions.py 458-463 `shaper` -/
def shaper (angles spaces M : ℕ) (thermal : Bool) : List ℕ :=
  if thermal then [angles + 1, spaces, M + 1] else [angles, spaces, M + 1]

/-- rhs_class_1.py 136: `deg_freedom`, stored and never read. -/
def storedShape (Nang Nspace M : ℕ) (thermal : Bool) : List ℕ := shaper Nang Nspace (M + 1) thermal

end Verif.Model
