import Mathlib.Analysis.Real.Sqrt
import Mathlib.Algebra.BigOperators.Intervals

/-!
Model: Gaussian elimination and the cubic spline (`solver_classes/cubic_spline.py`).

Arrays are functions of the index.  A scalar division by zero inside a compiled function raises an
exception: `none`.
-/

namespace Verif.Model

/-- A matrix, by row and column. -/
abbrev Mat := ℕ → ℕ → ℝ

/-- cubic_spline.py 402-405: the augmented matrix, `b` in column `N`. -/
def augment (N : ℕ) (A : Mat) (b : ℕ → ℝ) : Mat := fun r c => if c < N then A r c else b r

/-- cubic_spline.py 411-413: `np.max(np.fabs(row))` -/
noncomputable def scaleFactor (N : ℕ) (A : Mat) (r : ℕ) : ℝ :=
  (List.range N).foldl (fun m c => max m |A r c|) 0

open Classical in
/-- `np.argmax(f[lo:hi]) + lo`: the first position of the largest value. -/
noncomputable def argmaxFrom (f : ℕ → ℝ) (lo hi : ℕ) : ℕ :=
  (List.range' (lo + 1) (hi - lo - 1)).foldl (fun best r => if f best < f r then r else best) lo

/-- cubic_spline.py 367-369 `swap_rows` (also 429-431) -/
def swapRows {α : Type*} (A : ℕ → α) (a b : ℕ) : ℕ → α :=
  fun r => if r = a then A b else if r = b then A a else A r

open Classical in
/-- cubic_spline.py 435-438: the loop over the rows below the pivot.  The pivot row is not changed
by the loop, so the rows are independent.  The division at line 437 fails for a zero pivot if there
is such a row. -/
noncomputable def eliminate (N col : ℕ) (A : Mat) : Option Mat :=
  if col + 1 < N ∧ A col col = 0 then none
  else some fun r c =>
    if col < r ∧ r < N then A r c - A r col / A col col * A col c else A r c

/-- cubic_spline.py 422: the row chosen for the pivot; line 422 divides all entries by the same
scale factor `s[column]`. -/
noncomputable def pivotRow (N col : ℕ) (A : Mat) (s : ℕ → ℝ) : ℕ :=
  argmaxFrom (fun r => |A r col / s col|) col N

/-- cubic_spline.py 419-438: the loop over the columns, `k` columns starting with `col`. -/
noncomputable def elimLoop (N : ℕ) : ℕ → ℕ → Mat → (ℕ → ℝ) → Option Mat
  | 0, _, A, _ => some A
  | k + 1, col, A, s =>
    (eliminate N col (swapRows A col (pivotRow N col A s))).bind fun A' =>
      elimLoop N k (col + 1) A' (swapRows s col (pivotRow N col A s))

open Classical in
/-- cubic_spline.py 371-388 `BackSub`: the rows below `k`, from the last. -/
noncomputable def backSub (N : ℕ) (A : Mat) : ℕ → (ℕ → ℝ) → Option (ℕ → ℝ)
  | 0, x => some x
  | row + 1, x =>
    if A row row = 0 then none
    else backSub N A row (Function.update x row
      ((A row N - ∑ c ∈ Finset.Ico (row + 1) N, x c * A row c) / A row row))

/-- cubic_spline.py 390-444 `GaussElim` -/
noncomputable def gaussElim (N : ℕ) (A : Mat) (b : ℕ → ℝ) : Option (ℕ → ℝ) :=
  (elimLoop N N 0 (augment N A b) (scaleFactor N A)).bind fun A' => backSub N A' N b

/-! ### The spline -/

/-- The arrays `coeff_array` and `rhs` (cubic_spline.py 22-23). -/
structure SplineSystem where
  A : Mat
  rhs : ℕ → ℝ

/-- `coeff_array[row, left:left+4] = [v0, v1, v2, v3]` -/
def write4 (A : Mat) (row left : ℕ) (v0 v1 v2 v3 : ℝ) : Mat := fun r c =>
  if r = row then
    if c = left then v0 else if c = left + 1 then v1 else if c = left + 2 then v2
    else if c = left + 3 then v3 else A r c
  else A r c

/-- Local variables of the loop in `points` (cubic_spline.py 43-47). -/
structure PointsState where
  sys : SplineSystem
  count1 : ℕ
  count2 : ℕ
  count3 : ℕ
  left : ℕ

/-- cubic_spline.py 49-61: one pass of the loop in `points`; `right_index` is always
`left_index + 4`. -/
def pointsStep (x y : ℕ → ℝ) (ix : ℕ) (s : PointsState) : PointsState :=
  let v := x s.count1
  let sys : SplineSystem := ⟨write4 s.sys.A ix s.left 1 v (v ^ 2) (v ^ 3),
    Function.update s.sys.rhs ix (y s.count1)⟩
  let count2 := s.count2 + 1
  let count3 := s.count3 + 1
  ⟨sys, if count2 = 2 then s.count1 + 1 else s.count1, if count2 = 2 then 0 else count2,
    if count3 = 2 then 0 else count3, if count3 = 2 then s.left + 4 else s.left⟩

/-- cubic_spline.py 38-61 `points`: first row, then rows `1 … 2n-1`. -/
def splinePoints (n : ℕ) (x y : ℕ → ℝ) (s : SplineSystem) : SplineSystem :=
  ((List.range' 1 (2 * n - 1)).foldl (fun st ix => pointsStep x y ix st)
    ⟨⟨write4 s.A 0 0 1 (x 0) (x 0 ^ 2) (x 0 ^ 3), Function.update s.rhs 0 (y 0)⟩, 1, 0, 1, 0⟩).sys

/-- cubic_spline.py 69-78: one pass of the loop in `first_deriv`; `(count_1, left_index)` is the
second component. -/
def firstDerivStep (x : ℕ → ℝ) (ix : ℕ) (s : SplineSystem × ℕ × ℕ) : SplineSystem × ℕ × ℕ :=
  (⟨write4 (write4 s.1.A s.2.1 s.2.2 0 1 (2 * x ix) (3 * x ix ^ 2)) s.2.1 (s.2.2 + 4)
      0 (-1) (-2 * x ix) (-3 * x ix ^ 2), Function.update s.1.rhs s.2.1 0⟩, s.2.1 + 1, s.2.2 + 4)

/-- cubic_spline.py 64-80 `first_deriv` -/
def splineFirst (n : ℕ) (x : ℕ → ℝ) (s : SplineSystem) : SplineSystem :=
  ((List.range' 1 (n - 1)).foldl (fun st ix => firstDerivStep x ix st) (s, 2 * n, 0)).1

/-- cubic_spline.py 87-96: one pass of the loop in `second_deriv`; `count_2` has no effect. -/
def secondDerivStep (x : ℕ → ℝ) (ix : ℕ) (s : SplineSystem × ℕ × ℕ) : SplineSystem × ℕ × ℕ :=
  (⟨write4 (write4 s.1.A s.2.1 s.2.2 0 0 2 (6 * x ix)) s.2.1 (s.2.2 + 4)
      0 0 (-2) (-6 * x ix), Function.update s.1.rhs s.2.1 0⟩, s.2.1 + 1, s.2.2 + 4)

/-- cubic_spline.py 82-107 `second_deriv` -/
def splineSecond (n : ℕ) (x : ℕ → ℝ) (s : SplineSystem) : SplineSystem :=
  let s := ((List.range' 1 (n - 1)).foldl (fun st ix => secondDerivStep x ix st)
    (s, 3 * n - 1, 0)).1
  ⟨write4 (write4 s.A (4 * n - 2) 0 0 0 2 (6 * x 0)) (4 * n - 1) (n * 4 - 4) 0 0 2 (6 * x n),
    Function.update (Function.update s.rhs (4 * n - 2) 0) (4 * n - 1) 0⟩

/-- cubic_spline.py 22-32: the assembled system for `n+1` data points. -/
def splineSystem (n : ℕ) (x y : ℕ → ℝ) : SplineSystem :=
  splineSecond n x (splineFirst n x (splinePoints n x y ⟨fun _ _ => 0, fun _ => 0⟩))

/-- cubic_spline.py 111-113: the coefficients. -/
noncomputable def splineCoef (n : ℕ) (x y : ℕ → ℝ) : Option (ℕ → ℝ) :=
  gaussElim (4 * n) (splineSystem n x y).A (splineSystem n x y).rhs

open Classical in
/-- cubic_spline.py 118-125 `eval_spline` at one point: the first interval that contains it, zero if
there is none. -/
noncomputable def evalSpline (n : ℕ) (x coef : ℕ → ℝ) (p : ℝ) : ℝ :=
  match (List.range n).find? fun k => decide (x k ≤ p ∧ p ≤ x (k + 1)) with
  | some k => coef (4 * k) * 1 + coef (4 * k + 1) * p + coef (4 * k + 2) * p ^ 2 +
      coef (4 * k + 3) * p ^ 3
  | none => 0

end Verif.Model
