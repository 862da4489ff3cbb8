import Verif.Model.Mesh
import Verif.Model.Driver

/-!
Model: heat front positions.  `_interp1d` in `solver_classes/mesh_functions.py`, through which the
mesh of `solver_classes/mesh.py` looks up stored positions, and the searches of
`solver_functions/wave_loc_estimator.py`.

Arrays are functions of the index.  Compiled code does not check indices: entry `N` of an array of
size `N` is whatever stands in memory behind it.  A division by zero and a name without value are
`none`.
-/

namespace Verif.Model

open Classical in
/-- mesh_functions.py 101-102: `while xnew[0] >= xvals[i] and i < N: i += 1`, with `fuel = N - i`. -/
noncomputable def scanUp (x : ℕ → ℝ) (t : ℝ) : ℕ → ℕ → ℕ
  | 0, i => i
  | fuel + 1, i => if x i ≤ t then scanUp x t fuel (i + 1) else i

/-- mesh_functions.py 112-113: the point at `t` of the line through two points. -/
noncomputable def lineThrough (xa ya xb yb t : ℝ) : Option ℝ :=
  if xb - xa = 0 then none else some ((t - xa) / (xb - xa) * (yb - ya) + ya)

open Classical in
/-- mesh_functions.py 92-114 `_interp1d` for arrays of size `N`: the first entry of the result.  The
index `i - 1` counts from the end when negative. -/
noncomputable def interp1d (N : ℕ) (x y : ℕ → ℝ) (t : ℝ) : Option ℝ :=
  if t < x 0 then lineThrough 0 0 (x 0) (y 0) t
  else
    let i := scanUp x t N 0
    if t = x i then some (y i)
    else
      let i := if i = N then N - 1 else i
      let j := if i = 0 then N - 1 else i - 1
      lineThrough (x j) (y j) (x i) (y i) t

/-- The array `wave_loc_array` of solver.py 88, of shape `(4, 1, n)`, in memory: times, left edges,
right edges and front positions one after the other.  The mesh reads it as `[0, r, :]`, which is row
`r` although the second index is out of range. -/
def waveRow (n : ℕ) (memory : ℕ → ℝ) (r i : ℕ) : ℝ := memory (r * n + i)

/-- mesh.py 306: the front position used at time `t`. -/
noncomputable def frontAt (n : ℕ) (memory : ℕ → ℝ) (t : ℝ) : Option ℝ :=
  interp1d n (waveRow n memory 0) (waveRow n memory 3) t

/-! ### wave_loc_estimator.py -/

/-- wave_loc_estimator.py 188-196 `find_T_wave` for `n + 1` points.  `sorted_deriv[0]` is the
smallest derivative. -/
noncomputable def findTWave (n : ℕ) (xs deriv : ℕ → ℝ) : ℝ :=
  let least := deriv (firstMin deriv n)
  |xs (firstMin (fun i => |deriv i - least|) n)|

/-- wave_loc_estimator.py 116-186 `find_wave_bounds`: both searches are switched off by
`left_found = right_found = True` (117-118), so the solution is not used. -/
noncomputable def findWaveBounds (sourceType : List ℤ) (x0 sigma : ℝ) : Option (ℝ × ℝ) :=
  let st : ℕ → ℤ := fun i => sourceType.getD i 0
  let start : Option ℝ :=
    if st 1 = 1 ∨ st 2 = 1 then some x0
    else if st 3 = 1 ∨ st 5 = 1 then some 0
    else none
  start.map fun x => (if |x| < 1 / sigma then 1 / sigma else x, x)

end Verif.Model
