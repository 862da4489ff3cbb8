import Verif.Model.ActiveRhs

/-!
Model: the one-dimensional state vector handed to `solve_ivp` and the array
`[angle, space, order]` the solver works with.
-/

namespace Verif.Model

/-- A one-dimensional numpy array. -/
structure FlatArr where
  size : ℕ
  get : ℕ → ℝ

/-- `v.reshape((n, N, m))` of a one-dimensional array, row-major; fails if the sizes differ. -/
def reshape3 (n N m : ℕ) (v : FlatArr) : Option (ℕ → ℕ → ℕ → ℝ) :=
  if v.size = n * N * m then some fun l k i => v.get ((l * N + k) * m + i) else none

/-- `A.reshape(n*N*m)` of an array with shape `(n, N, m)`, row-major. -/
def flatten3 (n N m : ℕ) (A : ℕ → ℕ → ℕ → ℝ) : FlatArr where
  size := n * N * m
  get := fun p => A (p / (N * m)) (p / m % N) (p % m)

/-- main_functions.py 148-151 `deg_freedom`; `none` is the switch `thermal_couple['none']`. -/
def degFreedom (none : Bool) (Nang N M : ℕ) : ℕ :=
  if none then Nang * N * (M + 1) else (Nang + 1) * N * (M + 1)

/-- build_problem.py 143-146: `IC` has one row more with material coupling; main_functions.py 173
flattens it. -/
def initialVector (none : Bool) (Nang N M : ℕ) (IC : ℕ → ℕ → ℕ → ℝ) : FlatArr :=
  flatten3 (if none then Nang else Nang + 1) N (M + 1) IC

/-- rhs_class_1.py 180 and 366: the active right-hand side on the state vector; `f` is the map of
three-dimensional arrays in between. -/
def activeFlat (Nang N M : ℕ) (f : (ℕ → ℕ → ℕ → ℝ) → Option (ℕ → ℕ → ℕ → ℝ)) (v : FlatArr) :
    Option FlatArr :=
  ((reshape3 Nang N (M + 1) v).bind f).map (flatten3 Nang N (M + 1))

/-- main_functions.py 215-222 `sol_last` (and 264 for other times): the state at an output time. -/
def outputState (none : Bool) (Nang N M : ℕ) (v : FlatArr) : Option (ℕ → ℕ → ℕ → ℝ) :=
  reshape3 (if none then Nang else Nang + 1) N (M + 1) v

/-- main_functions.py 219 `sol_array`: `sol.y` has shape `(dof, nt)`; entry `[it]` of the reshaped
array as a vector. -/
def solArray (dof nt : ℕ) (y : ℕ → ℕ → ℝ) (it : ℕ) : FlatArr where
  size := dof
  get := fun p => y ((it * dof + p) / nt) ((it * dof + p) % nt)

end Verif.Model
