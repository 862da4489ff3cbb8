import Verif.Model.Output
import Mathlib.Analysis.SpecialFunctions.Exp
import Mathlib.Analysis.SpecialFunctions.Pow.Real

/-!
Model: what a run reports (`solver_functions/main_functions.py` `solve`, `solver.py` `main`) and the
benchmark it is compared with (`loading_and_saving/load_bench.py`).

`thermal_couple` is a typed dictionary from strings to integers (load_parameters.py 33-34); Python
compares it with integers in several places, so values are tagged.
-/

namespace Verif.Model

/-- The Python values that occur as `thermal_couple` or are compared with it. -/
inductive PyVal where
  | int (n : ℤ)
  | dict (d : String → Option ℤ)

/-- `value == n` for an integer `n`: a dictionary equals no integer.  (The comparison method of a
mapping returns `NotImplemented` for other types, and then objects are compared by identity.) -/
def PyVal.eqInt : PyVal → ℤ → Bool
  | .int m, n => m == n
  | .dict _, _ => false

/-- load_parameters.py 33-34 with `dictionary_loader` 160-168: the attribute `thermal_couple`, from
the entry `radiative_transfer` of the input; an integer has no `keys` (162). -/
def loadThermal : PyVal → Option PyVal
  | .dict d => some (.dict d)
  | .int _ => none

/-- `make_e`, make_phi.py 75-90: the energy at an output point; it is the loop of `make_phi` with
the row `N_ang` of the solution. -/
noncomputable def eOut (g : Geometry) (M N Nang : ℕ) (edges : ℕ → ℝ) (u : ℕ → ℕ → ℕ → ℝ) (x : ℝ) :
    Option ℝ := psiOut g M N edges (u Nang) x

/-- main_functions.py 247-250 (and 269-272): the energy returned by `solve` at an output point. -/
noncomputable def reportedEnergy (thermal : PyVal) (g : Geometry) (M N Nang : ℕ) (edges : ℕ → ℝ)
    (u : ℕ → ℕ → ℕ → ℝ) (x : ℝ) : Option ℝ :=
  if thermal.eqInt 1 then eOut g M N Nang edges u x else some 0

/-- `np.sqrt(np.mean((phi - bench)**2))` for arrays of length `n`, solver.py 243 and 269-270. -/
noncomputable def rms (n : ℕ) (phi bench : ℕ → ℝ) : ℝ :=
  Real.sqrt ((∑ i ∈ Finset.range n, (phi i - bench i) ^ 2) / n)

/-- The value of `RMS` where solver.py 273 reads it; `none` where the name has no value.
`bench0` is the benchmark of the branch 237-243, `bench1` that of 245-270. -/
noncomputable def reportedRms (thermal : PyVal) (n : ℕ) (phi bench0 bench1 : ℕ → ℝ) : Option ℝ :=
  if thermal.eqInt 0 then some (rms n phi bench0)
  else if thermal.eqInt 1 then some (rms n phi bench1)
  else none

/-- load_bench.py 28-31: the time at which the benchmark is taken. -/
def benchTime (cScaling : Bool) (c tfinal : ℝ) : ℝ := if cScaling then tfinal * c else tfinal

/-- solver.py 238-241: the benchmark at an output point; `bench` takes a time and a position. -/
noncomputable def scaledBench (cScaling : Bool) (bench : ℝ → ℝ → ℝ) (c tfinal x : ℝ) : ℝ :=
  if cScaling then
    c * Real.exp (-(1 - c) * tfinal) * bench (benchTime cScaling c tfinal) |x * c|
  else bench (benchTime cScaling c tfinal) |x|

open Classical in
/-- `np.argmin` of `f 0, …, f n`: the first position of the smallest entry. -/
noncomputable def firstMin (f : ℕ → ℝ) : ℕ → ℕ
  | 0 => 0
  | k + 1 => if f (k + 1) < f (firstMin f k) then k + 1 else firstMin f k

open Classical in
/-- load_bench.py 84-111 `stich_solution` for `n + 1` points `xs 0, …, xs n`.  `interp` is the
interpolation of the stored benchmark; `interp1d` fails outside the interval `[lo, edge]` of the
stored points, and `argmin` for an empty array.  (The second result, for the uncollided flux, is the same with another function.) -/
noncomputable def stitch (interp : ℝ → ℝ) (lo edge : ℝ) (n : ℕ) (xs : ℕ → ℝ) : Option (ℕ → ℝ) :=
  if |xs n - xs 0| ≤ 1 / 10 ^ 12 then
    let middle := (n + 1) / 2
    if n ≤ middle then none else
    let k := firstMin (fun j => |xs (middle + j) - edge|) (n - middle - 1)
    if ∀ i, middle - k ≤ i → i < k + middle → lo ≤ xs i ∧ xs i ≤ edge then
      some fun i => if middle - k ≤ i ∧ i < k + middle then interp (xs i) else 0
    else none
  else
    let k := firstMin (fun j => |xs j - edge|) n
    if ∀ i, i < k → lo ≤ xs i ∧ xs i ≤ edge then
      some fun i => if i < k then interp (xs i) else 0
    else none

open Classical in
/-- load_bench.py 122-133 `__call__` for a stored benchmark. -/
noncomputable def benchCall (interp : ℝ → ℝ) (lo edge : ℝ) (n : ℕ) (xs : ℕ → ℝ) :
    Option (ℕ → ℝ) :=
  if edge < xs n then stitch interp lo edge n xs
  else if ∀ i, i ≤ n → lo ≤ xs i ∧ xs i ≤ edge then some fun i => interp (xs i)
  else none

end Verif.Model
