import Verif.Model.Saving
import Mathlib.Logic.Function.Basic

/-!
# The functions a user calls, and which benchmark is loaded

Model of the class `run` (`solver_functions/run_functions.py` 39-303), of the two loops in
`main_class.main` (`solver.py` 104-230) as far as results and timings are concerned, of the choice
of a benchmark (`loading_and_saving/load_bench.py` 44-72, `solver_functions/main_functions.py` 56-76)
and of `misc_functions.py` 3-17.

`solve` builds all its objects anew, so its result is a function of the two switches and of the
position in `N_angles`; `none` when it raises.  The measured times are arbitrary: `clock nr count`.
Plots and printing are left out.
-/

namespace Verif.Model

/-! ### Benchmarks -/

/-- `source_type_str` (load_bench.py 44-49). -/
def benchNames : List String :=
  ["plane_IC", "square_IC", "square_source", "gaussian_IC", "MMS", "gaussian_source",
    "gaussian_IC_2D", "line_source", "P1_su_olson_rad", "P1_su_olson_mat", "P1_gaussian_rad",
    "P1_gaussian_mat", "P1_gaussian_rad_thick", "P1_gaussian_mat_thick", "P1_su_olson_rad_thick",
    "P1_su_olson_mat_thick"]

/-- The group of benchmarks.hdf5 that is read (load_bench.py 52-53, 72). -/
def benchSource (sourceType : List ℤ) : Option String :=
  (sourceIndex sourceType).bind (benchNames[·]?)

/-- A list of sixteen zeros with a one at a position. -/
def unitArray (i : ℕ) : List ℤ := (List.replicate 16 0).set i 1

/-- `s2_source_type_selector` (main_functions.py 56-76): radiation and material arrays; `none` when
the two names have no value at the end. -/
noncomputable def s2Selector (sigma x0 : ℝ) (sourceType : List ℤ) : Option (List ℤ × List ℤ) :=
  if sourceType[5]? = some 1 then
    if sigma = 300 then some (unitArray 12, unitArray 13)
    else if sigma = 0.5 then some (unitArray 10, unitArray 11)
    else none
  else if sourceType[2]? = some 1 then
    if x0 = 400 then some (unitArray 14, unitArray 15)
    else if x0 = 0.5 then some (unitArray 8, unitArray 9)
    else none
  else none

/-- The names in `source_name_finder` (misc_functions.py 4-9). -/
def finderNames : List String :=
  ["plane_IC", "square_IC", "square_s", "gaussian_IC", "MMS", "gaussian_s",
    "gaussian_IC_2D", "line_source", "P1_su_olson_rad", "P1_su_olson_mat", "P1_gaussian_rad",
    "P1_gaussian_mat", "P1_gaussian_rad_thick", "P1_gaussian_mat_thick", "P1_su_olson_rad_thick",
    "P1_su_olson_mat_thick"]

/-- `source_name_finder` (misc_functions.py 3-17): fails on other names. -/
def sourceNameFinder (name : String) : Option (List ℤ) :=
  if name ∈ finderNames then some (unitArray (finderNames.idxOf name)) else none

/-- `source_type` of the drivers in transport.yaml (37, 46, 55, 69, 78, 87, 95, 106, 115). -/
def driverSource (driver : String) : List ℤ :=
  if driver = "plane_IC" then (List.replicate 15 0).set 0 1
  else if driver = "square_IC" then (List.replicate 15 0).set 1 1
  else if driver = "square_source" then (List.replicate 15 0).set 2 1
  else if driver = "gaussian_IC" then (List.replicate 16 0).set 3 1
  else if driver = "gaussian_source" then (List.replicate 15 0).set 5 1
  else if driver = "MMS" then (List.replicate 15 0).set 4 1
  else if driver = "dipole" then (List.replicate 15 0).set 0 2
  else if driver = "self_sim_plane" then (List.replicate 15 0).set 0 3
  else List.replicate 15 0

/-! ### Runs -/

/-- What `main` reads: `N_runs`, `len(N_angles)`, `x0`, and what `solve` returns for the switches
and a position (solver.py 104-138). -/
structure RunConfig (R : Type) where
  nRuns : ℕ
  nPos : ℕ
  x0 : List ℝ
  solve : Bool → Bool → ℕ → Option R

/-- The solver object: the results of the last position (solver.py 216-224) and the accumulated
times (solver.py 171, load_parameters.py 88). -/
structure SolverObject (R : Type) where
  results : Option R
  times : ℕ → ℝ

/-- A new solver object (load_parameters.py 88). -/
def SolverObject.new (R : Type) : SolverObject R := ⟨none, fun _ => 0⟩

/-- One position of the inner loop (solver.py 105-224). -/
noncomputable def mainPosition {R : Type} (cfg : RunConfig R) (u m : Bool) (clock : ℕ → ℕ → ℝ)
    (nr count : ℕ) (o : SolverObject R) : Option (SolverObject R) := do
  let r ← cfg.solve u m count
  pure { results := if count + 1 = cfg.nPos then some r else o.results
         times := Function.update o.times count (o.times count + clock nr count / cfg.nRuns) }

/-- `for count, N_ang in enumerate(self.N_angles)` from a position on (solver.py 105). -/
noncomputable def mainInner {R : Type} (cfg : RunConfig R) (u m : Bool) (clock : ℕ → ℕ → ℝ)
    (nr : ℕ) : List ℕ → SolverObject R → Option (SolverObject R)
  | [], o => some o
  | c :: cs, o => (mainPosition cfg u m clock nr c o).bind (mainInner cfg u m clock nr cs)

/-- `for nr in range(self.N_runs)` (solver.py 104). -/
noncomputable def mainOuter {R : Type} (cfg : RunConfig R) (u m : Bool) (clock : ℕ → ℕ → ℝ) :
    List ℕ → SolverObject R → Option (SolverObject R)
  | [], o => some o
  | nr :: nrs, o =>
    (mainInner cfg u m clock nr (List.range cfg.nPos) o).bind (mainOuter cfg u m clock nrs)

/-- `main_class.main` (solver.py 37-230). -/
noncomputable def mainCall {R : Type} (cfg : RunConfig R) (u m : Bool) (clock : ℕ → ℕ → ℝ)
    (o : SolverObject R) : Option (SolverObject R) :=
  mainOuter cfg u m clock (List.range cfg.nRuns) o

/-- A call of one of the methods of `run`: `square` tells `square_source` from the others. -/
structure RunCall (R : Type) where
  cfg : RunConfig R
  square : Bool
  all : Bool
  uncollided : Bool
  moving : Bool
  clock : ℕ → ℕ → ℕ → ℝ

/-- The four calls of `main` when `All == True` (run_functions.py 66-70). -/
noncomputable def mainAll {R : Type} (cfg : RunConfig R) (clock : ℕ → ℕ → ℕ → ℝ)
    (o : SolverObject R) : Option (SolverObject R) := do
  let o ← mainCall cfg true true (clock 0) o
  let o ← mainCall cfg false true (clock 1) o
  let o ← mainCall cfg true false (clock 2) o
  mainCall cfg false false (clock 3) o

/-- `if self.x0 == 2.5` (run_functions.py 113): fails when there are no results yet and when `x0`
is an array of several numbers. -/
def squareCheck {R : Type} (exposed : Option (R × List ℝ)) : Option Unit :=
  match exposed with
  | none => none
  | some (_, x0) => if x0.length ≤ 1 then some () else none

/-- The results the object shows after the runs of a method (run_functions.py 65-73, 290-303):
`get_results` is only called when `All == False`. -/
noncomputable def runShown {R : Type} (exposed : Option (R × List ℝ)) (c : RunCall R) :
    Option (Option (R × List ℝ)) :=
  if c.all then
    (mainAll c.cfg c.clock (SolverObject.new R)).map (fun _ => exposed)
  else
    (mainCall c.cfg c.uncollided c.moving (c.clock 0) (SolverObject.new R)).bind
      (fun o => o.results.map (fun r => some (r, c.cfg.x0)))

/-- A method of `run` (run_functions.py 57-281): `exposed` are the results the object shows. -/
noncomputable def runCall {R : Type} (exposed : Option (R × List ℝ)) (c : RunCall R) :
    Option (Option (R × List ℝ)) :=
  (runShown exposed c).bind (fun shown =>
    if c.square then (squareCheck shown).map (fun _ => shown) else some shown)

/-- Several calls on one object. -/
noncomputable def runCalls {R : Type} (exposed : Option (R × List ℝ)) :
    List (RunCall R) → Option (Option (R × List ℝ))
  | [] => some exposed
  | c :: cs => (runCall exposed c).bind (fun e => runCalls e cs)

end Verif.Model
