import Verif.Model.Saving
import Mathlib.Algebra.Order.Floor.Ring
import Mathlib.Algebra.Order.Archimedean.Real.Basic

/-!
# Saving and loading tables of errors

Model of `save_output.save_RMS` and `save_output.save_RMS_P1_su_olson`
(`loading_and_saving/save_output.py` 46-154) and of `rms_plotter.load_RMS_data`
(`plots/make_plots.py` 79-167).

Files and groups are as in `Model/Saving.lean`; here the names of files are paths relative to the
folder `moving_mesh_transport`, because the saver and the loader look in different folders.
Simplifications: opening a group never fails (so `print(f['gaussian_IC'].keys())` in the loader is
skipped), and a row written into a dataset must have the length of the row or length one.
The thermal coupling is only compared with `1` (save_output.py 47); the outcome of the comparison
is `thermalIsOne`.
-/

namespace Verif.Model

/-- What `save_output` holds and what `save_RMS` (`angles = none`) or `save_RMS_P1_su_olson`
(`angles = some ang`) is given (save_output.py 13-46, 102). -/
structure TableCall where
  problemType : String
  sourceType : List ℤ
  tfinal : ℝ
  thermalIsOne : Bool
  major : String
  Ms : List ℕ
  nSpaces : List ℕ
  moving : Bool
  uncollided : Bool
  c : ℝ
  sigma : ℝ
  x0 : ℝ
  angles : Option ℕ
  rms : List ℝ
  energyRms : List ℝ
  nAngles : List ℕ
  times : List ℝ

/-- `self.config_file_path` (save_output.py 34-39); for other problems the attribute is never set
and using it fails. -/
def tableFile (problemType : String) : Option String :=
  if problemType = "transport" then some "local_run_data/run_data_transport_RMS.h5"
  else if problemType = "su_olson" ∨ problemType = "su_olson_s2" ∨
      problemType = "su_olson_thick" ∨ problemType = "su_olson_thick_s2" then
    some "local_run_data/run_data_su_olson_RMS.h5"
  else none

/-- `int(x)` of a float: towards zero. -/
noncomputable def truncate (x : ℝ) : ℤ := if 0 ≤ x then ⌊x⌋ else ⌈x⌉

/-- `str` of an integer. -/
def intStr (n : ℤ) : Str := (toString n).toList

/-- The time in the name of the group (save_output.py 57-62, 84, 115-117, 138). -/
noncomputable def tableTime (r : TableCall) : Str :=
  if r.angles = none ∧ r.major = "cells" then
    if r.tfinal = 1.25 then "1.25".toList
    else if r.tfinal = 0.8333333333333334 then "0.8333333333333334".toList
    else intStr (truncate r.tfinal)
  else intStr (truncate r.tfinal)

/-- The source in the name of the group (save_output.py 44 and 104-107). -/
noncomputable def tableSource (r : TableCall) : Option Str := do
  let source ← savedSourceName r.sourceType
  match r.angles with
  | none => pure source
  | some _ =>
    if truncate r.sigma = 300 then pure "gaussian_s_thick".toList
    else if r.x0 = 400 then pure "su_olson_thick".toList
    else pure source

/-- `dest_str` (save_output.py 63, 84, 117, 138; make_plots.py 100-123). -/
def tableGroup (source time : Str) (angles : Option ℕ) : Str :=
  source ++ "/".toList ++ "t=".toList ++ time ++ "/".toList ++ "RMS".toList ++
    match angles with
    | none => []
    | some a => "/".toList ++ ("S".toList ++ (toString a).toList)

/-- `rms_str` (save_output.py 68, 91, 123, 146) and `data_str` (make_plots.py 125-128). -/
def tableName (cells uncollided moving : Bool) (M : ℕ) : Str :=
  if cells then
    (if uncollided then "uncollided_".toList else "no_uncollided_".toList) ++
      (if moving then "moving_".toList else "static_".toList) ++ "M_".toList ++
      (toString M).toList
  else
    "Ms_".toList ++ (if uncollided then "uncollided_".toList else "no_uncollided_".toList) ++
      (if moving then "moving".toList else "static".toList)

/-- `dset[i] = v` for a row of `n` single precision numbers: `v` has `n` entries or one. -/
def tableRow (single : ℝ → ℝ) (n : ℕ) (v : List ℝ) : Option (List ℝ) :=
  if v.length = n then some (v.map single)
  else match v with
    | [x] => some (List.replicate n (single x))
    | _ => none

/-- The six rows of the dataset (save_output.py 71-77, 94-100, 126-132, 149-154). -/
noncomputable def tableRows (single : ℝ → ℝ) (r : TableCall) : Option (List (List ℝ)) := do
  let n := r.nSpaces.length
  let spaces := r.nSpaces.map (fun k => (k : ℝ))
  let orders := r.Ms.map (fun k => (k : ℝ))
  let row0 ← tableRow single n (if r.major = "cells" then spaces else orders)
  let row1 ← tableRow single n r.rms
  let row2 ← tableRow single n (r.nAngles.map (fun k => (k : ℝ)))
  let row3 ← tableRow single n r.times
  let row4 ← tableRow single n (if r.major = "cells" then orders else spaces)
  let row5 ← tableRow single n r.energyRms
  pure [row0, row1, row2, row3, row4, row5]

/-- Whether anything is saved (save_output.py 47-50, 54, 81 and 103, 109). -/
def TableWanted (r : TableCall) : Prop :=
  (r.major = "cells" ∨ r.major = "Ms") ∧
  (r.angles = none → r.tfinal = 1 ∨ r.tfinal = 5 ∨ r.tfinal = 10 ∨ r.tfinal = 1.25 ∨
    r.tfinal = 0.8333333333333334 ∨ (r.thermalIsOne = true ∧ r.tfinal = 31.6228))

/-- The name of the dataset; `self.Ms[0]` fails on an empty list
(save_output.py 68, 91, 123, 146). -/
def tableKey (r : TableCall) : Option Str :=
  if r.major = "cells" then
    r.Ms.head?.map (fun M => tableName true r.uncollided r.moving M)
  else some (tableName false r.uncollided r.moving 0)

open Classical in
/-- `save_RMS` and `save_RMS_P1_su_olson` (save_output.py 46-154). -/
noncomputable def saveTable (single : ℝ → ℝ) (d : Disk) (r : TableCall) : Option Disk :=
  if TableWanted r then do
    let name ← tableFile r.problemType
    let source ← tableSource r
    let f ← d name
    let key ← tableKey r
    let rows ← tableRows single r
    let f ← putData f (resolve (splitPath [] (tableGroup source (tableTime r) r.angles)) key)
      (.mat rows)
    pure (fun n => if n = name then some f else d n)
  else some d

/-- What `rms_plotter` is asked for (make_plots.py 26-36, 79): `time` is `str(self.tfinal)`. -/
structure TableQuery where
  source : String
  time : Str
  M : ℕ
  major : String
  uncollided : Bool
  moving : Bool

/-- What the loader sets (make_plots.py 139-167); `energyRms` is only set for the Su-Olson names,
`Ms` only when the table is over orders. -/
structure TableLoad where
  cells : List ℝ
  Ms : Option (List ℝ)
  rms : List ℝ
  angles : List ℝ
  times : List ℝ
  energyRms : Option (List ℝ)

/-- The names handled by the second branch of the loader (make_plots.py 131-135, 152-156). -/
def suOlsonNames : List String :=
  ["su_olson", "su_olson_energy", "su_olson_energy_s2", "su_olson_s2", "gaussian_s2",
    "gaussian_energy_s2", "gaussian_s_thick_s2", "gaussian_s_thick_s8", "su_olson_thick_s2",
    "su_olson_thick_s8", "gaussian_s_thick_s2_energy", "gaussian_s_thick_s8_energy",
    "su_olson_thick_s2_energy", "su_olson_thick_s8_energy"]

/-- `self.dest_str` (make_plots.py 100-123): source and angles of the group that is read. -/
def loadedGroup (s : String) : Str × Option ℕ :=
  if s = "su_olson_s2" ∨ s = "su_olson_energy_s2" then ("square_s".toList, some 2)
  else if s = "gaussian_s2" ∨ s = "gaussian_energy_s2" then ("gaussian_s".toList, some 2)
  else if s = "gaussian_s_thick_s2" ∨ s = "gaussian_s_thick_s2_energy" then
    ("gaussian_s_thick".toList, some 2)
  else if s = "gaussian_s_thick_s8" ∨ s = "gaussian_s_thick_s8_energy" then
    ("gaussian_s_thick".toList, some 8)
  else if s = "su_olson_thick_s2" ∨ s = "su_olson_thick_s2_energy" then
    ("su_olson_thick".toList, some 2)
  else if s = "su_olson_thick_s8" ∨ s = "su_olson_thick_s8_energy" then
    ("su_olson_thick".toList, some 8)
  else if s = "su_olson" ∨ s = "su_olson_energy" then ("square_s".toList, none)
  else (s.toList, none)

/-- `load_RMS_data` once the file is open (make_plots.py 100-167). -/
noncomputable def loadTableFrom (f : H5File) (q : TableQuery) : Option TableLoad := do
  let cells ← if q.major = "cells" then some true else if q.major = "Ms" then some false else none
  let g := loadedGroup q.source
  let data ← readMat f (resolve [] (tableGroup g.1 q.time g.2 ++ "/".toList ++
    tableName cells q.uncollided q.moving q.M))
  let row0 ← data[0]?
  let row1 ← data[1]?
  let row2 ← data[2]?
  let row3 ← data[3]?
  let row4 ← data[4]?
  let row5 ← data[5]?
  pure { cells := if cells then row0 else row4, Ms := if cells then none else some row0,
         rms := row1, angles := row2, times := row3,
         energyRms := if q.source ∈ suOlsonNames then some row5 else none }

/-- The file that the loader opens (make_plots.py 27-28, 36, 96, 158). -/
def loadedFile (s : String) : String :=
  if s ∈ suOlsonNames then "run_data_su_olson_RMS.h5" else "run_data_transport_RMS.h5"

/-- `load_RMS_data` (make_plots.py 79-167); the transport file is opened for every name. -/
noncomputable def loadTable (d : Disk) (q : TableQuery) : Option TableLoad := do
  let _ ← d "run_data_transport_RMS.h5"
  let f ← d (loadedFile q.source)
  loadTableFrom f q

end Verif.Model
