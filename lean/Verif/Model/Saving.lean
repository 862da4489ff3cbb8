import Mathlib.Data.Real.Basic
import Mathlib.Data.List.Basic
import Mathlib.Logic.Function.Basic

/-!
# Saving and loading runs, and loading parameters

Model of `loading_and_saving/save_output.py` (`__init__`, `save_solution`, `save_wave_loc`),
`loading_and_saving/load_solution.py` (`load_sol`), `loading_and_saving/load_parameters.py`
(`dictionary_loader`, the length check), `solver_functions/main_functions.py`
(`parameter_function`, `x0_function`) and of the loop over runs in `solver.py`.

An HDF5 file is a partial map from absolute paths to arrays.  Groups exist implicitly: opening a
group never fails in the model, opening a missing dataset does.  Creating a dataset at a path that
already holds one fails, as in h5py.  Path resolution follows HDF5: a name that starts with a slash
is resolved from the root of the file whatever group it is looked up in, and repeated slashes count
as one.  Strings are lists of characters.  `str` of a float is a parameter `fmt`.

`create_dataset(name, (4, n))` without `dtype` makes single precision numbers; rounding to single
precision is the parameter `single`.
-/

namespace Verif.Model

/-- Python strings. -/
abbrev Str := List Char

/-- An absolute path in an HDF5 file: the components between the slashes. -/
abbrev H5Path := List Str

/-- The arrays stored in the files (numpy arrays of one, two and three dimensions). -/
inductive H5Data where
  | vec (v : List ℝ)
  | mat (m : List (List ℝ))
  | cube (c : List (List (List ℝ)))

/-- An HDF5 file: the datasets it contains. -/
abbrev H5File := H5Path → Option H5Data

/-- The folder `local_run_data`: files by name (save_output.py 15-17, load_solution.py 17-22). -/
abbrev Disk := String → Option H5File

/-- The components of an HDF5 name, empty components dropped.  `cur` is the component being read.
HDF5 library contract used by save_output.py 192-237 and load_solution.py 47-71. -/
def splitPath : Str → Str → H5Path
  | cur, [] => if cur = [] then [] else [cur]
  | cur, ch :: s =>
    if ch = '/' then (if cur = [] then splitPath [] s else cur :: splitPath [] s)
    else splitPath (cur ++ [ch]) s

/-- `f[group][name]`: names with a leading slash are absolute, others relative to the group.
HDF5 library contract used by save_output.py 192-237 and load_solution.py 47-71. -/
def resolve (group : H5Path) (name : Str) : H5Path :=
  if name.head? = some '/' then splitPath [] name else group ++ splitPath [] name

/-- `if f[group].__contains__(name): del f[group][name]`
(save_output.py 192-193, 204-207, 223-224, 229-230, 234-235). -/
def deleteIfPresent (f : H5File) (p : H5Path) : H5File :=
  fun q => if q = p then none else f q

/-- `f[group].create_dataset(name, data = a)`, which fails when the name is taken
(save_output.py 197, 214, 215, 227, 232, 237). -/
def createDataset (f : H5File) (p : H5Path) (a : H5Data) : Option H5File :=
  match f p with
  | some _ => none
  | none => some (fun q => if q = p then some a else f q)

/-- `np.argmin(np.abs(np.array(source_type)-1))`: position of the first smallest entry, from
position `i` on, given the best value and position so far (save_output.py 43). -/
def argminFrom : List ℤ → ℕ → ℤ → ℕ → ℕ
  | [], _, _, best => best
  | v :: vs, i, bestVal, best =>
    if |v - 1| < bestVal then argminFrom vs (i + 1) |v - 1| i
    else argminFrom vs (i + 1) bestVal best

/-- Position of the source (save_output.py 43); `argmin` of an empty array fails. -/
def sourceIndex : List ℤ → Option ℕ
  | [] => none
  | v :: vs => some (argminFrom vs 1 |v - 1| 0)

/-- `source_name_list` (save_output.py 41). -/
def sourceNameList : List Str :=
  ["plane_IC".toList, "square_IC".toList, "square_s".toList, "gaussian_IC".toList, "MMS".toList,
    "gaussian_s".toList]

/-- `self.source_name = source_name_list[index_of_source_name]` (save_output.py 41-44); indices
outside the list fail. -/
def savedSourceName (sourceType : List ℤ) : Option Str :=
  (sourceIndex sourceType).bind (sourceNameList[·]?)

/-- The folder used by `save_solution` (save_output.py 162-183). -/
noncomputable def saveFolder (fmt : ℝ → Str) (problemType : String) (cv : ℝ) : Str :=
  if problemType = "transport" then "transport".toList
  else if problemType = "rad_transfer_constant_cv" then "transfer_const_cv=".toList ++ fmt cv
  else if problemType = "rad_transfer_constant_cv_s2" then
    "transfer_const_cv=".toList ++ fmt cv ++ "_s2".toList
  else if problemType = "rad_transfer_constant_cv_thick" then
    "transfer_const_cv=".toList ++ fmt cv ++ "_thick".toList
  else if problemType = "rad_transfer_constant_cv_thick_s2" then
    "transfer_const_cv=".toList ++ fmt cv ++ "_thick_s2".toList
  else if problemType = "su_olson_s2" then "su_olson_s2".toList
  else if problemType = "su_olson_thick_s2" then "su_olson_thick_s2".toList
  else if problemType = "su_olson_thick" then "su_olson_thick".toList
  else if problemType = "su_olson" then "su_olson".toList
  else "none".toList

/-- `full_str` (save_output.py 186-190 and load_solution.py 39-43, the same expression). -/
noncomputable def fullStr (fmt : ℝ → Str) (source : Str) (uncollided moving : Bool) (nSpace : ℕ)
    (t c x0 epsilon : ℝ) : Str :=
  "/".toList ++ source ++ (if uncollided then "_uncollided_".toList else []) ++
    (if moving then "moving_mesh_".toList else []) ++ "N_space = ".toList ++
    (toString nSpace).toList ++ "_t = ".toList ++ fmt t ++ "_c = ".toList ++ fmt c ++
    "_x0_or_sigma = ".toList ++ fmt x0 ++
    (if epsilon ≠ 1 then "_epsilon=".toList ++ fmt epsilon else [])

/-- What `save_output.__init__` is given (save_output.py 13-32; the entries used by
`save_solution`) and what `save_solution` is given (save_output.py 156), together with the number
of angles and the order of the run, which the saver does not look at. -/
structure SaveCall where
  problemType : String
  sourceType : List ℤ
  moving : Bool
  uncollided : Bool
  tfinal : ℝ
  c : ℝ
  cv : ℝ
  epsilon : ℝ
  nSpace : ℕ
  x0 : ℝ
  order : ℕ
  nAngles : ℕ
  xs : List ℝ
  phi : List ℝ
  e : List ℝ
  psi : List (List ℝ)
  mus : List ℝ
  ws : List ℝ
  edges : List ℝ
  coeffs : List (List (List ℝ))

/-- The part of `save_solution` that writes, given the folder and the name
(save_output.py 192-237).  The row assignments `dset[0] = xs` and so on fail when the lengths
differ (numpy would also accept length one, which is not modelled).  The material energy row is
written only outside the transport folder. -/
noncomputable def saveRows (single : ℝ → ℝ) (f : H5File) (r : SaveCall) (folder key : Str) :
    Option H5File :=
  if r.phi.length = r.xs.length ∧
      (folder ≠ "transport".toList → r.e.length = r.xs.length) then do
    let group := splitPath [] folder
    let f := deleteIfPresent f (resolve group ("solution/".toList ++ key))
    let zeros := List.replicate r.xs.length (0 : ℝ)
    let eRow := if folder ≠ "transport".toList then r.e.map single else zeros
    let f ← createDataset f (resolve group ("solution/".toList ++ key))
      (.mat [r.xs.map single, r.phi.map single, eRow, zeros])
    let f := deleteIfPresent f (resolve (resolve group key) "psi".toList)
    let f := deleteIfPresent f (resolve (resolve group key) "mus".toList)
    let f ← createDataset f (resolve (resolve group key) "psi".toList) (.mat r.psi)
    let f ← createDataset f (resolve (resolve group key) "mus".toList) (.vec r.mus)
    let f := deleteIfPresent f (resolve group ("coefficients/".toList ++ key))
    let f ← createDataset f (resolve group ("coefficients/".toList ++ key)) (.cube r.coeffs)
    let f := deleteIfPresent f (resolve group ("weights/".toList ++ key))
    let f ← createDataset f (resolve group ("weights/".toList ++ key)) (.vec r.ws)
    let f := deleteIfPresent f (resolve group ("edges/".toList ++ key))
    createDataset f (resolve group ("edges/".toList ++ key)) (.vec r.edges)
  else none

/-- `save_solution` on an open file (save_output.py 156-240). -/
noncomputable def saveInFile (fmt : ℝ → Str) (single : ℝ → ℝ) (f : H5File) (r : SaveCall) :
    Option H5File :=
  (savedSourceName r.sourceType).bind fun source =>
    saveRows single f r (saveFolder fmt r.problemType r.cv)
      (fullStr fmt source r.uncollided r.moving r.nSpace r.tfinal r.c r.x0 r.epsilon)

/-- `h5py.File(path, 'r+')`, work on it, `close` (save_output.py 16, 160, 240): the file must
exist. -/
noncomputable def saveSolution (fmt : ℝ → Str) (single : ℝ → ℝ) (d : Disk) (r : SaveCall) :
    Option Disk := do
  let f ← d "run_data.hdf5"
  let f ← saveInFile fmt single f r
  pure (fun n => if n = "run_data.hdf5" then some f else d n)

/-- A history of saves (solver.py 153-168, over any number of runs of the program). -/
noncomputable def saveAll (fmt : ℝ → Str) (single : ℝ → ℝ) : Disk → List SaveCall → Option Disk
  | d, [] => some d
  | d, r :: rs => (saveSolution fmt single d r).bind (fun d => saveAll fmt single d rs)

/-- The arguments of `load_sol` (load_solution.py 15) and of `call_sol` (line 37).  `order` is the
argument `M`. -/
structure LoadCall where
  fileName : String := "run_data_crc_dec15-3.hdf5"
  problemName : String
  sourceName : Str
  radOrTransfer : String
  c : ℝ
  cv0 : ℝ
  tfinal : ℝ
  order : ℕ
  x0 : ℝ
  nSpace : ℕ
  matOrRad : String
  uncollided : Bool
  moving : Bool
  epsilon : ℝ

/-- The attributes set by `call_sol` (load_solution.py 49-71).  `coeffs` is `none` when none of the
three branches assigns it. -/
structure LoadResult where
  xs : List ℝ
  phi : List ℝ
  e : List ℝ
  psi : List (List ℝ)
  mus : List ℝ
  ws : List ℝ
  edges : List ℝ
  coeffs : Option H5Data

/-- `self.problem_name` after `__init__` (load_solution.py 27-32). -/
noncomputable def loadFolder (fmt : ℝ → Str) (problemName : String) (cv0 : ℝ) : Str :=
  if problemName = "rad_transfer_const_cv_thick" then
    "transfer_const_cv=".toList ++ fmt cv0 ++ "_thick".toList
  else if problemName = "rad_transfer_const_cv" then "transfer_const_cv=".toList ++ fmt cv0
  else problemName.toList

/-- Reading a one dimensional dataset with `[:]`. -/
def readVec (f : H5File) (p : H5Path) : Option (List ℝ) :=
  match f p with
  | some (.vec v) => some v
  | _ => none

/-- Reading a two dimensional dataset with `[:,:]`. -/
def readMat (f : H5File) (p : H5Path) : Option (List (List ℝ)) :=
  match f p with
  | some (.mat m) => some m
  | _ => none

/-- Reading a three dimensional dataset with `[:,:,:]`. -/
def readCube (f : H5File) (p : H5Path) : Option (List (List (List ℝ))) :=
  match f p with
  | some (.cube c) => some c
  | _ => none

/-- The coefficient part of `call_sol` (load_solution.py 64-71). -/
def loadCoeffs (f : H5File) (p : H5Path) (radOrTransfer matOrRad : String) :
    Option (Option H5Data) :=
  if radOrTransfer = "transfer" then
    if matOrRad = "rad" then do
      let c ← readCube f p
      pure (some (.cube c.dropLast))
    else if matOrRad = "mat" then do
      let c ← readCube f p
      let last ← c.getLast?
      pure (some (.mat last))
    else pure none
  else do
    let c ← readCube f p
    pure (some (.cube c))

/-- `load_sol(...).call_sol(...)` (load_solution.py 15-35 and 37-79). -/
noncomputable def loadSolution (fmt : ℝ → Str) (d : Disk) (q : LoadCall) : Option LoadResult := do
  let f ← d q.fileName
  let key := fullStr fmt q.sourceName q.uncollided q.moving q.nSpace q.tfinal q.c q.x0 q.epsilon
  let group := splitPath [] (loadFolder fmt q.problemName q.cv0)
  let sol ← readMat f (resolve group ("solution/".toList ++ key))
  let xs ← sol[0]?
  let phi ← sol[1]?
  let e ← sol[2]?
  let psi ← readMat f (resolve (resolve group key) "psi".toList)
  let mus ← readVec f (resolve (resolve group key) "mus".toList)
  let ws ← readVec f (resolve group ("weights/".toList ++ key))
  let edges ← readVec f (resolve group ("edges/".toList ++ key))
  let coeffs ← loadCoeffs f (resolve group ("coefficients/".toList ++ key)) q.radOrTransfer
    q.matOrRad
  pure ⟨xs, phi, e, psi, mus, ws, edges, coeffs⟩

/-! ### Wave positions -/

/-- What `save_wave_loc` writes (save_output.py 243): the saver's attributes it uses and the four
arrays. -/
structure WaveSave where
  problemType : String
  sourceType : List ℤ
  tfinal : ℝ
  cv : ℝ
  tpnts : List ℝ
  left : List ℝ
  right : List ℝ
  tWave : List ℝ

/-- The folder of `save_wave_loc` (save_output.py 248-264). -/
noncomputable def waveFolder (fmt : ℝ → Str) (problemType : String) (cv : ℝ) : Str :=
  if problemType = "transport" then "transport".toList
  else if problemType = "rad_transfer_constant_cv" then "transfer_const_cv=".toList ++ fmt cv
  else if problemType = "rad_transfer_constant_cv_thick" then
    "transfer_const_cv=".toList ++ fmt cv ++ "_thick".toList
  else if problemType = "su_olson_s2" then "su_olson_s2".toList
  else if problemType = "su_olson_thick_s2" then "su_olson_thick_s2".toList
  else if problemType = "su_olson_thick" then "su_olson_thick".toList
  else if problemType = "su_olson" then "su_olson".toList
  else "none".toList

/-- The name of a wave dataset (save_output.py 270, 286-289; load_solution.py 87). -/
def waveKey (fmt : ℝ → Str) (source : Str) (tfinal : ℝ) : Str :=
  source ++ "t = ".toList ++ fmt tfinal

/-- Delete if present, then create (save_output.py 276-289). -/
def putData (f : H5File) (p : H5Path) (a : H5Data) : Option H5File :=
  createDataset (deleteIfPresent f p) p a

/-- `save_wave_loc` (save_output.py 243-293). -/
noncomputable def saveWave (fmt : ℝ → Str) (d : Disk) (w : WaveSave) : Option Disk := do
  let source ← savedSourceName w.sourceType
  let f ← d "wavepoints_crc.hdf5"
  let group := splitPath [] (waveFolder fmt w.problemType w.cv)
  let key := waveKey fmt source w.tfinal
  let f := deleteIfPresent f (resolve group key)
  let f ← putData f (resolve group ("tpnts_".toList ++ key)) (.vec w.tpnts)
  let f ← putData f (resolve group ("left_".toList ++ key)) (.vec w.left)
  let f ← putData f (resolve group ("right_".toList ++ key)) (.vec w.right)
  let f ← putData f (resolve group ("T_wave_".toList ++ key)) (.vec w.tWave)
  pure (fun n => if n = "wavepoints_crc.hdf5" then some f else d n)

/-- The four arrays set by `call_wavepoints`. -/
structure WaveLoad where
  tpnts : List ℝ
  left : List ℝ
  right : List ℝ
  tWave : List ℝ

/-- One of the branches of `call_wavepoints` that work (load_solution.py 99-108, 117-126,
133-142): the stored arrays or, when there are none, the default with the front at zero. -/
def loadWaveFrom (f : H5File) (group : H5Path) (key : Str) (tfinal : ℝ) : Option WaveLoad :=
  match f (resolve group ("tpnts_".toList ++ key)) with
  | none => some ⟨[tfinal], [0], [0], [0]⟩
  | some _ => do
    let a ← readVec f (resolve group ("tpnts_".toList ++ key))
    let b ← readVec f (resolve group ("left_".toList ++ key))
    let c ← readVec f (resolve group ("right_".toList ++ key))
    let e ← readVec f (resolve group ("T_wave_".toList ++ key))
    pure ⟨a, b, c, e⟩

/-- `load_sol(problem_name, source_name, ...).call_wavepoints(tfinal)` (load_solution.py 83-157).
The branch for `su_olson_thick` (line 94) and the last branch (line 151) use the variable
`folder_name` that they never assign, so they fail. -/
noncomputable def loadWave (fmt : ℝ → Str) (d : Disk) (problemName : String) (source : Str)
    (cv0 tfinal : ℝ) : Option WaveLoad := do
  let f ← d "wavepoints.h5"
  let key := waveKey fmt source tfinal
  let name := loadFolder fmt problemName cv0
  if name = "su_olson_thick_s2".toList then
    loadWaveFrom f (splitPath [] "su_olson_thick_s2".toList) key tfinal
  else if name = "rad_transfer_constant_cv_thick".toList then
    loadWaveFrom f (splitPath [] ("transfer_const_cv=".toList ++ fmt cv0 ++ "_thick".toList)) key
      tfinal
  else if name = "rad_transfer_constant_cv_thick_s2".toList then
    loadWaveFrom f (splitPath [] ("transfer_const_cv=".toList ++ fmt cv0 ++ "_thick_s2".toList))
      key tfinal
  else none

/-! ### Parameters -/

/-- A dictionary of switches: numba typed dictionary from strings to integers
(load_parameters.py 33, 47, 127). -/
abbrev Switches := String → Option ℤ

/-- The loop of `dictionary_loader` (load_parameters.py 161-166) over the items of the input
dictionary; `True == 1` in Python, so exactly the value one counts. -/
def loadItems : List (String × ℤ) → ℕ → Switches → ℕ × Switches
  | [], n, out => (n, out)
  | (k, v) :: rest, n, out =>
    loadItems rest (if v = 1 then n + 1 else n) (fun k' => if k' = k then some v else out k')

/-- `dictionary_loader` (load_parameters.py 160-169). -/
def dictionaryLoader (input : List (String × ℤ)) (out : Switches) : Option Switches :=
  let r := loadItems input 0 out
  if 2 ≤ r.1 then none else some r.2

/-- The run lists of a configuration (load_parameters.py 22, 23, 31, 73). -/
structure RunLists where
  major : String
  nSpaces : List ℕ
  nAngles : List ℕ
  orders : List ℕ

/-- The length check of `parameter_load_class.__init__` (load_parameters.py 140-142). -/
def checkLists (p : RunLists) : Option RunLists :=
  if p.nSpaces.length = p.nAngles.length ∧ p.nAngles.length = p.orders.length then some p else none

/-- `parameter_function` (main_functions.py 46-53): the number of cells and the order of run
`count`.  Other values of `major` leave both unbound. -/
def parameterFunction (major : String) (nSpaces orders : List ℕ) (count : ℕ) : Option (ℕ × ℕ) :=
  if major = "cells" then do
    let m ← orders[count]?
    let n ← nSpaces[count]?
    pure (n, m)
  else if major = "Ms" then do
    let n ← nSpaces[1]?
    let m ← orders[count]?
    pure (n, m)
  else none

/-- The loop over runs in `solver.py` (104-106): for every position of `N_angles` the number of
cells, the order and the number of angles of the run. -/
def runsFrom (major : String) (nSpaces orders : List ℕ) : List ℕ → ℕ → Option (List (ℕ × ℕ × ℕ))
  | [], _ => some []
  | a :: as, count => do
    let nm ← parameterFunction major nSpaces orders count
    let rest ← runsFrom major nSpaces orders as (count + 1)
    pure ((nm.1, nm.2, a) :: rest)

/-- Loading a configuration and running it (load_parameters.py 140-142, solver.py 104-106). -/
def configuredRuns (p : RunLists) : Option (List (ℕ × ℕ × ℕ)) := do
  let p ← checkLists p
  runsFrom p.major p.nSpaces p.orders p.nAngles 0

/-- `x0_function` (main_functions.py 287-292); `source_type[3] or source_type[4] == 1` is true for
any non-zero third entry. -/
def x0Function (x0 : List ℝ) (sourceType : List ℤ) (count : ℕ) : Option ℝ := do
  let s3 ← sourceType[3]?
  if s3 ≠ 0 then x0[count]?
  else do
    let s4 ← sourceType[4]?
    if s4 = 1 then x0[count]? else x0[0]?

end Verif.Model
