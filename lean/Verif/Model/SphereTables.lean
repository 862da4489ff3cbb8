import Verif.Model.ActiveRhs
import Mathlib.Analysis.SpecialFunctions.Sqrt

/-!
Model: the sphere matrices that are computed from stored coefficient tables (`make_L_sphere`,
`make_mass_sphere`, `make_J_sphere` in `solver_classes/matrices.py`), the whole of
`make_all_matrices` in sphere geometry, and the reader of the tables
(`solver_functions/Chebyshev_matrix_reader.py`).

The files themselves are not in the repository; their contents are a parameter.
-/

namespace Verif.Model

/-- The tables kept by a `G_L` object, matrices.py 69-81: coefficients are floats, denominators
integers.  The sizes are the numbers of rows of the denominators. -/
structure SphereTables where
  massSize : ℕ
  jSize : ℕ
  lSize : ℕ
  massDenom : ℕ → ℕ → ℤ
  jDenom : ℕ → ℕ → ℤ
  lDenom : ℕ → ℕ → ℤ
  massEven : ℕ → ℕ → ℕ → ℝ
  massOdd : ℕ → ℕ → ℕ → ℝ
  jCoeff : ℕ → ℕ → ℕ → ℝ
  lEven : ℕ → ℕ → ℕ → ℝ
  lOdd : ℕ → ℕ → ℕ → ℝ

/-- functions.py 704-719 `sqrt_two_mass_func`. -/
noncomputable def sqrtTwoMass (i j : ℕ) : ℝ :=
  if (i = 0 ∧ j = 0) ∨ (i ≠ 0 ∧ j ≠ 0) then 1
  else if i = 0 ∧ j ≠ 0 then
    if j % 2 = 0 then Real.sqrt 2 else 1 / Real.sqrt 2
  else
    if i % 2 = 0 then Real.sqrt 2 else 1 / Real.sqrt 2

/-- The matrices of a `G_L` object in sphere geometry, matrices.py 60-67. -/
structure SphereObject where
  M : ℕ
  L : ℕ → ℕ → ℝ
  G : ℕ → ℕ → ℝ
  Mass : ℕ → ℕ → ℝ
  J : ℕ → ℕ → ℝ
  MPRIME : ℕ → ℕ → ℝ

/-- matrices.py 60-67: zeros. -/
def SphereObject.init (M : ℕ) : SphereObject where
  M := M
  L := fun _ _ => 0
  G := fun _ _ => 0
  Mass := fun _ _ => 0
  J := fun _ _ => 0
  MPRIME := fun _ _ => 0

/-- A table can be used for order `M` when it has at least `M + 1` rows; a product of arrays of
different shapes fails (matrices.py 166, 202, 279).  A zero denominator gives no finite result; the
model counts it as a failure. -/
def usable (size M : ℕ) (denom : ℕ → ℕ → ℤ) (first : ℕ) : Prop :=
  M + 1 ≤ size ∧ ∀ i, first ≤ i → i ≤ M → ∀ j ≤ M, denom i j ≠ 0

/-- matrices.py 158-166: one entry of the mass matrix. -/
noncomputable def massEntry (T : SphereTables) (rL rR : ℝ) (i j : ℕ) : ℝ :=
  if (i + j + 2) % 2 = 0 ∨ (i = 0 ∧ j = 0) then
    (T.massEven i j 0 * rL ^ 2 + T.massEven i j 1 * (rL * rR) + T.massEven i j 2 * rR ^ 2) *
      sqrtTwoMass i j / Real.pi * (1 / (T.massDenom i j : ℝ))
  else
    (T.massOdd i j 0 * rL ^ 2 + T.massOdd i j 1 * rR ^ 2) * sqrtTwoMass i j / Real.pi *
      (1 / (T.massDenom i j : ℝ))

open Classical in
/-- matrices.py 139-166 `make_mass_sphere` (the assertions are only run when testing). -/
noncomputable def SphereObject.makeMass (s : SphereObject) (T : SphereTables) (rL rR : ℝ) :
    Option SphereObject :=
  if usable T.massSize s.M T.massDenom 0 then
    some { s with
      Mass := fun i j => if i ≤ s.M ∧ j ≤ s.M then massEntry T rL rR i j else s.Mass i j }
  else none

/-- matrices.py 195-202: one entry of `J`: the loop 195-197, the scaling of the first column 199
and of the first row 200, the division 202. -/
noncomputable def jEntry (T : SphereTables) (rL rR : ℝ) (i j : ℕ) : ℝ :=
  let loop := (T.jCoeff i j 0 * rL + T.jCoeff i j 1 * rR) / Real.pi
  let column := if 1 ≤ i ∧ j = 0 then loop / Real.sqrt 2 else loop
  let row := if i = 0 ∧ 1 ≤ j then column / Real.sqrt 2 else column
  row * (1 / (T.jDenom i j : ℝ))

open Classical in
/-- matrices.py 182-202 `make_J_sphere`. -/
noncomputable def SphereObject.makeJ (s : SphereObject) (T : SphereTables) (rL rR : ℝ) :
    Option SphereObject :=
  if usable T.jSize s.M T.jDenom 0 then
    some { s with J := fun i j => if i ≤ s.M ∧ j ≤ s.M then jEntry T rL rR i j else s.J i j }
  else none

/-- matrices.py 270-279: one entry of `L` below row 0. -/
noncomputable def lEntry (T : SphereTables) (rL rR : ℝ) (i j : ℕ) : ℝ :=
  let loop :=
    if (i + j + 2) % 2 ≠ 0 then
      (T.lOdd i j 0 * rL ^ 2 + T.lOdd i j 1 * (rL * rR) + T.lOdd i j 2 * rR ^ 2) / (rL - rR) /
        Real.pi
    else (T.lEven i j 0 * rL + T.lEven i j 1 * rR) / Real.pi
  let column := if j = 0 then loop * Real.sqrt 2 else loop
  column * (1 / (T.lDenom i j : ℝ))

open Classical in
/-- matrices.py 253-279 `make_L_sphere`; row 0 is not written. -/
noncomputable def SphereObject.makeL (s : SphereObject) (T : SphereTables) (rL rR : ℝ) :
    Option SphereObject :=
  if usable T.lSize s.M T.lDenom 1 then
    some { s with
      L := fun i j => if 1 ≤ i ∧ i ≤ s.M ∧ j ≤ s.M then lEntry T rL rR i j else s.L i j }
  else none

/-- matrices.py 221-232 `make_G_sphere`. -/
noncomputable def SphereObject.makeG (s : SphereObject) (rL rR rLp rRp : ℝ) :
    Option SphereObject :=
  (fillFromTable s.M (fun i j => gMatrix i j rL rR rLp rRp) s.G).map fun g => { s with G := g }

/-- matrices.py 295-299 `make_MPRIME`. -/
noncomputable def SphereObject.makeMPRIME (s : SphereObject) (a b ap bp : ℝ) :
    Option SphereObject :=
  (fillFromTable s.M (fun i j => mPrime i j a b ap bp) s.MPRIME).map
    fun g => { s with MPRIME := g }

/-- matrices.py 109-116 `make_all_matrices` in sphere geometry. -/
noncomputable def SphereObject.makeAll (s : SphereObject) (T : SphereTables)
    (rL rR rLp rRp : ℝ) : Option SphereObject := do
  let s ← s.makeL T rL rR
  let s ← s.makeG rL rR rLp rRp
  let s ← s.makeMass T rL rR
  let s ← s.makeJ T rL rR
  s.makeMPRIME rL rR rLp rRp

/-- A history of calls of `make_all_matrices` (one per cell and right-hand side evaluation,
rhs_class_1.py 196), each with `(rL, rR, rLp, rRp)`. -/
noncomputable def SphereObject.run (s : SphereObject) (T : SphereTables) :
    List (ℝ × ℝ × ℝ × ℝ) → Option SphereObject
  | [] => some s
  | c :: cs => (s.makeAll T c.1 c.2.1 c.2.2.1 c.2.2.2).bind fun s => s.run T cs

/-- rhs_class_1.py 197-205 and 264: the matrices used in one cell; `Minv` is the result of
`np.linalg.inv`. -/
def SphereObject.cellMats (s : SphereObject) (Minv : ℕ → ℕ → ℝ) : CellMats where
  L := s.L
  G := s.G
  MPRIME := s.MPRIME
  Mass := s.Mass
  J := s.J
  Minv := Minv

/-! ### The reader -/

/-- One of the files: the array `denominators` and the datasets of the group `coefficients`,
flattened (Chebyshev_matrix_reader.py 9-18, 32-44). -/
structure TableFile where
  size : ℕ
  denominators : ℕ → ℕ → ℤ
  elements : List Char → Option (List ℝ)

/-- Chebyshev_matrix_reader.py 32: `f'Element{ii+1}{jj+1}'`. -/
def elementName (ii jj : ℕ) : List Char :=
  "Element".toList ++ Nat.toDigits 10 (ii + 1) ++ Nat.toDigits 10 (jj + 1)

/-- Assignment of a one-dimensional array to a row of length `n`: the lengths agree, or the array
has one entry, which is repeated. -/
def fitRow (n : ℕ) (v : List ℝ) : Option (ℕ → ℝ) :=
  if v.length = n then some fun k => v.getD k 0
  else if v.length = 1 then some fun _ => v.getD 0 0
  else none

/-- `row[ii, jj] = f['coefficients'][name][:].flatten()` for a row of length `n`. -/
def readRow (f : TableFile) (n ii jj : ℕ) : Option (ℕ → ℝ) :=
  (f.elements (elementName ii jj)).bind (fitRow n)

open Classical in
/-- Chebyshev_matrix_reader.py 9-60 (the files for `G` and `VV`, whose coefficients are not used,
are left out), handed to `G_L` in the same order (main_functions.py 132-133 and 159). -/
noncomputable def readTables (mass j l : TableFile) : Option SphereTables :=
  let n := mass.size
  if (∀ ii < n, ∀ jj < n, (readRow j 2 ii jj).isSome) ∧
      (∀ ii < n, ∀ jj < n, (ii + jj + 2) % 2 = 0 → (readRow mass 3 ii jj).isSome ∧
        (0 < ii → (readRow l 2 ii jj).isSome)) ∧
      (∀ ii < n, ∀ jj < n, (ii + jj + 2) % 2 ≠ 0 → (readRow mass 2 ii jj).isSome ∧
        (0 < ii → (readRow l 3 ii jj).isSome)) then
    some {
      massSize := mass.size
      jSize := j.size
      lSize := l.size
      massDenom := mass.denominators
      jDenom := j.denominators
      lDenom := l.denominators
      massEven := fun ii jj => if (ii + jj + 2) % 2 = 0 then
        (readRow mass 3 ii jj).getD fun _ => 0 else fun _ => 0
      massOdd := fun ii jj => if (ii + jj + 2) % 2 = 0 then fun _ => 0 else
        (readRow mass 2 ii jj).getD fun _ => 0
      jCoeff := fun ii jj => (readRow j 2 ii jj).getD fun _ => 0
      lEven := fun ii jj => if 0 < ii ∧ (ii + jj + 2) % 2 = 0 then
        (readRow l 2 ii jj).getD fun _ => 0 else fun _ => 0
      lOdd := fun ii jj => if 0 < ii ∧ (ii + jj + 2) % 2 ≠ 0 then
        (readRow l 3 ii jj).getD fun _ => 0 else fun _ => 0 }
  else none

end Verif.Model
