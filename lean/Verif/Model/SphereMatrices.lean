import Verif.Model.GmatTable
import Mathlib.Analysis.Real.Pi.Bounds

/-!
Model: the sphere matrices of class `G_L` (`solver_classes/matrices.py`) that are computed from
code.  `make_mass_sphere`, `make_J_sphere` and `make_L_sphere` read coefficient tables from HDF5
files that are not in the repository and are not modelled here.
-/

namespace Verif.Model

/-- Attributes of a `G_L` object that `make_G_sphere` and `make_MPRIME` read or write
(matrices.py 60-67). -/
structure SphereMatrices where
  /-- polynomial order, matrices.py 60 -/
  M : ℕ
  /-- `self.G`, matrices.py 63 -/
  G : ℕ → ℕ → ℝ
  /-- `self.MPRIME`, matrices.py 67 -/
  MPRIME : ℕ → ℕ → ℝ

/-- matrices.py 60-67 `__init__`: zeros. -/
def SphereMatrices.init (M : ℕ) : SphereMatrices where
  M := M
  G := fun _ _ => 0
  MPRIME := fun _ _ => 0

/-- The loop nest `for ii in range(M+1): for jj in range(M+1): A[ii,jj] = table(ii,jj) / pi`
(matrices.py 230-232 and 296-299).  A table entry without `return` makes the division fail:
`none`. -/
noncomputable def fillFromTable (M : ℕ) (table : ℕ → ℕ → Option ℝ) (old : ℕ → ℕ → ℝ) :
    Option (ℕ → ℕ → ℝ) :=
  if ∀ i ≤ M, ∀ j ≤ M, (table i j).isSome then
    some fun i j => if i ≤ M ∧ j ≤ M then ((table i j).getD 0) / Real.pi else old i j
  else none

/-- matrices.py 221-232 `make_G_sphere` (the rest of the method is only run when testing). -/
noncomputable def SphereMatrices.makeG (s : SphereMatrices) (rL rR rLp rRp : ℝ) :
    Option SphereMatrices :=
  (fillFromTable s.M (fun i j => gMatrix i j rL rR rLp rRp) s.G).map fun g => { s with G := g }

/-- matrices.py 295-299 `make_MPRIME`. -/
noncomputable def SphereMatrices.makeMPRIME (s : SphereMatrices) (a b ap bp : ℝ) :
    Option SphereMatrices :=
  (fillFromTable s.M (fun i j => mPrime i j a b ap bp) s.MPRIME).map
    fun g => { s with MPRIME := g }

/-- matrices.py 109-116 `make_all_matrices`, sphere branch restricted to `G` and `MPRIME`. -/
noncomputable def SphereMatrices.makeAll (s : SphereMatrices) (rL rR rLp rRp : ℝ) :
    Option SphereMatrices :=
  (s.makeG rL rR rLp rRp).bind fun s => s.makeMPRIME rL rR rLp rRp

/-- A history of calls of `make_all_matrices` (one per cell and right-hand side evaluation,
rhs_class_1.py 196), each with `(rL, rR, rLp, rRp)`. -/
noncomputable def SphereMatrices.run (s : SphereMatrices) :
    List (ℝ × ℝ × ℝ × ℝ) → Option SphereMatrices
  | [] => some s
  | c :: cs => (s.makeAll c.1 c.2.1 c.2.2.1 c.2.2.2).bind fun s => s.run cs

end Verif.Model
