import Mathlib.Analysis.Real.Sqrt

/-!
Model: slab matrices of class `G_L` (`solver_classes/matrices.py`).

A matrix attribute is a function of two indices.  The methods mutate attributes, so a
method is a function from the old attribute to the new one.
-/

namespace Verif.Model

/-- Attributes of a `G_L` object that the slab methods read or write (matrices.py 60-84). -/
structure SlabMatrices where
  /-- polynomial order, matrices.py 60 -/
  M : ℕ
  /-- `self.L`, matrices.py 61 -/
  L : ℕ → ℕ → ℝ
  /-- `self.L_const`, matrices.py 62 -/
  Lconst : ℕ → ℕ → ℝ
  /-- `self.G`, matrices.py 63 -/
  G : ℕ → ℕ → ℝ

/-- matrices.py 87-92: the loop filling `L_const`. -/
noncomputable def lConst (i j : ℕ) : ℝ :=
  if j < i ∧ (i + j) % 2 ≠ 0 then 2 * Real.sqrt (2 * (i : ℝ) + 1) * Real.sqrt (2 * (j : ℝ) + 1)
  else 0

/-- matrices.py 60-92 `__init__`: matrices start as zeros, then `L_const` is filled inside the
allocated range. -/
noncomputable def SlabMatrices.init (M : ℕ) : SlabMatrices where
  M := M
  L := fun _ _ => 0
  Lconst := fun i j => if i ≤ M ∧ j ≤ M then lConst i j else 0
  G := fun _ _ => 0

/-- matrices.py 121-122 `make_L_slab`. -/
noncomputable def SlabMatrices.makeL (s : SlabMatrices) (xL xR : ℝ) : SlabMatrices :=
  { s with L := fun i j => s.Lconst i j / (xR - xL) }

/-- matrices.py 124-137 `make_G_slab`; entries with `i < j` are not written. -/
noncomputable def SlabMatrices.makeG (s : SlabMatrices) (xL xR dxL dxR : ℝ) : SlabMatrices :=
  let h := xR - xL
  let ih := 1 / h
  let b := dxR
  let a := dxL
  { s with G := fun i j =>
      if i ≤ s.M ∧ j ≤ s.M then
        if i = j then -(1 / 2) * (2 * (i : ℝ) + 1) * ih * (b - a)
        else if j < i then
          if (i + j) % 2 = 0 then
            -Real.sqrt (2 * (j : ℝ) + 1) * Real.sqrt (2 * (i : ℝ) + 1) * ih * (b - a)
          else
            -Real.sqrt (2 * (j : ℝ) + 1) * Real.sqrt (2 * (i : ℝ) + 1) * ih * (b + a)
        else s.G i j
      else s.G i j }

/-- matrices.py 109-116 `make_all_matrices`, slab branch. -/
noncomputable def SlabMatrices.makeAll (s : SlabMatrices) (xL xR dxL dxR : ℝ) : SlabMatrices :=
  (s.makeL xL xR).makeG xL xR dxL dxR

/-- One call of `make_all_matrices` made by the right-hand side (rhs_class_1.py 196,
rhs_class.py 177-179). -/
structure MatrixCall where
  xL : ℝ
  xR : ℝ
  dxL : ℝ
  dxR : ℝ

/-- The object after any history of calls (one object is shared by the whole solve,
main_functions.py 159-170). -/
noncomputable def SlabMatrices.run (s : SlabMatrices) (calls : List MatrixCall) : SlabMatrices :=
  calls.foldl (fun s c => s.makeAll c.xL c.xR c.dxL c.dxR) s

end Verif.Model
