import Mathlib.Data.Real.Basic

/-!
Model: difference formulas in the direction cosine (`solver_classes/functions.py`).

Arrays are functions of the index.  The keyword arguments `left` / `right` are Booleans; the
right-hand side passes `angle == 0` and `angle == N_ang - 1` (rhs_class_1.py 275).
-/

namespace Verif.Model

/-- functions.py 575-603 `finite_diff_uneven`. -/
noncomputable def finiteDiffUneven (x : ℕ → ℝ) (ix : ℕ) (psi : ℕ → ℝ) (left right : Bool) : ℝ :=
  if left = false ∧ right = false then
    let psip := 1 / 2 * (psi (ix + 1) + psi ix)
    let psim := 1 / 2 * (psi ix + psi (ix - 1))
    let mup := (x (ix + 1) - x ix) * (1 / 2) + x ix
    let mum := (x ix - x (ix - 1)) * (1 / 2) + x (ix - 1)
    let deltamu := mup - mum
    ((1 - mup ^ 2) * psip - (1 - mum ^ 2) * psim) / deltamu
  else if left = true then
    let psip := 1 / 2 * (psi (ix + 1) + psi ix)
    let mup := (x (ix + 1) - x ix) * (1 / 2) + x ix
    let mum := -1
    let deltamu := mup - mum
    ((1 - mup ^ 2) * psip) / deltamu
  else
    let mup := 1
    let mum := (x ix - x (ix - 1)) * (1 / 2) + x (ix - 1)
    let psim := 1 / 2 * (psi ix + psi (ix - 1))
    let deltamu := mup - mum
    (-(1 - mum ^ 2) * psim) / deltamu

/-- One component of `dterm` in the active right-hand side, rhs_class_1.py 275. -/
noncomputable def angularTerm (Nang : ℕ) (mus : ℕ → ℝ) (psi : ℕ → ℝ) (angle : ℕ) : ℝ :=
  finiteDiffUneven mus angle psi (decide (angle = 0)) (decide (angle + 1 = Nang))

/-- functions.py 549-572 `finite_diff_uneven_2`. -/
noncomputable def finiteDiffUneven2 (x : ℕ → ℝ) (ix : ℕ) (u : ℕ → ℝ) (left right : Bool) : ℝ :=
  if left = false ∧ right = false then
    let h := (x (ix + 1) - x ix) / (x ix - x (ix - 1))
    (u (ix + 1) - h ^ 2 * u (ix - 1) - (1 - h ^ 2) * u ix) / (x (ix + 1) - x ix) / (1 + h)
  else if left = true then
    (u (ix + 1) - u ix) / (x (ix + 1) - x ix)
  else
    (u ix - u (ix - 1)) / (x ix - x (ix - 1))

/-- functions.py 524-545 `angular_deriv`, one component; `psi k` is `V_old[k,space,j]`. -/
noncomputable def angularDeriv (Nang angle : ℕ) (mus psi : ℕ → ℝ) : ℝ :=
  if angle ≠ 0 ∧ angle + 1 ≠ Nang then
    let h := (mus (angle + 1) - mus angle) / (mus angle - mus (angle - 1))
    let right := (1 - mus (angle + 1) ^ 2) * psi (angle + 1)
    let middle := (1 - mus angle ^ 2) * psi angle
    let left := (1 - mus (angle - 1) ^ 2) * psi (angle - 1)
    (right - h ^ 2 * middle - (1 - h ^ 2) * left) / (mus (angle + 1) - mus angle) / (1 + h)
  else if angle = 0 then
    let h := mus (angle + 1) - mus angle
    let right := (1 - mus (angle + 1) ^ 2) * psi (angle + 1)
    let middle := (1 - mus angle ^ 2) * psi angle
    (right - middle) / h
  else
    let h := mus angle - mus (angle - 1)
    let right := (1 - mus angle ^ 2) * psi angle
    let middle := (1 - mus (angle - 1) ^ 2) * psi (angle - 1)
    (right - middle) / h

end Verif.Model
