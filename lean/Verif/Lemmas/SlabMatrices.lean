import Verif.Model.SlabRhs
import Verif.Lemmas.SlabBasis

/-! Invariants of the shared slab matrix object. -/

namespace Verif.Lemmas

open Polynomial Verif.Spec Verif.Model

theorem run_append (s : SlabMatrices) (calls : List MatrixCall) (c : MatrixCall) :
    s.run (calls ++ [c]) = (s.run calls).makeAll c.xL c.xR c.dxL c.dxR := by
  simp [SlabMatrices.run]

theorem makeAll_G (s : SlabMatrices) (xL xR dxL dxR : ℝ) {i j : ℕ} (hi : i ≤ s.M)
    (hj : j ≤ s.M) : (s.makeAll xL xR dxL dxR).G i j =
        if i = j then -(1 / 2) * (2 * (i : ℝ) + 1) * (1 / (xR - xL)) * (dxR - dxL)
        else if j < i then
          if (i + j) % 2 = 0 then
            -Real.sqrt (2 * (j : ℝ) + 1) * Real.sqrt (2 * (i : ℝ) + 1) * (1 / (xR - xL))
              * (dxR - dxL)
          else
            -Real.sqrt (2 * (j : ℝ) + 1) * Real.sqrt (2 * (i : ℝ) + 1) * (1 / (xR - xL))
              * (dxR + dxL)
        else s.G i j :=
  if_pos ⟨hi, hj⟩

theorem makeAll_G_out (s : SlabMatrices) (xL xR dxL dxR : ℝ) {i j : ℕ}
    (h : ¬ (i ≤ s.M ∧ j ≤ s.M)) : (s.makeAll xL xR dxL dxR).G i j = s.G i j :=
  if_neg h

/-- The constant table is never modified. -/
theorem run_Lconst (s : SlabMatrices) (calls : List MatrixCall) :
    (s.run calls).Lconst = s.Lconst ∧ (s.run calls).M = s.M := by
  induction calls using List.reverseRecOn with
  | nil => exact ⟨rfl, rfl⟩
  | append_singleton cs c ih => rw [run_append]; exact ih

/-- Entries above the diagonal stay zero. -/
theorem run_G_upper (M : ℕ) (calls : List MatrixCall) {i j : ℕ} (hij : i < j) :
    ((SlabMatrices.init M).run calls).G i j = 0 := by
  induction calls using List.reverseRecOn with
  | nil => rfl
  | append_singleton cs c ih =>
    rw [run_append]
    generalize (SlabMatrices.init M).run cs = r at ih
    by_cases hr : i ≤ r.M ∧ j ≤ r.M
    · rw [makeAll_G r _ _ _ _ hr.1 hr.2, if_neg (show ¬ i = j by omega),
        if_neg (show ¬ j < i by omega), ih]
    · rw [makeAll_G_out r _ _ _ _ hr, ih]

/-- The streaming matrix in reference coordinates. -/
theorem run_L_eq_I (M : ℕ) (calls : List MatrixCall) (c : MatrixCall) {i j : ℕ} (hi : i ≤ M)
    (hj : j ≤ M) :
    ((SlabMatrices.init M).run (calls ++ [c])).L i j =
      Real.sqrt (2 * (i : ℝ) + 1) * Real.sqrt (2 * (j : ℝ) + 1) / (c.xR - c.xL) *
        I (derivative (legendre i) * legendre j) := by
  rw [run_append]
  simp only [SlabMatrices.makeAll, SlabMatrices.makeL, SlabMatrices.makeG]
  rw [(run_Lconst (SlabMatrices.init M) calls).1, I_deriv_mul]
  simp only [SlabMatrices.init, hi, hj, and_self, if_true, lConst]
  split_ifs
  · ring
  · simp

/-- The mesh-motion matrix in reference coordinates. -/
theorem run_G_eq_I (M : ℕ) (calls : List MatrixCall) (c : MatrixCall) (h : c.xL < c.xR)
    {i j : ℕ} (hi : i ≤ M) (hj : j ≤ M) :
    ((SlabMatrices.init M).run (calls ++ [c])).G i j =
      Real.sqrt (2 * (i : ℝ) + 1) * Real.sqrt (2 * (j : ℝ) + 1) / (c.xR - c.xL) / 2 *
        I (C (-(1 / 2) * (c.dxR - c.dxL)) * (legendre i * legendre j) +
          C (-(c.dxL + c.dxR)) * (derivative (legendre i) * legendre j) +
          C (-(c.dxR - c.dxL)) * (X * derivative (legendre i) * legendre j)) := by
  have hpos : (0 : ℝ) < c.xR - c.xL := by linarith
  rw [I_add, I_add, I_C_mul, I_C_mul, I_C_mul, I_mul, I_deriv_mul, I_X_deriv_mul]
  have hup : i < j → ((SlabMatrices.init M).run calls).G i j = 0 := run_G_upper M calls
  have hM : ((SlabMatrices.init M).run calls).M = M := (run_Lconst _ calls).2
  rw [run_append]
  generalize (SlabMatrices.init M).run calls = r at hup hM
  rw [makeAll_G r _ _ _ _ (hM ▸ hi) (hM ▸ hj)]
  unfold delta
  rcases lt_trichotomy i j with hlt | heq | hgt
  · rw [if_neg hlt.ne, if_neg (by omega : ¬ j < i), hup hlt, if_neg hlt.ne,
      if_neg (by omega : ¬ (j < i ∧ _)), if_neg hlt.ne, if_neg (by omega : ¬ (j < i ∧ _))]
    ring
  · subst heq
    rw [if_pos rfl, if_pos rfl, if_pos rfl, if_neg (by omega), Real.mul_self_sqrt (by positivity)]
    have : (2 * (i : ℝ) + 1) ≠ 0 := by positivity
    field_simp
    ring
  · rw [if_neg hgt.ne', if_pos hgt, if_neg hgt.ne', if_neg hgt.ne']
    by_cases hp : (i + j) % 2 = 0
    · rw [if_pos hp, if_neg (by omega), if_pos ⟨hgt, hp⟩]
      field_simp
      ring
    · rw [if_neg hp, if_pos ⟨hgt, hp⟩, if_neg (by omega)]
      field_simp
      ring

/-- The cell matrices do not depend on earlier calls. -/
theorem cellMatrices_history (M : ℕ) (calls : List MatrixCall) (m : MeshView) (space : ℕ)
    (h : m.edges space < m.edges (space + 1)) {i j : ℕ} (hi : i ≤ M) (hj : j ≤ M) :
    ((SlabMatrices.init M).run (calls ++ [⟨m.edges space, m.edges (space + 1), m.Dedges space,
        m.Dedges (space + 1)⟩])).G i j = (cellMatrices M m space).G i j ∧
    ((SlabMatrices.init M).run (calls ++ [⟨m.edges space, m.edges (space + 1), m.Dedges space,
        m.Dedges (space + 1)⟩])).L i j = (cellMatrices M m space).L i j := by
  have e : cellMatrices M m space = (SlabMatrices.init M).run ([] ++ [⟨m.edges space,
      m.edges (space + 1), m.Dedges space, m.Dedges (space + 1)⟩]) := rfl
  rw [e, run_G_eq_I _ _ _ h hi hj, run_G_eq_I _ _ _ h hi hj, run_L_eq_I _ _ _ hi hj,
    run_L_eq_I _ _ _ hi hj]
  exact ⟨rfl, rfl⟩

theorem cellL_eq_I (M : ℕ) (m : MeshView) (space : ℕ) {i j : ℕ} (hi : i ≤ M) (hj : j ≤ M) :
    (cellMatrices M m space).L i j =
      Real.sqrt (2 * (i : ℝ) + 1) * Real.sqrt (2 * (j : ℝ) + 1) /
        (m.edges (space + 1) - m.edges space) * I (derivative (legendre i) * legendre j) :=
  run_L_eq_I M [] ⟨m.edges space, m.edges (space + 1), m.Dedges space, m.Dedges (space + 1)⟩ hi hj

theorem cellG_eq_I (M : ℕ) (m : MeshView) (space : ℕ) (h : m.edges space < m.edges (space + 1))
    {i j : ℕ} (hi : i ≤ M) (hj : j ≤ M) :
    (cellMatrices M m space).G i j =
      Real.sqrt (2 * (i : ℝ) + 1) * Real.sqrt (2 * (j : ℝ) + 1) /
          (m.edges (space + 1) - m.edges space) / 2 *
        I (C (-(1 / 2) * (m.Dedges (space + 1) - m.Dedges space)) * (legendre i * legendre j) +
          C (-(m.Dedges space + m.Dedges (space + 1))) * (derivative (legendre i) * legendre j) +
          C (-(m.Dedges (space + 1) - m.Dedges space)) *
            (X * derivative (legendre i) * legendre j)) :=
  run_G_eq_I M [] ⟨m.edges space, m.edges (space + 1), m.Dedges space, m.Dedges (space + 1)⟩ h hi
    hj

end Verif.Lemmas
