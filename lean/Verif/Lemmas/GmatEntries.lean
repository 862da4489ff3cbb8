import Verif.Lemmas.GmatExact
import Verif.Model.GmatTable
import Mathlib.Tactic.NormNum
import Mathlib.Tactic.IntervalCases

/-! Every tabulated entry equals its closed form (generated by a script, one lemma per entry). -/

set_option linter.unusedVariables false

namespace Verif.Lemmas

open Verif.Model

theorem bb_zero : bb 0 = 1 := if_pos rfl

theorem bb_succ (n : ℕ) : bb (n + 1) = Real.sqrt 2 := if_neg (Nat.succ_ne_zero n)

theorem sqrt_two_facts : Real.sqrt 2 * Real.sqrt 2 = 2 ∧ Real.sqrt 2 ^ 2 = 2 ∧ Real.sqrt 2 ≠ 0 :=
  ⟨Real.mul_self_sqrt (by norm_num), Real.sq_sqrt (by norm_num), by positivity⟩

theorem gEntry_0_0 (a b ap bp : ℝ) (h : a - b ≠ 0) (h2 : b - a ≠ 0) :
    gMatrixRow0 0 a b ap bp = some (gExact 0 0 a b ap bp) := by
  obtain ⟨hs, hq, hp⟩ := sqrt_two_facts
  rw [gMatrixRow0, Option.some_inj]
  simp only [gExact, rho2, bb_zero]
  generalize Real.sqrt 2 = s at hs hq hp ⊢
  norm_num [ttMom, dtMom, xtMom, xuMom, uMom]
  try field_simp
  try ring

theorem gEntry_0_1 (a b ap bp : ℝ) (h : a - b ≠ 0) (h2 : b - a ≠ 0) :
    gMatrixRow0 1 a b ap bp = some (gExact 0 1 a b ap bp) := by
  obtain ⟨hs, hq, hp⟩ := sqrt_two_facts
  rw [gMatrixRow0, Option.some_inj]
  simp only [gExact, rho2, bb_zero, bb_succ 0]
  generalize Real.sqrt 2 = s at hs hq hp ⊢
  norm_num [ttMom, dtMom, xtMom, xuMom, uMom]
  try field_simp
  try rw [hq]
  try ring

theorem gEntry_0_2 (a b ap bp : ℝ) (h : a - b ≠ 0) (h2 : b - a ≠ 0) :
    gMatrixRow0 2 a b ap bp = some (gExact 0 2 a b ap bp) := by
  obtain ⟨hs, hq, hp⟩ := sqrt_two_facts
  rw [gMatrixRow0, Option.some_inj]
  simp only [gExact, rho2, bb_zero, bb_succ 1]
  generalize Real.sqrt 2 = s at hs hq hp ⊢
  norm_num [ttMom, dtMom, xtMom, xuMom, uMom]
  try field_simp
  try rw [hq]
  try ring

theorem gEntry_0_3 (a b ap bp : ℝ) (h : a - b ≠ 0) (h2 : b - a ≠ 0) :
    gMatrixRow0 3 a b ap bp = some (gExact 0 3 a b ap bp) := by
  obtain ⟨hs, hq, hp⟩ := sqrt_two_facts
  rw [gMatrixRow0, Option.some_inj]
  simp only [gExact, rho2, bb_zero, bb_succ 2]
  generalize Real.sqrt 2 = s at hs hq hp ⊢
  norm_num [ttMom, dtMom, xtMom, xuMom, uMom]
  try field_simp
  try rw [hq]
  try ring

theorem gEntry_0_4 (a b ap bp : ℝ) (h : a - b ≠ 0) (h2 : b - a ≠ 0) :
    gMatrixRow0 4 a b ap bp = some (gExact 0 4 a b ap bp) := by
  obtain ⟨hs, hq, hp⟩ := sqrt_two_facts
  rw [gMatrixRow0, Option.some_inj]
  simp only [gExact, rho2, bb_zero, bb_succ 3]
  generalize Real.sqrt 2 = s at hs hq hp ⊢
  norm_num [ttMom, dtMom, xtMom, xuMom, uMom]
  try field_simp
  try rw [hq]
  try ring

theorem gEntry_0_5 (a b ap bp : ℝ) (h : a - b ≠ 0) (h2 : b - a ≠ 0) :
    gMatrixRow0 5 a b ap bp = some (gExact 0 5 a b ap bp) := by
  obtain ⟨hs, hq, hp⟩ := sqrt_two_facts
  rw [gMatrixRow0, Option.some_inj]
  simp only [gExact, rho2, bb_zero, bb_succ 4]
  generalize Real.sqrt 2 = s at hs hq hp ⊢
  norm_num [ttMom, dtMom, xtMom, xuMom, uMom]
  try field_simp
  try rw [hq]
  try ring

theorem gEntry_0_6 (a b ap bp : ℝ) (h : a - b ≠ 0) (h2 : b - a ≠ 0) :
    gMatrixRow0 6 a b ap bp = some (gExact 0 6 a b ap bp) := by
  obtain ⟨hs, hq, hp⟩ := sqrt_two_facts
  rw [gMatrixRow0, Option.some_inj]
  simp only [gExact, rho2, bb_zero, bb_succ 5]
  generalize Real.sqrt 2 = s at hs hq hp ⊢
  norm_num [ttMom, dtMom, xtMom, xuMom, uMom]
  try field_simp
  try rw [hq]
  try ring

theorem gEntry_0_7 (a b ap bp : ℝ) (h : a - b ≠ 0) (h2 : b - a ≠ 0) :
    gMatrixRow0 7 a b ap bp = some (gExact 0 7 a b ap bp) := by
  obtain ⟨hs, hq, hp⟩ := sqrt_two_facts
  rw [gMatrixRow0, Option.some_inj]
  simp only [gExact, rho2, bb_zero, bb_succ 6]
  generalize Real.sqrt 2 = s at hs hq hp ⊢
  norm_num [ttMom, dtMom, xtMom, xuMom, uMom]
  try field_simp
  try rw [hq]
  try ring

theorem gEntry_0_8 (a b ap bp : ℝ) (h : a - b ≠ 0) (h2 : b - a ≠ 0) :
    gMatrixRow0 8 a b ap bp = some (gExact 0 8 a b ap bp) := by
  obtain ⟨hs, hq, hp⟩ := sqrt_two_facts
  rw [gMatrixRow0, Option.some_inj]
  simp only [gExact, rho2, bb_zero, bb_succ 7]
  generalize Real.sqrt 2 = s at hs hq hp ⊢
  norm_num [ttMom, dtMom, xtMom, xuMom, uMom]
  try field_simp
  try rw [hq]
  try ring

theorem gEntry_0_9 (a b ap bp : ℝ) (h : a - b ≠ 0) (h2 : b - a ≠ 0) :
    gMatrixRow0 9 a b ap bp = some (gExact 0 9 a b ap bp) := by
  obtain ⟨hs, hq, hp⟩ := sqrt_two_facts
  rw [gMatrixRow0, Option.some_inj]
  simp only [gExact, rho2, bb_zero, bb_succ 8]
  generalize Real.sqrt 2 = s at hs hq hp ⊢
  norm_num [ttMom, dtMom, xtMom, xuMom, uMom]
  try field_simp
  try rw [hq]
  try ring

theorem gEntry_0_10 (a b ap bp : ℝ) (h : a - b ≠ 0) (h2 : b - a ≠ 0) :
    gMatrixRow0 10 a b ap bp = some (gExact 0 10 a b ap bp) := by
  obtain ⟨hs, hq, hp⟩ := sqrt_two_facts
  rw [gMatrixRow0, Option.some_inj]
  simp only [gExact, rho2, bb_zero, bb_succ 9]
  generalize Real.sqrt 2 = s at hs hq hp ⊢
  norm_num [ttMom, dtMom, xtMom, xuMom, uMom]
  try field_simp
  try rw [hq]
  try ring

theorem gEntry_1_0 (a b ap bp : ℝ) (h : a - b ≠ 0) (h2 : b - a ≠ 0) :
    gMatrixRow1 0 a b ap bp = some (gExact 1 0 a b ap bp) := by
  obtain ⟨hs, hq, hp⟩ := sqrt_two_facts
  rw [gMatrixRow1, Option.some_inj]
  simp only [gExact, rho2, bb_succ 0, bb_zero]
  generalize Real.sqrt 2 = s at hs hq hp ⊢
  norm_num [ttMom, dtMom, xtMom, xuMom, uMom]
  try field_simp
  try rw [hq]
  try ring

theorem gEntry_1_1 (a b ap bp : ℝ) (h : a - b ≠ 0) (h2 : b - a ≠ 0) :
    gMatrixRow1 1 a b ap bp = some (gExact 1 1 a b ap bp) := by
  obtain ⟨hs, hq, hp⟩ := sqrt_two_facts
  rw [gMatrixRow1, Option.some_inj]
  simp only [gExact, rho2, bb_succ 0]
  generalize Real.sqrt 2 = s at hs hq hp ⊢
  rw [hs]
  norm_num [ttMom, dtMom, xtMom, xuMom, uMom]
  try field_simp
  try ring

theorem gEntry_1_2 (a b ap bp : ℝ) (h : a - b ≠ 0) (h2 : b - a ≠ 0) :
    gMatrixRow1 2 a b ap bp = some (gExact 1 2 a b ap bp) := by
  obtain ⟨hs, hq, hp⟩ := sqrt_two_facts
  rw [gMatrixRow1, Option.some_inj]
  simp only [gExact, rho2, bb_succ 0, bb_succ 1]
  generalize Real.sqrt 2 = s at hs hq hp ⊢
  rw [hs]
  norm_num [ttMom, dtMom, xtMom, xuMom, uMom]
  try field_simp
  try ring

theorem gEntry_1_3 (a b ap bp : ℝ) (h : a - b ≠ 0) (h2 : b - a ≠ 0) :
    gMatrixRow1 3 a b ap bp = some (gExact 1 3 a b ap bp) := by
  obtain ⟨hs, hq, hp⟩ := sqrt_two_facts
  rw [gMatrixRow1, Option.some_inj]
  simp only [gExact, rho2, bb_succ 0, bb_succ 2]
  generalize Real.sqrt 2 = s at hs hq hp ⊢
  rw [hs]
  norm_num [ttMom, dtMom, xtMom, xuMom, uMom]
  try field_simp
  try ring

theorem gEntry_1_4 (a b ap bp : ℝ) (h : a - b ≠ 0) (h2 : b - a ≠ 0) :
    gMatrixRow1 4 a b ap bp = some (gExact 1 4 a b ap bp) := by
  obtain ⟨hs, hq, hp⟩ := sqrt_two_facts
  rw [gMatrixRow1, Option.some_inj]
  simp only [gExact, rho2, bb_succ 0, bb_succ 3]
  generalize Real.sqrt 2 = s at hs hq hp ⊢
  rw [hs]
  norm_num [ttMom, dtMom, xtMom, xuMom, uMom]
  try field_simp
  try ring

theorem gEntry_1_5 (a b ap bp : ℝ) (h : a - b ≠ 0) (h2 : b - a ≠ 0) :
    gMatrixRow1 5 a b ap bp = some (gExact 1 5 a b ap bp) := by
  obtain ⟨hs, hq, hp⟩ := sqrt_two_facts
  rw [gMatrixRow1, Option.some_inj]
  simp only [gExact, rho2, bb_succ 0, bb_succ 4]
  generalize Real.sqrt 2 = s at hs hq hp ⊢
  rw [hs]
  norm_num [ttMom, dtMom, xtMom, xuMom, uMom]
  try field_simp
  try ring

theorem gEntry_1_6 (a b ap bp : ℝ) (h : a - b ≠ 0) (h2 : b - a ≠ 0) :
    gMatrixRow1 6 a b ap bp = some (gExact 1 6 a b ap bp) := by
  obtain ⟨hs, hq, hp⟩ := sqrt_two_facts
  rw [gMatrixRow1, Option.some_inj]
  simp only [gExact, rho2, bb_succ 0, bb_succ 5]
  generalize Real.sqrt 2 = s at hs hq hp ⊢
  rw [hs]
  norm_num [ttMom, dtMom, xtMom, xuMom, uMom]
  try field_simp
  try ring

theorem gEntry_1_7 (a b ap bp : ℝ) (h : a - b ≠ 0) (h2 : b - a ≠ 0) :
    gMatrixRow1 7 a b ap bp = some (gExact 1 7 a b ap bp) := by
  obtain ⟨hs, hq, hp⟩ := sqrt_two_facts
  rw [gMatrixRow1, Option.some_inj]
  simp only [gExact, rho2, bb_succ 0, bb_succ 6]
  generalize Real.sqrt 2 = s at hs hq hp ⊢
  rw [hs]
  norm_num [ttMom, dtMom, xtMom, xuMom, uMom]
  try field_simp
  try ring

theorem gEntry_1_8 (a b ap bp : ℝ) (h : a - b ≠ 0) (h2 : b - a ≠ 0) :
    gMatrixRow1 8 a b ap bp = some (gExact 1 8 a b ap bp) := by
  obtain ⟨hs, hq, hp⟩ := sqrt_two_facts
  rw [gMatrixRow1, Option.some_inj]
  simp only [gExact, rho2, bb_succ 0, bb_succ 7]
  generalize Real.sqrt 2 = s at hs hq hp ⊢
  rw [hs]
  norm_num [ttMom, dtMom, xtMom, xuMom, uMom]
  try field_simp
  try ring

theorem gEntry_1_9 (a b ap bp : ℝ) (h : a - b ≠ 0) (h2 : b - a ≠ 0) :
    gMatrixRow1 9 a b ap bp = some (gExact 1 9 a b ap bp) := by
  obtain ⟨hs, hq, hp⟩ := sqrt_two_facts
  rw [gMatrixRow1, Option.some_inj]
  simp only [gExact, rho2, bb_succ 0, bb_succ 8]
  generalize Real.sqrt 2 = s at hs hq hp ⊢
  rw [hs]
  norm_num [ttMom, dtMom, xtMom, xuMom, uMom]
  try field_simp
  try ring

theorem gEntry_1_10 (a b ap bp : ℝ) (h : a - b ≠ 0) (h2 : b - a ≠ 0) :
    gMatrixRow1 10 a b ap bp = some (gExact 1 10 a b ap bp) := by
  obtain ⟨hs, hq, hp⟩ := sqrt_two_facts
  rw [gMatrixRow1, Option.some_inj]
  simp only [gExact, rho2, bb_succ 0, bb_succ 9]
  generalize Real.sqrt 2 = s at hs hq hp ⊢
  rw [hs]
  norm_num [ttMom, dtMom, xtMom, xuMom, uMom]
  try field_simp
  try ring

theorem gEntry_2_0 (a b ap bp : ℝ) (h : a - b ≠ 0) (h2 : b - a ≠ 0) :
    gMatrixRow2 0 a b ap bp = some (gExact 2 0 a b ap bp) := by
  obtain ⟨hs, hq, hp⟩ := sqrt_two_facts
  rw [gMatrixRow2, Option.some_inj]
  simp only [gExact, rho2, bb_succ 1, bb_zero]
  generalize Real.sqrt 2 = s at hs hq hp ⊢
  norm_num [ttMom, dtMom, xtMom, xuMom, uMom]
  try field_simp
  try rw [hq]
  try ring

theorem gEntry_2_1 (a b ap bp : ℝ) (h : a - b ≠ 0) (h2 : b - a ≠ 0) :
    gMatrixRow2 1 a b ap bp = some (gExact 2 1 a b ap bp) := by
  obtain ⟨hs, hq, hp⟩ := sqrt_two_facts
  rw [gMatrixRow2, Option.some_inj]
  simp only [gExact, rho2, bb_succ 1, bb_succ 0]
  generalize Real.sqrt 2 = s at hs hq hp ⊢
  rw [hs]
  norm_num [ttMom, dtMom, xtMom, xuMom, uMom]
  try field_simp
  try ring

theorem gEntry_2_2 (a b ap bp : ℝ) (h : a - b ≠ 0) (h2 : b - a ≠ 0) :
    gMatrixRow2 2 a b ap bp = some (gExact 2 2 a b ap bp) := by
  obtain ⟨hs, hq, hp⟩ := sqrt_two_facts
  rw [gMatrixRow2, Option.some_inj]
  simp only [gExact, rho2, bb_succ 1]
  generalize Real.sqrt 2 = s at hs hq hp ⊢
  rw [hs]
  norm_num [ttMom, dtMom, xtMom, xuMom, uMom]
  try field_simp
  try ring

theorem gEntry_2_3 (a b ap bp : ℝ) (h : a - b ≠ 0) (h2 : b - a ≠ 0) :
    gMatrixRow2 3 a b ap bp = some (gExact 2 3 a b ap bp) := by
  obtain ⟨hs, hq, hp⟩ := sqrt_two_facts
  rw [gMatrixRow2, Option.some_inj]
  simp only [gExact, rho2, bb_succ 1, bb_succ 2]
  generalize Real.sqrt 2 = s at hs hq hp ⊢
  rw [hs]
  norm_num [ttMom, dtMom, xtMom, xuMom, uMom]
  try field_simp
  try ring

theorem gEntry_2_4 (a b ap bp : ℝ) (h : a - b ≠ 0) (h2 : b - a ≠ 0) :
    gMatrixRow2 4 a b ap bp = some (gExact 2 4 a b ap bp) := by
  obtain ⟨hs, hq, hp⟩ := sqrt_two_facts
  rw [gMatrixRow2, Option.some_inj]
  simp only [gExact, rho2, bb_succ 1, bb_succ 3]
  generalize Real.sqrt 2 = s at hs hq hp ⊢
  rw [hs]
  norm_num [ttMom, dtMom, xtMom, xuMom, uMom]
  try field_simp
  try ring

theorem gEntry_2_5 (a b ap bp : ℝ) (h : a - b ≠ 0) (h2 : b - a ≠ 0) :
    gMatrixRow2 5 a b ap bp = some (gExact 2 5 a b ap bp) := by
  obtain ⟨hs, hq, hp⟩ := sqrt_two_facts
  rw [gMatrixRow2, Option.some_inj]
  simp only [gExact, rho2, bb_succ 1, bb_succ 4]
  generalize Real.sqrt 2 = s at hs hq hp ⊢
  rw [hs]
  norm_num [ttMom, dtMom, xtMom, xuMom, uMom]
  try field_simp
  try ring

theorem gEntry_2_6 (a b ap bp : ℝ) (h : a - b ≠ 0) (h2 : b - a ≠ 0) :
    gMatrixRow2 6 a b ap bp = some (gExact 2 6 a b ap bp) := by
  obtain ⟨hs, hq, hp⟩ := sqrt_two_facts
  rw [gMatrixRow2, Option.some_inj]
  simp only [gExact, rho2, bb_succ 1, bb_succ 5]
  generalize Real.sqrt 2 = s at hs hq hp ⊢
  rw [hs]
  norm_num [ttMom, dtMom, xtMom, xuMom, uMom]
  try field_simp
  try ring

theorem gEntry_2_7 (a b ap bp : ℝ) (h : a - b ≠ 0) (h2 : b - a ≠ 0) :
    gMatrixRow2 7 a b ap bp = some (gExact 2 7 a b ap bp) := by
  obtain ⟨hs, hq, hp⟩ := sqrt_two_facts
  rw [gMatrixRow2, Option.some_inj]
  simp only [gExact, rho2, bb_succ 1, bb_succ 6]
  generalize Real.sqrt 2 = s at hs hq hp ⊢
  rw [hs]
  norm_num [ttMom, dtMom, xtMom, xuMom, uMom]
  try field_simp
  try ring

theorem gEntry_2_8 (a b ap bp : ℝ) (h : a - b ≠ 0) (h2 : b - a ≠ 0) :
    gMatrixRow2 8 a b ap bp = some (gExact 2 8 a b ap bp) := by
  obtain ⟨hs, hq, hp⟩ := sqrt_two_facts
  rw [gMatrixRow2, Option.some_inj]
  simp only [gExact, rho2, bb_succ 1, bb_succ 7]
  generalize Real.sqrt 2 = s at hs hq hp ⊢
  rw [hs]
  norm_num [ttMom, dtMom, xtMom, xuMom, uMom]
  try field_simp
  try ring

theorem gEntry_2_9 (a b ap bp : ℝ) (h : a - b ≠ 0) (h2 : b - a ≠ 0) :
    gMatrixRow2 9 a b ap bp = some (gExact 2 9 a b ap bp) := by
  obtain ⟨hs, hq, hp⟩ := sqrt_two_facts
  rw [gMatrixRow2, Option.some_inj]
  simp only [gExact, rho2, bb_succ 1, bb_succ 8]
  generalize Real.sqrt 2 = s at hs hq hp ⊢
  rw [hs]
  norm_num [ttMom, dtMom, xtMom, xuMom, uMom]
  try field_simp
  try ring

theorem gEntry_2_10 (a b ap bp : ℝ) (h : a - b ≠ 0) (h2 : b - a ≠ 0) :
    gMatrixRow2 10 a b ap bp = some (gExact 2 10 a b ap bp) := by
  obtain ⟨hs, hq, hp⟩ := sqrt_two_facts
  rw [gMatrixRow2, Option.some_inj]
  simp only [gExact, rho2, bb_succ 1, bb_succ 9]
  generalize Real.sqrt 2 = s at hs hq hp ⊢
  rw [hs]
  norm_num [ttMom, dtMom, xtMom, xuMom, uMom]
  try field_simp
  try ring

theorem gEntry_3_0 (a b ap bp : ℝ) (h : a - b ≠ 0) (h2 : b - a ≠ 0) :
    gMatrixRow3 0 a b ap bp = some (gExact 3 0 a b ap bp) := by
  obtain ⟨hs, hq, hp⟩ := sqrt_two_facts
  rw [gMatrixRow3, Option.some_inj]
  simp only [gExact, rho2, bb_succ 2, bb_zero]
  generalize Real.sqrt 2 = s at hs hq hp ⊢
  norm_num [ttMom, dtMom, xtMom, xuMom, uMom]
  try field_simp
  try rw [hq]
  try ring

theorem gEntry_3_1 (a b ap bp : ℝ) (h : a - b ≠ 0) (h2 : b - a ≠ 0) :
    gMatrixRow3 1 a b ap bp = some (gExact 3 1 a b ap bp) := by
  obtain ⟨hs, hq, hp⟩ := sqrt_two_facts
  rw [gMatrixRow3, Option.some_inj]
  simp only [gExact, rho2, bb_succ 2, bb_succ 0]
  generalize Real.sqrt 2 = s at hs hq hp ⊢
  rw [hs]
  norm_num [ttMom, dtMom, xtMom, xuMom, uMom]
  try field_simp
  try ring

theorem gEntry_3_2 (a b ap bp : ℝ) (h : a - b ≠ 0) (h2 : b - a ≠ 0) :
    gMatrixRow3 2 a b ap bp = some (gExact 3 2 a b ap bp) := by
  obtain ⟨hs, hq, hp⟩ := sqrt_two_facts
  rw [gMatrixRow3, Option.some_inj]
  simp only [gExact, rho2, bb_succ 2, bb_succ 1]
  generalize Real.sqrt 2 = s at hs hq hp ⊢
  rw [hs]
  norm_num [ttMom, dtMom, xtMom, xuMom, uMom]
  try field_simp
  try ring

theorem gEntry_3_3 (a b ap bp : ℝ) (h : a - b ≠ 0) (h2 : b - a ≠ 0) :
    gMatrixRow3 3 a b ap bp = some (gExact 3 3 a b ap bp) := by
  obtain ⟨hs, hq, hp⟩ := sqrt_two_facts
  rw [gMatrixRow3, Option.some_inj]
  simp only [gExact, rho2, bb_succ 2]
  generalize Real.sqrt 2 = s at hs hq hp ⊢
  rw [hs]
  norm_num [ttMom, dtMom, xtMom, xuMom, uMom]
  try field_simp
  try ring

theorem gEntry_3_4 (a b ap bp : ℝ) (h : a - b ≠ 0) (h2 : b - a ≠ 0) :
    gMatrixRow3 4 a b ap bp = some (gExact 3 4 a b ap bp) := by
  obtain ⟨hs, hq, hp⟩ := sqrt_two_facts
  rw [gMatrixRow3, Option.some_inj]
  simp only [gExact, rho2, bb_succ 2, bb_succ 3]
  generalize Real.sqrt 2 = s at hs hq hp ⊢
  rw [hs]
  norm_num [ttMom, dtMom, xtMom, xuMom, uMom]
  try field_simp
  try ring

theorem gEntry_3_5 (a b ap bp : ℝ) (h : a - b ≠ 0) (h2 : b - a ≠ 0) :
    gMatrixRow3 5 a b ap bp = some (gExact 3 5 a b ap bp) := by
  obtain ⟨hs, hq, hp⟩ := sqrt_two_facts
  rw [gMatrixRow3, Option.some_inj]
  simp only [gExact, rho2, bb_succ 2, bb_succ 4]
  generalize Real.sqrt 2 = s at hs hq hp ⊢
  rw [hs]
  norm_num [ttMom, dtMom, xtMom, xuMom, uMom]
  try field_simp
  try ring

theorem gEntry_3_6 (a b ap bp : ℝ) (h : a - b ≠ 0) (h2 : b - a ≠ 0) :
    gMatrixRow3 6 a b ap bp = some (gExact 3 6 a b ap bp) := by
  obtain ⟨hs, hq, hp⟩ := sqrt_two_facts
  rw [gMatrixRow3, Option.some_inj]
  simp only [gExact, rho2, bb_succ 2, bb_succ 5]
  generalize Real.sqrt 2 = s at hs hq hp ⊢
  rw [hs]
  norm_num [ttMom, dtMom, xtMom, xuMom, uMom]
  try field_simp
  try ring

theorem gEntry_3_7 (a b ap bp : ℝ) (h : a - b ≠ 0) (h2 : b - a ≠ 0) :
    gMatrixRow3 7 a b ap bp = some (gExact 3 7 a b ap bp) := by
  obtain ⟨hs, hq, hp⟩ := sqrt_two_facts
  rw [gMatrixRow3, Option.some_inj]
  simp only [gExact, rho2, bb_succ 2, bb_succ 6]
  generalize Real.sqrt 2 = s at hs hq hp ⊢
  rw [hs]
  norm_num [ttMom, dtMom, xtMom, xuMom, uMom]
  try field_simp
  try ring

theorem gEntry_3_8 (a b ap bp : ℝ) (h : a - b ≠ 0) (h2 : b - a ≠ 0) :
    gMatrixRow3 8 a b ap bp = some (gExact 3 8 a b ap bp) := by
  obtain ⟨hs, hq, hp⟩ := sqrt_two_facts
  rw [gMatrixRow3, Option.some_inj]
  simp only [gExact, rho2, bb_succ 2, bb_succ 7]
  generalize Real.sqrt 2 = s at hs hq hp ⊢
  rw [hs]
  norm_num [ttMom, dtMom, xtMom, xuMom, uMom]
  try field_simp
  try ring

theorem gEntry_3_9 (a b ap bp : ℝ) (h : a - b ≠ 0) (h2 : b - a ≠ 0) :
    gMatrixRow3 9 a b ap bp = some (gExact 3 9 a b ap bp) := by
  obtain ⟨hs, hq, hp⟩ := sqrt_two_facts
  rw [gMatrixRow3, Option.some_inj]
  simp only [gExact, rho2, bb_succ 2, bb_succ 8]
  generalize Real.sqrt 2 = s at hs hq hp ⊢
  rw [hs]
  norm_num [ttMom, dtMom, xtMom, xuMom, uMom]
  try field_simp
  try ring

theorem gEntry_3_10 (a b ap bp : ℝ) (h : a - b ≠ 0) (h2 : b - a ≠ 0) :
    gMatrixRow3 10 a b ap bp = some (gExact 3 10 a b ap bp) := by
  obtain ⟨hs, hq, hp⟩ := sqrt_two_facts
  rw [gMatrixRow3, Option.some_inj]
  simp only [gExact, rho2, bb_succ 2, bb_succ 9]
  generalize Real.sqrt 2 = s at hs hq hp ⊢
  rw [hs]
  norm_num [ttMom, dtMom, xtMom, xuMom, uMom]
  try field_simp
  try ring

theorem gEntry_4_0 (a b ap bp : ℝ) (h : a - b ≠ 0) (h2 : b - a ≠ 0) :
    gMatrixRow4 0 a b ap bp = some (gExact 4 0 a b ap bp) := by
  obtain ⟨hs, hq, hp⟩ := sqrt_two_facts
  rw [gMatrixRow4, Option.some_inj]
  simp only [gExact, rho2, bb_succ 3, bb_zero]
  generalize Real.sqrt 2 = s at hs hq hp ⊢
  norm_num [ttMom, dtMom, xtMom, xuMom, uMom]
  try field_simp
  try rw [hq]
  try ring

theorem gEntry_4_1 (a b ap bp : ℝ) (h : a - b ≠ 0) (h2 : b - a ≠ 0) :
    gMatrixRow4 1 a b ap bp = some (gExact 4 1 a b ap bp) := by
  obtain ⟨hs, hq, hp⟩ := sqrt_two_facts
  rw [gMatrixRow4, Option.some_inj]
  simp only [gExact, rho2, bb_succ 3, bb_succ 0]
  generalize Real.sqrt 2 = s at hs hq hp ⊢
  rw [hs]
  norm_num [ttMom, dtMom, xtMom, xuMom, uMom]
  try field_simp
  try ring

theorem gEntry_4_2 (a b ap bp : ℝ) (h : a - b ≠ 0) (h2 : b - a ≠ 0) :
    gMatrixRow4 2 a b ap bp = some (gExact 4 2 a b ap bp) := by
  obtain ⟨hs, hq, hp⟩ := sqrt_two_facts
  rw [gMatrixRow4, Option.some_inj]
  simp only [gExact, rho2, bb_succ 3, bb_succ 1]
  generalize Real.sqrt 2 = s at hs hq hp ⊢
  rw [hs]
  norm_num [ttMom, dtMom, xtMom, xuMom, uMom]
  try field_simp
  try ring

theorem gEntry_4_3 (a b ap bp : ℝ) (h : a - b ≠ 0) (h2 : b - a ≠ 0) :
    gMatrixRow4 3 a b ap bp = some (gExact 4 3 a b ap bp) := by
  obtain ⟨hs, hq, hp⟩ := sqrt_two_facts
  rw [gMatrixRow4, Option.some_inj]
  simp only [gExact, rho2, bb_succ 3, bb_succ 2]
  generalize Real.sqrt 2 = s at hs hq hp ⊢
  rw [hs]
  norm_num [ttMom, dtMom, xtMom, xuMom, uMom]
  try field_simp
  try ring

theorem gEntry_4_4 (a b ap bp : ℝ) (h : a - b ≠ 0) (h2 : b - a ≠ 0) :
    gMatrixRow4 4 a b ap bp = some (gExact 4 4 a b ap bp) := by
  obtain ⟨hs, hq, hp⟩ := sqrt_two_facts
  rw [gMatrixRow4, Option.some_inj]
  simp only [gExact, rho2, bb_succ 3]
  generalize Real.sqrt 2 = s at hs hq hp ⊢
  rw [hs]
  norm_num [ttMom, dtMom, xtMom, xuMom, uMom]
  try field_simp
  try ring

theorem gEntry_4_5 (a b ap bp : ℝ) (h : a - b ≠ 0) (h2 : b - a ≠ 0) :
    gMatrixRow4 5 a b ap bp = some (gExact 4 5 a b ap bp) := by
  obtain ⟨hs, hq, hp⟩ := sqrt_two_facts
  rw [gMatrixRow4, Option.some_inj]
  simp only [gExact, rho2, bb_succ 3, bb_succ 4]
  generalize Real.sqrt 2 = s at hs hq hp ⊢
  rw [hs]
  norm_num [ttMom, dtMom, xtMom, xuMom, uMom]
  try field_simp
  try ring

theorem gEntry_4_6 (a b ap bp : ℝ) (h : a - b ≠ 0) (h2 : b - a ≠ 0) :
    gMatrixRow4 6 a b ap bp = some (gExact 4 6 a b ap bp) := by
  obtain ⟨hs, hq, hp⟩ := sqrt_two_facts
  rw [gMatrixRow4, Option.some_inj]
  simp only [gExact, rho2, bb_succ 3, bb_succ 5]
  generalize Real.sqrt 2 = s at hs hq hp ⊢
  rw [hs]
  norm_num [ttMom, dtMom, xtMom, xuMom, uMom]
  try field_simp
  try ring

theorem gEntry_4_7 (a b ap bp : ℝ) (h : a - b ≠ 0) (h2 : b - a ≠ 0) :
    gMatrixRow4 7 a b ap bp = some (gExact 4 7 a b ap bp) := by
  obtain ⟨hs, hq, hp⟩ := sqrt_two_facts
  rw [gMatrixRow4, Option.some_inj]
  simp only [gExact, rho2, bb_succ 3, bb_succ 6]
  generalize Real.sqrt 2 = s at hs hq hp ⊢
  rw [hs]
  norm_num [ttMom, dtMom, xtMom, xuMom, uMom]
  try field_simp
  try ring

theorem gEntry_4_8 (a b ap bp : ℝ) (h : a - b ≠ 0) (h2 : b - a ≠ 0) :
    gMatrixRow4 8 a b ap bp = some (gExact 4 8 a b ap bp) := by
  obtain ⟨hs, hq, hp⟩ := sqrt_two_facts
  rw [gMatrixRow4, Option.some_inj]
  simp only [gExact, rho2, bb_succ 3, bb_succ 7]
  generalize Real.sqrt 2 = s at hs hq hp ⊢
  rw [hs]
  norm_num [ttMom, dtMom, xtMom, xuMom, uMom]
  try field_simp
  try ring

theorem gEntry_4_9 (a b ap bp : ℝ) (h : a - b ≠ 0) (h2 : b - a ≠ 0) :
    gMatrixRow4 9 a b ap bp = some (gExact 4 9 a b ap bp) := by
  obtain ⟨hs, hq, hp⟩ := sqrt_two_facts
  rw [gMatrixRow4, Option.some_inj]
  simp only [gExact, rho2, bb_succ 3, bb_succ 8]
  generalize Real.sqrt 2 = s at hs hq hp ⊢
  rw [hs]
  norm_num [ttMom, dtMom, xtMom, xuMom, uMom]
  try field_simp
  try ring

theorem gEntry_4_10 (a b ap bp : ℝ) (h : a - b ≠ 0) (h2 : b - a ≠ 0) :
    gMatrixRow4 10 a b ap bp = some (gExact 4 10 a b ap bp) := by
  obtain ⟨hs, hq, hp⟩ := sqrt_two_facts
  rw [gMatrixRow4, Option.some_inj]
  simp only [gExact, rho2, bb_succ 3, bb_succ 9]
  generalize Real.sqrt 2 = s at hs hq hp ⊢
  rw [hs]
  norm_num [ttMom, dtMom, xtMom, xuMom, uMom]
  try field_simp
  try ring

theorem gEntry_5_0 (a b ap bp : ℝ) (h : a - b ≠ 0) (h2 : b - a ≠ 0) :
    gMatrixRow5 0 a b ap bp = some (gExact 5 0 a b ap bp) := by
  obtain ⟨hs, hq, hp⟩ := sqrt_two_facts
  rw [gMatrixRow5, Option.some_inj]
  simp only [gExact, rho2, bb_succ 4, bb_zero]
  generalize Real.sqrt 2 = s at hs hq hp ⊢
  norm_num [ttMom, dtMom, xtMom, xuMom, uMom]
  try field_simp
  try rw [hq]
  try ring

theorem gEntry_5_1 (a b ap bp : ℝ) (h : a - b ≠ 0) (h2 : b - a ≠ 0) :
    gMatrixRow5 1 a b ap bp = some (gExact 5 1 a b ap bp) := by
  obtain ⟨hs, hq, hp⟩ := sqrt_two_facts
  rw [gMatrixRow5, Option.some_inj]
  simp only [gExact, rho2, bb_succ 4, bb_succ 0]
  generalize Real.sqrt 2 = s at hs hq hp ⊢
  rw [hs]
  norm_num [ttMom, dtMom, xtMom, xuMom, uMom]
  try field_simp
  try ring

theorem gEntry_5_2 (a b ap bp : ℝ) (h : a - b ≠ 0) (h2 : b - a ≠ 0) :
    gMatrixRow5 2 a b ap bp = some (gExact 5 2 a b ap bp) := by
  obtain ⟨hs, hq, hp⟩ := sqrt_two_facts
  rw [gMatrixRow5, Option.some_inj]
  simp only [gExact, rho2, bb_succ 4, bb_succ 1]
  generalize Real.sqrt 2 = s at hs hq hp ⊢
  rw [hs]
  norm_num [ttMom, dtMom, xtMom, xuMom, uMom]
  try field_simp
  try ring

theorem gEntry_5_3 (a b ap bp : ℝ) (h : a - b ≠ 0) (h2 : b - a ≠ 0) :
    gMatrixRow5 3 a b ap bp = some (gExact 5 3 a b ap bp) := by
  obtain ⟨hs, hq, hp⟩ := sqrt_two_facts
  rw [gMatrixRow5, Option.some_inj]
  simp only [gExact, rho2, bb_succ 4, bb_succ 2]
  generalize Real.sqrt 2 = s at hs hq hp ⊢
  rw [hs]
  norm_num [ttMom, dtMom, xtMom, xuMom, uMom]
  try field_simp
  try ring

theorem gEntry_5_4 (a b ap bp : ℝ) (h : a - b ≠ 0) (h2 : b - a ≠ 0) :
    gMatrixRow5 4 a b ap bp = some (gExact 5 4 a b ap bp) := by
  obtain ⟨hs, hq, hp⟩ := sqrt_two_facts
  rw [gMatrixRow5, Option.some_inj]
  simp only [gExact, rho2, bb_succ 4, bb_succ 3]
  generalize Real.sqrt 2 = s at hs hq hp ⊢
  rw [hs]
  norm_num [ttMom, dtMom, xtMom, xuMom, uMom]
  try field_simp
  try ring

theorem gEntry_5_5 (a b ap bp : ℝ) (h : a - b ≠ 0) (h2 : b - a ≠ 0) :
    gMatrixRow5 5 a b ap bp = some (gExact 5 5 a b ap bp) := by
  obtain ⟨hs, hq, hp⟩ := sqrt_two_facts
  rw [gMatrixRow5, Option.some_inj]
  simp only [gExact, rho2, bb_succ 4]
  generalize Real.sqrt 2 = s at hs hq hp ⊢
  rw [hs]
  norm_num [ttMom, dtMom, xtMom, xuMom, uMom]
  try field_simp
  try ring

theorem gEntry_5_6 (a b ap bp : ℝ) (h : a - b ≠ 0) (h2 : b - a ≠ 0) :
    gMatrixRow5 6 a b ap bp = some (gExact 5 6 a b ap bp) := by
  obtain ⟨hs, hq, hp⟩ := sqrt_two_facts
  rw [gMatrixRow5, Option.some_inj]
  simp only [gExact, rho2, bb_succ 4, bb_succ 5]
  generalize Real.sqrt 2 = s at hs hq hp ⊢
  rw [hs]
  norm_num [ttMom, dtMom, xtMom, xuMom, uMom]
  try field_simp
  try ring

theorem gEntry_5_7 (a b ap bp : ℝ) (h : a - b ≠ 0) (h2 : b - a ≠ 0) :
    gMatrixRow5 7 a b ap bp = some (gExact 5 7 a b ap bp) := by
  obtain ⟨hs, hq, hp⟩ := sqrt_two_facts
  rw [gMatrixRow5, Option.some_inj]
  simp only [gExact, rho2, bb_succ 4, bb_succ 6]
  generalize Real.sqrt 2 = s at hs hq hp ⊢
  rw [hs]
  norm_num [ttMom, dtMom, xtMom, xuMom, uMom]
  try field_simp
  try ring

theorem gEntry_5_8 (a b ap bp : ℝ) (h : a - b ≠ 0) (h2 : b - a ≠ 0) :
    gMatrixRow5 8 a b ap bp = some (gExact 5 8 a b ap bp) := by
  obtain ⟨hs, hq, hp⟩ := sqrt_two_facts
  rw [gMatrixRow5, Option.some_inj]
  simp only [gExact, rho2, bb_succ 4, bb_succ 7]
  generalize Real.sqrt 2 = s at hs hq hp ⊢
  rw [hs]
  norm_num [ttMom, dtMom, xtMom, xuMom, uMom]
  try field_simp
  try ring

theorem gEntry_5_9 (a b ap bp : ℝ) (h : a - b ≠ 0) (h2 : b - a ≠ 0) :
    gMatrixRow5 9 a b ap bp = some (gExact 5 9 a b ap bp) := by
  obtain ⟨hs, hq, hp⟩ := sqrt_two_facts
  rw [gMatrixRow5, Option.some_inj]
  simp only [gExact, rho2, bb_succ 4, bb_succ 8]
  generalize Real.sqrt 2 = s at hs hq hp ⊢
  rw [hs]
  norm_num [ttMom, dtMom, xtMom, xuMom, uMom]
  try field_simp
  try ring

theorem gEntry_5_10 (a b ap bp : ℝ) (h : a - b ≠ 0) (h2 : b - a ≠ 0) :
    gMatrixRow5 10 a b ap bp = some (gExact 5 10 a b ap bp) := by
  obtain ⟨hs, hq, hp⟩ := sqrt_two_facts
  rw [gMatrixRow5, Option.some_inj]
  simp only [gExact, rho2, bb_succ 4, bb_succ 9]
  generalize Real.sqrt 2 = s at hs hq hp ⊢
  rw [hs]
  norm_num [ttMom, dtMom, xtMom, xuMom, uMom]
  try field_simp
  try ring

theorem gEntry_6_0 (a b ap bp : ℝ) (h : a - b ≠ 0) (h2 : b - a ≠ 0) :
    gMatrixRow6 0 a b ap bp = some (gExact 6 0 a b ap bp) := by
  obtain ⟨hs, hq, hp⟩ := sqrt_two_facts
  rw [gMatrixRow6, Option.some_inj]
  simp only [gExact, rho2, bb_succ 5, bb_zero]
  generalize Real.sqrt 2 = s at hs hq hp ⊢
  norm_num [ttMom, dtMom, xtMom, xuMom, uMom]
  try field_simp
  try rw [hq]
  try ring

theorem gEntry_6_1 (a b ap bp : ℝ) (h : a - b ≠ 0) (h2 : b - a ≠ 0) :
    gMatrixRow6 1 a b ap bp = some (gExact 6 1 a b ap bp) := by
  obtain ⟨hs, hq, hp⟩ := sqrt_two_facts
  rw [gMatrixRow6, Option.some_inj]
  simp only [gExact, rho2, bb_succ 5, bb_succ 0]
  generalize Real.sqrt 2 = s at hs hq hp ⊢
  rw [hs]
  norm_num [ttMom, dtMom, xtMom, xuMom, uMom]
  try field_simp
  try ring

theorem gEntry_6_2 (a b ap bp : ℝ) (h : a - b ≠ 0) (h2 : b - a ≠ 0) :
    gMatrixRow6 2 a b ap bp = some (gExact 6 2 a b ap bp) := by
  obtain ⟨hs, hq, hp⟩ := sqrt_two_facts
  rw [gMatrixRow6, Option.some_inj]
  simp only [gExact, rho2, bb_succ 5, bb_succ 1]
  generalize Real.sqrt 2 = s at hs hq hp ⊢
  rw [hs]
  norm_num [ttMom, dtMom, xtMom, xuMom, uMom]
  try field_simp
  try ring

theorem gEntry_6_3 (a b ap bp : ℝ) (h : a - b ≠ 0) (h2 : b - a ≠ 0) :
    gMatrixRow6 3 a b ap bp = some (gExact 6 3 a b ap bp) := by
  obtain ⟨hs, hq, hp⟩ := sqrt_two_facts
  rw [gMatrixRow6, Option.some_inj]
  simp only [gExact, rho2, bb_succ 5, bb_succ 2]
  generalize Real.sqrt 2 = s at hs hq hp ⊢
  rw [hs]
  norm_num [ttMom, dtMom, xtMom, xuMom, uMom]
  try field_simp
  try ring

theorem gEntry_6_4 (a b ap bp : ℝ) (h : a - b ≠ 0) (h2 : b - a ≠ 0) :
    gMatrixRow6 4 a b ap bp = some (gExact 6 4 a b ap bp) := by
  obtain ⟨hs, hq, hp⟩ := sqrt_two_facts
  rw [gMatrixRow6, Option.some_inj]
  simp only [gExact, rho2, bb_succ 5, bb_succ 3]
  generalize Real.sqrt 2 = s at hs hq hp ⊢
  rw [hs]
  norm_num [ttMom, dtMom, xtMom, xuMom, uMom]
  try field_simp
  try ring

theorem gEntry_6_5 (a b ap bp : ℝ) (h : a - b ≠ 0) (h2 : b - a ≠ 0) :
    gMatrixRow6 5 a b ap bp = some (gExact 6 5 a b ap bp) := by
  obtain ⟨hs, hq, hp⟩ := sqrt_two_facts
  rw [gMatrixRow6, Option.some_inj]
  simp only [gExact, rho2, bb_succ 5, bb_succ 4]
  generalize Real.sqrt 2 = s at hs hq hp ⊢
  rw [hs]
  norm_num [ttMom, dtMom, xtMom, xuMom, uMom]
  try field_simp
  try ring

theorem gEntry_6_6 (a b ap bp : ℝ) (h : a - b ≠ 0) (h2 : b - a ≠ 0) :
    gMatrixRow6 6 a b ap bp = some (gExact 6 6 a b ap bp) := by
  obtain ⟨hs, hq, hp⟩ := sqrt_two_facts
  rw [gMatrixRow6, Option.some_inj]
  simp only [gExact, rho2, bb_succ 5]
  generalize Real.sqrt 2 = s at hs hq hp ⊢
  rw [hs]
  norm_num [ttMom, dtMom, xtMom, xuMom, uMom]
  try field_simp
  try ring

theorem gEntry_6_7 (a b ap bp : ℝ) (h : a - b ≠ 0) (h2 : b - a ≠ 0) :
    gMatrixRow6 7 a b ap bp = some (gExact 6 7 a b ap bp) := by
  obtain ⟨hs, hq, hp⟩ := sqrt_two_facts
  rw [gMatrixRow6, Option.some_inj]
  simp only [gExact, rho2, bb_succ 5, bb_succ 6]
  generalize Real.sqrt 2 = s at hs hq hp ⊢
  rw [hs]
  norm_num [ttMom, dtMom, xtMom, xuMom, uMom]
  try field_simp
  try ring

theorem gEntry_6_8 (a b ap bp : ℝ) (h : a - b ≠ 0) (h2 : b - a ≠ 0) :
    gMatrixRow6 8 a b ap bp = some (gExact 6 8 a b ap bp) := by
  obtain ⟨hs, hq, hp⟩ := sqrt_two_facts
  rw [gMatrixRow6, Option.some_inj]
  simp only [gExact, rho2, bb_succ 5, bb_succ 7]
  generalize Real.sqrt 2 = s at hs hq hp ⊢
  rw [hs]
  norm_num [ttMom, dtMom, xtMom, xuMom, uMom]
  try field_simp
  try ring

theorem gEntry_6_9 (a b ap bp : ℝ) (h : a - b ≠ 0) (h2 : b - a ≠ 0) :
    gMatrixRow6 9 a b ap bp = some (gExact 6 9 a b ap bp) := by
  obtain ⟨hs, hq, hp⟩ := sqrt_two_facts
  rw [gMatrixRow6, Option.some_inj]
  simp only [gExact, rho2, bb_succ 5, bb_succ 8]
  generalize Real.sqrt 2 = s at hs hq hp ⊢
  rw [hs]
  norm_num [ttMom, dtMom, xtMom, xuMom, uMom]
  try field_simp
  try ring

theorem gEntry_6_10 (a b ap bp : ℝ) (h : a - b ≠ 0) (h2 : b - a ≠ 0) :
    gMatrixRow6 10 a b ap bp = some (gExact 6 10 a b ap bp) := by
  obtain ⟨hs, hq, hp⟩ := sqrt_two_facts
  rw [gMatrixRow6, Option.some_inj]
  simp only [gExact, rho2, bb_succ 5, bb_succ 9]
  generalize Real.sqrt 2 = s at hs hq hp ⊢
  rw [hs]
  norm_num [ttMom, dtMom, xtMom, xuMom, uMom]
  try field_simp
  try ring

theorem gEntry_7_0 (a b ap bp : ℝ) (h : a - b ≠ 0) (h2 : b - a ≠ 0) :
    gMatrixRow7 0 a b ap bp = some (gExact 7 0 a b ap bp) := by
  obtain ⟨hs, hq, hp⟩ := sqrt_two_facts
  rw [gMatrixRow7, Option.some_inj]
  simp only [gExact, rho2, bb_succ 6, bb_zero]
  generalize Real.sqrt 2 = s at hs hq hp ⊢
  norm_num [ttMom, dtMom, xtMom, xuMom, uMom]
  try field_simp
  try rw [hq]
  try ring

theorem gEntry_7_1 (a b ap bp : ℝ) (h : a - b ≠ 0) (h2 : b - a ≠ 0) :
    gMatrixRow7 1 a b ap bp = some (gExact 7 1 a b ap bp) := by
  obtain ⟨hs, hq, hp⟩ := sqrt_two_facts
  rw [gMatrixRow7, Option.some_inj]
  simp only [gExact, rho2, bb_succ 6, bb_succ 0]
  generalize Real.sqrt 2 = s at hs hq hp ⊢
  rw [hs]
  norm_num [ttMom, dtMom, xtMom, xuMom, uMom]
  try field_simp
  try ring

theorem gEntry_7_2 (a b ap bp : ℝ) (h : a - b ≠ 0) (h2 : b - a ≠ 0) :
    gMatrixRow7 2 a b ap bp = some (gExact 7 2 a b ap bp) := by
  obtain ⟨hs, hq, hp⟩ := sqrt_two_facts
  rw [gMatrixRow7, Option.some_inj]
  simp only [gExact, rho2, bb_succ 6, bb_succ 1]
  generalize Real.sqrt 2 = s at hs hq hp ⊢
  rw [hs]
  norm_num [ttMom, dtMom, xtMom, xuMom, uMom]
  try field_simp
  try ring

theorem gEntry_7_3 (a b ap bp : ℝ) (h : a - b ≠ 0) (h2 : b - a ≠ 0) :
    gMatrixRow7 3 a b ap bp = some (gExact 7 3 a b ap bp) := by
  obtain ⟨hs, hq, hp⟩ := sqrt_two_facts
  rw [gMatrixRow7, Option.some_inj]
  simp only [gExact, rho2, bb_succ 6, bb_succ 2]
  generalize Real.sqrt 2 = s at hs hq hp ⊢
  rw [hs]
  norm_num [ttMom, dtMom, xtMom, xuMom, uMom]
  try field_simp
  try ring

theorem gEntry_7_4 (a b ap bp : ℝ) (h : a - b ≠ 0) (h2 : b - a ≠ 0) :
    gMatrixRow7 4 a b ap bp = some (gExact 7 4 a b ap bp) := by
  obtain ⟨hs, hq, hp⟩ := sqrt_two_facts
  rw [gMatrixRow7, Option.some_inj]
  simp only [gExact, rho2, bb_succ 6, bb_succ 3]
  generalize Real.sqrt 2 = s at hs hq hp ⊢
  rw [hs]
  norm_num [ttMom, dtMom, xtMom, xuMom, uMom]
  try field_simp
  try ring

theorem gEntry_7_5 (a b ap bp : ℝ) (h : a - b ≠ 0) (h2 : b - a ≠ 0) :
    gMatrixRow7 5 a b ap bp = some (gExact 7 5 a b ap bp) := by
  obtain ⟨hs, hq, hp⟩ := sqrt_two_facts
  rw [gMatrixRow7, Option.some_inj]
  simp only [gExact, rho2, bb_succ 6, bb_succ 4]
  generalize Real.sqrt 2 = s at hs hq hp ⊢
  rw [hs]
  norm_num [ttMom, dtMom, xtMom, xuMom, uMom]
  try field_simp
  try ring

theorem gEntry_7_6 (a b ap bp : ℝ) (h : a - b ≠ 0) (h2 : b - a ≠ 0) :
    gMatrixRow7 6 a b ap bp = some (gExact 7 6 a b ap bp) := by
  obtain ⟨hs, hq, hp⟩ := sqrt_two_facts
  rw [gMatrixRow7, Option.some_inj]
  simp only [gExact, rho2, bb_succ 6, bb_succ 5]
  generalize Real.sqrt 2 = s at hs hq hp ⊢
  rw [hs]
  norm_num [ttMom, dtMom, xtMom, xuMom, uMom]
  try field_simp
  try ring

theorem gEntry_7_7 (a b ap bp : ℝ) (h : a - b ≠ 0) (h2 : b - a ≠ 0) :
    gMatrixRow7 7 a b ap bp = some (gExact 7 7 a b ap bp) := by
  obtain ⟨hs, hq, hp⟩ := sqrt_two_facts
  rw [gMatrixRow7, Option.some_inj]
  simp only [gExact, rho2, bb_succ 6]
  generalize Real.sqrt 2 = s at hs hq hp ⊢
  rw [hs]
  norm_num [ttMom, dtMom, xtMom, xuMom, uMom]
  try field_simp
  try ring

theorem gEntry_7_8 (a b ap bp : ℝ) (h : a - b ≠ 0) (h2 : b - a ≠ 0) :
    gMatrixRow7 8 a b ap bp = some (gExact 7 8 a b ap bp) := by
  obtain ⟨hs, hq, hp⟩ := sqrt_two_facts
  rw [gMatrixRow7, Option.some_inj]
  simp only [gExact, rho2, bb_succ 6, bb_succ 7]
  generalize Real.sqrt 2 = s at hs hq hp ⊢
  rw [hs]
  norm_num [ttMom, dtMom, xtMom, xuMom, uMom]
  try field_simp
  try ring

theorem gEntry_7_9 (a b ap bp : ℝ) (h : a - b ≠ 0) (h2 : b - a ≠ 0) :
    gMatrixRow7 9 a b ap bp = some (gExact 7 9 a b ap bp) := by
  obtain ⟨hs, hq, hp⟩ := sqrt_two_facts
  rw [gMatrixRow7, Option.some_inj]
  simp only [gExact, rho2, bb_succ 6, bb_succ 8]
  generalize Real.sqrt 2 = s at hs hq hp ⊢
  rw [hs]
  norm_num [ttMom, dtMom, xtMom, xuMom, uMom]
  try field_simp
  try ring

theorem gEntry_7_10 (a b ap bp : ℝ) (h : a - b ≠ 0) (h2 : b - a ≠ 0) :
    gMatrixRow7 10 a b ap bp = some (gExact 7 10 a b ap bp) := by
  obtain ⟨hs, hq, hp⟩ := sqrt_two_facts
  rw [gMatrixRow7, Option.some_inj]
  simp only [gExact, rho2, bb_succ 6, bb_succ 9]
  generalize Real.sqrt 2 = s at hs hq hp ⊢
  rw [hs]
  norm_num [ttMom, dtMom, xtMom, xuMom, uMom]
  try field_simp
  try ring

theorem gEntry_8_0 (a b ap bp : ℝ) (h : a - b ≠ 0) (h2 : b - a ≠ 0) :
    gMatrixRow8 0 a b ap bp = some (gExact 8 0 a b ap bp) := by
  obtain ⟨hs, hq, hp⟩ := sqrt_two_facts
  rw [gMatrixRow8, Option.some_inj]
  simp only [gExact, rho2, bb_succ 7, bb_zero]
  generalize Real.sqrt 2 = s at hs hq hp ⊢
  norm_num [ttMom, dtMom, xtMom, xuMom, uMom]
  try field_simp
  try rw [hq]
  try ring

theorem gEntry_8_1 (a b ap bp : ℝ) (h : a - b ≠ 0) (h2 : b - a ≠ 0) :
    gMatrixRow8 1 a b ap bp = some (gExact 8 1 a b ap bp) := by
  obtain ⟨hs, hq, hp⟩ := sqrt_two_facts
  rw [gMatrixRow8, Option.some_inj]
  simp only [gExact, rho2, bb_succ 7, bb_succ 0]
  generalize Real.sqrt 2 = s at hs hq hp ⊢
  rw [hs]
  norm_num [ttMom, dtMom, xtMom, xuMom, uMom]
  try field_simp
  try ring

theorem gEntry_8_2 (a b ap bp : ℝ) (h : a - b ≠ 0) (h2 : b - a ≠ 0) :
    gMatrixRow8 2 a b ap bp = some (gExact 8 2 a b ap bp) := by
  obtain ⟨hs, hq, hp⟩ := sqrt_two_facts
  rw [gMatrixRow8, Option.some_inj]
  simp only [gExact, rho2, bb_succ 7, bb_succ 1]
  generalize Real.sqrt 2 = s at hs hq hp ⊢
  rw [hs]
  norm_num [ttMom, dtMom, xtMom, xuMom, uMom]
  try field_simp
  try ring

theorem gEntry_8_3 (a b ap bp : ℝ) (h : a - b ≠ 0) (h2 : b - a ≠ 0) :
    gMatrixRow8 3 a b ap bp = some (gExact 8 3 a b ap bp) := by
  obtain ⟨hs, hq, hp⟩ := sqrt_two_facts
  rw [gMatrixRow8, Option.some_inj]
  simp only [gExact, rho2, bb_succ 7, bb_succ 2]
  generalize Real.sqrt 2 = s at hs hq hp ⊢
  rw [hs]
  norm_num [ttMom, dtMom, xtMom, xuMom, uMom]
  try field_simp
  try ring

theorem gEntry_8_4 (a b ap bp : ℝ) (h : a - b ≠ 0) (h2 : b - a ≠ 0) :
    gMatrixRow8 4 a b ap bp = some (gExact 8 4 a b ap bp) := by
  obtain ⟨hs, hq, hp⟩ := sqrt_two_facts
  rw [gMatrixRow8, Option.some_inj]
  simp only [gExact, rho2, bb_succ 7, bb_succ 3]
  generalize Real.sqrt 2 = s at hs hq hp ⊢
  rw [hs]
  norm_num [ttMom, dtMom, xtMom, xuMom, uMom]
  try field_simp
  try ring

theorem gEntry_8_5 (a b ap bp : ℝ) (h : a - b ≠ 0) (h2 : b - a ≠ 0) :
    gMatrixRow8 5 a b ap bp = some (gExact 8 5 a b ap bp) := by
  obtain ⟨hs, hq, hp⟩ := sqrt_two_facts
  rw [gMatrixRow8, Option.some_inj]
  simp only [gExact, rho2, bb_succ 7, bb_succ 4]
  generalize Real.sqrt 2 = s at hs hq hp ⊢
  rw [hs]
  norm_num [ttMom, dtMom, xtMom, xuMom, uMom]
  try field_simp
  try ring

theorem gEntry_8_6 (a b ap bp : ℝ) (h : a - b ≠ 0) (h2 : b - a ≠ 0) :
    gMatrixRow8 6 a b ap bp = some (gExact 8 6 a b ap bp) := by
  obtain ⟨hs, hq, hp⟩ := sqrt_two_facts
  rw [gMatrixRow8, Option.some_inj]
  simp only [gExact, rho2, bb_succ 7, bb_succ 5]
  generalize Real.sqrt 2 = s at hs hq hp ⊢
  rw [hs]
  norm_num [ttMom, dtMom, xtMom, xuMom, uMom]
  try field_simp
  try ring

theorem gEntry_8_7 (a b ap bp : ℝ) (h : a - b ≠ 0) (h2 : b - a ≠ 0) :
    gMatrixRow8 7 a b ap bp = some (gExact 8 7 a b ap bp) := by
  obtain ⟨hs, hq, hp⟩ := sqrt_two_facts
  rw [gMatrixRow8, Option.some_inj]
  simp only [gExact, rho2, bb_succ 7, bb_succ 6]
  generalize Real.sqrt 2 = s at hs hq hp ⊢
  rw [hs]
  norm_num [ttMom, dtMom, xtMom, xuMom, uMom]
  try field_simp
  try ring

theorem gEntry_8_8 (a b ap bp : ℝ) (h : a - b ≠ 0) (h2 : b - a ≠ 0) :
    gMatrixRow8 8 a b ap bp = some (gExact 8 8 a b ap bp) := by
  obtain ⟨hs, hq, hp⟩ := sqrt_two_facts
  rw [gMatrixRow8, Option.some_inj]
  simp only [gExact, rho2, bb_succ 7]
  generalize Real.sqrt 2 = s at hs hq hp ⊢
  rw [hs]
  norm_num [ttMom, dtMom, xtMom, xuMom, uMom]
  try field_simp
  try ring

theorem gEntry_8_9 (a b ap bp : ℝ) (h : a - b ≠ 0) (h2 : b - a ≠ 0) :
    gMatrixRow8 9 a b ap bp = some (gExact 8 9 a b ap bp) := by
  obtain ⟨hs, hq, hp⟩ := sqrt_two_facts
  rw [gMatrixRow8, Option.some_inj]
  simp only [gExact, rho2, bb_succ 7, bb_succ 8]
  generalize Real.sqrt 2 = s at hs hq hp ⊢
  rw [hs]
  norm_num [ttMom, dtMom, xtMom, xuMom, uMom]
  try field_simp
  try ring

theorem gEntry_8_10 (a b ap bp : ℝ) (h : a - b ≠ 0) (h2 : b - a ≠ 0) :
    gMatrixRow8 10 a b ap bp = some (gExact 8 10 a b ap bp) := by
  obtain ⟨hs, hq, hp⟩ := sqrt_two_facts
  rw [gMatrixRow8, Option.some_inj]
  simp only [gExact, rho2, bb_succ 7, bb_succ 9]
  generalize Real.sqrt 2 = s at hs hq hp ⊢
  rw [hs]
  norm_num [ttMom, dtMom, xtMom, xuMom, uMom]
  try field_simp
  try ring

theorem gEntry_9_0 (a b ap bp : ℝ) (h : a - b ≠ 0) (h2 : b - a ≠ 0) :
    gMatrixRow9 0 a b ap bp = some (gExact 9 0 a b ap bp) := by
  obtain ⟨hs, hq, hp⟩ := sqrt_two_facts
  rw [gMatrixRow9, Option.some_inj]
  simp only [gExact, rho2, bb_succ 8, bb_zero]
  generalize Real.sqrt 2 = s at hs hq hp ⊢
  norm_num [ttMom, dtMom, xtMom, xuMom, uMom]
  try field_simp
  try rw [hq]
  try ring

theorem gEntry_9_1 (a b ap bp : ℝ) (h : a - b ≠ 0) (h2 : b - a ≠ 0) :
    gMatrixRow9 1 a b ap bp = some (gExact 9 1 a b ap bp) := by
  obtain ⟨hs, hq, hp⟩ := sqrt_two_facts
  rw [gMatrixRow9, Option.some_inj]
  simp only [gExact, rho2, bb_succ 8, bb_succ 0]
  generalize Real.sqrt 2 = s at hs hq hp ⊢
  rw [hs]
  norm_num [ttMom, dtMom, xtMom, xuMom, uMom]
  try field_simp
  try ring

theorem gEntry_9_2 (a b ap bp : ℝ) (h : a - b ≠ 0) (h2 : b - a ≠ 0) :
    gMatrixRow9 2 a b ap bp = some (gExact 9 2 a b ap bp) := by
  obtain ⟨hs, hq, hp⟩ := sqrt_two_facts
  rw [gMatrixRow9, Option.some_inj]
  simp only [gExact, rho2, bb_succ 8, bb_succ 1]
  generalize Real.sqrt 2 = s at hs hq hp ⊢
  rw [hs]
  norm_num [ttMom, dtMom, xtMom, xuMom, uMom]
  try field_simp
  try ring

theorem gEntry_9_3 (a b ap bp : ℝ) (h : a - b ≠ 0) (h2 : b - a ≠ 0) :
    gMatrixRow9 3 a b ap bp = some (gExact 9 3 a b ap bp) := by
  obtain ⟨hs, hq, hp⟩ := sqrt_two_facts
  rw [gMatrixRow9, Option.some_inj]
  simp only [gExact, rho2, bb_succ 8, bb_succ 2]
  generalize Real.sqrt 2 = s at hs hq hp ⊢
  rw [hs]
  norm_num [ttMom, dtMom, xtMom, xuMom, uMom]
  try field_simp
  try ring

theorem gEntry_9_4 (a b ap bp : ℝ) (h : a - b ≠ 0) (h2 : b - a ≠ 0) :
    gMatrixRow9 4 a b ap bp = some (gExact 9 4 a b ap bp) := by
  obtain ⟨hs, hq, hp⟩ := sqrt_two_facts
  rw [gMatrixRow9, Option.some_inj]
  simp only [gExact, rho2, bb_succ 8, bb_succ 3]
  generalize Real.sqrt 2 = s at hs hq hp ⊢
  rw [hs]
  norm_num [ttMom, dtMom, xtMom, xuMom, uMom]
  try field_simp
  try ring

theorem gEntry_9_5 (a b ap bp : ℝ) (h : a - b ≠ 0) (h2 : b - a ≠ 0) :
    gMatrixRow9 5 a b ap bp = some (gExact 9 5 a b ap bp) := by
  obtain ⟨hs, hq, hp⟩ := sqrt_two_facts
  rw [gMatrixRow9, Option.some_inj]
  simp only [gExact, rho2, bb_succ 8, bb_succ 4]
  generalize Real.sqrt 2 = s at hs hq hp ⊢
  rw [hs]
  norm_num [ttMom, dtMom, xtMom, xuMom, uMom]
  try field_simp
  try ring

theorem gEntry_9_6 (a b ap bp : ℝ) (h : a - b ≠ 0) (h2 : b - a ≠ 0) :
    gMatrixRow9 6 a b ap bp = some (gExact 9 6 a b ap bp) := by
  obtain ⟨hs, hq, hp⟩ := sqrt_two_facts
  rw [gMatrixRow9, Option.some_inj]
  simp only [gExact, rho2, bb_succ 8, bb_succ 5]
  generalize Real.sqrt 2 = s at hs hq hp ⊢
  rw [hs]
  norm_num [ttMom, dtMom, xtMom, xuMom, uMom]
  try field_simp
  try ring

theorem gEntry_9_7 (a b ap bp : ℝ) (h : a - b ≠ 0) (h2 : b - a ≠ 0) :
    gMatrixRow9 7 a b ap bp = some (gExact 9 7 a b ap bp) := by
  obtain ⟨hs, hq, hp⟩ := sqrt_two_facts
  rw [gMatrixRow9, Option.some_inj]
  simp only [gExact, rho2, bb_succ 8, bb_succ 6]
  generalize Real.sqrt 2 = s at hs hq hp ⊢
  rw [hs]
  norm_num [ttMom, dtMom, xtMom, xuMom, uMom]
  try field_simp
  try ring

theorem gEntry_9_8 (a b ap bp : ℝ) (h : a - b ≠ 0) (h2 : b - a ≠ 0) :
    gMatrixRow9 8 a b ap bp = some (gExact 9 8 a b ap bp) := by
  obtain ⟨hs, hq, hp⟩ := sqrt_two_facts
  rw [gMatrixRow9, Option.some_inj]
  simp only [gExact, rho2, bb_succ 8, bb_succ 7]
  generalize Real.sqrt 2 = s at hs hq hp ⊢
  rw [hs]
  norm_num [ttMom, dtMom, xtMom, xuMom, uMom]
  try field_simp
  try ring

theorem gEntry_9_9 (a b ap bp : ℝ) (h : a - b ≠ 0) (h2 : b - a ≠ 0) :
    gMatrixRow9 9 a b ap bp = some (gExact 9 9 a b ap bp) := by
  obtain ⟨hs, hq, hp⟩ := sqrt_two_facts
  rw [gMatrixRow9, Option.some_inj]
  simp only [gExact, rho2, bb_succ 8]
  generalize Real.sqrt 2 = s at hs hq hp ⊢
  rw [hs]
  norm_num [ttMom, dtMom, xtMom, xuMom, uMom]
  try field_simp
  try ring

theorem gEntry_9_10 (a b ap bp : ℝ) (h : a - b ≠ 0) (h2 : b - a ≠ 0) :
    gMatrixRow9 10 a b ap bp = some (gExact 9 10 a b ap bp) := by
  obtain ⟨hs, hq, hp⟩ := sqrt_two_facts
  rw [gMatrixRow9, Option.some_inj]
  simp only [gExact, rho2, bb_succ 8, bb_succ 9]
  generalize Real.sqrt 2 = s at hs hq hp ⊢
  rw [hs]
  norm_num [ttMom, dtMom, xtMom, xuMom, uMom]
  try field_simp
  try ring

theorem gEntry_10_0 (a b ap bp : ℝ) (h : a - b ≠ 0) (h2 : b - a ≠ 0) :
    gMatrixRow10 0 a b ap bp = some (gExact 10 0 a b ap bp) := by
  obtain ⟨hs, hq, hp⟩ := sqrt_two_facts
  rw [gMatrixRow10, Option.some_inj]
  simp only [gExact, rho2, bb_succ 9, bb_zero]
  generalize Real.sqrt 2 = s at hs hq hp ⊢
  norm_num [ttMom, dtMom, xtMom, xuMom, uMom]
  try field_simp
  try rw [hq]
  try ring

theorem gEntry_10_1 (a b ap bp : ℝ) (h : a - b ≠ 0) (h2 : b - a ≠ 0) :
    gMatrixRow10 1 a b ap bp = some (gExact 10 1 a b ap bp) := by
  obtain ⟨hs, hq, hp⟩ := sqrt_two_facts
  rw [gMatrixRow10, Option.some_inj]
  simp only [gExact, rho2, bb_succ 9, bb_succ 0]
  generalize Real.sqrt 2 = s at hs hq hp ⊢
  rw [hs]
  norm_num [ttMom, dtMom, xtMom, xuMom, uMom]
  try field_simp
  try ring

theorem gEntry_10_2 (a b ap bp : ℝ) (h : a - b ≠ 0) (h2 : b - a ≠ 0) :
    gMatrixRow10 2 a b ap bp = some (gExact 10 2 a b ap bp) := by
  obtain ⟨hs, hq, hp⟩ := sqrt_two_facts
  rw [gMatrixRow10, Option.some_inj]
  simp only [gExact, rho2, bb_succ 9, bb_succ 1]
  generalize Real.sqrt 2 = s at hs hq hp ⊢
  rw [hs]
  norm_num [ttMom, dtMom, xtMom, xuMom, uMom]
  try field_simp
  try ring

theorem gEntry_10_3 (a b ap bp : ℝ) (h : a - b ≠ 0) (h2 : b - a ≠ 0) :
    gMatrixRow10 3 a b ap bp = some (gExact 10 3 a b ap bp) := by
  obtain ⟨hs, hq, hp⟩ := sqrt_two_facts
  rw [gMatrixRow10, Option.some_inj]
  simp only [gExact, rho2, bb_succ 9, bb_succ 2]
  generalize Real.sqrt 2 = s at hs hq hp ⊢
  rw [hs]
  norm_num [ttMom, dtMom, xtMom, xuMom, uMom]
  try field_simp
  try ring

theorem gEntry_10_4 (a b ap bp : ℝ) (h : a - b ≠ 0) (h2 : b - a ≠ 0) :
    gMatrixRow10 4 a b ap bp = some (gExact 10 4 a b ap bp) := by
  obtain ⟨hs, hq, hp⟩ := sqrt_two_facts
  rw [gMatrixRow10, Option.some_inj]
  simp only [gExact, rho2, bb_succ 9, bb_succ 3]
  generalize Real.sqrt 2 = s at hs hq hp ⊢
  rw [hs]
  norm_num [ttMom, dtMom, xtMom, xuMom, uMom]
  try field_simp
  try ring

theorem gEntry_10_5 (a b ap bp : ℝ) (h : a - b ≠ 0) (h2 : b - a ≠ 0) :
    gMatrixRow10 5 a b ap bp = some (gExact 10 5 a b ap bp) := by
  obtain ⟨hs, hq, hp⟩ := sqrt_two_facts
  rw [gMatrixRow10, Option.some_inj]
  simp only [gExact, rho2, bb_succ 9, bb_succ 4]
  generalize Real.sqrt 2 = s at hs hq hp ⊢
  rw [hs]
  norm_num [ttMom, dtMom, xtMom, xuMom, uMom]
  try field_simp
  try ring

theorem gEntry_10_6 (a b ap bp : ℝ) (h : a - b ≠ 0) (h2 : b - a ≠ 0) :
    gMatrixRow10 6 a b ap bp = some (gExact 10 6 a b ap bp) := by
  obtain ⟨hs, hq, hp⟩ := sqrt_two_facts
  rw [gMatrixRow10, Option.some_inj]
  simp only [gExact, rho2, bb_succ 9, bb_succ 5]
  generalize Real.sqrt 2 = s at hs hq hp ⊢
  rw [hs]
  norm_num [ttMom, dtMom, xtMom, xuMom, uMom]
  try field_simp
  try ring

theorem gEntry_10_7 (a b ap bp : ℝ) (h : a - b ≠ 0) (h2 : b - a ≠ 0) :
    gMatrixRow10 7 a b ap bp = some (gExact 10 7 a b ap bp) := by
  obtain ⟨hs, hq, hp⟩ := sqrt_two_facts
  rw [gMatrixRow10, Option.some_inj]
  simp only [gExact, rho2, bb_succ 9, bb_succ 6]
  generalize Real.sqrt 2 = s at hs hq hp ⊢
  rw [hs]
  norm_num [ttMom, dtMom, xtMom, xuMom, uMom]
  try field_simp
  try ring

theorem gEntry_10_8 (a b ap bp : ℝ) (h : a - b ≠ 0) (h2 : b - a ≠ 0) :
    gMatrixRow10 8 a b ap bp = some (gExact 10 8 a b ap bp) := by
  obtain ⟨hs, hq, hp⟩ := sqrt_two_facts
  rw [gMatrixRow10, Option.some_inj]
  simp only [gExact, rho2, bb_succ 9, bb_succ 7]
  generalize Real.sqrt 2 = s at hs hq hp ⊢
  rw [hs]
  norm_num [ttMom, dtMom, xtMom, xuMom, uMom]
  try field_simp
  try ring

theorem gEntry_10_9 (a b ap bp : ℝ) (h : a - b ≠ 0) (h2 : b - a ≠ 0) :
    gMatrixRow10 9 a b ap bp = some (gExact 10 9 a b ap bp) := by
  obtain ⟨hs, hq, hp⟩ := sqrt_two_facts
  rw [gMatrixRow10, Option.some_inj]
  simp only [gExact, rho2, bb_succ 9, bb_succ 8]
  generalize Real.sqrt 2 = s at hs hq hp ⊢
  rw [hs]
  norm_num [ttMom, dtMom, xtMom, xuMom, uMom]
  try field_simp
  try ring

theorem gEntry_10_10 (a b ap bp : ℝ) (h : a - b ≠ 0) (h2 : b - a ≠ 0) :
    gMatrixRow10 10 a b ap bp = some (gExact 10 10 a b ap bp) := by
  obtain ⟨hs, hq, hp⟩ := sqrt_two_facts
  rw [gMatrixRow10, Option.some_inj]
  simp only [gExact, rho2, bb_succ 9]
  generalize Real.sqrt 2 = s at hs hq hp ⊢
  rw [hs]
  norm_num [ttMom, dtMom, xtMom, xuMom, uMom]
  try field_simp
  try ring

theorem mEntry_0_0 (a b ap bp : ℝ) :
    mPrimeRow0 0 a b ap bp = some (mpExact 0 0 a b ap bp) := by
  obtain ⟨hs, hq, hp⟩ := sqrt_two_facts
  rw [mPrimeRow0, Option.some_inj]
  simp only [mpExact, bb_zero]
  generalize Real.sqrt 2 = s at hs hq hp ⊢
  norm_num [ttMom, xtMom, xuMom, uMom]
  try field_simp
  try ring

theorem mEntry_0_1 (a b ap bp : ℝ) :
    mPrimeRow0 1 a b ap bp = some (mpExact 0 1 a b ap bp) := by
  obtain ⟨hs, hq, hp⟩ := sqrt_two_facts
  rw [mPrimeRow0, Option.some_inj]
  simp only [mpExact, bb_zero, bb_succ 0]
  generalize Real.sqrt 2 = s at hs hq hp ⊢
  norm_num [ttMom, xtMom, xuMom, uMom]
  try field_simp
  try ring

theorem mEntry_0_2 (a b ap bp : ℝ) :
    mPrimeRow0 2 a b ap bp = some (mpExact 0 2 a b ap bp) := by
  obtain ⟨hs, hq, hp⟩ := sqrt_two_facts
  rw [mPrimeRow0, Option.some_inj]
  simp only [mpExact, bb_zero, bb_succ 1]
  generalize Real.sqrt 2 = s at hs hq hp ⊢
  norm_num [ttMom, xtMom, xuMom, uMom]
  try field_simp
  try ring

theorem mEntry_0_3 (a b ap bp : ℝ) :
    mPrimeRow0 3 a b ap bp = some (mpExact 0 3 a b ap bp) := by
  obtain ⟨hs, hq, hp⟩ := sqrt_two_facts
  rw [mPrimeRow0, Option.some_inj]
  simp only [mpExact, bb_zero, bb_succ 2]
  generalize Real.sqrt 2 = s at hs hq hp ⊢
  norm_num [ttMom, xtMom, xuMom, uMom]
  try field_simp
  try ring

theorem mEntry_0_4 (a b ap bp : ℝ) :
    mPrimeRow0 4 a b ap bp = some (mpExact 0 4 a b ap bp) := by
  obtain ⟨hs, hq, hp⟩ := sqrt_two_facts
  rw [mPrimeRow0, Option.some_inj]
  simp only [mpExact, bb_zero, bb_succ 3]
  generalize Real.sqrt 2 = s at hs hq hp ⊢
  norm_num [ttMom, xtMom, xuMom, uMom]
  try field_simp
  try ring

theorem mEntry_0_5 (a b ap bp : ℝ) :
    mPrimeRow0 5 a b ap bp = some (mpExact 0 5 a b ap bp) := by
  obtain ⟨hs, hq, hp⟩ := sqrt_two_facts
  rw [mPrimeRow0, Option.some_inj]
  simp only [mpExact, bb_zero, bb_succ 4]
  generalize Real.sqrt 2 = s at hs hq hp ⊢
  norm_num [ttMom, xtMom, xuMom, uMom]
  try field_simp
  try ring

theorem mEntry_0_6 (a b ap bp : ℝ) :
    mPrimeRow0 6 a b ap bp = some (mpExact 0 6 a b ap bp) := by
  obtain ⟨hs, hq, hp⟩ := sqrt_two_facts
  rw [mPrimeRow0, Option.some_inj]
  simp only [mpExact, bb_zero, bb_succ 5]
  generalize Real.sqrt 2 = s at hs hq hp ⊢
  norm_num [ttMom, xtMom, xuMom, uMom]
  try field_simp
  try ring

theorem mEntry_0_7 (a b ap bp : ℝ) :
    mPrimeRow0 7 a b ap bp = some (mpExact 0 7 a b ap bp) := by
  obtain ⟨hs, hq, hp⟩ := sqrt_two_facts
  rw [mPrimeRow0, Option.some_inj]
  simp only [mpExact, bb_zero, bb_succ 6]
  generalize Real.sqrt 2 = s at hs hq hp ⊢
  norm_num [ttMom, xtMom, xuMom, uMom]
  try field_simp
  try ring

theorem mEntry_0_8 (a b ap bp : ℝ) :
    mPrimeRow0 8 a b ap bp = some (mpExact 0 8 a b ap bp) := by
  obtain ⟨hs, hq, hp⟩ := sqrt_two_facts
  rw [mPrimeRow0, Option.some_inj]
  simp only [mpExact, bb_zero, bb_succ 7]
  generalize Real.sqrt 2 = s at hs hq hp ⊢
  norm_num [ttMom, xtMom, xuMom, uMom]
  try field_simp
  try ring

theorem mEntry_0_9 (a b ap bp : ℝ) :
    mPrimeRow0 9 a b ap bp = some (mpExact 0 9 a b ap bp) := by
  obtain ⟨hs, hq, hp⟩ := sqrt_two_facts
  rw [mPrimeRow0, Option.some_inj]
  simp only [mpExact, bb_zero, bb_succ 8]
  generalize Real.sqrt 2 = s at hs hq hp ⊢
  norm_num [ttMom, xtMom, xuMom, uMom]
  try field_simp
  try ring

theorem mEntry_0_10 (a b ap bp : ℝ) :
    mPrimeRow0 10 a b ap bp = some (mpExact 0 10 a b ap bp) := by
  obtain ⟨hs, hq, hp⟩ := sqrt_two_facts
  rw [mPrimeRow0, Option.some_inj]
  simp only [mpExact, bb_zero, bb_succ 9]
  generalize Real.sqrt 2 = s at hs hq hp ⊢
  norm_num [ttMom, xtMom, xuMom, uMom]
  try field_simp
  try ring

theorem mEntry_1_0 (a b ap bp : ℝ) :
    mPrimeRow1 0 a b ap bp = some (mpExact 1 0 a b ap bp) := by
  obtain ⟨hs, hq, hp⟩ := sqrt_two_facts
  rw [mPrimeRow1, Option.some_inj]
  simp only [mpExact, bb_succ 0, bb_zero]
  generalize Real.sqrt 2 = s at hs hq hp ⊢
  norm_num [ttMom, xtMom, xuMom, uMom]
  try field_simp
  try ring

theorem mEntry_1_1 (a b ap bp : ℝ) :
    mPrimeRow1 1 a b ap bp = some (mpExact 1 1 a b ap bp) := by
  obtain ⟨hs, hq, hp⟩ := sqrt_two_facts
  rw [mPrimeRow1, Option.some_inj]
  simp only [mpExact, bb_succ 0]
  generalize Real.sqrt 2 = s at hs hq hp ⊢
  rw [hs]
  norm_num [ttMom, xtMom, xuMom, uMom]
  try field_simp
  try ring

theorem mEntry_1_2 (a b ap bp : ℝ) :
    mPrimeRow1 2 a b ap bp = some (mpExact 1 2 a b ap bp) := by
  obtain ⟨hs, hq, hp⟩ := sqrt_two_facts
  rw [mPrimeRow1, Option.some_inj]
  simp only [mpExact, bb_succ 0, bb_succ 1]
  generalize Real.sqrt 2 = s at hs hq hp ⊢
  rw [hs]
  norm_num [ttMom, xtMom, xuMom, uMom]
  try field_simp
  try ring

theorem mEntry_1_3 (a b ap bp : ℝ) :
    mPrimeRow1 3 a b ap bp = some (mpExact 1 3 a b ap bp) := by
  obtain ⟨hs, hq, hp⟩ := sqrt_two_facts
  rw [mPrimeRow1, Option.some_inj]
  simp only [mpExact, bb_succ 0, bb_succ 2]
  generalize Real.sqrt 2 = s at hs hq hp ⊢
  rw [hs]
  norm_num [ttMom, xtMom, xuMom, uMom]
  try field_simp
  try ring

theorem mEntry_1_4 (a b ap bp : ℝ) :
    mPrimeRow1 4 a b ap bp = some (mpExact 1 4 a b ap bp) := by
  obtain ⟨hs, hq, hp⟩ := sqrt_two_facts
  rw [mPrimeRow1, Option.some_inj]
  simp only [mpExact, bb_succ 0, bb_succ 3]
  generalize Real.sqrt 2 = s at hs hq hp ⊢
  rw [hs]
  norm_num [ttMom, xtMom, xuMom, uMom]
  try field_simp
  try ring

theorem mEntry_1_5 (a b ap bp : ℝ) :
    mPrimeRow1 5 a b ap bp = some (mpExact 1 5 a b ap bp) := by
  obtain ⟨hs, hq, hp⟩ := sqrt_two_facts
  rw [mPrimeRow1, Option.some_inj]
  simp only [mpExact, bb_succ 0, bb_succ 4]
  generalize Real.sqrt 2 = s at hs hq hp ⊢
  rw [hs]
  norm_num [ttMom, xtMom, xuMom, uMom]
  try field_simp
  try ring

theorem mEntry_1_6 (a b ap bp : ℝ) :
    mPrimeRow1 6 a b ap bp = some (mpExact 1 6 a b ap bp) := by
  obtain ⟨hs, hq, hp⟩ := sqrt_two_facts
  rw [mPrimeRow1, Option.some_inj]
  simp only [mpExact, bb_succ 0, bb_succ 5]
  generalize Real.sqrt 2 = s at hs hq hp ⊢
  rw [hs]
  norm_num [ttMom, xtMom, xuMom, uMom]
  try field_simp
  try ring

theorem mEntry_1_7 (a b ap bp : ℝ) :
    mPrimeRow1 7 a b ap bp = some (mpExact 1 7 a b ap bp) := by
  obtain ⟨hs, hq, hp⟩ := sqrt_two_facts
  rw [mPrimeRow1, Option.some_inj]
  simp only [mpExact, bb_succ 0, bb_succ 6]
  generalize Real.sqrt 2 = s at hs hq hp ⊢
  rw [hs]
  norm_num [ttMom, xtMom, xuMom, uMom]
  try field_simp
  try ring

theorem mEntry_1_8 (a b ap bp : ℝ) :
    mPrimeRow1 8 a b ap bp = some (mpExact 1 8 a b ap bp) := by
  obtain ⟨hs, hq, hp⟩ := sqrt_two_facts
  rw [mPrimeRow1, Option.some_inj]
  simp only [mpExact, bb_succ 0, bb_succ 7]
  generalize Real.sqrt 2 = s at hs hq hp ⊢
  rw [hs]
  norm_num [ttMom, xtMom, xuMom, uMom]
  try field_simp
  try ring

theorem mEntry_1_9 (a b ap bp : ℝ) :
    mPrimeRow1 9 a b ap bp = some (mpExact 1 9 a b ap bp) := by
  obtain ⟨hs, hq, hp⟩ := sqrt_two_facts
  rw [mPrimeRow1, Option.some_inj]
  simp only [mpExact, bb_succ 0, bb_succ 8]
  generalize Real.sqrt 2 = s at hs hq hp ⊢
  rw [hs]
  norm_num [ttMom, xtMom, xuMom, uMom]
  try field_simp
  try ring

theorem mEntry_1_10 (a b ap bp : ℝ) :
    mPrimeRow1 10 a b ap bp = some (mpExact 1 10 a b ap bp) := by
  obtain ⟨hs, hq, hp⟩ := sqrt_two_facts
  rw [mPrimeRow1, Option.some_inj]
  simp only [mpExact, bb_succ 0, bb_succ 9]
  generalize Real.sqrt 2 = s at hs hq hp ⊢
  rw [hs]
  norm_num [ttMom, xtMom, xuMom, uMom]
  try field_simp
  try ring

theorem mEntry_2_0 (a b ap bp : ℝ) :
    mPrimeRow2 0 a b ap bp = some (mpExact 2 0 a b ap bp) := by
  obtain ⟨hs, hq, hp⟩ := sqrt_two_facts
  rw [mPrimeRow2, Option.some_inj]
  simp only [mpExact, bb_succ 1, bb_zero]
  generalize Real.sqrt 2 = s at hs hq hp ⊢
  norm_num [ttMom, xtMom, xuMom, uMom]
  try field_simp
  try ring

theorem mEntry_2_1 (a b ap bp : ℝ) :
    mPrimeRow2 1 a b ap bp = some (mpExact 2 1 a b ap bp) := by
  obtain ⟨hs, hq, hp⟩ := sqrt_two_facts
  rw [mPrimeRow2, Option.some_inj]
  simp only [mpExact, bb_succ 1, bb_succ 0]
  generalize Real.sqrt 2 = s at hs hq hp ⊢
  rw [hs]
  norm_num [ttMom, xtMom, xuMom, uMom]
  try field_simp
  try ring

theorem mEntry_2_2 (a b ap bp : ℝ) :
    mPrimeRow2 2 a b ap bp = some (mpExact 2 2 a b ap bp) := by
  obtain ⟨hs, hq, hp⟩ := sqrt_two_facts
  rw [mPrimeRow2, Option.some_inj]
  simp only [mpExact, bb_succ 1]
  generalize Real.sqrt 2 = s at hs hq hp ⊢
  rw [hs]
  norm_num [ttMom, xtMom, xuMom, uMom]
  try field_simp
  try ring

theorem mEntry_2_3 (a b ap bp : ℝ) :
    mPrimeRow2 3 a b ap bp = some (mpExact 2 3 a b ap bp) := by
  obtain ⟨hs, hq, hp⟩ := sqrt_two_facts
  rw [mPrimeRow2, Option.some_inj]
  simp only [mpExact, bb_succ 1, bb_succ 2]
  generalize Real.sqrt 2 = s at hs hq hp ⊢
  rw [hs]
  norm_num [ttMom, xtMom, xuMom, uMom]
  try field_simp
  try ring

theorem mEntry_2_4 (a b ap bp : ℝ) :
    mPrimeRow2 4 a b ap bp = some (mpExact 2 4 a b ap bp) := by
  obtain ⟨hs, hq, hp⟩ := sqrt_two_facts
  rw [mPrimeRow2, Option.some_inj]
  simp only [mpExact, bb_succ 1, bb_succ 3]
  generalize Real.sqrt 2 = s at hs hq hp ⊢
  rw [hs]
  norm_num [ttMom, xtMom, xuMom, uMom]
  try field_simp
  try ring

theorem mEntry_2_5 (a b ap bp : ℝ) :
    mPrimeRow2 5 a b ap bp = some (mpExact 2 5 a b ap bp) := by
  obtain ⟨hs, hq, hp⟩ := sqrt_two_facts
  rw [mPrimeRow2, Option.some_inj]
  simp only [mpExact, bb_succ 1, bb_succ 4]
  generalize Real.sqrt 2 = s at hs hq hp ⊢
  rw [hs]
  norm_num [ttMom, xtMom, xuMom, uMom]
  try field_simp
  try ring

theorem mEntry_2_6 (a b ap bp : ℝ) :
    mPrimeRow2 6 a b ap bp = some (mpExact 2 6 a b ap bp) := by
  obtain ⟨hs, hq, hp⟩ := sqrt_two_facts
  rw [mPrimeRow2, Option.some_inj]
  simp only [mpExact, bb_succ 1, bb_succ 5]
  generalize Real.sqrt 2 = s at hs hq hp ⊢
  rw [hs]
  norm_num [ttMom, xtMom, xuMom, uMom]
  try field_simp
  try ring

theorem mEntry_2_7 (a b ap bp : ℝ) :
    mPrimeRow2 7 a b ap bp = some (mpExact 2 7 a b ap bp) := by
  obtain ⟨hs, hq, hp⟩ := sqrt_two_facts
  rw [mPrimeRow2, Option.some_inj]
  simp only [mpExact, bb_succ 1, bb_succ 6]
  generalize Real.sqrt 2 = s at hs hq hp ⊢
  rw [hs]
  norm_num [ttMom, xtMom, xuMom, uMom]
  try field_simp
  try ring

theorem mEntry_2_8 (a b ap bp : ℝ) :
    mPrimeRow2 8 a b ap bp = some (mpExact 2 8 a b ap bp) := by
  obtain ⟨hs, hq, hp⟩ := sqrt_two_facts
  rw [mPrimeRow2, Option.some_inj]
  simp only [mpExact, bb_succ 1, bb_succ 7]
  generalize Real.sqrt 2 = s at hs hq hp ⊢
  rw [hs]
  norm_num [ttMom, xtMom, xuMom, uMom]
  try field_simp
  try ring

theorem mEntry_2_9 (a b ap bp : ℝ) :
    mPrimeRow2 9 a b ap bp = some (mpExact 2 9 a b ap bp) := by
  obtain ⟨hs, hq, hp⟩ := sqrt_two_facts
  rw [mPrimeRow2, Option.some_inj]
  simp only [mpExact, bb_succ 1, bb_succ 8]
  generalize Real.sqrt 2 = s at hs hq hp ⊢
  rw [hs]
  norm_num [ttMom, xtMom, xuMom, uMom]
  try field_simp
  try ring

theorem mEntry_2_10 (a b ap bp : ℝ) :
    mPrimeRow2 10 a b ap bp = some (mpExact 2 10 a b ap bp) := by
  obtain ⟨hs, hq, hp⟩ := sqrt_two_facts
  rw [mPrimeRow2, Option.some_inj]
  simp only [mpExact, bb_succ 1, bb_succ 9]
  generalize Real.sqrt 2 = s at hs hq hp ⊢
  rw [hs]
  norm_num [ttMom, xtMom, xuMom, uMom]
  try field_simp
  try ring

theorem mEntry_3_0 (a b ap bp : ℝ) :
    mPrimeRow3 0 a b ap bp = some (mpExact 3 0 a b ap bp) := by
  obtain ⟨hs, hq, hp⟩ := sqrt_two_facts
  rw [mPrimeRow3, Option.some_inj]
  simp only [mpExact, bb_succ 2, bb_zero]
  generalize Real.sqrt 2 = s at hs hq hp ⊢
  norm_num [ttMom, xtMom, xuMom, uMom]
  try field_simp
  try ring

theorem mEntry_3_1 (a b ap bp : ℝ) :
    mPrimeRow3 1 a b ap bp = some (mpExact 3 1 a b ap bp) := by
  obtain ⟨hs, hq, hp⟩ := sqrt_two_facts
  rw [mPrimeRow3, Option.some_inj]
  simp only [mpExact, bb_succ 2, bb_succ 0]
  generalize Real.sqrt 2 = s at hs hq hp ⊢
  rw [hs]
  norm_num [ttMom, xtMom, xuMom, uMom]
  try field_simp
  try ring

theorem mEntry_3_2 (a b ap bp : ℝ) :
    mPrimeRow3 2 a b ap bp = some (mpExact 3 2 a b ap bp) := by
  obtain ⟨hs, hq, hp⟩ := sqrt_two_facts
  rw [mPrimeRow3, Option.some_inj]
  simp only [mpExact, bb_succ 2, bb_succ 1]
  generalize Real.sqrt 2 = s at hs hq hp ⊢
  rw [hs]
  norm_num [ttMom, xtMom, xuMom, uMom]
  try field_simp
  try ring

theorem mEntry_3_3 (a b ap bp : ℝ) :
    mPrimeRow3 3 a b ap bp = some (mpExact 3 3 a b ap bp) := by
  obtain ⟨hs, hq, hp⟩ := sqrt_two_facts
  rw [mPrimeRow3, Option.some_inj]
  simp only [mpExact, bb_succ 2]
  generalize Real.sqrt 2 = s at hs hq hp ⊢
  rw [hs]
  norm_num [ttMom, xtMom, xuMom, uMom]
  try field_simp
  try ring

theorem mEntry_3_4 (a b ap bp : ℝ) :
    mPrimeRow3 4 a b ap bp = some (mpExact 3 4 a b ap bp) := by
  obtain ⟨hs, hq, hp⟩ := sqrt_two_facts
  rw [mPrimeRow3, Option.some_inj]
  simp only [mpExact, bb_succ 2, bb_succ 3]
  generalize Real.sqrt 2 = s at hs hq hp ⊢
  rw [hs]
  norm_num [ttMom, xtMom, xuMom, uMom]
  try field_simp
  try ring

theorem mEntry_3_5 (a b ap bp : ℝ) :
    mPrimeRow3 5 a b ap bp = some (mpExact 3 5 a b ap bp) := by
  obtain ⟨hs, hq, hp⟩ := sqrt_two_facts
  rw [mPrimeRow3, Option.some_inj]
  simp only [mpExact, bb_succ 2, bb_succ 4]
  generalize Real.sqrt 2 = s at hs hq hp ⊢
  rw [hs]
  norm_num [ttMom, xtMom, xuMom, uMom]
  try field_simp
  try ring

theorem mEntry_3_6 (a b ap bp : ℝ) :
    mPrimeRow3 6 a b ap bp = some (mpExact 3 6 a b ap bp) := by
  obtain ⟨hs, hq, hp⟩ := sqrt_two_facts
  rw [mPrimeRow3, Option.some_inj]
  simp only [mpExact, bb_succ 2, bb_succ 5]
  generalize Real.sqrt 2 = s at hs hq hp ⊢
  rw [hs]
  norm_num [ttMom, xtMom, xuMom, uMom]
  try field_simp
  try ring

theorem mEntry_3_7 (a b ap bp : ℝ) :
    mPrimeRow3 7 a b ap bp = some (mpExact 3 7 a b ap bp) := by
  obtain ⟨hs, hq, hp⟩ := sqrt_two_facts
  rw [mPrimeRow3, Option.some_inj]
  simp only [mpExact, bb_succ 2, bb_succ 6]
  generalize Real.sqrt 2 = s at hs hq hp ⊢
  rw [hs]
  norm_num [ttMom, xtMom, xuMom, uMom]
  try field_simp
  try ring

theorem mEntry_3_8 (a b ap bp : ℝ) :
    mPrimeRow3 8 a b ap bp = some (mpExact 3 8 a b ap bp) := by
  obtain ⟨hs, hq, hp⟩ := sqrt_two_facts
  rw [mPrimeRow3, Option.some_inj]
  simp only [mpExact, bb_succ 2, bb_succ 7]
  generalize Real.sqrt 2 = s at hs hq hp ⊢
  rw [hs]
  norm_num [ttMom, xtMom, xuMom, uMom]
  try field_simp
  try ring

theorem mEntry_3_9 (a b ap bp : ℝ) :
    mPrimeRow3 9 a b ap bp = some (mpExact 3 9 a b ap bp) := by
  obtain ⟨hs, hq, hp⟩ := sqrt_two_facts
  rw [mPrimeRow3, Option.some_inj]
  simp only [mpExact, bb_succ 2, bb_succ 8]
  generalize Real.sqrt 2 = s at hs hq hp ⊢
  rw [hs]
  norm_num [ttMom, xtMom, xuMom, uMom]
  try field_simp
  try ring

theorem mEntry_3_10 (a b ap bp : ℝ) :
    mPrimeRow3 10 a b ap bp = some (mpExact 3 10 a b ap bp) := by
  obtain ⟨hs, hq, hp⟩ := sqrt_two_facts
  rw [mPrimeRow3, Option.some_inj]
  simp only [mpExact, bb_succ 2, bb_succ 9]
  generalize Real.sqrt 2 = s at hs hq hp ⊢
  rw [hs]
  norm_num [ttMom, xtMom, xuMom, uMom]
  try field_simp
  try ring

theorem mEntry_4_0 (a b ap bp : ℝ) :
    mPrimeRow4 0 a b ap bp = some (mpExact 4 0 a b ap bp) := by
  obtain ⟨hs, hq, hp⟩ := sqrt_two_facts
  rw [mPrimeRow4, Option.some_inj]
  simp only [mpExact, bb_succ 3, bb_zero]
  generalize Real.sqrt 2 = s at hs hq hp ⊢
  norm_num [ttMom, xtMom, xuMom, uMom]
  try field_simp
  try ring

theorem mEntry_4_1 (a b ap bp : ℝ) :
    mPrimeRow4 1 a b ap bp = some (mpExact 4 1 a b ap bp) := by
  obtain ⟨hs, hq, hp⟩ := sqrt_two_facts
  rw [mPrimeRow4, Option.some_inj]
  simp only [mpExact, bb_succ 3, bb_succ 0]
  generalize Real.sqrt 2 = s at hs hq hp ⊢
  rw [hs]
  norm_num [ttMom, xtMom, xuMom, uMom]
  try field_simp
  try ring

theorem mEntry_4_2 (a b ap bp : ℝ) :
    mPrimeRow4 2 a b ap bp = some (mpExact 4 2 a b ap bp) := by
  obtain ⟨hs, hq, hp⟩ := sqrt_two_facts
  rw [mPrimeRow4, Option.some_inj]
  simp only [mpExact, bb_succ 3, bb_succ 1]
  generalize Real.sqrt 2 = s at hs hq hp ⊢
  rw [hs]
  norm_num [ttMom, xtMom, xuMom, uMom]
  try field_simp
  try ring

theorem mEntry_4_3 (a b ap bp : ℝ) :
    mPrimeRow4 3 a b ap bp = some (mpExact 4 3 a b ap bp) := by
  obtain ⟨hs, hq, hp⟩ := sqrt_two_facts
  rw [mPrimeRow4, Option.some_inj]
  simp only [mpExact, bb_succ 3, bb_succ 2]
  generalize Real.sqrt 2 = s at hs hq hp ⊢
  rw [hs]
  norm_num [ttMom, xtMom, xuMom, uMom]
  try field_simp
  try ring

theorem mEntry_4_4 (a b ap bp : ℝ) :
    mPrimeRow4 4 a b ap bp = some (mpExact 4 4 a b ap bp) := by
  obtain ⟨hs, hq, hp⟩ := sqrt_two_facts
  rw [mPrimeRow4, Option.some_inj]
  simp only [mpExact, bb_succ 3]
  generalize Real.sqrt 2 = s at hs hq hp ⊢
  rw [hs]
  norm_num [ttMom, xtMom, xuMom, uMom]
  try field_simp
  try ring

theorem mEntry_4_5 (a b ap bp : ℝ) :
    mPrimeRow4 5 a b ap bp = some (mpExact 4 5 a b ap bp) := by
  obtain ⟨hs, hq, hp⟩ := sqrt_two_facts
  rw [mPrimeRow4, Option.some_inj]
  simp only [mpExact, bb_succ 3, bb_succ 4]
  generalize Real.sqrt 2 = s at hs hq hp ⊢
  rw [hs]
  norm_num [ttMom, xtMom, xuMom, uMom]
  try field_simp
  try ring

theorem mEntry_4_6 (a b ap bp : ℝ) :
    mPrimeRow4 6 a b ap bp = some (mpExact 4 6 a b ap bp) := by
  obtain ⟨hs, hq, hp⟩ := sqrt_two_facts
  rw [mPrimeRow4, Option.some_inj]
  simp only [mpExact, bb_succ 3, bb_succ 5]
  generalize Real.sqrt 2 = s at hs hq hp ⊢
  rw [hs]
  norm_num [ttMom, xtMom, xuMom, uMom]
  try field_simp
  try ring

theorem mEntry_4_7 (a b ap bp : ℝ) :
    mPrimeRow4 7 a b ap bp = some (mpExact 4 7 a b ap bp) := by
  obtain ⟨hs, hq, hp⟩ := sqrt_two_facts
  rw [mPrimeRow4, Option.some_inj]
  simp only [mpExact, bb_succ 3, bb_succ 6]
  generalize Real.sqrt 2 = s at hs hq hp ⊢
  rw [hs]
  norm_num [ttMom, xtMom, xuMom, uMom]
  try field_simp
  try ring

theorem mEntry_4_8 (a b ap bp : ℝ) :
    mPrimeRow4 8 a b ap bp = some (mpExact 4 8 a b ap bp) := by
  obtain ⟨hs, hq, hp⟩ := sqrt_two_facts
  rw [mPrimeRow4, Option.some_inj]
  simp only [mpExact, bb_succ 3, bb_succ 7]
  generalize Real.sqrt 2 = s at hs hq hp ⊢
  rw [hs]
  norm_num [ttMom, xtMom, xuMom, uMom]
  try field_simp
  try ring

theorem mEntry_4_9 (a b ap bp : ℝ) :
    mPrimeRow4 9 a b ap bp = some (mpExact 4 9 a b ap bp) := by
  obtain ⟨hs, hq, hp⟩ := sqrt_two_facts
  rw [mPrimeRow4, Option.some_inj]
  simp only [mpExact, bb_succ 3, bb_succ 8]
  generalize Real.sqrt 2 = s at hs hq hp ⊢
  rw [hs]
  norm_num [ttMom, xtMom, xuMom, uMom]
  try field_simp
  try ring

theorem mEntry_4_10 (a b ap bp : ℝ) :
    mPrimeRow4 10 a b ap bp = some (mpExact 4 10 a b ap bp) := by
  obtain ⟨hs, hq, hp⟩ := sqrt_two_facts
  rw [mPrimeRow4, Option.some_inj]
  simp only [mpExact, bb_succ 3, bb_succ 9]
  generalize Real.sqrt 2 = s at hs hq hp ⊢
  rw [hs]
  norm_num [ttMom, xtMom, xuMom, uMom]
  try field_simp
  try ring

theorem mEntry_5_0 (a b ap bp : ℝ) :
    mPrimeRow5 0 a b ap bp = some (mpExact 5 0 a b ap bp) := by
  obtain ⟨hs, hq, hp⟩ := sqrt_two_facts
  rw [mPrimeRow5, Option.some_inj]
  simp only [mpExact, bb_succ 4, bb_zero]
  generalize Real.sqrt 2 = s at hs hq hp ⊢
  norm_num [ttMom, xtMom, xuMom, uMom]
  try field_simp
  try ring

theorem mEntry_5_1 (a b ap bp : ℝ) :
    mPrimeRow5 1 a b ap bp = some (mpExact 5 1 a b ap bp) := by
  obtain ⟨hs, hq, hp⟩ := sqrt_two_facts
  rw [mPrimeRow5, Option.some_inj]
  simp only [mpExact, bb_succ 4, bb_succ 0]
  generalize Real.sqrt 2 = s at hs hq hp ⊢
  rw [hs]
  norm_num [ttMom, xtMom, xuMom, uMom]
  try field_simp
  try ring

theorem mEntry_5_2 (a b ap bp : ℝ) :
    mPrimeRow5 2 a b ap bp = some (mpExact 5 2 a b ap bp) := by
  obtain ⟨hs, hq, hp⟩ := sqrt_two_facts
  rw [mPrimeRow5, Option.some_inj]
  simp only [mpExact, bb_succ 4, bb_succ 1]
  generalize Real.sqrt 2 = s at hs hq hp ⊢
  rw [hs]
  norm_num [ttMom, xtMom, xuMom, uMom]
  try field_simp
  try ring

theorem mEntry_5_3 (a b ap bp : ℝ) :
    mPrimeRow5 3 a b ap bp = some (mpExact 5 3 a b ap bp) := by
  obtain ⟨hs, hq, hp⟩ := sqrt_two_facts
  rw [mPrimeRow5, Option.some_inj]
  simp only [mpExact, bb_succ 4, bb_succ 2]
  generalize Real.sqrt 2 = s at hs hq hp ⊢
  rw [hs]
  norm_num [ttMom, xtMom, xuMom, uMom]
  try field_simp
  try ring

theorem mEntry_5_4 (a b ap bp : ℝ) :
    mPrimeRow5 4 a b ap bp = some (mpExact 5 4 a b ap bp) := by
  obtain ⟨hs, hq, hp⟩ := sqrt_two_facts
  rw [mPrimeRow5, Option.some_inj]
  simp only [mpExact, bb_succ 4, bb_succ 3]
  generalize Real.sqrt 2 = s at hs hq hp ⊢
  rw [hs]
  norm_num [ttMom, xtMom, xuMom, uMom]
  try field_simp
  try ring

theorem mEntry_5_5 (a b ap bp : ℝ) :
    mPrimeRow5 5 a b ap bp = some (mpExact 5 5 a b ap bp) := by
  obtain ⟨hs, hq, hp⟩ := sqrt_two_facts
  rw [mPrimeRow5, Option.some_inj]
  simp only [mpExact, bb_succ 4]
  generalize Real.sqrt 2 = s at hs hq hp ⊢
  rw [hs]
  norm_num [ttMom, xtMom, xuMom, uMom]
  try field_simp
  try ring

theorem mEntry_5_6 (a b ap bp : ℝ) :
    mPrimeRow5 6 a b ap bp = some (mpExact 5 6 a b ap bp) := by
  obtain ⟨hs, hq, hp⟩ := sqrt_two_facts
  rw [mPrimeRow5, Option.some_inj]
  simp only [mpExact, bb_succ 4, bb_succ 5]
  generalize Real.sqrt 2 = s at hs hq hp ⊢
  rw [hs]
  norm_num [ttMom, xtMom, xuMom, uMom]
  try field_simp
  try ring

theorem mEntry_5_7 (a b ap bp : ℝ) :
    mPrimeRow5 7 a b ap bp = some (mpExact 5 7 a b ap bp) := by
  obtain ⟨hs, hq, hp⟩ := sqrt_two_facts
  rw [mPrimeRow5, Option.some_inj]
  simp only [mpExact, bb_succ 4, bb_succ 6]
  generalize Real.sqrt 2 = s at hs hq hp ⊢
  rw [hs]
  norm_num [ttMom, xtMom, xuMom, uMom]
  try field_simp
  try ring

theorem mEntry_5_8 (a b ap bp : ℝ) :
    mPrimeRow5 8 a b ap bp = some (mpExact 5 8 a b ap bp) := by
  obtain ⟨hs, hq, hp⟩ := sqrt_two_facts
  rw [mPrimeRow5, Option.some_inj]
  simp only [mpExact, bb_succ 4, bb_succ 7]
  generalize Real.sqrt 2 = s at hs hq hp ⊢
  rw [hs]
  norm_num [ttMom, xtMom, xuMom, uMom]
  try field_simp
  try ring

theorem mEntry_5_9 (a b ap bp : ℝ) :
    mPrimeRow5 9 a b ap bp = some (mpExact 5 9 a b ap bp) := by
  obtain ⟨hs, hq, hp⟩ := sqrt_two_facts
  rw [mPrimeRow5, Option.some_inj]
  simp only [mpExact, bb_succ 4, bb_succ 8]
  generalize Real.sqrt 2 = s at hs hq hp ⊢
  rw [hs]
  norm_num [ttMom, xtMom, xuMom, uMom]
  try field_simp
  try ring

theorem mEntry_5_10 (a b ap bp : ℝ) :
    mPrimeRow5 10 a b ap bp = some (mpExact 5 10 a b ap bp) := by
  obtain ⟨hs, hq, hp⟩ := sqrt_two_facts
  rw [mPrimeRow5, Option.some_inj]
  simp only [mpExact, bb_succ 4, bb_succ 9]
  generalize Real.sqrt 2 = s at hs hq hp ⊢
  rw [hs]
  norm_num [ttMom, xtMom, xuMom, uMom]
  try field_simp
  try ring

theorem mEntry_6_0 (a b ap bp : ℝ) :
    mPrimeRow6 0 a b ap bp = some (mpExact 6 0 a b ap bp) := by
  obtain ⟨hs, hq, hp⟩ := sqrt_two_facts
  rw [mPrimeRow6, Option.some_inj]
  simp only [mpExact, bb_succ 5, bb_zero]
  generalize Real.sqrt 2 = s at hs hq hp ⊢
  norm_num [ttMom, xtMom, xuMom, uMom]
  try field_simp
  try ring

theorem mEntry_6_1 (a b ap bp : ℝ) :
    mPrimeRow6 1 a b ap bp = some (mpExact 6 1 a b ap bp) := by
  obtain ⟨hs, hq, hp⟩ := sqrt_two_facts
  rw [mPrimeRow6, Option.some_inj]
  simp only [mpExact, bb_succ 5, bb_succ 0]
  generalize Real.sqrt 2 = s at hs hq hp ⊢
  rw [hs]
  norm_num [ttMom, xtMom, xuMom, uMom]
  try field_simp
  try ring

theorem mEntry_6_2 (a b ap bp : ℝ) :
    mPrimeRow6 2 a b ap bp = some (mpExact 6 2 a b ap bp) := by
  obtain ⟨hs, hq, hp⟩ := sqrt_two_facts
  rw [mPrimeRow6, Option.some_inj]
  simp only [mpExact, bb_succ 5, bb_succ 1]
  generalize Real.sqrt 2 = s at hs hq hp ⊢
  rw [hs]
  norm_num [ttMom, xtMom, xuMom, uMom]
  try field_simp
  try ring

theorem mEntry_6_3 (a b ap bp : ℝ) :
    mPrimeRow6 3 a b ap bp = some (mpExact 6 3 a b ap bp) := by
  obtain ⟨hs, hq, hp⟩ := sqrt_two_facts
  rw [mPrimeRow6, Option.some_inj]
  simp only [mpExact, bb_succ 5, bb_succ 2]
  generalize Real.sqrt 2 = s at hs hq hp ⊢
  rw [hs]
  norm_num [ttMom, xtMom, xuMom, uMom]
  try field_simp
  try ring

theorem mEntry_6_4 (a b ap bp : ℝ) :
    mPrimeRow6 4 a b ap bp = some (mpExact 6 4 a b ap bp) := by
  obtain ⟨hs, hq, hp⟩ := sqrt_two_facts
  rw [mPrimeRow6, Option.some_inj]
  simp only [mpExact, bb_succ 5, bb_succ 3]
  generalize Real.sqrt 2 = s at hs hq hp ⊢
  rw [hs]
  norm_num [ttMom, xtMom, xuMom, uMom]
  try field_simp
  try ring

theorem mEntry_6_5 (a b ap bp : ℝ) :
    mPrimeRow6 5 a b ap bp = some (mpExact 6 5 a b ap bp) := by
  obtain ⟨hs, hq, hp⟩ := sqrt_two_facts
  rw [mPrimeRow6, Option.some_inj]
  simp only [mpExact, bb_succ 5, bb_succ 4]
  generalize Real.sqrt 2 = s at hs hq hp ⊢
  rw [hs]
  norm_num [ttMom, xtMom, xuMom, uMom]
  try field_simp
  try ring

theorem mEntry_6_6 (a b ap bp : ℝ) :
    mPrimeRow6 6 a b ap bp = some (mpExact 6 6 a b ap bp) := by
  obtain ⟨hs, hq, hp⟩ := sqrt_two_facts
  rw [mPrimeRow6, Option.some_inj]
  simp only [mpExact, bb_succ 5]
  generalize Real.sqrt 2 = s at hs hq hp ⊢
  rw [hs]
  norm_num [ttMom, xtMom, xuMom, uMom]
  try field_simp
  try ring

theorem mEntry_6_7 (a b ap bp : ℝ) :
    mPrimeRow6 7 a b ap bp = some (mpExact 6 7 a b ap bp) := by
  obtain ⟨hs, hq, hp⟩ := sqrt_two_facts
  rw [mPrimeRow6, Option.some_inj]
  simp only [mpExact, bb_succ 5, bb_succ 6]
  generalize Real.sqrt 2 = s at hs hq hp ⊢
  rw [hs]
  norm_num [ttMom, xtMom, xuMom, uMom]
  try field_simp
  try ring

theorem mEntry_6_8 (a b ap bp : ℝ) :
    mPrimeRow6 8 a b ap bp = some (mpExact 6 8 a b ap bp) := by
  obtain ⟨hs, hq, hp⟩ := sqrt_two_facts
  rw [mPrimeRow6, Option.some_inj]
  simp only [mpExact, bb_succ 5, bb_succ 7]
  generalize Real.sqrt 2 = s at hs hq hp ⊢
  rw [hs]
  norm_num [ttMom, xtMom, xuMom, uMom]
  try field_simp
  try ring

theorem mEntry_6_9 (a b ap bp : ℝ) :
    mPrimeRow6 9 a b ap bp = some (mpExact 6 9 a b ap bp) := by
  obtain ⟨hs, hq, hp⟩ := sqrt_two_facts
  rw [mPrimeRow6, Option.some_inj]
  simp only [mpExact, bb_succ 5, bb_succ 8]
  generalize Real.sqrt 2 = s at hs hq hp ⊢
  rw [hs]
  norm_num [ttMom, xtMom, xuMom, uMom]
  try field_simp
  try ring

theorem mEntry_6_10 (a b ap bp : ℝ) :
    mPrimeRow6 10 a b ap bp = some (mpExact 6 10 a b ap bp) := by
  obtain ⟨hs, hq, hp⟩ := sqrt_two_facts
  rw [mPrimeRow6, Option.some_inj]
  simp only [mpExact, bb_succ 5, bb_succ 9]
  generalize Real.sqrt 2 = s at hs hq hp ⊢
  rw [hs]
  norm_num [ttMom, xtMom, xuMom, uMom]
  try field_simp
  try ring

theorem mEntry_7_0 (a b ap bp : ℝ) :
    mPrimeRow7 0 a b ap bp = some (mpExact 7 0 a b ap bp) := by
  obtain ⟨hs, hq, hp⟩ := sqrt_two_facts
  rw [mPrimeRow7, Option.some_inj]
  simp only [mpExact, bb_succ 6, bb_zero]
  generalize Real.sqrt 2 = s at hs hq hp ⊢
  norm_num [ttMom, xtMom, xuMom, uMom]
  try field_simp
  try ring

theorem mEntry_7_1 (a b ap bp : ℝ) :
    mPrimeRow7 1 a b ap bp = some (mpExact 7 1 a b ap bp) := by
  obtain ⟨hs, hq, hp⟩ := sqrt_two_facts
  rw [mPrimeRow7, Option.some_inj]
  simp only [mpExact, bb_succ 6, bb_succ 0]
  generalize Real.sqrt 2 = s at hs hq hp ⊢
  rw [hs]
  norm_num [ttMom, xtMom, xuMom, uMom]
  try field_simp
  try ring

theorem mEntry_7_2 (a b ap bp : ℝ) :
    mPrimeRow7 2 a b ap bp = some (mpExact 7 2 a b ap bp) := by
  obtain ⟨hs, hq, hp⟩ := sqrt_two_facts
  rw [mPrimeRow7, Option.some_inj]
  simp only [mpExact, bb_succ 6, bb_succ 1]
  generalize Real.sqrt 2 = s at hs hq hp ⊢
  rw [hs]
  norm_num [ttMom, xtMom, xuMom, uMom]
  try field_simp
  try ring

theorem mEntry_7_3 (a b ap bp : ℝ) :
    mPrimeRow7 3 a b ap bp = some (mpExact 7 3 a b ap bp) := by
  obtain ⟨hs, hq, hp⟩ := sqrt_two_facts
  rw [mPrimeRow7, Option.some_inj]
  simp only [mpExact, bb_succ 6, bb_succ 2]
  generalize Real.sqrt 2 = s at hs hq hp ⊢
  rw [hs]
  norm_num [ttMom, xtMom, xuMom, uMom]
  try field_simp
  try ring

theorem mEntry_7_4 (a b ap bp : ℝ) :
    mPrimeRow7 4 a b ap bp = some (mpExact 7 4 a b ap bp) := by
  obtain ⟨hs, hq, hp⟩ := sqrt_two_facts
  rw [mPrimeRow7, Option.some_inj]
  simp only [mpExact, bb_succ 6, bb_succ 3]
  generalize Real.sqrt 2 = s at hs hq hp ⊢
  rw [hs]
  norm_num [ttMom, xtMom, xuMom, uMom]
  try field_simp
  try ring

theorem mEntry_7_5 (a b ap bp : ℝ) :
    mPrimeRow7 5 a b ap bp = some (mpExact 7 5 a b ap bp) := by
  obtain ⟨hs, hq, hp⟩ := sqrt_two_facts
  rw [mPrimeRow7, Option.some_inj]
  simp only [mpExact, bb_succ 6, bb_succ 4]
  generalize Real.sqrt 2 = s at hs hq hp ⊢
  rw [hs]
  norm_num [ttMom, xtMom, xuMom, uMom]
  try field_simp
  try ring

theorem mEntry_7_6 (a b ap bp : ℝ) :
    mPrimeRow7 6 a b ap bp = some (mpExact 7 6 a b ap bp) := by
  obtain ⟨hs, hq, hp⟩ := sqrt_two_facts
  rw [mPrimeRow7, Option.some_inj]
  simp only [mpExact, bb_succ 6, bb_succ 5]
  generalize Real.sqrt 2 = s at hs hq hp ⊢
  rw [hs]
  norm_num [ttMom, xtMom, xuMom, uMom]
  try field_simp
  try ring

theorem mEntry_7_7 (a b ap bp : ℝ) :
    mPrimeRow7 7 a b ap bp = some (mpExact 7 7 a b ap bp) := by
  obtain ⟨hs, hq, hp⟩ := sqrt_two_facts
  rw [mPrimeRow7, Option.some_inj]
  simp only [mpExact, bb_succ 6]
  generalize Real.sqrt 2 = s at hs hq hp ⊢
  rw [hs]
  norm_num [ttMom, xtMom, xuMom, uMom]
  try field_simp
  try ring

theorem mEntry_7_8 (a b ap bp : ℝ) :
    mPrimeRow7 8 a b ap bp = some (mpExact 7 8 a b ap bp) := by
  obtain ⟨hs, hq, hp⟩ := sqrt_two_facts
  rw [mPrimeRow7, Option.some_inj]
  simp only [mpExact, bb_succ 6, bb_succ 7]
  generalize Real.sqrt 2 = s at hs hq hp ⊢
  rw [hs]
  norm_num [ttMom, xtMom, xuMom, uMom]
  try field_simp
  try ring

theorem mEntry_7_9 (a b ap bp : ℝ) :
    mPrimeRow7 9 a b ap bp = some (mpExact 7 9 a b ap bp) := by
  obtain ⟨hs, hq, hp⟩ := sqrt_two_facts
  rw [mPrimeRow7, Option.some_inj]
  simp only [mpExact, bb_succ 6, bb_succ 8]
  generalize Real.sqrt 2 = s at hs hq hp ⊢
  rw [hs]
  norm_num [ttMom, xtMom, xuMom, uMom]
  try field_simp
  try ring

theorem mEntry_7_10 (a b ap bp : ℝ) :
    mPrimeRow7 10 a b ap bp = some (mpExact 7 10 a b ap bp) := by
  obtain ⟨hs, hq, hp⟩ := sqrt_two_facts
  rw [mPrimeRow7, Option.some_inj]
  simp only [mpExact, bb_succ 6, bb_succ 9]
  generalize Real.sqrt 2 = s at hs hq hp ⊢
  rw [hs]
  norm_num [ttMom, xtMom, xuMom, uMom]
  try field_simp
  try ring

theorem mEntry_8_0 (a b ap bp : ℝ) :
    mPrimeRow8 0 a b ap bp = some (mpExact 8 0 a b ap bp) := by
  obtain ⟨hs, hq, hp⟩ := sqrt_two_facts
  rw [mPrimeRow8, Option.some_inj]
  simp only [mpExact, bb_succ 7, bb_zero]
  generalize Real.sqrt 2 = s at hs hq hp ⊢
  norm_num [ttMom, xtMom, xuMom, uMom]
  try field_simp
  try ring

theorem mEntry_8_1 (a b ap bp : ℝ) :
    mPrimeRow8 1 a b ap bp = some (mpExact 8 1 a b ap bp) := by
  obtain ⟨hs, hq, hp⟩ := sqrt_two_facts
  rw [mPrimeRow8, Option.some_inj]
  simp only [mpExact, bb_succ 7, bb_succ 0]
  generalize Real.sqrt 2 = s at hs hq hp ⊢
  rw [hs]
  norm_num [ttMom, xtMom, xuMom, uMom]
  try field_simp
  try ring

theorem mEntry_8_2 (a b ap bp : ℝ) :
    mPrimeRow8 2 a b ap bp = some (mpExact 8 2 a b ap bp) := by
  obtain ⟨hs, hq, hp⟩ := sqrt_two_facts
  rw [mPrimeRow8, Option.some_inj]
  simp only [mpExact, bb_succ 7, bb_succ 1]
  generalize Real.sqrt 2 = s at hs hq hp ⊢
  rw [hs]
  norm_num [ttMom, xtMom, xuMom, uMom]
  try field_simp
  try ring

theorem mEntry_8_3 (a b ap bp : ℝ) :
    mPrimeRow8 3 a b ap bp = some (mpExact 8 3 a b ap bp) := by
  obtain ⟨hs, hq, hp⟩ := sqrt_two_facts
  rw [mPrimeRow8, Option.some_inj]
  simp only [mpExact, bb_succ 7, bb_succ 2]
  generalize Real.sqrt 2 = s at hs hq hp ⊢
  rw [hs]
  norm_num [ttMom, xtMom, xuMom, uMom]
  try field_simp
  try ring

theorem mEntry_8_4 (a b ap bp : ℝ) :
    mPrimeRow8 4 a b ap bp = some (mpExact 8 4 a b ap bp) := by
  obtain ⟨hs, hq, hp⟩ := sqrt_two_facts
  rw [mPrimeRow8, Option.some_inj]
  simp only [mpExact, bb_succ 7, bb_succ 3]
  generalize Real.sqrt 2 = s at hs hq hp ⊢
  rw [hs]
  norm_num [ttMom, xtMom, xuMom, uMom]
  try field_simp
  try ring

theorem mEntry_8_5 (a b ap bp : ℝ) :
    mPrimeRow8 5 a b ap bp = some (mpExact 8 5 a b ap bp) := by
  obtain ⟨hs, hq, hp⟩ := sqrt_two_facts
  rw [mPrimeRow8, Option.some_inj]
  simp only [mpExact, bb_succ 7, bb_succ 4]
  generalize Real.sqrt 2 = s at hs hq hp ⊢
  rw [hs]
  norm_num [ttMom, xtMom, xuMom, uMom]
  try field_simp
  try ring

theorem mEntry_8_6 (a b ap bp : ℝ) :
    mPrimeRow8 6 a b ap bp = some (mpExact 8 6 a b ap bp) := by
  obtain ⟨hs, hq, hp⟩ := sqrt_two_facts
  rw [mPrimeRow8, Option.some_inj]
  simp only [mpExact, bb_succ 7, bb_succ 5]
  generalize Real.sqrt 2 = s at hs hq hp ⊢
  rw [hs]
  norm_num [ttMom, xtMom, xuMom, uMom]
  try field_simp
  try ring

theorem mEntry_8_7 (a b ap bp : ℝ) :
    mPrimeRow8 7 a b ap bp = some (mpExact 8 7 a b ap bp) := by
  obtain ⟨hs, hq, hp⟩ := sqrt_two_facts
  rw [mPrimeRow8, Option.some_inj]
  simp only [mpExact, bb_succ 7, bb_succ 6]
  generalize Real.sqrt 2 = s at hs hq hp ⊢
  rw [hs]
  norm_num [ttMom, xtMom, xuMom, uMom]
  try field_simp
  try ring

theorem mEntry_8_8 (a b ap bp : ℝ) :
    mPrimeRow8 8 a b ap bp = some (mpExact 8 8 a b ap bp) := by
  obtain ⟨hs, hq, hp⟩ := sqrt_two_facts
  rw [mPrimeRow8, Option.some_inj]
  simp only [mpExact, bb_succ 7]
  generalize Real.sqrt 2 = s at hs hq hp ⊢
  rw [hs]
  norm_num [ttMom, xtMom, xuMom, uMom]
  try field_simp
  try ring

theorem mEntry_8_9 (a b ap bp : ℝ) :
    mPrimeRow8 9 a b ap bp = some (mpExact 8 9 a b ap bp) := by
  obtain ⟨hs, hq, hp⟩ := sqrt_two_facts
  rw [mPrimeRow8, Option.some_inj]
  simp only [mpExact, bb_succ 7, bb_succ 8]
  generalize Real.sqrt 2 = s at hs hq hp ⊢
  rw [hs]
  norm_num [ttMom, xtMom, xuMom, uMom]
  try field_simp
  try ring

theorem mEntry_8_10 (a b ap bp : ℝ) :
    mPrimeRow8 10 a b ap bp = some (mpExact 8 10 a b ap bp) := by
  obtain ⟨hs, hq, hp⟩ := sqrt_two_facts
  rw [mPrimeRow8, Option.some_inj]
  simp only [mpExact, bb_succ 7, bb_succ 9]
  generalize Real.sqrt 2 = s at hs hq hp ⊢
  rw [hs]
  norm_num [ttMom, xtMom, xuMom, uMom]
  try field_simp
  try ring

theorem mEntry_9_0 (a b ap bp : ℝ) :
    mPrimeRow9 0 a b ap bp = some (mpExact 9 0 a b ap bp) := by
  obtain ⟨hs, hq, hp⟩ := sqrt_two_facts
  rw [mPrimeRow9, Option.some_inj]
  simp only [mpExact, bb_succ 8, bb_zero]
  generalize Real.sqrt 2 = s at hs hq hp ⊢
  norm_num [ttMom, xtMom, xuMom, uMom]
  try field_simp
  try ring

theorem mEntry_9_1 (a b ap bp : ℝ) :
    mPrimeRow9 1 a b ap bp = some (mpExact 9 1 a b ap bp) := by
  obtain ⟨hs, hq, hp⟩ := sqrt_two_facts
  rw [mPrimeRow9, Option.some_inj]
  simp only [mpExact, bb_succ 8, bb_succ 0]
  generalize Real.sqrt 2 = s at hs hq hp ⊢
  rw [hs]
  norm_num [ttMom, xtMom, xuMom, uMom]
  try field_simp
  try ring

theorem mEntry_9_2 (a b ap bp : ℝ) :
    mPrimeRow9 2 a b ap bp = some (mpExact 9 2 a b ap bp) := by
  obtain ⟨hs, hq, hp⟩ := sqrt_two_facts
  rw [mPrimeRow9, Option.some_inj]
  simp only [mpExact, bb_succ 8, bb_succ 1]
  generalize Real.sqrt 2 = s at hs hq hp ⊢
  rw [hs]
  norm_num [ttMom, xtMom, xuMom, uMom]
  try field_simp
  try ring

theorem mEntry_9_3 (a b ap bp : ℝ) :
    mPrimeRow9 3 a b ap bp = some (mpExact 9 3 a b ap bp) := by
  obtain ⟨hs, hq, hp⟩ := sqrt_two_facts
  rw [mPrimeRow9, Option.some_inj]
  simp only [mpExact, bb_succ 8, bb_succ 2]
  generalize Real.sqrt 2 = s at hs hq hp ⊢
  rw [hs]
  norm_num [ttMom, xtMom, xuMom, uMom]
  try field_simp
  try ring

theorem mEntry_9_4 (a b ap bp : ℝ) :
    mPrimeRow9 4 a b ap bp = some (mpExact 9 4 a b ap bp) := by
  obtain ⟨hs, hq, hp⟩ := sqrt_two_facts
  rw [mPrimeRow9, Option.some_inj]
  simp only [mpExact, bb_succ 8, bb_succ 3]
  generalize Real.sqrt 2 = s at hs hq hp ⊢
  rw [hs]
  norm_num [ttMom, xtMom, xuMom, uMom]
  try field_simp
  try ring

theorem mEntry_9_5 (a b ap bp : ℝ) :
    mPrimeRow9 5 a b ap bp = some (mpExact 9 5 a b ap bp) := by
  obtain ⟨hs, hq, hp⟩ := sqrt_two_facts
  rw [mPrimeRow9, Option.some_inj]
  simp only [mpExact, bb_succ 8, bb_succ 4]
  generalize Real.sqrt 2 = s at hs hq hp ⊢
  rw [hs]
  norm_num [ttMom, xtMom, xuMom, uMom]
  try field_simp
  try ring

theorem mEntry_9_6 (a b ap bp : ℝ) :
    mPrimeRow9 6 a b ap bp = some (mpExact 9 6 a b ap bp) := by
  obtain ⟨hs, hq, hp⟩ := sqrt_two_facts
  rw [mPrimeRow9, Option.some_inj]
  simp only [mpExact, bb_succ 8, bb_succ 5]
  generalize Real.sqrt 2 = s at hs hq hp ⊢
  rw [hs]
  norm_num [ttMom, xtMom, xuMom, uMom]
  try field_simp
  try ring

theorem mEntry_9_7 (a b ap bp : ℝ) :
    mPrimeRow9 7 a b ap bp = some (mpExact 9 7 a b ap bp) := by
  obtain ⟨hs, hq, hp⟩ := sqrt_two_facts
  rw [mPrimeRow9, Option.some_inj]
  simp only [mpExact, bb_succ 8, bb_succ 6]
  generalize Real.sqrt 2 = s at hs hq hp ⊢
  rw [hs]
  norm_num [ttMom, xtMom, xuMom, uMom]
  try field_simp
  try ring

theorem mEntry_9_8 (a b ap bp : ℝ) :
    mPrimeRow9 8 a b ap bp = some (mpExact 9 8 a b ap bp) := by
  obtain ⟨hs, hq, hp⟩ := sqrt_two_facts
  rw [mPrimeRow9, Option.some_inj]
  simp only [mpExact, bb_succ 8, bb_succ 7]
  generalize Real.sqrt 2 = s at hs hq hp ⊢
  rw [hs]
  norm_num [ttMom, xtMom, xuMom, uMom]
  try field_simp
  try ring

theorem mEntry_9_9 (a b ap bp : ℝ) :
    mPrimeRow9 9 a b ap bp = some (mpExact 9 9 a b ap bp) := by
  obtain ⟨hs, hq, hp⟩ := sqrt_two_facts
  rw [mPrimeRow9, Option.some_inj]
  simp only [mpExact, bb_succ 8]
  generalize Real.sqrt 2 = s at hs hq hp ⊢
  rw [hs]
  norm_num [ttMom, xtMom, xuMom, uMom]
  try field_simp
  try ring

theorem mEntry_9_10 (a b ap bp : ℝ) :
    mPrimeRow9 10 a b ap bp = some (mpExact 9 10 a b ap bp) := by
  obtain ⟨hs, hq, hp⟩ := sqrt_two_facts
  rw [mPrimeRow9, Option.some_inj]
  simp only [mpExact, bb_succ 8, bb_succ 9]
  generalize Real.sqrt 2 = s at hs hq hp ⊢
  rw [hs]
  norm_num [ttMom, xtMom, xuMom, uMom]
  try field_simp
  try ring

theorem mEntry_10_0 (a b ap bp : ℝ) :
    mPrimeRow10 0 a b ap bp = some (mpExact 10 0 a b ap bp) := by
  obtain ⟨hs, hq, hp⟩ := sqrt_two_facts
  rw [mPrimeRow10, Option.some_inj]
  simp only [mpExact, bb_succ 9, bb_zero]
  generalize Real.sqrt 2 = s at hs hq hp ⊢
  norm_num [ttMom, xtMom, xuMom, uMom]
  try field_simp
  try ring

theorem mEntry_10_1 (a b ap bp : ℝ) :
    mPrimeRow10 1 a b ap bp = some (mpExact 10 1 a b ap bp) := by
  obtain ⟨hs, hq, hp⟩ := sqrt_two_facts
  rw [mPrimeRow10, Option.some_inj]
  simp only [mpExact, bb_succ 9, bb_succ 0]
  generalize Real.sqrt 2 = s at hs hq hp ⊢
  rw [hs]
  norm_num [ttMom, xtMom, xuMom, uMom]
  try field_simp
  try ring

theorem mEntry_10_2 (a b ap bp : ℝ) :
    mPrimeRow10 2 a b ap bp = some (mpExact 10 2 a b ap bp) := by
  obtain ⟨hs, hq, hp⟩ := sqrt_two_facts
  rw [mPrimeRow10, Option.some_inj]
  simp only [mpExact, bb_succ 9, bb_succ 1]
  generalize Real.sqrt 2 = s at hs hq hp ⊢
  rw [hs]
  norm_num [ttMom, xtMom, xuMom, uMom]
  try field_simp
  try ring

theorem mEntry_10_3 (a b ap bp : ℝ) :
    mPrimeRow10 3 a b ap bp = some (mpExact 10 3 a b ap bp) := by
  obtain ⟨hs, hq, hp⟩ := sqrt_two_facts
  rw [mPrimeRow10, Option.some_inj]
  simp only [mpExact, bb_succ 9, bb_succ 2]
  generalize Real.sqrt 2 = s at hs hq hp ⊢
  rw [hs]
  norm_num [ttMom, xtMom, xuMom, uMom]
  try field_simp
  try ring

theorem mEntry_10_4 (a b ap bp : ℝ) :
    mPrimeRow10 4 a b ap bp = some (mpExact 10 4 a b ap bp) := by
  obtain ⟨hs, hq, hp⟩ := sqrt_two_facts
  rw [mPrimeRow10, Option.some_inj]
  simp only [mpExact, bb_succ 9, bb_succ 3]
  generalize Real.sqrt 2 = s at hs hq hp ⊢
  rw [hs]
  norm_num [ttMom, xtMom, xuMom, uMom]
  try field_simp
  try ring

theorem mEntry_10_5 (a b ap bp : ℝ) :
    mPrimeRow10 5 a b ap bp = some (mpExact 10 5 a b ap bp) := by
  obtain ⟨hs, hq, hp⟩ := sqrt_two_facts
  rw [mPrimeRow10, Option.some_inj]
  simp only [mpExact, bb_succ 9, bb_succ 4]
  generalize Real.sqrt 2 = s at hs hq hp ⊢
  rw [hs]
  norm_num [ttMom, xtMom, xuMom, uMom]
  try field_simp
  try ring

theorem mEntry_10_6 (a b ap bp : ℝ) :
    mPrimeRow10 6 a b ap bp = some (mpExact 10 6 a b ap bp) := by
  obtain ⟨hs, hq, hp⟩ := sqrt_two_facts
  rw [mPrimeRow10, Option.some_inj]
  simp only [mpExact, bb_succ 9, bb_succ 5]
  generalize Real.sqrt 2 = s at hs hq hp ⊢
  rw [hs]
  norm_num [ttMom, xtMom, xuMom, uMom]
  try field_simp
  try ring

theorem mEntry_10_7 (a b ap bp : ℝ) :
    mPrimeRow10 7 a b ap bp = some (mpExact 10 7 a b ap bp) := by
  obtain ⟨hs, hq, hp⟩ := sqrt_two_facts
  rw [mPrimeRow10, Option.some_inj]
  simp only [mpExact, bb_succ 9, bb_succ 6]
  generalize Real.sqrt 2 = s at hs hq hp ⊢
  rw [hs]
  norm_num [ttMom, xtMom, xuMom, uMom]
  try field_simp
  try ring

theorem mEntry_10_8 (a b ap bp : ℝ) :
    mPrimeRow10 8 a b ap bp = some (mpExact 10 8 a b ap bp) := by
  obtain ⟨hs, hq, hp⟩ := sqrt_two_facts
  rw [mPrimeRow10, Option.some_inj]
  simp only [mpExact, bb_succ 9, bb_succ 7]
  generalize Real.sqrt 2 = s at hs hq hp ⊢
  rw [hs]
  norm_num [ttMom, xtMom, xuMom, uMom]
  try field_simp
  try ring

theorem mEntry_10_9 (a b ap bp : ℝ) :
    mPrimeRow10 9 a b ap bp = some (mpExact 10 9 a b ap bp) := by
  obtain ⟨hs, hq, hp⟩ := sqrt_two_facts
  rw [mPrimeRow10, Option.some_inj]
  simp only [mpExact, bb_succ 9, bb_succ 8]
  generalize Real.sqrt 2 = s at hs hq hp ⊢
  rw [hs]
  norm_num [ttMom, xtMom, xuMom, uMom]
  try field_simp
  try ring

theorem mEntry_10_10 (a b ap bp : ℝ) :
    mPrimeRow10 10 a b ap bp = some (mpExact 10 10 a b ap bp) := by
  obtain ⟨hs, hq, hp⟩ := sqrt_two_facts
  rw [mPrimeRow10, Option.some_inj]
  simp only [mpExact, bb_succ 9]
  generalize Real.sqrt 2 = s at hs hq hp ⊢
  rw [hs]
  norm_num [ttMom, xtMom, xuMom, uMom]
  try field_simp
  try ring

theorem gMatrix_eq {i j : ℕ} (hi : i ≤ 10) (hj : j ≤ 10) (a b ap bp : ℝ) (h : a < b) :
    gMatrix i j a b ap bp = some (gExact i j a b ap bp) := by
  have h1 : a - b ≠ 0 := by linarith
  have h2 : b - a ≠ 0 := by linarith
  interval_cases i <;> interval_cases j
  · exact gEntry_0_0 a b ap bp h1 h2
  · exact gEntry_0_1 a b ap bp h1 h2
  · exact gEntry_0_2 a b ap bp h1 h2
  · exact gEntry_0_3 a b ap bp h1 h2
  · exact gEntry_0_4 a b ap bp h1 h2
  · exact gEntry_0_5 a b ap bp h1 h2
  · exact gEntry_0_6 a b ap bp h1 h2
  · exact gEntry_0_7 a b ap bp h1 h2
  · exact gEntry_0_8 a b ap bp h1 h2
  · exact gEntry_0_9 a b ap bp h1 h2
  · exact gEntry_0_10 a b ap bp h1 h2
  · exact gEntry_1_0 a b ap bp h1 h2
  · exact gEntry_1_1 a b ap bp h1 h2
  · exact gEntry_1_2 a b ap bp h1 h2
  · exact gEntry_1_3 a b ap bp h1 h2
  · exact gEntry_1_4 a b ap bp h1 h2
  · exact gEntry_1_5 a b ap bp h1 h2
  · exact gEntry_1_6 a b ap bp h1 h2
  · exact gEntry_1_7 a b ap bp h1 h2
  · exact gEntry_1_8 a b ap bp h1 h2
  · exact gEntry_1_9 a b ap bp h1 h2
  · exact gEntry_1_10 a b ap bp h1 h2
  · exact gEntry_2_0 a b ap bp h1 h2
  · exact gEntry_2_1 a b ap bp h1 h2
  · exact gEntry_2_2 a b ap bp h1 h2
  · exact gEntry_2_3 a b ap bp h1 h2
  · exact gEntry_2_4 a b ap bp h1 h2
  · exact gEntry_2_5 a b ap bp h1 h2
  · exact gEntry_2_6 a b ap bp h1 h2
  · exact gEntry_2_7 a b ap bp h1 h2
  · exact gEntry_2_8 a b ap bp h1 h2
  · exact gEntry_2_9 a b ap bp h1 h2
  · exact gEntry_2_10 a b ap bp h1 h2
  · exact gEntry_3_0 a b ap bp h1 h2
  · exact gEntry_3_1 a b ap bp h1 h2
  · exact gEntry_3_2 a b ap bp h1 h2
  · exact gEntry_3_3 a b ap bp h1 h2
  · exact gEntry_3_4 a b ap bp h1 h2
  · exact gEntry_3_5 a b ap bp h1 h2
  · exact gEntry_3_6 a b ap bp h1 h2
  · exact gEntry_3_7 a b ap bp h1 h2
  · exact gEntry_3_8 a b ap bp h1 h2
  · exact gEntry_3_9 a b ap bp h1 h2
  · exact gEntry_3_10 a b ap bp h1 h2
  · exact gEntry_4_0 a b ap bp h1 h2
  · exact gEntry_4_1 a b ap bp h1 h2
  · exact gEntry_4_2 a b ap bp h1 h2
  · exact gEntry_4_3 a b ap bp h1 h2
  · exact gEntry_4_4 a b ap bp h1 h2
  · exact gEntry_4_5 a b ap bp h1 h2
  · exact gEntry_4_6 a b ap bp h1 h2
  · exact gEntry_4_7 a b ap bp h1 h2
  · exact gEntry_4_8 a b ap bp h1 h2
  · exact gEntry_4_9 a b ap bp h1 h2
  · exact gEntry_4_10 a b ap bp h1 h2
  · exact gEntry_5_0 a b ap bp h1 h2
  · exact gEntry_5_1 a b ap bp h1 h2
  · exact gEntry_5_2 a b ap bp h1 h2
  · exact gEntry_5_3 a b ap bp h1 h2
  · exact gEntry_5_4 a b ap bp h1 h2
  · exact gEntry_5_5 a b ap bp h1 h2
  · exact gEntry_5_6 a b ap bp h1 h2
  · exact gEntry_5_7 a b ap bp h1 h2
  · exact gEntry_5_8 a b ap bp h1 h2
  · exact gEntry_5_9 a b ap bp h1 h2
  · exact gEntry_5_10 a b ap bp h1 h2
  · exact gEntry_6_0 a b ap bp h1 h2
  · exact gEntry_6_1 a b ap bp h1 h2
  · exact gEntry_6_2 a b ap bp h1 h2
  · exact gEntry_6_3 a b ap bp h1 h2
  · exact gEntry_6_4 a b ap bp h1 h2
  · exact gEntry_6_5 a b ap bp h1 h2
  · exact gEntry_6_6 a b ap bp h1 h2
  · exact gEntry_6_7 a b ap bp h1 h2
  · exact gEntry_6_8 a b ap bp h1 h2
  · exact gEntry_6_9 a b ap bp h1 h2
  · exact gEntry_6_10 a b ap bp h1 h2
  · exact gEntry_7_0 a b ap bp h1 h2
  · exact gEntry_7_1 a b ap bp h1 h2
  · exact gEntry_7_2 a b ap bp h1 h2
  · exact gEntry_7_3 a b ap bp h1 h2
  · exact gEntry_7_4 a b ap bp h1 h2
  · exact gEntry_7_5 a b ap bp h1 h2
  · exact gEntry_7_6 a b ap bp h1 h2
  · exact gEntry_7_7 a b ap bp h1 h2
  · exact gEntry_7_8 a b ap bp h1 h2
  · exact gEntry_7_9 a b ap bp h1 h2
  · exact gEntry_7_10 a b ap bp h1 h2
  · exact gEntry_8_0 a b ap bp h1 h2
  · exact gEntry_8_1 a b ap bp h1 h2
  · exact gEntry_8_2 a b ap bp h1 h2
  · exact gEntry_8_3 a b ap bp h1 h2
  · exact gEntry_8_4 a b ap bp h1 h2
  · exact gEntry_8_5 a b ap bp h1 h2
  · exact gEntry_8_6 a b ap bp h1 h2
  · exact gEntry_8_7 a b ap bp h1 h2
  · exact gEntry_8_8 a b ap bp h1 h2
  · exact gEntry_8_9 a b ap bp h1 h2
  · exact gEntry_8_10 a b ap bp h1 h2
  · exact gEntry_9_0 a b ap bp h1 h2
  · exact gEntry_9_1 a b ap bp h1 h2
  · exact gEntry_9_2 a b ap bp h1 h2
  · exact gEntry_9_3 a b ap bp h1 h2
  · exact gEntry_9_4 a b ap bp h1 h2
  · exact gEntry_9_5 a b ap bp h1 h2
  · exact gEntry_9_6 a b ap bp h1 h2
  · exact gEntry_9_7 a b ap bp h1 h2
  · exact gEntry_9_8 a b ap bp h1 h2
  · exact gEntry_9_9 a b ap bp h1 h2
  · exact gEntry_9_10 a b ap bp h1 h2
  · exact gEntry_10_0 a b ap bp h1 h2
  · exact gEntry_10_1 a b ap bp h1 h2
  · exact gEntry_10_2 a b ap bp h1 h2
  · exact gEntry_10_3 a b ap bp h1 h2
  · exact gEntry_10_4 a b ap bp h1 h2
  · exact gEntry_10_5 a b ap bp h1 h2
  · exact gEntry_10_6 a b ap bp h1 h2
  · exact gEntry_10_7 a b ap bp h1 h2
  · exact gEntry_10_8 a b ap bp h1 h2
  · exact gEntry_10_9 a b ap bp h1 h2
  · exact gEntry_10_10 a b ap bp h1 h2

theorem mPrime_eq {i j : ℕ} (hi : i ≤ 10) (hj : j ≤ 10) (a b ap bp : ℝ) :
    mPrime i j a b ap bp = some (mpExact i j a b ap bp) := by
  interval_cases i <;> interval_cases j
  · exact mEntry_0_0 a b ap bp
  · exact mEntry_0_1 a b ap bp
  · exact mEntry_0_2 a b ap bp
  · exact mEntry_0_3 a b ap bp
  · exact mEntry_0_4 a b ap bp
  · exact mEntry_0_5 a b ap bp
  · exact mEntry_0_6 a b ap bp
  · exact mEntry_0_7 a b ap bp
  · exact mEntry_0_8 a b ap bp
  · exact mEntry_0_9 a b ap bp
  · exact mEntry_0_10 a b ap bp
  · exact mEntry_1_0 a b ap bp
  · exact mEntry_1_1 a b ap bp
  · exact mEntry_1_2 a b ap bp
  · exact mEntry_1_3 a b ap bp
  · exact mEntry_1_4 a b ap bp
  · exact mEntry_1_5 a b ap bp
  · exact mEntry_1_6 a b ap bp
  · exact mEntry_1_7 a b ap bp
  · exact mEntry_1_8 a b ap bp
  · exact mEntry_1_9 a b ap bp
  · exact mEntry_1_10 a b ap bp
  · exact mEntry_2_0 a b ap bp
  · exact mEntry_2_1 a b ap bp
  · exact mEntry_2_2 a b ap bp
  · exact mEntry_2_3 a b ap bp
  · exact mEntry_2_4 a b ap bp
  · exact mEntry_2_5 a b ap bp
  · exact mEntry_2_6 a b ap bp
  · exact mEntry_2_7 a b ap bp
  · exact mEntry_2_8 a b ap bp
  · exact mEntry_2_9 a b ap bp
  · exact mEntry_2_10 a b ap bp
  · exact mEntry_3_0 a b ap bp
  · exact mEntry_3_1 a b ap bp
  · exact mEntry_3_2 a b ap bp
  · exact mEntry_3_3 a b ap bp
  · exact mEntry_3_4 a b ap bp
  · exact mEntry_3_5 a b ap bp
  · exact mEntry_3_6 a b ap bp
  · exact mEntry_3_7 a b ap bp
  · exact mEntry_3_8 a b ap bp
  · exact mEntry_3_9 a b ap bp
  · exact mEntry_3_10 a b ap bp
  · exact mEntry_4_0 a b ap bp
  · exact mEntry_4_1 a b ap bp
  · exact mEntry_4_2 a b ap bp
  · exact mEntry_4_3 a b ap bp
  · exact mEntry_4_4 a b ap bp
  · exact mEntry_4_5 a b ap bp
  · exact mEntry_4_6 a b ap bp
  · exact mEntry_4_7 a b ap bp
  · exact mEntry_4_8 a b ap bp
  · exact mEntry_4_9 a b ap bp
  · exact mEntry_4_10 a b ap bp
  · exact mEntry_5_0 a b ap bp
  · exact mEntry_5_1 a b ap bp
  · exact mEntry_5_2 a b ap bp
  · exact mEntry_5_3 a b ap bp
  · exact mEntry_5_4 a b ap bp
  · exact mEntry_5_5 a b ap bp
  · exact mEntry_5_6 a b ap bp
  · exact mEntry_5_7 a b ap bp
  · exact mEntry_5_8 a b ap bp
  · exact mEntry_5_9 a b ap bp
  · exact mEntry_5_10 a b ap bp
  · exact mEntry_6_0 a b ap bp
  · exact mEntry_6_1 a b ap bp
  · exact mEntry_6_2 a b ap bp
  · exact mEntry_6_3 a b ap bp
  · exact mEntry_6_4 a b ap bp
  · exact mEntry_6_5 a b ap bp
  · exact mEntry_6_6 a b ap bp
  · exact mEntry_6_7 a b ap bp
  · exact mEntry_6_8 a b ap bp
  · exact mEntry_6_9 a b ap bp
  · exact mEntry_6_10 a b ap bp
  · exact mEntry_7_0 a b ap bp
  · exact mEntry_7_1 a b ap bp
  · exact mEntry_7_2 a b ap bp
  · exact mEntry_7_3 a b ap bp
  · exact mEntry_7_4 a b ap bp
  · exact mEntry_7_5 a b ap bp
  · exact mEntry_7_6 a b ap bp
  · exact mEntry_7_7 a b ap bp
  · exact mEntry_7_8 a b ap bp
  · exact mEntry_7_9 a b ap bp
  · exact mEntry_7_10 a b ap bp
  · exact mEntry_8_0 a b ap bp
  · exact mEntry_8_1 a b ap bp
  · exact mEntry_8_2 a b ap bp
  · exact mEntry_8_3 a b ap bp
  · exact mEntry_8_4 a b ap bp
  · exact mEntry_8_5 a b ap bp
  · exact mEntry_8_6 a b ap bp
  · exact mEntry_8_7 a b ap bp
  · exact mEntry_8_8 a b ap bp
  · exact mEntry_8_9 a b ap bp
  · exact mEntry_8_10 a b ap bp
  · exact mEntry_9_0 a b ap bp
  · exact mEntry_9_1 a b ap bp
  · exact mEntry_9_2 a b ap bp
  · exact mEntry_9_3 a b ap bp
  · exact mEntry_9_4 a b ap bp
  · exact mEntry_9_5 a b ap bp
  · exact mEntry_9_6 a b ap bp
  · exact mEntry_9_7 a b ap bp
  · exact mEntry_9_8 a b ap bp
  · exact mEntry_9_9 a b ap bp
  · exact mEntry_9_10 a b ap bp
  · exact mEntry_10_0 a b ap bp
  · exact mEntry_10_1 a b ap bp
  · exact mEntry_10_2 a b ap bp
  · exact mEntry_10_3 a b ap bp
  · exact mEntry_10_4 a b ap bp
  · exact mEntry_10_5 a b ap bp
  · exact mEntry_10_6 a b ap bp
  · exact mEntry_10_7 a b ap bp
  · exact mEntry_10_8 a b ap bp
  · exact mEntry_10_9 a b ap bp
  · exact mEntry_10_10 a b ap bp

end Verif.Lemmas
