import Verif.Model.Angular
import Verif.Spec.Angular
import Mathlib.Algebra.BigOperators.Ring.Finset
import Mathlib.Tactic.Linarith
import Mathlib.Tactic.FieldSimp
import Mathlib.Tactic.LinearCombination
import Mathlib.Tactic.Ring
import Mathlib.Tactic.NormNum

/-! Helper facts: angular cells and the flux form of the redistribution term. -/

namespace Verif.Lemmas

open Verif.Spec Verif.Model

/-! ### Angular cells -/

theorem directionSet_lt {n : ℕ} {mus : ℕ → ℝ} (h : DirectionSet n mus) {i j : ℕ} (hij : i < j)
    (hj : j < n) : mus i < mus j := by
  induction j with
  | zero => omega
  | succ j ih =>
    rcases Nat.lt_succ_iff_lt_or_eq.1 hij with h1 | h1
    · exact (ih h1 (by omega)).trans (h.mono j hj)
    · subst h1; exact h.mono i hj

theorem directionSet_mem {n : ℕ} {mus : ℕ → ℝ} (h : DirectionSet n mus) {k : ℕ} (hk : k < n) :
    -1 ≤ mus k ∧ mus k ≤ 1 := by
  constructor
  · rcases Nat.eq_zero_or_pos k with h0 | h0
    · subst h0; exact h.lower
    · exact h.lower.trans (directionSet_lt h h0 hk).le
  · rcases Nat.lt_or_ge k (n - 1) with h0 | h0
    · exact (directionSet_lt h h0 (by have := h.two; omega)).le.trans h.upper
    · have : k = n - 1 := by omega
      rw [this]; exact h.upper

/-- Inner edges of the angular cells lie strictly inside `(-1,1)`. -/
theorem angularEdge_inner {n : ℕ} {mus : ℕ → ℝ} (h : DirectionSet n mus) {k : ℕ} (h0 : 0 < k)
    (hk : k < n) : -1 < angularEdge n mus k ∧ angularEdge n mus k < 1 := by
  unfold angularEdge
  rw [if_neg (by omega), if_neg (by omega)]
  have h1 := directionSet_lt h (i := k - 1) (j := k) (by omega) hk
  have h2 := directionSet_mem h hk
  have h3 := directionSet_mem h (k := k - 1) (by omega)
  constructor <;> linarith [h2.2, h3.1]

theorem angularWidth_pos {n : ℕ} {mus : ℕ → ℝ} (h : DirectionSet n mus) {k : ℕ} (hk : k < n) :
    0 < angularWidth n mus k := by
  unfold angularWidth
  have hn := h.two
  rcases Nat.eq_zero_or_pos k with h0 | h0
  · subst h0
    have := (angularEdge_inner h (k := 1) (by omega) (by omega)).1
    have e : angularEdge n mus 0 = -1 := rfl
    rw [e, zero_add]; linarith
  · by_cases hl : k + 1 = n
    · have := (angularEdge_inner h h0 hk).2
      have e : angularEdge n mus (k + 1) = 1 := by
        unfold angularEdge; rw [if_neg (by omega), if_pos hl]
      rw [e]; linarith
    · unfold angularEdge
      rw [if_neg (by omega), if_neg hl, if_neg (by omega), if_neg (by omega), Nat.add_sub_cancel]
      have h1 := directionSet_lt h (i := k - 1) (j := k) (by omega) hk
      have h2 := directionSet_lt h (i := k) (j := k + 1) (by omega) (by omega)
      linarith

/-- Redistribution flux through angular edge `k`: `(1 - μ²) ψ` with the mean of the neighbours. -/
noncomputable def angularFlux (n : ℕ) (mus psi : ℕ → ℝ) (k : ℕ) : ℝ :=
  (1 - angularEdge n mus k ^ 2) * ((psi (k - 1) + psi k) / 2)

theorem angularFlux_zero (n : ℕ) (mus psi : ℕ → ℝ) : angularFlux n mus psi 0 = 0 := by
  unfold angularFlux angularEdge; simp

theorem angularFlux_last (n : ℕ) (hn : n ≠ 0) (mus psi : ℕ → ℝ) : angularFlux n mus psi n = 0 := by
  unfold angularFlux angularEdge; simp [hn]

/-- The code's angular term is the difference of edge fluxes over the width of the cell. -/
theorem angularTerm_eq {n : ℕ} {mus : ℕ → ℝ} (hn : 2 ≤ n) (psi : ℕ → ℝ) {k : ℕ} (hk : k < n) :
    angularTerm n mus psi k =
      (angularFlux n mus psi (k + 1) - angularFlux n mus psi k) / angularWidth n mus k := by
  unfold angularTerm finiteDiffUneven angularWidth
  rcases Nat.eq_zero_or_pos k with h0 | h0
  · subst h0
    rw [angularFlux_zero]
    have e1 : angularEdge n mus 0 = -1 := rfl
    have e2 : angularEdge n mus 1 = (mus 0 + mus 1) / 2 := by
      unfold angularEdge; rw [if_neg (by omega), if_neg (by omega)]
    unfold angularFlux
    simp only [zero_add, Nat.sub_self, decide_true, Bool.true_eq_false, false_and, if_false,
      if_true, e1, e2, sub_zero]
    congr 1 <;> ring
  · have d0 : decide (k = 0) = false := by simp; omega
    by_cases hl : k + 1 = n
    · have d1 : decide (k + 1 = n) = true := by simp [hl]
      rw [hl, angularFlux_last n (by omega)]
      have e1 : angularEdge n mus n = 1 := by
        unfold angularEdge; rw [if_neg (by omega), if_pos rfl]
      have e2 : angularEdge n mus k = (mus (k - 1) + mus k) / 2 := by
        unfold angularEdge; rw [if_neg (by omega), if_neg (by omega)]
      unfold angularFlux
      rw [e1, e2, d0]
      simp only [decide_true, Bool.true_eq_false, and_false, if_false, Bool.false_eq_true]
      congr 1 <;> ring
    · have d1 : decide (k + 1 = n) = false := by simp [hl]
      have e1 : angularEdge n mus (k + 1) = (mus k + mus (k + 1)) / 2 := by
        unfold angularEdge; rw [if_neg (by omega), if_neg hl, Nat.add_sub_cancel]
      have e2 : angularEdge n mus k = (mus (k - 1) + mus k) / 2 := by
        unfold angularEdge; rw [if_neg (by omega), if_neg (by omega)]
      unfold angularFlux
      rw [e1, e2, d0, d1]
      simp only [and_self, if_true, Nat.add_sub_cancel]
      congr 1 <;> ring

end Verif.Lemmas
