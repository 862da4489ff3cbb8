import Verif.Model.FrontMesh
import Mathlib.Tactic.FieldSimp
import Mathlib.Tactic.Linarith
import Mathlib.Tactic.NormNum

/-!
C149: the mesh that follows both heat fronts (`mesh_functions.py` 27-86).
-/

namespace Verif.Props

open Verif.Model

theorem front_fits {c : FrontConfig} {q : ℕ} (hN : c.N = 4 * q) (hq : 1 ≤ q) : c.fits := by
  unfold FrontConfig.fits; omega

/-- C149: with at least eight cells the function fails unless four divides their number. -/
theorem c149_multiple_of_four {c : FrontConfig} (h8 : 8 ≤ c.N) (h : ¬ 4 ∣ c.N) (w : FrontTable)
    (s : FrontState) (t : ℝ) : frontMove c w s t = none := by
  have hf : ¬ c.fits := by unfold FrontConfig.fits; omega
  unfold frontMove
  rw [if_pos hf]

example : frontMove ⟨10, 1, 0, 1, fun _ => 0, 0⟩ ⟨⟨2, fun i => i, fun i => i, fun i => i⟩, fun i => i⟩
    ⟨fun _ => 0, fun _ => 0, fun _ => 0, 0, 1, 0, 0⟩ 1 = none :=
  c149_multiple_of_four (by norm_num) (by norm_num) _ _ _

/-- C149: after a call the velocities of the two halves are opposite, except for the middles of the halves. -/
theorem c149_symmetric {c : FrontConfig} {q : ℕ} (hN : c.N = 4 * q) {w : FrontTable} {s s' : FrontState} {t : ℝ}
    (h : frontMove c w s t = some s') {k : ℕ} (hk : k < 2 * q) (hkq : k ≠ q) :
    s'.Dedges (4 * q - k) = -s'.Dedges k := by
  have hD : ∃ right left, s'.Dedges = frontD c right left s.Dedges := by
    unfold frontMove at h
    dsimp only at h
    split_ifs at h <;> first
      | (cases h; exact ⟨_, _, rfl⟩)
  obtain ⟨right, left, hD⟩ := hD
  have e1 : c.N / 2 = 2 * q := by omega
  have e2 : 2 * q / 2 = q := by omega
  rw [hD]
  unfold frontD
  simp only [e1, e2]
  rcases lt_or_gt_of_ne hkq with h1 | h1
  · rw [if_neg (by omega), if_neg (by omega), if_neg (by omega), if_pos (by omega), if_pos h1,
      show q - 1 - (4 * q - k - (2 * q + q + 1)) = k by omega]
  · rw [if_neg (by omega), if_neg (by omega), if_pos (by omega), if_neg (by omega), if_pos (by omega),
      show 2 * q - (q + 1) - 1 - (4 * q - k - (2 * q + 1)) = k - (q + 1) by omega]

/-- C149: a call at the start (`tactual` zero) puts the first edge at once where the table has the right front at the
next time, with the other sign, minus the extra distance, whatever the time; the last edge opposite if it was. -/
theorem c149_start {c : FrontConfig} {q : ℕ} (hN : c.N = 4 * q) (hq : 1 ≤ q) (h0 : c.tactual = 0) (hT : c.tfinal ≠ 0)
    (hv : c.speed ≠ 0) (hd : c.Dconst 0 = -c.speed) {w : FrontTable} {s : FrontState} (he : s.edges0 0 = s.edges 0)
    {t : ℝ} (ht : w.index t < w.n) :
    ∃ s', frontMove c w s t = some s' ∧ s'.edges 0 = -w.right (w.index t) - frontPad t ∧
      (s.edges0 c.N = -s.edges0 0 → s'.edges c.N = -s'.edges 0) := by
  have hm : ∃ s', frontMove c w s t = some s' ∧ s'.edges 0 = -w.right (w.index t) - frontPad t ∧
      ∀ k, s'.edges k = s.edges0 k + s'.Dedges k * c.tfinal := by
    refine ⟨_, by
      unfold frontMove; dsimp only
      rw [if_neg (not_not.2 (front_fits hN hq)), if_pos h0, if_neg (by omega)], ?_, fun k => rfl⟩
    have e1 : 0 < c.N / 2 / 2 := by omega
    simp only [frontD, e1, if_true, hd, he]
    field_simp
    ring
  obtain ⟨s', h1, h2, h3⟩ := hm
  refine ⟨s', h1, h2, fun hs => ?_⟩
  have := c149_symmetric hN h1 (k := 0) (by omega) (by omega)
  rw [h3, h3, hs, hN, show 4 * q = 4 * q - 0 by omega, this]
  ring

example : ∃ s', frontMove ⟨4, 10, 0, 1, fun k => if k = 0 then -1 else 0, 0⟩
    ⟨⟨3, fun i => i, fun i => 2 * i + 1, fun i => i⟩, fun i => i⟩
    ⟨fun k => k - 2, fun k => k - 2, fun _ => 0, 0, 1, 0, 0⟩ 1 = some s' ∧ s'.edges 0 = -3 - 0.5 := by
  have hi : WaveTable.index ⟨3, fun i => i, fun i => 2 * i + 1, fun i => i⟩ 1 = 1 := by
    have : (Finset.range 3).filter (fun i : ℕ => (i : ℝ) < 1) = {0} := by
      ext i
      simp only [Finset.mem_filter, Finset.mem_range, Finset.mem_singleton]
      constructor
      · rintro ⟨_, h⟩
        have : i < 1 := by exact_mod_cast h
        omega
      · rintro rfl; norm_num
    have := congrArg Finset.card this
    rw [Finset.card_singleton] at this
    unfold WaveTable.index
    convert this
  obtain ⟨s', h1, h2, -⟩ := c149_start (c := ⟨4, 10, 0, 1, fun k => if k = 0 then -1 else 0, 0⟩) (q := 1) rfl le_rfl rfl
    (by norm_num) (by norm_num) (by simp) (w := ⟨⟨3, fun i => i, fun i => 2 * i + 1, fun i => i⟩, fun i => i⟩)
    (s := ⟨fun k => k - 2, fun k => k - 2, fun _ => 0, 0, 1, 0, 0⟩) rfl (t := 1) (by rw [hi]; norm_num)
  refine ⟨s', h1, h2.trans ?_⟩
  rw [hi]
  norm_num [frontPad]

/-- For a time after entry `j` and not after entry `j + 1` the index is `j + 1`. -/
theorem front_index {w : WaveTable} (hw : ∀ i, i + 1 < w.n → w.times i < w.times (i + 1)) {j : ℕ} (hj : j + 1 < w.n)
    {t : ℝ} (h1 : w.times j < t) (h2 : t ≤ w.times (j + 1)) : w.index t = j + 1 := by
  have hmono : ∀ a b, a ≤ b → b < w.n → w.times a ≤ w.times b := by
    intro a b hab
    induction b, hab using Nat.le_induction with
    | base => intro _; exact le_rfl
    | succ b _ ih => intro hb; exact (ih (by omega)).trans (hw b hb).le
  have : (Finset.range w.n).filter (w.times · < t) = Finset.range (j + 1) := by
    ext i
    simp only [Finset.mem_filter, Finset.mem_range]
    constructor
    · rintro ⟨hi, h⟩
      by_contra hc
      exact absurd h (not_lt.2 (h2.trans (hmono _ _ (by omega) hi)))
    · intro hi
      exact ⟨by omega, (hmono i j (by omega) (by omega)).trans_lt h1⟩
  unfold WaveTable.index
  have := congrArg Finset.card this
  rw [Finset.card_range] at this
  convert this

/-- C149: later, between entries `j` and `j + 1` of the table, the first edge moves with the mean velocity of the front
between entries `j + 1` and `j + 2`, the interval after the one the time is in. -/
theorem c149_next_interval {c : FrontConfig} {q : ℕ} (hN : c.N = 4 * q) (hq : 1 ≤ q) (h0 : c.tactual ≠ 0)
    (hv : c.speed ≠ 0) (hd : c.Dconst 0 = -c.speed) {w : FrontTable}
    (hw : ∀ i, i + 1 < w.n → w.times i < w.times (i + 1)) {j : ℕ} (hj : j + 2 < w.n) (ho : c.indexOld ≠ j + 1)
    (s : FrontState) {t : ℝ} (h1 : w.times j < t) (h2 : t ≤ w.times (j + 1)) :
    ∃ s', frontMove c w s t = some s' ∧ s'.edges0 = s'.edges ∧ s'.told = t ∧
      s'.edges 0 = s.edges0 0 -
        (w.right (j + 2) - w.right (j + 1)) / (w.times (j + 2) - w.times (j + 1)) * (t - s.told) := by
  have hi := front_index hw (by omega) h1 h2
  have ha : j + 1 ≠ c.indexOld ∨ j + 1 = 0 := Or.inl (Ne.symm ho)
  refine ⟨_, by
    unfold frontMove; dsimp only
    rw [if_neg (not_not.2 (front_fits hN hq)), if_neg h0, if_neg (by rw [hi]; omega)], rfl, rfl, ?_⟩
  have e1 : 0 < c.N / 2 / 2 := by omega
  simp only [frontD, e1, if_true, hd, hi, ha]
  field_simp
  ring

/-- C149: an edge at the front at entry `j` is at the front at entry `j + 1` exactly if the mean velocities of the front
in this interval and in the next one agree. -/
theorem c149_follows_iff {c : FrontConfig} {q : ℕ} (hN : c.N = 4 * q) (hq : 1 ≤ q) (h0 : c.tactual ≠ 0)
    (hv : c.speed ≠ 0) (hd : c.Dconst 0 = -c.speed) {w : FrontTable}
    (hw : ∀ i, i + 1 < w.n → w.times i < w.times (i + 1)) {j : ℕ} (hj : j + 2 < w.n) (ho : c.indexOld ≠ j + 1)
    {s : FrontState} (hs : s.told = w.times j) (he : s.edges0 0 = -w.right j) :
    ∃ s', frontMove c w s (w.times (j + 1)) = some s' ∧ (s'.edges 0 = -w.right (j + 1) ↔
      (w.right (j + 2) - w.right (j + 1)) / (w.times (j + 2) - w.times (j + 1)) =
        (w.right (j + 1) - w.right j) / (w.times (j + 1) - w.times j)) := by
  obtain ⟨s', h1, -, -, h4⟩ := c149_next_interval hN hq h0 hv hd hw hj ho s (hw j (by omega)) le_rfl
  refine ⟨s', h1, ?_⟩
  have hp : 0 < w.times (j + 1) - w.times j := sub_pos.2 (hw j (by omega))
  rw [h4, he, hs, eq_div_iff hp.ne']
  constructor <;> intro h <;> linarith

example : ∃ s', frontMove ⟨4, 10, 1, 1, fun k => if k = 0 then -1 else 0, 0⟩
    ⟨⟨3, fun i => i, fun i => i ^ 2, fun i => i⟩, fun i => i⟩
    ⟨fun k => k - 2, fun k => if k = 0 then 0 else k, fun _ => 0, 0, 1, 0, 0⟩ 1 = some s' ∧ s'.edges 0 ≠ -1 := by
  obtain ⟨s', h1, h2⟩ := c149_follows_iff (c := ⟨4, 10, 1, 1, fun k => if k = 0 then -1 else 0, 0⟩) (q := 1) rfl le_rfl
    (by norm_num) (by norm_num) (by simp) (w := ⟨⟨3, fun i => i, fun i => i ^ 2, fun i => i⟩, fun i => i⟩)
    (by intro i _; norm_num) (j := 0) (by norm_num) (by norm_num)
    (s := ⟨fun k => k - 2, fun k => if k = 0 then 0 else k, fun _ => 0, 0, 1, 0, 0⟩) (by simp) (by simp)
  refine ⟨s', by simpa using h1, fun h => ?_⟩
  have := h2.1 (by rw [h]; norm_num)
  norm_num at this

/-- C149: after the last but one entry of the table a new speed is needed and the function fails. -/
theorem c149_end {c : FrontConfig} (h0 : c.tactual ≠ 0) {w : FrontTable}
    (hw : ∀ i, i + 1 < w.n → w.times i < w.times (i + 1)) {j : ℕ} (hj : j + 2 = w.n) (ho : c.indexOld ≠ j + 1)
    (s : FrontState) {t : ℝ} (h1 : w.times j < t) (h2 : t ≤ w.times (j + 1)) : frontMove c w s t = none := by
  have hi := front_index hw (by omega) h1 h2
  unfold frontMove
  dsimp only
  by_cases hf : c.fits
  · rw [if_neg (not_not.2 hf), if_neg h0, if_pos]
    rw [hi]
    exact ⟨Or.inl (Ne.symm ho), by omega⟩
  · rw [if_pos hf]

example : frontMove ⟨4, 10, 1, 1, fun k => if k = 0 then -1 else 0, 0⟩
    ⟨⟨3, fun i => i, fun i => i ^ 2, fun i => i⟩, fun i => i⟩
    ⟨fun k => k - 2, fun k => k, fun _ => 0, 0, 1, 0, 0⟩ 1.5 = none :=
  c149_end (by norm_num) (by intro i _; norm_num) (j := 1) rfl (by norm_num) _ (by norm_num) (by norm_num)

end Verif.Props
