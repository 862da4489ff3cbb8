import Verif.Model.UnusedMesh
import Mathlib.Algebra.BigOperators.Intervals
import Mathlib.Algebra.BigOperators.Field
import Mathlib.Tactic.Linarith
import Mathlib.Tactic.FieldSimp
import Mathlib.Tactic.Positivity
import Mathlib.Tactic.Ring

/-! C145: mesh methods that nothing calls, and the estimate of wave speeds. -/

namespace Verif.Props

open Verif.Model

/-! ### Positions of the wave -/

theorem smoothLoop_eq (a : ℕ → ℝ) (k i : ℕ) : smoothLoop a k i = if i < k then max (a i) (a (i + 1)) else a i := by
  induction k generalizing i with
  | zero => simp [smoothLoop]
  | succ k ih =>
    have h1 := ih k
    have h2 := ih (k + 1)
    simp only [lt_irrefl, if_false] at h1
    rw [if_neg (by omega)] at h2
    rw [smoothLoop, h1, h2]
    by_cases h : a k < a (k + 1)
    · rw [if_pos h]
      by_cases hi : i = k
      · subst hi
        rw [Function.update_self, if_pos (by omega), max_eq_right h.le]
      · rw [Function.update_of_ne hi, ih]
        by_cases h' : i < k
        · rw [if_pos h', if_pos (by omega)]
        · rw [if_neg h', if_neg (by omega)]
    · rw [if_neg h, ih]
      by_cases hi : i = k
      · subst hi
        rw [if_neg (by omega), if_pos (by omega), max_eq_left (not_lt.1 h)]
      · by_cases h' : i < k
        · rw [if_pos h', if_pos (by omega)]
        · rw [if_neg h', if_neg (by omega)]

/-- C145: a position is replaced by the next one if that is further out, the last stays. -/
theorem c145_smooth (n : ℕ) (a : ℕ → ℝ) {i : ℕ} (hi : i < n) :
    smoothWave n a i = if i + 1 < n then max (a i) (a (i + 1)) else a i := by
  rw [smoothWave, smoothLoop_eq]
  by_cases h : i + 1 < n
  · rw [if_pos (by omega), if_pos h]
  · rw [if_neg (by omega), if_neg h]

/-- C145: a wave that moves out is put one time ahead instead of being made smooth; a wave that moves in stays. -/
theorem c145_ahead {n : ℕ} {a : ℕ → ℝ} :
    ((∀ i, i + 1 < n → a i ≤ a (i + 1)) → ∀ i, i + 1 < n → smoothWave n a i = a (i + 1)) ∧
      ((∀ i, i + 1 < n → a (i + 1) ≤ a i) → ∀ i < n, smoothWave n a i = a i) := by
  constructor
  · intro h i hi
    rw [c145_smooth n a (by omega), if_pos hi, max_eq_right (h i hi)]
  · intro h i hi
    rw [c145_smooth n a hi]
    split_ifs with h'
    · exact max_eq_left (h i h')
    · rfl

/-! ### Speeds that follow the wave -/

theorem index_spec {w : WaveTable} (hw : ∀ i, i + 1 < w.n → w.times i < w.times (i + 1)) {t : ℝ}
    (h : w.index t + 1 < w.n) : t < w.times (w.index t + 1) := by
  classical
  have mono : ∀ i j, i ≤ j → j < w.n → w.times i ≤ w.times j := by
    intro i j hij
    induction j, hij using Nat.le_induction with
    | base => exact fun _ => le_rfl
    | succ j _ ih => exact fun hj => (ih (by omega)).trans (hw j hj).le
  set k := w.index t with hk
  have hle : t ≤ w.times k := by
    by_contra hlt
    push Not at hlt
    have hsub : Finset.range (k + 1) ⊆ (Finset.range w.n).filter (w.times · < t) := by
      intro i hi
      rw [Finset.mem_range] at hi
      rw [Finset.mem_filter, Finset.mem_range]
      exact ⟨by omega, (mono i k (by omega) (by omega)).trans_lt hlt⟩
    have := Finset.card_le_card hsub
    rw [Finset.card_range] at this
    have hk' : ((Finset.range w.n).filter (w.times · < t)).card = k := by rw [hk, WaveTable.index]
    omega
  exact hle.trans_lt (hw k h)

theorem arrives {d target edge : ℝ} (hd : 0 < d) : edge + max 0 ((target - edge) / d) * d = max edge target := by
  rcases le_total edge target with h | h
  · rw [max_eq_right (div_nonneg (by linarith) hd.le), max_eq_right h, div_mul_cancel₀ _ hd.ne']
    ring
  · rw [max_eq_left (div_nonpos_of_nonpos_of_nonneg (by linarith) hd.le), max_eq_left h]
    ring

/-- C145: when a time of the table is passed, `recalculate_wavespeed` sets speeds with which the edges are, at
the time after the next, at the positions of the table, or where they were if that is further out. -/
theorem c145_follows {c : MeshConfig} {w : WaveTable} (hw : ∀ i, i + 1 < w.n → w.times i < w.times (i + 1))
    (edges Dconst : ℕ → ℝ) {t : ℝ} (h : w.index t + 1 < w.n) {s : SpeedState} (hs : w.index t ≠ s.indexOld) :
    ∃ r, recalculateWavespeed c w edges Dconst t s = some r ∧ ∃ d, 0 < d ∧ t + d = w.times (w.index t + 1) ∧
      edges c.N + r.right * d = max (edges c.N) (w.right (w.index t + 1)) ∧
      edges (c.N - 1) + r.temp * d = max (edges (c.N - 1)) (w.temp (w.index t + 1)) ∧
      edges c.N + r.leader * d = max (edges c.N) (w.temp (w.index t + 1) + c.leaderPad) ∧
      edges (c.N - 1) + r.packetLeader * d = w.temp (w.index t + 1) + c.pad ∧
      edges (c.N - 2) + r.follower * d = max (edges (c.N - 2)) (w.temp (w.index t + 1) - c.pad) := by
  have hd : 0 < w.times (w.index t + 1) - t := sub_pos.2 (index_spec hw h)
  refine ⟨(newSpeeds c w edges Dconst t).clamp, ?_, w.times (w.index t + 1) - t, hd, by ring, ?_⟩
  · rw [recalculateWavespeed, if_neg (by omega), if_pos hs]
  · refine ⟨arrives hd, arrives hd, arrives hd, ?_, arrives hd⟩
    show edges (c.N - 1) + (w.temp (w.index t + 1) + c.pad - edges (c.N - 1)) / (w.times (w.index t + 1) - t) *
      (w.times (w.index t + 1) - t) = _
    rw [div_mul_cancel₀ _ hd.ne']
    ring

/-- C145: until the first time of the table is passed all speeds are zero. -/
theorem c145_stands {c : MeshConfig} {w : WaveTable} (edges Dconst : ℕ → ℝ) {t : ℝ} (ht : ∀ i < w.n, t ≤ w.times i)
    (hn : 1 < w.n) : recalculateWavespeed c w edges Dconst t SpeedState.init = some SpeedState.init := by
  classical
  have h0 : w.index t = 0 := by
    rw [WaveTable.index, Finset.card_eq_zero, Finset.filter_eq_empty_iff]
    exact fun i hi => not_lt.2 (ht i (Finset.mem_range.1 hi))
  rw [recalculateWavespeed, if_neg (by omega), if_neg (by rw [h0]; exact fun h => h rfl)]
  simp [SpeedState.clamp, SpeedState.init]

/-- C145: after the last but one time it reads outside of the table. -/
theorem c145_outside {c : MeshConfig} {w : WaveTable} (edges Dconst : ℕ → ℝ) {t : ℝ} (s : SpeedState)
    (ht : ∀ i, i + 1 < w.n → w.times i < t) : recalculateWavespeed c w edges Dconst t s = none := by
  classical
  rw [recalculateWavespeed, if_pos]
  have hsub : Finset.range (w.n - 1) ⊆ (Finset.range w.n).filter (w.times · < t) := by
    intro i hi
    rw [Finset.mem_range] at hi
    rw [Finset.mem_filter, Finset.mem_range]
    exact ⟨by omega, ht i (by omega)⟩
  have := Finset.card_le_card hsub
  rw [Finset.card_range] at this
  have e : ((Finset.range w.n).filter (w.times · < t)).card = w.index t := by rw [WaveTable.index]
  omega

/-! ### Meshes for thick square sources -/

/-- C145: `thick_square_init_func` fails unless there are four or five cells, and then its first edge is right of
its second. -/
theorem c145_thick_square (c : MeshConfig) (speed : ℝ) :
    (oldThickSquareInit c speed ≠ none ↔ c.N = 4 ∨ c.N = 5) ∧
      ∀ r, oldThickSquareInit c speed = some r → 0 < c.x0 → r.1 1 < r.1 0 := by
  unfold oldThickSquareInit
  constructor
  · simp only
    split_ifs with h
    · simp; omega
    · simp; omega
  · intro r hr hx
    simp only at hr
    split_ifs at hr
    simp only [Option.some.injEq] at hr
    subst hr
    simp only [if_true, zero_ne_one, if_false]
    rw [if_neg (by omega)]
    linarith

/-- C145: `simple_thick_square_init_func_2` gives the right number of edges only for multiples of four, and a
mesh that stands still. -/
theorem c145_simple_2 (c : MeshConfig) (hN : 1 ≤ c.N) :
    (simpleThick2 c ≠ none ↔ c.N % 4 = 0) ∧ ∀ r, simpleThick2 c = some r → r.2 = (fun _ => 0) ∧
      r.1 (c.N / 2 / 2) = -c.x0 ∧ r.1 (c.N / 2 / 2 + c.N / 2) = c.x0 := by
  have hs : (simpleThick2Edges c).size = c.N / 2 / 2 + c.N / 2 + (c.N / 2 / 2 + 1) := by
    simp [simpleThick2Edges, Arr.append, Arr.dropLast, linspace]
  constructor
  · unfold simpleThick2
    rw [hs]
    split_ifs with h1 h2
    · simp; omega
    · simp; omega
    · simp; omega
  · intro r hr
    unfold simpleThick2 at hr
    rw [hs] at hr
    split_ifs at hr with h1 h2
    simp only [Option.some.injEq] at hr
    subst hr
    refine ⟨rfl, ?_, ?_⟩
    · have : 0 < c.N / 2 := by omega
      simp [simpleThick2Edges, Arr.append, Arr.dropLast, linspace, this]
    · simp [simpleThick2Edges, Arr.append, Arr.dropLast, linspace]

/-! ### Wave speeds -/

/-- C145: for every wave that falls from `A` to `B` and moves by `m` points in a step, the estimate is two thirds of
the speed: the point before the first is taken to be the last. -/
theorem c145_two_thirds {n m : ℕ} {u v : ℕ → ℝ} {A B dt dx : ℝ} (hm : 1 ≤ m) (hn : m + 3 ≤ n) (hu : Antitone u)
    (h0 : u 0 = A) (h1 : u 1 = A) (hB : ∀ i, n - 2 - m ≤ i → u i = B) (hAB : B < A)
    (hv : ∀ i, v i = if i < m then A else u (i - m)) (ht : 0 < dt) (hx : 0 < dx) :
    wavespeed n u v dt dx = 2 / 3 * (m * dx / dt) := by
  have hle : ∀ i, u i ≤ v i := fun i => by
    rw [hv]; split_ifs
    · rw [← h0]; exact hu (Nat.zero_le _)
    · exact hu (Nat.sub_le _ _)
  have hva : Antitone v := by
    intro i j hij
    rw [hv, hv]
    split_ifs with a b b
    · exact le_rfl
    · omega
    · rw [← h0]; exact hu (Nat.zero_le _)
    · exact hu (by omega)
  have hv0 : v 0 = A := by rw [hv, if_pos (by omega)]
  have hv1 : v 1 = A := by
    rw [hv]; split_ifs with h
    · rfl
    · rw [show 1 - m = 0 by omega, h0]
  have hvB : ∀ i, n - 2 ≤ i → v i = B := fun i hi => by
    rw [hv, if_neg (by omega), hB _ (by omega)]
  obtain ⟨k, rfl⟩ : ∃ k, n = k + m + 1 := ⟨n - m - 1, by omega⟩
  have s1 : ∑ i ∈ Finset.range (k + m + 1 - 1), |(v i - u i) / dt| = m * (A - B) / dt := by
    rw [Nat.add_sub_cancel]
    have e : ∀ i ∈ Finset.range (k + m), |(v i - u i) / dt| = (v i - u i) / dt := fun i _ =>
      abs_of_nonneg (div_nonneg (by linarith [hle i]) ht.le)
    rw [Finset.sum_congr rfl e, ← Finset.sum_div, Finset.sum_sub_distrib]
    congr 1
    have a1 : ∑ i ∈ Finset.range (k + m), v i = m * A + ∑ i ∈ Finset.range k, u i := by
      rw [add_comm k m, Finset.sum_range_add]
      congr 1
      · rw [Finset.sum_congr rfl fun i hi => by rw [hv, if_pos (Finset.mem_range.1 hi)]]
        simp
      · refine Finset.sum_congr rfl fun i _ => ?_
        rw [hv, if_neg (by omega), Nat.add_sub_cancel_left]
    have a2 : ∑ i ∈ Finset.range (k + m), u i = ∑ i ∈ Finset.range k, u i + m * B := by
      rw [Finset.sum_range_add]
      congr 1
      rw [Finset.sum_congr rfl fun i _ => hB (k + i) (by omega)]
      simp
    rw [a1, a2]
    ring
  have s2 : ∑ i ∈ Finset.range (k + m + 1 - 1), |(v (i + 1) - v (if i = 0 then k + m + 1 - 1 else i - 1)) / dx| =
      3 * (A - B) / dx := by
    obtain ⟨p, hp⟩ : ∃ p, k + m = p + 2 := ⟨k + m - 2, by omega⟩
    rw [Nat.add_sub_cancel, hp, Finset.sum_range_succ']
    have e : ∀ i ∈ Finset.range (p + 1), |(v (i + 1 + 1) - v (if i + 1 = 0 then p + 2 else i + 1 - 1)) / dx| =
        ((v i + v (i + 1)) - (v (i + 1) + v (i + 1 + 1))) / dx := fun i _ => by
      rw [if_neg (by omega), Nat.add_sub_cancel, abs_div, abs_of_pos hx,
        abs_of_nonpos (by linarith [hva (show i ≤ i + 1 + 1 by omega)])]
      ring
    rw [Finset.sum_congr rfl e, ← Finset.sum_div, Finset.sum_range_sub' (fun i => v i + v (i + 1)) (p + 1)]
    have b1 : v (p + 1) = B := hvB _ (by omega)
    have b2 : v (p + 1 + 1) = B := hvB _ (by omega)
    have b3 : v (p + 2) = B := b2
    rw [if_pos rfl, abs_div, abs_of_pos hx, b3, b1, zero_add, hv0, hv1, abs_of_nonneg (by linarith)]
    ring
  rw [wavespeed, s1, s2]
  have : A - B ≠ 0 := by linarith
  field_simp
  norm_num

/-- C145: for a straight line the first derivative is found at all points but the ends, for a parabola the second
derivative at all points but the ends and the last but one. -/
theorem c145_derivatives (n : ℕ) (a b s : ℝ) {h : ℝ} (hh : h ≠ 0) (i : ℕ) :
    derivativeEstimator n (fun i => a + b * (i * h)) h i = (if 1 ≤ i ∧ i + 1 < n then b else 0) ∧
      secondDerivativeEstimator n (fun i => a + b * (i * h) + s * (i * h) ^ 2) h i =
        if 1 ≤ i ∧ i + 2 < n then 2 * s else 0 := by
  constructor
  · unfold derivativeEstimator
    by_cases hi : 1 ≤ i ∧ i + 1 < n
    · rw [if_pos hi, if_pos ⟨hi.1, by omega⟩]
      obtain ⟨j, rfl⟩ : ∃ j, i = j + 1 := ⟨i - 1, by omega⟩
      simp only [Nat.add_sub_cancel]
      push_cast
      field_simp
      ring
    · rw [if_neg hi, if_neg (fun h => hi ⟨h.1, by omega⟩)]
  · unfold secondDerivativeEstimator
    by_cases hi : 1 ≤ i ∧ i + 2 < n
    · rw [if_pos hi, if_pos ⟨hi.1, by omega⟩]
      obtain ⟨j, rfl⟩ : ∃ j, i = j + 1 := ⟨i - 1, by omega⟩
      simp only [Nat.add_sub_cancel]
      push_cast
      field_simp
      ring
    · rw [if_neg hi, if_neg (fun h => hi ⟨h.1, by omega⟩)]

/-- C145: `derivative_estimator` is a backward difference: on a parabola it gives the slope half a point before. -/
theorem c145_backward {n : ℕ} (a b s : ℝ) {h : ℝ} (hh : h ≠ 0) {i : ℕ} (h1 : 1 ≤ i) (h2 : i + 1 < n) :
    derivativeEstimator n (fun i => a + b * (i * h) + s * (i * h) ^ 2) h i = b + 2 * s * (((i : ℝ) - 1 / 2) * h) := by
  unfold derivativeEstimator
  rw [if_pos ⟨h1, by omega⟩]
  obtain ⟨j, rfl⟩ : ∃ j, i = j + 1 := ⟨i - 1, by omega⟩
  simp only [Nat.add_sub_cancel]
  push_cast
  field_simp
  ring

/-- C145: the speed of the inner edges is such that edge `-int(sidebin-2)` is one width of the packet before its last
edge at the time after the next, where the last edge moves with the speed that has not been cut off at zero. -/
theorem c145_span {c : MeshConfig} {w : WaveTable} (hw : ∀ i, i + 1 < w.n → w.times i < w.times (i + 1))
    (edges Dconst : ℕ → ℝ) {t : ℝ} (h : w.index t + 1 < w.n) {s : SpeedState} (hs : w.index t ≠ s.indexOld) :
    ∃ r, recalculateWavespeed c w edges Dconst t s = some r ∧ ∃ d L, 0 < d ∧ t + d = w.times (w.index t + 1) ∧
      L = edges (c.N - 2) + Dconst (c.N - 2) * (w.temp (w.index t + 1) - c.pad - edges (c.N - 2)) ∧
      spanEdge c.N edges + r.span * d =
        max (spanEdge c.N edges) (L - (L - c.x0) / (((c.N / 4 : ℕ) : ℝ) / 2)) := by
  have hd : 0 < w.times (w.index t + 1) - t := sub_pos.2 (index_spec hw h)
  refine ⟨(newSpeeds c w edges Dconst t).clamp, ?_, w.times (w.index t + 1) - t, _, hd, by ring, rfl, ?_⟩
  · rw [recalculateWavespeed, if_neg (by omega), if_pos hs]
  · rw [← arrives hd]
    simp only [SpeedState.clamp, newSpeeds]
    rw [mul_assoc, div_mul_cancel₀ _ hd.ne']

/-- C145: the mesh of `simple_thick_square_init_func_2` is even inside the source and reaches `1e-14` beyond it. -/
theorem c145_simple_2_edges (c : MeshConfig) (hN : 1 ≤ c.N) {r : (ℕ → ℝ) × (ℕ → ℝ)} (h : simpleThick2 c = some r) :
    (∀ i ≤ c.N / 2, r.1 (c.N / 4 + i) = -c.x0 + i * (2 * c.x0 / (c.N / 2 : ℕ))) ∧
      r.1 0 = -c.x0 - 1 / 10 ^ 14 ∧ r.1 c.N = c.x0 + 1 / 10 ^ 14 := by
  have h4 : c.N % 4 = 0 := (c145_simple_2 c hN).1.1 (by rw [h]; simp)
  obtain ⟨m, hm⟩ : ∃ m, c.N = 4 * m := ⟨c.N / 4, by omega⟩
  have hm1 : 1 ≤ m := by omega
  have hm0 : (0 : ℝ) < m := by exact_mod_cast hm1
  unfold simpleThick2 at h
  split_ifs at h
  simp only [Option.some.injEq] at h
  subst h
  have e1 : 2 * m / 2 = m := by omega
  have e2 : 4 * m / 2 = 2 * m := by omega
  have e3 : 4 * m / 4 = m := by omega
  simp only [simpleThick2Edges, Arr.append, Arr.dropLast, linspace, hm, e1, e2, e3, Nat.add_sub_cancel]
  refine ⟨?_, ?_, ?_⟩
  · intro i hi
    rcases hi.lt_or_eq with hlt | rfl
    · rw [if_pos (by omega), if_neg (by omega), Nat.add_sub_cancel_left]
      push_cast
      rw [add_sub_cancel_right]
      ring
    · rw [if_neg (by omega), show m + 2 * m - (m + 2 * m) = 0 by omega]
      push_cast
      field_simp
      ring
  · rw [if_pos (by omega), if_pos (by omega)]
    push_cast
    ring
  · rw [if_neg (by omega), show 4 * m - (m + 2 * m) = m by omega]
    push_cast
    rw [add_sub_cancel_right]
    field_simp
    ring

/-! ### Examples -/

example : derivativeEstimator 5 (fun i => 0 + 0 * (i * 1) + 1 * (i * 1) ^ 2) 1 2 = 0 + 2 * 1 * ((((2 : ℕ) : ℝ) - 1 / 2) * 1) :=
  c145_backward 0 0 1 one_ne_zero (by norm_num) (by norm_num)

/-- A wave at 1, 2, 3. -/
example : smoothWave 3 (fun i => (i : ℝ) + 1) 0 = 2 := by
  rw [c145_ahead.1 (fun i _ => by push_cast; linarith) 0 (by norm_num)]
  norm_num

/-- A table of four times. -/
example (c : MeshConfig) (edges D : ℕ → ℝ) :
    recalculateWavespeed c ⟨4, fun i => i, fun i => i, fun i => i⟩ edges D 7 SpeedState.init = none :=
  c145_outside edges D _ fun i hi => by
    have : i < 3 := by have : i + 1 < 4 := hi
                       omega
    have : (i : ℝ) < 3 := by exact_mod_cast this
    show (i : ℝ) < 7
    linarith

/-- The first time is passed. -/
example (c : MeshConfig) (edges D : ℕ → ℝ) : ∃ r, recalculateWavespeed c ⟨4, fun i => i, fun i => 5 + i, fun i => i⟩ edges D
    (1 / 2) SpeedState.init = some r := by
  classical
  have hi : (⟨4, fun i => i, fun i => 5 + i, fun i => i⟩ : WaveTable).index (1 / 2) = 1 := by
    have : (Finset.range 4).filter (fun i : ℕ => (i : ℝ) < 1 / 2) = {0} := by
      ext i
      simp only [Finset.mem_filter, Finset.mem_range, Finset.mem_singleton]
      constructor
      · rintro ⟨-, h⟩
        by_contra h0
        have : (1 : ℝ) ≤ i := by exact_mod_cast Nat.one_le_iff_ne_zero.2 h0
        linarith
      · rintro rfl; norm_num
    unfold WaveTable.index
    convert congrArg Finset.card this using 1
    exact (Finset.card_singleton 0).symm
  obtain ⟨r, hr, -⟩ := c145_follows (c := c) (w := ⟨4, fun i => i, fun i => 5 + i, fun i => i⟩)
    (fun i _ => by push_cast; linarith) edges D (t := 1 / 2) (by rw [hi]; norm_num) (s := SpeedState.init)
    (by rw [hi]; decide)
  exact ⟨r, hr⟩

/-- A step of height one that moves by one point of distance 1/10 in a time of 1/5: speed 1/2, estimate 1/3. -/
example : wavespeed 6 (fun i => if i < 2 then 1 else 0) (fun i => if i < 1 then 1 else if i - 1 < 2 then 1 else 0)
    (1 / 5) (1 / 10) = 2 / 3 * (((1 : ℕ) : ℝ) * (1 / 10) / (1 / 5)) := by
  refine c145_two_thirds (A := 1) (B := 0) le_rfl (by norm_num) ?_ (by simp) (by simp) (fun i hi => ?_) (by norm_num)
    (fun i => rfl) (by norm_num) (by norm_num)
  · intro i j hij
    dsimp only
    split_ifs <;> first | omega | norm_num
  · rw [if_neg (by omega)]

end Verif.Props
