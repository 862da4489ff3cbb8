import Verif.Model.Wave
import Verif.Props.Mesh
import Verif.Props.Driver
import Mathlib.Tactic.Ring
import Mathlib.Tactic.Positivity

/-!
C115: looking up stored heat front positions.
C116: the mesh that follows the heat front.
C117: estimates of the heat front position.
-/

namespace Verif.Props

open Verif.Model Verif.Lemmas Verif.Spec

/-! ### C115 -/

theorem scanUp_eq {x : ℕ → ℝ} {t : ℝ} {k : ℕ} : ∀ (fuel i : ℕ), i ≤ k + 1 → k + 1 ≤ i + fuel →
    (∀ j, i ≤ j → j ≤ k → x j ≤ t) → (k + 1 = i + fuel ∨ t < x (k + 1)) →
    scanUp x t fuel i = k + 1
  | 0, i, h1, h2, _, _ => by simp only [scanUp]; omega
  | fuel + 1, i, h1, h2, h3, h4 => by
    unfold scanUp
    rcases Nat.lt_or_ge k i with hi | hi
    · have : i = k + 1 := by omega
      subst this
      rcases h4 with h4 | h4
      · omega
      · rw [if_neg (not_le.2 h4)]
    · rw [if_pos (h3 i le_rfl hi)]
      exact scanUp_eq fuel (i + 1) (by omega) (by omega) (fun j h5 h6 => h3 j (by omega) h6)
        (h4.imp (fun h => by omega) id)

/-- Stored times come in increasing order. -/
def Increasing (N : ℕ) (x : ℕ → ℝ) : Prop := ∀ k, k + 1 < N → x k < x (k + 1)

theorem Increasing.lt {N : ℕ} {x : ℕ → ℝ} (h : Increasing N x) {i j : ℕ} (hij : i < j)
    (hj : j < N) : x i < x j := by
  induction j with
  | zero => omega
  | succ j ih =>
    rcases Nat.lt_or_ge i j with h1 | h1
    · exact (ih h1 (by omega)).trans (h j hj)
    · have : i = j := by omega
      subst this
      exact h i hj

theorem Increasing.le {N : ℕ} {x : ℕ → ℝ} (h : Increasing N x) {i j : ℕ} (hij : i ≤ j)
    (hj : j < N) : x i ≤ x j := by
  rcases Nat.eq_or_lt_of_le hij with h1 | h1
  · rw [h1]
  · exact (h.lt h1 hj).le

/-- The straight line through two points. -/
noncomputable def chord (xa ya xb yb t : ℝ) : ℝ := ya + (yb - ya) / (xb - xa) * (t - xa)

theorem chord_left (xa ya xb yb : ℝ) : chord xa ya xb yb xa = ya := by
  simp [chord]

theorem chord_right {xa xb : ℝ} (h : xa < xb) (ya yb : ℝ) : chord xa ya xb yb xb = yb := by
  have : xb - xa ≠ 0 := (sub_pos.2 h).ne'
  unfold chord
  field_simp
  ring

theorem lineThrough_chord {xa xb : ℝ} (h : xa ≠ xb) (ya yb t : ℝ) :
    lineThrough xa ya xb yb t = some (chord xa ya xb yb t) := by
  have : xb - xa ≠ 0 := sub_ne_zero.2 (Ne.symm h)
  rw [lineThrough, if_neg this, chord]
  congr 1
  field_simp
  ring

theorem interp1d_inside {N : ℕ} {x y : ℕ → ℝ} (hx : Increasing N x) {k : ℕ} (hk : k + 1 < N)
    {t : ℝ} (h1 : x k ≤ t) (h2 : t < x (k + 1)) :
    interp1d N x y t = some (chord (x k) (y k) (x (k + 1)) (y (k + 1)) t) := by
  have h0 : ¬ t < x 0 := not_lt.2 ((hx.le (Nat.zero_le k) (by omega)).trans h1)
  have hs : scanUp x t N 0 = k + 1 := scanUp_eq N 0 (by omega) (by omega)
    (fun j _ hj => (hx.le hj (by omega)).trans h1) (Or.inr h2)
  unfold interp1d
  rw [if_neg h0]
  dsimp only
  rw [hs, if_neg h2.ne, if_neg (by omega : ¬ k + 1 = N), if_neg (by omega : ¬ k + 1 = 0),
    Nat.add_sub_cancel, lineThrough_chord (hx k hk).ne]

theorem interp1d_behind {N : ℕ} {x y : ℕ → ℝ} (hx : Increasing N x) (hN : 2 ≤ N)
    {t : ℝ} (h1 : x (N - 1) ≤ t) (h2 : t ≠ x N) :
    interp1d N x y t = some (chord (x (N - 2)) (y (N - 2)) (x (N - 1)) (y (N - 1)) t) := by
  obtain ⟨n, rfl⟩ : ∃ n, N = n + 2 := ⟨N - 2, by omega⟩
  have e1 : n + 2 - 1 = n + 1 := rfl
  have e2 : n + 2 - 2 = n := rfl
  rw [e1] at h1
  have h0 : ¬ t < x 0 := not_lt.2 ((hx.le (Nat.zero_le (n + 1)) (by omega)).trans h1)
  have hs : scanUp x t (n + 2) 0 = n + 2 := scanUp_eq (n + 2) 0 (by omega) (by omega)
    (fun j _ hj => (hx.le (by omega) (by omega : n + 1 < n + 2)).trans h1) (Or.inl (by omega))
  unfold interp1d
  rw [if_neg h0]
  dsimp only
  rw [hs, if_neg h2, if_pos rfl, e1, e2, if_neg (by omega : ¬ n + 1 = 0), Nat.add_sub_cancel,
    lineThrough_chord (hx n (by omega)).ne]

/-- C115: between two stored times the position lies on the straight line between the stored
positions; at a stored time it is the stored position.  At the last stored time the code compares
with the memory behind the array of times. -/
theorem c115_interpolates {N : ℕ} {x y : ℕ → ℝ} (hx : Increasing N x) {k : ℕ} (hk : k + 1 < N)
    {t : ℝ} (h1 : x k ≤ t) (h2 : t ≤ x (k + 1)) (h3 : t < x (N - 1) ∨ t ≠ x N) :
    interp1d N x y t = some (y k + (y (k + 1) - y k) / (x (k + 1) - x k) * (t - x k)) := by
  change _ = some (chord (x k) (y k) (x (k + 1)) (y (k + 1)) t)
  rcases h2.lt_or_eq with h2 | rfl
  · exact interp1d_inside hx hk h1 h2
  · rw [chord_right (hx k hk)]
    rcases Nat.lt_or_ge (k + 2) N with hk2 | hk2
    · rw [interp1d_inside hx hk2 le_rfl (hx _ hk2), chord_left]
    · have : N = k + 2 := by omega
      subst this
      have h4 : x (k + 1) ≠ x (k + 2) := h3.resolve_left (lt_irrefl _)
      rw [interp1d_behind (t := x (k + 1)) hx (by omega) le_rfl h4]
      exact congrArg some (chord_right (hx k hk) _ _)

/-- C115: a stored time gives back the stored position. -/
theorem c115_nodes {N : ℕ} {x y : ℕ → ℝ} (hx : Increasing N x) (hN : 2 ≤ N) {k : ℕ} (hk : k < N)
    (h3 : k + 1 < N ∨ x k ≠ x N) : interp1d N x y (x k) = some (y k) := by
  rcases Nat.lt_or_ge (k + 1) N with hk1 | hk1
  · rw [interp1d_inside hx hk1 le_rfl (hx k hk1), chord_left]
  · obtain ⟨n, rfl⟩ : ∃ n, N = n + 2 := ⟨N - 2, by omega⟩
    have : k = n + 1 := by omega
    subst this
    rw [interp1d_behind (t := x (n + 1)) hx hN le_rfl (h3.resolve_left (by omega))]
    exact congrArg some (chord_right (hx n (by omega)) _ _)

/-- C115: after the last stored time the last segment is continued. -/
theorem c115_after {N : ℕ} {x y : ℕ → ℝ} (hx : Increasing N x) (hN : 2 ≤ N)
    {t : ℝ} (h1 : x (N - 1) ≤ t) (h2 : t ≠ x N) :
    interp1d N x y t = some (y (N - 2) +
      (y (N - 1) - y (N - 2)) / (x (N - 1) - x (N - 2)) * (t - x (N - 2))) :=
  interp1d_behind hx hN h1 h2

/-- C115: before the first stored time the position lies on the line from the origin. -/
theorem c115_before {N : ℕ} {x y : ℕ → ℝ} {t : ℝ} (h1 : t < x 0) (h0 : x 0 ≠ 0) :
    interp1d N x y t = some (y 0 / x 0 * t) := by
  rw [interp1d, if_pos h1, lineThrough_chord h0.symm]
  simp [chord]

/-- C115 fails at one time: when the memory behind the array of times holds the time asked for, the
value is the memory behind the array of positions. -/
theorem c115_overrun {N : ℕ} {x y : ℕ → ℝ} (hx : Increasing N x) (hN : 1 ≤ N)
    {t : ℝ} (h1 : x (N - 1) ≤ t) (h2 : t = x N) : interp1d N x y t = some (y N) := by
  obtain ⟨n, rfl⟩ : ∃ n, N = n + 1 := ⟨N - 1, by omega⟩
  rw [Nat.add_sub_cancel] at h1
  have h0 : ¬ t < x 0 := not_lt.2 ((hx.le (Nat.zero_le n) (by omega)).trans h1)
  have hs : scanUp x t (n + 1) 0 = n + 1 := scanUp_eq (n + 1) 0 (by omega) (by omega)
    (fun j _ hj => (hx.le hj (by omega)).trans h1) (Or.inl (by omega))
  unfold interp1d
  rw [if_neg h0]
  dsimp only
  rw [hs, if_pos h2]

/-- C115 fails for a single stored time: division by zero from that time on. -/
theorem c115_single {x y : ℕ → ℝ} {t : ℝ} (h1 : x 0 ≤ t) (h2 : t ≠ x 1) :
    interp1d 1 x y t = none := by
  have hs : scanUp x t 1 0 = 1 := scanUp_eq (k := 0) 1 0 (by omega) (by omega)
    (fun j _ hj => by rw [Nat.le_zero.mp hj]; exact h1) (Or.inl rfl)
  unfold interp1d
  rw [if_neg (not_lt.2 h1)]
  dsimp only
  rw [hs, if_neg h2]
  simp [lineThrough]

/-- C115: when the stored positions advance with speeds between `a` and `b`, so does the position
that is looked up. -/
theorem c115_speed {N : ℕ} {x y : ℕ → ℝ} (hx : Increasing N x) {a b : ℝ}
    (ha : ∀ k, k + 1 < N → a * (x (k + 1) - x k) ≤ y (k + 1) - y k)
    (hb : ∀ k, k + 1 < N → y (k + 1) - y k ≤ b * (x (k + 1) - x k))
    {s t : ℝ} (h0 : x 0 ≤ s) (hst : s ≤ t) (ht : t < x (N - 1)) :
    ∃ ps pt, interp1d N x y s = some ps ∧ interp1d N x y t = some pt ∧
      a * (t - s) ≤ pt - ps ∧ pt - ps ≤ b * (t - s) := by
  have seg : ∀ k, k + 1 < N → ∀ r, x k ≤ r → r ≤ x (k + 1) → r < x (N - 1) →
      interp1d N x y r = some (chord (x k) (y k) (x (k + 1)) (y (k + 1)) r) :=
    fun k hk r h1 h2 h3 => c115_interpolates hx hk h1 h2 (Or.inl h3)
  have rate : ∀ k, k + 1 < N → ∀ r r', r ≤ r' →
      a * (r' - r) ≤ chord (x k) (y k) (x (k + 1)) (y (k + 1)) r' -
        chord (x k) (y k) (x (k + 1)) (y (k + 1)) r ∧
      chord (x k) (y k) (x (k + 1)) (y (k + 1)) r' -
        chord (x k) (y k) (x (k + 1)) (y (k + 1)) r ≤ b * (r' - r) := by
    intro k hk r r' hr
    have hp : 0 < x (k + 1) - x k := sub_pos.2 (hx k hk)
    have e : chord (x k) (y k) (x (k + 1)) (y (k + 1)) r' -
        chord (x k) (y k) (x (k + 1)) (y (k + 1)) r =
        (y (k + 1) - y k) / (x (k + 1) - x k) * (r' - r) := by
      unfold chord; ring
    rw [e]
    exact ⟨mul_le_mul_of_nonneg_right ((le_div_iff₀ hp).2 (ha k hk)) (sub_nonneg.2 hr),
      mul_le_mul_of_nonneg_right ((div_le_iff₀ hp).2 (hb k hk)) (sub_nonneg.2 hr)⟩
  have main : ∀ m, m + 1 ≤ N → ∀ s t, x 0 ≤ s → s ≤ t → t ≤ x m → t < x (N - 1) →
      ∃ ps pt, interp1d N x y s = some ps ∧ interp1d N x y t = some pt ∧
        a * (t - s) ≤ pt - ps ∧ pt - ps ≤ b * (t - s) := by
    intro m
    induction m with
    | zero =>
      intro hm s t h1 h2 h3 h4
      have e1 : s = x 0 := le_antisymm (h2.trans h3) h1
      have e2 : t = x 0 := le_antisymm h3 (h1.trans h2)
      rw [e2] at h4
      have hN : 1 < N := by
        by_contra h
        have : N - 1 = 0 := by omega
        rw [this] at h4
        exact lt_irrefl _ h4
      rw [e1, e2]
      exact ⟨_, _, seg 0 hN _ le_rfl (hx 0 hN).le h4, seg 0 hN _ le_rfl (hx 0 hN).le h4,
        by simp, by simp⟩
    | succ m ih =>
      intro hm s t h1 h2 h3 h4
      rcases le_total t (x m) with h5 | h5
      · exact ih (by omega) s t h1 h2 h5 h4
      · have et := seg m hm t h5 h3 h4
        rcases le_total (x m) s with h6 | h6
        · exact ⟨_, _, seg m hm s h6 (h2.trans h3) (h2.trans_lt h4), et, rate m hm s t h2⟩
        · have h7 : x m < x (N - 1) := h5.trans_lt h4
          obtain ⟨ps, pm, e1, e2, e3, e4⟩ := ih (by omega) s (x m) h1 h6 le_rfl h7
          have em := seg m hm (x m) le_rfl (hx m hm).le h7
          rw [em] at e2
          injection e2 with e2
          obtain ⟨r1, r2⟩ := rate m hm (x m) t h5
          rw [e2] at r1 r2
          exact ⟨_, _, e1, et, by linarith, by linarith⟩
  have hN : 1 ≤ N := by
    by_contra h
    have : N - 1 = 0 := by omega
    rw [this] at ht
    linarith
  exact main (N - 1) (by omega) s t h0 hst ht.le ht

/-- Stored positions `0, 1, 3` at times `1, 2, 4`: half way between. -/
example : interp1d 3 (fun i => 2 ^ i) (fun i => 2 ^ i - 1) 3 = some 2 := by
  have hx : Increasing 3 (fun i : ℕ => (2 : ℝ) ^ i) := fun k _ => by
    show (2 : ℝ) ^ k < 2 ^ (k + 1)
    rw [pow_succ]
    linarith [pow_pos (two_pos : (0 : ℝ) < 2) k]
  rw [c115_interpolates hx (k := 1) (by norm_num) (by norm_num) (by norm_num)
    (Or.inl (by norm_num))]
  norm_num

example : interp1d 3 (fun i => 2 ^ i) (fun i => 2 ^ i - 1) 2 = some 1 := by
  have hx : Increasing 3 (fun i : ℕ => (2 : ℝ) ^ i) := fun k _ => by
    show (2 : ℝ) ^ k < 2 ^ (k + 1)
    rw [pow_succ]
    linarith [pow_pos (two_pos : (0 : ℝ) < 2) k]
  have := c115_nodes (y := fun i => (2 : ℝ) ^ i - 1) hx (by norm_num) (k := 1) (by norm_num)
    (Or.inl (by norm_num))
  norm_num at this
  exact this

/-- C115 for the array of the program: the memory behind the times is the first left edge. -/
theorem c115_front {n : ℕ} {memory : ℕ → ℝ} (hx : Increasing n (waveRow n memory 0)) {k : ℕ}
    (hk : k + 1 < n) {t : ℝ} (h1 : waveRow n memory 0 k ≤ t) (h2 : t ≤ waveRow n memory 0 (k + 1))
    (h3 : t < waveRow n memory 0 (n - 1) ∨ t ≠ waveRow n memory 1 0) :
    frontAt n memory t = some (waveRow n memory 3 k +
      (waveRow n memory 3 (k + 1) - waveRow n memory 3 k) /
        (waveRow n memory 0 (k + 1) - waveRow n memory 0 k) * (t - waveRow n memory 0 k)) := by
  refine c115_interpolates hx hk h1 h2 (h3.imp id ?_)
  simp only [waveRow, zero_mul, zero_add, one_mul, add_zero]
  exact id

/-! ### C116 -/

/-- Optically thick square source in a finite domain with the wave-following mesh. -/
structure IsFollowing (c : MeshConfig) : Prop where
  thick : c.thick = true
  moving : c.moving = true
  func : c.moveFunc = 1
  finite : c.finiteDomain = true
  s0 : c.st 0 = 0
  s1 : c.st 1 ≠ 1
  s2 : c.st 2 = 1
  s3 : c.st 3 ≠ 1
  s5 : c.st 5 ≠ 1

theorem move_following {c : MeshConfig} (h : IsFollowing c) {s : MeshState}
    (hm : s.moving = true) (t : ℝ) :
    (reachedEnd c s → meshMove c s t = some { s with Dedges := fun k => s.DedgesConst k * 0 }) ∧
    (¬ reachedEnd c s → meshMove c s t = some (thickSquareMove c s t)) := by
  have h0 : ¬ (c.st 0 = 1 ∨ c.st 0 = 2) := by rw [h.s0]; decide
  constructor
  · intro hr
    simp only [meshMove, if_pos hm, if_neg h0, if_neg h.s1, h.s2, h.finite, true_or, true_and,
      if_true, if_pos hr]
  · intro hr
    simp only [meshMove, if_pos hm, if_neg h0, if_neg h.s1, h.s2, h.finite, true_or, true_and,
      if_true, if_neg hr, h.func, one_ne_zero, if_false]

/-- The constructed mesh. -/
theorem following_init {c : MeshConfig} (h : IsFollowing c) {s : MeshState}
    (hs : meshInit c = some s) :
    s.moving = true ∧ s.edges = (thickSquareEdges c).get ∧ (∀ k, s.edges0 k = 0) ∧
      (thickSquareEdges c).size = c.N + 1 := by
  have h0 : ¬ (c.st 0 = 1 ∨ c.st 0 = 2) := by rw [h.s0]; decide
  have h35 : ¬ (c.st 3 = 1 ∨ c.st 5 = 1) := by
    rintro (e | e)
    · exact h.s3 e
    · exact h.s5 e
  unfold meshInit chooseInit at hs
  simp only [if_neg h0, h.thick, Bool.true_eq_false, if_false, if_neg h35, h.s2, true_or, or_true,
    if_true, h.func, one_ne_zero, h.moving, Bool.true_eq_false, thickSquareInit] at hs
  split_ifs at hs with hsz
  · simp only [Option.bind_some, finishInit, h.moving, Bool.true_eq_false, if_false] at hs
    injection hs with hs
    subst hs
    exact ⟨h.moving, rfl, fun _ => rfl, hsz⟩
  · cases hs

/-- C116 is false: `thick_square_moving_init_func` does not set `edges0`, so a constructed mesh
asked for time zero puts all its edges at the origin. -/
theorem c116_collapses {c : MeshConfig} (h : IsFollowing c) {s s' : MeshState}
    (hs : meshInit c = some s) (hr : ¬ reachedEnd c s) (hm : meshMove c s 0 = some s') (k : ℕ) :
    s'.edges k = 0 := by
  obtain ⟨h1, -, h3, -⟩ := following_init h hs
  rw [(move_following h h1 0).2 hr] at hm
  injection hm with hm
  subst hm
  simp only [thickSquareMove, thickFinder, true_or, if_true]
  exact h3 k

/-- States in which the edges within the source are where the stored initial edges are. -/
structure Keeps (c : MeshConfig) (e0 : ℕ → ℝ) (s : MeshState) : Prop where
  moving : s.moving = true
  edges0 : s.edges0 = e0
  mid : ∀ k, c.N / 4 ≤ k → k < c.N / 4 + c.N / 2 → k + 3 < c.N → s.edges k = e0 k

/-- Edges from the source to the right end, for a front at `w`. -/
noncomputable def frontEdges (c : MeshConfig) (s : MeshState) (w : ℝ) (k : ℕ) : ℝ :=
  if k = c.N then max (w + c.leaderPad) (s.edges0 c.N)
  else if k + 1 = c.N then max (w + c.pad) (s.edges0 (c.N - 1))
  else if k + 2 = c.N then max w (s.edges0 (c.N - 2))
  else if k + 3 = c.N then max (w - c.pad) (s.edges0 (c.N - 3))
  else if c.N / 4 + c.N / 2 ≤ k then
    (linspace c.x0 (max (w - c.pad) (s.edges0 (c.N - 3))) (c.N / 4 - 2)).get
      (k - (c.N / 4 + c.N / 2))
  else s.edges k

theorem thickFinder_eq (c : MeshConfig) (s : MeshState) (t : ℝ) (k : ℕ) :
    thickFinder c s t k = if t = 0 ∨ c.waveAt t < c.x0 then s.edges0 k
      else if k < c.N / 4 then -frontEdges c s (c.waveAt t) (c.N - k)
      else frontEdges c s (c.waveAt t) k := by
  unfold thickFinder frontEdges
  by_cases h : t = 0 ∨ c.waveAt t < c.x0
  · simp only [if_pos h]
  · simp only [if_neg h]

theorem finder_mid {c : MeshConfig} {e0 : ℕ → ℝ} {s : MeshState} (h : Keeps c e0 s) (t : ℝ) :
    ∀ k, c.N / 4 ≤ k → k < c.N / 4 + c.N / 2 → k + 3 < c.N → thickFinder c s t k = e0 k := by
  intro k h1 h2 h3
  rw [thickFinder_eq]
  split_ifs with hw hk
  · rw [h.edges0]
  · omega
  · rw [frontEdges, if_neg (by omega), if_neg (by omega), if_neg (by omega), if_neg (by omega),
      if_neg (by omega)]
    exact h.mid k h1 h2 h3

theorem keeps_move {c : MeshConfig} (hc : IsFollowing c) {e0 : ℕ → ℝ} {s s' : MeshState}
    (h : Keeps c e0 s) {t : ℝ} (hm : meshMove c s t = some s') :
    Keeps c e0 s' ∧ (s'.edges = s.edges ∨ s'.edges = thickFinder c s t) := by
  by_cases hr : reachedEnd c s
  · rw [(move_following hc h.moving t).1 hr] at hm
    injection hm with hm
    subst hm
    exact ⟨⟨h.moving, h.edges0, h.mid⟩, Or.inl rfl⟩
  · rw [(move_following hc h.moving t).2 hr] at hm
    injection hm with hm
    subst hm
    exact ⟨⟨h.moving, h.edges0, finder_mid h t⟩, Or.inr rfl⟩

theorem keeps_run {c : MeshConfig} (hc : IsFollowing c) {e0 : ℕ → ℝ} {s s' : MeshState}
    (h : Keeps c e0 s) {ts : List ℝ} (hm : meshRun c s ts = some s') : Keeps c e0 s' := by
  induction ts generalizing s with
  | nil =>
    injection hm with hm
    subst hm
    exact h
  | cons t ts ih =>
    simp only [meshRun, Option.bind_eq_some_iff] at hm
    obtain ⟨s1, h1, h2⟩ := hm
    exact ih (keeps_move hc h h1).1 h2

/-- C116 is false: after a request for time zero the edges within the source are never apart
again. -/
theorem c116_stays_collapsed {c : MeshConfig} (h : IsFollowing c) {s s' : MeshState}
    (hs : meshInit c = some s) (hr : ¬ reachedEnd c s) {ts : List ℝ}
    (hm : meshRun c s (0 :: ts) = some s') {k : ℕ} (h1 : c.N / 4 ≤ k) (h2 : k < c.N / 4 + c.N / 2)
    (h3 : k + 3 < c.N) : s'.edges k = 0 := by
  simp only [meshRun, Option.bind_eq_some_iff] at hm
  obtain ⟨s1, e1, e2⟩ := hm
  obtain ⟨i1, -, i3, -⟩ := following_init h hs
  have e := e1
  rw [(move_following h i1 0).2 hr] at e
  injection e with e
  have hk : Keeps c (fun _ => 0) s1 :=
    ⟨by rw [← e]; exact i1, by rw [← e]; exact funext i3,
      fun k _ _ _ => c116_collapses h hs hr e1 k⟩
  exact (keeps_run h hk e2).mid k h1 h2 h3

/-- A mesh that the wave-following moves can start from: `4 * side` cells, strictly increasing, with
edges at both ends of the source. -/
structure GoodStart (c : MeshConfig) (side : ℕ) (e0 : ℕ → ℝ) : Prop where
  cells : c.N = 4 * side
  two : 2 ≤ side
  strict : ∀ k < c.N, e0 k < e0 (k + 1)
  left : e0 side = -c.x0
  right : e0 (3 * side) = c.x0

theorem GoodStart.lt {c : MeshConfig} {side : ℕ} {e0 : ℕ → ℝ} (h : GoodStart c side e0) {i j : ℕ}
    (hij : i < j) (hj : j ≤ c.N) : e0 i < e0 j :=
  (show Increasing (c.N + 1) e0 from fun k hk => h.strict k (by omega)).lt hij (by omega)

theorem finder_strict {c : MeshConfig} {side : ℕ} {e0 : ℕ → ℝ} (hg : GoodStart c side e0)
    (hp : 0 < c.pad) (hl : c.pad < c.leaderPad) {s : MeshState} (h : Keeps c e0 s) (t : ℝ) :
    ∀ k < c.N, thickFinder c s t k < thickFinder c s t (k + 1) := by
  have hN := hg.cells
  have h2 := hg.two
  have d4 : c.N / 4 = side := by omega
  have d2 : c.N / 2 = 2 * side := by omega
  intro k hk
  rw [thickFinder_eq, thickFinder_eq]
  by_cases hw : t = 0 ∨ c.waveAt t < c.x0
  · rw [if_pos hw, if_pos hw, h.edges0]
    exact hg.strict k hk
  rw [if_neg hw, if_neg hw, d4]
  push Not at hw
  have hmid : ∀ k, side ≤ k → k < side + 2 * side → k + 3 < c.N → s.edges k = e0 k := by
    intro k a1 a2 a3
    exact h.mid k (by omega) (by omega) a3
  generalize hwdef : c.waveAt t = w at hw ⊢
  set e4 := max (w - c.pad) (e0 (c.N - 3)) with he4
  obtain ⟨right, hr⟩ : ∃ f, frontEdges c s w = f := ⟨_, rfl⟩
  have hright : ∀ k, right k =
      if k = c.N then max (w + c.leaderPad) (e0 c.N)
      else if k + 1 = c.N then max (w + c.pad) (e0 (c.N - 1))
      else if k + 2 = c.N then max w (e0 (c.N - 2))
      else if k + 3 = c.N then e4
      else if side + 2 * side ≤ k then (linspace c.x0 e4 (side - 2)).get (k - (side + 2 * side))
      else s.edges k := by
    intro k
    rw [← hr, frontEdges, d4, d2, h.edges0]
  rw [hr]
  have r0 : right c.N = max (w + c.leaderPad) (e0 c.N) := by rw [hright, if_pos rfl]
  have r1 : right (c.N - 1) = max (w + c.pad) (e0 (c.N - 1)) := by
    rw [hright, if_neg (by omega), if_pos (by omega)]
  have r2 : right (c.N - 2) = max w (e0 (c.N - 2)) := by
    rw [hright, if_neg (by omega), if_neg (by omega), if_pos (by omega)]
  have r3 : right (c.N - 3) = e4 := by
    rw [hright, if_neg (by omega), if_neg (by omega), if_neg (by omega), if_pos (by omega)]
  have rl : ∀ k, k + 3 < c.N → side + 2 * side ≤ k →
      right k = (linspace c.x0 e4 (side - 2)).get (k - (side + 2 * side)) := by
    intro k a1 a2
    rw [hright, if_neg (by omega), if_neg (by omega), if_neg (by omega), if_neg (by omega), if_pos a2]
  have rm : ∀ k, k + 3 < c.N → side ≤ k → k < side + 2 * side → right k = e0 k := by
    intro k a1 a2 a3
    rw [hright, if_neg (by omega), if_neg (by omega), if_neg (by omega), if_neg (by omega),
      if_neg (by omega)]
    exact hmid k a2 a3 a1
  have hlin : 3 < side → ∀ j, j < side - 3 →
      (linspace c.x0 e4 (side - 2)).get j < (linspace c.x0 e4 (side - 2)).get (j + 1) := by
    intro hs j _
    have hx : c.x0 < e4 := by
      rw [← hg.right]
      exact lt_of_lt_of_le (hg.lt (by omega) (by omega)) (le_max_right _ _)
    have : side - 2 = (side - 3) + 1 := by omega
    rw [this]
    exact linspace_strict hx (by omega) (Nat.lt_succ_self j)
  have hlast : 3 < side → (linspace c.x0 e4 (side - 2)).get (side - 3) = e4 := by
    intro hs
    have : side - 2 = (side - 3) + 1 := by omega
    rw [this]
    exact linspace_last _ _ (by omega)
  have e0lt : ∀ i, i + 1 ≤ c.N → e0 i < e0 (i + 1) := fun i hi => hg.strict i hi
  have step : ∀ k, side ≤ k → k < c.N → right k < right (k + 1) := by
    intro k a1 a2
    rcases Nat.lt_or_ge (k + 4) c.N with b | b
    · rcases Nat.lt_or_ge k (side + 2 * side) with b2 | b2
      · rw [rm k (by omega) a1 b2]
        rcases Nat.lt_or_ge (k + 1) (side + 2 * side) with b3 | b3
        · rw [rm (k + 1) (by omega) (by omega) b3]
          exact e0lt k (by omega)
        · have ek : k + 1 = 3 * side := by omega
          rw [rl (k + 1) (by omega) b3, ek, show 3 * side - (side + 2 * side) = 0 by omega,
            linspace_zero, ← hg.right, ← ek]
          exact e0lt k (by omega)
      · rw [rl k (by omega) b2, rl (k + 1) (by omega) (by omega),
          show k + 1 - (side + 2 * side) = k - (side + 2 * side) + 1 by omega]
        exact hlin (by omega) _ (by omega)
    · rcases (by omega : k + 4 = c.N ∨ k + 3 = c.N ∨ k + 2 = c.N ∨ k + 1 = c.N) with b | b | b | b
      · have e1 : k + 1 = c.N - 3 := by omega
        rw [e1, r3]
        rcases Nat.lt_or_ge k (side + 2 * side) with b2 | b2
        · rw [rm k (by omega) a1 b2]
          exact lt_of_lt_of_le (hg.lt (by omega) (by omega)) (le_max_right _ _)
        · rw [rl k (by omega) b2]
          conv_rhs => rw [← hlast (by omega)]
          rw [show side - 3 = k - (side + 2 * side) + 1 by omega]
          exact hlin (by omega) _ (by omega)
      · rw [show k + 1 = c.N - 2 by omega, show k = c.N - 3 by omega, r3, r2]
        exact max_lt_max (by linarith) (hg.lt (by omega) (by omega))
      · rw [show k + 1 = c.N - 1 by omega, show k = c.N - 2 by omega, r2, r1]
        exact max_lt_max (by linarith) (hg.lt (by omega) (by omega))
      · rw [show k + 1 = c.N by omega, show k = c.N - 1 by omega, r1, r0]
        exact max_lt_max (by linarith) (hg.lt (by omega) (by omega))
  rcases Nat.lt_or_ge (k + 1) side with b | b
  · rw [if_pos (by omega), if_pos b, neg_lt_neg_iff, show c.N - k = c.N - (k + 1) + 1 by omega]
    exact step _ (by omega) (by omega)
  · rcases Nat.lt_or_ge k side with b2 | b2
    · have e1 : k + 1 = side := by omega
      rw [if_pos b2, if_neg (by omega), e1, rm side (by omega) le_rfl (by omega), hg.left,
        neg_lt_neg_iff, show c.N - k = 3 * side + 1 by omega]
      rcases Nat.lt_or_ge 3 side with b3 | b3
      · have := step (3 * side) (by omega) (by omega)
        rwa [rl (3 * side) (by omega) (by omega), show 3 * side - (side + 2 * side) = 0 by omega,
          linspace_zero] at this
      · rcases (by omega : side = 2 ∨ side = 3) with rfl | rfl
        · rw [show 3 * 2 + 1 = c.N - 1 by omega, r1]
          rw [← hg.right]
          exact lt_of_lt_of_le (hg.lt (by omega) (by omega)) (le_max_right _ _)
        · rw [show 3 * 3 + 1 = c.N - 2 by omega, r2]
          rw [← hg.right]
          exact lt_of_lt_of_le (hg.lt (by omega) (by omega)) (le_max_right _ _)
    · rw [if_neg (by omega), if_neg (by omega)]
      exact step k b2 hk

/-- C116 (partial: from states whose stored initial edges form a mesh, which the constructor does
not produce): whatever front positions are looked up and whatever times are asked for, the edges
stay strictly ordered. -/
theorem c116_ordered_partial {c : MeshConfig} (hc : IsFollowing c) {side : ℕ} {e0 : ℕ → ℝ}
    (hg : GoodStart c side e0) (hp : 0 < c.pad) (hl : c.pad < c.leaderPad) {s s' : MeshState}
    (h : Keeps c e0 s) (ho : ∀ k < c.N, s.edges k < s.edges (k + 1)) {ts : List ℝ}
    (hm : meshRun c s ts = some s') : ∀ k < c.N, s'.edges k < s'.edges (k + 1) := by
  induction ts generalizing s with
  | nil =>
    injection hm with hm
    subst hm
    exact ho
  | cons t ts ih =>
    simp only [meshRun, Option.bind_eq_some_iff] at hm
    obtain ⟨s1, h1, h2⟩ := hm
    obtain ⟨k1, k2⟩ := keeps_move hc h h1
    refine ih k1 ?_ h2
    rcases k2 with k2 | k2
    · rw [k2]; exact ho
    · rw [k2]; exact finder_strict hg hp hl h t

/-- C116: the three edges before the last keep the distance `pad` from the front and the last the
distance `leader_pad`, as soon as these positions are outside the initial ones; the left half
mirrors the right one. -/
theorem c116_follows {c : MeshConfig} (hc : IsFollowing c) {s s' : MeshState} (hm : s.moving = true)
    (hr : ¬ reachedEnd c s) {t : ℝ} (ht : t ≠ 0) (hw : c.x0 ≤ c.waveAt t) (hN : 4 ≤ c.N)
    (h3 : s.edges0 (c.N - 3) ≤ c.waveAt t - c.pad) (h2 : s.edges0 (c.N - 2) ≤ c.waveAt t)
    (h1 : s.edges0 (c.N - 1) ≤ c.waveAt t + c.pad)
    (h0 : s.edges0 c.N ≤ c.waveAt t + c.leaderPad) (h : meshMove c s t = some s') :
    s'.edges c.N = c.waveAt t + c.leaderPad ∧ s'.edges (c.N - 1) = c.waveAt t + c.pad ∧
      s'.edges (c.N - 2) = c.waveAt t ∧ s'.edges (c.N - 3) = c.waveAt t - c.pad ∧
      ∀ k, k < c.N / 4 → s'.edges k = -s'.edges (c.N - k) := by
  rw [(move_following hc hm t).2 hr] at h
  injection h with h
  subst h
  have hn : ¬ (t = 0 ∨ c.waveAt t < c.x0) := by
    rintro (e | e)
    · exact ht e
    · linarith
  simp only [thickSquareMove, thickFinder_eq, if_neg hn]
  refine ⟨?_, ?_, ?_, ?_, fun k hk => ?_⟩
  · rw [if_neg (by omega), frontEdges, if_pos rfl, max_eq_left h0]
  · rw [if_neg (by omega), frontEdges, if_neg (by omega), if_pos (by omega), max_eq_left h1]
  · rw [if_neg (by omega), frontEdges, if_neg (by omega), if_neg (by omega), if_pos (by omega),
      max_eq_left h2]
  · rw [if_neg (by omega), frontEdges, if_neg (by omega), if_neg (by omega), if_neg (by omega),
      if_pos (by omega), max_eq_left h3]
  · rw [if_pos hk, if_neg (by omega)]

/-- C116: the other edges outside the source are equally spaced from its end to the trailing
edge. -/
theorem c116_spacing {c : MeshConfig} (hc : IsFollowing c) {s s' : MeshState} (hm : s.moving = true)
    (hr : ¬ reachedEnd c s) {t : ℝ} (ht : t ≠ 0) (hw : c.x0 ≤ c.waveAt t) {side : ℕ}
    (hN : c.N = 4 * side) (hs : 4 ≤ side) (h : meshMove c s t = some s') :
    ∀ j ≤ side - 3, s'.edges (3 * side + j) =
      c.x0 + (j : ℝ) / ((side : ℝ) - 3) * (s'.edges (c.N - 3) - c.x0) := by
  rw [(move_following hc hm t).2 hr] at h
  injection h with h
  subst h
  have hn : ¬ (t = 0 ∨ c.waveAt t < c.x0) := by
    rintro (e | e)
    · exact ht e
    · linarith
  have hside : (side : ℝ) - 3 ≠ 0 := by
    have : (4 : ℝ) ≤ side := by exact_mod_cast hs
    linarith
  intro j hj
  simp only [thickSquareMove, thickFinder_eq, if_neg hn]
  rw [if_neg (by omega), if_neg (by omega)]
  have e3 : frontEdges c s (c.waveAt t) (c.N - 3) =
      max (c.waveAt t - c.pad) (s.edges0 (c.N - 3)) := by
    rw [frontEdges, if_neg (by omega), if_neg (by omega), if_neg (by omega), if_pos (by omega)]
  rw [e3]
  rcases Nat.lt_or_ge j (side - 3) with b | b
  · rw [frontEdges, if_neg (by omega), if_neg (by omega), if_neg (by omega), if_neg (by omega),
      if_pos (by omega), show 3 * side + j - (c.N / 4 + c.N / 2) = j by omega,
      show c.N / 4 - 2 = side - 3 + 1 by omega, linspace_get, Nat.cast_sub (by omega)]
    push_cast
    ring
  · have ej : j = side - 3 := by omega
    rw [show 3 * side + j = c.N - 3 by omega, e3, ej, Nat.cast_sub (by omega)]
    push_cast
    rw [div_self hside]
    ring

/-- C116: while the front is within the source the edges are the stored initial ones. -/
theorem c116_waits {c : MeshConfig} (hc : IsFollowing c) {s s' : MeshState} (hm : s.moving = true)
    (hr : ¬ reachedEnd c s) {t : ℝ} (hw : t = 0 ∨ c.waveAt t < c.x0)
    (h : meshMove c s t = some s') (k : ℕ) : s'.edges k = s.edges0 k := by
  rw [(move_following hc hm t).2 hr] at h
  injection h with h
  subst h
  simp only [thickSquareMove]
  rw [thickFinder_eq, if_pos hw]

theorem frontEdges_affine {c : MeshConfig} {s s1 : MeshState} (he : s1.edges0 = s.edges0)
    (hmid : ∀ k, c.N / 4 ≤ k → k < c.N / 4 + c.N / 2 → k + 3 < c.N → s1.edges k = s.edges k)
    {w w' : ℝ} (hww : w ≤ w')
    (h3 : s.edges0 (c.N - 3) ≤ w - c.pad) (h2 : s.edges0 (c.N - 2) ≤ w)
    (h1 : s.edges0 (c.N - 1) ≤ w + c.pad) (h0 : s.edges0 c.N ≤ w + c.leaderPad) :
    ∀ k, c.N / 4 ≤ k → k ≤ c.N → ∃ a : ℝ, frontEdges c s1 w' k = frontEdges c s w k + a * (w' - w) ∧
      ∀ s2 : MeshState, s2.edges0 = s.edges0 →
        (∀ k, c.N / 4 ≤ k → k < c.N / 4 + c.N / 2 → k + 3 < c.N → s2.edges k = s.edges k) →
        ∀ v, w ≤ v → frontEdges c s2 v k = frontEdges c s w k + a * (v - w) := by
  intro k hk hkN
  have key : ∃ a : ℝ, ∀ s2 : MeshState, s2.edges0 = s.edges0 →
        (∀ k, c.N / 4 ≤ k → k < c.N / 4 + c.N / 2 → k + 3 < c.N → s2.edges k = s.edges k) →
        ∀ v, w ≤ v → frontEdges c s2 v k = frontEdges c s w k + a * (v - w) := by
    by_cases c0 : k = c.N
    · refine ⟨1, fun s2 e2 _ v hv => ?_⟩
      rw [frontEdges, frontEdges, if_pos c0, if_pos c0, e2, max_eq_left h0,
        max_eq_left (by linarith)]
      ring
    by_cases c1 : k + 1 = c.N
    · refine ⟨1, fun s2 e2 _ v hv => ?_⟩
      rw [frontEdges, frontEdges, if_neg c0, if_neg c0, if_pos c1, if_pos c1, e2, max_eq_left h1,
        max_eq_left (by linarith)]
      ring
    by_cases c2 : k + 2 = c.N
    · refine ⟨1, fun s2 e2 _ v hv => ?_⟩
      rw [frontEdges, frontEdges, if_neg c0, if_neg c0, if_neg c1, if_neg c1, if_pos c2, if_pos c2,
        e2, max_eq_left h2, max_eq_left (by linarith)]
      ring
    by_cases c3 : k + 3 = c.N
    · refine ⟨1, fun s2 e2 _ v hv => ?_⟩
      rw [frontEdges, frontEdges, if_neg c0, if_neg c0, if_neg c1, if_neg c1, if_neg c2, if_neg c2,
        if_pos c3, if_pos c3, e2, max_eq_left h3, max_eq_left (by linarith)]
      ring
    by_cases c4 : c.N / 4 + c.N / 2 ≤ k
    · refine ⟨((k - (c.N / 4 + c.N / 2) : ℕ) : ℝ) / (((c.N / 4 - 2 : ℕ) : ℝ) - 1),
        fun s2 e2 _ v hv => ?_⟩
      rw [frontEdges, frontEdges, if_neg c0, if_neg c0, if_neg c1, if_neg c1, if_neg c2, if_neg c2,
        if_neg c3, if_neg c3, if_pos c4, if_pos c4, e2, max_eq_left h3, max_eq_left (by linarith)]
      simp only [linspace]
      ring
    · refine ⟨0, fun s2 e2 m2 v hv => ?_⟩
      rw [frontEdges, frontEdges, if_neg c0, if_neg c0, if_neg c1, if_neg c1, if_neg c2, if_neg c2,
        if_neg c3, if_neg c3, if_neg c4, if_neg c4, m2 k hk (by omega) (by omega)]
      ring
  obtain ⟨a, ha⟩ := key
  exact ⟨a, ha s1 he hmid w' hww, ha⟩

/-- C116 (partial: while the looked-up front advances with constant speed `v ≥ 0` during the next
`1e-7`, and is outside the initial positions): the reported velocities, which are difference
quotients, are the exact rates: a later request within this time moves every edge by the velocity
times the time passed. -/
theorem c116_velocity_partial {c : MeshConfig} (hc : IsFollowing c)
    {s s1 s2 : MeshState} (hm : s.moving = true) {t r v : ℝ} (ht : 0 < t) (hv : 0 ≤ v)
    (hw : c.x0 ≤ c.waveAt t)
    (hrate : ∀ d, 0 ≤ d → d ≤ 1 / 10 ^ 7 → c.waveAt (t + d) = c.waveAt t + v * d)
    (h3 : s.edges0 (c.N - 3) ≤ c.waveAt t - c.pad) (h2 : s.edges0 (c.N - 2) ≤ c.waveAt t)
    (h1 : s.edges0 (c.N - 1) ≤ c.waveAt t + c.pad)
    (h0 : s.edges0 c.N ≤ c.waveAt t + c.leaderPad)
    (hr0 : 0 ≤ r) (hr1 : r ≤ 1 / 10 ^ 7) (hr : ¬ reachedEnd c s) (hr' : ¬ reachedEnd c s1)
    (e1 : meshMove c s t = some s1) (e2 : meshMove c s1 (t + r) = some s2) :
    ∀ k ≤ c.N, s2.edges k = s1.edges k + r * s1.Dedges k := by
  rw [(move_following hc hm t).2 hr] at e1
  injection e1 with e1
  have hm1 : s1.moving = true := by rw [← e1]; exact hm
  rw [(move_following hc hm1 (t + r)).2 hr'] at e2
  injection e2 with e2
  have far : ∀ d, 0 ≤ d → d ≤ 1 / 10 ^ 7 → ¬ (t + d = 0 ∨ c.waveAt (t + d) < c.x0) := by
    rintro d a1 a2 (e | e)
    · linarith
    · rw [hrate d a1 a2] at e
      nlinarith [mul_nonneg hv a1]
  have far0 : ¬ (t = 0 ∨ c.waveAt t < c.x0) := by
    rintro (e | e) <;> linarith
  have edges1 : s1.edges = thickFinder c s t := by rw [← e1]; rfl
  have edges01 : s1.edges0 = s.edges0 := by rw [← e1]; rfl
  have mid1 : ∀ k, c.N / 4 ≤ k → k < c.N / 4 + c.N / 2 → k + 3 < c.N → s1.edges k = s.edges k := by
    intro k a1 a2 a3
    rw [edges1, thickFinder_eq, if_neg far0, if_neg (by omega), frontEdges, if_neg (by omega),
      if_neg (by omega), if_neg (by omega), if_neg (by omega), if_neg (by omega)]
  -- the state from which the second look-up is made
  have deriv1 : s1.Dedges = fun k =>
      (thickFinder c { s with edges := thickFinder c s t } (t + 1 / 10 ^ 7) k -
        thickFinder c s t k) / (1 / 10 ^ 7) := by rw [← e1]; rfl
  have edges2 : s2.edges = thickFinder c s1 (t + r) := by rw [← e2]; rfl
  have base : ∀ k, c.N / 4 ≤ k → k ≤ c.N → ∃ a : ℝ,
      (∀ d, 0 ≤ d → d ≤ 1 / 10 ^ 7 → ∀ s3 : MeshState, s3.edges0 = s.edges0 →
        (∀ k, c.N / 4 ≤ k → k < c.N / 4 + c.N / 2 → k + 3 < c.N → s3.edges k = s.edges k) →
        frontEdges c s3 (c.waveAt (t + d)) k = frontEdges c s (c.waveAt t) k + a * d) := by
    intro k a1 a2
    obtain ⟨a, -, ha⟩ := frontEdges_affine (c := c) (s := s) (s1 := s) rfl (fun _ _ _ _ => rfl)
      (le_refl (c.waveAt t)) h3 h2 h1 h0 k a1 a2
    refine ⟨a * v, fun d b1 b2 s3 f1 f2 => ?_⟩
    rw [hrate d b1 b2, ha s3 f1 f2 _ (by nlinarith [mul_nonneg hv b1])]
    ring
  have mid1' : ∀ k, c.N / 4 ≤ k → k < c.N / 4 + c.N / 2 → k + 3 < c.N →
      ({ s with edges := thickFinder c s t } : MeshState).edges k = s.edges k := by
    intro k a1 a2 a3
    have := mid1 k a1 a2 a3
    rw [edges1] at this
    exact this
  have hδ : (0 : ℝ) ≤ 1 / 10 ^ 7 := by positivity
  intro k hk
  rw [edges2, edges1, deriv1]
  dsimp only
  rw [thickFinder_eq c s1, thickFinder_eq c s t, thickFinder_eq c _ (t + 1 / 10 ^ 7),
    if_neg far0, if_neg (far r hr0 hr1), if_neg (far _ hδ le_rfl)]
  by_cases hs : k < c.N / 4
  · rw [if_pos hs, if_pos hs, if_pos hs]
    obtain ⟨a, ha⟩ := base (c.N - k) (by omega) (by omega)
    rw [ha r hr0 hr1 s1 edges01 mid1, ha _ hδ le_rfl { s with edges := thickFinder c s t } rfl mid1']
    field_simp
    ring
  · rw [if_neg hs, if_neg hs, if_neg hs]
    obtain ⟨a, ha⟩ := base k (by omega) hk
    rw [ha r hr0 hr1 s1 edges01 mid1, ha _ hδ le_rfl { s with edges := thickFinder c s t } rfl mid1']
    field_simp
    ring

/-- C116: the looked-up front advances with constant speed between two stored times, as
`c116_velocity_partial` asks for. -/
theorem c116_front_rate {c : MeshConfig} {n : ℕ} {memory : ℕ → ℝ}
    (hc : c.waveAt = fun t => (frontAt n memory t).getD 0)
    (hx : Increasing n (waveRow n memory 0)) {k : ℕ} (hk : k + 1 < n) {t : ℝ}
    (h1 : waveRow n memory 0 k ≤ t) (h2 : t + 1 / 10 ^ 7 ≤ waveRow n memory 0 (k + 1))
    (h3 : t + 1 / 10 ^ 7 < waveRow n memory 0 (n - 1)) :
    ∀ d, 0 ≤ d → d ≤ 1 / 10 ^ 7 → c.waveAt (t + d) = c.waveAt t +
      (waveRow n memory 3 (k + 1) - waveRow n memory 3 k) /
        (waveRow n memory 0 (k + 1) - waveRow n memory 0 k) * d := by
  intro d d0 d1
  have hδ : (0 : ℝ) ≤ 1 / 10 ^ 7 := by positivity
  rw [hc]
  dsimp only
  rw [c115_front hx hk (t := t + d) (by linarith) (by linarith) (Or.inl (by linarith)),
    c115_front hx hk (t := t) h1 (by linarith) (Or.inl (by linarith))]
  simp only [Option.getD_some]
  ring

/-- C116: at time zero the reported velocity of the last edge is ten million times the distance from
its initial position to where it belongs `1e-7` later. -/
theorem c116_jump {c : MeshConfig} (hc : IsFollowing c) {s s1 : MeshState} (hm : s.moving = true)
    (hr : ¬ reachedEnd c s) (hw : c.x0 ≤ c.waveAt (1 / 10 ^ 7)) (hN : 4 ≤ c.N)
    (e1 : meshMove c s 0 = some s1) :
    s1.edges c.N = s.edges0 c.N ∧ s1.Dedges c.N =
      10 ^ 7 * (max (c.waveAt (1 / 10 ^ 7) + c.leaderPad) (s.edges0 c.N) - s.edges0 c.N) := by
  rw [(move_following hc hm 0).2 hr] at e1
  injection e1 with e1
  subst e1
  have hn : ¬ ((0 : ℝ) + 1 / 10 ^ 7 = 0 ∨ c.waveAt (0 + 1 / 10 ^ 7) < c.x0) := by
    rw [zero_add]
    rintro (e | e)
    · norm_num at e
    · linarith
  have hz : (0 : ℝ) = 0 ∨ c.waveAt 0 < c.x0 := Or.inl rfl
  constructor
  · simp only [thickSquareMove]
    rw [thickFinder_eq, if_pos hz]
  · simp only [thickSquareMove]
    rw [thickFinder_eq, thickFinder_eq, if_neg hn, if_pos hz, if_neg (by omega), frontEdges,
      if_pos rfl, zero_add]
    rw [div_div_eq_mul_div]
    ring

/-- C116: the constructed mesh has an edge at the right end of the source, but the edge that should
be at the left end is at `-1/2` whatever the source is. -/
theorem c116_initial {c : MeshConfig} (h : IsFollowing c) {s : MeshState} {side : ℕ}
    (hN : c.N = 4 * side) (h1 : 1 ≤ side) (hq : c.thickQuad.size = 2 * side + 1)
    (hq0 : c.thickQuad.get 0 = -1) (hs : meshInit c = some s) :
    s.edges side = -(1 / 2) ∧ s.edges (3 * side) = c.x0 ∧
      s.edges 0 = -c.x0 - 1 / 10 ^ 3 ∧ s.edges c.N = c.x0 + 1 / 10 ^ 3 := by
  obtain ⟨-, he, -, -⟩ := following_init h hs
  have d : c.N / 2 / 2 = side := by omega
  rw [he]
  simp only [thickSquareEdges, Arr.append, Arr.dropLast, Arr.map, d, hq]
  have s1 : (linspace (-c.x0 - 1 / 10 ^ 3) (-c.x0) (side + 1)).size = side + 1 := rfl
  rw [s1]
  refine ⟨?_, ?_, ?_, ?_⟩
  · rw [if_pos (by omega), if_neg (by omega), show side - (side + 1 - 1) = 0 by omega, hq0]
    norm_num
  · rw [if_neg (by omega),
      show 3 * side - (side + 1 - 1 + (2 * side + 1 - 1)) = 0 by omega, linspace_zero]
  · rw [if_pos (by omega), if_pos (by omega), linspace_zero]
  · rw [if_neg (by omega), show c.N - (side + 1 - 1 + (2 * side + 1 - 1)) = side by omega,
      linspace_last _ _ h1]

/-- C116 is false for sources narrower than one: the constructed mesh is not even in order. -/
theorem c116_initial_crossed {c : MeshConfig} (h : IsFollowing c) {s : MeshState} {side : ℕ}
    (hN : c.N = 4 * side) (h1 : 1 ≤ side) (hq : c.thickQuad.size = 2 * side + 1)
    (hq0 : c.thickQuad.get 0 = -1) (hs : meshInit c = some s) (hx : c.x0 + 1 / 10 ^ 3 < 1 / 2) :
    s.edges side < s.edges 0 := by
  obtain ⟨e1, -, e2, -⟩ := c116_initial h hN h1 hq hq0 hs
  rw [e1, e2]
  linarith

/-! ### An example of a wave-following mesh -/

/-- Sixteen cells, half width `1/2`, a front that leaves the source with speed one. -/
noncomputable def exampleFollowing : MeshConfig :=
  { exampleSquareMesh with
    N := 16, thick := true, moveFunc := 1, finiteDomain := true, domainWidth := 100
    sourceType := [0, 0, 1, 0, 0, 0], pad := 1 / 10, leaderPad := 1
    thickQuad := ⟨9, fun i => (i : ℝ) / 4 - 1⟩
    waveAt := fun t => 1 / 2 + t }

theorem exampleFollowing_class : IsFollowing exampleFollowing :=
  ⟨rfl, rfl, rfl, rfl, by decide, by decide, by decide, by decide, by decide⟩

theorem exampleFollowing_init : ∃ s, meshInit exampleFollowing = some s ∧
    ¬ reachedEnd exampleFollowing s := by
  have h0 : ¬ (exampleFollowing.st 0 = 1 ∨ exampleFollowing.st 0 = 2) := by decide
  have h35 : ¬ (exampleFollowing.st 3 = 1 ∨ exampleFollowing.st 5 = 1) := by decide
  have h : ∃ s, meshInit exampleFollowing = some s := by
    unfold meshInit chooseInit
    simp only [if_neg h0, exampleFollowing_class.thick, Bool.true_eq_false, if_false, if_neg h35,
      exampleFollowing_class.s2, true_or, or_true, if_true, exampleFollowing_class.func,
      one_ne_zero, exampleFollowing_class.moving, thickSquareInit]
    rw [if_pos (by rfl)]
    simp only [Option.bind_some, finishInit, exampleFollowing_class.moving, Bool.true_eq_false,
      if_false]
    exact ⟨_, rfl⟩
  obtain ⟨s, hs⟩ := h
  refine ⟨s, hs, ?_⟩
  obtain ⟨-, -, -, e⟩ := c116_initial exampleFollowing_class (side := 4) rfl (by norm_num) rfl
    (by norm_num [exampleFollowing]) hs
  rintro ⟨-, h | h⟩
  · rw [e] at h
    norm_num [exampleFollowing, exampleSquareMesh] at h
  · rw [e] at h
    norm_num [exampleFollowing, exampleSquareMesh, abs_of_neg] at h

/-- The constructed example collapses at the first request for time zero. -/
example : ∃ s s', meshInit exampleFollowing = some s ∧ meshMove exampleFollowing s 0 = some s' ∧
    ∀ k, s'.edges k = 0 := by
  obtain ⟨s, hs, hr⟩ := exampleFollowing_init
  have hm := (move_following exampleFollowing_class
    (following_init exampleFollowing_class hs).1 0).2 hr
  exact ⟨s, _, hs, hm, c116_collapses exampleFollowing_class hs hr hm⟩

/-- The state the constructor would leave if it stored its edges. -/
noncomputable def exampleFollowingState : MeshState where
  moving := true
  edges := fun k => ((k : ℝ) - 8) / 8
  edges0 := fun k => ((k : ℝ) - 8) / 8
  Dedges := fun _ => 0
  DedgesConst := fun _ => 0
  accel := none

theorem exampleFollowing_good :
    GoodStart exampleFollowing 4 (fun k => ((k : ℝ) - 8) / 8) where
  cells := rfl
  two := by norm_num
  strict := fun k _ => by
    push_cast
    linarith
  left := by norm_num [exampleFollowing, exampleSquareMesh]
  right := by norm_num [exampleFollowing, exampleSquareMesh]

example (ts : List ℝ) (s' : MeshState)
    (h : meshRun exampleFollowing exampleFollowingState ts = some s') :
    ∀ k < 16, s'.edges k < s'.edges (k + 1) :=
  c116_ordered_partial exampleFollowing_class exampleFollowing_good
    (by norm_num [exampleFollowing]) (by norm_num [exampleFollowing])
    (s := exampleFollowingState) ⟨rfl, rfl, fun _ _ _ _ => rfl⟩
    (fun k _ => by
      show ((k : ℝ) - 8) / 8 < (((k + 1 : ℕ) : ℝ) - 8) / 8
      push_cast
      linarith) h

/-- The exact rates of `c116_velocity_partial` at time one. -/
example (s1 s2 : MeshState) (h1 : meshMove exampleFollowing exampleFollowingState 1 = some s1)
    (h2 : meshMove exampleFollowing s1 (1 + 1 / 10 ^ 8) = some s2) (hr : ¬ reachedEnd exampleFollowing s1) :
    ∀ k ≤ 16, s2.edges k = s1.edges k + 1 / 10 ^ 8 * s1.Dedges k := by
  refine c116_velocity_partial exampleFollowing_class
    (s := exampleFollowingState) (v := 1) rfl one_pos zero_le_one ?_ (fun d _ _ => ?_) ?_ ?_ ?_ ?_
    (by norm_num) (by norm_num) ?_ hr h1 h2
  · norm_num [exampleFollowing, exampleSquareMesh]
  · simp only [exampleFollowing]
    ring
  · norm_num [exampleFollowing, exampleFollowingState]
  · norm_num [exampleFollowing, exampleFollowingState]
  · norm_num [exampleFollowing, exampleFollowingState]
  · norm_num [exampleFollowing, exampleFollowingState]
  · rintro ⟨-, h | h⟩
    · norm_num [exampleFollowing, exampleFollowingState] at h
    · norm_num [exampleFollowing, exampleFollowingState, abs_of_neg] at h

/-! ### C117 -/

/-- C117: `find_T_wave` returns the distance from the origin of the first point at which the
derivative is smallest. -/
theorem c117_front (n : ℕ) (xs deriv : ℕ → ℝ) : ∃ i ≤ n, findTWave n xs deriv = |xs i| ∧
    (∀ j ≤ n, deriv i ≤ deriv j) ∧ ∀ j < i, deriv i < deriv j := by
  set least := deriv (firstMin deriv n) with hl
  set i := firstMin (fun i => |deriv i - least|) n with hi
  have h1 : deriv i = least := by
    have := firstMin_min (fun i => |deriv i - least|) n (firstMin deriv n) (firstMin_le _ _)
    simp only [← hi, ← hl, sub_self, abs_zero] at this
    exact sub_eq_zero.1 (abs_eq_zero.1 (le_antisymm this (abs_nonneg _)))
  refine ⟨i, firstMin_le _ _, rfl, fun j hj => ?_, fun j hj => ?_⟩
  · rw [h1]
    exact firstMin_min deriv n j hj
  · have h2 := firstMin_first (fun i => |deriv i - least|) n j hj
    have h3 : least ≤ deriv j :=
      firstMin_min deriv n j (hj.le.trans (firstMin_le _ _))
    rw [h1]
    refine lt_of_le_of_ne h3 fun e => ?_
    simp only [← hi, h1, ← e, sub_self, abs_zero, lt_irrefl] at h2

/-- C117: the front found is inside the interval of the points. -/
theorem c117_front_bound {n : ℕ} {xs : ℕ → ℝ} {r : ℝ} (h : ∀ i ≤ n, |xs i| ≤ r) (deriv : ℕ → ℝ) :
    0 ≤ findTWave n xs deriv ∧ findTWave n xs deriv ≤ r := by
  obtain ⟨i, hi, e, -⟩ := c117_front n xs deriv
  rw [e]
  exact ⟨abs_nonneg _, h i hi⟩

/-- C117 is false for an increasing energy profile, whose steepest descent is on no side: the front
of the derivative `1, 2, 1` is at the first point although the profile changes most in the
middle. -/
theorem c117_descent_only : findTWave 2 (fun i => (i : ℝ)) (fun i => if i = 1 then 2 else 1) = 0 := by
  obtain ⟨i, hi, e, h1, h2⟩ := c117_front 2 (fun i => (i : ℝ)) (fun i => if i = 1 then 2 else 1)
  rw [e]
  interval_cases i
  · simp
  · have := h1 0 (by norm_num)
    norm_num at this
  · have := h2 0 (by norm_num)
    norm_num at this

/-- C117 is false for the bounds: they do not depend on the solution.  For square sources they are
the end of the source, or a mean free path where that is larger on the left. -/
theorem c117_bounds_square {st : List ℤ} {x0 sigma : ℝ} (h : st.getD 1 0 = 1 ∨ st.getD 2 0 = 1)
    (hx : 0 < x0) : findWaveBounds st x0 sigma = some (max x0 (1 / sigma), x0) := by
  simp only [findWaveBounds, if_pos h, Option.map_some, abs_of_pos hx]
  split_ifs with h1
  · rw [max_eq_right h1.le]
  · rw [max_eq_left (not_lt.1 h1)]

/-- The same for Gaussian sources: a mean free path on the left, the origin on the right. -/
theorem c117_bounds_gaussian {st : List ℤ} {x0 sigma : ℝ} (h1 : st.getD 1 0 ≠ 1)
    (h2 : st.getD 2 0 ≠ 1) (h : st.getD 3 0 = 1 ∨ st.getD 5 0 = 1) (hs : 0 < sigma) :
    findWaveBounds st x0 sigma = some (1 / sigma, 0) := by
  have hn : ¬ (st.getD 1 0 = 1 ∨ st.getD 2 0 = 1) := by
    rintro (e | e)
    · exact h1 e
    · exact h2 e
  simp only [findWaveBounds, if_neg hn, if_pos h, Option.map_some, abs_zero,
    if_pos (one_div_pos.2 hs)]

/-- For every other source the search ends with a name that has no value. -/
theorem c117_bounds_other {st : List ℤ} {x0 sigma : ℝ} (h1 : st.getD 1 0 ≠ 1)
    (h2 : st.getD 2 0 ≠ 1) (h3 : st.getD 3 0 ≠ 1) (h5 : st.getD 5 0 ≠ 1) :
    findWaveBounds st x0 sigma = none := by
  have a : ¬ (st.getD 1 0 = 1 ∨ st.getD 2 0 = 1) := not_or.2 ⟨h1, h2⟩
  have b : ¬ (st.getD 3 0 = 1 ∨ st.getD 5 0 = 1) := not_or.2 ⟨h3, h5⟩
  simp only [findWaveBounds, if_neg a, if_neg b, Option.map_none]

example : findWaveBounds [0, 0, 1, 0, 0, 0] (1 / 2) 100 = some (1 / 2, 1 / 2) := by
  rw [c117_bounds_square (Or.inr (by decide)) (by norm_num), max_eq_left (by norm_num)]

example : findTWave 3 (fun i => (i : ℝ)) (fun i => if i = 2 then -5 else -1) = 2 := by
  obtain ⟨i, hi, e, h1, h2⟩ := c117_front 3 (fun i => (i : ℝ)) (fun i => if i = 2 then -5 else -1)
  rw [e]
  have := h1 2 (by norm_num)
  interval_cases i
  · norm_num at this
  · norm_num at this
  · norm_num
  · norm_num at this

end Verif.Props
