import Verif.Model.SpareFunctions
import Verif.Props.UncollidedS2
import Mathlib.Analysis.SpecialFunctions.Gaussian.GaussianIntegral
import Mathlib.Tactic.IntervalCases

/-! C146: functions of other files that no run calls. -/

namespace Verif.Props

open MeasureTheory Real Set Verif.Spec Verif.Model

/-! ### Edges -/

/-- C146: the function outside of the class makes the mesh of the class, for all arguments with more than one cell; a
fixed mesh of the class is the one for speed zero. -/
theorem c146_outside (c : MeshConfig) (hN : 1 < c.N) (s : MeshState) (v : ℝ) :
    boundaryInit c s v = (boundaryInitOutside (if s.moving = false then 0 else v) c.N c.x0 c.tfinal).map
      fun r => { s with edges := r.1, edges0 := r.2.1, Dedges := r.2.2 } := by
  have h1 : ∀ a b a' b' : ℝ, ((linspace a b (c.N / 2 + 1)).dropLast.append (linspace a' b' (c.N / 2 + 1))).size ≠ 1 := by
    intro a b a' b'
    change c.N / 2 + 1 - 1 + (c.N / 2 + 1) ≠ 1
    omega
  unfold boundaryInit boundaryInitOutside boundaryFinal
  dsimp only
  rw [if_neg (c := _ = 1) (h1 _ _ _ _)]
  split_ifs <;> rfl

/-- C146: for an even number of cells the middle edge is at `-v0 t` at all times, the outer ones stay, and the
edges are in order as long as the middle one is between the outer ones at the end. -/
theorem c146_shock {v0 x0 tfinal : ℝ} {n : ℕ} (hn : 1 ≤ n) (hx : 0 < x0) (hT : 0 < tfinal)
    {e e0 d : ℕ → ℝ} (h : boundaryInitOutside v0 (2 * n) x0 tfinal = some (e, e0, d)) (t : ℝ) :
    e = e0 ∧ e0 n + d n * t = -v0 * t ∧ e0 0 + d 0 * t = -x0 ∧ e0 (2 * n) + d (2 * n) * t = x0 ∧
      (0 ≤ t → t ≤ tfinal → |v0| * tfinal < x0 → ∀ k, k < 2 * n → e0 k + d k * t < e0 (k + 1) + d (k + 1) * t) := by
  have hn' : (0 : ℝ) < n := by exact_mod_cast hn
  unfold boundaryInitOutside at h
  dsimp only at h
  have hs : ((linspace (-x0) (-tfinal * v0) (2 * n / 2 + 1)).dropLast.append
      (linspace (-tfinal * v0) x0 (2 * n / 2 + 1))).size = (linspace (-x0) x0 (2 * n + 1)).size := by
    change 2 * n / 2 + 1 - 1 + (2 * n / 2 + 1) = 2 * n + 1
    omega
  rw [if_pos hs] at h
  simp only [Option.some.injEq, Prod.mk.injEq] at h
  obtain ⟨rfl, rfl, rfl⟩ := h
  have h2 : 2 * n / 2 = n := by omega
  simp only [Arr.append, Arr.dropLast, linspace, h2, Nat.add_sub_cancel]
  push_cast
  refine ⟨trivial, ?_, ?_, ?_, ?_⟩
  · simp only [lt_irrefl, if_false, Nat.sub_self]
    field_simp
    ring
  · rw [if_pos (by omega)]
    ring
  · rw [if_neg (by omega), show 2 * n - n = n by omega, add_sub_cancel_right, add_sub_cancel_right]
    field_simp
    ring
  · intro ht0 htT hv k hk
    obtain ⟨b1, b2⟩ := abs_lt.1 (show |v0 * tfinal| < x0 by rwa [abs_mul, abs_of_pos hT])
    have hr0 : 0 ≤ t / tfinal := by positivity
    have hr1 : t / tfinal ≤ 1 := (div_le_one hT).2 htT
    -- every edge is a mean of its first and its last position
    have mean : ∀ a f : ℝ, a + (f - a) / tfinal * t = a * (1 - t / tfinal) + f * (t / tfinal) := by
      intro a f
      field_simp
      ring
    rw [mean, mean]
    have ha : -x0 + (k : ℝ) * ((x0 - -x0) / (2 * (n : ℝ) + 1 - 1)) <
        -x0 + ((k + 1 : ℕ) : ℝ) * ((x0 - -x0) / (2 * (n : ℝ) + 1 - 1)) := by
      have : 0 < (x0 - -x0) / (2 * (n : ℝ) + 1 - 1) := by
        rw [add_sub_cancel_right]
        exact div_pos (by linarith) (by positivity)
      push_cast
      linarith
    have hf : (if k < n then -x0 + (k : ℝ) * ((-tfinal * v0 - -x0) / ((n : ℝ) + 1 - 1))
          else -tfinal * v0 + ((k - n : ℕ) : ℝ) * ((x0 - -tfinal * v0) / ((n : ℝ) + 1 - 1))) <
        (if k + 1 < n then -x0 + ((k + 1 : ℕ) : ℝ) * ((-tfinal * v0 - -x0) / ((n : ℝ) + 1 - 1))
          else -tfinal * v0 + ((k + 1 - n : ℕ) : ℝ) * ((x0 - -tfinal * v0) / ((n : ℝ) + 1 - 1))) := by
      rw [add_sub_cancel_right]
      have p1 : 0 < (-tfinal * v0 - -x0) / (n : ℝ) := div_pos (by linarith) hn'
      have p2 : 0 < (x0 - -tfinal * v0) / (n : ℝ) := div_pos (by linarith) hn'
      split_ifs with c1 c2 c2
      · push_cast; linarith
      · have : k + 1 = n := by omega
        rw [show k + 1 - n = 0 by omega]
        have e : ((n : ℝ)) * ((-tfinal * v0 - -x0) / (n : ℝ)) = -tfinal * v0 - -x0 := by field_simp
        have e2 : (n : ℝ) = k + 1 := by exact_mod_cast this.symm
        generalize (-tfinal * v0 - -x0) / (n : ℝ) = q at *
        rw [e2] at e
        push_cast
        linarith
      · omega
      · rw [show k + 1 - n = (k - n) + 1 by omega]
        push_cast
        linarith
    rcases hr0.eq_or_lt with hz | hz
    · rw [← hz]
      simpa using ha
    · have m1 := mul_le_mul_of_nonneg_right ha.le (sub_nonneg.2 hr1)
      have m2 := mul_lt_mul_of_pos_right hf hz
      push_cast at m1 m2
      linarith

/-- C146: an odd number of cells is refused, except one. -/
theorem c146_odd (v0 : ℝ) {N : ℕ} (h : N % 2 = 1) (h1 : N ≠ 1) (x0 tfinal : ℝ) :
    boundaryInitOutside v0 N x0 tfinal = none := by
  have hs : ∀ a b a' b' : ℝ, ((linspace a b (N / 2 + 1)).dropLast.append (linspace a' b' (N / 2 + 1))).size =
      N / 2 + 1 - 1 + (N / 2 + 1) := fun _ _ _ _ => rfl
  have he : ∀ a b : ℝ, (linspace a b (N + 1)).size = N + 1 := fun _ _ => rfl
  unfold boundaryInitOutside
  dsimp only
  rw [hs, he, if_neg (by omega), if_neg (by omega)]

/-- C146: with one cell both edges go to the shock, so the cell is gone at the end. -/
theorem c146_one_cell (v0 x0 : ℝ) {tfinal : ℝ} (hT : 0 < tfinal) : ∃ e0 d, boundaryInitOutside v0 1 x0 tfinal =
    some (e0, e0, d) ∧ e0 0 = -x0 ∧ e0 1 = x0 ∧ e0 0 + d 0 * tfinal = -v0 * tfinal ∧
      e0 1 + d 1 * tfinal = -v0 * tfinal := by
  refine ⟨_, _, by
    unfold boundaryInitOutside
    dsimp only
    exact (if_neg (by change ¬ (1 / 2 + 1 - 1 + (1 / 2 + 1) = 1 + 1); omega)).trans
      (if_pos (by change 1 / 2 + 1 - 1 + (1 / 2 + 1) = 1; omega)), ?_, ?_, ?_, ?_⟩
  · simp [linspace]
  · simp [linspace]
    ring
  · simp [linspace, Arr.append, Arr.dropLast]
    field_simp
    ring
  · simp [linspace, Arr.append, Arr.dropLast]
    field_simp
    ring

example : ∃ e e0 d, boundaryInitOutside (1 / 4) (2 * 2) 1 2 = some (e, e0, d) := by
  refine ⟨_, _, _, by
    unfold boundaryInitOutside
    dsimp only
    exact if_pos (by change 2 * 2 / 2 + 1 - 1 + (2 * 2 / 2 + 1) = 2 * 2 + 1; omega)⟩

/-- What `set_func` leaves at one place. -/
theorem setFunc_eq (loc speed : ℕ → ℝ) (l : List ℕ) (c : ℕ) (s : (ℕ → ℝ) × (ℕ → ℝ)) :
    (∀ k, k ∉ l → (setFunc loc speed l c s).1 k = s.1 k ∧ (setFunc loc speed l c s).2 k = s.2 k) ∧
    (l.Nodup → ∀ i (hi : i < l.length), (setFunc loc speed l c s).1 l[i] = loc (c + i) ∧
      (setFunc loc speed l c s).2 l[i] = speed (c + i)) := by
  induction l generalizing c s with
  | nil => simp [setFunc]
  | cons a l ih =>
    obtain ⟨i1, i2⟩ := ih (c + 1) (Function.update s.1 a (loc c), Function.update s.2 a (speed c))
    refine ⟨?_, ?_⟩
    · intro k hk
      rw [List.mem_cons, not_or] at hk
      rw [setFunc, (i1 k hk.2).1, (i1 k hk.2).2]
      exact ⟨Function.update_of_ne hk.1 _ _, Function.update_of_ne hk.1 _ _⟩
    · intro hn i hi
      rw [List.nodup_cons] at hn
      rw [setFunc]
      cases i with
      | zero =>
        rw [List.getElem_cons_zero, (i1 a hn.1).1, (i1 a hn.1).2]
        simp
      | succ i =>
        have := i2 hn.2 i (by simpa using hi)
        rw [List.getElem_cons_succ, this.1, this.2, show c + 1 + i = c + (i + 1) by ring]
        simp

/-- C146: `set_func` puts the positions and speeds at the places of a list without repetitions, and changes nothing
else. -/
theorem c146_set_func (loc speed e d : ℕ → ℝ) (l : List ℕ) :
    (∀ k, k ∉ l → (setFunc loc speed l 0 (e, d)).1 k = e k ∧ (setFunc loc speed l 0 (e, d)).2 k = d k) ∧
    (l.Nodup → ∀ i (hi : i < l.length), (setFunc loc speed l 0 (e, d)).1 l[i] = loc i ∧
      (setFunc loc speed l 0 (e, d)).2 l[i] = speed i) := by
  have h := setFunc_eq loc speed l 0 (e, d)
  simpa using h

example : ([3, 1] : List ℕ).Nodup := by decide

/-! ### Searching for the edges of the wave -/

/-- The derivative counts as zero. -/
def Flat (d : ℝ) : Prop := |d| ≤ 1 / 10 ^ 13

theorem edgeSearch_step (n : ℕ) (deriv : ℕ → ℝ) (step : ℤ) (fuel : ℕ) (i : ℤ) {d : ℝ}
    (h : pyGet n deriv i = some d) :
    (Flat d → edgeSearch n deriv step (fuel + 1) i = some i) ∧
    (¬ Flat d → edgeSearch n deriv step (fuel + 1) i = edgeSearch n deriv step fuel (i + step)) := by
  rw [edgeSearch, h]
  dsimp only
  constructor
  · intro hf
    split_ifs with h1 h2
    · rfl
    · rfl
    · exact absurd hf h2
  · intro hf
    rw [if_neg (fun h' => hf (le_trans h' (by norm_num))), if_neg (c := |d| ≤ 1 / 10 ^ 13) hf]

/-- With `m` places before it that are not flat, the search takes the first flat one. -/
theorem edgeSearch_found (n : ℕ) (deriv : ℕ → ℝ) (step : ℤ) (m : ℕ) : ∀ (fuel : ℕ) (i : ℤ), m < fuel →
    (∀ j < m, ∃ d, pyGet n deriv (i + step * j) = some d ∧ ¬ Flat d) →
    (∃ d, pyGet n deriv (i + step * m) = some d ∧ Flat d) →
    edgeSearch n deriv step fuel i = some (i + step * m) := by
  induction m with
  | zero =>
    rintro (_ | fuel) i hf - ⟨d, hd, hfl⟩
    · omega
    · have := (edgeSearch_step n deriv step fuel i (by simpa using hd)).1 hfl
      simpa using this
  | succ m ih =>
    rintro (_ | fuel) i hf hb ⟨d, hd, hfl⟩
    · omega
    · obtain ⟨d0, h0, h0'⟩ := hb 0 (Nat.succ_pos m)
      rw [(edgeSearch_step n deriv step fuel i (by simpa using h0)).2 h0']
      have e : ∀ j : ℕ, i + step + step * j = i + step * ((j + 1 : ℕ) : ℤ) := by
        intro j; push_cast; ring
      rw [ih fuel (i + step) (by omega) (fun j hj => by rw [e]; exact hb (j + 1) (by omega))
        ⟨d, by rw [e]; exact hd, hfl⟩, e]

/-- With `m` places that are not flat before the array ends, the search fails. -/
theorem edgeSearch_fails (n : ℕ) (deriv : ℕ → ℝ) (step : ℤ) (m : ℕ) : ∀ (fuel : ℕ) (i : ℤ),
    (∀ j < m, ∃ d, pyGet n deriv (i + step * j) = some d ∧ ¬ Flat d) →
    pyGet n deriv (i + step * m) = none → edgeSearch n deriv step fuel i = none := by
  induction m with
  | zero =>
    rintro (_ | fuel) i - hd
    · rfl
    · rw [edgeSearch, show pyGet n deriv i = none by simpa using hd]
  | succ m ih =>
    rintro (_ | fuel) i hb hd
    · rfl
    · obtain ⟨d0, h0, h0'⟩ := hb 0 (Nat.succ_pos m)
      rw [(edgeSearch_step n deriv step fuel i (by simpa using h0)).2 h0']
      have e : ∀ j : ℕ, i + step + step * j = i + step * ((j + 1 : ℕ) : ℤ) := by
        intro j; push_cast; ring
      exact ih fuel (i + step) (fun j hj => by rw [e]; exact hb (j + 1) (by omega)) (by rw [e]; exact hd)

theorem pyGet_nat {n k : ℕ} (a : ℕ → ℝ) (h : k < n) : pyGet n a k = some (a k) := by
  unfold pyGet
  rw [if_pos ⟨by omega, by omega⟩]
  simp

theorem pyGet_neg {n k : ℕ} (a : ℕ → ℝ) (h : k < n) : pyGet n a ((k : ℤ) - n) = some (a k) := by
  unfold pyGet
  rw [if_neg (by omega), if_pos (by omega)]
  simp

/-- C146: `find_edge` returns the nearest places to both sides of the old ones at which the derivative is at most
`1e-13`. -/
theorem c146_edges {n : ℕ} {deriv : ℕ → ℝ} {a b l r : ℕ} (hl : l ≤ a) (ha : a < n) (hr : b ≤ r) (hn : r < n)
    (fl : |deriv l| ≤ 1 / 10 ^ 13) (nl : ∀ k, l < k → k ≤ a → 1 / 10 ^ 13 < |deriv k|)
    (fr : |deriv r| ≤ 1 / 10 ^ 13) (nr : ∀ k, b ≤ k → k < r → 1 / 10 ^ 13 < |deriv k|) :
    findEdge n deriv a b = some ((l : ℤ), (r : ℤ)) := by
  have e1 : edgeSearch n deriv (-1) (2 * n + 1) a = some (l : ℤ) := by
    have := edgeSearch_found n deriv (-1) (a - l) (2 * n + 1) a (by omega) (fun j hj => by
      rw [show (a : ℤ) + -1 * j = ((a - j : ℕ) : ℤ) by omega]
      exact ⟨_, pyGet_nat deriv (by omega), not_le.2 (nl _ (by omega) (by omega))⟩)
      ⟨deriv l, by
        rw [show (a : ℤ) + -1 * ((a - l : ℕ) : ℤ) = (l : ℤ) by omega]
        exact pyGet_nat deriv (by omega), fl⟩
    rw [this]
    congr 1
    omega
  have e2 : edgeSearch n deriv 1 (2 * n + 1) b = some (r : ℤ) := by
    have := edgeSearch_found n deriv 1 (r - b) (2 * n + 1) b (by omega) (fun j hj => by
      rw [show (b : ℤ) + 1 * j = ((b + j : ℕ) : ℤ) by omega]
      exact ⟨_, pyGet_nat deriv (by omega), not_le.2 (nr _ (by omega) (by omega))⟩)
      ⟨deriv r, by
        rw [show (b : ℤ) + 1 * ((r - b : ℕ) : ℤ) = (r : ℤ) by omega]
        exact pyGet_nat deriv (by omega), fr⟩
    rw [this]
    congr 1
    omega
  unfold findEdge
  rw [e1, e2]
  rfl

/-- C146: if the derivative is nowhere that small from the left end to the old place, the left search goes on at the
right end and returns the last small place as a negative index. -/
theorem c146_wraps {n : ℕ} {deriv : ℕ → ℝ} {a b l r : ℕ} (ha : a < n) (hl : l < n) (hr : b ≤ r) (hn : r < n)
    (na : ∀ k ≤ a, 1 / 10 ^ 13 < |deriv k|) (fl : |deriv l| ≤ 1 / 10 ^ 13)
    (nl : ∀ k, l < k → k < n → 1 / 10 ^ 13 < |deriv k|)
    (fr : |deriv r| ≤ 1 / 10 ^ 13) (nr : ∀ k, b ≤ k → k < r → 1 / 10 ^ 13 < |deriv k|) :
    findEdge n deriv a b = some ((l : ℤ) - n, (r : ℤ)) := by
  have e1 : edgeSearch n deriv (-1) (2 * n + 1) a = some ((l : ℤ) - n) := by
    have := edgeSearch_found n deriv (-1) (a + n - l) (2 * n + 1) a (by omega) (fun j hj => by
      by_cases hj' : j ≤ a
      · rw [show (a : ℤ) + -1 * j = ((a - j : ℕ) : ℤ) by omega]
        exact ⟨_, pyGet_nat deriv (by omega), not_le.2 (na _ (by omega))⟩
      · rw [show (a : ℤ) + -1 * j = ((a + n - j : ℕ) : ℤ) - n by omega]
        exact ⟨_, pyGet_neg deriv (by omega), not_le.2 (nl _ (by omega) (by omega))⟩)
      ⟨deriv l, by
        rw [show (a : ℤ) + -1 * ((a + n - l : ℕ) : ℤ) = (l : ℤ) - n by omega]
        exact pyGet_neg deriv hl, fl⟩
    rw [this]
    congr 1
    omega
  have e2 : edgeSearch n deriv 1 (2 * n + 1) b = some (r : ℤ) := by
    have := edgeSearch_found n deriv 1 (r - b) (2 * n + 1) b (by omega) (fun j hj => by
      rw [show (b : ℤ) + 1 * j = ((b + j : ℕ) : ℤ) by omega]
      exact ⟨_, pyGet_nat deriv (by omega), not_le.2 (nr _ (by omega) (by omega))⟩)
      ⟨deriv r, by
        rw [show (b : ℤ) + 1 * ((r - b : ℕ) : ℤ) = (r : ℤ) by omega]
        exact pyGet_nat deriv (by omega), fr⟩
    rw [this]
    congr 1
    omega
  unfold findEdge
  rw [e1, e2]
  rfl

/-- C146: if the derivative is nowhere that small from the old place to the right end, `find_edge` runs out of the
array. -/
theorem c146_runs_out {n : ℕ} {deriv : ℕ → ℝ} {b : ℕ} (hb : b ≤ n) (a : ℤ)
    (h : ∀ k, b ≤ k → k < n → 1 / 10 ^ 13 < |deriv k|) : findEdge n deriv a b = none := by
  have e2 : edgeSearch n deriv 1 (2 * n + 1) b = none := by
    refine edgeSearch_fails n deriv 1 (n - b) (2 * n + 1) b (fun j hj => ?_) ?_
    · rw [show (b : ℤ) + 1 * j = ((b + j : ℕ) : ℤ) by omega]
      exact ⟨_, pyGet_nat deriv (by omega), not_le.2 (h _ (by omega) (by omega))⟩
    · unfold pyGet
      rw [if_neg (by omega), if_neg (by omega)]
  unfold findEdge
  rw [e2]
  cases edgeSearch n deriv (-1) (2 * n + 1) a <;> rfl

example : findEdge 4 (fun i => if i = 3 then 0 else 1) (1 : ℕ) (2 : ℕ) = some (((3 : ℕ) : ℤ) - (4 : ℕ), ((3 : ℕ) : ℤ)) := by
  refine c146_wraps (by norm_num) (by norm_num) (by norm_num) (by norm_num) ?_ ?_ ?_ ?_ ?_
  · intro k hk
    rw [if_neg (by omega)]
    norm_num
  · norm_num
  · intro k h1 h2
    omega
  · norm_num
  · intro k h1 h2
    rw [if_neg (by omega)]
    norm_num

/-! ### The integrand of the square source with two directions -/

theorem heavisideOne_div {a s : ℝ} (hs : 0 < s) : heavisideOne (a / s) = if 0 ≤ a then 1 else 0 := by
  unfold heavisideOne
  by_cases h : 0 ≤ a
  · rw [if_pos h, if_neg (not_lt.2 (div_nonneg h hs.le))]
  · rw [if_neg h, if_pos (div_neg_of_neg_of_pos (not_le.1 h) hs)]

/-- Before the time of observation, and apart from two moments, the integrand counts the directions in which the
source is seen. -/
theorem suOlsonS2Integrand_eq {τ x t x0 : ℝ} (h0 : 0 ≤ x0) (hτ : τ < t) (n1 : t - √3 * (x + x0) ≠ τ)
    (n2 : t - √3 * (x0 - x) ≠ τ) :
    suOlsonS2Integrand τ x t x0 = exp (-(t - τ)) / 2 * twoRays x (t - τ) x0 := by
  have r := sqrt3_pos
  have q := sqrt3_sq
  have hs : 0 < t - τ := sub_pos.2 hτ
  -- all conditions compare with the way `w` of a particle
  obtain ⟨w, hw⟩ : ∃ w, w = (t - τ) / √3 := ⟨_, rfl⟩
  have hst : t - τ = √3 * w := by rw [hw]; field_simp
  have h3 : √3 * (t - τ) = 3 * w := by rw [hst, ← mul_assoc, q]
  have m1 : w ≠ x + x0 := fun h => n1 (by rw [← h]; linarith)
  have m2 : w ≠ x0 - x := fun h => n2 (by rw [← h]; linarith)
  have hw0 : 0 < w := by rw [hw]; positivity
  unfold suOlsonS2Integrand twoRays
  rw [heavisideOne_div hs, heavisideOne_div hs, heavisideOne_div hs, heavisideOne_div hs, h3, ← hw,
    show -t + τ = -(t - τ) by ring, mul_div_right_comm]
  congr 1
  have ray : ∀ y : ℝ, w ≠ y + x0 → (if |y - w| ≤ x0 then (1 : ℝ) else 0) =
      (if 0 ≤ -3 * y + 3 * x0 + 3 * w then 1 else 0) - (if 0 ≤ -3 * y - 3 * x0 + 3 * w then 1 else 0) := by
    intro y hy
    rcases lt_or_gt_of_ne hy with g | g
    · rw [if_neg (show ¬ 0 ≤ -3 * y - 3 * x0 + 3 * w by linarith), sub_zero]
      refine if_congr ?_ rfl rfl
      rw [abs_le]
      constructor
      · rintro ⟨_, b⟩
        linarith
      · intro b
        constructor <;> linarith
    · rw [if_pos (show 0 ≤ -3 * y - 3 * x0 + 3 * w by linarith),
        if_pos (show 0 ≤ -3 * y + 3 * x0 + 3 * w by linarith), sub_self, if_neg]
      intro b
      linarith [(abs_le.1 b).1]
  have b2 := ray (-x) (fun h => m2 (by linarith))
  rw [show |-x - w| = |x + w| by rw [← abs_neg]; congr 1; ring] at b2
  rw [ray x m1, b2]
  simp only [mul_neg, neg_mul, neg_neg]
  ring

/-- C146: the integral of `su_olson_s2_integrand` over the time of the source is the flux of the square source with
two directions, for all places and times. -/
theorem c146_integrand (x : ℝ) {t x0 t0 : ℝ} (h0 : 0 ≤ x0) (ht : 0 ≤ t) (ht0 : 0 ≤ t0) :
    ∫ τ in (0 : ℝ)..min t t0, suOlsonS2Integrand τ x t x0 = squareSourceS2 x t x0 t0 := by
  unfold squareSourceS2
  refine intervalIntegral.integral_congr_ae ?_
  have hfin : (({t, t - √3 * (x + x0), t - √3 * (x0 - x)} : Set ℝ)).Finite := by simp
  filter_upwards [hfin.countable.ae_notMem volume] with τ hτ hm
  rw [uIoc_of_le (le_min ht ht0)] at hm
  simp only [mem_insert_iff, mem_singleton_iff, not_or] at hτ
  exact suOlsonS2Integrand_eq h0 (lt_of_le_of_ne (hm.2.trans (min_le_left _ _)) hτ.1) (Ne.symm hτ.2.1)
    (Ne.symm hτ.2.2)

/-- C146: while the source is on, `uncollided_su_olson_s2` returns that integral, which functions.py 411 computes to
compare. -/
theorem c146_compared (x : ℝ) {t x0 t0 : ℝ} (ht : 0 ≤ t) (h0 : 0 < x0) (h : t ≤ t0) :
    suOlsonS2 x t x0 t0 = some (∫ τ in (0 : ℝ)..min t t0, suOlsonS2Integrand τ x t x0) := by
  rw [c146_integrand x h0.le ht (ht.trans h)]
  exact c41_source_on_partial x ht h0 h

example : suOlsonS2 (1 / 4) 1 (1 / 2) 10 = some (∫ τ in (0 : ℝ)..min 1 10, suOlsonS2Integrand τ (1 / 4) 1 (1 / 2)) :=
  c146_compared _ (by norm_num) (by norm_num) (by norm_num)

/-! ### Factors and the Gaussian -/

/-- C146: `rttwo_mistake_undoer` has a value for all indices: 2 if one index is zero and the other one even and not
zero, otherwise 1; the order of the indices does not matter. -/
theorem c146_undoer (i j : ℕ) :
    rttwoMistakeUndoer i j = some (if (i = 0 ∧ j ≠ 0 ∧ 2 ∣ j) ∨ (j = 0 ∧ i ≠ 0 ∧ 2 ∣ i) then 2 else 1) ∧
    rttwoMistakeUndoer i j = rttwoMistakeUndoer j i := by
  unfold rttwoMistakeUndoer
  constructor <;> split_ifs <;> first | rfl | omega

/-- C146: `gaussian_plane` is even and has the integral one. -/
theorem c146_gaussian_plane {x0 : ℝ} (h : 0 < x0) :
    (∀ x, gaussianPlane x0 (-x) = gaussianPlane x0 x) ∧ ∫ x, gaussianPlane x0 x = 1 := by
  constructor
  · intro x
    unfold gaussianPlane
    rw [neg_sq]
  · unfold gaussianPlane
    rw [integral_const_mul]
    have e : (fun x : ℝ => exp (-0.5 * x ^ 2 / x0 ^ 2)) = fun x => exp (-(0.5 / x0 ^ 2) * x ^ 2) := by
      funext x
      congr 1
      ring
    rw [e, integral_gaussian, div_mul_eq_mul_div, ← Real.sqrt_mul (by positivity),
      show 1 / π / 2 * (π / (0.5 / x0 ^ 2)) = x0 ^ 2 by
        have := pi_pos.ne'
        field_simp
        norm_num, Real.sqrt_sq h.le, div_self h.ne']

example : ∫ x, gaussianPlane 2 x = 1 := (c146_gaussian_plane (by norm_num)).2

end Verif.Props
