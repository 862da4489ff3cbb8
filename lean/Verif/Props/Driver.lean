import Verif.Model.Driver
import Verif.Spec.Transport
import Mathlib.Tactic.FieldSimp
import Mathlib.Tactic.Linarith
import Mathlib.Tactic.NormNum
import Mathlib.Tactic.IntervalCases

/-!
C98: extension of a benchmark by zero beyond its last point.
C99: material energy in the results.
C100: error against the benchmark.
-/

namespace Verif.Props

open Verif.Model

/-! ### C98 -/

theorem firstMin_le (f : ℕ → ℝ) : ∀ n, firstMin f n ≤ n
  | 0 => le_refl 0
  | k + 1 => by
    unfold firstMin
    split_ifs
    · exact le_refl _
    · exact (firstMin_le f k).trans (Nat.le_succ k)

theorem firstMin_min (f : ℕ → ℝ) : ∀ n j, j ≤ n → f (firstMin f n) ≤ f j
  | 0, j, h => by rw [Nat.le_zero.mp h]; exact le_refl _
  | k + 1, j, h => by
    unfold firstMin
    rcases Nat.lt_or_ge k j with hj | hj
    · have : j = k + 1 := by omega
      subst this
      split_ifs with hlt
      · exact le_refl _
      · exact not_lt.mp hlt
    · have := firstMin_min f k j hj
      split_ifs with hlt
      · exact hlt.le.trans this
      · exact this

theorem firstMin_first (f : ℕ → ℝ) : ∀ n j, j < firstMin f n → f (firstMin f n) < f j
  | 0, j, h => absurd h (Nat.not_lt_zero j)
  | k + 1, j, h => by
    unfold firstMin at h ⊢
    split_ifs at h ⊢ with hlt
    · exact lt_of_lt_of_le hlt (firstMin_min f k j (by omega))
    · exact firstMin_first f k j h

/-- The benchmark continued by zero. -/
noncomputable def zeroExtend (interp : ℝ → ℝ) (edge x : ℝ) : ℝ := if x ≤ edge then interp x else 0

/-- Around the point nearest to the edge of the benchmark. -/
theorem nearest_split {a : ℕ → ℝ} {edge : ℝ} {p : ℕ} (hmono : ∀ i j, i < j → j ≤ p → a i < a j) :
    (∀ j, j < firstMin (fun j => |a j - edge|) p → a j < edge) ∧
    ∀ j, firstMin (fun j => |a j - edge|) p < j → j ≤ p → edge < a j := by
  have hk := firstMin_le (fun j => |a j - edge|) p
  constructor
  · intro j hj
    have h1 := firstMin_first (fun j => |a j - edge|) p j hj
    have h2 := hmono j _ hj hk
    by_contra hge
    rw [not_lt] at hge
    rw [abs_of_nonneg (by linarith), abs_of_nonneg (by linarith)] at h1
    linarith
  · intro j hj hjp
    have h1 := firstMin_min (fun j => |a j - edge|) p j hjp
    have h2 := hmono _ j hj hjp
    by_contra hge
    rw [not_lt] at hge
    rw [abs_of_nonpos (by linarith), abs_of_nonpos (by linarith)] at h1
    linarith

/-- C98, increasing points: the benchmark is continued by zero at all points, except that the value
at the point nearest to the edge is always zero. -/
theorem c98_increasing_partial {interp : ℝ → ℝ} {lo edge : ℝ} {n : ℕ} {xs : ℕ → ℝ}
    (hmono : ∀ i j, i < j → j ≤ n → xs i < xs j) (hlo : lo ≤ xs 0) (hedge : edge < xs n)
    (hwide : xs 0 + 1 / 10 ^ 12 < xs n) :
    ∃ y, benchCall interp lo edge n xs = some y ∧
      ∃ k ≤ n, (∀ j ≤ n, |xs k - edge| ≤ |xs j - edge|) ∧ y k = 0 ∧
        ∀ i ≤ n, i ≠ k → y i = zeroExtend interp edge (xs i) := by
  obtain ⟨k, hk⟩ : ∃ k, k = firstMin (fun j => |xs j - edge|) n := ⟨_, rfl⟩
  have hkn : k ≤ n := hk ▸ firstMin_le _ n
  have hs := nearest_split (edge := edge) hmono
  rw [← hk] at hs
  have hin : ∀ i, i < k → lo ≤ xs i ∧ xs i ≤ edge := by
    intro i hi
    refine ⟨?_, (hs.1 i hi).le⟩
    rcases Nat.eq_zero_or_pos i with h | h
    · rw [h]; exact hlo
    · exact hlo.trans (hmono 0 i h (by omega)).le
  refine ⟨fun i => if i < k then interp (xs i) else 0, ?_, k, hkn, ?_, if_neg (lt_irrefl k), ?_⟩
  · unfold benchCall stitch
    rw [if_pos hedge, if_neg (by rw [abs_of_pos (by linarith)]; linarith)]
    simp only
    rw [← hk, if_pos hin]
  · intro j hj
    rw [hk]
    exact firstMin_min (fun j => |xs j - edge|) n j hj
  · intro i hi hne
    simp only [zeroExtend]
    rcases lt_or_gt_of_ne hne with h | h
    · rw [if_pos h, if_pos (hs.1 i h).le]
    · rw [if_neg (by omega), if_neg (not_le.mpr (hs.2 i h hi))]

/-- C98, an even number of points placed symmetrically (the solver passes their absolute values):
the same, on both sides. -/
theorem c98_symmetric_partial {interp : ℝ → ℝ} {lo edge : ℝ} {m : ℕ} {xs a : ℕ → ℝ} (hm : 2 ≤ m)
    (hright : ∀ j < m, xs (m + j) = a j) (hleft : ∀ j < m, xs (m - 1 - j) = a j)
    (hmono : ∀ i j, i < j → j < m → a i < a j) (hlo : lo ≤ a 0) (hedge : edge < a (m - 1)) :
    ∃ y, benchCall interp lo edge (2 * m - 1) xs = some y ∧
      ∃ k < m - 1, (∀ j < m - 1, |a k - edge| ≤ |a j - edge|) ∧
        ∀ j < m, if j = k then y (m + j) = 0 ∧ y (m - 1 - j) = 0 else
          y (m + j) = zeroExtend interp edge (a j) ∧
          y (m - 1 - j) = zeroExtend interp edge (a j) := by
  obtain ⟨k, hk⟩ : ∃ k, k = firstMin (fun j => |xs (m + j) - edge|) (m - 2) := ⟨_, rfl⟩
  have hkn : k ≤ m - 2 := hk ▸ firstMin_le _ _
  have hs := nearest_split (a := fun j => xs (m + j)) (edge := edge) (p := m - 2) (by
    intro i j hij hj
    rw [hright i (by omega), hright j (by omega)]
    exact hmono i j hij (by omega))
  rw [← hk] at hs
  have hlt : ∀ j, j < k → lo ≤ a j ∧ a j ≤ edge := by
    intro j hj
    have := hs.1 j hj
    rw [hright j (by omega)] at this
    refine ⟨?_, this.le⟩
    rcases Nat.eq_zero_or_pos j with h | h
    · rw [h]; exact hlo
    · exact hlo.trans (hmono 0 j h (by omega)).le
  have hgt : ∀ j, k < j → j < m → edge < a j := by
    intro j hj hjm
    rcases Nat.lt_or_ge j (m - 1) with h | h
    · have := hs.2 j hj (by omega)
      rwa [hright j (by omega)] at this
    · have : j = m - 1 := by omega
      rw [this]; exact hedge
  have hmid : (2 * m - 1 + 1) / 2 = m := by omega
  have hlast : xs (2 * m - 1) = a (m - 1) := by
    have := hright (m - 1) (by omega)
    rwa [show m + (m - 1) = 2 * m - 1 by omega] at this
  have hfirst : xs 0 = a (m - 1) := by
    have := hleft (m - 1) (by omega)
    rwa [show m - 1 - (m - 1) = 0 by omega] at this
  have hin : ∀ i, m - k ≤ i → i < k + m → lo ≤ xs i ∧ xs i ≤ edge := by
    intro i h1 h2
    rcases Nat.lt_or_ge i m with h | h
    · have e := hleft (m - 1 - i) (by omega)
      rw [show m - 1 - (m - 1 - i) = i by omega] at e
      rw [e]
      exact hlt _ (by omega)
    · have e := hright (i - m) (by omega)
      rw [show m + (i - m) = i by omega] at e
      rw [e]
      exact hlt _ (by omega)
  refine ⟨fun i => if m - k ≤ i ∧ i < k + m then interp (xs i) else 0, ?_, k, by omega, ?_, ?_⟩
  · unfold benchCall stitch
    rw [if_pos (by rw [hlast]; exact hedge), if_pos (by
      rw [hlast, hfirst, sub_self, abs_zero]; positivity)]
    simp only
    rw [hmid, if_neg (by omega), show 2 * m - 1 - m - 1 = m - 2 by omega, ← hk, if_pos hin]
  · intro j hj
    rw [← hright j (by omega), ← hright k (by omega), hk]
    exact firstMin_min (fun j => |xs (m + j) - edge|) (m - 2) j (by omega)
  · intro j hj
    split_ifs with hjk
    · exact ⟨if_neg (by omega), if_neg (by omega)⟩
    · simp only [zeroExtend]
      rcases lt_or_gt_of_ne hjk with h | h
      · have p1 : m - k ≤ m + j ∧ m + j < k + m := by omega
        have p2 : m - k ≤ m - 1 - j ∧ m - 1 - j < k + m := by omega
        rw [if_pos p1, if_pos p2, if_pos (hlt j h).2, hright j hj, hleft j hj]
        exact ⟨rfl, rfl⟩
      · have p1 : ¬ (m - k ≤ m + j ∧ m + j < k + m) := by omega
        have p2 : ¬ (m - k ≤ m - 1 - j ∧ m - 1 - j < k + m) := by omega
        rw [if_neg p1, if_neg p2, if_neg (not_le.mpr (hgt j h hj))]
        exact ⟨rfl, rfl⟩

/-- C98: points inside the stored interval get the interpolated value. -/
theorem c98_inside {interp : ℝ → ℝ} {lo edge : ℝ} {n : ℕ} {xs : ℕ → ℝ}
    (h : ∀ i ≤ n, lo ≤ xs i ∧ xs i ≤ edge) :
    benchCall interp lo edge n xs = some fun i => interp (xs i) := by
  unfold benchCall
  rw [if_neg (not_lt.mpr (h n le_rfl).2), if_pos h]

private noncomputable def stitchPoints : ℕ → ℝ := fun i => if i = 0 then 0 else if i = 1 then 9 / 10 else 2

theorem stitchPoints_mono : ∀ i j, i < j → j ≤ 2 → stitchPoints i < stitchPoints j := by
  intro i j hij hj
  have h : j = 1 ∧ i = 0 ∨ j = 2 ∧ i = 0 ∨ j = 2 ∧ i = 1 := by omega
  rcases h with ⟨rfl, rfl⟩ | ⟨rfl, rfl⟩ | ⟨rfl, rfl⟩ <;> norm_num [stitchPoints]

/-- C98 fails at the nearest point when it lies inside the stored interval: the last value before
the edge is replaced by zero. -/
theorem c98_nearest_lost : ∃ (n : ℕ) (xs y : ℕ → ℝ) (i : ℕ),
    (∀ i j, i < j → j ≤ n → xs i < xs j) ∧ i ≤ n ∧
    benchCall (fun _ => 1) 0 1 n xs = some y ∧ y i ≠ zeroExtend (fun _ => 1) 1 (xs i) := by
  obtain ⟨y, h1, k, hk, h2, h3, -⟩ := c98_increasing_partial (interp := fun _ => 1) (lo := 0)
    (edge := 1) (n := 2) (xs := stitchPoints) stitchPoints_mono (by norm_num [stitchPoints])
    (by norm_num [stitchPoints]) (by norm_num [stitchPoints])
  refine ⟨2, stitchPoints, y, 1, stitchPoints_mono, by norm_num, h1, ?_⟩
  have hk1 : k = 1 := by
    have := h2 1 (by norm_num)
    interval_cases k
    · norm_num [stitchPoints] at this
    · rfl
    · norm_num [stitchPoints] at this
  rw [← hk1, h3, hk1]
  norm_num [zeroExtend, stitchPoints]

private noncomputable def oddPoints : ℕ → ℝ := fun i => |(i : ℝ) - 2|

/-- C98 fails for an odd number of symmetric points: here the call fails. -/
theorem c98_odd_fails : benchCall (fun _ => 1) 0 (9 / 10) 4 oddPoints = none := by
  have e0 : oddPoints 0 = 2 := by norm_num [oddPoints]
  have e1 : oddPoints 1 = 1 := by norm_num [oddPoints]
  have e2 : oddPoints 2 = 0 := by norm_num [oddPoints]
  have e3 : oddPoints 3 = 1 := by norm_num [oddPoints]
  have e4 : oddPoints 4 = 2 := by norm_num [oddPoints]
  have hk : firstMin (fun j => |oddPoints (2 + j) - 9 / 10|) 1 = 1 := by
    simp only [firstMin, Nat.zero_add, Nat.add_zero]
    rw [e2, e3, if_pos]
    rw [abs_of_pos (by norm_num), abs_of_neg (by norm_num)]
    norm_num
  unfold benchCall stitch
  rw [if_pos (by rw [e4]; norm_num), if_pos (by rw [e0, e4]; norm_num)]
  simp only
  norm_num only
  simp only [if_false]
  rw [hk, if_neg]
  intro h
  have := (h 1 (by norm_num) (by norm_num)).2
  rw [e1] at this
  norm_num at this

example : ∃ y, benchCall (fun x => x ^ 2) 0 1 2 stitchPoints = some y ∧
      ∃ k ≤ 2, (∀ j ≤ 2, |stitchPoints k - 1| ≤ |stitchPoints j - 1|) ∧ y k = 0 ∧
        ∀ i ≤ 2, i ≠ k → y i = zeroExtend (fun x => x ^ 2) 1 (stitchPoints i) :=
  c98_increasing_partial stitchPoints_mono (by norm_num [stitchPoints])
    (by norm_num [stitchPoints]) (by norm_num [stitchPoints])

/-- Six points `-5, -3, -1, 1, 3, 5`. -/
example : ∃ y, benchCall (fun x => x ^ 2) 0 2 (2 * 3 - 1) (fun i => |2 * (i : ℝ) - 5|) = some y ∧
      ∃ k : ℕ, k < 3 - 1 ∧ (∀ j : ℕ, j < 3 - 1 → |(2 * (k : ℝ) + 1) - 2| ≤ |(2 * (j : ℝ) + 1) - 2|) ∧
        ∀ j : ℕ, j < 3 → if j = k then y (3 + j) = 0 ∧ y (3 - 1 - j) = 0 else
          y (3 + j) = zeroExtend (fun x => x ^ 2) 2 (2 * (j : ℝ) + 1) ∧
          y (3 - 1 - j) = zeroExtend (fun x => x ^ 2) 2 (2 * (j : ℝ) + 1) :=
  c98_symmetric_partial (a := fun j => 2 * (j : ℝ) + 1) (by norm_num)
    (by intro j hj; push_cast; rw [abs_of_nonneg (by linarith [Nat.cast_nonneg (α := ℝ) j])]; ring)
    (by intro j hj; interval_cases j <;> norm_num [abs_of_neg, abs_of_pos])
    (by intro i j hij _; have : (i : ℝ) < j := Nat.cast_lt.mpr hij; linarith)
    (by norm_num) (by norm_num)

/-! ### C99 -/

/-- C99 as far as it goes: without coupling the reported material energy is zero, and `make_e`,
which the results do not use, gives the expansion of the energy unknowns inside its cell. -/
theorem c99_make_e_partial {M N Nang : ℕ} {edges : ℕ → ℝ} {u : ℕ → ℕ → ℕ → ℝ} {x : ℝ} {k : ℕ}
    (hmono : ∀ i j, i < j → j ≤ N → edges i < edges j) (hk : k < N)
    (hx : edges k < x) (hx' : x ≤ edges (k + 1)) :
    eOut .slab M N Nang edges u x =
      some (∑ i ∈ Finset.range (M + 1), u Nang k i * normPn i x (edges k) (edges (k + 1))) := by
  have hle : ∀ i j, i ≤ j → j ≤ N → edges i ≤ edges j := by
    intro i j hij hj
    rcases Nat.lt_or_ge i j with h | h
    · exact (hmono i j h hj).le
    · rw [le_antisymm hij h]
  have hcard : searchsorted N edges x = k + 1 := by
    unfold searchsorted
    rw [show (Finset.range (N + 1)).filter (fun i => edges i < x) = Finset.range (k + 1) from ?_,
      Finset.card_range]
    ext i
    rw [Finset.mem_filter, Finset.mem_range, Finset.mem_range]
    constructor
    · rintro ⟨h1, h2⟩
      by_contra hge
      have := hle (k + 1) i (by omega) (by omega)
      linarith
    · intro h
      exact ⟨by omega, lt_of_le_of_lt (hle i k (by omega) (by omega)) hx⟩
  have hidx : outIndex N edges x = k + 1 := by
    unfold outIndex
    simp only
    rw [hcard, if_neg (Nat.succ_ne_zero k), if_neg (by omega)]
  unfold eOut psiOut
  simp only
  rw [hidx, if_pos ⟨(hle 0 k (by omega) (by omega)).trans hx.le,
    hx'.trans (hle (k + 1) N (by omega) (by omega))⟩]
  rfl

/-- C99 fails: whatever the problem, the reported material energy is zero, since line 247 compares
the dictionary of coupling switches with the integer one. -/
theorem c99_always_zero {input thermal : PyVal} (h : loadThermal input = some thermal)
    (g : Geometry) (M N Nang : ℕ) (edges : ℕ → ℝ) (u : ℕ → ℕ → ℕ → ℝ) (x : ℝ) :
    reportedEnergy thermal g M N Nang edges u x = some 0 := by
  cases input with
  | int n => exact absurd h (by simp [loadThermal])
  | dict d =>
    simp only [loadThermal, Option.some.injEq] at h
    rw [← h]
    rfl

/-- C99 fails: a state with energy one everywhere, in a coupled problem, whose reported energy is
zero. -/
theorem c99_energy_lost : ∃ (switches : String → Option ℤ) (thermal : PyVal) (edges : ℕ → ℝ)
    (u : ℕ → ℕ → ℕ → ℝ) (x : ℝ), switches "none" = some 0 ∧
      loadThermal (.dict switches) = some thermal ∧ eOut .slab 0 1 2 edges u x = some 1 ∧
      reportedEnergy thermal .slab 0 1 2 edges u x = some 0 := by
  refine ⟨fun _ => some 0, .dict fun _ => some 0, fun i => i, fun _ _ _ => 1, 1 / 2, rfl, rfl, ?_, rfl⟩
  rw [c99_make_e_partial (k := 0) (fun i j h _ => Nat.cast_lt.mpr h) (by norm_num) (by norm_num)
    (by norm_num)]
  rw [Finset.sum_range_one]
  norm_num [normPn, Verif.Spec.legendre]

/-! ### C100 -/

/-- C100 as far as it goes: the error measure is zero exactly when the flux equals the benchmark at
all output points, and a uniform deviation `d` gives `|d|`. -/
theorem c100_measure_partial {n : ℕ} (hn : 0 < n) (phi bench : ℕ → ℝ) :
    (rms n phi bench = 0 ↔ ∀ i < n, phi i = bench i) ∧
    (∀ d, (∀ i < n, phi i = bench i + d) → rms n phi bench = |d|) ∧
    ∀ d, 0 ≤ d → (∀ i < n, |phi i - bench i| ≤ d) → rms n phi bench ≤ d := by
  have hn' : (0 : ℝ) < n := Nat.cast_pos.mpr hn
  have h0 : 0 ≤ ∑ i ∈ Finset.range n, (phi i - bench i) ^ 2 :=
    Finset.sum_nonneg fun i _ => sq_nonneg _
  refine ⟨?_, ?_, ?_⟩
  · unfold rms
    rw [Real.sqrt_eq_zero (div_nonneg h0 hn'.le), div_eq_zero_iff, or_iff_left hn'.ne',
      Finset.sum_eq_zero_iff_of_nonneg fun i _ => sq_nonneg _]
    refine ⟨fun h i hi => ?_, fun h i hi => ?_⟩
    · have := h i (Finset.mem_range.mpr hi)
      exact sub_eq_zero.mp (pow_eq_zero_iff (two_ne_zero)|>.mp this)
    · rw [h i (Finset.mem_range.mp hi), sub_self, zero_pow two_ne_zero]
  · intro d h
    unfold rms
    rw [Finset.sum_congr rfl fun i hi => by
      rw [h i (Finset.mem_range.mp hi), add_sub_cancel_left], Finset.sum_const, Finset.card_range,
      nsmul_eq_mul, mul_div_cancel_left₀ _ hn'.ne', Real.sqrt_sq_eq_abs]
  · intro d hd h
    unfold rms
    refine Real.sqrt_le_iff.mpr ⟨hd, ?_⟩
    rw [div_le_iff₀ hn']
    calc ∑ i ∈ Finset.range n, (phi i - bench i) ^ 2 ≤ ∑ _i ∈ Finset.range n, d ^ 2 :=
          Finset.sum_le_sum fun i hi => by
            rw [← sq_abs]
            exact pow_le_pow_left₀ (abs_nonneg _) (h i (Finset.mem_range.mp hi)) 2
      _ = d ^ 2 * n := by rw [Finset.sum_const, Finset.card_range, nsmul_eq_mul, mul_comm]

/-- C100 fails: no run that was loaded reports an error against the benchmark; the name read at
line 273 has no value. -/
theorem c100_never {input thermal : PyVal} (h : loadThermal input = some thermal) (n : ℕ)
    (phi bench0 bench1 : ℕ → ℝ) : reportedRms thermal n phi bench0 bench1 = none := by
  cases input with
  | int n => exact absurd h (by simp [loadThermal])
  | dict d =>
    simp only [loadThermal, Option.some.injEq] at h
    rw [← h]
    rfl

/-- The hypothesis is met by the input of `transport.yaml` (line 19). -/
example : reportedRms (.dict fun s => if s = "none" then some 1 else none) 3 (fun _ => 1)
    (fun _ => 1) (fun _ => 1) = none :=
  c100_never (input := .dict fun s => if s = "none" then some 1 else none) rfl 3 _ _ _

example : rms 3 (fun i => i + 2) (fun i => i) = |(2 : ℝ)| :=
  (c100_measure_partial (by norm_num) (fun i => (i : ℝ) + 2) fun i => i).2.1 2 fun _ _ => rfl

end Verif.Props
