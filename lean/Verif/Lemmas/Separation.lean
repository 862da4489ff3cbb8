import Verif.Spec.GaussRule
import Verif.Lemmas.Angular
import Verif.Lemmas.LegendreRoots
import Verif.Lemmas.LobattoRule
import Mathlib.Algebra.Polynomial.Degree.Lemmas
import Mathlib.Algebra.Polynomial.BigOperators
import Mathlib.Algebra.Polynomial.Eval.Degree
import Mathlib.MeasureTheory.Integral.IntervalIntegral.Basic
import Mathlib.MeasureTheory.Integral.IntervalIntegral.FundThmCalculus
import Mathlib.Analysis.SpecialFunctions.Integrals.Basic
import Mathlib.Topology.Algebra.Polynomial
import Mathlib.Analysis.SpecialFunctions.Gaussian.GaussianIntegral
import Mathlib.Tactic.Positivity

/-! Helper facts: the weights of a rule with the degree of exactness of Gauss or Lobatto are separated by its
points (Chebyshev, Markov, Stieltjes). -/

namespace Verif.Lemmas

open Verif.Spec Polynomial Set

/-- Sums of products of functions `1 / (b - x)` with `β ≤ b`. -/
inductive Cone (β : ℝ) : (ℝ → ℝ) → Prop
  | const (c : ℝ) (hc : 0 ≤ c) : Cone β fun _ => c
  | mul (b : ℝ) (hb : β ≤ b) (g : ℝ → ℝ) (hg : Cone β g) : Cone β fun x => (b - x)⁻¹ * g x
  | add (g k : ℝ → ℝ) (hg : Cone β g) (hk : Cone β k) : Cone β fun x => g x + k x

theorem Cone.nonneg {β : ℝ} {g : ℝ → ℝ} (h : Cone β g) {x : ℝ} (hx : x < β) : 0 ≤ g x := by
  induction h with
  | const c hc => exact hc
  | mul b hb g _ ih => exact mul_nonneg (inv_nonneg.2 (by linarith)) ih
  | add g k _ _ i1 i2 => exact add_nonneg i1 i2

theorem Cone.divided {β : ℝ} {g : ℝ → ℝ} (h : Cone β g) {a : ℝ} (ha : a < β) :
    ∃ k, Cone β k ∧ ∀ x < β, g x = g a + (x - a) * k x := by
  induction h with
  | const c hc => exact ⟨_, .const 0 le_rfl, fun x _ => by ring⟩
  | mul b hb g hg ih =>
    obtain ⟨k, hk, hk'⟩ := ih
    refine ⟨_, .mul b hb _ (.add _ _ (.const ((b - a)⁻¹ * g a)
      (mul_nonneg (inv_nonneg.2 (by linarith)) (hg.nonneg ha))) hk), fun x hx => ?_⟩
    beta_reduce
    rw [hk' x hx]
    have h1 : b - a ≠ 0 := by intro h; linarith
    have h2 : b - x ≠ 0 := by intro h; linarith
    field_simp
    ring
  | add g k _ _ i1 i2 =>
    obtain ⟨k1, h1, h1'⟩ := i1
    obtain ⟨k2, h2, h2'⟩ := i2
    exact ⟨_, .add _ _ h1 h2, fun x hx => by beta_reduce; rw [h1' x hx, h2' x hx]; ring⟩

theorem Cone.list {β : ℝ} (bs : List ℝ) (hb : ∀ b ∈ bs, β ≤ b) :
    ∃ g, Cone β g ∧ ∀ x < β, (bs.map fun b => b - x).prod * g x = 1 := by
  induction bs with
  | nil => exact ⟨_, .const 1 zero_le_one, fun x _ => by simp⟩
  | cons b bs ih =>
    obtain ⟨g, hg, hg'⟩ := ih fun b h => hb b (by simp [h])
    refine ⟨_, .mul b (hb b (by simp)) g hg, fun x hx => ?_⟩
    have h1 := hb b (by simp)
    have h2 : b - x ≠ 0 := by intro h; linarith
    rw [List.map_cons, List.prod_cons, ← hg' x hx]
    field_simp

/-- Newton interpolation in the points `as`: the interpolating polynomial is not negative to the right of
the points, and neither is the remainder without its factors. -/
theorem Cone.newton {β : ℝ} (as : List ℝ) (ha : ∀ a ∈ as, a < β) : ∀ {g : ℝ → ℝ}, Cone β g →
    ∃ (r : ℝ[X]) (k : ℝ → ℝ), Cone β k ∧ r.degree < as.length ∧
      (∀ x < β, g x = r.eval x + (as.map fun a => x - a).prod * k x) ∧
      ∀ x, (∀ a ∈ as, a ≤ x) → 0 ≤ r.eval x := by
  induction as with
  | nil => exact fun {g} hg => ⟨0, g, hg, by simp, fun x _ => by simp, fun x _ => by simp⟩
  | cons a as ih =>
    intro g hg
    obtain ⟨k, hk, hk'⟩ := hg.divided (ha a (by simp))
    obtain ⟨r, k2, h1, h2, h3, h4⟩ := ih (fun a h => ha a (by simp [h])) hk
    refine ⟨C (g a) + (X - C a) * r, k2, h1, ?_, fun x hx => ?_, fun x hx => ?_⟩
    · refine (degree_add_le _ _).trans_lt (max_lt ?_ ?_)
      · refine degree_C_le.trans_lt ?_
        simp only [List.length_cons]
        exact_mod_cast Nat.succ_pos _
      · rcases eq_or_ne r 0 with h0 | h0
        · rw [h0, mul_zero, degree_zero]; exact WithBot.bot_lt_coe _
        · rw [degree_mul, degree_X_sub_C, degree_eq_natDegree h0, List.length_cons]
          rw [degree_eq_natDegree h0] at h2
          have : r.natDegree < as.length := by exact_mod_cast h2
          have : 1 + r.natDegree < as.length + 1 := by omega
          exact_mod_cast this
    · rw [hk' x hx, h3 x hx, List.map_cons, List.prod_cons]
      simp only [eval_add, eval_mul, eval_C, eval_sub, eval_X]
      ring
    · simp only [eval_add, eval_mul, eval_C, eval_sub, eval_X]
      exact add_nonneg (hg.nonneg (ha a (by simp)))
        (mul_nonneg (by linarith [hx a (by simp)]) (h4 x fun a h => hx a (by simp [h])))

theorem separation_of_lists {n : ℕ} {x w : ℕ → ℝ} {d : ℕ} (hex : ExactRule n x w d)
    (hx : DirectionSet n x) {m : ℕ} (hm : m < n) (as bs : List ℝ) {β : ℝ} (hβ : x m < β)
    (hb : ∀ b ∈ bs, β ≤ b) (ha : ∀ a ∈ as, a ≤ x m) (hl : as.length + bs.length ≤ d + 1)
    (hxa : ∀ j ≤ m, x j ∈ as) (hxb : ∀ j < n, m < j → x j ∈ bs)
    (hsa : ∀ y, -1 ≤ y → y ≤ x m → (as.map fun a => y - a).prod ≤ 0)
    (hsb : ∀ y ≤ 1, 0 ≤ (bs.map fun b => b - y).prod) :
    1 + x m ≤ ∑ j ∈ Finset.range (m + 1), w j := by
  obtain ⟨g, hg, hg'⟩ := Cone.list bs hb
  obtain ⟨r, k, hk, hr, hr', hr0⟩ := hg.newton as fun a h => (ha a h).trans_lt hβ
  set S : ℝ[X] := (bs.map fun b => C b - X).prod with hS
  have hSe : ∀ y, S.eval y = (bs.map fun b => b - y).prod := by
    intro y
    rw [hS, eval_list_prod, List.map_map]
    congr 1
    refine List.map_congr_left fun b _ => by simp
  have hSd : S.natDegree ≤ bs.length := by
    rw [hS]
    refine (natDegree_list_prod_le _).trans ?_
    rw [List.map_map]
    refine (List.sum_le_card_nsmul _ 1 fun z hz => ?_).trans (by simp)
    obtain ⟨b, -, rfl⟩ := List.mem_map.1 hz
    refine (natDegree_sub_le _ _).trans (by simp)
  set p := r * S with hp
  have hpd : p.natDegree ≤ d := by
    rcases eq_or_ne r 0 with h0 | h0
    · rw [hp, h0, zero_mul]; simp
    · rw [degree_eq_natDegree h0] at hr
      have : r.natDegree < as.length := by exact_mod_cast hr
      exact natDegree_mul_le.trans (by omega)
  -- values
  have hS1 : ∀ y < β, S.eval y * g y = 1 := fun y hy => by rw [hSe]; exact hg' y hy
  have hle : ∀ j ≤ m, x j ≤ x m := fun j hj => by
    rcases hj.eq_or_lt with h | h
    · rw [h]
    · exact (directionSet_lt hx h hm).le
  have hp1 : ∀ j ≤ m, p.eval (x j) = 1 := by
    intro j hj
    have h1 := (hle j hj).trans_lt hβ
    have h2 := hr' _ h1
    have h3 : (as.map fun a => x j - a).prod = 0 :=
      List.prod_eq_zero (List.mem_map.2 ⟨x j, hxa j hj, by simp⟩)
    rw [h3, zero_mul, add_zero] at h2
    rw [hp, eval_mul, ← h2, mul_comm]
    exact hS1 _ h1
  have hp2 : ∀ j < n, m < j → p.eval (x j) = 0 := by
    intro j hj hmj
    rw [hp, eval_mul, hSe, List.prod_eq_zero (List.mem_map.2 ⟨x j, hxb j hj hmj, by simp⟩), mul_zero]
  have hp3 : ∀ y ∈ Icc (-1) (x m), 1 ≤ p.eval y := by
    intro y hy
    have h1 : y < β := hy.2.trans_lt hβ
    have h2 := hr' y h1
    have h3 := hS1 y h1
    have h4 : 0 ≤ S.eval y := by
      rw [hSe]; exact hsb y (hy.2.trans (directionSet_mem hx hm).2)
    have h5 := hsa y hy.1 hy.2
    have h6 := hk.nonneg h1
    rw [hp, eval_mul]
    have h7 : r.eval y = g y - (as.map fun a => y - a).prod * k y := by linarith
    have h8 : (as.map fun a => y - a).prod * k y ≤ 0 := mul_nonpos_of_nonpos_of_nonneg h5 h6
    rw [h7]
    nlinarith
  have hp4 : ∀ y ∈ Icc (x m) 1, 0 ≤ p.eval y := by
    intro y hy
    rw [hp, eval_mul, hSe]
    exact mul_nonneg (hr0 y fun a h => (ha a h).trans hy.1) (hsb y hy.2)
  have hi : ∀ a b, IntervalIntegrable (fun y => p.eval y) MeasureTheory.volume a b := fun a b =>
    p.continuous.intervalIntegrable a b
  have hmem := directionSet_mem hx hm
  have h1 := hex p hpd
  have h2 : ∑ l ∈ Finset.range n, w l * p.eval (x l) = ∑ j ∈ Finset.range (m + 1), w j := by
    rw [← Finset.sum_subset (Finset.range_subset_range.2 hm) (fun l hl hl' => ?_)]
    · refine Finset.sum_congr rfl fun l hl => ?_
      rw [hp1 l (by have := Finset.mem_range.1 hl; omega), mul_one]
    · rw [hp2 l (Finset.mem_range.1 hl) (by simp at hl'; omega), mul_zero]
  rw [← h2, h1, ← intervalIntegral.integral_add_adjacent_intervals (hi (-1) (x m)) (hi (x m) 1)]
  have h3 : ∫ y in (-1 : ℝ)..(x m), (1 : ℝ) ≤ ∫ y in (-1 : ℝ)..(x m), p.eval y :=
    intervalIntegral.integral_mono_on hmem.1 (by simp) (hi _ _) hp3
  have h4 : 0 ≤ ∫ y in (x m)..1, p.eval y := intervalIntegral.integral_nonneg hmem.2 hp4
  simp only [intervalIntegral.integral_const, smul_eq_mul, mul_one] at h3
  linarith

/-- The points `x i`, ..., `x (i + k - 1)`, each of them twice. -/
def twice (x : ℕ → ℝ) (i k : ℕ) : List ℝ := (List.range k).flatMap fun j => [x (i + j), x (i + j)]

theorem mem_twice {x : ℕ → ℝ} {i k : ℕ} {a : ℝ} : a ∈ twice x i k ↔ ∃ j < k, a = x (i + j) := by
  simp [twice]

theorem length_twice (x : ℕ → ℝ) (i k : ℕ) : (twice x i k).length = 2 * k := by
  simp [twice, List.length_flatMap]
  ring

theorem prod_twice (x : ℕ → ℝ) (i k : ℕ) (f : ℝ → ℝ) : 0 ≤ ((twice x i k).map f).prod := by
  induction k with
  | zero => simp [twice]
  | succ k ih =>
    have : twice x i (k + 1) = twice x i k ++ [x (i + k), x (i + k)] := by
      simp [twice, List.range_succ]
    rw [this, List.map_append, List.prod_append]
    refine mul_nonneg ih ?_
    simp only [List.map_cons, List.map_nil, List.prod_cons, List.prod_nil, mul_one]
    exact mul_self_nonneg _

/-- The sum of the weights up to a point reaches the point. -/
theorem _root_.Verif.Spec.GaussLike.below {n : ℕ} {x w : ℕ → ℝ} (h : GaussLike n x w) {m : ℕ} (hm : m < n) :
    1 + x m ≤ ∑ j ∈ Finset.range (m + 1), w j := by
  have hx := h.points
  have hlt : ∀ {i j}, i < j → j < n → x i < x j := fun a b => directionSet_lt hx a b
  have hle : ∀ {i j}, i ≤ j → j < n → x i ≤ x j := fun a b => by
    rcases a.eq_or_lt with h | h
    · rw [h]
    · exact (hlt h b).le
  obtain ⟨β, hβ, hβ'⟩ : ∃ β, x m < β ∧ ∀ j < n, m < j → β ≤ x j := by
    by_cases h1 : m + 1 < n
    · exact ⟨x (m + 1), hx.mono m h1, fun j hj hj' => hle hj' hj⟩
    · exact ⟨x m + 1, by linarith, fun j hj hj' => by omega⟩
  have hn := hx.two
  rcases h.exact with hex | ⟨h0, h1, hex⟩
  · refine separation_of_lists hex hx hm (twice x 0 m ++ [x m]) (twice x (m + 1) (n - 1 - m)) hβ
      ?_ ?_ ?_ ?_ ?_ ?_ ?_
    · intro b hb
      obtain ⟨j, hj, rfl⟩ := mem_twice.1 hb
      exact hβ' _ (by omega) (by omega)
    · intro a ha
      rcases List.mem_append.1 ha with ha | ha
      · obtain ⟨j, hj, rfl⟩ := mem_twice.1 ha
        exact hle (by omega) hm
      · rw [List.mem_singleton.1 ha]
    · rw [List.length_append, length_twice, length_twice, List.length_singleton]
      omega
    · intro j hj
      rcases hj.eq_or_lt with hj | hj
      · subst hj; simp
      · exact List.mem_append.2 (Or.inl (mem_twice.2 ⟨j, hj, by rw [zero_add]⟩))
    · intro j hj hmj
      exact mem_twice.2 ⟨j - (m + 1), by omega, by congr 1; omega⟩
    · intro y _ hy
      rw [List.map_append, List.prod_append]
      refine mul_nonpos_of_nonneg_of_nonpos (prod_twice _ _ _ _) ?_
      simp only [List.map_cons, List.map_nil, List.prod_cons, List.prod_nil, mul_one]
      linarith
    · exact fun y _ => prod_twice _ _ _ _
  · -- the points to the left
    obtain ⟨as, a1, a2, a3, a4⟩ : ∃ as : List ℝ, as.length ≤ (if m = 0 then 1 else 2 * m) ∧
        (∀ a ∈ as, a ≤ x m) ∧ (∀ j ≤ m, x j ∈ as) ∧
        ∀ y, -1 ≤ y → y ≤ x m → (as.map fun a => y - a).prod ≤ 0 := by
      by_cases hm0 : m = 0
      · subst hm0
        refine ⟨[x 0], by simp, by simp, ?_, ?_⟩
        · intro j hj
          simp [Nat.le_zero.1 hj]
        · intro y _ hy
          simpa using hy
      · refine ⟨x 0 :: (twice x 1 (m - 1) ++ [x m]), ?_, ?_, ?_, ?_⟩
        · rw [if_neg hm0, List.length_cons, List.length_append, length_twice, List.length_singleton]
          omega
        · intro a ha
          rcases List.mem_cons.1 ha with rfl | ha
          · exact hle (by omega) hm
          rcases List.mem_append.1 ha with ha | ha
          · obtain ⟨j, hj, rfl⟩ := mem_twice.1 ha
            exact hle (by omega) hm
          · rw [List.mem_singleton.1 ha]
        · intro j hj
          rcases hj.eq_or_lt with hj | hj
          · subst hj; simp
          rcases Nat.eq_zero_or_pos j with h2 | h2
          · subst h2; simp
          · exact List.mem_cons_of_mem _ (List.mem_append.2 (Or.inl (mem_twice.2
              ⟨j - 1, by omega, by congr 1; omega⟩)))
        · intro y hy hy'
          rw [List.map_cons, List.prod_cons, List.map_append, List.prod_append]
          refine mul_nonpos_of_nonneg_of_nonpos (by rw [h0]; linarith)
            (mul_nonpos_of_nonneg_of_nonpos (prod_twice _ _ _ _) ?_)
          simp only [List.map_cons, List.map_nil, List.prod_cons, List.prod_nil, mul_one]
          linarith
    obtain ⟨bs, b1, b2, b3, b4⟩ : ∃ bs : List ℝ,
        bs.length ≤ (if m = n - 1 then 0 else 2 * (n - 1 - m) - 1) ∧
        (∀ b ∈ bs, β ≤ b) ∧ (∀ j < n, m < j → x j ∈ bs) ∧
        ∀ y ≤ 1, 0 ≤ (bs.map fun b => b - y).prod := by
      by_cases hm1 : m = n - 1
      · refine ⟨[], by simp, by simp, fun j hj hj' => by omega, by simp⟩
      · refine ⟨x (n - 1) :: twice x (m + 1) (n - 2 - m), ?_, ?_, ?_, ?_⟩
        · rw [if_neg hm1, List.length_cons, length_twice]
          omega
        · intro b hb
          rcases List.mem_cons.1 hb with rfl | hb
          · exact hβ' _ (by omega) (by omega)
          · obtain ⟨j, hj, rfl⟩ := mem_twice.1 hb
            exact hβ' _ (by omega) (by omega)
        · intro j hj hmj
          by_cases h2 : j = n - 1
          · subst h2; simp
          · exact List.mem_cons_of_mem _ (mem_twice.2 ⟨j - (m + 1), by omega, by congr 1; omega⟩)
        · intro y hy
          rw [List.map_cons, List.prod_cons]
          exact mul_nonneg (by rw [h1]; linarith) (prod_twice _ _ _ _)
    refine separation_of_lists hex hx hm as bs hβ b2 a2 ?_ a3 b3 a4 b4
    split_ifs at a1 b1 <;> omega

theorem _root_.Verif.Spec.GaussLike.total {n : ℕ} {x w : ℕ → ℝ} (h : GaussLike n x w) :
    ∑ j ∈ Finset.range n, w j = 2 := by
  have h1 : ∀ d, ExactRule n x w d → ∑ j ∈ Finset.range n, w j = 2 := by
    intro d hd
    have := hd 1 (by simp)
    simp only [eval_one, mul_one, intervalIntegral.integral_const, smul_eq_mul] at this
    rw [this]; norm_num
  rcases h.exact with h2 | ⟨-, -, h2⟩ <;> exact h1 _ h2

/-- The rule seen from the other side. -/
theorem _root_.Verif.Spec.GaussLike.reflect {n : ℕ} {x w : ℕ → ℝ} (h : GaussLike n x w) :
    GaussLike n (fun l => -x (n - 1 - l)) fun l => w (n - 1 - l) := by
  have hn := h.points.two
  have hr : ∀ d, ExactRule n x w d →
      ExactRule n (fun l => -x (n - 1 - l)) (fun l => w (n - 1 - l)) d := by
    intro d hd p hp
    have h1 := hd (p.comp (-X)) (by rw [natDegree_comp]; simpa using hp)
    simp only [eval_comp, eval_neg, eval_X] at h1
    rw [intervalIntegral.integral_comp_neg (fun y => p.eval y), neg_neg] at h1
    rw [← h1]
    exact Finset.sum_range_reflect (fun l => w l * p.eval (-x l)) n
  refine ⟨⟨hn, ?_, ?_, fun k hk => ?_⟩, ?_⟩
  · have := h.points.upper
    simp only [Nat.sub_zero]
    linarith
  · have := h.points.lower
    simp only [Nat.sub_self]
    linarith
  · have := h.points.mono (n - 1 - (k + 1)) (by omega)
    rw [show n - 1 - (k + 1) + 1 = n - 1 - k by omega] at this
    simpa using this
  · rcases h.exact with h1 | ⟨h1, h2, h3⟩
    · exact Or.inl (hr _ h1)
    · refine Or.inr ⟨?_, ?_, hr _ h3⟩
      · simp [h2]
      · simp [h1]

/-- The sum of the weights before a point does not pass the point. -/
theorem _root_.Verif.Spec.GaussLike.above {n : ℕ} {x w : ℕ → ℝ} (h : GaussLike n x w) {m : ℕ} (hm : m < n) :
    ∑ j ∈ Finset.range m, w j ≤ 1 + x m := by
  have h1 := h.reflect.below (m := n - 1 - m) (by omega)
  have h2 := h.total
  rw [← Finset.sum_range_reflect, ← Finset.sum_range_add_sum_Ico _ (show n - m ≤ n by omega)] at h2
  rw [show n - 1 - (n - 1 - m) = m by omega, show n - 1 - m + 1 = n - m by omega] at h1
  have h3 : ∑ j ∈ Finset.Ico (n - m) n, w (n - 1 - j) = ∑ j ∈ Finset.range m, w j := by
    rw [Finset.sum_Ico_eq_sum_range, show n - (n - m) = m by omega, ← Finset.sum_range_reflect]
    refine Finset.sum_congr rfl fun j hj => ?_
    have := Finset.mem_range.1 hj
    congr 1; omega
  linarith

theorem _root_.Verif.Spec.GaussLike.weight_nonneg {n : ℕ} {x w : ℕ → ℝ} (h : GaussLike n x w) {l : ℕ} (hl : l < n) :
    0 ≤ w l := by
  have h1 := h.below hl
  have h2 := h.above hl
  rw [Finset.sum_range_succ] at h1
  linarith

/-- No weight is more than twice the width of the angular cell. -/
theorem _root_.Verif.Spec.GaussLike.weight_le {n : ℕ} {x w : ℕ → ℝ} (h : GaussLike n x w) {l : ℕ} (hl : l < n) :
    w l ≤ 2 * angularWidth n x l := by
  have hn := h.points.two
  have hlo : ∑ j ∈ Finset.range l, w j ≥ 1 + 2 * angularEdge n x l - x l := by
    rcases Nat.eq_zero_or_pos l with h0 | h0
    · subst h0
      have := h.points.lower
      simp [angularEdge]
      linarith
    · have := h.below (m := l - 1) (by omega)
      rw [show l - 1 + 1 = l by omega] at this
      rw [angularEdge, if_neg (by omega), if_neg (by omega)]
      linarith
  have hhi : ∑ j ∈ Finset.range (l + 1), w j ≤ 1 + 2 * angularEdge n x (l + 1) - x l := by
    by_cases h1 : l + 1 = n
    · have h2 := h.total
      have h3 := h.points.upper
      rw [angularEdge, if_neg (by omega), if_pos h1, h1, h2]
      rw [show l = n - 1 by omega]
      linarith
    · have := h.above (m := l + 1) (by omega)
      rw [angularEdge, if_neg (by omega), if_neg h1, Nat.add_sub_cancel]
      linarith
  rw [Finset.sum_range_succ] at hhi
  unfold angularWidth
  linarith

/-! ### Many points -/

theorem _root_.Verif.Spec.GaussLike.exactLow {n : ℕ} {x w : ℕ → ℝ} (h : GaussLike n x w) (p : ℝ[X])
    (hp : p.natDegree ≤ 2 * n - 3) :
    ∑ l ∈ Finset.range n, w l * p.eval (x l) = ∫ y in (-1 : ℝ)..1, p.eval y := by
  rcases h.exact with h1 | ⟨-, -, h1⟩
  · exact h1 p (by omega)
  · exact h1 p hp

/-- No weight is larger than the integral of a peak of width about `1 / √n`. -/
theorem _root_.Verif.Spec.GaussLike.weight_small {n : ℕ} {x w : ℕ → ℝ} (h : GaussLike n x w) (hn : 3 ≤ n) {l : ℕ}
    (hl : l < n) : w l ≤ 2 * √(Real.pi / (n - 2)) := by
  have hx := directionSet_mem h.points hl
  set m := n - 2 with hm
  have hmR : (n : ℝ) - 2 = m := by rw [hm, Nat.cast_sub (by omega)]; norm_num
  have hm0 : (0 : ℝ) < m := by exact_mod_cast (by omega : 0 < m)
  set p : ℝ[X] := (1 - C (1 / 4) * (X - C (x l)) ^ 2) ^ m with hp
  have hpe : ∀ y, p.eval y = (1 - (y - x l) ^ 2 / 4) ^ m := by
    intro y
    simp only [hp, eval_pow, eval_sub, eval_one, eval_mul, eval_C, eval_X]
    ring
  have hpd : p.natDegree ≤ 2 * n - 3 := by
    refine (natDegree_pow_le).trans ?_
    have h1 : (1 - C (1 / 4) * (X - C (x l)) ^ 2 : ℝ[X]).natDegree ≤ 2 := by
      refine (natDegree_sub_le _ _).trans (max_le (by simp) ?_)
      refine (natDegree_C_mul_le _ _).trans (natDegree_pow_le.trans ?_)
      rw [natDegree_X_sub_C]
    calc m * (1 - C (1 / 4) * (X - C (x l)) ^ 2 : ℝ[X]).natDegree ≤ m * 2 := Nat.mul_le_mul_left _ h1
      _ ≤ 2 * n - 3 := by omega
  have hb : ∀ y ∈ Icc (-1 : ℝ) 1, 0 ≤ 1 - (y - x l) ^ 2 / 4 := by
    intro y hy
    have : |y - x l| ≤ 2 := abs_le.2 ⟨by linarith [hy.1, hx.2], by linarith [hy.2, hx.1]⟩
    have := sq_le_sq' (by linarith [abs_le.1 this |>.1]) (abs_le.1 this).2
    linarith
  have h1 := h.exactLow p hpd
  have h2 : w l ≤ ∑ j ∈ Finset.range n, w j * p.eval (x j) := by
    have := Finset.single_le_sum (f := fun j => w j * p.eval (x j)) (fun j hj => ?_)
      (Finset.mem_range.2 hl)
    · simpa [hpe] using this
    · rw [hpe]
      exact mul_nonneg (h.weight_nonneg (Finset.mem_range.1 hj))
        (pow_nonneg (hb _ (directionSet_mem h.points (Finset.mem_range.1 hj))) _)
  have hg : ∀ y, Real.exp (-(m / 4 : ℝ) * (y - x l) ^ 2) =
      (fun z => Real.exp (-(m / 4 : ℝ) * z ^ 2)) (y - x l) := fun y => rfl
  have hint : MeasureTheory.Integrable (fun y => Real.exp (-(m / 4 : ℝ) * (y - x l) ^ 2)) :=
    (integrable_exp_neg_mul_sq (by positivity : (0 : ℝ) < m / 4)).comp_sub_right (x l)
  have h3 : ∫ y in (-1 : ℝ)..1, p.eval y ≤
      ∫ y in (-1 : ℝ)..1, Real.exp (-(m / 4 : ℝ) * (y - x l) ^ 2) := by
    refine intervalIntegral.integral_mono_on (by norm_num) (p.continuous.intervalIntegrable _ _)
      hint.intervalIntegrable fun y hy => ?_
    rw [hpe, show -(m / 4 : ℝ) * (y - x l) ^ 2 = m * (-((y - x l) ^ 2 / 4)) by ring, Real.exp_nat_mul]
    refine pow_le_pow_left₀ (hb y hy) ?_ _
    linarith [Real.add_one_le_exp (-((y - x l) ^ 2 / 4))]
  have h4 : ∫ y in (-1 : ℝ)..1, Real.exp (-(m / 4 : ℝ) * (y - x l) ^ 2) ≤
      ∫ y, Real.exp (-(m / 4 : ℝ) * (y - x l) ^ 2) := by
    rw [intervalIntegral.integral_of_le (by norm_num)]
    exact MeasureTheory.setIntegral_le_integral hint (Filter.Eventually.of_forall fun y => (Real.exp_pos _).le)
  rw [MeasureTheory.integral_sub_right_eq_self (fun z => Real.exp (-(m / 4 : ℝ) * z ^ 2)),
    integral_gaussian] at h4
  have h5 : √(Real.pi / (m / 4)) = 2 * √(Real.pi / m) := by
    rw [show Real.pi / (m / 4 : ℝ) = 2 ^ 2 * (Real.pi / m) by field_simp; norm_num,
      Real.sqrt_mul (by norm_num), Real.sqrt_sq (by norm_num)]
  rw [hmR, ← h5]
  linarith

/-- The angular cells become narrow. -/
theorem _root_.Verif.Spec.GaussLike.narrow {n : ℕ} {x w : ℕ → ℝ} (h : GaussLike n x w) (hn : 3 ≤ n) {l : ℕ}
    (hl : l < n) : angularWidth n x l ≤ 3 * √(Real.pi / (n - 2)) := by
  set ε := 2 * √(Real.pi / (n - 2)) with hε
  have hw : ∀ j < n, w j ≤ ε := fun j hj => h.weight_small hn hj
  have hlo : ∑ j ∈ Finset.range l, w j - ε ≤ 1 + 2 * angularEdge n x l - x l := by
    rcases Nat.eq_zero_or_pos l with h0 | h0
    · subst h0
      have h1 := h.below (m := 0) (by omega)
      have h2 := hw 0 (by omega)
      simp at h1
      simp [angularEdge]
      linarith
    · have h1 := h.above (m := l - 1) (by omega)
      have h2 := hw (l - 1) (by omega)
      have h3 : ∑ j ∈ Finset.range l, w j = ∑ j ∈ Finset.range (l - 1), w j + w (l - 1) := by
        rw [← Finset.sum_range_succ, show l - 1 + 1 = l by omega]
      rw [angularEdge, if_neg (by omega), if_neg (by omega), h3]
      linarith
  have hhi : 1 + 2 * angularEdge n x (l + 1) - x l ≤ ∑ j ∈ Finset.range (l + 1), w j + ε := by
    by_cases h1 : l + 1 = n
    · have h2 := h.total
      have h3 := h.above (m := l) hl
      have h4 : ∑ j ∈ Finset.range (l + 1), w j = ∑ j ∈ Finset.range l, w j + w l :=
        Finset.sum_range_succ _ _
      have h5 := hw l hl
      rw [h1] at h4
      rw [angularEdge, if_neg (by omega), if_pos h1, h1]
      linarith
    · have h2 := h.below (m := l + 1) (by omega)
      have h3 := hw (l + 1) (by omega)
      rw [Finset.sum_range_succ] at h2
      rw [angularEdge, if_neg (by omega), if_neg h1, Nat.add_sub_cancel]
      linarith
  rw [Finset.sum_range_succ] at hhi
  have h3 := hw l hl
  unfold angularWidth
  linarith

/-! ### The Gauss rule -/

/-- With the roots of the Legendre polynomial there are weights that make the rule exact for polynomials of
degree up to `2 n - 1`. -/
theorem gauss_rule {n : ℕ} (hn : 1 ≤ n) {x : ℕ → ℝ} (h : RootList (legendre n) n x) :
    ∃ w, ExactRule n x w (2 * n - 1) := by
  have hinj : Set.InjOn x (Finset.range n) := by
    intro i hi j hj e
    exact inc_inj h.inc (by simpa using hi) (by simpa using hj) e
  refine ⟨fun l => I (Lagrange.basis (Finset.range n) x l), fun p hp => ?_⟩
  have hP0 : legendre n ≠ 0 := fun e => (legendre_coeff n).ne' (by rw [e, coeff_zero])
  have hdeg := legendre_natDegree_eq n
  have hd : (legendre n).degree = n := by rw [degree_eq_natDegree hP0, hdeg]
  set q := p / legendre n with hq
  set r := p % legendre n with hr
  have hpqr : legendre n * q + r = p := EuclideanDomain.div_add_mod p (legendre n)
  have hrd : r.degree < n := by
    rw [← hd]; exact EuclideanDomain.mod_lt p hP0
  have hqd : q.natDegree < n := by
    rcases eq_or_ne q 0 with h0 | h0
    · rw [h0, natDegree_zero]; omega
    · have h1 : (legendre n * q).natDegree = n + q.natDegree := by rw [natDegree_mul hP0 h0, hdeg]
      have h2 : (legendre n * q).natDegree ≤ max p.natDegree r.natDegree := by
        rw [show legendre n * q = p - r by rw [← hpqr]; ring]
        exact natDegree_sub_le _ _
      have h3 : r.natDegree < n := by
        rcases eq_or_ne r 0 with h4 | h4
        · rw [h4, natDegree_zero]; omega
        · rw [degree_eq_natDegree h4] at hrd
          exact_mod_cast hrd
      rcases le_max_iff.1 h2 with h4 | h4 <;> omega
  have hIq : I (legendre n * q) = 0 := I_legendre_lower q hqd
  have hev : ∀ l ∈ Finset.range n, p.eval (x l) = r.eval (x l) := by
    intro l hl
    rw [← hpqr, eval_add, eval_mul, h.root l (Finset.mem_range.1 hl), zero_mul, zero_add]
  have hint := Lagrange.eq_interpolate (f := r) hinj (by rw [Finset.card_range]; exact hrd)
  change _ = I p
  have h1 : I p = I r := by rw [← hpqr, I_add, hIq, zero_add]
  rw [h1, hint, Lagrange.interpolate_apply, I_finset_sum]
  refine Finset.sum_congr rfl fun l hl => ?_
  rw [I_C_mul, hev l hl, mul_comm]

/-! ### Lower bounds for the weights -/

theorem legendre_reproduce {n : ℕ} (p : ℝ[X]) (hp : p.degree < n) (x : ℝ) :
    ∑ k ∈ Finset.range n, (2 * (k : ℝ) + 1) / 2 * (legendre k).eval x * I (legendre k * p) = p.eval x := by
  induction n generalizing p with
  | zero =>
    have : p = 0 := by
      rw [← degree_eq_bot]
      exact Nat.WithBot.lt_zero_iff.1 (by exact_mod_cast hp)
    simp [this]
  | succ n ih =>
    have hnd : p.natDegree ≤ n := natDegree_le_iff_coeff_eq_zero.2 fun m hm =>
      (degree_lt_iff_coeff_zero _ _).1 hp m hm
    have ha := (legendre_coeff n).ne'
    set c := p.coeff n / (legendre n).coeff n with hc
    set q := p - C c * legendre n with hq
    have hqd : q.degree < n := by
      refine (degree_lt_iff_coeff_zero _ _).2 fun m hm => ?_
      rcases hm.eq_or_lt with h | h
      · rw [← h, hq, coeff_sub, coeff_C_mul, hc, div_mul_cancel₀ _ ha, sub_self]
      · rw [hq, coeff_sub, coeff_C_mul, coeff_eq_zero_of_natDegree_lt (hnd.trans_lt h),
          coeff_eq_zero_of_natDegree_lt ((legendre_natDegree n).trans_lt h), mul_zero, sub_zero]
    have h1 := ih q hqd
    rw [Finset.sum_range_succ, I_legendre_top p hnd]
    have h2 : ∀ k ∈ Finset.range n, (2 * (k : ℝ) + 1) / 2 * (legendre k).eval x * I (legendre k * p) =
        (2 * (k : ℝ) + 1) / 2 * (legendre k).eval x * I (legendre k * q) := by
      intro k hk
      have : legendre k * p = legendre k * q + C c * (legendre k * legendre n) := by rw [hq]; ring
      rw [this, I_add, I_C_mul, I_orthogonal (Finset.mem_range.1 hk).ne, mul_zero, add_zero]
    rw [Finset.sum_congr rfl h2, h1, hq, eval_sub, eval_mul, eval_C, ← hc]
    have : (2 * (n : ℝ) + 1) ≠ 0 := by positivity
    field_simp
    ring

/-- A polynomial of degree less than `n` at a point against its mean square. -/
theorem poly_at_point {n : ℕ} (p : ℝ[X]) (hp : p.degree < n) {x : ℝ} (hx : x ∈ Icc (-1 : ℝ) 1) :
    p.eval x ^ 2 ≤ (n : ℝ) ^ 2 / 2 * I (p * p) := by
  set K : ℝ[X] := ∑ k ∈ Finset.range n, C ((2 * (k : ℝ) + 1) / 2 * (legendre k).eval x) * legendre k with hK
  have hIK : ∀ q : ℝ[X], q.degree < n → I (K * q) = q.eval x := by
    intro q hq
    rw [← legendre_reproduce q hq x, hK, Finset.sum_mul, I_finset_sum]
    refine Finset.sum_congr rfl fun k _ => ?_
    rw [mul_assoc, I_C_mul]
  have hKd : K.degree < n := by
    rw [hK]
    refine (degree_sum_le _ _).trans_lt ((Finset.sup_lt_iff (WithBot.bot_lt_coe n)).2 fun k hk => ?_)
    refine (degree_le_natDegree.trans (WithBot.coe_le_coe.2 ((natDegree_C_mul_le _ _).trans
      (legendre_natDegree k)))).trans_lt ?_
    exact WithBot.coe_lt_coe.2 (Finset.mem_range.1 hk)
  have hKx : K.eval x ≤ (n : ℝ) ^ 2 / 2 := by
    have h1 : K.eval x = ∑ k ∈ Finset.range n, (2 * (k : ℝ) + 1) / 2 * (legendre k).eval x ^ 2 := by
      rw [hK, eval_finsetSum]
      refine Finset.sum_congr rfl fun k _ => ?_
      rw [eval_mul, eval_C]; ring
    have h2 : ∑ k ∈ Finset.range n, (2 * (k : ℝ) + 1) / 2 = (n : ℝ) ^ 2 / 2 := by
      clear hIK hKd h1
      clear_value K
      clear hK hp
      induction n with
      | zero => simp
      | succ n ih => rw [Finset.sum_range_succ, ih]; push_cast; ring
    rw [h1, ← h2]
    refine Finset.sum_le_sum fun k _ => ?_
    have h3 := legendre_abs_le k hx.1 hx.2
    have h4 : (legendre k).eval x ^ 2 ≤ 1 := by rw [sq_le_one_iff_abs_le_one]; exact h3
    have h5 : (0 : ℝ) ≤ (2 * k + 1) / 2 := by positivity
    nlinarith
  have hpos : ∀ q : ℝ[X], 0 ≤ I (q * q) := fun q =>
    intervalIntegral.integral_nonneg (by norm_num) fun y _ => by rw [eval_mul]; exact mul_self_nonneg _
  set a := p.eval x with ha
  have h0 : 0 ≤ K.eval x := by rw [← hIK K hKd]; exact hpos K
  have hq : ∀ c : ℝ, 0 ≤ I (p * p) - 2 * c * a + c ^ 2 * K.eval x := by
    intro c
    have h1 := hpos (p - C c * K)
    have h2 : (p - C c * K) * (p - C c * K) = p * p - C (2 * c) * (K * p) + C (c ^ 2) * (K * K) := by
      simp only [C_mul, C_pow]
      rw [show (C 2 : ℝ[X]) = 2 from rfl]
      ring
    rw [h2, I_add, I_sub, I_C_mul, I_C_mul, hIK p hp, hIK K hKd] at h1
    linarith
  set N := (n : ℝ) ^ 2 / 2 with hN
  have hq' : ∀ c : ℝ, 0 ≤ I (p * p) - 2 * c * a + c ^ 2 * N := fun c =>
    (hq c).trans (by nlinarith [sq_nonneg c])
  rcases eq_or_ne N 0 with h1 | h1
  · have h2 := hq' a
    have h3 := hpos p
    rw [h1, mul_zero, add_zero] at h2
    rw [h1, zero_mul]
    have h4 := hq' ((I (p * p) + 1) / (2 * a))
    rw [h1, mul_zero, add_zero] at h4
    by_contra h5
    have h6 : a ≠ 0 := fun h => h5 (by rw [h]; norm_num)
    rw [show 2 * ((I (p * p) + 1) / (2 * a)) * a = I (p * p) + 1 by field_simp] at h4
    linarith
  · have hN0 : 0 < N := lt_of_le_of_ne (by positivity) (Ne.symm h1)
    have h2 := hq' (a / N)
    rw [show I (p * p) - 2 * (a / N) * a + (a / N) ^ 2 * N = I (p * p) - a ^ 2 / N by field_simp; ring] at h2
    have h3 : a ^ 2 / N ≤ I (p * p) := by linarith
    rwa [div_le_iff₀ hN0, mul_comm] at h3

/-- The weights of the Gauss rule from below. -/
theorem gauss_weight_ge {n : ℕ} {x w : ℕ → ℝ} (hx : DirectionSet n x) (h : ExactRule n x w (2 * n - 2))
    {l : ℕ} (hl : l < n) : 2 / (n : ℝ) ^ 2 ≤ w l := by
  have hinj : Set.InjOn x (Finset.range n) := by
    intro i hi j hj e
    exact inc_inj hx.mono (by simpa using hi) (by simpa using hj) e
  have hn : (0 : ℝ) < n := by exact_mod_cast (by omega : 0 < n)
  set p := Lagrange.basis (Finset.range n) x l with hp
  have hd : p.degree = (n - 1 : ℕ) := by
    have := Lagrange.degree_basis hinj (Finset.mem_range.2 hl)
    rwa [Finset.card_range] at this
  have hdl : p.degree < n := by rw [hd]; exact_mod_cast (by omega : n - 1 < n)
  have h1 := poly_at_point p hdl (directionSet_mem hx hl)
  have hpl : p.eval (x l) = 1 := Lagrange.eval_basis_self hinj (Finset.mem_range.2 hl)
  have h2 := h (p * p) (natDegree_mul_le.trans (by rw [natDegree_eq_of_degree_eq_some hd]; omega))
  have h3 : ∑ j ∈ Finset.range n, w j * (p * p).eval (x j) = w l := by
    rw [Finset.sum_eq_single_of_mem l (Finset.mem_range.2 hl) fun j hj hjl => ?_]
    · rw [eval_mul, hpl]; ring
    · rw [eval_mul, hp, Lagrange.eval_basis_of_ne (Ne.symm hjl) hj]; ring
  rw [h3] at h2
  rw [hpl, show I (p * p) = w l from h2.symm] at h1
  rw [div_le_iff₀ (by positivity)]
  linarith

end Verif.Lemmas
