import Mathlib.Analysis.ODE.ExistUnique

/-! Existence of solutions on a whole interval for a globally Lipschitz right-hand side. -/

namespace Verif.Lemmas

open Set Filter Topology Metric
open scoped NNReal

variable {E : Type*} [NormedAddCommGroup E] [NormedSpace ℝ E]

/-- `α` is continuous on `[a, b]` and has the right derivative `f t (α t)` before `b`. -/
def SolvesOn (f : ℝ → E → E) (a b : ℝ) (α : ℝ → E) : Prop :=
  ContinuousOn α (Icc a b) ∧ ∀ t ∈ Ico a b, HasDerivWithinAt α (f t (α t)) (Ici t) t

theorem SolvesOn.glue {f : ℝ → E → E} {a c b : ℝ} (hac : a ≤ c) (hcb : c ≤ b) {α β : ℝ → E}
    (hα : SolvesOn f a c α) (hβ : SolvesOn f c b β) (h : α c = β c) :
    SolvesOn f a b (fun t => if t ≤ c then α t else β t) := by
  constructor
  · rw [← Icc_union_Icc_eq_Icc hac hcb]
    refine ContinuousOn.union_of_isClosed ?_ ?_ isClosed_Icc isClosed_Icc
    · exact hα.1.congr fun t ht => if_pos ht.2
    · refine hβ.1.congr fun t ht => ?_
      show (if t ≤ c then α t else β t) = β t
      split_ifs with h1
      · rw [le_antisymm h1 ht.1, h]
      · rfl
  · intro t ht
    by_cases htc : t < c
    · show HasDerivWithinAt _ (f t (if t ≤ c then α t else β t)) _ _
      rw [if_pos htc.le]
      refine (hα.2 t ⟨ht.1, htc⟩).congr_of_eventuallyEq ?_ (if_pos htc.le)
      exact mem_of_superset (mem_nhdsWithin_of_mem_nhds (Iio_mem_nhds htc))
        fun s hs => if_pos (le_of_lt hs)
    · have hct := not_lt.1 htc
      have hv : ∀ s, t ≤ s → (if s ≤ c then α s else β s) = β s := by
        intro s hs
        split_ifs with h1
        · rw [le_antisymm h1 (hct.trans hs), h]
        · rfl
      show HasDerivWithinAt _ (f t (if t ≤ c then α t else β t)) _ _
      rw [hv t le_rfl]
      exact (hβ.2 t ⟨hct, ht.2⟩).congr (fun s hs => hv s hs) (hv t le_rfl)

variable [CompleteSpace E]

/-- A short step. -/
theorem exists_step (f : ℝ → E → E) (s s' : ℝ) (hs : s ≤ s') (K : ℝ≥0)
    (hL : ∀ t ∈ Icc s s', LipschitzWith K (f t))
    (hc : ∀ x, ContinuousOn (fun t => f t x) (Icc s s')) (hδ : 2 * (K * (s' - s)) ≤ 1) (x0 : E) :
    ∃ α : ℝ → E, α s = x0 ∧ SolvesOn f s s' α := by
  obtain ⟨B, hB⟩ := isCompact_Icc.exists_bound_of_continuousOn (hc x0)
  have hB0 : 0 ≤ B := (norm_nonneg _).trans (hB s ⟨le_rfl, hs⟩)
  set r : ℝ≥0 := ⟨2 * B * (s' - s), by have := sub_nonneg.2 hs; positivity⟩ with hr
  set L : ℝ≥0 := ⟨B + K * (2 * B * (s' - s)), by have := sub_nonneg.2 hs; positivity⟩ with hLd
  have hpl : IsPicardLindelof f (⟨s, le_rfl, hs⟩ : Icc s s') x0 r 0 L K := by
    refine ⟨fun t ht => (hL t ht).lipschitzOnWith, fun x _ => hc x, fun t ht x hx => ?_, ?_⟩
    · have h1 := (hL t ht).dist_le_mul x x0
      rw [dist_eq_norm] at h1
      have h2 : dist x x0 ≤ 2 * B * (s' - s) := hx
      have h3 := hB t ht
      have h4 : ‖f t x‖ ≤ ‖f t x - f t x0‖ + ‖f t x0‖ := by
        simpa using norm_add_le (f t x - f t x0) (f t x0)
      have h5 := mul_le_mul_of_nonneg_left h2 K.2
      show ‖f t x‖ ≤ B + K * (2 * B * (s' - s))
      have h6 : (K : ℝ) * dist x x0 ≤ K * (2 * B * (s' - s)) := h5
      linarith
    · show (B + K * (2 * B * (s' - s))) * max (s' - s) (s - s) ≤ 2 * B * (s' - s) - 0
      rw [sub_self, max_eq_left (sub_nonneg.2 hs), sub_zero]
      have h0 := sub_nonneg.2 hs
      have : B * (s' - s) * (2 * (K * (s' - s))) ≤ B * (s' - s) * 1 :=
        mul_le_mul_of_nonneg_left hδ (by positivity)
      nlinarith
  obtain ⟨α, h1, h2⟩ := hpl.exists_eq_forall_mem_Icc_hasDerivWithinAt₀
  refine ⟨α, h1, fun t ht => (h2 t ht).continuousWithinAt, fun t ht => ?_⟩
  refine (h2 t ⟨ht.1, ht.2.le⟩).mono_of_mem_nhdsWithin ?_
  exact mem_of_superset (Icc_mem_nhdsGE ht.2) (Icc_subset_Icc_left ht.1)

/-- A solution on the whole interval. -/
theorem exists_solution (f : ℝ → E → E) (a b : ℝ) (hab : a ≤ b) (K : ℝ≥0)
    (hL : ∀ t ∈ Icc a b, LipschitzWith K (f t))
    (hc : ∀ x, ContinuousOn (fun t => f t x) (Icc a b)) (x0 : E) :
    ∃ α : ℝ → E, α a = x0 ∧ SolvesOn f a b α := by
  obtain ⟨n, hn⟩ := exists_nat_gt (2 * (K * (b - a)))
  set δ := (b - a) / (n + 1) with hδ
  have hn1 : (0 : ℝ) < n + 1 := by positivity
  have hδ0 : 0 ≤ δ := div_nonneg (sub_nonneg.2 hab) hn1.le
  have hend : a + (n + 1 : ℕ) * δ = b := by
    rw [hδ]; push_cast; field_simp; ring
  have hind : ∀ j ≤ n + 1, ∃ α : ℝ → E, α a = x0 ∧ SolvesOn f a (a + j * δ) α := by
    intro j
    induction j with
    | zero =>
      intro _
      refine ⟨fun _ => x0, rfl, continuousOn_const, fun t ht => ?_⟩
      simp at ht
    | succ j ih =>
      intro hj
      obtain ⟨α, h1, h2⟩ := ih (by omega)
      have hs : a + j * δ ≤ a + (j + 1 : ℕ) * δ := by push_cast; nlinarith
      have hja : a ≤ a + j * δ := by
        have : (0 : ℝ) ≤ j * δ := by positivity
        linarith
      have hjb : a + (j + 1 : ℕ) * δ ≤ b := by
        rw [← hend]
        have : ((j + 1 : ℕ) : ℝ) ≤ (n + 1 : ℕ) := by exact_mod_cast hj
        nlinarith
      have hsub : Icc (a + j * δ) (a + (j + 1 : ℕ) * δ) ⊆ Icc a b := Icc_subset_Icc hja hjb
      obtain ⟨β, h3, h4⟩ := exists_step f (a + j * δ) (a + (j + 1 : ℕ) * δ) hs K
        (fun t ht => hL t (hsub ht)) (fun x => (hc x).mono hsub) (by
          have e : a + (j + 1 : ℕ) * δ - (a + j * δ) = δ := by push_cast; ring
          rw [e, hδ]
          have : 2 * (K * ((b - a) / (n + 1))) = 2 * (K * (b - a)) / (n + 1) := by ring
          rw [this, div_le_one hn1]
          linarith) (α (a + j * δ))
      refine ⟨_, ?_, h2.glue hja hs h4 h3.symm⟩
      show (if a ≤ a + j * δ then α a else β a) = x0
      rw [if_pos hja, h1]
  obtain ⟨α, h1, h2⟩ := hind (n + 1) le_rfl
  rw [hend] at h2
  exact ⟨α, h1, h2⟩

end Verif.Lemmas
