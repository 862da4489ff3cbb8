import Verif.Model.TimeStep
import Mathlib.Analysis.Calculus.MeanValue
import Mathlib.Analysis.SpecialFunctions.Exp

/-! Explicit Runge-Kutta steps of any sizes for an equation whose right-hand side jumps at finitely
many times: distance from the exact solution. -/

namespace Verif.Lemmas

open Set Filter Topology Verif.Model

variable {E : Type*} [NormedAddCommGroup E] [NormedSpace ℝ E]

/-- The mean value inequality, with exceptional times. -/
theorem norm_sub_le_except {F : Set ℝ} (hF : F.Finite) (Z Z' : ℝ → E) (C : ℝ) :
    ∀ a b : ℝ, a ≤ b → ContinuousOn Z (Icc a b) →
      (∀ x ∈ Ico a b \ F, HasDerivWithinAt Z (Z' x) (Ici x) x) →
      (∀ x ∈ Ico a b \ F, ‖Z' x‖ ≤ C) → ‖Z b - Z a‖ ≤ C * (b - a) := by
  induction F, hF using Set.Finite.induction_on with
  | empty =>
    intro a b hab hc hd hb
    exact norm_image_sub_le_of_norm_deriv_right_le_segment hc
      (fun x hx => hd x ⟨hx, notMem_empty x⟩) (fun x hx => hb x ⟨hx, notMem_empty x⟩) b ⟨hab, le_rfl⟩
  | @insert c F _ _ ih =>
    intro a b hab hc hd hb
    by_cases hmem : c ∈ Icc a b
    · have h1 : ‖Z c - Z a‖ ≤ C * (c - a) := by
        refine ih a c hmem.1 (hc.mono (Icc_subset_Icc_right hmem.2)) (fun x hx => ?_) fun x hx => ?_
        · refine hd x ⟨⟨hx.1.1, hx.1.2.trans_le hmem.2⟩, ?_⟩
          rintro (rfl | h)
          exacts [lt_irrefl _ hx.1.2, hx.2 h]
        · refine hb x ⟨⟨hx.1.1, hx.1.2.trans_le hmem.2⟩, ?_⟩
          rintro (rfl | h)
          exacts [lt_irrefl _ hx.1.2, hx.2 h]
      have h2 : ‖Z b - Z c‖ ≤ C * (b - c) := by
        rcases eq_or_lt_of_le hmem.2 with rfl | hcb
        · simp
        have h3 : ∀ x ∈ Ioc c b, ‖Z b - Z x‖ ≤ C * (b - x) := by
          intro x hx
          have hax : a ≤ x := hmem.1.trans hx.1.le
          refine ih x b hx.2 (hc.mono (Icc_subset_Icc_left hax)) (fun y hy => ?_) fun y hy => ?_
          · refine hd y ⟨⟨hax.trans hy.1.1, hy.1.2⟩, ?_⟩
            rintro (rfl | h)
            exacts [absurd hx.1 (not_lt.2 hy.1.1), hy.2 h]
          · refine hb y ⟨⟨hax.trans hy.1.1, hy.1.2⟩, ?_⟩
            rintro (rfl | h)
            exacts [absurd hx.1 (not_lt.2 hy.1.1), hy.2 h]
        have hsub : Ioc c b ⊆ Icc a b := fun x hx => ⟨hmem.1.trans hx.1.le, hx.2⟩
        have hZ : Tendsto Z (𝓝[Ioc c b] c) (𝓝 (Z c)) := (hc c hmem).mono_left (nhdsWithin_mono _ hsub)
        have hne : (𝓝[Ioc c b] c).NeBot := by
          rw [nhdsWithin_Ioc_eq_nhdsGT hcb]
          infer_instance
        have hl : Tendsto (fun x => ‖Z b - Z x‖) (𝓝[Ioc c b] c) (𝓝 ‖Z b - Z c‖) :=
          (tendsto_const_nhds.sub hZ).norm
        refine le_of_tendsto_of_tendsto (g := fun x => C * (b - x)) hl ?_ ?_
        · exact ((continuous_const.mul (continuous_const.sub continuous_id)).tendsto c).mono_left
            nhdsWithin_le_nhds
        · exact eventually_mem_nhdsWithin.mono h3
      have := norm_add_le (Z b - Z c) (Z c - Z a)
      rw [sub_add_sub_cancel] at this
      linarith
    · refine ih a b hab hc (fun x hx => hd x ⟨hx.1, ?_⟩) fun x hx => hb x ⟨hx.1, ?_⟩
      all_goals
        rintro (rfl | h)
        exacts [hmem ⟨hx.1.1, hx.1.2.le⟩, hx.2 h]

/-- Stages `0 … i - 1`, from the first one. -/
noncomputable def rkStages (τ : Tableau) (f : ℝ → E → E) (t h : ℝ) (y k0 : E) : ℕ → ℕ → E
  | 0 => fun _ => k0
  | i + 1 => Function.update (rkStages τ f t h y k0 i) (i + 1)
      (f (t + τ.node (i + 1) * h) (y + h • ∑ j ∈ Finset.range (i + 1), τ.row (i + 1) j •
        rkStages τ f t h y k0 i j))

theorem rkStages_stable (τ : Tableau) (f : ℝ → E → E) (t h : ℝ) (y k0 : E) {i m : ℕ} (him : i ≤ m) :
    rkStages τ f t h y k0 m i = rkStages τ f t h y k0 i i := by
  induction m with
  | zero => obtain rfl : i = 0 := by omega
            rfl
  | succ m ih =>
    rcases Nat.lt_or_ge m i with h1 | h1
    · obtain rfl : i = m + 1 := by omega
      rfl
    · rw [← ih h1, rkStages, Function.update_of_ne (by omega)]

theorem rkStages_succ (τ : Tableau) (f : ℝ → E → E) (t h : ℝ) (y k0 : E) {i m : ℕ} (him : i + 1 ≤ m) :
    rkStages τ f t h y k0 m (i + 1) = f (t + τ.node (i + 1) * h) (y + h •
      ∑ j ∈ Finset.range (i + 1), τ.row (i + 1) j • rkStages τ f t h y k0 m j) := by
  rw [rkStages_stable τ f t h y k0 him, rkStages, Function.update_self]
  congr 3
  refine Finset.sum_congr rfl fun j hj => ?_
  have hj := Finset.mem_range.1 hj
  rw [rkStages_stable τ f t h y k0 (show j ≤ m by omega),
    rkStages_stable τ f t h y k0 (show j ≤ i by omega)]

theorem rkStages_zero (τ : Tableau) (f : ℝ → E → E) (t h : ℝ) (y k0 : E) (m : ℕ) :
    rkStages τ f t h y k0 m 0 = k0 := by
  rw [rkStages_stable τ f t h y k0 (Nat.zero_le m)]
  rfl

/-- A combination of the evaluations of a step. -/
noncomputable def rkCombine (τ : Tableau) (f : ℝ → E → E) (t h : ℝ) (y : E) (w : ℕ → ℝ) : E :=
  y + h • ∑ i ∈ Finset.range (τ.n + 1), w i • rkStages τ f t h y (f t y) τ.n i

/-- One step. -/
noncomputable def rkAdvance (τ : Tableau) (f : ℝ → E → E) (t h : ℝ) (y : E) : E :=
  y + h • ∑ i ∈ Finset.range τ.n, τ.b i • rkStages τ f t h y (f t y) τ.n i

/-- The weights of the step, as weights of all evaluations. -/
noncomputable def stepWeights (τ : Tableau) (i : ℕ) : ℝ := if i < τ.n then τ.b i else 0

theorem stepWeights_lt (τ : Tableau) {i : ℕ} (hi : i ∈ Finset.range τ.n) : stepWeights τ i = τ.b i :=
  if_pos (Finset.mem_range.1 hi)

theorem stepWeights_last (τ : Tableau) : stepWeights τ τ.n = 0 := if_neg (lt_irrefl _)

theorem stepWeights_sum (τ : Tableau) (g : ℝ → ℝ) (hg : g 0 = 0) :
    ∑ i ∈ Finset.range (τ.n + 1), g (stepWeights τ i) = ∑ i ∈ Finset.range τ.n, g (τ.b i) := by
  rw [Finset.sum_range_succ, stepWeights_last, hg, add_zero]
  exact Finset.sum_congr rfl fun i hi => by rw [stepWeights_lt τ hi]

theorem rkAdvance_eq (τ : Tableau) (f : ℝ → E → E) (t h : ℝ) (y : E) :
    rkAdvance τ f t h y = rkCombine τ f t h y (stepWeights τ) := by
  unfold rkAdvance rkCombine
  rw [Finset.sum_range_succ, stepWeights_last, zero_smul, add_zero]
  congr 2
  exact Finset.sum_congr rfl fun i hi => by rw [stepWeights_lt τ hi]

/-- Evaluations between the ends of the step; `α` bounds the sums of the absolute rows. -/
structure TableauBound (τ : Tableau) (α : ℝ) : Prop where
  first : τ.node 0 = 0
  nodes : ∀ i ≤ τ.n, 0 ≤ τ.node i ∧ τ.node i ≤ 1
  rows : ∀ i ≤ τ.n, ∑ j ∈ Finset.range i, |τ.row i j| ≤ α
  pos : 0 ≤ α

theorem TableauBound.weights {τ : Tableau} {α : ℝ} (h : TableauBound τ α) :
    ∑ i ∈ Finset.range τ.n, |τ.b i| ≤ α := by
  have := h.rows τ.n le_rfl
  simpa only [Tableau.row, lt_irrefl, if_false] using this

/-- The error after one step. -/
theorem rkCombine_error {τ : Tableau} {α β : ℝ} (hτ : TableauBound τ α) (w : ℕ → ℝ)
    (hw : ∑ i ∈ Finset.range (τ.n + 1), |w i| ≤ β) (f : ℝ → E → E) (Y : ℝ → E)
    {F : Set ℝ} (hF : F.Finite) {T L B ψ : ℝ} (hL0 : 0 ≤ L) (hB0 : 0 ≤ B)
    (hL : ∀ t ∈ Icc 0 T, ∀ y z, ‖f t y - f t z‖ ≤ L * ‖y - z‖)
    (hB : ∀ t ∈ Icc 0 T, ‖f t (Y t)‖ ≤ B) (hYc : ContinuousOn Y (Icc 0 T))
    (hY : ∀ t ∈ Ico 0 T \ F, HasDerivWithinAt Y (f t (Y t)) (Ici t) t) {t h : ℝ} (ht : 0 ≤ t)
    (hh : 0 ≤ h) (hT : t + h ≤ T) (hα : L * α * h ≤ 1 / 2)
    (hψ : ∀ v ∈ Icc t (t + h), ‖f v (Y v) - f t (Y t)‖ * h ≤ ψ) {θ : ℝ} (hθ : θ ∈ Icc 0 1) (y : E) :
    ‖rkCombine τ f t h y w - Y (t + θ * h)‖ ≤ (1 + 2 * L * β * h) * ‖y - Y t‖
      + 2 * L * β * B * (α + 1) * h ^ 2 + (1 + β) * ψ
      + |∑ i ∈ Finset.range (τ.n + 1), w i - θ| * B * h := by
  set e := ‖y - Y t‖ with he
  have he0 : 0 ≤ e := norm_nonneg _
  have hα0 := hτ.pos
  have hsub : ∀ v ∈ Icc t (t + h), v ∈ Icc 0 T := fun v hv => ⟨ht.trans hv.1, hv.2.trans hT⟩
  have hβ0 : 0 ≤ β := (Finset.sum_nonneg fun i _ => abs_nonneg _).trans hw
  set g : ℝ → E := fun v => f v (Y v) with hg
  set K := rkStages τ f t h y (f t y) τ.n with hK
  have hnode : ∀ i ≤ τ.n, t + τ.node i * h ∈ Icc t (t + h) := by
    intro i hi
    obtain ⟨h1, h2⟩ := hτ.nodes i hi
    exact ⟨by nlinarith, by nlinarith⟩
  have hmv : ∀ v ∈ Icc t (t + h), ‖Y v - Y t‖ ≤ B * h := by
    intro v hv
    have := norm_sub_le_except hF Y g B t v hv.1
      (hYc.mono fun s hs => hsub s ⟨hs.1, hs.2.trans hv.2⟩)
      (fun s hs => hY s ⟨⟨ht.trans hs.1.1, hs.1.2.trans_le (hv.2.trans hT)⟩, hs.2⟩)
      (fun s hs => hB s (hsub s ⟨hs.1.1, hs.1.2.le.trans hv.2⟩))
    refine this.trans (mul_le_mul_of_nonneg_left ?_ hB0)
    linarith [hv.2]
  set X := 2 * L * (e + h * B * (α + 1)) with hX
  have hX0 : 0 ≤ X := by positivity
  have hd : ∀ i ≤ τ.n, ‖K i - g (t + τ.node i * h)‖ ≤ X := by
    intro i
    induction i using Nat.strong_induction_on with
    | _ i ih =>
      intro hi
      rcases Nat.eq_zero_or_pos i with rfl | hpos
      · rw [hK, rkStages_zero, hτ.first, zero_mul, add_zero]
        refine (hL t (hsub t ⟨le_rfl, by linarith⟩) _ _).trans ?_
        rw [hX]
        have : 0 ≤ L * (h * B * (α + 1)) := by positivity
        nlinarith [mul_nonneg hL0 he0]
      · obtain ⟨m, rfl⟩ : ∃ m, i = m + 1 := ⟨i - 1, by omega⟩
        rw [hK, rkStages_succ τ f t h y (f t y) (show m + 1 ≤ τ.n by omega), ← hK]
        refine (hL _ (hsub _ (hnode _ hi)) _ _).trans ?_
        have hsplit : y + h • ∑ j ∈ Finset.range (m + 1), τ.row (m + 1) j • K j -
            Y (t + τ.node (m + 1) * h) = (y - Y t)
              + h • ∑ j ∈ Finset.range (m + 1), τ.row (m + 1) j • (K j - g (t + τ.node j * h))
              + h • ∑ j ∈ Finset.range (m + 1), τ.row (m + 1) j • g (t + τ.node j * h)
              - (Y (t + τ.node (m + 1) * h) - Y t) := by
          simp only [smul_sub, Finset.sum_sub_distrib]
          abel
        have h1 : ‖∑ j ∈ Finset.range (m + 1), τ.row (m + 1) j • (K j - g (t + τ.node j * h))‖ ≤ α * X := by
          refine (norm_sum_le _ _).trans ((Finset.sum_le_sum (g := fun j => |τ.row (m + 1) j| * X)
            fun j hj => ?_).trans ?_)
          · rw [norm_smul, Real.norm_eq_abs]
            have hj := Finset.mem_range.1 hj
            exact mul_le_mul_of_nonneg_left (ih j hj (by omega)) (abs_nonneg _)
          · rw [← Finset.sum_mul]
            exact mul_le_mul_of_nonneg_right (hτ.rows _ hi) hX0
        have h2 : ‖∑ j ∈ Finset.range (m + 1), τ.row (m + 1) j • g (t + τ.node j * h)‖ ≤ α * B := by
          refine (norm_sum_le _ _).trans ((Finset.sum_le_sum (g := fun j => |τ.row (m + 1) j| * B)
            fun j hj => ?_).trans ?_)
          · rw [norm_smul, Real.norm_eq_abs]
            have hj := Finset.mem_range.1 hj
            exact mul_le_mul_of_nonneg_left (hB _ (hsub _ (hnode j (by omega)))) (abs_nonneg _)
          · rw [← Finset.sum_mul]
            exact mul_le_mul_of_nonneg_right (hτ.rows _ hi) hB0
        have h3 := hmv _ (hnode _ hi)
        have h4 : ‖y + h • ∑ j ∈ Finset.range (m + 1), τ.row (m + 1) j • K j -
            Y (t + τ.node (m + 1) * h)‖ ≤ e + h * (α * X) + h * (α * B) + B * h := by
          rw [hsplit]
          refine (norm_sub_le _ _).trans (add_le_add ((norm_add_le _ _).trans (add_le_add
            ((norm_add_le _ _).trans (add_le_add le_rfl ?_)) ?_)) h3)
          · rw [norm_smul, Real.norm_of_nonneg hh]
            exact mul_le_mul_of_nonneg_left h1 hh
          · rw [norm_smul, Real.norm_of_nonneg hh]
            exact mul_le_mul_of_nonneg_left h2 hh
        refine (mul_le_mul_of_nonneg_left h4 hL0).trans ?_
        have h5 : L * α * h * X ≤ 1 / 2 * X := mul_le_mul_of_nonneg_right hα hX0
        have h6 : 1 / 2 * X = L * (e + h * B * (α + 1)) := by rw [hX]; ring
        nlinarith
  have hψ0 : 0 ≤ ψ := by simpa using hψ t ⟨le_rfl, by linarith⟩
  have hθh : t + θ * h ∈ Icc t (t + h) :=
    ⟨by nlinarith [mul_nonneg hθ.1 hh], by nlinarith [hθ.2]⟩
  have hr : ‖Y (t + θ * h) - Y t - (θ * h) • g t‖ ≤ ψ := by
    rcases eq_or_lt_of_le hh with h0 | hpos
    · rw [← h0]; simpa using hψ0
    have := norm_sub_le_except hF (fun s => Y s - (s - t) • g t) (fun s => g s - g t) (ψ / h) t
      (t + θ * h) hθh.1 ?_ ?_ ?_
    · have e1 : Y (t + θ * h) - (t + θ * h - t) • g t - (Y t - (t - t) • g t) =
          Y (t + θ * h) - Y t - (θ * h) • g t := by
        rw [add_sub_cancel_left, sub_self, zero_smul, sub_zero]
        abel
      rw [e1, add_sub_cancel_left] at this
      refine this.trans ?_
      have e2 : ψ / h * (θ * h) = ψ * θ := by field_simp
      rw [e2]
      exact mul_le_of_le_one_right hψ0 hθ.2
    · exact (hYc.mono fun s hs => hsub s ⟨hs.1, hs.2.trans hθh.2⟩).sub (by fun_prop)
    · intro s hs
      have h1 := hY s ⟨⟨ht.trans hs.1.1, hs.1.2.trans_le (hθh.2.trans hT)⟩, hs.2⟩
      have h2 : HasDerivWithinAt (fun s => (s - t) • g t) ((1 : ℝ) • g t) (Ici s) s :=
        ((hasDerivAt_id s).sub_const t).hasDerivWithinAt.smul_const (g t)
      rw [one_smul] at h2
      exact h1.sub h2
    · intro s hs
      rw [le_div_iff₀ hpos]
      exact hψ s ⟨hs.1.1, hs.1.2.le.trans hθh.2⟩
  have hfin : rkCombine τ f t h y w - Y (t + θ * h) = (y - Y t)
      + h • ∑ i ∈ Finset.range (τ.n + 1), w i • (K i - g (t + τ.node i * h))
      + h • ∑ i ∈ Finset.range (τ.n + 1), w i • (g (t + τ.node i * h) - g t)
      + (h * (∑ i ∈ Finset.range (τ.n + 1), w i - θ)) • g t - (Y (t + θ * h) - Y t - (θ * h) • g t) := by
    have : rkCombine τ f t h y w = y + h • ∑ i ∈ Finset.range (τ.n + 1), w i • K i := rfl
    rw [this]
    rw [mul_comm θ h]
    simp only [smul_sub, Finset.sum_sub_distrib, mul_sub, sub_smul, mul_smul, Finset.sum_smul]
    abel
  have h1 : ‖h • ∑ i ∈ Finset.range (τ.n + 1), w i • (K i - g (t + τ.node i * h))‖ ≤ h * (β * X) := by
    rw [norm_smul, Real.norm_of_nonneg hh]
    refine mul_le_mul_of_nonneg_left ((norm_sum_le _ _).trans ((Finset.sum_le_sum
      (g := fun i => |w i| * X) fun i hi => ?_).trans ?_)) hh
    · rw [norm_smul, Real.norm_eq_abs]
      exact mul_le_mul_of_nonneg_left (hd i (Nat.lt_succ_iff.1 (Finset.mem_range.1 hi))) (abs_nonneg _)
    · rw [← Finset.sum_mul]
      exact mul_le_mul_of_nonneg_right hw hX0
  have h2 : ‖h • ∑ i ∈ Finset.range (τ.n + 1), w i • (g (t + τ.node i * h) - g t)‖ ≤ β * ψ := by
    rw [norm_smul, Real.norm_of_nonneg hh]
    calc h * ‖∑ i ∈ Finset.range (τ.n + 1), w i • (g (t + τ.node i * h) - g t)‖
        ≤ h * ∑ i ∈ Finset.range (τ.n + 1), |w i| * ‖g (t + τ.node i * h) - g t‖ := by
          refine mul_le_mul_of_nonneg_left ((norm_sum_le _ _).trans_eq ?_) hh
          exact Finset.sum_congr rfl fun i _ => by rw [norm_smul, Real.norm_eq_abs]
      _ = ∑ i ∈ Finset.range (τ.n + 1), |w i| * (‖g (t + τ.node i * h) - g t‖ * h) := by
          rw [Finset.mul_sum]
          exact Finset.sum_congr rfl fun i _ => by ring
      _ ≤ ∑ i ∈ Finset.range (τ.n + 1), |w i| * ψ := Finset.sum_le_sum fun i hi =>
          mul_le_mul_of_nonneg_left (hψ _ (hnode i (Nat.lt_succ_iff.1 (Finset.mem_range.1 hi)))) (abs_nonneg _)
      _ ≤ β * ψ := by
          rw [← Finset.sum_mul]
          exact mul_le_mul_of_nonneg_right hw hψ0
  have h3 : ‖(h * (∑ i ∈ Finset.range (τ.n + 1), w i - θ)) • g t‖ ≤
      |∑ i ∈ Finset.range (τ.n + 1), w i - θ| * B * h := by
    rw [norm_smul, Real.norm_eq_abs, abs_mul, abs_of_nonneg hh]
    have := hB t (hsub t ⟨le_rfl, by linarith⟩)
    calc h * |∑ i ∈ Finset.range (τ.n + 1), w i - θ| * ‖g t‖ ≤ h * |∑ i ∈ Finset.range (τ.n + 1), w i - θ| * B :=
          mul_le_mul_of_nonneg_left this (by positivity)
      _ = _ := by ring
  rw [hfin]
  have h4 := norm_sub_le ((y - Y t)
      + h • ∑ i ∈ Finset.range (τ.n + 1), w i • (K i - g (t + τ.node i * h))
      + h • ∑ i ∈ Finset.range (τ.n + 1), w i • (g (t + τ.node i * h) - g t)
      + (h * (∑ i ∈ Finset.range (τ.n + 1), w i - θ)) • g t) (Y (t + θ * h) - Y t - (θ * h) • g t)
  have h5 := norm_add_le ((y - Y t)
      + h • ∑ i ∈ Finset.range (τ.n + 1), w i • (K i - g (t + τ.node i * h))
      + h • ∑ i ∈ Finset.range (τ.n + 1), w i • (g (t + τ.node i * h) - g t))
      ((h * (∑ i ∈ Finset.range (τ.n + 1), w i - θ)) • g t)
  have h6 := norm_add_le ((y - Y t)
      + h • ∑ i ∈ Finset.range (τ.n + 1), w i • (K i - g (t + τ.node i * h)))
      (h • ∑ i ∈ Finset.range (τ.n + 1), w i • (g (t + τ.node i * h) - g t))
  have h7 := norm_add_le (y - Y t)
      (h • ∑ i ∈ Finset.range (τ.n + 1), w i • (K i - g (t + τ.node i * h)))
  have h8 : h * (β * X) = 2 * L * β * h * e + 2 * L * β * B * (α + 1) * h ^ 2 := by rw [hX]; ring
  linarith

/-- The error after one step. -/
theorem rkAdvance_error {τ : Tableau} {α : ℝ} (hτ : TableauBound τ α) (f : ℝ → E → E) (Y : ℝ → E)
    {F : Set ℝ} (hF : F.Finite) {T L B ψ : ℝ} (hL0 : 0 ≤ L) (hB0 : 0 ≤ B)
    (hL : ∀ t ∈ Icc 0 T, ∀ y z, ‖f t y - f t z‖ ≤ L * ‖y - z‖)
    (hB : ∀ t ∈ Icc 0 T, ‖f t (Y t)‖ ≤ B) (hYc : ContinuousOn Y (Icc 0 T))
    (hY : ∀ t ∈ Ico 0 T \ F, HasDerivWithinAt Y (f t (Y t)) (Ici t) t) {t h : ℝ} (ht : 0 ≤ t)
    (hh : 0 ≤ h) (hT : t + h ≤ T) (hα : L * α * h ≤ 1 / 2)
    (hψ : ∀ v ∈ Icc t (t + h), ‖f v (Y v) - f t (Y t)‖ * h ≤ ψ) (y : E) :
    ‖rkAdvance τ f t h y - Y (t + h)‖ ≤ (1 + 2 * L * α * h) * ‖y - Y t‖
      + 2 * L * α * B * (α + 1) * h ^ 2 + (1 + α) * ψ
      + |∑ i ∈ Finset.range τ.n, τ.b i - 1| * B * h := by
  have hw : ∑ i ∈ Finset.range (τ.n + 1), |stepWeights τ i| ≤ α := by
    rw [stepWeights_sum τ (fun x => |x|) (by simp)]
    exact hτ.weights
  have h1 := rkCombine_error hτ (stepWeights τ) hw f Y hF hL0 hB0 hL hB hYc hY ht hh hT hα hψ (θ := 1) ⟨zero_le_one, le_rfl⟩ y
  rwa [← rkAdvance_eq, one_mul, stepWeights_sum τ (fun x => x) rfl] at h1

/-- Time and state after steps of the given sizes. -/
noncomputable def rkRun (τ : Tableau) (f : ℝ → E → E) : List ℝ → ℝ × E → ℝ × E
  | [], x => x
  | h :: hs, x => rkRun τ f hs (x.1 + h, rkAdvance τ f x.1 h x.2)

/-- The error after any steps: `Ψ` grows over a step by at least the step size times the variation of
the right-hand side along the exact solution. -/
theorem rkRun_error {τ : Tableau} {α : ℝ} (hτ : TableauBound τ α) (f : ℝ → E → E) (Y : ℝ → E)
    {F : Set ℝ} (hF : F.Finite) {T L B η : ℝ} (Ψ : ℝ → ℝ) (hL0 : 0 ≤ L) (hB0 : 0 ≤ B)
    (hL : ∀ t ∈ Icc 0 T, ∀ y z, ‖f t y - f t z‖ ≤ L * ‖y - z‖)
    (hB : ∀ t ∈ Icc 0 T, ‖f t (Y t)‖ ≤ B) (hYc : ContinuousOn Y (Icc 0 T))
    (hY : ∀ t ∈ Ico 0 T \ F, HasDerivWithinAt Y (f t (Y t)) (Ici t) t)
    (hα : L * α * η ≤ 1 / 2)
    (hΨ : ∀ t h, 0 ≤ t → 0 ≤ h → h ≤ η → t + h ≤ T → ∀ v ∈ Icc t (t + h),
      ‖f v (Y v) - f t (Y t)‖ * h ≤ Ψ (t + h) - Ψ t) :
    ∀ (hs : List ℝ) (t : ℝ) (y : E), 0 ≤ t → (∀ h ∈ hs, 0 ≤ h ∧ h ≤ η) →
      (rkRun τ f hs (t, y)).1 ≤ T →
      (rkRun τ f hs (t, y)).1 = t + hs.sum ∧
      ‖(rkRun τ f hs (t, y)).2 - Y (t + hs.sum)‖ ≤ Real.exp (2 * L * α * hs.sum) *
        (‖y - Y t‖ + 2 * L * α * B * (α + 1) * η * hs.sum + (1 + α) * (Ψ (t + hs.sum) - Ψ t)
          + |∑ i ∈ Finset.range τ.n, τ.b i - 1| * B * hs.sum) := by
  have htime : ∀ (hs : List ℝ) (t : ℝ) (y : E), (rkRun τ f hs (t, y)).1 = t + hs.sum := by
    intro hs
    induction hs with
    | nil => intro t y; simp [rkRun]
    | cons h hs ih => intro t y; rw [rkRun, ih, List.sum_cons]; ring
  have hα0 := hτ.pos
  intro hs
  induction hs with
  | nil =>
    intro t y _ _ _
    refine ⟨by simp [rkRun], ?_⟩
    simp [rkRun]
  | cons h hs ih =>
    intro t y ht hsz hT
    refine ⟨htime _ _ _, ?_⟩
    obtain ⟨hh0, hhη⟩ := hsz h (List.mem_cons_self)
    have hrest : ∀ x ∈ hs, 0 ≤ x ∧ x ≤ η := fun x hx => hsz x (List.mem_cons_of_mem _ hx)
    have hsum0 : 0 ≤ hs.sum := List.sum_nonneg fun x hx => (hrest x hx).1
    rw [htime, List.sum_cons] at hT
    have hη0 : 0 ≤ η := hh0.trans hhη
    have h1 := rkAdvance_error hτ f Y hF hL0 hB0 hL hB hYc hY ht hh0 (by linarith)
      ((mul_le_mul_of_nonneg_left hhη (by positivity)).trans hα)
      (hΨ t h ht hh0 hhη (by linarith)) y
    have h2 := (ih (t + h) (rkAdvance τ f t h y) (by linarith) hrest (by rw [htime]; linarith)).2
    have hsumc : (h :: hs).sum = h + hs.sum := List.sum_cons
    rw [rkRun, hsumc]
    have e1 : t + (h + hs.sum) = t + h + hs.sum := by ring
    rw [e1]
    refine h2.trans ?_
    have e2 : Real.exp (2 * L * α * (h + hs.sum)) =
        Real.exp (2 * L * α * hs.sum) * Real.exp (2 * L * α * h) := by
      rw [← Real.exp_add]
      congr 1
      ring
    rw [e2, mul_assoc (Real.exp (2 * L * α * hs.sum))]
    refine mul_le_mul_of_nonneg_left ?_ (Real.exp_pos _).le
    have hΨmono : ∀ t h, 0 ≤ t → 0 ≤ h → h ≤ η → t + h ≤ T → 0 ≤ Ψ (t + h) - Ψ t := by
      intro t h a b c d
      simpa using hΨ t h a b c d t ⟨le_rfl, by linarith⟩
    have hΨrest : 0 ≤ Ψ (t + h + hs.sum) - Ψ (t + h) := by
      have : ∀ (l : List ℝ) (t : ℝ), 0 ≤ t → (∀ x ∈ l, 0 ≤ x ∧ x ≤ η) → t + l.sum ≤ T →
          0 ≤ Ψ (t + l.sum) - Ψ t := by
        intro l
        induction l with
        | nil => intro t _ _ _; simp
        | cons a l ihl =>
          intro t ht hl hlT
          have ha := hl a List.mem_cons_self
          rw [List.sum_cons] at hlT ⊢
          have hl' : ∀ x ∈ l, 0 ≤ x ∧ x ≤ η := fun x hx => hl x (List.mem_cons_of_mem _ hx)
          have hl0 : 0 ≤ l.sum := List.sum_nonneg fun x hx => (hl' x hx).1
          have i1 := ihl (t + a) (by linarith [ha.1]) hl' (by linarith)
          have i2 := hΨmono t a ht ha.1 ha.2 (by linarith)
          have : t + (a + l.sum) = t + a + l.sum := by ring
          rw [this]
          linarith
      exact this hs (t + h) (by linarith) hrest (by linarith)
    set b := |∑ i ∈ Finset.range τ.n, τ.b i - 1| with hb
    have hb0 : 0 ≤ b := abs_nonneg _
    set Q := 2 * L * α * B * (α + 1) with hQ
    have hQ0 : 0 ≤ Q := by positivity
    have hexp : 1 + 2 * L * α * h ≤ Real.exp (2 * L * α * h) := by
      have := Real.add_one_le_exp (2 * L * α * h)
      linarith
    have hexp1 : 1 ≤ Real.exp (2 * L * α * h) := Real.one_le_exp (by positivity)
    have hΨh := hΨmono t h ht hh0 hhη (by linarith)
    set G := Real.exp (2 * L * α * h) with hG
    have r1 : (1 + 2 * L * α * h) * ‖y - Y t‖ ≤ G * ‖y - Y t‖ :=
      mul_le_mul_of_nonneg_right hexp (norm_nonneg _)
    have r2 : Q * h ^ 2 + Q * η * hs.sum ≤ G * (Q * η * (h + hs.sum)) := by
      have x1 : Q * h ^ 2 ≤ Q * (η * h) := by
        refine mul_le_mul_of_nonneg_left ?_ hQ0
        nlinarith
      have x2 : 1 * (Q * η * (h + hs.sum)) ≤ G * (Q * η * (h + hs.sum)) :=
        mul_le_mul_of_nonneg_right hexp1 (by positivity)
      linarith
    have r3 : (1 + α) * (Ψ (t + h) - Ψ t) + (1 + α) * (Ψ (t + h + hs.sum) - Ψ (t + h)) ≤
        G * ((1 + α) * (Ψ (t + h + hs.sum) - Ψ t)) := by
      have x2 : 1 * ((1 + α) * (Ψ (t + h + hs.sum) - Ψ t)) ≤ G * ((1 + α) * (Ψ (t + h + hs.sum) - Ψ t)) :=
        mul_le_mul_of_nonneg_right hexp1 (mul_nonneg (by positivity) (by linarith))
      linarith
    have r4 : b * B * h + b * B * hs.sum ≤ G * (b * B * (h + hs.sum)) := by
      have x2 : 1 * (b * B * (h + hs.sum)) ≤ G * (b * B * (h + hs.sum)) :=
        mul_le_mul_of_nonneg_right hexp1 (by positivity)
      linarith
    linarith

/-- Position within a window around `x`. -/
noncomputable def window (x η t : ℝ) : ℝ := max (x - η) (min (x + η) t)

theorem window_mono (x η : ℝ) : Monotone (window x η) := fun _ _ h =>
  max_le_max le_rfl (min_le_min le_rfl h)

theorem window_le {x η : ℝ} (hη : 0 ≤ η) (s t : ℝ) : window x η t - window x η s ≤ 2 * η := by
  unfold window
  have h1 : max (x - η) (min (x + η) t) ≤ x + η := max_le (by linarith) (min_le_left _ _)
  have h2 : x - η ≤ max (x - η) (min (x + η) s) := le_max_left _ _
  linarith

theorem window_step {x η t h : ℝ} (hx : x ∈ Icc t (t + h)) (hh : h ≤ η) :
    window x η (t + h) - window x η t = h := by
  have h1 : window x η (t + h) = t + h := by
    unfold window
    rw [min_eq_right (by linarith [hx.1]), max_eq_right (by linarith [hx.2, hx.1])]
  have h2 : window x η t = t := by
    unfold window
    rw [min_eq_right (by linarith [hx.1, hx.2]), max_eq_right (by linarith [hx.2])]
  rw [h1, h2]
  ring

omit [NormedSpace ℝ E] in
/-- The accumulated variation of a function that is continuous up to a time and after it. -/
theorem variation_potential {g g1 g2 : ℝ → E} {T x B ω : ℝ} (hω : 0 < ω)
    (h1 : ContinuousOn g1 (Icc 0 T)) (h2 : ContinuousOn g2 (Icc 0 T))
    (hg1 : ∀ t ∈ Icc 0 T, t ≤ x → g t = g1 t) (hg2 : ∀ t ∈ Icc 0 T, x < t → g t = g2 t)
    (hB : ∀ t ∈ Icc 0 T, ‖g t‖ ≤ B) :
    ∃ δ > 0, ∀ η, 0 < η → η ≤ δ → ∀ t h, 0 ≤ t → 0 ≤ h → h ≤ η → t + h ≤ T → ∀ v ∈ Icc t (t + h),
      ‖g v - g t‖ * h ≤ (ω * (t + h) + 2 * B * window x η (t + h)) - (ω * t + 2 * B * window x η t) := by
  have u1 := isCompact_Icc.uniformContinuousOn_of_continuous h1
  have u2 := isCompact_Icc.uniformContinuousOn_of_continuous h2
  rw [Metric.uniformContinuousOn_iff] at u1 u2
  obtain ⟨δ1, hδ1, u1⟩ := u1 ω hω
  obtain ⟨δ2, hδ2, u2⟩ := u2 ω hω
  refine ⟨min δ1 δ2 / 2, by positivity, fun η hη0 hη t h ht hh hhη hT v hv => ?_⟩
  have hmt : t ∈ Icc 0 T := ⟨ht, by linarith⟩
  have hmv : v ∈ Icc 0 T := ⟨ht.trans hv.1, hv.2.trans hT⟩
  have hd : |v - t| < min δ1 δ2 := by
    rw [abs_of_nonneg (by linarith [hv.1])]
    have : 0 < min δ1 δ2 := lt_min hδ1 hδ2
    linarith [hv.2]
  have hB0 : 0 ≤ B := (norm_nonneg _).trans (hB t hmt)
  have hmono : 0 ≤ 2 * B * (window x η (t + h) - window x η t) :=
    mul_nonneg (by positivity) (sub_nonneg.2 (window_mono x η (by linarith)))
  by_cases hx : x ∈ Icc t (t + h) ∧ t ≤ x ∧ x < v
  · have h3 : ‖g v - g t‖ ≤ 2 * B := (norm_sub_le _ _).trans (by linarith [hB v hmv, hB t hmt])
    have h4 := window_step hx.1 hhη
    have h5 : ‖g v - g t‖ * h ≤ 2 * B * h := mul_le_mul_of_nonneg_right h3 hh
    have h6 : 2 * B * (window x η (t + h) - window x η t) = 2 * B * h := by rw [h4]
    nlinarith [mul_nonneg hω.le hh]
  · have h3 : ‖g v - g t‖ ≤ ω := by
      by_cases h4 : t ≤ x
      · have h5 : v ≤ x := by
          by_contra h5
          push Not at h5
          exact hx ⟨⟨h4, h5.le.trans hv.2⟩, h4, h5⟩
        rw [hg1 v hmv h5, hg1 t hmt h4, ← dist_eq_norm]
        exact (u1 v hmv t hmt (by rw [Real.dist_eq]; exact hd.trans_le (min_le_left _ _))).le
      · push Not at h4
        rw [hg2 v hmv (h4.trans_le hv.1), hg2 t hmt h4, ← dist_eq_norm]
        exact (u2 v hmv t hmt (by rw [Real.dist_eq]; exact hd.trans_le (min_le_right _ _))).le
    have h5 : ‖g v - g t‖ * h ≤ ω * h := mul_le_mul_of_nonneg_right h3 hh
    nlinarith

set_option maxHeartbeats 1000000 in
/-- Small steps of any sizes stay close to the exact solution, also at times within the last step. -/
theorem rkRun_converges {τ : Tableau} {α : ℝ} (hτ : TableauBound τ α) (β : ℝ) (f : ℝ → E → E)
    (Y : ℝ → E) {F : Set ℝ} (hF : F.Finite) {T L x : ℝ} (hT0 : 0 ≤ T) (hL0 : 0 ≤ L)
    (hL : ∀ t ∈ Icc 0 T, ∀ y z, ‖f t y - f t z‖ ≤ L * ‖y - z‖) (hYc : ContinuousOn Y (Icc 0 T))
    (hY : ∀ t ∈ Ico 0 T \ F, HasDerivWithinAt Y (f t (Y t)) (Ici t) t) {g1 g2 : ℝ → E}
    (h1 : ContinuousOn g1 (Icc 0 T)) (h2 : ContinuousOn g2 (Icc 0 T))
    (hg1 : ∀ t ∈ Icc 0 T, t ≤ x → f t (Y t) = g1 t)
    (hg2 : ∀ t ∈ Icc 0 T, x < t → f t (Y t) = g2 t) :
    ∃ C, ∀ ε > 0, ∃ η > 0, ∀ (hs : List ℝ) (y : E), (∀ h ∈ hs, 0 ≤ h ∧ h ≤ η) → hs.sum ≤ T →
      ‖y - Y 0‖ ≤ η →
      ‖(rkRun τ f hs (0, y)).2 - Y hs.sum‖ ≤ ε + C * |∑ i ∈ Finset.range τ.n, τ.b i - 1| ∧
      ∀ h, 0 ≤ h → h ≤ η → hs.sum + h ≤ T → ∀ θ ∈ Icc (0 : ℝ) 1, ∀ w : ℕ → ℝ,
        ∑ i ∈ Finset.range (τ.n + 1), |w i| ≤ β → ∑ i ∈ Finset.range (τ.n + 1), w i = θ →
        ‖rkCombine τ f hs.sum h (rkRun τ f hs (0, y)).2 w - Y (hs.sum + θ * h)‖ ≤
          ε + C * |∑ i ∈ Finset.range τ.n, τ.b i - 1| := by
  obtain ⟨B1, hB1⟩ := isCompact_Icc.exists_bound_of_continuousOn h1
  obtain ⟨B2, hB2⟩ := isCompact_Icc.exists_bound_of_continuousOn h2
  set B := max (max B1 B2) 0 with hBdef
  have hB0 : 0 ≤ B := le_max_right _ _
  have hB : ∀ t ∈ Icc 0 T, ‖f t (Y t)‖ ≤ B := by
    intro t ht
    rcases le_or_gt t x with h | h
    · rw [hg1 t ht h]; exact (hB1 t ht).trans ((le_max_left _ _).trans (le_max_left _ _))
    · rw [hg2 t ht h]; exact (hB2 t ht).trans ((le_max_right _ _).trans (le_max_left _ _))
  have hα0 := hτ.pos
  set b := |∑ i ∈ Finset.range τ.n, τ.b i - 1| with hb
  have hb0 : 0 ≤ b := abs_nonneg _
  set G := Real.exp (2 * L * α * T) with hG
  have hG1 : 1 ≤ G := Real.one_le_exp (by positivity)
  set β' := max β 0 with hβ'
  have hβ0 : 0 ≤ β' := le_max_right _ _
  set H := 1 + 2 * L * β' with hH
  have hH1 : 1 ≤ H := by have := mul_nonneg (mul_nonneg zero_le_two hL0) hβ0; linarith
  refine ⟨H * (G * (B * T)), fun ε hε => ?_⟩
  set ω := ε / (4 * H * G * (1 + α) * (T + 1)) with hω
  have hω0 : 0 < ω := by positivity
  obtain ⟨δ, hδ, hpot⟩ := variation_potential (g := fun t => f t (Y t)) hω0 h1 h2 hg1 hg2 hB
  set D := 1 + 2 * L * α * B * (α + 1) * T + 4 * (1 + α) * B with hD
  have hD1 : 1 ≤ D := by
    have h3 : 0 ≤ 2 * L * α * B * (α + 1) * T := by positivity
    have h4 : 0 ≤ 4 * (1 + α) * B := by positivity
    linarith
  set Q := 2 * L * β' * B * (α + 1) + (1 + β') * (2 * B) with hQ
  have hQ0 : 0 ≤ Q := by positivity
  set η := min (min δ 1) (min (ε / (4 * H * G * D)) (min (1 / (2 * (L * α + 1))) (ε / (2 * (Q + 1)))))
    with hη
  have hη0 : 0 < η := by
    refine lt_min (lt_min hδ one_pos) (lt_min (by positivity) (lt_min (by positivity) (by positivity)))
  have hηδ : η ≤ δ := (min_le_left _ _).trans (min_le_left _ _)
  have hη1 : η ≤ 1 := (min_le_left _ _).trans (min_le_right _ _)
  have hηD : η ≤ ε / (4 * H * G * D) := (min_le_right _ _).trans (min_le_left _ _)
  have hηL : η ≤ 1 / (2 * (L * α + 1)) :=
    (min_le_right _ _).trans ((min_le_right _ _).trans (min_le_left _ _))
  have hηQ : η ≤ ε / (2 * (Q + 1)) :=
    (min_le_right _ _).trans ((min_le_right _ _).trans (min_le_right _ _))
  have hLα : L * α * η ≤ 1 / 2 := by
    have h3 : L * α * η ≤ (L * α + 1) * (1 / (2 * (L * α + 1))) :=
      mul_le_mul (by linarith) hηL hη0.le (by positivity)
    refine h3.trans_eq ?_
    have : L * α + 1 ≠ 0 := by positivity
    field_simp
  refine ⟨η, hη0, fun hs y hsz hsT hy => ?_⟩
  have hsum0 : 0 ≤ hs.sum := List.sum_nonneg fun x hx => (hsz x hx).1
  have hrun := rkRun_error hτ f Y hF (η := η) (fun t => ω * t + 2 * B * window x η t) hL0 hB0 hL hB hYc hY
    hLα (fun t h ht hh hhη hT v hv => hpot η hη0 hηδ t h ht hh hhη hT v hv) hs 0 y le_rfl hsz
  have htime : (rkRun τ f hs (0, y)).1 = hs.sum := by
    have : ∀ (hs : List ℝ) (t : ℝ) (y : E), (rkRun τ f hs (t, y)).1 = t + hs.sum := by
      intro hs
      induction hs with
      | nil => intro t y; simp [rkRun]
      | cons h hs ih => intro t y; rw [rkRun, ih, List.sum_cons]; ring
    rw [this, zero_add]
  have herr := (hrun (by rw [htime]; exact hsT)).2
  rw [zero_add] at herr
  have hstrong : H * ‖(rkRun τ f hs (0, y)).2 - Y hs.sum‖ ≤ ε / 2 + H * (G * (B * T)) * b := by
    have k1 : Real.exp (2 * L * α * hs.sum) ≤ G := Real.exp_le_exp.2 (by
      exact mul_le_mul_of_nonneg_left hsT (by positivity))
    have k2 : ω * hs.sum + 2 * B * window x η hs.sum - (ω * 0 + 2 * B * window x η 0) ≤
        ω * T + 4 * B * η := by
      have := window_le (x := x) hη0.le 0 hs.sum
      nlinarith [mul_le_mul_of_nonneg_left this hB0, mul_le_mul_of_nonneg_left hsT hω0.le]
    have k0 : 0 ≤ ω * hs.sum + 2 * B * window x η hs.sum - (ω * 0 + 2 * B * window x η 0) := by
      have := window_mono x η hsum0
      nlinarith [mul_nonneg hω0.le hsum0, mul_nonneg hB0 (sub_nonneg.2 this)]
    have k3 : ‖y - Y 0‖ + 2 * L * α * B * (α + 1) * η * hs.sum
        + (1 + α) * (ω * hs.sum + 2 * B * window x η hs.sum - (ω * 0 + 2 * B * window x η 0))
        + b * B * hs.sum ≤ η * D + (1 + α) * (ω * (T + 1)) + b * (B * T) := by
      have a1 : 2 * L * α * B * (α + 1) * η * hs.sum ≤ 2 * L * α * B * (α + 1) * η * T :=
        mul_le_mul_of_nonneg_left hsT (by positivity)
      have a2 := mul_le_mul_of_nonneg_left k2 (show 0 ≤ 1 + α by positivity)
      have a3 : b * B * hs.sum ≤ b * B * T := mul_le_mul_of_nonneg_left hsT (by positivity)
      have a4 : 0 ≤ (1 + α) * ω := by positivity
      rw [hD]
      linarith
    have k4 : η * D ≤ ε / (4 * H * G) := by
      calc η * D ≤ ε / (4 * H * G * D) * D := mul_le_mul_of_nonneg_right hηD (by positivity)
        _ = _ := by
          have : D ≠ 0 := by positivity
          field_simp
    have k5 : (1 + α) * (ω * (T + 1)) = ε / (4 * H * G) := by
      rw [hω]
      have : T + 1 ≠ 0 := by positivity
      have : 1 + α ≠ 0 := by positivity
      field_simp
    have k6 : ‖(rkRun τ f hs (0, y)).2 - Y hs.sum‖ ≤ G * (ε / (2 * H * G) + b * (B * T)) := by
      refine herr.trans (mul_le_mul k1 (k3.trans ?_) ?_ (by positivity))
      · have : ε / (2 * H * G) = ε / (4 * H * G) + ε / (4 * H * G) := by field_simp; norm_num
        linarith
      · have a1 : 0 ≤ (1 + α) * (ω * hs.sum + 2 * B * window x η hs.sum - (ω * 0 + 2 * B * window x η 0)) :=
          mul_nonneg (by positivity) k0
        have a2 : 0 ≤ 2 * L * α * B * (α + 1) * η * hs.sum := by positivity
        have a3 : 0 ≤ b * B * hs.sum := by positivity
        have a4 := norm_nonneg (y - Y 0)
        linarith
    calc H * ‖(rkRun τ f hs (0, y)).2 - Y hs.sum‖ ≤ H * (G * (ε / (2 * H * G) + b * (B * T))) :=
          mul_le_mul_of_nonneg_left k6 (by positivity)
      _ = _ := by
        have : H ≠ 0 := by positivity
        have : G ≠ 0 := by positivity
        field_simp
  have hHn : ‖(rkRun τ f hs (0, y)).2 - Y hs.sum‖ ≤ H * ‖(rkRun τ f hs (0, y)).2 - Y hs.sum‖ :=
    le_mul_of_one_le_left (norm_nonneg _) hH1
  refine ⟨by linarith, fun h hh hhη hhT θ hθ w hw hwθ => ?_⟩
  have hc := rkCombine_error hτ w (hw.trans (le_max_left β 0)) f Y hF hL0 hB0 hL hB hYc hY hsum0 hh hhT
    ((mul_le_mul_of_nonneg_left hhη (by positivity)).trans hLα) (ψ := 2 * B * h)
    (fun v hv => mul_le_mul_of_nonneg_right ((norm_sub_le _ _).trans (by
      linarith [hB v ⟨hsum0.trans hv.1, hv.2.trans hhT⟩, hB hs.sum ⟨hsum0, hsT⟩])) hh) hθ
    (rkRun τ f hs (0, y)).2
  rw [hwθ, sub_self, abs_zero, zero_mul, zero_mul, add_zero] at hc
  have l1 : (1 + 2 * L * β' * h) * ‖(rkRun τ f hs (0, y)).2 - Y hs.sum‖ ≤
      H * ‖(rkRun τ f hs (0, y)).2 - Y hs.sum‖ := by
    refine mul_le_mul_of_nonneg_right ?_ (norm_nonneg _)
    have : 2 * L * β' * h ≤ 2 * L * β' * 1 := mul_le_mul_of_nonneg_left (hhη.trans hη1) (by positivity)
    linarith
  have l2 : 2 * L * β' * B * (α + 1) * h ^ 2 + (1 + β') * (2 * B * h) ≤ ε / 2 := by
    have a1 : 2 * L * β' * B * (α + 1) * h ^ 2 ≤ 2 * L * β' * B * (α + 1) * h := by
      refine mul_le_mul_of_nonneg_left ?_ (by positivity)
      nlinarith [hhη.trans hη1]
    have a2 : Q * h ≤ (Q + 1) * (ε / (2 * (Q + 1))) :=
      mul_le_mul (by linarith) (hhη.trans hηQ) hh (by positivity)
    have a3 : (Q + 1) * (ε / (2 * (Q + 1))) = ε / 2 := by
      have : Q + 1 ≠ 0 := by positivity
      field_simp
    have a4 : Q * h = 2 * L * β' * B * (α + 1) * h + (1 + β') * (2 * B * h) := by rw [hQ]; ring
    linarith
  linarith

end Verif.Lemmas
