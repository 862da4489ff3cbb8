import Mathlib.Analysis.ODE.Gronwall
import Mathlib.Data.Set.Finite.Basic

/-!
Gronwall's inequality where nothing is required at finitely many times (the times at which a source
is switched off or the mesh velocity jumps).
-/

namespace Verif.Lemmas

open Set Filter Topology

theorem gronwallBound_semigroup (δ K ε x y : ℝ) :
    gronwallBound (gronwallBound δ K ε x) K ε y = gronwallBound δ K ε (x + y) := by
  by_cases hK : K = 0
  · subst hK
    simp only [gronwallBound_K0]; ring
  · simp only [gronwallBound_of_K_ne_0 hK, mul_add, Real.exp_add]
    field_simp
    ring

theorem gronwallBound_continuous (K ε : ℝ) :
    Continuous fun q : ℝ × ℝ => gronwallBound q.1 K ε q.2 := by
  by_cases hK : K = 0
  · subst hK
    simp only [gronwallBound_K0]
    fun_prop
  · simp only [gronwallBound_of_K_ne_0 hK]
    fun_prop

theorem gronwallBound_mono' (K ε : ℝ) {δ δ' : ℝ} (h : δ ≤ δ') (x : ℝ) :
    gronwallBound δ K ε x ≤ gronwallBound δ' K ε x := by
  by_cases hK : K = 0
  · subst hK
    simp only [gronwallBound_K0]; linarith
  · simp only [gronwallBound_of_K_ne_0 hK]
    have := mul_le_mul_of_nonneg_right h (Real.exp_pos (K * x)).le
    linarith

theorem gronwall_except {F : Set ℝ} (hF : F.Finite) (f f' : ℝ → ℝ) (K ε : ℝ) :
    ∀ (a b δ : ℝ), ContinuousOn f (Icc a b) →
      (∀ x ∈ Ico a b \ F, HasDerivWithinAt f (f' x) (Ici x) x) → f a ≤ δ →
      (∀ x ∈ Ico a b \ F, f' x ≤ K * f x + ε) →
      ∀ t ∈ Icc a b, f t ≤ gronwallBound δ K ε (t - a) := by
  induction F, hF using Set.Finite.induction_on with
  | empty =>
    intro a b δ hf hd ha hb t ht
    exact le_gronwallBound_of_liminf_deriv_right_le hf
      (fun x hx r hr => (hd x ⟨hx, notMem_empty x⟩).liminf_right_slope_le hr) ha
      (fun x hx => hb x ⟨hx, notMem_empty x⟩) t ht
  | @insert c F _ _ ih =>
    intro a b δ hf hd ha hb t ht
    have hne : ∀ x, x ≠ c → x ∉ F → x ∉ insert c F := fun x h1 h2 h3 => by
      rcases h3 with h3 | h3
      exacts [h1 h3, h2 h3]
    by_cases hac : a ≤ c ∧ c < t
    · obtain ⟨hac, hct⟩ := hac
      have h1 : f c ≤ gronwallBound δ K ε (c - a) :=
        ih a c δ (hf.mono (Icc_subset_Icc_right (hct.le.trans ht.2)))
          (fun x hx => hd x ⟨⟨hx.1.1, hx.1.2.trans (hct.trans_le ht.2)⟩, hne x hx.1.2.ne hx.2⟩) ha
          (fun x hx => hb x ⟨⟨hx.1.1, hx.1.2.trans (hct.trans_le ht.2)⟩, hne x hx.1.2.ne hx.2⟩) c
          ⟨hac, le_rfl⟩
      have h2 : ∀ s ∈ Ioc c t, f t ≤ gronwallBound (f s) K ε (t - s) := fun s hs =>
        ih s b (f s) (hf.mono (Icc_subset_Icc_left (hac.trans hs.1.le)))
          (fun x hx => hd x ⟨⟨hac.trans (hs.1.le.trans hx.1.1), hx.1.2⟩,
            hne x (hs.1.trans_le hx.1.1).ne' hx.2⟩) le_rfl
          (fun x hx => hb x ⟨⟨hac.trans (hs.1.le.trans hx.1.1), hx.1.2⟩,
            hne x (hs.1.trans_le hx.1.1).ne' hx.2⟩) t ⟨hs.2, ht.2⟩
      have h3 : Tendsto (fun s => gronwallBound (f s) K ε (t - s)) (𝓝[>] c)
          (𝓝 (gronwallBound (f c) K ε (t - c))) := by
        have hfc : Tendsto f (𝓝[>] c) (𝓝 (f c)) := by
          have := (hf c ⟨hac, hct.le.trans ht.2⟩).mono_left
            (nhdsWithin_mono c (Ioo_subset_Icc_self.trans (Icc_subset_Icc_left hac)) :
              𝓝[Ioo c b] c ≤ 𝓝[Icc a b] c)
          rwa [nhdsWithin_Ioo_eq_nhdsGT (hct.trans_le ht.2)] at this
        have hs : Tendsto (fun s => t - s) (𝓝[>] c) (𝓝 (t - c)) :=
          ((continuous_const.sub continuous_id).tendsto c).mono_left nhdsWithin_le_nhds
        exact ((gronwallBound_continuous K ε).tendsto (f c, t - c)).comp (hfc.prodMk_nhds hs)
      have h4 : f t ≤ gronwallBound (f c) K ε (t - c) :=
        ge_of_tendsto h3 (mem_of_superset (Ioc_mem_nhdsGT hct) h2)
      refine h4.trans ((gronwallBound_mono' K ε h1 _).trans ?_)
      rw [gronwallBound_semigroup, show c - a + (t - c) = t - a by ring]
    · have hx : ∀ x ∈ Ico a t, x ≠ c := fun x hx h => hac ⟨h ▸ hx.1, h ▸ hx.2⟩
      exact ih a t δ (hf.mono (Icc_subset_Icc_right ht.2))
        (fun x h => hd x ⟨⟨h.1.1, h.1.2.trans_le ht.2⟩, hne x (hx x h.1) h.2⟩) ha
        (fun x h => hb x ⟨⟨h.1.1, h.1.2.trans_le ht.2⟩, hne x (hx x h.1) h.2⟩) t ⟨ht.1, le_rfl⟩

end Verif.Lemmas
