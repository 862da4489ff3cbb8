import Verif.Lemmas.Uncollided

/-!
C38-C43: uncollided solutions.
-/

namespace Verif.Props

open MeasureTheory Real Set Verif.Spec Verif.Model Verif.Lemmas

/-! ### C38 -/

theorem abs_le_of_two {x y : ℝ} (h1 : -y ≤ x) (h2 : x ≤ y) : |x| ≤ y := abs_le.mpr ⟨h1, h2⟩

/-- The regularised quotient. -/
theorem regularised {A d ε δ : ℝ} (hA : 0 ≤ A) (hd : 0 < d) (hε : 0 ≤ ε) (hδ : ε / d ≤ δ) :
    A / (d + ε) ≤ A / d ∧ A / d ≤ A / (d + ε) * (1 + δ) := by
  have hde : 0 < d + ε := by linarith
  refine ⟨div_le_div_of_nonneg_left hA hd (by linarith), ?_⟩
  have e : A / d = A / (d + ε) * (1 + ε / d) := by field_simp
  rw [e]
  exact mul_le_mul_of_nonneg_left (by linarith) (div_nonneg hA hde.le)

/-- C38: the square pulse is the free-streaming solution up to the factor `1 + 1e-12/t`. -/
theorem c38_square_pulse {x0 t : ℝ} (x : ℝ) (h0 : 0 < x0) (ht : 0 < t) :
    squareIC x0 x t ≤ squarePulse x t x0 ∧
      squarePulse x t x0 ≤ squareIC x0 x t * (1 + 1e-12 / t) := by
  have hp := exp_pos (-t)
  have hε : (0 : ℝ) ≤ 1e-12 / t := by positivity
  have h2 : (1e-12 : ℝ) / (2 * t) ≤ 1e-12 / t := by
    apply div_le_div_of_nonneg_left (by norm_num) ht; linarith
  unfold squareIC
  split_ifs with c1 c2 c3 c4 c5
  · obtain ⟨_, h1, h2⟩ := c1
    have ha : |x| ≤ x0 - t := abs_le_of_two (by linarith) h2
    rw [squarePulse_near ht.le (by linarith)]
    exact ⟨le_rfl, by nlinarith⟩
  · obtain ⟨_, h1, h2⟩ := c2
    have ha : |x| ≤ t - x0 := abs_le_of_two (by linarith) h2
    rw [squarePulse_far ht h0.le (by linarith), ← mul_div_assoc]
    exact regularised (by positivity) ht (by norm_num) le_rfl
  · obtain ⟨h1, h3⟩ := c4
    have ha : |x| = -x := by
      rw [abs_of_nonpos]
      linarith
    rw [squarePulse_partly ht (by rw [ha]; linarith) (by rw [ha]; linarith)
      (by rw [ha]; linarith [c3.2]), ha, ← mul_div_assoc]
    rw [show t + x0 - -x = t + x + x0 by ring]
    exact regularised (mul_nonneg hp.le (by linarith [c3.2])) (by linarith) (by norm_num) h2
  · obtain ⟨h1, h3⟩ := c5
    have hx : 0 ≤ x := by linarith
    have ha : |x| = x := abs_of_nonneg hx
    rw [squarePulse_partly ht (by rw [ha]; linarith) (by rw [ha]; linarith)
      (by rw [ha]; linarith [c3.1]), ha, ← mul_div_assoc]
    rw [show t + x0 - x = t - x + x0 by ring]
    exact regularised (mul_nonneg hp.le (by linarith [c3.1])) (by linarith) (by norm_num) h2
  · exfalso
    rcases le_or_gt t x0 with hc | hc
    · rcases lt_or_ge x (-x0 + t) with h | h
      · exact c4 ⟨by linarith, by linarith⟩
      · have h' : x0 - t < x := by
          by_contra hx
          exact c1 ⟨hc, h, not_lt.mp hx⟩
        exact c5 ⟨by linarith, by linarith⟩
    · rcases lt_or_ge x (-t + x0) with h | h
      · exact c4 ⟨by linarith, by linarith⟩
      · have h' : t - x0 < x := by
          by_contra hx
          exact c2 ⟨hc, h, not_lt.mp hx⟩
        exact c5 ⟨by linarith, by linarith⟩
  · have hd : t + x0 ≤ |x| := by
      by_contra h
      obtain ⟨h1, h2⟩ := abs_lt.mp (not_le.mp h)
      exact c3 ⟨h2, by linarith⟩
    rw [squarePulse_dark ht hd]
    simp

/-- C38 at the start: the code gives the pulse itself. -/
theorem c38_start {x0 x : ℝ} (h : |x| ≤ x0) : squareIC x0 x 0 = 1 := by
  obtain ⟨h1, h2⟩ := abs_le.mp h
  unfold squareIC
  rw [if_pos ⟨(abs_nonneg x).trans h, by linarith, by linarith⟩]
  simp

example : squareIC (1 / 2) 3 5 ≤ squarePulse 3 5 (1 / 2) :=
  (c38_square_pulse 3 (by norm_num) (by norm_num)).1

/-! ### C40 -/

theorem sqF2_eq {Ei : ℝ → ℝ} {t τ x0 x : ℝ} (h : τ < t ∨ |x| = x0) :
    sqF2 Ei t τ x0 x = 0.5 * ((-x0 + |x|) * Ei (τ - t) + exp (τ - t)) := by
  unfold sqF2
  split_ifs with hne
  · rfl
  · rcases h with h | h
    · exact absurd h.ne hne
    · have : τ = t := not_not.mp hne
      subst this
      simp [h]

/-- C40: the closed form is the time integral of square pulses. -/
theorem c40_square_source {Ei : ℝ → ℝ} (hE : IsExpi Ei) (x : ℝ) {t x0 t0 : ℝ} (ht : 0 < t)
    (h0 : 0 < x0) (ht0 : 0 < t0) :
    uncollidedSquare Ei x t x0 t0 = squareSource x t x0 t0 := by
  have ha := abs_nonneg x
  have hT : 0 < min t t0 := lt_min ht ht0
  have hTt : min t t0 ≤ t := min_le_left _ _
  unfold uncollidedSquare squareSource
  simp only [ht, if_true]
  obtain ⟨T, hTe⟩ : ∃ T, T = min t t0 := ⟨_, rfl⟩
  rw [← hTe] at hT hTt ⊢
  obtain ⟨E, hEe⟩ : ∃ E, E = min T (t - |x| + x0) := ⟨_, rfl⟩
  rw [← hEe]
  have hET : E ≤ T := hEe ▸ min_le_left _ _
  have hEx : E ≤ t - |x| + x0 := hEe ▸ min_le_right _ _
  have hnn : ∀ τ, 0 ≤ squarePulse x (t - τ) x0 := fun τ => squarePulse_nonneg _ _ _
  -- the part of the time interval after `E` is dark
  have dark : ∀ τ, E < τ → τ < T → squarePulse x (t - τ) x0 = 0 := by
    intro τ h1 h2
    have : t - |x| + x0 < τ := by
      rcases min_choice T (t - |x| + x0) with h | h
      · rw [hEe, h] at h1; linarith
      · rwa [hEe, h] at h1
    exact squarePulse_dark (by linarith) (by linarith)
  split_ifs with hE0
  · rw [(ftc_zero hT.le (fun τ hτ => dark τ (by linarith [hτ.1]) hτ.2)).2]
  · have hE0 : 0 < E := not_le.mp hE0
    have c4 : clampLow E = E := by unfold clampLow; rw [if_neg (by linarith)]
    rw [c4]
    obtain ⟨p, hp⟩ : ∃ p, p = clampLow (min E (t - x0 - |x|)) := ⟨_, rfl⟩
    obtain ⟨q, hq⟩ : ∃ q, q = clampLow (min E (t - x0 + |x|)) := ⟨_, rfl⟩
    rw [← hp, ← hq]
    -- what is known of the two inner times
    have hp0 : 0 ≤ p := by rw [hp]; unfold clampLow; split_ifs <;> linarith
    have hpE : p ≤ E := by
      rw [hp]; unfold clampLow; split_ifs
      · exact hE0.le
      · exact min_le_left _ _
    have hqE : q ≤ E := by
      rw [hq]; unfold clampLow; split_ifs
      · exact hE0.le
      · exact min_le_left _ _
    have hpq : p ≤ q := by
      have hm : min E (t - x0 - |x|) ≤ min E (t - x0 + |x|) :=
        min_le_min_left _ (by linarith)
      rw [hp, hq]; unfold clampLow; split_ifs <;> linarith
    have hp1 : 0 < p → p ≤ t - x0 - |x| := by
      intro h
      have := min_le_right E (t - x0 - |x|)
      rw [hp] at h ⊢
      unfold clampLow at h ⊢
      split_ifs at h ⊢ <;> linarith
    have hp2 : p < E → t - x0 - |x| ≤ p := by
      intro h
      rcases min_choice E (t - x0 - |x|) with e | e <;>
        (rw [hp, e] at h ⊢; unfold clampLow at h ⊢; split_ifs at h ⊢ <;> linarith)
    have hq1 : 0 < q → q ≤ t - x0 + |x| := by
      intro h
      have := min_le_right E (t - x0 + |x|)
      rw [hq] at h ⊢
      unfold clampLow at h ⊢
      split_ifs at h ⊢ <;> linarith
    have hq2 : q < E → t - x0 + |x| ≤ q := by
      intro h
      rcases min_choice E (t - x0 + |x|) with e | e <;>
        (rw [hq, e] at h ⊢; unfold clampLow at h ⊢; split_ifs at h ⊢ <;> linarith)
    have hpt : p < t := by
      rcases hp0.eq_or_lt with h | h
      · linarith
      · linarith [hp1 h]
    have hqt : q < t ∨ |x| = x0 := by
      rcases lt_or_ge q t with h | h
      · exact Or.inl h
      · right
        have := hq1 (by linarith)
        apply le_antisymm <;> linarith
    -- the three pieces
    have i1 : IntervalIntegrable (fun τ => squarePulse x (t - τ) x0) volume 0 p ∧
        ∫ τ in (0 : ℝ)..p, squarePulse x (t - τ) x0 = sqF1 Ei t p x0 - sqF1 Ei t 0 x0 := by
      refine ftc_nonneg (F := fun τ => sqF1 Ei t τ x0) hp0 ?_ ?_ (fun τ _ => hnn τ)
      · intro τ hτ
        exact ((hasDerivAt_expi hE (by linarith [hτ.2])).const_mul
          (-x0)).continuousAt.continuousWithinAt
      · intro τ hτ
        have hs : 0 < t - τ := by linarith [hτ.2]
        refine ((hasDerivAt_expi hE (by linarith)).const_mul (-x0)).congr_deriv ?_
        rw [squarePulse_far hs h0.le (by linarith [hτ.2, hp1 (by linarith [hτ.1, hτ.2])]),
          show -(t - τ) = τ - t by ring, show t - τ = -(τ - t) by ring]
        have : τ - t ≠ 0 := by linarith
        field_simp
    have i2 : IntervalIntegrable (fun τ => squarePulse x (t - τ) x0) volume p q ∧
        ∫ τ in p..q, squarePulse x (t - τ) x0 = sqF2 Ei t q x0 x - sqF2 Ei t p x0 x := by
      refine ftc_nonneg (F := fun τ => sqF2 Ei t τ x0 x) hpq ?_ ?_ (fun τ _ => hnn τ)
      · have hc : ContinuousOn (fun τ => 0.5 * ((-x0 + |x|) * Ei (τ - t) + exp (τ - t)))
            (Icc p q) := by
          rcases hqt with h | h
          · intro τ hτ
            exact ((((hasDerivAt_expi hE (by linarith [hτ.2])).const_mul (-x0 + |x|)).add
              (hasDerivAt_expShift t τ)).const_mul (0.5 : ℝ)).continuousAt.continuousWithinAt
          · simp only [h, neg_add_cancel, zero_mul, zero_add]
            fun_prop
        refine hc.congr ?_
        intro τ hτ
        refine sqF2_eq ?_
        rcases hqt with h | h
        · exact Or.inl (by linarith [hτ.2])
        · exact Or.inr h
      · intro τ hτ
        have hτt : τ < t := by
          have := hTt
          linarith [hτ.2]
        have hs : 0 < t - τ := by linarith
        have hτE : τ < E := by linarith [hτ.2]
        have hev : (fun τ => sqF2 Ei t τ x0 x) =ᶠ[nhds τ]
            fun τ => 0.5 * ((-x0 + |x|) * Ei (τ - t) + exp (τ - t)) := by
          filter_upwards [Iio_mem_nhds hτt] with u hu
          exact sqF2_eq (Or.inl hu)
        refine HasDerivAt.congr_of_eventuallyEq ?_ hev
        refine ((((hasDerivAt_expi hE hτt).const_mul (-x0 + |x|)).add
          (hasDerivAt_expShift t τ)).const_mul (0.5 : ℝ)).congr_deriv ?_
        rw [squarePulse_partly hs
          (by linarith [hτ.1, hp2 (by linarith [hτ.1])])
          (by linarith [hτ.2, hq1 (by linarith [hτ.1, hτ.2])]) (by linarith),
          show -(t - τ) = τ - t by ring, show t - τ = -(τ - t) by ring]
        have : τ - t ≠ 0 := by linarith
        field_simp
        ring
    have i3 : IntervalIntegrable (fun τ => squarePulse x (t - τ) x0) volume q E ∧
        ∫ τ in q..E, squarePulse x (t - τ) x0 = sqF3 t E - sqF3 t q := by
      refine ftc_nonneg (F := fun τ => sqF3 t τ) hqE ?_ ?_ (fun τ _ => hnn τ)
      · exact (by unfold sqF3; fun_prop)
      · intro τ hτ
        refine (hasDerivAt_expShift t τ).congr_deriv ?_
        rw [squarePulse_near (by linarith [hτ.2]) (by linarith [hτ.1, hq2 (by linarith [hτ.1, hτ.2])]),
          show -(t - τ) = τ - t by ring]
    have i4 := ftc_zero hET (fun τ hτ => dark τ hτ.1 hτ.2)
    have := (ftc_glue (ftc_glue (ftc_glue i1 i2) i3) i4).2
    rw [this, add_zero]

/-- C40 used: a point inside the source while it is on. -/
example : ∃ Ei, IsExpi Ei ∧
    uncollidedSquare Ei (1 / 4) 2 (1 / 2) 5 = squareSource (1 / 4) 2 (1 / 2) 5 := by
  obtain ⟨Ei, h⟩ := exists_expi
  exact ⟨Ei, h, c40_square_source h _ (by norm_num) (by norm_num) (by norm_num)⟩

end Verif.Props
