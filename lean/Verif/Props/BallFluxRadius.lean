import Verif.Props.SystemRun
import Verif.Props.UncollidedMore

/-!
The uncollided flux of a ball as a function of the radius, and the error of one midpoint per shell
(used for C124).
-/

namespace Verif.Props

open Set Filter Verif.Spec Verif.Model Verif.Lemmas

/-! ### The uncollided flux as a function of the radius -/

/-- Lower end of the directions that point back into the ball. -/
noncomputable def ballEdge (r s x0 : ℝ) : ℝ := min 1 (max (-1) ((r ^ 2 + s ^ 2 - x0 ^ 2) / (2 * r * s)))

theorem ballDirections_volume {r s x0 : ℝ} (hr : 0 < r) (hs : 0 < s) :
    (MeasureTheory.volume (ballDirections r s x0)).toReal = 1 - ballEdge r s x0 := by
  unfold ballEdge
  set m := (r ^ 2 + s ^ 2 - x0 ^ 2) / (2 * r * s) with hm
  have e : ballDirections r s x0 = Icc (max (-1) m) 1 := by
    ext μ
    simp only [ballDirections, mem_ofPred_eq, mem_Icc, max_le_iff]
    rw [hm, div_le_iff₀ (by positivity)]
    constructor
    · rintro ⟨h1, h2, h3⟩
      exact ⟨⟨h1, by linarith⟩, h2⟩
    · rintro ⟨⟨h1, h3⟩, h2⟩
      exact ⟨h1, h2, by linarith⟩
  rw [e, Real.volume_Icc, ENNReal.toReal_ofReal']
  rcases le_total (max (-1) m) 1 with h | h
  · rw [min_eq_right h, max_eq_left (by linarith)]
  · rw [min_eq_left h, max_eq_right (by linarith)]; ring

theorem ballEdge_mem (r s x0 : ℝ) : -1 ≤ ballEdge r s x0 ∧ ballEdge r s x0 ≤ 1 :=
  ⟨le_min (by norm_num) (le_max_left _ _), min_le_left _ _⟩

/-- Inside the radius `|x0 - s|` all directions count, or none. -/
theorem ballEdge_inner {r s x0 : ℝ} (hr : 0 < r) (hs : 0 < s) (hx : 0 < x0) (h : r ≤ |x0 - s|) :
    ballEdge r s x0 = if s ≤ x0 then -1 else 1 := by
  unfold ballEdge
  have hp : 0 < 2 * r * s := by positivity
  split_ifs with hc
  · rw [abs_of_nonneg (by linarith)] at h
    rw [max_eq_left, min_eq_right (by norm_num)]
    rw [div_le_iff₀ hp]
    nlinarith
  · have hc := lt_of_not_ge hc
    rw [abs_of_neg (by linarith)] at h
    refine min_eq_left (le_max_of_le_right ?_)
    rw [le_div_iff₀ hp]
    nlinarith

theorem ballEdge_outer {r r' s x0 : ℝ} (hr : 0 < r) (hrr : r ≤ r') (hs : 0 < s) (hx : 0 < x0)
    (h : |x0 - s| ≤ r) :
    |ballEdge r' s x0 - ballEdge r s x0| ≤ (r' - r) * (1 / s + 1 / r') := by
  have hr' : 0 < r' := by linarith
  have h1 : |ballEdge r' s x0 - ballEdge r s x0| ≤
      |(r' ^ 2 + s ^ 2 - x0 ^ 2) / (2 * r' * s) - (r ^ 2 + s ^ 2 - x0 ^ 2) / (2 * r * s)| := by
    unfold ballEdge
    refine (abs_min_sub_min_le_max _ _ _ _).trans ?_
    rw [sub_self, abs_zero]
    refine max_le (abs_nonneg _) ((abs_max_sub_max_le_max _ _ _ _).trans ?_)
    rw [sub_self, abs_zero]
    exact max_le (abs_nonneg _) le_rfl
  refine h1.trans ?_
  have e : (r' ^ 2 + s ^ 2 - x0 ^ 2) / (2 * r' * s) - (r ^ 2 + s ^ 2 - x0 ^ 2) / (2 * r * s) =
      (r' - r) / (2 * s) * (1 + (x0 ^ 2 - s ^ 2) / (r * r')) := by
    field_simp
    ring
  rw [e, abs_mul, abs_of_nonneg (div_nonneg (by linarith) (by linarith))]
  have h2 : |(x0 ^ 2 - s ^ 2) / (r * r')| ≤ 1 + 2 * s / r' := by
    rw [abs_div, abs_of_pos (mul_pos hr hr'), div_le_iff₀ (mul_pos hr hr')]
    have e2 : x0 ^ 2 - s ^ 2 = (x0 - s) * (x0 + s) := by ring
    rw [e2, abs_mul, abs_of_pos (by linarith : 0 < x0 + s)]
    have h3 : x0 + s ≤ r + 2 * s := by linarith [le_abs_self (x0 - s)]
    have h4 : |x0 - s| * (x0 + s) ≤ r * (r + 2 * s) :=
      mul_le_mul h h3 (by linarith) hr.le
    have e3 : (1 + 2 * s / r') * (r * r') = r * (r' + 2 * s) := by field_simp
    rw [e3]
    nlinarith
  have h5 : |1 + (x0 ^ 2 - s ^ 2) / (r * r')| ≤ 2 + 2 * s / r' := by
    refine (abs_add_le _ _).trans ?_
    rw [abs_one]
    linarith
  refine (mul_le_mul_of_nonneg_left h5 (div_nonneg (by linarith) (by linarith))).trans_eq ?_
  field_simp

theorem ballEdge_lipschitz {r r' s x0 : ℝ} (hr : 0 < r) (hrr : r ≤ r') (hs : 0 < s) (hx : 0 < x0) :
    |ballEdge r' s x0 - ballEdge r s x0| ≤ (r' - r) * (1 / s + 1 / r') := by
  have hr' : 0 < r' := by linarith
  have hf : 0 < 1 / s + 1 / r' := by positivity
  rcases le_total r' |x0 - s| with h | h
  · rw [ballEdge_inner hr hs hx (hrr.trans h), ballEdge_inner hr' hs hx h, sub_self, abs_zero]
    exact mul_nonneg (by linarith) hf.le
  · rcases le_total |x0 - s| r with h2 | h2
    · exact ballEdge_outer hr hrr hs hx h2
    · have h3 : 0 < |x0 - s| := hr.trans_le h2
      rw [ballEdge_inner hr hs hx h2, ← ballEdge_inner h3 hs hx le_rfl]
      exact (ballEdge_outer h3 h hs hx le_rfl).trans
        (mul_le_mul_of_nonneg_right (by linarith) hf.le)

/-- Density of the directions in the uncollided flux of one particle in the ball. -/
noncomputable def ballDensity (x0 : ℝ) : ℝ := 1 / (4 * Real.pi / 3 * x0 ^ 3) / (4 * Real.pi) * (2 * Real.pi)

theorem ballDensity_pos {x0 : ℝ} (hx : 0 < x0) : 0 < ballDensity x0 := by
  unfold ballDensity
  have := Real.pi_pos
  positivity

theorem ballFlux_eq {x0 r t : ℝ} (hr : 0 < r) (ht : 0 ≤ t) :
    ballFlux x0 r t = Real.exp (-t) * ballDensity x0 * (1 - ballEdge r (t + 1e-12) x0) := by
  unfold ballFlux ballDensity
  rw [ballDirections_volume hr (by positivity)]
  ring

theorem ballFlux_mem {x0 r t : ℝ} (hx : 0 < x0) (hr : 0 < r) (ht : 0 ≤ t) :
    0 ≤ ballFlux x0 r t ∧ ballFlux x0 r t ≤ 2 * ballDensity x0 := by
  rw [ballFlux_eq hr ht]
  have h1 := ballEdge_mem r (t + 1e-12) x0
  have h2 := ballDensity_pos hx
  have h3 : Real.exp (-t) ≤ 1 := Real.exp_le_one_iff.2 (by linarith)
  have h4 := Real.exp_pos (-t)
  refine ⟨mul_nonneg (by positivity) (by linarith [h1.2]), ?_⟩
  have h5 : Real.exp (-t) * ballDensity x0 ≤ ballDensity x0 := by nlinarith
  have h6 : (0 : ℝ) ≤ 1 - ballEdge r (t + 1e-12) x0 := by linarith [h1.2]
  nlinarith [h1.1, mul_pos h4 h2]

theorem ballFlux_lipschitz {x0 r r' t : ℝ} (hx : 0 < x0) (hr : 0 < r) (hrr : r ≤ r') (ht : 0 ≤ t) :
    |ballFlux x0 r' t - ballFlux x0 r t| ≤
      ballDensity x0 * ((r' - r) * (1 / (t + 1e-12) + 1 / r')) := by
  have hs : (0 : ℝ) < t + 1e-12 := by positivity
  rw [ballFlux_eq hr ht, ballFlux_eq (hr.trans_le hrr) ht]
  have h2 := ballDensity_pos hx
  have h3 : Real.exp (-t) ≤ 1 := Real.exp_le_one_iff.2 (by linarith)
  have h4 := Real.exp_pos (-t)
  have e : Real.exp (-t) * ballDensity x0 * (1 - ballEdge r' (t + 1e-12) x0) -
      Real.exp (-t) * ballDensity x0 * (1 - ballEdge r (t + 1e-12) x0) =
      -(Real.exp (-t) * ballDensity x0 * (ballEdge r' (t + 1e-12) x0 - ballEdge r (t + 1e-12) x0)) := by
    ring
  rw [e, abs_neg, abs_mul, abs_of_pos (mul_pos h4 h2)]
  refine mul_le_mul (by nlinarith) (ballEdge_lipschitz hr hrr hs hx) (abs_nonneg _) h2.le

/-! ### One midpoint for a shell -/

/-- Integral of the flux over a shell in the volume weight. -/
noncomputable def shellIntegral (x0 a b t : ℝ) : ℝ := ∫ r in a..b, r ^ 2 * ballFlux x0 r t

theorem shell_volume (a b : ℝ) : ∫ r in a..b, r ^ 2 = (b ^ 3 - a ^ 3) / 3 := by
  rw [integral_pow]; norm_num

/-- `r φ` is Lipschitz, up to the centre. -/
theorem continuousOn_radius_ballFlux {x0 t : ℝ} (hx : 0 < x0) (ht : 0 ≤ t) (R : ℝ) :
    ContinuousOn (fun r => r * ballFlux x0 r t) (Icc 0 R) := by
  have hs : (0 : ℝ) < t + 1e-12 := by positivity
  have hB := ballDensity_pos hx
  rcases lt_or_ge R 0 with hR | hR
  · rw [Icc_eq_empty (by linarith)]; exact continuousOn_empty _
  set L : ℝ := ballDensity x0 * (R / (t + 1e-12) + 3) with hL
  have hL0 : 0 ≤ L := by positivity
  have key : ∀ r r', 0 ≤ r → r ≤ r' → r' ≤ R →
      |r' * ballFlux x0 r' t - r * ballFlux x0 r t| ≤ L * (r' - r) := by
    intro r r' h0 h1 h2
    rcases h0.eq_or_lt with h | h
    · subst h
      rcases h1.eq_or_lt with h | h
      · subst h; simp
      · have h3 := ballFlux_mem hx h ht
        rw [zero_mul, sub_zero, sub_zero, abs_of_nonneg (mul_nonneg h.le h3.1)]
        have h4 : 2 * ballDensity x0 ≤ L := by
          rw [hL]
          have : 0 ≤ R / (t + 1e-12) := by positivity
          nlinarith
        nlinarith [h3.2]
    · have h3 := ballFlux_mem hx h ht
      have h4 := ballFlux_lipschitz hx h h1 ht
      have hr' : 0 < r' := by linarith
      have e : r' * ballFlux x0 r' t - r * ballFlux x0 r t =
          r' * (ballFlux x0 r' t - ballFlux x0 r t) + (r' - r) * ballFlux x0 r t := by ring
      rw [e]
      refine (abs_add_le _ _).trans ?_
      rw [abs_mul, abs_mul, abs_of_pos hr', abs_of_nonneg (by linarith : 0 ≤ r' - r),
        abs_of_nonneg h3.1]
      have h5 : r' * |ballFlux x0 r' t - ballFlux x0 r t| ≤
          ballDensity x0 * ((r' - r) * (R / (t + 1e-12) + 1)) := by
        refine (mul_le_mul_of_nonneg_left h4 hr'.le).trans ?_
        have e2 : r' * (ballDensity x0 * ((r' - r) * (1 / (t + 1e-12) + 1 / r'))) =
            ballDensity x0 * ((r' - r) * (r' / (t + 1e-12) + 1)) := by
          field_simp
        rw [e2]
        gcongr
      have h6 : (r' - r) * ballFlux x0 r t ≤ (r' - r) * (2 * ballDensity x0) :=
        mul_le_mul_of_nonneg_left h3.2 (by linarith)
      rw [hL]
      linarith
  have hlip : LipschitzOnWith ⟨L, hL0⟩ (fun r => r * ballFlux x0 r t) (Icc 0 R) := by
    refine LipschitzOnWith.of_dist_le_mul fun r hr r' hr' => ?_
    rw [Real.dist_eq, Real.dist_eq]
    show _ ≤ L * _
    rcases le_total r r' with h | h
    · rw [abs_sub_comm, abs_sub_comm r r', abs_of_nonneg (by linarith : 0 ≤ r' - r)]
      exact key r r' hr.1 h hr'.2
    · rw [abs_of_nonneg (by linarith : 0 ≤ r - r')]
      exact key r' r hr'.1 h hr.2
  exact hlip.continuousOn

theorem continuousOn_sq_ballFlux {x0 t : ℝ} (hx : 0 < x0) (ht : 0 ≤ t) {a b : ℝ} (ha : 0 ≤ a) :
    ContinuousOn (fun r => r ^ 2 * ballFlux x0 r t) (Icc a b) := by
  have h := (continuousOn_radius_ballFlux hx ht b).mono (Icc_subset_Icc_left ha)
  refine (continuousOn_id.mul h).congr fun r _ => ?_
  show r ^ 2 * _ = r * (r * _)
  ring

theorem intervalIntegrable_sq_ballFlux {x0 t : ℝ} (hx : 0 < x0) (ht : 0 ≤ t) {a b : ℝ} (ha : 0 ≤ a)
    (hab : a ≤ b) : IntervalIntegrable (fun r => r ^ 2 * ballFlux x0 r t) MeasureTheory.volume a b :=
  ContinuousOn.intervalIntegrable (by rw [uIcc_of_le hab]; exact continuousOn_sq_ballFlux hx ht ha)

/-- Flux of the middle against the flux of the shell, the volume weight being integrated exactly. -/
theorem shell_middle_flux {x0 t a b : ℝ} (hx : 0 < x0) (ht : 0 ≤ t) (ha : 0 ≤ a) (hab : a < b) :
    |(b ^ 3 - a ^ 3) / 3 * ballFlux x0 ((a + b) / 2) t - shellIntegral x0 a b t| ≤
      ballDensity x0 * ((b - a) / 2 * (1 / (t + 1e-12) + 1 / ((a + b) / 2))) *
        ((b ^ 3 - a ^ 3) / 3) := by
  have hm : 0 < (a + b) / 2 := by linarith
  have hs : (0 : ℝ) < t + 1e-12 := by positivity
  have hB := ballDensity_pos hx
  set K := ballDensity x0 * ((b - a) / 2 * (1 / (t + 1e-12) + 1 / ((a + b) / 2))) with hK
  have e : (b ^ 3 - a ^ 3) / 3 * ballFlux x0 ((a + b) / 2) t - shellIntegral x0 a b t =
      ∫ r in a..b, (r ^ 2 * ballFlux x0 ((a + b) / 2) t - r ^ 2 * ballFlux x0 r t) := by
    rw [intervalIntegral.integral_sub, intervalIntegral.integral_mul_const, shell_volume]
    · rfl
    · exact Continuous.intervalIntegrable (by fun_prop) _ _
    · exact intervalIntegrable_sq_ballFlux hx ht ha hab.le
  have e2 : K * ((b ^ 3 - a ^ 3) / 3) = ∫ r in a..b, r ^ 2 * K := by
    rw [intervalIntegral.integral_mul_const, shell_volume]; ring
  rw [e, e2, ← Real.norm_eq_abs]
  refine intervalIntegral.norm_integral_le_of_norm_le hab.le ?_
    (Continuous.intervalIntegrable (by fun_prop) _ _)
  refine Filter.Eventually.of_forall fun r hr => ?_
  have hr0 : 0 < r := ha.trans_lt hr.1
  rw [← mul_sub, Real.norm_eq_abs, abs_mul, abs_of_nonneg (sq_nonneg r)]
  refine mul_le_mul_of_nonneg_left ?_ (sq_nonneg r)
  rcases le_total r ((a + b) / 2) with h | h
  · refine (ballFlux_lipschitz hx hr0 h ht).trans ?_
    rw [hK]
    have : (a + b) / 2 - r ≤ (b - a) / 2 := by linarith [hr.1]
    gcongr
  · rw [abs_sub_comm]
    refine (ballFlux_lipschitz hx hm h ht).trans ?_
    rw [hK]
    have : r - (a + b) / 2 ≤ (b - a) / 2 := by linarith [hr.2]
    gcongr

/-- Error of the midpoint, as a constant density over the shell. -/
noncomputable def shellDefect (x0 a b t : ℝ) : ℝ :=
  ((b - a) * ((a + b) / 2) ^ 2 * ballFlux x0 ((a + b) / 2) t - shellIntegral x0 a b t) /
    ((b ^ 3 - a ^ 3) / 3)

theorem shell_volume_pos {a b : ℝ} (ha : 0 ≤ a) (hab : a < b) : 0 < (b ^ 3 - a ^ 3) / 3 := by
  have : a ^ 3 < b ^ 3 := pow_lt_pow_left₀ hab ha (by norm_num)
  linarith

theorem shellDefect_le {x0 t a b : ℝ} (hx : 0 < x0) (ht : 0 ≤ t) (ha : 0 ≤ a) (hab : a < b) :
    |shellDefect x0 a b t| ≤
      ballDensity x0 * ((b - a) * (1 / (t + 1e-12) + 1 / ((a + b) / 2))) := by
  have hm : 0 < (a + b) / 2 := by linarith
  have hb : 0 < b := by linarith
  have hs : (0 : ℝ) < t + 1e-12 := by positivity
  have hB := ballDensity_pos hx
  have hv := shell_volume_pos ha hab
  unfold shellDefect
  rw [abs_div, abs_of_pos hv, div_le_iff₀ hv]
  have hφ := ballFlux_mem hx hm ht
  have e : (b - a) * ((a + b) / 2) ^ 2 * ballFlux x0 ((a + b) / 2) t - shellIntegral x0 a b t =
      ((b ^ 3 - a ^ 3) / 3 * ballFlux x0 ((a + b) / 2) t - shellIntegral x0 a b t)
        - (b - a) ^ 3 / 12 * ballFlux x0 ((a + b) / 2) t := by ring
  rw [e]
  refine (abs_sub _ _).trans ?_
  have h1 := shell_middle_flux hx ht ha hab
  have h2 : |(b - a) ^ 3 / 12 * ballFlux x0 ((a + b) / 2) t| ≤
      ballDensity x0 * ((b - a) / 2 * (1 / ((a + b) / 2))) * ((b ^ 3 - a ^ 3) / 3) := by
    have h0 : 0 ≤ (b - a) ^ 3 / 12 := by
      have : 0 < b - a := by linarith
      positivity
    rw [abs_of_nonneg (mul_nonneg h0 hφ.1)]
    have h3 : (b - a) ^ 3 / 12 * ballFlux x0 ((a + b) / 2) t ≤
        (b - a) ^ 3 / 12 * (2 * ballDensity x0) := mul_le_mul_of_nonneg_left hφ.2 h0
    refine h3.trans ?_
    have h4 : (b - a) ^ 2 ≤ (1 / ((a + b) / 2)) * (b ^ 3 - a ^ 3) := by
      rw [one_div, inv_mul_eq_div, le_div_iff₀ hm]
      nlinarith [mul_nonneg ha hb.le, sq_nonneg (b - a), mul_nonneg ha (mul_nonneg ha hb.le),
        mul_nonneg ha (sq_nonneg (b - a)), pow_pos hb 3, mul_nonneg ha (sq_nonneg b), pow_nonneg ha 3]
    have h5 : 0 ≤ ballDensity x0 * ((b - a) / 6) := mul_nonneg hB.le (by linarith)
    have h6 := mul_le_mul_of_nonneg_left h4 h5
    linarith
  have h7 : ballDensity x0 * ((b - a) / 2 * (1 / (t + 1e-12) + 1 / ((a + b) / 2))) *
        ((b ^ 3 - a ^ 3) / 3) + ballDensity x0 * ((b - a) / 2 * (1 / ((a + b) / 2))) *
        ((b ^ 3 - a ^ 3) / 3) ≤
      ballDensity x0 * ((b - a) * (1 / (t + 1e-12) + 1 / ((a + b) / 2))) *
        ((b ^ 3 - a ^ 3) / 3) := by
    have h8 : 0 ≤ ballDensity x0 * ((b - a) / 2 * (1 / (t + 1e-12))) * ((b ^ 3 - a ^ 3) / 3) := by
      have : 0 < b - a := by linarith
      positivity
    nlinarith
  linarith

theorem shellDefect_trivial {x0 t a b : ℝ} (hx : 0 < x0) (ht : 0 ≤ t) (ha : 0 ≤ a) (hab : a < b) :
    |shellDefect x0 a b t| ≤ 2 * ballDensity x0 := by
  have hm : 0 < (a + b) / 2 := by linarith
  have hB := ballDensity_pos hx
  have hv := shell_volume_pos ha hab
  have hφ := ballFlux_mem hx hm ht
  unfold shellDefect
  rw [abs_div, abs_of_pos hv, div_le_iff₀ hv]
  have h1 : 0 ≤ shellIntegral x0 a b t := by
    unfold shellIntegral
    refine intervalIntegral.integral_nonneg_of_forall hab.le fun r => mul_nonneg (sq_nonneg r) ?_
    unfold ballFlux
    positivity
  have h2 : shellIntegral x0 a b t ≤ 2 * ballDensity x0 * ((b ^ 3 - a ^ 3) / 3) := by
    have e2 : 2 * ballDensity x0 * ((b ^ 3 - a ^ 3) / 3) = ∫ r in a..b, r ^ 2 * (2 * ballDensity x0) := by
      rw [intervalIntegral.integral_mul_const, shell_volume]; ring
    rw [e2]
    unfold shellIntegral
    refine intervalIntegral.integral_mono_on_of_le_Ioo hab.le
      (intervalIntegrable_sq_ballFlux hx ht ha hab.le)
      (Continuous.intervalIntegrable (by fun_prop) _ _) fun r hr => ?_
    exact mul_le_mul_of_nonneg_left (ballFlux_mem hx (ha.trans_lt hr.1) ht).2 (sq_nonneg r)
  have h3 : 0 ≤ (b - a) * ((a + b) / 2) ^ 2 * ballFlux x0 ((a + b) / 2) t :=
    mul_nonneg (mul_nonneg (by linarith) (sq_nonneg _)) hφ.1
  have h4 : (b - a) * ((a + b) / 2) ^ 2 * ballFlux x0 ((a + b) / 2) t ≤
      2 * ballDensity x0 * ((b ^ 3 - a ^ 3) / 3) := by
    have h5 : (b - a) * ((a + b) / 2) ^ 2 ≤ (b ^ 3 - a ^ 3) / 3 := by
      have : 0 < (b - a) ^ 3 := pow_pos (by linarith) 3
      nlinarith
    calc (b - a) * ((a + b) / 2) ^ 2 * ballFlux x0 ((a + b) / 2) t
        ≤ (b ^ 3 - a ^ 3) / 3 * (2 * ballDensity x0) :=
          mul_le_mul h5 hφ.2 hφ.1 hv.le
      _ = _ := by ring
  rw [abs_le]
  constructor <;> linarith

/-- Square of the defect over one shell. -/
theorem shellDefect_sq_le {x0 t a b h R : ℝ} (hx : 0 < x0) (ht : 0 ≤ t) (ha : 0 ≤ a) (hab : a < b)
    (hh : b - a ≤ h) (hR : b ≤ R) :
    shellDefect x0 a b t ^ 2 * ((b ^ 3 - a ^ 3) / 3) ≤
      (b - a) * (4 * (ballDensity x0 * h * (R / (t + 1e-12) + 1)) ^ 2) := by
  have hm : 0 < (a + b) / 2 := by linarith
  have hb : 0 < b := by linarith
  have hs : (0 : ℝ) < t + 1e-12 := by positivity
  have hB := ballDensity_pos hx
  have hv := shell_volume_pos ha hab
  have h1 := shellDefect_le hx ht ha hab
  have hba : 0 < b - a := by linarith
  set m := (a + b) / 2 with hmdef
  have h2 : shellDefect x0 a b t ^ 2 ≤ (ballDensity x0 * (h * (1 / (t + 1e-12) + 1 / m))) ^ 2 := by
    rw [← sq_abs]
    refine pow_le_pow_left₀ (abs_nonneg _) (h1.trans ?_) 2
    gcongr
  have h3 : (b ^ 3 - a ^ 3) / 3 ≤ (b - a) * (4 * m ^ 2) := by
    rw [hmdef]
    have e : (b - a) * (4 * ((a + b) / 2) ^ 2) - (b ^ 3 - a ^ 3) / 3 =
        (b - a) * ((2 * a ^ 2 + 5 * (a * b) + 2 * b ^ 2) / 3) := by ring
    have : 0 ≤ (b - a) * ((2 * a ^ 2 + 5 * (a * b) + 2 * b ^ 2) / 3) := by positivity
    linarith
  refine (mul_le_mul h2 h3 hv.le (sq_nonneg _)).trans ?_
  have e : (ballDensity x0 * (h * (1 / (t + 1e-12) + 1 / m))) ^ 2 * ((b - a) * (4 * m ^ 2)) =
      (b - a) * (4 * (ballDensity x0 * h * (m / (t + 1e-12) + 1)) ^ 2) := by
    field_simp
  rw [e]
  have hh0 : 0 ≤ h := by linarith
  have : m ≤ R := by linarith
  gcongr

end Verif.Props
