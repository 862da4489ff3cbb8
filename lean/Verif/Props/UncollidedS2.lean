import Verif.Props.Uncollided

/-!
C41: the square source with two directions; C39: causality, symmetry and positivity.
-/

namespace Verif.Props

open MeasureTheory Real Set Verif.Spec Verif.Model Verif.Lemmas

/-! ### C41 -/

theorem s2F_mono {t a b : ℝ} (h : a ≤ b) : s2F t a ≤ s2F t b := by
  unfold s2F
  have := exp_le_exp.mpr (show -t + a ≤ -t + b by linarith)
  linarith

/-- Emission between the times `lo` and `hi`, seen while the source is on. -/
theorem ray_integral {t T lo hi : ℝ} {P : ℝ → Prop} [DecidablePred P] (hT : 0 ≤ T) (hlh : lo ≤ hi)
    (hP : ∀ τ, P τ ↔ lo ≤ τ ∧ τ ≤ hi) :
    IntervalIntegrable (fun τ => exp (-(t - τ)) / 2 * (if P τ then 1 else 0)) volume 0 T ∧
      ∫ τ in (0 : ℝ)..T, exp (-(t - τ)) / 2 * (if P τ then 1 else 0) =
        s2F t (min (max hi 0) T) - s2F t (min (max lo 0) T) := by
  obtain ⟨p, hp⟩ : ∃ p, p = min (max lo 0) T := ⟨_, rfl⟩
  obtain ⟨q, hq⟩ : ∃ q, q = min (max hi 0) T := ⟨_, rfl⟩
  rw [← hp, ← hq]
  have hp0 : 0 ≤ p := hp ▸ le_min (le_max_right _ _) hT
  have hqT : q ≤ T := hq ▸ min_le_right _ _
  have hpq : p ≤ q := by
    rw [hp, hq]
    exact min_le_min_right _ (max_le_max_right _ hlh)
  have i1 := ftc_zero (g := fun τ => exp (-(t - τ)) / 2 * (if P τ then 1 else 0)) hp0 (by
    intro τ hτ
    have : τ < lo := by
      have h1 : p ≤ max lo 0 := hp ▸ min_le_left _ _
      rcases max_choice lo 0 with h | h <;> rw [h] at h1 <;> linarith [hτ.1, hτ.2]
    rw [if_neg (fun h => by linarith [((hP τ).mp h).1])]
    simp)
  have i2 : IntervalIntegrable (fun τ => exp (-(t - τ)) / 2 * (if P τ then 1 else 0)) volume p q ∧
      ∫ τ in p..q, exp (-(t - τ)) / 2 * (if P τ then 1 else 0) = s2F t q - s2F t p := by
    refine ftc_nonneg (F := fun τ => s2F t τ) hpq ?_ ?_ ?_
    · exact (by unfold s2F; fun_prop)
    · intro τ hτ
      have h1 : lo ≤ τ := by
        have := hτ.1
        rw [hp] at this
        rcases min_lt_iff.mp this with h | h
        · exact (le_max_left _ _).trans h.le
        · linarith [hτ.2]
      have h2 : τ ≤ hi := by
        have : τ < max hi 0 := lt_of_lt_of_le hτ.2 (hq ▸ min_le_left _ _)
        rcases lt_max_iff.mp this with h | h
        · exact h.le
        · linarith [hτ.1]
      rw [if_pos ((hP τ).mpr ⟨h1, h2⟩)]
      have := ((hasDerivAt_id τ).const_add (-t)).exp.const_mul (0.5 : ℝ)
      refine this.congr_deriv ?_
      simp only [id]
      rw [show -(t - τ) = -t + τ by ring]
      ring
    · intro τ _
      have := exp_pos (-(t - τ))
      split_ifs <;> simp
      positivity
  have i3 := ftc_zero (g := fun τ => exp (-(t - τ)) / 2 * (if P τ then 1 else 0)) hqT (by
    intro τ hτ
    have : hi < τ := by
      have := hτ.1
      rw [hq] at this
      rcases min_lt_iff.mp this with h | h
      · exact lt_of_le_of_lt (le_max_left _ _) h
      · linarith [hτ.2]
    rw [if_neg (fun h => by linarith [((hP τ).mp h).2])]
    simp)
  have := ftc_glue (ftc_glue i1 i2) i3
  simpa using this

theorem sqrt3_pos : (0 : ℝ) < √3 := by positivity

theorem sqrt3_sq : √3 * √3 = (3 : ℝ) := Real.mul_self_sqrt (by norm_num)

/-- The two-ray integral in closed form. -/
theorem twoRay_closed (x : ℝ) {t x0 t0 : ℝ} (ht : 0 ≤ t) (h0 : 0 ≤ x0) (ht0 : 0 ≤ t0) :
    squareSourceS2 x t x0 t0 =
      s2F t (min (max (t - √3 * (|x| - x0)) 0) (min t t0)) -
        s2F t (min (max (t - √3 * (|x| + x0)) 0) (min t t0)) +
      (s2F t (min t t0) - s2F t (min (max (t - √3 * (x0 - |x|)) 0) (min t t0))) := by
  have r := sqrt3_pos
  have hT : 0 ≤ min t t0 := le_min ht ht0
  have hTt : min t t0 ≤ t := min_le_left _ _
  have ha := abs_nonneg x
  have near : ∀ y τ : ℝ, |y - (t - τ) / √3| ≤ x0 ↔
      t - √3 * (y + x0) ≤ τ ∧ τ ≤ t - √3 * (y - x0) := by
    intro y τ
    rw [abs_le, neg_le_sub_iff_le_add, sub_le_iff_le_add, div_le_iff₀ r, ← sub_le_iff_le_add',
      le_div_iff₀ r]
    constructor <;> rintro ⟨h1, h2⟩ <;> constructor <;> nlinarith
  have i1 := ray_integral (t := t) (T := min t t0) (P := fun τ => |(|x|) - (t - τ) / √3| ≤ x0) hT
    (by nlinarith) (near |x|)
  have i2 := ray_integral (t := t) (T := min t t0) (P := fun τ => |(-|x|) - (t - τ) / √3| ≤ x0) hT
    (by nlinarith) (near (-|x|))
  have e : min (max (t - √3 * (-|x| - x0)) 0) (min t t0) = min t t0 := by
    refine min_eq_right (le_max_of_le_left ?_)
    nlinarith [mul_nonneg r.le (add_nonneg ha h0)]
  rw [e] at i2
  have e2 : -|x| + x0 = x0 - |x| := by ring
  rw [e2] at i2
  rw [← i1.2, ← i2.2, ← intervalIntegral.integral_add i1.1 i2.1]
  unfold squareSourceS2
  congr 1
  ext τ
  rw [← mul_add]
  congr 1
  unfold twoRays
  have hneg : ∀ y z : ℝ, |(-y) - z| = |y + z| := by
    intro y z
    rw [← abs_neg]; congr 1; ring
  rw [hneg]
  rcases abs_cases x with ⟨h, _⟩ | ⟨h, _⟩ <;> rw [h]
  rw [hneg, add_comm]
  congr 2
  rw [← sub_eq_neg_add, abs_sub_comm]

/-- C41: while the source is on the S2 flux is the two-ray integral. -/
theorem c41_source_on_partial (x : ℝ) {t x0 t0 : ℝ} (ht : 0 ≤ t) (h0 : 0 < x0) (h : t ≤ t0) :
    suOlsonS2 x t x0 t0 = some (squareSourceS2 x t x0 t0) := by
  have r := sqrt3_pos
  have ha := abs_nonneg x
  have hm : min t t0 = t := min_eq_left h
  rw [twoRay_closed x ht h0.le (ht.trans h), hm]
  unfold suOlsonS2
  simp only [h, if_true, hm]
  obtain ⟨a, hae⟩ : ∃ a, a = |x| := ⟨_, rfl⟩
  rw [← hae] at ha ⊢
  have hs : 0 < √3 * x0 := by positivity
  have hra : 0 ≤ √3 * a := by positivity
  have k2 : min (max (t - √3 * (a + x0)) 0) t = max 0 (t - √3 * (a + x0)) := by
    rw [max_comm]; exact min_eq_left (max_le ht (by nlinarith))
  rw [k2]
  unfold suOlsonS2Early
  split_ifs with c1 c2 c3 c4 c5
  · have k1 : min (max (t - √3 * (a - x0)) 0) t = max 0 (t - √3 * (a - x0)) := by
      rw [max_comm]; exact min_eq_left (max_le ht (by nlinarith))
    have k3 : min (max (t - √3 * (x0 - a)) 0) t = t :=
      min_eq_right (le_max_of_le_left (by nlinarith))
    rw [k1, k3, sub_self, add_zero]
  all_goals
    have k1 : min (max (t - √3 * (a - x0)) 0) t = t :=
      min_eq_right (le_max_of_le_left (by nlinarith))
    have k3 : min (max (t - √3 * (x0 - a)) 0) t = max 0 (t - √3 * (x0 - a)) := by
      rw [max_comm]; exact min_eq_left (max_le ht (by nlinarith))
    try rw [k1, k3]
  · rw [max_eq_left (by nlinarith : t - √3 * (x0 - a) ≤ 0),
      max_eq_left (by nlinarith : t - √3 * (a + x0) ≤ 0)]
    congr 1; ring
  · rw [max_eq_right (by nlinarith : 0 ≤ t - √3 * (x0 - a)), max_eq_right c4.2.le]
    simp only [Option.some.injEq]; ring
  · rw [max_eq_left c5.2]
    simp only [Option.some.injEq]; ring
  · exfalso
    have h1 : √3 * x0 < t + √3 * a := not_le.mp c3
    rcases lt_or_ge 0 (t - √3 * (a + x0)) with h2 | h2
    · exact c4 ⟨h1, h2⟩
    · exact c5 ⟨h1, h2⟩
  · exact absurd (not_lt.mp c1) c2

theorem three_div (y : ℝ) : y * 3 / √3 = √3 * y := by
  rw [div_eq_iff sqrt3_pos.ne']
  linear_combination -y * sqrt3_sq

theorem sqrt3_third (y : ℝ) : √3 * y / 3 = y / √3 := by
  rw [div_eq_div_iff (by norm_num) sqrt3_pos.ne']
  linear_combination y * sqrt3_sq

/-- `a` is at least `y/√3` from `b`, without the quotient. -/
theorem sub_div_sqrt3 {a b y : ℝ} : b - y / √3 ≤ a ↔ √3 * (b - a) ≤ y := by
  rw [sub_le_comm, le_div_iff₀ sqrt3_pos, mul_comm]

theorem le_add_div_sqrt3 {a b y : ℝ} : a ≤ b + y / √3 ↔ √3 * (a - b) ≤ y := by
  rw [← sub_le_iff_le_add', le_div_iff₀ sqrt3_pos, mul_comm]

/-- C41: after the source is off the S2 flux is the two-ray integral, except where line 314 leaves
out that the far end of the source may already be out of sight. -/
theorem c41_source_off_partial (x : ℝ) {t x0 t0 : ℝ} (h0 : 0 < x0) (ht0 : 0 < t0) (h : t0 < t)
    (hx : x0 - (t - t0) / √3 ≤ |x| ∨ t ≤ √3 * (|x| + x0)) :
    suOlsonS2 x t x0 t0 = some (squareSourceS2 x t x0 t0) := by
  have r := sqrt3_pos
  have hm : min t t0 = t0 := min_eq_right h.le
  rw [twoRay_closed x (ht0.trans h).le h0.le ht0.le, hm]
  unfold suOlsonS2
  simp only [not_le.mpr h, h, if_true, if_false, hm]
  unfold suOlsonS2Late
  simp only [three_div, sqrt3_third]
  obtain ⟨a, hae⟩ : ∃ a, a = |x| := ⟨_, rfl⟩
  have ha : 0 ≤ a := hae ▸ abs_nonneg x
  rw [← hae] at hx ⊢
  split_ifs with c1 c2 c3 c4 c5
  · have hc := sub_div_sqrt3.mp c1.1
    have k : min (max (t - √3 * (x0 - a)) 0) t0 = t0 :=
      min_eq_right (le_max_of_le_left (by linarith))
    rw [k, sub_self, add_zero]
  · have hc : x0 < a := lt_of_le_of_lt (by
      have : 0 ≤ (t - t0) / √3 := div_nonneg (by linarith) r.le
      linarith) c2
    have k : min (max (t - √3 * (x0 - a)) 0) t0 = t0 :=
      min_eq_right (le_max_of_le_left (by nlinarith))
    rw [k, sub_self, add_zero]
  all_goals
    try
      have hb : t ≤ √3 * (a + x0) := by
        rcases hx with hx | hx
        · exact absurd hx (not_le.mpr c3)
        · exact hx
      have hax : a < x0 := by
        have : 0 ≤ (t - t0) / √3 := div_nonneg (by linarith) r.le
        linarith
      have k1 : min (max (t - √3 * (a - x0)) 0) t0 = t0 :=
        min_eq_right (le_max_of_le_left (by nlinarith))
      have k2 : min (max (t - √3 * (a + x0)) 0) t0 = 0 := by
        rw [max_eq_right (by linarith)]; exact min_eq_left ht0.le
      rw [k1, k2]
  · rw [max_eq_right c4, min_eq_left ht0.le]
    congr 1; ring
  · rw [max_eq_left c5.1.le, min_eq_left c5.2.le]
    congr 1; ring
  · exfalso
    have hc : t - t0 < √3 * (x0 - a) := by
      by_contra hh
      exact absurd (sub_div_sqrt3.mpr (not_lt.mp hh)) (not_le.mpr c3)
    exact c5 ⟨not_le.mp c4, by linarith⟩
  · exfalso
    exact c1 ⟨not_lt.mp c3, not_lt.mp c2⟩

/-- C41 fails after the source is off, near its middle, once the far end of the source is out of
sight: everywhere there the flux returned is too large. -/
theorem c41_too_large (x : ℝ) {t x0 t0 : ℝ} (h0 : 0 < x0) (ht0 : 0 < t0) (h : t0 < t)
    (hx : |x| < x0 - (t - t0) / √3) (hx' : √3 * (|x| + x0) < t) :
    ∃ v, suOlsonS2 x t x0 t0 = some v ∧ squareSourceS2 x t x0 t0 < v := by
  have r := sqrt3_pos
  have hm : min t t0 = t0 := min_eq_right h.le
  rw [twoRay_closed x (ht0.trans h).le h0.le ht0.le, hm]
  unfold suOlsonS2
  simp only [not_le.mpr h, h, if_true, if_false, hm]
  unfold suOlsonS2Late
  simp only [three_div, sqrt3_third]
  obtain ⟨a, hae⟩ : ∃ a, a = |x| := ⟨_, rfl⟩
  have ha : 0 ≤ a := hae ▸ abs_nonneg x
  rw [← hae] at hx hx' ⊢
  have hd : 0 < (t - t0) / √3 := div_pos (by linarith) r
  have hc : t - t0 < √3 * (x0 - a) := by
    by_contra hh
    exact absurd (sub_div_sqrt3.mpr (not_lt.mp hh)) (not_le.mpr hx)
  have c4 : ¬ t - √3 * (x0 - a) ≤ 0 := by
    have : √3 * (x0 - a) ≤ √3 * (a + x0) := mul_le_mul_of_nonneg_left (by linarith) r.le
    linarith
  rw [if_neg (fun hh => absurd hh.1 (not_le.mpr hx)), if_neg (by linarith), if_pos hx, if_neg c4,
    if_pos ⟨not_le.mp c4, by linarith⟩]
  refine ⟨_, rfl, ?_⟩
  have k1 : min (max (t - √3 * (a - x0)) 0) t0 = t0 :=
    min_eq_right (le_max_of_le_left (by nlinarith))
  have k3 : min (max (t - √3 * (x0 - a)) 0) t0 = t - √3 * (x0 - a) := by
    rw [max_eq_left (not_le.mp c4).le, min_eq_left (by linarith)]
  have k2 : s2F t 0 < s2F t (min (max (t - √3 * (a + x0)) 0) t0) := by
    have : 0 < min (max (t - √3 * (a + x0)) 0) t0 := lt_min (lt_max_of_lt_left (by linarith)) ht0
    unfold s2F
    have := exp_lt_exp.mpr (show -t + 0 < -t + min (max (t - √3 * (a + x0)) 0) t0 by linarith)
    linarith
  rw [k1, k3]
  linarith

/-- C41 fails: a source of half width `1/2` on for ten units, seen from its middle a tenth of a unit
later. -/
theorem c41_wrong : suOlsonS2 0 (101 / 10) (1 / 2) 10 ≠
    some (squareSourceS2 0 (101 / 10) (1 / 2) 10) := by
  have r1 : √3 < 2 := by
    rw [Real.sqrt_lt' (by norm_num)]; norm_num
  have r2 : (1 : ℝ) < √3 := by
    rw [Real.lt_sqrt (by norm_num)]; norm_num
  obtain ⟨v, hv, hlt⟩ := c41_too_large 0 (t := 101 / 10) (x0 := 1 / 2) (t0 := 10) (by norm_num)
    (by norm_num) (by norm_num) (by
      rw [abs_zero]
      have : (101 / 10 - 10 : ℝ) / √3 < 1 / 2 := by
        rw [div_lt_iff₀ sqrt3_pos]; linarith
      linarith) (by rw [abs_zero]; linarith)
  rw [hv]
  intro he
  have := Option.some.inj he
  linarith

/-- C41: the function always returns a value. -/
theorem c41_always_a_value (x t x0 t0 : ℝ) : suOlsonS2 x t x0 t0 ≠ none := by
  unfold suOlsonS2 suOlsonS2Early suOlsonS2Late
  simp only
  split_ifs with h1 h2 h3 h4 h5 h6 h7 h8 h9 h10 h11 h12
  all_goals simp
  · have h := not_le.mp h4
    rcases lt_or_ge 0 (min t t0 - √3 * (|x| + x0)) with h' | h'
    · exact h5 ⟨h, h'⟩
    · exact h6 ⟨h, h'⟩
  · exact absurd (not_lt.mp h2) h3
  · exact absurd ⟨not_lt.mp h10, not_lt.mp h9⟩ h8
  · exact absurd (not_le.mp h1) h7

/-- C41 used: inside the source while it is on, and outside it afterwards. -/
example : suOlsonS2 (1 / 4) 3 (1 / 2) 10 = some (squareSourceS2 (1 / 4) 3 (1 / 2) 10) ∧
    suOlsonS2 2 12 (1 / 2) 10 = some (squareSourceS2 2 12 (1 / 2) 10) :=
  ⟨c41_source_on_partial _ (by norm_num) (by norm_num) (by norm_num),
    c41_source_off_partial _ (by norm_num) (by norm_num) (by norm_num) (Or.inl (by
      rw [abs_of_pos (by norm_num)]
      have : (0 : ℝ) ≤ (12 - 10) / √3 := div_nonneg (by norm_num) sqrt3_pos.le
      linarith))⟩

/-! ### C39 -/

/-- C39: the plane pulse. -/
theorem c39_plane (x t : ℝ) (ht : 0 ≤ t) :
    0 ≤ planeIC x t ∧ planeIC (-x) t = planeIC x t ∧ (t < |x| → planeIC x t = 0) := by
  refine ⟨?_, ?_, ?_⟩
  · unfold planeIC
    split_ifs
    · have : (0 : ℝ) < 2 * t + 1e-12 := by positivity
      positivity
    · exact le_rfl
  · unfold planeIC
    have : (-t ≤ -x ∧ -x ≤ t) ↔ (-t ≤ x ∧ x ≤ t) := by
      constructor <;> rintro ⟨h1, h2⟩ <;> constructor <;> linarith
    simp only [this]
  · intro h
    unfold planeIC
    rw [if_neg]
    rintro ⟨h1, h2⟩
    exact absurd (abs_le.mpr ⟨h1, h2⟩) (not_le.mpr h)

/-- C39: the square pulse. -/
theorem c39_square (x : ℝ) {t x0 : ℝ} (ht : 0 ≤ t) (h0 : 0 < x0) :
    0 ≤ squareIC x0 x t ∧ squareIC x0 (-x) t = squareIC x0 x t ∧
      (t + x0 < |x| → squareIC x0 x t = 0) := by
  have hp := exp_pos (-t)
  have hd : (0 : ℝ) < 2 * t + 1e-12 := by positivity
  have hd' : (0 : ℝ) < t + 1e-12 := by positivity
  refine ⟨?_, ?_, ?_⟩
  · unfold squareIC
    split_ifs with c1 c2 c3 c4 c5
    · exact hp.le
    · positivity
    · exact div_nonneg (mul_nonneg hp.le (by linarith [c3.2])) hd.le
    · exact div_nonneg (mul_nonneg hp.le (by linarith [c3.1])) hd.le
    · exact le_rfl
    · exact le_rfl
  · have e1 : (t ≤ x0 ∧ -x0 + t ≤ -x ∧ -x ≤ x0 - t) ↔ (t ≤ x0 ∧ -x0 + t ≤ x ∧ x ≤ x0 - t) := by
      constructor <;> rintro ⟨a, b, c⟩ <;> exact ⟨a, by linarith, by linarith⟩
    have e2 : (x0 < t ∧ -t + x0 ≤ -x ∧ -x ≤ t - x0) ↔ (x0 < t ∧ -t + x0 ≤ x ∧ x ≤ t - x0) := by
      constructor <;> rintro ⟨a, b, c⟩ <;> exact ⟨a, by linarith, by linarith⟩
    have e3 : (-x < t + x0 ∧ -t - x0 < -x) ↔ (x < t + x0 ∧ -t - x0 < x) := by
      constructor <;> rintro ⟨a, b⟩ <;> exact ⟨by linarith, by linarith⟩
    have e4 : (t ≤ x0 - -x ∧ x0 + -x ≤ t) ↔ (x0 - x ≤ t ∧ t ≤ x0 + x) := by
      constructor <;> rintro ⟨a, b⟩ <;> exact ⟨by linarith, by linarith⟩
    have e5 : (x0 - -x ≤ t ∧ t ≤ x0 + -x) ↔ (t ≤ x0 - x ∧ x0 + x ≤ t) := by
      constructor <;> rintro ⟨a, b⟩ <;> exact ⟨by linarith, by linarith⟩
    unfold squareIC
    simp only [e1, e2, e3, e4, e5]
    simp only [sub_neg_eq_add, ← sub_eq_add_neg]
    split_ifs with c1 c2 c3 c4 c5 c5
    · rfl
    · rfl
    · exact absurd ⟨by linarith [c4.1, c5.2], by linarith [c4.1, c5.2], by linarith [c4.1, c5.2]⟩ c1
    · rfl
    · rfl
    · rfl
    · rfl
  · intro h
    have h1 : x < -t - x0 ∨ t + x0 < x := by
      rcases lt_abs.mp h with h | h
      · exact Or.inr h
      · exact Or.inl (by linarith)
    unfold squareIC
    rw [if_neg (by rintro ⟨a, b, c⟩; rcases h1 with h | h <;> linarith),
      if_neg (by rintro ⟨a, b, c⟩; rcases h1 with h | h <;> linarith),
      if_neg (by rintro ⟨a, b⟩; rcases h1 with h | h <;> linarith)]

/-- C39: the square source. -/
theorem c39_square_source {Ei : ℝ → ℝ} (hE : IsExpi Ei) (x : ℝ) {t x0 t0 : ℝ} (h0 : 0 < x0)
    (ht0 : 0 < t0) :
    0 ≤ uncollidedSquare Ei x t x0 t0 ∧
      uncollidedSquare Ei (-x) t x0 t0 = uncollidedSquare Ei x t x0 t0 ∧
      (t + x0 ≤ |x| → uncollidedSquare Ei x t x0 t0 = 0) := by
  refine ⟨?_, ?_, ?_⟩
  · rcases lt_or_ge 0 t with ht | ht
    · rw [c40_square_source hE x ht h0 ht0]
      exact intervalIntegral.integral_nonneg (le_min ht.le ht0.le)
        (fun τ _ => squarePulse_nonneg _ _ _)
    · unfold uncollidedSquare
      simp [not_lt.mpr ht]
  · simp only [uncollidedSquare, abs_neg, sqF2]
  · intro h
    unfold uncollidedSquare
    simp only
    split_ifs with h1 h2
    · rfl
    · exact absurd ((min_le_right _ _).trans (by linarith)) h2
    · rfl

/-- C39: the square source with two directions. -/
theorem c39_square_source_s2 (x : ℝ) {t x0 t0 v : ℝ} (ht : 0 ≤ t) (h0 : 0 < x0) (ht0 : 0 < t0)
    (hv : suOlsonS2 x t x0 t0 = some v) :
    0 ≤ v ∧ suOlsonS2 (-x) t x0 t0 = some v ∧ (x0 + t / √3 ≤ |x| → v = 0) := by
  have r := sqrt3_pos
  have hcl := twoRay_closed x ht h0.le ht0.le
  have nonneg : 0 ≤ squareSourceS2 x t x0 t0 := by
    refine intervalIntegral.integral_nonneg (le_min ht ht0.le) (fun τ _ => ?_)
    refine mul_nonneg (by positivity) ?_
    unfold twoRays
    split_ifs <;> norm_num
  have dark : x0 + t / √3 ≤ |x| → squareSourceS2 x t x0 t0 = 0 := by
    intro h
    have h' : t ≤ √3 * (|x| - x0) := by
      have : t / √3 ≤ |x| - x0 := by linarith
      rw [div_le_iff₀ r] at this
      linarith
    have hT : 0 ≤ min t t0 := le_min ht ht0.le
    have hq : √3 * (|x| - x0) ≤ √3 * (|x| + x0) := mul_le_mul_of_nonneg_left (by linarith) r.le
    have hw : √3 * (x0 - |x|) = -(√3 * (|x| - x0)) := by ring
    rw [hcl, max_eq_right (by linarith), max_eq_right (by linarith : t - √3 * (|x| + x0) ≤ 0),
      min_eq_right (le_max_of_le_left (by linarith [min_le_left t t0]) :
        min t t0 ≤ max (t - √3 * (x0 - |x|)) 0)]
    ring
  refine ⟨?_, by rw [← hv]; unfold suOlsonS2; simp only [abs_neg], ?_⟩
  · rcases le_or_gt t t0 with h | h
    · rw [c41_source_on_partial x ht h0 h] at hv
      rwa [← Option.some.inj hv]
    · rcases le_or_gt (x0 - (t - t0) / √3) |x| with hx | hx
      · rw [c41_source_off_partial x h0 ht0 h (Or.inl hx)] at hv
        rwa [← Option.some.inj hv]
      · rcases le_or_gt t (√3 * (|x| + x0)) with hx' | hx'
        · rw [c41_source_off_partial x h0 ht0 h (Or.inr hx')] at hv
          rwa [← Option.some.inj hv]
        · obtain ⟨w, hw, hlt⟩ := c41_too_large x h0 ht0 h hx hx'
          rw [hw] at hv
          rw [← Option.some.inj hv]
          linarith
  · intro hx
    rcases le_or_gt t t0 with h | h
    · rw [c41_source_on_partial x ht h0 h] at hv
      rw [← Option.some.inj hv]
      exact dark hx
    · have hp : 0 ≤ t / √3 := div_nonneg ht r.le
      have hp' : 0 ≤ (t - t0) / √3 := div_nonneg (by linarith) r.le
      rw [c41_source_off_partial x h0 ht0 h (Or.inl (by linarith))] at hv
      rw [← Option.some.inj hv]
      exact dark hx

end Verif.Props
