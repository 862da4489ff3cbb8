import Verif.Spec.Uncollided
import Verif.Model.Uncollided
import Mathlib.MeasureTheory.Integral.IntervalIntegral.FundThmCalculus
import Mathlib.MeasureTheory.Integral.IntervalIntegral.IntegrationByParts
import Mathlib.Analysis.SpecialFunctions.ExpDeriv
import Mathlib.Tactic.Linarith
import Mathlib.Tactic.FieldSimp
import Mathlib.Tactic.Positivity

/-!
Helper lemmas for the uncollided solutions.
-/

namespace Verif.Lemmas

open MeasureTheory Real Set Verif.Spec Verif.Model

/-- Measure of the directions seeing the pulse. -/
theorem volume_directions {x s x0 : ℝ} (hs : 0 < s) :
    (volume (directions x s x0)).toReal = max 0 (min 1 ((x0 + x) / s) + min 1 ((x0 - x) / s)) := by
  have e : directions x s x0 = Icc (-min 1 ((x0 - x) / s)) (min 1 ((x0 + x) / s)) := by
    ext μ
    simp only [directions, mem_ofPred_eq, mem_Icc, neg_le, le_min_iff, le_div_iff₀ hs, abs_le]
    constructor
    · rintro ⟨h1, h2, h3, h4⟩
      exact ⟨⟨by linarith, by linarith⟩, h2, by linarith⟩
    · rintro ⟨⟨h1, h2⟩, h3, h4⟩
      exact ⟨by linarith, h3, by linarith, by linarith⟩
  rw [e, Real.volume_Icc, ENNReal.toReal_ofReal', max_comm]
  congr 1
  ring

theorem volume_directions_abs {x s x0 : ℝ} (hs : 0 < s) :
    (volume (directions x s x0)).toReal =
      max 0 (min 1 ((x0 + |x|) / s) + min 1 ((x0 - |x|) / s)) := by
  rw [volume_directions hs]
  rcases abs_cases x with ⟨h, _⟩ | ⟨h, _⟩ <;> rw [h]
  rw [add_comm, sub_neg_eq_add, ← sub_eq_add_neg]

theorem volume_directions_zero {x x0 : ℝ} (h : |x| ≤ x0) :
    (volume (directions x 0 x0)).toReal = 2 := by
  have e : directions x 0 x0 = Icc (-1) 1 := by
    ext μ
    simp [directions, h]
  rw [e, Real.volume_Icc, ENNReal.toReal_ofReal (by norm_num)]
  norm_num

theorem squarePulse_nonneg (x s x0 : ℝ) : 0 ≤ squarePulse x s x0 :=
  mul_nonneg (exp_pos _).le (div_nonneg ENNReal.toReal_nonneg (by norm_num))

/-- The pulse seen from outside its light cone. -/
theorem squarePulse_dark {x s x0 : ℝ} (hs : 0 < s) (h : s + x0 ≤ |x|) : squarePulse x s x0 = 0 := by
  unfold squarePulse
  rw [volume_directions_abs hs]
  have h1 : min 1 ((x0 + |x|) / s) ≤ 1 := min_le_left _ _
  have h2 : min 1 ((x0 - |x|) / s) ≤ -1 := by
    refine (min_le_right _ _).trans ?_
    rw [div_le_iff₀ hs]; linarith
  rw [max_eq_left (by linarith)]
  simp

/-- Far inside: the whole pulse is seen. -/
theorem squarePulse_far {x s x0 : ℝ} (hs : 0 < s) (h0 : 0 ≤ x0) (h : x0 + |x| ≤ s) :
    squarePulse x s x0 = exp (-s) * (x0 / s) := by
  unfold squarePulse
  rw [volume_directions_abs hs]
  have ha := abs_nonneg x
  have h1 : min 1 ((x0 + |x|) / s) = (x0 + |x|) / s := min_eq_right ((div_le_one hs).mpr h)
  have h2 : min 1 ((x0 - |x|) / s) = (x0 - |x|) / s :=
    min_eq_right ((div_le_one hs).mpr (by linarith))
  rw [h1, h2, max_eq_right (by rw [← add_div]; apply div_nonneg _ hs.le; linarith)]
  field_simp
  ring

/-- Part of the pulse is seen. -/
theorem squarePulse_partly {x s x0 : ℝ} (hs : 0 < s) (h1 : s ≤ x0 + |x|) (h2 : x0 - |x| ≤ s)
    (h3 : |x| - x0 ≤ s) :
    squarePulse x s x0 = exp (-s) * ((s + x0 - |x|) / (2 * s)) := by
  unfold squarePulse
  rw [volume_directions_abs hs]
  have e1 : min 1 ((x0 + |x|) / s) = 1 := min_eq_left ((one_le_div hs).mpr h1)
  have e2 : min 1 ((x0 - |x|) / s) = (x0 - |x|) / s := min_eq_right ((div_le_one hs).mpr h2)
  have e3 : (0 : ℝ) ≤ 1 + (x0 - |x|) / s := by
    have : (-1 : ℝ) ≤ (x0 - |x|) / s := by rw [le_div_iff₀ hs]; linarith
    linarith
  rw [e1, e2, max_eq_right e3]
  field_simp
  ring

/-- Near the middle every direction sees the pulse. -/
theorem squarePulse_near {x s x0 : ℝ} (hs : 0 ≤ s) (h : s ≤ x0 - |x|) :
    squarePulse x s x0 = exp (-s) := by
  have ha := abs_nonneg x
  unfold squarePulse
  rcases hs.eq_or_lt with rfl | hs
  · rw [volume_directions_zero (by linarith)]
    norm_num
  · rw [volume_directions_abs hs]
    have e1 : min 1 ((x0 + |x|) / s) = 1 := min_eq_left ((one_le_div hs).mpr (by linarith))
    have e2 : min 1 ((x0 - |x|) / s) = 1 := min_eq_left ((one_le_div hs).mpr h)
    rw [e1, e2]
    norm_num

/-- Fundamental theorem for a non-negative integrand known on the open interval only. -/
theorem ftc_nonneg {F g : ℝ → ℝ} {a b : ℝ} (hab : a ≤ b) (hF : ContinuousOn F (Icc a b))
    (hd : ∀ x ∈ Ioo a b, HasDerivAt F (g x) x) (hg : ∀ x ∈ Ioo a b, 0 ≤ g x) :
    IntervalIntegrable g volume a b ∧ ∫ x in a..b, g x = F b - F a := by
  have hi : IntervalIntegrable g volume a b := by
    refine intervalIntegral.intervalIntegrable_deriv_of_nonneg (by rwa [uIcc_of_le hab]) ?_ ?_
    · rwa [min_eq_left hab, max_eq_right hab]
    · rwa [min_eq_left hab, max_eq_right hab]
  exact ⟨hi, intervalIntegral.integral_eq_sub_of_hasDerivAt_of_le hab hF hd hi⟩

/-- Gluing two pieces. -/
theorem ftc_glue {g : ℝ → ℝ} {a b c u v : ℝ}
    (h1 : IntervalIntegrable g volume a b ∧ ∫ x in a..b, g x = u)
    (h2 : IntervalIntegrable g volume b c ∧ ∫ x in b..c, g x = v) :
    IntervalIntegrable g volume a c ∧ ∫ x in a..c, g x = u + v :=
  ⟨h1.1.trans h2.1, by rw [← intervalIntegral.integral_add_adjacent_intervals h1.1 h2.1, h1.2, h2.2]⟩

/-- A piece where the integrand is zero. -/
theorem ftc_zero {g : ℝ → ℝ} {a b : ℝ} (hab : a ≤ b) (hg : ∀ x ∈ Ioo a b, g x = 0) :
    IntervalIntegrable g volume a b ∧ ∫ x in a..b, g x = 0 := by
  have := ftc_nonneg (F := fun _ => (0 : ℝ)) (g := g) hab continuousOn_const
    (fun x hx => by rw [hg x hx]; exact hasDerivAt_const x 0) (fun x hx => (hg x hx).ge)
  simpa using this

/-- Derivative of the exponential integral of a shifted time. -/
theorem hasDerivAt_expi {Ei : ℝ → ℝ} (h : IsExpi Ei) {t τ : ℝ} (hτ : τ < t) :
    HasDerivAt (fun τ => Ei (τ - t)) (exp (τ - t) / (τ - t)) τ := by
  have := (h (τ - t) (by linarith)).comp τ ((hasDerivAt_id τ).sub_const t)
  simpa [Function.comp_def] using this

theorem hasDerivAt_expShift (t τ : ℝ) : HasDerivAt (fun τ => exp (τ - t)) (exp (τ - t)) τ := by
  have := ((hasDerivAt_id τ).sub_const t).exp
  simpa using this

/-- A function with the derivative of the exponential integral exists. -/
theorem exists_expi : ∃ Ei, IsExpi Ei := by
  refine ⟨fun u => ∫ v in (-1 : ℝ)..u, exp v / v, ?_⟩
  intro u hu
  have hc : ContinuousOn (fun v : ℝ => exp v / v) (Iio 0) :=
    continuous_exp.continuousOn.div continuousOn_id (fun v hv => ne_of_lt hv)
  refine intervalIntegral.integral_hasDerivAt_right ?_ ?_ ?_
  · refine (hc.mono ?_).intervalIntegrable
    intro v hv
    have := (mem_uIcc.mp hv)
    rcases this with h | h
    · exact lt_of_le_of_lt h.2 hu
    · exact lt_of_le_of_lt h.2 (by norm_num)
  · exact hc.stronglyMeasurableAtFilter isOpen_Iio u hu
  · exact hc.continuousAt (Iio_mem_nhds hu)

end Verif.Lemmas
