import Verif.Lemmas.Angular
import Verif.Spec.SphereTransport
import Mathlib.Analysis.Calculus.MeanValue
import Mathlib.MeasureTheory.Integral.IntervalIntegral.FundThmCalculus

/-!
Consistency of the redistribution term and of the sum over directions with the derivative and the
integral over all directions.
-/

namespace Verif.Lemmas

open Set Verif.Spec

/-- `f` with first and second derivative `f1` and `f2`, all at most `D` on `[-1, 1]`. -/
structure TwiceBounded (f f1 f2 : ℝ → ℝ) (D : ℝ) : Prop where
  first : ∀ x, HasDerivAt f (f1 x) x
  second : ∀ x, HasDerivAt f1 (f2 x) x
  bound : ∀ x ∈ Icc (-1 : ℝ) 1, |f x| ≤ D
  bound1 : ∀ x ∈ Icc (-1 : ℝ) 1, |f1 x| ≤ D
  bound2 : ∀ x ∈ Icc (-1 : ℝ) 1, |f2 x| ≤ D

theorem TwiceBounded.nonneg {f f1 f2 : ℝ → ℝ} {D : ℝ} (h : TwiceBounded f f1 f2 D) : 0 ≤ D :=
  (abs_nonneg _).trans (h.bound 0 (by norm_num))

theorem TwiceBounded.lipschitz {f f1 f2 : ℝ → ℝ} {D : ℝ} (h : TwiceBounded f f1 f2 D) {x y : ℝ}
    (hx : x ∈ Icc (-1 : ℝ) 1) (hy : y ∈ Icc (-1 : ℝ) 1) : |f y - f x| ≤ D * |y - x| := by
  have := (convex_Icc (-1 : ℝ) 1).norm_image_sub_le_of_norm_hasDerivWithin_le
    (fun z _ => (h.first z).hasDerivWithinAt) (fun z hz => h.bound1 z hz) hx hy
  simpa only [Real.norm_eq_abs] using this

/-- First order expansion. -/
theorem TwiceBounded.taylor {f f1 f2 : ℝ → ℝ} {D : ℝ} (h : TwiceBounded f f1 f2 D) {x y : ℝ}
    (hx : x ∈ Icc (-1 : ℝ) 1) (hy : y ∈ Icc (-1 : ℝ) 1) :
    |f y - f x - f1 x * (y - x)| ≤ D * (y - x) ^ 2 := by
  have hsub : uIcc x y ⊆ Icc (-1 : ℝ) 1 := uIcc_subset_Icc hx hy
  have hb : ∀ z ∈ uIcc x y, ‖f1 z - f1 x‖ ≤ D * |y - x| := by
    intro z hz
    have h1 := (convex_Icc (-1 : ℝ) 1).norm_image_sub_le_of_norm_hasDerivWithin_le
      (fun z _ => (h.second z).hasDerivWithinAt) (fun z hz => h.bound2 z hz) hx (hsub hz)
    refine h1.trans (mul_le_mul_of_nonneg_left ?_ h.nonneg)
    exact abs_sub_left_of_mem_uIcc hz
  have h2 := (convex_uIcc x y).norm_image_sub_le_of_norm_hasDerivWithin_le
    (f := fun z => f z - f1 x * z) (f' := fun z => f1 z - f1 x)
    (fun z _ => by
      have h3 := (h.first z).fun_sub ((hasDerivAt_id z).const_mul (f1 x))
      refine (h3.congr_deriv ?_).hasDerivWithinAt
      rw [mul_one]) hb left_mem_uIcc right_mem_uIcc
  rw [Real.norm_eq_abs, Real.norm_eq_abs] at h2
  calc |f y - f x - f1 x * (y - x)| = |f y - f1 x * y - (f x - f1 x * x)| := by congr 1; ring
    _ ≤ _ := h2
    _ = D * (y - x) ^ 2 := by rw [mul_assoc, ← sq, sq_abs]

/-- The mean of two neighbours against the value half way. -/
theorem TwiceBounded.mean {f f1 f2 : ℝ → ℝ} {D : ℝ} (h : TwiceBounded f f1 f2 D) {x y : ℝ}
    (hx : x ∈ Icc (-1 : ℝ) 1) (hy : y ∈ Icc (-1 : ℝ) 1) :
    |(f x + f y) / 2 - f ((x + y) / 2)| ≤ D * ((y - x) / 2) ^ 2 := by
  have hm : (x + y) / 2 ∈ Icc (-1 : ℝ) 1 := ⟨by linarith [hx.1, hy.1], by linarith [hx.2, hy.2]⟩
  have h1 := abs_le.1 (h.taylor hm hx)
  have h2 := abs_le.1 (h.taylor hm hy)
  have e1 : (x - (x + y) / 2) ^ 2 = ((y - x) / 2) ^ 2 := by ring
  have e2 : (y - (x + y) / 2) ^ 2 = ((y - x) / 2) ^ 2 := by ring
  rw [e1] at h1
  rw [e2] at h2
  rw [abs_le]
  constructor <;> nlinarith [h1.1, h1.2, h2.1, h2.2]

/-- The flux `(1 - μ²) f`. -/
theorem TwiceBounded.flux {f f1 f2 : ℝ → ℝ} {D : ℝ} (h : TwiceBounded f f1 f2 D) :
    TwiceBounded (fun x => (1 - x ^ 2) * f x) (fun x => -2 * x * f x + (1 - x ^ 2) * f1 x)
      (fun x => -2 * f x - 4 * x * f1 x + (1 - x ^ 2) * f2 x) (7 * D) := by
  have hD := h.nonneg
  have hq : ∀ x, HasDerivAt (fun x : ℝ => 1 - x ^ 2) (-2 * x) x := by
    intro x
    have := (hasDerivAt_pow 2 x).const_sub 1
    refine this.congr_deriv ?_
    simp
  have hsq : ∀ x ∈ Icc (-1 : ℝ) 1, |x| ≤ 1 ∧ |1 - x ^ 2| ≤ 1 := by
    intro x hx
    refine ⟨abs_le.2 ⟨hx.1, hx.2⟩, abs_le.2 ⟨?_, ?_⟩⟩ <;> nlinarith [hx.1, hx.2]
  have hmul : ∀ a b A B : ℝ, |a| ≤ A → |b| ≤ B → |a * b| ≤ A * B := fun a b A B ha hb => by
    rw [abs_mul]; exact mul_le_mul ha hb (abs_nonneg _) ((abs_nonneg _).trans ha)
  refine ⟨fun x => (hq x).mul (h.first x), fun x => ?_, fun x hx => ?_, fun x hx => ?_, fun x hx => ?_⟩
  · have h1 := (((hasDerivAt_id x).const_mul (-2)).mul (h.first x)).add ((hq x).mul (h.second x))
    refine h1.congr_deriv ?_
    simp only [id]
    ring
  · have := hmul _ _ _ _ (hsq x hx).2 (h.bound x hx)
    linarith
  · have h1 := hmul _ _ _ _ (hsq x hx).2 (h.bound1 x hx)
    have h2 := hmul _ _ _ _ (hsq x hx).1 (h.bound x hx)
    rw [abs_le] at *
    constructor <;> nlinarith [h1.1, h1.2, h2.1, h2.2]
  · have h1 := hmul _ _ _ _ (hsq x hx).2 (h.bound2 x hx)
    have h2 := hmul _ _ _ _ (hsq x hx).1 (h.bound1 x hx)
    have h3 := h.bound x hx
    rw [abs_le] at *
    constructor <;> nlinarith [h1.1, h1.2, h2.1, h2.2, h3.1, h3.2]

/-- Every direction lies in its angular cell. -/
theorem angularEdge_mem {n : ℕ} {mus : ℕ → ℝ} (h : DirectionSet n mus) {l : ℕ} (hl : l < n) :
    angularEdge n mus l ≤ mus l ∧ mus l ≤ angularEdge n mus (l + 1) := by
  have h1 := directionSet_mem h hl
  unfold angularEdge
  constructor
  · split_ifs with h2 h3
    · exact h1.1
    · omega
    · have := directionSet_lt h (i := l - 1) (j := l) (by omega) hl
      linarith
  · rw [if_neg (by omega), Nat.add_sub_cancel]
    split_ifs with h2
    · exact h1.2
    · have := h.mono l (by omega)
      linarith

theorem angularEdge_unit {n : ℕ} {mus : ℕ → ℝ} (h : DirectionSet n mus) {l : ℕ} (hl : l ≤ n) :
    angularEdge n mus l ∈ Icc (-1 : ℝ) 1 := by
  rcases Nat.eq_zero_or_pos l with h0 | h0
  · rw [h0]; unfold angularEdge; rw [if_pos rfl]; norm_num
  rcases Nat.lt_or_ge l n with h1 | h1
  · have := angularEdge_inner h h0 h1
    exact ⟨this.1.le, this.2.le⟩
  · have := h.two
    unfold angularEdge; rw [if_neg (by omega), if_pos (by omega)]; norm_num

/-- The redistribution term is a first order approximation of the derivative of `(1 - μ²) f`, for every
set of directions. -/
theorem angularDifference_consistent {n : ℕ} {mus : ℕ → ℝ} (hd : DirectionSet n mus)
    {f f1 f2 : ℝ → ℝ} {D : ℝ} (h : TwiceBounded f f1 f2 D) {l : ℕ} (hl : l < n) :
    |angularDifference n mus (fun l => f (mus l)) l
      - (-2 * mus l * f (mus l) + (1 - mus l ^ 2) * f1 (mus l))| ≤ 9 * D * angularWidth n mus l := by
  have hD := h.nonneg
  have hw := angularWidth_pos hd hl
  set w := angularWidth n mus l with hwd
  set p := angularEdge n mus (l + 1) with hp
  set m := angularEdge n mus l with hm
  have hwp : w = p - m := rfl
  have hin := angularEdge_mem hd hl
  have hp1 := angularEdge_unit hd (l := l + 1) hl
  have hm1 := angularEdge_unit hd (l := l) hl.le
  have hmu := directionSet_mem hd hl
  have hmu' : mus l ∈ Icc (-1 : ℝ) 1 := ⟨hmu.1, hmu.2⟩
  -- the two edges
  have hright : |(1 - p ^ 2) * ((f (mus l) + f (mus (l + 1))) / 2) - (1 - p ^ 2) * f p| ≤ D * w ^ 2 := by
    by_cases hn : l + 1 = n
    · have : p = 1 := by rw [hp]; unfold angularEdge; rw [if_neg (by omega), if_pos hn]
      rw [this]
      simpa using mul_nonneg hD (sq_nonneg w)
    · have e : p = (mus l + mus (l + 1)) / 2 := by
        rw [hp]; unfold angularEdge; rw [if_neg (by omega), if_neg hn, Nat.add_sub_cancel]
      have h2 := directionSet_mem hd (k := l + 1) (by omega)
      have h3 := h.mean hmu' ⟨h2.1, h2.2⟩
      rw [← e] at h3
      have h4 : (mus (l + 1) - mus l) / 2 = p - mus l := by rw [e]; ring
      have h5 : (p - mus l) ^ 2 ≤ w ^ 2 :=
        pow_le_pow_left₀ (by linarith [hin.2]) (by rw [hwp]; linarith [hin.1]) 2
      have h6 : 0 ≤ 1 - p ^ 2 ∧ 1 - p ^ 2 ≤ 1 := by constructor <;> nlinarith [hp1.1, hp1.2]
      rw [← mul_sub, abs_mul, abs_of_nonneg h6.1]
      calc _ ≤ 1 * (D * (p - mus l) ^ 2) :=
            mul_le_mul h6.2 (by rw [← h4]; exact h3) (abs_nonneg _) zero_le_one
        _ ≤ D * w ^ 2 := by rw [one_mul]; exact mul_le_mul_of_nonneg_left h5 hD
  have hleft : |(1 - m ^ 2) * ((f (mus (l - 1)) + f (mus l)) / 2) - (1 - m ^ 2) * f m| ≤ D * w ^ 2 := by
    rcases Nat.eq_zero_or_pos l with h0 | h0
    · have : m = -1 := by rw [hm, h0]; unfold angularEdge; rw [if_pos rfl]
      rw [this]
      simpa using mul_nonneg hD (sq_nonneg w)
    · have e : m = (mus (l - 1) + mus l) / 2 := by
        rw [hm]; unfold angularEdge; rw [if_neg (by omega), if_neg (by omega)]
      have h2 := directionSet_mem hd (k := l - 1) (by omega)
      have h3 := h.mean ⟨h2.1, h2.2⟩ hmu'
      rw [← e] at h3
      have h4 : (mus l - mus (l - 1)) / 2 = mus l - m := by rw [e]; ring
      have h5 : (mus l - m) ^ 2 ≤ w ^ 2 :=
        pow_le_pow_left₀ (by linarith [hin.1]) (by rw [hwp]; linarith [hin.2]) 2
      have h6 : 0 ≤ 1 - m ^ 2 ∧ 1 - m ^ 2 ≤ 1 := by constructor <;> nlinarith [hm1.1, hm1.2]
      rw [← mul_sub, abs_mul, abs_of_nonneg h6.1]
      calc _ ≤ 1 * (D * (mus l - m) ^ 2) :=
            mul_le_mul h6.2 (by rw [← h4]; exact h3) (abs_nonneg _) zero_le_one
        _ ≤ D * w ^ 2 := by rw [one_mul]; exact mul_le_mul_of_nonneg_left h5 hD
  -- the difference of the flux
  have t1 := h.flux.taylor hmu' hp1
  have t2 := h.flux.taylor hmu' hm1
  beta_reduce at t1 t2
  set G := -2 * mus l * f (mus l) + (1 - mus l ^ 2) * f1 (mus l) with hG
  have hsq : (p - mus l) ^ 2 + (m - mus l) ^ 2 ≤ w ^ 2 := by
    rw [hwp]
    nlinarith [mul_nonneg (sub_nonneg.2 hin.2) (sub_nonneg.2 hin.1)]
  unfold angularDifference
  rw [← hwd, ← hp, ← hm, div_sub' hw.ne', abs_div, abs_of_pos hw, div_le_iff₀ hw]
  rw [abs_le] at hright hleft t1 t2
  have k1 : 7 * D * ((p - mus l) ^ 2 + (m - mus l) ^ 2) ≤ 7 * D * w ^ 2 :=
    mul_le_mul_of_nonneg_left hsq (by positivity)
  have k2 : w * G = G * (p - mus l) - G * (m - mus l) := by rw [hwp]; ring
  have k3 : 9 * D * w * w = 7 * D * w ^ 2 + D * w ^ 2 + D * w ^ 2 := by ring
  rw [mul_add] at k1
  rw [abs_le, k2, k3]
  obtain ⟨a1, a2⟩ := hright
  obtain ⟨b1, b2⟩ := hleft
  obtain ⟨c1, c2⟩ := t1
  obtain ⟨d1, d2⟩ := t2
  constructor <;> linarith

/-- The sum over directions with the angular cells as weights is a first order approximation of the mean
over all directions. -/
theorem angularSum_consistent {n : ℕ} {mus : ℕ → ℝ} (hd : DirectionSet n mus)
    {f f1 f2 : ℝ → ℝ} {D Δ : ℝ} (h : TwiceBounded f f1 f2 D)
    (hΔ : ∀ l < n, angularWidth n mus l ≤ Δ) :
    |∑ l ∈ Finset.range n, angularWidth n mus l / 2 * f (mus l) - (∫ x in (-1 : ℝ)..1, f x) / 2| ≤
      D * Δ := by
  have hD := h.nonneg
  have hc : Continuous f := continuous_iff_continuousAt.2 fun x => (h.first x).continuousAt
  have e0 : angularEdge n mus 0 = -1 := by unfold angularEdge; rw [if_pos rfl]
  have en : angularEdge n mus n = 1 := by
    have := hd.two
    unfold angularEdge; rw [if_neg (by omega), if_pos rfl]
  have hint : ∫ x in (-1 : ℝ)..1, f x =
      ∑ l ∈ Finset.range n, ∫ x in (angularEdge n mus l)..(angularEdge n mus (l + 1)), f x := by
    rw [intervalIntegral.sum_integral_adjacent_intervals fun k _ => hc.intervalIntegrable _ _, e0, en]
  have hcell : ∀ l ∈ Finset.range n, |angularWidth n mus l / 2 * f (mus l)
      - (∫ x in (angularEdge n mus l)..(angularEdge n mus (l + 1)), f x) / 2| ≤
      D * Δ * (angularWidth n mus l / 2) := by
    intro l hl
    have hl := Finset.mem_range.1 hl
    have hw := angularWidth_pos hd hl
    have hin := angularEdge_mem hd hl
    have hp1 := angularEdge_unit hd (l := l + 1) hl
    have hm1 := angularEdge_unit hd (l := l) hl.le
    have hmu := directionSet_mem hd hl
    have hle : angularEdge n mus l ≤ angularEdge n mus (l + 1) := hin.1.trans hin.2
    have e1 : angularWidth n mus l / 2 * f (mus l)
        - (∫ x in (angularEdge n mus l)..(angularEdge n mus (l + 1)), f x) / 2 =
        (∫ x in (angularEdge n mus l)..(angularEdge n mus (l + 1)), (f (mus l) - f x)) / 2 := by
      rw [intervalIntegral.integral_sub (intervalIntegrable_const) (hc.intervalIntegrable _ _),
        intervalIntegral.integral_const, smul_eq_mul]
      unfold angularWidth
      ring
    have h1 : ‖∫ x in (angularEdge n mus l)..(angularEdge n mus (l + 1)), (f (mus l) - f x)‖ ≤
        D * Δ * |angularEdge n mus (l + 1) - angularEdge n mus l| := by
      refine intervalIntegral.norm_integral_le_of_norm_le_const fun x hx => ?_
      rw [uIoc_of_le hle] at hx
      have hx1 : x ∈ Icc (-1 : ℝ) 1 := ⟨hm1.1.trans hx.1.le, hx.2.trans hp1.2⟩
      refine (h.lipschitz hx1 ⟨hmu.1, hmu.2⟩).trans (mul_le_mul_of_nonneg_left ?_ hD)
      refine le_trans ?_ (hΔ l hl)
      unfold angularWidth
      rw [abs_le]
      constructor <;> linarith [hx.1, hx.2, hin.1, hin.2]
    rw [Real.norm_eq_abs] at h1
    have h2 : |angularEdge n mus (l + 1) - angularEdge n mus l| = angularWidth n mus l := abs_of_pos hw
    rw [h2] at h1
    rw [e1, abs_div, abs_of_pos (by norm_num : (0 : ℝ) < 2)]
    linarith
  have hsum : ∑ l ∈ Finset.range n, angularWidth n mus l / 2 = 1 := by
    unfold angularWidth
    rw [← Finset.sum_div, Finset.sum_range_sub, e0, en]
    norm_num
  rw [hint, Finset.sum_div, ← Finset.sum_sub_distrib]
  refine (Finset.abs_sum_le_sum_abs _ _).trans ((Finset.sum_le_sum hcell).trans_eq ?_)
  rw [← Finset.mul_sum, hsum, mul_one]

end Verif.Lemmas
