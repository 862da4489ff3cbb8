import Verif.Lemmas.Projection
import Verif.Lemmas.Stability
import Mathlib.Analysis.Calculus.Taylor

/-! Helper facts: how well the projection approximates smooth functions. -/

namespace Verif.Lemmas

open Polynomial Verif.Spec Verif.Model MeasureTheory Set

theorem continuous_slabBasis (i : ℕ) (a b : ℝ) : Continuous fun x => slabBasis i x a b := by
  unfold slabBasis ref
  exact continuous_const.mul ((legendre i).continuous.comp (by fun_prop))

theorem continuous_slabField (M : ℕ) (U : ℕ → ℝ) (a b : ℝ) : Continuous (slabField M U a b) := by
  unfold slabField
  exact continuous_finsetSum _ fun i _ => continuous_const.mul (continuous_slabBasis i a b)

theorem integral_field_mul (M : ℕ) (U : ℕ → ℝ) {f : ℝ → ℝ} (hf : Continuous f) (a b : ℝ) :
    ∫ x in a..b, slabField M U a b x * f x =
      ∑ i ∈ Finset.range (M + 1), U i * projection f a b i := by
  unfold slabField projection
  simp_rw [Finset.sum_mul]
  rw [intervalIntegral.integral_finsetSum]
  · refine Finset.sum_congr rfl fun i _ => ?_
    rw [← intervalIntegral.integral_const_mul]
    congr 1; funext x; ring
  · intro i _
    exact ((continuous_const.mul (continuous_slabBasis i a b)).mul hf).intervalIntegrable _ _

theorem integral_field_sub_sq_expand (M : ℕ) (U : ℕ → ℝ) {f : ℝ → ℝ} (hf : Continuous f) {a b : ℝ}
    (h : a < b) :
    ∫ x in a..b, (slabField M U a b x - f x) ^ 2 =
      ∑ i ∈ Finset.range (M + 1), (U i ^ 2 - 2 * (U i * projection f a b i))
        + ∫ x in a..b, f x ^ 2 := by
  have hF := continuous_slabField M U a b
  have e : ∀ x, (slabField M U a b x - f x) ^ 2 =
      slabField M U a b x ^ 2 - 2 * (slabField M U a b x * f x) + f x ^ 2 := fun x => by ring
  simp_rw [e]
  have h1 : IntervalIntegrable (fun x => slabField M U a b x ^ 2) volume a b :=
    (hF.pow 2).intervalIntegrable _ _
  have h2 : IntervalIntegrable (fun x => 2 * (slabField M U a b x * f x)) volume a b :=
    (continuous_const.mul (hF.mul hf)).intervalIntegrable _ _
  have h3 : IntervalIntegrable (fun x => f x ^ 2) volume a b := (hf.pow 2).intervalIntegrable _ _
  rw [intervalIntegral.integral_add (h1.sub h2) h3, intervalIntegral.integral_sub h1 h2,
    intervalIntegral.integral_const_mul, integral_field_mul M U hf, integral_slabField_sq M U h,
    Finset.sum_sub_distrib, Finset.mul_sum]

/-- Pythagoras: the distance of a field from `f` splits into the distance from the projection and
the distance of the projection from `f`. -/
theorem integral_field_sub_sq (M : ℕ) (U : ℕ → ℝ) {f : ℝ → ℝ} (hf : Continuous f) {a b : ℝ}
    (h : a < b) :
    ∫ x in a..b, (slabField M U a b x - f x) ^ 2 =
      ∑ i ∈ Finset.range (M + 1), (U i - projection f a b i) ^ 2
        + ∫ x in a..b, (slabField M (projection f a b) a b x - f x) ^ 2 := by
  rw [integral_field_sub_sq_expand M U hf h, integral_field_sub_sq_expand M _ hf h, ← add_assoc,
    ← Finset.sum_add_distrib]
  congr 1
  exact Finset.sum_congr rfl fun i _ => by ring

/-- Every polynomial of degree at most `M` is a field of order `M`. -/
theorem exists_field {M : ℕ} {q : ℝ[X]} (hq : q.natDegree ≤ M) {a b : ℝ} (h : a < b) :
    ∃ U : ℕ → ℝ, ∀ x, slabField M U a b x = q.eval (ref x a b) := by
  have hb : 0 < b - a := by linarith
  have hmem := mem_span_legendre hq
  clear hq
  induction hmem using Submodule.span_induction with
  | mem r hr =>
    obtain ⟨j, hj, rfl⟩ := hr
    have hj : j ≤ M := hj
    refine ⟨fun i => if i = j then (Real.sqrt ((2 * (j : ℝ) + 1) / (b - a)))⁻¹ else 0, fun x => ?_⟩
    unfold slabField slabBasis
    rw [Finset.sum_eq_single j]
    · have : Real.sqrt ((2 * (j : ℝ) + 1) / (b - a)) ≠ 0 :=
        (Real.sqrt_pos.2 (by positivity)).ne'
      simp only [if_true]
      rw [← mul_assoc, inv_mul_cancel₀ this, one_mul]
    · intro i _ hi; simp only [if_neg hi, zero_mul]
    · intro hn; exact absurd (Finset.mem_range.2 (by omega)) hn
  | zero => exact ⟨fun _ => 0, fun x => by simp [slabField]⟩
  | add p q _ _ h1 h2 =>
    obtain ⟨U, hU⟩ := h1
    obtain ⟨W, hW⟩ := h2
    refine ⟨fun i => U i + W i, fun x => ?_⟩
    rw [eval_add, ← hU, ← hW]
    unfold slabField
    rw [← Finset.sum_add_distrib]
    exact Finset.sum_congr rfl fun i _ => by ring
  | smul c p _ h1 =>
    obtain ⟨U, hU⟩ := h1
    refine ⟨fun i => c * U i, fun x => ?_⟩
    rw [eval_smul, ← hU, smul_eq_mul]
    unfold slabField
    rw [Finset.mul_sum]
    exact Finset.sum_congr rfl fun i _ => by ring

/-- A smooth function is close to a field of order `M`. -/
theorem exists_close_field (M : ℕ) {f : ℝ → ℝ} {a b B : ℝ} (h : a < b)
    (hf : ContDiffOn ℝ (M + 1) f (Icc a b))
    (hB : ∀ y ∈ Icc a b, |iteratedDerivWithin (M + 1) f (Icc a b) y| ≤ B) :
    ∃ U : ℕ → ℝ, ∀ x ∈ Icc a b,
      |slabField M U a b x - f x| ≤ B * (b - a) ^ (M + 1) / (M.factorial : ℝ) := by
  have hb : b - a ≠ 0 := by linarith
  set q : ℝ[X] := ∑ j ∈ Finset.range (M + 1),
    C ((j.factorial : ℝ)⁻¹ * iteratedDerivWithin j f (Icc a b) a) *
      (C ((b - a) / 2) * X + C ((b - a) / 2)) ^ j with hq
  have hdeg : q.natDegree ≤ M := by
    refine natDegree_sum_le_of_forall_le _ _ fun j hj => ?_
    have hj : j ≤ M := by simpa [Nat.lt_succ_iff] using hj
    refine (natDegree_C_mul_le _ _).trans (natDegree_pow_le.trans ?_)
    have h1 : (C ((b - a) / 2) * X + C ((b - a) / 2) : ℝ[X]).natDegree ≤ 1 := natDegree_linear_le
    calc j * _ ≤ j * 1 := Nat.mul_le_mul_left j h1
      _ ≤ M := by omega
  obtain ⟨U, hU⟩ := exists_field hdeg h
  refine ⟨U, fun x hx => ?_⟩
  have e : slabField M U a b x = taylorWithinEval f M (Icc a b) a x := by
    rw [hU, taylor_within_apply, hq, eval_finsetSum]
    refine Finset.sum_congr rfl fun j _ => ?_
    simp only [eval_mul, eval_C, eval_pow, eval_add, eval_X, smul_eq_mul]
    have : (b - a) / 2 * ref x a b + (b - a) / 2 = x - a := by
      unfold ref; field_simp; ring
    rw [this]
    ring
  have ht := taylor_mean_remainder_bound h.le hf hx (C := B) hB
  rw [e, abs_sub_comm]
  refine ht.trans ?_
  have hB0 : 0 ≤ B := (abs_nonneg _).trans (hB a ⟨le_rfl, h.le⟩)
  gcongr
  · linarith [hx.1]
  · exact hx.2

theorem slabBasis_edge_sq {a b x : ℝ} (h : a < b) (hx : x = a ∨ x = b) (i : ℕ) :
    slabBasis i x a b ^ 2 = (2 * (i : ℝ) + 1) / (b - a) := by
  have hb : 0 < b - a := by linarith
  unfold slabBasis
  rw [mul_pow, Real.sq_sqrt (by positivity)]
  rcases hx with rfl | rfl
  · rw [ref_left h, legendre_eval_neg_one, ← pow_mul, mul_comm i 2, pow_mul]; simp
  · rw [ref_right h, legendre_eval_one]; simp

theorem sum_odd (M : ℕ) : ∑ i ∈ Finset.range (M + 1), (2 * (i : ℝ) + 1) = ((M : ℝ) + 1) ^ 2 := by
  induction M with
  | zero => simp
  | succ M ih => rw [Finset.sum_range_succ, ih]; push_cast; ring

/-- At an edge the projection is at most `M + 2` times worse than the best field. -/
theorem projection_edge_error (M : ℕ) {f : ℝ → ℝ} (hf : Continuous f) {a b ε : ℝ} (h : a < b)
    {U : ℕ → ℝ} (hU : ∀ x ∈ Icc a b, |slabField M U a b x - f x| ≤ ε) {x : ℝ}
    (hx : x = a ∨ x = b) :
    |slabField M (projection f a b) a b x - f x| ≤ (M + 2) * ε := by
  have hb : 0 < b - a := by linarith
  have hε : 0 ≤ ε := (abs_nonneg _).trans (hU a ⟨le_rfl, h.le⟩)
  have hxm : x ∈ Icc a b := by
    rcases hx with rfl | rfl
    · exact ⟨le_rfl, h.le⟩
    · exact ⟨h.le, le_rfl⟩
  have hint : ∫ x in a..b, (slabField M U a b x - f x) ^ 2 ≤ ε ^ 2 * (b - a) := by
    have h1 : ∫ x in a..b, (slabField M U a b x - f x) ^ 2 ≤ ∫ _ in a..b, ε ^ 2 := by
      refine intervalIntegral.integral_mono_on h.le
        (((continuous_slabField M U a b).sub hf).pow 2 |>.intervalIntegrable _ _)
        (continuous_const.intervalIntegrable _ _) fun y hy => ?_
      rw [← sq_abs]
      exact pow_le_pow_left₀ (abs_nonneg _) (hU y hy) 2
    rw [intervalIntegral.integral_const, smul_eq_mul] at h1
    linarith
  have hnn : 0 ≤ ∫ x in a..b, (slabField M (projection f a b) a b x - f x) ^ 2 :=
    intervalIntegral.integral_nonneg h.le fun _ _ => sq_nonneg _
  rw [integral_field_sub_sq M U hf h] at hint
  have hcs := Finset.sum_mul_sq_le_sq_mul_sq (Finset.range (M + 1))
    (fun i => U i - projection f a b i) fun i => slabBasis i x a b
  have hs : ∑ i ∈ Finset.range (M + 1), slabBasis i x a b ^ 2 = ((M : ℝ) + 1) ^ 2 / (b - a) := by
    rw [Finset.sum_congr rfl fun i _ => slabBasis_edge_sq h hx i, ← Finset.sum_div, sum_odd]
  have hd : ∑ i ∈ Finset.range (M + 1), (U i - projection f a b i) * slabBasis i x a b =
      slabField M U a b x - slabField M (projection f a b) a b x := by
    unfold slabField
    rw [← Finset.sum_sub_distrib]
    exact Finset.sum_congr rfl fun i _ => by ring
  rw [hs, hd] at hcs
  have h2 : (slabField M U a b x - slabField M (projection f a b) a b x) ^ 2 ≤
      (((M : ℝ) + 1) * ε) ^ 2 := by
    refine hcs.trans ?_
    have h3 : ∑ i ∈ Finset.range (M + 1), (U i - projection f a b i) ^ 2 ≤ ε ^ 2 * (b - a) := by
      linarith
    calc _ ≤ ε ^ 2 * (b - a) * (((M : ℝ) + 1) ^ 2 / (b - a)) :=
          mul_le_mul_of_nonneg_right h3 (by positivity)
      _ = _ := by field_simp
  have h4 := abs_le_of_sq_le_sq h2 (by positivity)
  have h5 := hU x hxm
  have h6 : slabField M (projection f a b) a b x - f x =
      (slabField M U a b x - f x) - (slabField M U a b x - slabField M (projection f a b) a b x) := by
    ring
  rw [h6]
  refine (abs_sub _ _).trans ?_
  have h7 : |slabField M U a b x - slabField M (projection f a b) a b x| ≤ ((M : ℝ) + 1) * ε :=
    h4
  linarith

/-- Inside the cell the projection is the best field in the mean. -/
theorem projection_mean_error (M : ℕ) {f : ℝ → ℝ} (hf : Continuous f) {a b ε : ℝ} (h : a < b)
    {U : ℕ → ℝ} (hU : ∀ x ∈ Icc a b, |slabField M U a b x - f x| ≤ ε) :
    ∫ x in a..b, (slabField M (projection f a b) a b x - f x) ^ 2 ≤ ε ^ 2 * (b - a) := by
  have h1 : ∫ x in a..b, (slabField M U a b x - f x) ^ 2 ≤ ∫ _ in a..b, ε ^ 2 := by
    refine intervalIntegral.integral_mono_on h.le
      (((continuous_slabField M U a b).sub hf).pow 2 |>.intervalIntegrable _ _)
      (continuous_const.intervalIntegrable _ _) fun y hy => ?_
    rw [← sq_abs]
    exact pow_le_pow_left₀ (abs_nonneg _) (hU y hy) 2
  rw [intervalIntegral.integral_const, smul_eq_mul, integral_field_sub_sq M U hf h] at h1
  have h2 : 0 ≤ ∑ i ∈ Finset.range (M + 1), (U i - projection f a b i) ^ 2 :=
    Finset.sum_nonneg fun _ _ => sq_nonneg _
  linarith

end Verif.Lemmas
