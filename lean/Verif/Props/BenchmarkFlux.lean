import Verif.Model.Benchmarks
import Verif.Model.Build
import Verif.Props.Beam

/-!
Benchmarks for boundary sources (C91, C92).
-/

namespace Verif.Props

open Verif.Model Verif.Spec Real Set MeasureTheory

/-! ### C91 -/

theorem sedovBench_mfp {c : UncollidedConfig} (hx0 : c.x0 = 5) (μ t x : ℝ) :
    sedovIntegrand c μ t x = exp (-sedovBenchMfp c.erf c.v0 μ t x / μ) *
      heavisideScalar (μ - |(x - -5) / (t + 1e-10)|) *
      heavisideScalar (|-5 - x| - μ * (t - c.t0)) := by
  unfold sedovIntegrand sedovBenchMfp sedovT1 sedovBenchT1
  simp only [hx0]

theorem heavisideZero_pair {μ t t0 x : ℝ} (hμ : 0 < μ) (ht : 0 < t) (hx : -5 ≤ x) :
    heavisideZero (μ - |x - -5| / t) * heavisideZero (|-5 - x| - (t - t0) * μ) =
      if 0 < passTime (-5) x t μ ∧ passTime (-5) x t μ < t0 then 1 else 0 := by
  have h1 : |x - -5| = x - -5 := abs_of_nonneg (by linarith)
  have h2 : |-5 - x| = x - -5 := by rw [abs_sub_comm, h1]
  rw [h1, h2]
  have e1 : 0 < μ - (x - -5) / t ↔ 0 < passTime (-5) x t μ := by
    unfold passTime
    rw [sub_pos, sub_pos, div_lt_iff₀ ht, div_lt_iff₀ hμ, mul_comm]
  have e2 : 0 < x - -5 - (t - t0) * μ ↔ passTime (-5) x t μ < t0 := by
    unfold passTime
    rw [sub_lt_comm, lt_div_iff₀ hμ, sub_pos]
  have g1 := if_congr e1 (rfl : (1 : ℝ) = 1) (rfl : (0 : ℝ) = 0)
  have g2 := if_congr e2 (rfl : (1 : ℝ) = 1) (rfl : (0 : ℝ) = 0)
  unfold heavisideZero
  rw [g1, g2]
  by_cases a1 : 0 < passTime (-5) x t μ <;> by_cases a2 : passTime (-5) x t μ < t0 <;>
    simp only [a1, a2, if_true, if_false, and_self, and_true, and_false, mul_one, mul_zero]

/-- C91: in a slab of half width 5 the benchmark for the moving-shock problem and the uncollided
flux used in the solve agree up to `exp (-40)`, except for particles emitted exactly when the
source is switched on or off.

Missing from the full claim: other half widths, for which it is false (`c91_other_width`). -/
theorem c91_angular_partial {c : UncollidedConfig} (hx0 : c.x0 = 5) {μ t x : ℝ} (hμ : μ ≠ 0)
    (ht : 0 < t) (hx : -5 ≤ x)
    (hon : 0 < μ → passTime (-5) x t μ < -1e-10 ∨ 0 < passTime (-5) x t μ)
    (hoff : 0 < μ → passTime (-5) x t μ ≠ c.t0) :
    |sedovBench c.erf c.v0 c.t0 μ t x - sedovIntegrand c μ t x| ≤ exp (-40) := by
  rcases lt_or_gt_of_ne hμ with h | h
  · rw [c90_no_backward h, sub_zero]
    unfold sedovBench
    simp only
    rw [if_neg (not_lt.mpr h.le)]
    split_ifs <;> simp only [abs_zero] <;> positivity
  · have hE : sedovIntegrand c μ t x = exp (-sedovBenchMfp c.erf c.v0 μ t x / μ) *
        emission c.t0 (passTime (-5) x t μ) := by
      have hp := heaviside_pair (c := c) (x := x) h ht.le (by rw [hx0]; exact hx)
      rw [hx0] at hp
      rw [sedovBench_mfp hx0, mul_assoc, hp]
    unfold sedovBench
    simp only
    by_cases h40 : sedovBenchMfp c.erf c.v0 μ t x / μ > 40
    · rw [if_pos h40, zero_sub, abs_neg, hE]
      have h1 : exp (-sedovBenchMfp c.erf c.v0 μ t x / μ) ≤ exp (-40) := by
        refine exp_le_exp.mpr ?_
        rw [neg_div]
        linarith
      have h2 : emission c.t0 (passTime (-5) x t μ) = 0 ∨
          emission c.t0 (passTime (-5) x t μ) = 1 := by
        unfold emission
        split_ifs
        · exact Or.inr rfl
        · exact Or.inl rfl
      rcases h2 with h2 | h2 <;> rw [h2]
      · rw [mul_zero, abs_zero]; positivity
      · rw [mul_one, abs_of_pos (exp_pos _)]; exact h1
    · rw [if_neg h40, if_pos h, mul_assoc, heavisideZero_pair h ht hx, hE]
      have e : emission c.t0 (passTime (-5) x t μ) =
          if 0 < passTime (-5) x t μ ∧ passTime (-5) x t μ < c.t0 then 1 else 0 := by
        unfold emission
        refine if_congr ?_ rfl rfl
        have h3 := hon h
        have h4 := hoff h
        constructor
        · rintro ⟨a, b⟩
          refine ⟨?_, lt_of_le_of_ne b h4⟩
          rcases h3 with h3 | h3
          · exact absurd a (not_le.mpr h3)
          · exact h3
        · rintro ⟨a, b⟩
          exact ⟨by linarith [show (0 : ℝ) ≤ 1e-10 by norm_num], b.le⟩
      rw [e, sub_self, abs_zero]
      positivity

/-- C91: with the raw weights, which sum to two, the benchmark scalar flux agrees with the
uncollided scalar flux, which uses the normalised weights. -/
theorem c91_scalar_partial {c : UncollidedConfig} (hx0 : c.x0 = 5) {t x : ℝ}
    (ht : 0 < t) (hx : -5 ≤ x) (mus ws : List ℝ) (hlen : mus.length = ws.length)
    (hws : ws.sum = 2) (hang : c.angles = mus.zip (normalizedWeights ws))
    (hmu : ∀ μ ∈ mus, μ ≠ 0)
    (hon : ∀ μ ∈ mus, 0 < μ → passTime (-5) x t μ < -1e-10 ∨ 0 < passTime (-5) x t μ)
    (hoff : ∀ μ ∈ mus, 0 < μ → passTime (-5) x t μ ≠ c.t0) :
    |sedovBenchPhi c.erf c.v0 c.t0 t x (mus.zip ws) - fakeSedov c x t| ≤
      (ws.map fun w => |w|).sum * exp (-40) := by
  unfold sedovBenchPhi fakeSedov
  rw [hang, normalizedWeights, hws]
  clear hang hws
  induction mus generalizing ws with
  | nil =>
    rw [List.length_nil] at hlen
    rw [List.eq_nil_of_length_eq_zero hlen.symm]
    simp
  | cons μ mus ih =>
    cases ws with
    | nil => simp at hlen
    | cons w ws =>
      have ih' := ih (ws := ws) (by simpa using hlen) (fun p hp => hmu p (List.mem_cons_of_mem _ hp))
        (fun p hp => hon p (List.mem_cons_of_mem _ hp))
        (fun p hp => hoff p (List.mem_cons_of_mem _ hp))
      have h0 := c91_angular_partial hx0 (hmu μ List.mem_cons_self) ht hx
        (hon μ List.mem_cons_self) (hoff μ List.mem_cons_self)
      simp only [List.map_cons, List.zip_cons_cons, List.sum_cons]
      have e : ∀ b i B I : ℝ, w * b + B - 2 * (w / 2 * i + I) = w * (b - i) + (B - 2 * I) := by
        intros; ring
      rw [e, add_mul]
      refine (abs_add_le _ _).trans (add_le_add ?_ ih')
      rw [abs_mul]
      exact mul_le_mul_of_nonneg_left h0 (abs_nonneg w)

/-- C91 fails for other half widths, because the benchmark has the left end at -5 whatever the
problem is: in the slab `[-1, 1]` at time 1 particles have reached the origin, the benchmark is
zero there. -/
theorem c91_other_width :
    sedovBench Verif.Spec.erf (1 / 10) 20 1 2 0 = 0 ∧
      0 < sedovIntegrand (sedovConfig (1 / 10) 1) 1 2 0 := by
  constructor
  · unfold sedovBench
    simp only
    split_ifs with h1 h2
    · rfl
    · rw [mul_assoc, heavisideZero_pair (by norm_num) (by norm_num) (by norm_num), if_neg, mul_zero]
      norm_num [passTime]
    · rfl
  · rw [c90_beam_partial (c := sedovConfig (1 / 10) 1) rfl (o := sedovOpacity (1 / 10)) rfl rfl
      (by norm_num) (by norm_num [sedovConfig]) (by norm_num) (by norm_num [sedovConfig])
      (by norm_num [sedovConfig, passTime]), beam]
    have : emission (sedovConfig (1 / 10) 1).t0 (passTime (-(sedovConfig (1 / 10) 1).x0) 0 2 1) = 1 := by
      norm_num [emission, passTime, sedovConfig]
    rw [this, one_mul]
    exact exp_pos _

example : |sedovBench Verif.Spec.erf (1 / 10) 20 (1 / 2) 18 3 -
    sedovIntegrand (sedovConfig (1 / 10) 5) (1 / 2) 18 3| ≤ exp (-40) :=
  c91_angular_partial (c := sedovConfig (1 / 10) 5) rfl (by norm_num) (by norm_num) (by norm_num)
    (fun _ => Or.inr (by norm_num [passTime])) (fun _ => by norm_num [passTime, sedovConfig])

example : |sedovBenchPhi Verif.Spec.erf (1 / 10) 20 18 3
      ([-1, -1 / 2, 1 / 2, 1].zip [1 / 2, 1 / 2, 1 / 2, 1 / 2]) -
    fakeSedov (sedovConfig (1 / 10) 5) 3 18| ≤
      ([1 / 2, 1 / 2, 1 / 2, 1 / 2].map fun w : ℝ => |w|).sum * exp (-40) :=
  c91_scalar_partial (c := sedovConfig (1 / 10) 5) rfl (by norm_num) (by norm_num) _ _ rfl
    (by norm_num)
    (by norm_num [sedovConfig, normalizedWeights])
    (by
      intro μ hμ
      simp only [List.mem_cons, List.not_mem_nil, or_false] at hμ
      rcases hμ with h | h | h | h <;> rw [h] <;> norm_num)
    (by
      intro μ hμ _
      simp only [List.mem_cons, List.not_mem_nil, or_false] at hμ
      refine Or.inr ?_
      rcases hμ with h | h | h | h <;> rw [h] <;> norm_num [passTime])
    (by
      intro μ hμ _
      simp only [List.mem_cons, List.not_mem_nil, or_false] at hμ
      rcases hμ with h | h | h | h <;> rw [h] <;> norm_num [passTime, sedovConfig])

/-! ### C92 -/

/-- The closed form of the benchmark is the optical depth of a Gaussian opacity. -/
theorem gaussDepth_eq {σ : ℝ} (hσ : 0 < σ) (x1 x2 : ℝ) :
    gaussDepth Verif.Spec.erf x1 x2 σ = ∫ s in x1..x2, exp (-s ^ 2 / (2 * σ ^ 2)) := by
  have hpi : (0 : ℝ) < √π := Real.sqrt_pos.mpr Real.pi_pos
  have h2 : (0 : ℝ) < √2 := Real.sqrt_pos.mpr (by norm_num)
  have h22 : √2 ^ 2 = (2 : ℝ) := sq_sqrt (by norm_num)
  have hder : ∀ s : ℝ, HasDerivAt (fun s => √(π / 2) * σ * Verif.Spec.erf (s / √2 / σ))
      (exp (-s ^ 2 / (2 * σ ^ 2))) s := by
    intro s
    have h1 : HasDerivAt (fun s : ℝ => s / √2 / σ) (1 / √2 / σ) s :=
      ((hasDerivAt_id s).div_const _).div_const _
    refine (((hasDerivAt_erf _).comp s h1).const_mul (√(π / 2) * σ)).congr_deriv ?_
    rw [show -(s / √2 / σ) ^ 2 = -s ^ 2 / (2 * σ ^ 2) by
      rw [div_pow, div_pow, h22]; field_simp, sqrt_div pi_pos.le]
    field_simp
    rw [h22]
  have hcont : Continuous fun s : ℝ => exp (-s ^ 2 / (2 * σ ^ 2)) := by fun_prop
  rw [intervalIntegral.integral_eq_sub_of_hasDerivAt (fun s _ => hder s)
    (hcont.intervalIntegrable _ _)]
  unfold gaussDepth
  ring

/-- C92: for a quadrature made of pairs of opposite directions the benchmark is the scalar flux of
the steady beam through the left end, attenuated by a Gaussian opacity of width 1/2.

Missing from the full claim: that this is the opacity of the solver, which is false
(`c92_other_opacity`). -/
theorem c92_beam_partial (x0 x t : ℝ) (half : List (ℝ × ℝ)) (hpos : ∀ q ∈ half, 0 < q.1) :
    steadyGaussian Verif.Spec.erf x0 x (half.flatMap fun q => [(q.1, q.2), (-q.1, q.2)]) =
      (half.map fun q => q.2 *
        beam (fun s _ => exp (-s ^ 2 / (2 * 0.5 ^ 2))) (fun _ => 1) (-x0) x t q.1).sum := by
  unfold steadyGaussian
  induction half with
  | nil => simp
  | cons q l ih =>
    have h0 := hpos q List.mem_cons_self
    have ih' := ih fun p hp => hpos p (List.mem_cons_of_mem _ hp)
    rw [List.flatMap_cons, List.map_append, List.sum_append, ih']
    simp only [List.map_cons, List.map_nil, List.sum_cons, List.sum_nil]
    rw [if_neg (not_lt.mpr h0.le), if_pos (neg_lt_zero.mpr h0), zero_add, add_zero, beam,
      opticalDepth, gaussDepth_eq (by norm_num), one_mul, div_neg]

/-- C92 fails: the Gaussian opacity of the solver has width 2, not 1/2, and the benchmark differs
from the beam attenuated by it. -/
theorem c92_other_opacity {o : OpacityConfig} (ho : o.func = .gaussian) :
    steadyGaussian Verif.Spec.erf 1 1 [(1, 1), (-1, 1)] ≠
      beam (sigmaFunction o) (fun _ => 1) (-1) 1 0 1 := by
  have h := c92_beam_partial 1 1 0 [(1, 1)] (by simp)
  simp only [List.flatMap_cons, List.flatMap_nil, List.append_nil, List.map_cons, List.map_nil,
    List.sum_cons, List.sum_nil, add_zero, one_mul] at h
  rw [h]
  unfold beam opticalDepth
  simp only [one_mul, div_one]
  intro heq
  have h1 := neg_injective (exp_injective heq)
  have h2 : ∫ s in (-1 : ℝ)..1, exp (-s ^ 2 / (2 * 0.5 ^ 2)) <
      ∫ s in (-1 : ℝ)..1, sigmaFunction o s (passTime s 1 0 1) := by
    have e : (fun s : ℝ => sigmaFunction o s (passTime s 1 0 1)) =
        fun s => exp (-s ^ 2 / (2 * 2 ^ 2)) := by
      funext s
      unfold sigmaFunction
      rw [ho]
    rw [e]
    refine intervalIntegral.integral_lt_integral_of_continuousOn_of_le_of_exists_lt (by norm_num)
      (by fun_prop) (by fun_prop) (fun s _ => ?_) ⟨1, by norm_num, ?_⟩
    · refine exp_le_exp.mpr ?_
      have := sq_nonneg s
      norm_num
      linarith
    · exact exp_lt_exp.mpr (by norm_num)
  exact h2.ne h1

example : steadyGaussian Verif.Spec.erf 5 2
    ([(1 / 3, 1 / 2), (2 / 3, 1 / 2)].flatMap fun q => [(q.1, q.2), (-q.1, q.2)]) =
      ([(1 / 3, 1 / 2), (2 / 3, 1 / 2)].map fun q : ℝ × ℝ => q.2 *
        beam (fun s _ => exp (-s ^ 2 / (2 * 0.5 ^ 2))) (fun _ => 1) (-5) 2 7 q.1).sum :=
  c92_beam_partial 5 2 7 _ (by
    intro q hq
    simp only [List.mem_cons, List.not_mem_nil, or_false] at hq
    rcases hq with h | h <;> rw [h] <;> norm_num)

end Verif.Props
