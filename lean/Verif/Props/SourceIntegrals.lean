import Verif.Props.UncollidedMore
import Verif.Spec.Transport
import Verif.Model.Opacity
import Mathlib.Topology.ContinuousMap.Weierstrass
import Mathlib.MeasureTheory.Integral.DominatedConvergence

/-!
C66, C67: the fluxes of Gaussian sources against the integrals over the times of emission.
C144: the flux of the point pulse in a sphere.
-/

namespace Verif.Props

open MeasureTheory Real Set Verif.Spec Verif.Model Verif.Lemmas Polynomial

/-! ### Integrals over the times of emission -/

theorem quadExact_weights {q : List (ℝ × ℝ)} {n : ℕ} (h : QuadExact q n) : (q.map fun r => r.2).sum = 2 := by
  have := h 1 (by simp)
  simp only [eval_one, mul_one] at this
  rw [this]
  simp; norm_num

/-- A rule with weights that are not negative is as good as the best polynomial. -/
theorem timeQuad_near {c : UncollidedConfig} {n : ℕ} (hq : QuadExact c.tQuad n) (hw : ∀ r ∈ c.tQuad, 0 ≤ r.2)
    (hx : ∀ r ∈ c.tQuad, -1 ≤ r.1 ∧ r.1 < 1) {b : ℝ} (hb : 0 < b) {f g : ℝ → ℝ} (hfg : ∀ τ, τ < b → f τ = g τ)
    (hg : ContinuousOn g (Icc 0 b)) {p : ℝ[X]} (hp : p.natDegree ≤ n) {ε : ℝ} (he : ∀ τ ∈ Icc 0 b, |g τ - p.eval τ| ≤ ε) :
    |timeQuad c f 0 b - ∫ τ in (0 : ℝ)..b, g τ| ≤ 2 * b * ε := by
  set P : ℝ[X] := p.comp (Polynomial.C (b / 2) * X + Polynomial.C (b / 2)) with hP
  have hev : ∀ s, P.eval s = p.eval (b / 2 * s + b / 2) := fun s => by simp [hP]
  have hdeg : P.natDegree ≤ n := by
    refine natDegree_comp_le.trans ?_
    have : (Polynomial.C (b / 2) * X + Polynomial.C (b / 2) : ℝ[X]).natDegree ≤ 1 := natDegree_linear_le
    calc p.natDegree * _ ≤ p.natDegree * 1 := Nat.mul_le_mul_left _ this
      _ ≤ n := by omega
  have hPi := hq P hdeg
  have hint : ∫ τ in (0 : ℝ)..b, p.eval τ = b / 2 * (c.tQuad.map fun r => r.2 * P.eval r.1).sum := by
    rw [hPi]
    simp only [hev]
    rw [intervalIntegral.integral_comp_mul_add (fun τ => p.eval τ) (by positivity)]
    rw [smul_eq_mul, ← mul_assoc, mul_inv_cancel₀ (by positivity), one_mul]
    congr 1 <;> ring
  have h1 : |timeQuad c f 0 b - ∫ τ in (0 : ℝ)..b, p.eval τ| ≤ b * ε := by
    rw [hint]
    unfold timeQuad
    rw [show (b - 0) / 2 = b / 2 by ring, ← mul_sub, abs_mul, abs_of_pos (by positivity : (0 : ℝ) < b / 2)]
    have key : ∀ l : List (ℝ × ℝ), (∀ r ∈ l, 0 ≤ r.2) → (∀ r ∈ l, -1 ≤ r.1 ∧ r.1 < 1) →
        |(l.map fun q => q.2 * f (b / 2 * q.1 + (0 + b) / 2)).sum - (l.map fun r => r.2 * P.eval r.1).sum| ≤
          (l.map fun r => r.2).sum * ε := by
      intro l
      induction l with
      | nil => simp
      | cons a l ih =>
        intro hw hx
        have ih := ih (fun r hr => hw r (List.mem_cons_of_mem _ hr)) (fun r hr => hx r (List.mem_cons_of_mem _ hr))
        have ha := hw a List.mem_cons_self
        have hxa := hx a List.mem_cons_self
        have hlt : b / 2 * a.1 + b / 2 < b := by nlinarith [hxa.2]
        have hge : 0 ≤ b / 2 * a.1 + b / 2 := by nlinarith [hxa.1]
        have h := he _ ⟨hge, hlt.le⟩
        simp only [List.map_cons, List.sum_cons]
        rw [zero_add, hfg _ hlt, hev]
        have e : ∀ u v s w : ℝ, a.2 * u + s - (a.2 * v + w) = a.2 * (u - v) + (s - w) := fun u v s w => by ring
        rw [e, add_mul]
        refine (abs_add_le _ _).trans (add_le_add ?_ ?_)
        · rw [abs_mul, abs_of_nonneg ha]
          exact mul_le_mul_of_nonneg_left h ha
        · simpa using ih
    have := key c.tQuad hw hx
    rw [quadExact_weights hq] at this
    calc _ ≤ b / 2 * (2 * ε) := mul_le_mul_of_nonneg_left this (by positivity)
      _ = b * ε := by ring
  have h2 : |(∫ τ in (0 : ℝ)..b, p.eval τ) - ∫ τ in (0 : ℝ)..b, g τ| ≤ b * ε := by
    rw [← intervalIntegral.integral_sub (p.continuous.intervalIntegrable _ _)
      ((hg.mono (by rw [uIcc_of_le hb.le])).intervalIntegrable)]
    have := intervalIntegral.norm_integral_le_of_norm_le_const (a := 0) (b := b)
      (f := fun τ => p.eval τ - g τ) (C := ε) fun τ hτ => by
        rw [uIoc_of_le hb.le] at hτ
        rw [Real.norm_eq_abs, abs_sub_comm]
        exact he τ ⟨hτ.1.le, hτ.2⟩
    rw [Real.norm_eq_abs, sub_zero, abs_of_pos hb] at this
    linarith
  calc _ ≤ _ := abs_sub_le _ (∫ τ in (0 : ℝ)..b, p.eval τ) _
    _ ≤ 2 * b * ε := by linarith

/-- Rules of growing exactness converge. -/
theorem timeQuad_limit {c : ℕ → UncollidedConfig} (hq : ∀ n, QuadExact (c n).tQuad n)
    (hw : ∀ n, ∀ r ∈ (c n).tQuad, 0 ≤ r.2) (hx : ∀ n, ∀ r ∈ (c n).tQuad, -1 ≤ r.1 ∧ r.1 < 1) {b : ℝ} (hb : 0 < b)
    {f : ℕ → ℝ → ℝ} {g : ℝ → ℝ} (hfg : ∀ n τ, τ < b → f n τ = g τ) (hg : ContinuousOn g (Icc 0 b)) :
    Filter.Tendsto (fun n => timeQuad (c n) (f n) 0 b) Filter.atTop (nhds (∫ τ in (0 : ℝ)..b, g τ)) := by
  rw [Metric.tendsto_atTop]
  intro δ hδ
  obtain ⟨p, hp⟩ := exists_polynomial_near_of_continuousOn 0 b g hg (δ / (4 * b)) (by positivity)
  refine ⟨p.natDegree, fun n hn => ?_⟩
  have := timeQuad_near (hq n) (hw n) (hx n) hb (hfg n) hg hn (ε := δ / (4 * b)) fun τ hτ => by
    rw [abs_sub_comm]; exact (hp τ hτ).le
  rw [Real.dist_eq]
  calc _ ≤ 2 * b * (δ / (4 * b)) := this
    _ = δ / 2 := by field_simp; norm_num
    _ < δ := by linarith

theorem continuous_gaussPulse (x t σ : ℝ) : Continuous fun τ => gaussPulse x (t - τ) σ := by
  unfold gaussPulse
  refine Continuous.mul (by fun_prop) (Continuous.div_const ?_ 2)
  exact intervalIntegral.continuous_parametric_intervalIntegral_of_continuous' (by fun_prop) _ _

/-- Slab runs with a Gaussian source and uncollided treatment. -/
structure GaussianRun (c : UncollidedConfig) : Prop where
  on : c.uncollided = true
  slab : c.geometry = .slab
  plane : c.st 0 ≠ 1
  square : c.st 1 ≠ 1
  source : c.st 2 ≠ 1
  pulse : c.st 3 ≠ 1
  gauss : c.st 5 = 1

theorem GaussianRun.withRule {c : UncollidedConfig} (h : GaussianRun c) (q : List (ℝ × ℝ)) :
    GaussianRun { c with tQuad := q } := ⟨h.on, h.slab, h.plane, h.square, h.source, h.pulse, h.gauss⟩

theorem GaussianRun.solution {c : UncollidedConfig} (h : GaussianRun c) (prev xs : List ℝ) (t : ℝ) :
    uncollidedSolution c prev xs t = if c.nAng = 2 then xs.map fun x => gaussianS2 c x t * c.strength
      else xs.map fun x => gaussianSource c x t * c.strength := by
  simp only [uncollidedSolution, h.on, h.slab, h.plane, h.square, h.source, h.pulse, h.gauss, if_true, if_false]

/-- C66: with more than two directions the flux of a Gaussian source is that of all pulses emitted until now, up
to what the rule for the times leaves: with weights that are not negative, at most twice the distance of the flux
from polynomials of the rule's degree, times the duration. -/
theorem c66_source_error {c : UncollidedConfig} (h : GaussianRun c) (hN : c.nAng ≠ 2) (herf : c.erf = erf)
    (hσ : 0 < c.sigma) {n : ℕ} (hq : QuadExact c.tQuad n) (hw : ∀ r ∈ c.tQuad, 0 ≤ r.2)
    (hx : ∀ r ∈ c.tQuad, -1 ≤ r.1 ∧ r.1 < 1) {t : ℝ} (ht : 0 < t) (ht0 : 0 < c.t0) {p : ℝ[X]} (hp : p.natDegree ≤ n)
    {x ε : ℝ} (he : ∀ τ ∈ Icc 0 (min t c.t0), |gaussPulse x (t - τ) c.sigma - p.eval τ| ≤ ε) (prev : List ℝ) :
    ∃ v, uncollidedSolution c prev [x] t = [c.strength * v] ∧
      |v - ∫ τ in (0 : ℝ)..min t c.t0, gaussPulse x (t - τ) c.sigma| ≤ 2 * min t c.t0 * ε := by
  refine ⟨gaussianSource c x t, ?_, ?_⟩
  · simp [uncollidedSolution, h.on, h.slab, h.plane, h.square, h.source, h.pulse, h.gauss, hN, mul_comm]
  · have e : gaussianSource c x t = timeQuad c (fun τ => gaussianIntegrand c t x τ * √π * c.sigma) 0 (min t c.t0) := by
      unfold gaussianSource timeQuad
      rw [mul_assoc, mul_assoc, ← List.sum_map_mul_right]
      simp only [mul_assoc]
    rw [e]
    exact timeQuad_near hq hw hx (lt_min ht ht0)
      (fun τ hτ => c66_gaussian_integrand c herf x (hτ.trans_le (min_le_left _ _)) hσ)
      (continuous_gaussPulse x t c.sigma).continuousOn hp he

/-- C66: with Gauss rules of more and more points for the times it converges to that flux. -/
theorem c66_source_limit {c : UncollidedConfig} (h : GaussianRun c) (hN : c.nAng ≠ 2) (herf : c.erf = erf)
    (hσ : 0 < c.sigma) {q : ℕ → List (ℝ × ℝ)} (hq : ∀ n, QuadExact (q n) n) (hw : ∀ n, ∀ r ∈ q n, 0 ≤ r.2)
    (hx : ∀ n, ∀ r ∈ q n, -1 ≤ r.1 ∧ r.1 < 1) {t : ℝ} (ht : 0 < t) (ht0 : 0 < c.t0) (x : ℝ) (prev : List ℝ) :
    ∃ v : ℕ → ℝ, (∀ n, uncollidedSolution { c with tQuad := q n } prev [x] t = [c.strength * v n]) ∧
      Filter.Tendsto v Filter.atTop (nhds (∫ τ in (0 : ℝ)..min t c.t0, gaussPulse x (t - τ) c.sigma)) := by
  refine ⟨fun n => gaussianSource { c with tQuad := q n } x t, fun n => ?_, ?_⟩
  · simpa [hN, mul_comm] using (h.withRule (q n)).solution prev [x] t
  · have e : (fun n => gaussianSource { c with tQuad := q n } x t) =
        fun n => timeQuad { c with tQuad := q n } (fun τ => gaussianIntegrand c t x τ * √π * c.sigma) 0 (min t c.t0) := by
      funext n
      unfold gaussianSource timeQuad
      rw [mul_assoc, mul_assoc, ← List.sum_map_mul_right]
      simp only [mul_assoc]
      rfl
    rw [e]
    exact timeQuad_limit hq hw hx (lt_min ht ht0)
      (fun n τ hτ => c66_gaussian_integrand c herf x (hτ.trans_le (min_le_left _ _)) hσ)
      (continuous_gaussPulse x t c.sigma).continuousOn

/-- C67: with two directions and a source of width up to 5 the flux is the integral over the two rays. -/
theorem c67_narrow {c : UncollidedConfig} (h : GaussianRun c) (hN : c.nAng = 2) (herf : c.erf = erf)
    (hσ : 0 < c.sigma) (h5 : c.sigma ≤ 5) (t : ℝ) (prev xs : List ℝ) :
    uncollidedSolution c prev xs t = xs.map fun x => c.strength * gaussSourceS2 x t c.sigma c.t0 := by
  simp only [uncollidedSolution, h.on, h.slab, h.plane, h.square, h.source, h.pulse, h.gauss, hN, if_true, if_false]
  refine List.map_congr_left fun x _ => ?_
  rw [gaussianS2, if_pos h5, herf, c67_closed_form x t c.t0 hσ, mul_comm]

/-- C67: with a wider source it converges to it with the number of points for the times. -/
theorem c67_wide {c : UncollidedConfig} (h : GaussianRun c) (hN : c.nAng = 2) (h5 : 5 < c.sigma)
    {q : ℕ → List (ℝ × ℝ)} (hq : ∀ n, QuadExact (q n) n) (hw : ∀ n, ∀ r ∈ q n, 0 ≤ r.2)
    (hx : ∀ n, ∀ r ∈ q n, -1 ≤ r.1 ∧ r.1 < 1) {t : ℝ} (ht : 0 < t) (ht0 : 0 < c.t0) (x : ℝ) (prev : List ℝ) :
    ∃ v : ℕ → ℝ, (∀ n, uncollidedSolution { c with tQuad := q n } prev [x] t = [c.strength * v n]) ∧
      Filter.Tendsto v Filter.atTop (nhds (gaussSourceS2 x t c.sigma c.t0)) := by
  refine ⟨fun n => gaussianS2 { c with tQuad := q n } x t, fun n => ?_, ?_⟩
  · simpa [hN, mul_comm] using (h.withRule (q n)).solution prev [x] t
  · simp only [gaussianS2, if_neg h5.not_ge]
    exact timeQuad_limit hq hw hx (lt_min ht ht0) (fun n τ _ => c67_thick_integrand c.sigma t x τ)
      (Continuous.continuousOn (by fun_prop))

/-! ### C90 -/

/-- C90: at the shock itself the opacity counts both sides, and is larger than anywhere else. -/
theorem c90_front {o : OpacityConfig} (ho : o.func = .fakeSedov) (t : ℝ) :
    sigmaFunction o (-(o.sigmaV * t)) t = exp (-(1 / 4)) + 1 / 5 ∧
      ∀ x, x ≠ -(o.sigmaV * t) → sigmaFunction o x t < exp (-(1 / 4)) := by
  have h5 : (1 : ℝ) / 5 < exp (-(1 / 4)) := by
    have := add_one_le_exp (-(1 / 4) : ℝ)
    linarith
  constructor
  · simp only [sigmaFunction, ho, xi2, heavisideVec]
    norm_num
  · intro x hx
    have hn : ∀ y : ℝ, y < 0 → heavisideVec y = 0 := fun y hy => by rw [heavisideVec, if_pos hy]
    have hp : ∀ y : ℝ, 0 ≤ y → heavisideVec y = 1 := fun y hy => by rw [heavisideVec, if_neg hy.not_gt]
    have e : xi2 x t 1 o.sigmaV = -x - 1 - o.sigmaV * t := rfl
    simp only [sigmaFunction, ho, e]
    rcases lt_or_gt_of_ne hx with h | h
    · rw [hn _ (by linarith), hp _ (by linarith)]
      norm_num
      linarith
    · rw [hp _ (by linarith), hn _ (by linarith)]
      norm_num
      nlinarith

/-! ### C144 -/

/-- C144: in a sphere the flux of the point pulse is not zero only within `1e-10` of the sphere the particles have
reached, and integrated over space holds `2e-10 / t` of the particles that have not collided. -/
theorem c144_content {c : UncollidedConfig} (hu : c.uncollided = true) (hg : c.geometry = .sphere) (h0 : c.st 0 = 1)
    {t : ℝ} (ht : 1e-10 < t) (prev : List ℝ) :
    ∃ f : ℝ → ℝ, (∀ xs, uncollidedSolution c prev xs t = xs.map f) ∧ (∀ r, 1e-10 < |r - t| → f r = 0) ∧
      ∀ R, t + 1e-10 ≤ R → ∫ r in (0 : ℝ)..R, 4 * π * r ^ 2 * f r = c.strength * exp (-t) * (2e-10 / t) := by
  refine ⟨fun r => pointSource r t * c.strength, fun xs => ?_, fun r hr => ?_, fun R hR => ?_⟩
  · simp [uncollidedSolution, hu, hg, h0]
  · simp [pointSource, hr.not_ge]
  · have hd : (0 : ℝ) < 1e-10 := by norm_num
    set d : ℝ := 1e-10 with hdd
    have ht0 : 0 < t := hd.trans ht
    have e : ∀ r, 4 * π * r ^ 2 * (pointSource r t * c.strength) =
        (Icc (t - d) (t + d)).indicator (fun r => c.strength * exp (-t) / t ^ 2 * r) r := by
      intro r
      unfold pointSource
      by_cases hr : |r - t| ≤ d
      · rw [if_pos hr, indicator_of_mem]
        · have : 0 < r := by linarith [(abs_le.1 hr).1]
          field_simp
        · exact ⟨by linarith [(abs_le.1 hr).1], by linarith [(abs_le.1 hr).2]⟩
      · rw [if_neg hr, indicator_of_notMem, zero_mul, mul_zero]
        exact fun hm => hr (abs_le.2 ⟨by linarith [hm.1], by linarith [hm.2]⟩)
    have hsub : Icc (t - d) (t + d) ⊆ Ioc 0 R := fun r hr => ⟨by linarith [hr.1], hr.2.trans hR⟩
    simp only [e]
    rw [intervalIntegral.integral_of_le (by linarith), setIntegral_indicator measurableSet_Icc,
      inter_eq_right.2 hsub, integral_Icc_eq_integral_Ioc,
      ← intervalIntegral.integral_of_le (by linarith), intervalIntegral.integral_const_mul, integral_id]
    have : (2e-10 : ℝ) = 2 * d := by rw [hdd]; norm_num
    rw [this]
    field_simp
    ring

/-- A shock that moves with speed one. -/
example (o : OpacityConfig) (ho : o.func = .fakeSedov) (hv : o.sigmaV = 1) :
    sigmaFunction o (-2) 2 = exp (-(1 / 4)) + 1 / 5 := by
  have := (c90_front ho 2).1
  rwa [hv, one_mul] at this

/-- A rule of two points for the times. -/
example : ∃ v, uncollidedSolution { exampleUncollided [0, 0, 0, 0, 0, 1] with tQuad := [(-1 / 2, 1), (1 / 2, 1)] } [] [3] 2 =
    [(1 : ℝ) * v] ∧ |v - ∫ τ in (0 : ℝ)..min 2 5, gaussPulse 3 (2 - τ) (1 / 2)| ≤ 2 * min 2 5 * 1 := by
  refine c66_source_error (c := { exampleUncollided [0, 0, 0, 0, 0, 1] with tQuad := [(-1 / 2, 1), (1 / 2, 1)] })
    ⟨rfl, rfl, by decide, by decide, by decide, by decide, rfl⟩ (by simp [exampleUncollided]) rfl
    (by norm_num [exampleUncollided]) (n := 1) ?_ ?_ ?_ (by norm_num) (by norm_num [exampleUncollided]) (p := 0)
    (by simp) (fun τ hτ => ?_) []
  · intro p hp
    obtain ⟨a, b, rfl⟩ := exists_eq_X_add_C_of_natDegree_le_one hp
    have : ∫ x in (-1 : ℝ)..1, (C a * X + C b : ℝ[X]).eval x = 2 * b := by
      simp only [eval_add, eval_mul, eval_C, eval_X]
      rw [intervalIntegral.integral_add (by apply Continuous.intervalIntegrable; fun_prop)
        (by apply Continuous.intervalIntegrable; fun_prop), intervalIntegral.integral_const_mul, integral_id,
        intervalIntegral.integral_const]
      norm_num
    rw [this]
    simp
    ring
  · simp
  · norm_num
  · have h2 : τ ≤ 2 := hτ.2.trans (min_le_left _ _)
    rw [eval_zero, sub_zero]
    unfold gaussPulse
    rw [abs_mul, abs_of_pos (exp_pos _)]
    have h1 : exp (-(2 - τ)) ≤ 1 := exp_le_one_iff.2 (by linarith)
    have h3 := intervalIntegral.norm_integral_le_of_norm_le_const (a := -1) (b := 1)
      (f := fun μ : ℝ => exp (-((3 - μ * (2 - τ)) ^ 2 / (1 / 2) ^ 2))) (C := 1) fun μ _ => by
        rw [Real.norm_eq_abs, abs_of_pos (exp_pos _)]
        exact exp_le_one_iff.2 (by have : 0 ≤ (3 - μ * (2 - τ)) ^ 2 / (1 / 2) ^ 2 := by positivity
                                   linarith)
    rw [Real.norm_eq_abs] at h3
    norm_num at h3
    rw [abs_div, abs_two]
    simp only [exampleUncollided] at *
    calc _ ≤ (1 : ℝ) * 1 := by
          refine mul_le_mul h1 ?_ (by positivity) (by norm_num)
          norm_num
          linarith
      _ = 1 := by norm_num

example : ∃ f : ℝ → ℝ, (∀ xs, uncollidedSolution { exampleUncollided [1, 0, 0, 0, 0, 0] with geometry := .sphere } [] xs 1 =
    xs.map f) ∧ (∀ r, 1e-10 < |r - 1| → f r = 0) ∧
      ∀ R, 1 + 1e-10 ≤ R → ∫ r in (0 : ℝ)..R, 4 * π * r ^ 2 * f r = 1 * exp (-1) * (2e-10 / 1) :=
  c144_content (c := { exampleUncollided [1, 0, 0, 0, 0, 0] with geometry := .sphere }) rfl rfl rfl (by norm_num) []

end Verif.Props
