import Verif.Spec.Beam
import Verif.Model.Uncollided
import Verif.Model.Opacity
import Verif.Props.UncollidedMore
import Mathlib.MeasureTheory.Integral.IntervalIntegral.FundThmCalculus
import Mathlib.Analysis.Complex.ExponentialBounds

/-!
The uncollided flux of the moving-shock boundary problem (C90).
-/

namespace Verif.Props

open Verif.Model Verif.Spec Real Set MeasureTheory

/-- Where the ray that leaves `a` at time `te` in direction `μ` meets the shock at `-v t`. -/
noncomputable def shockMeet (v a te μ : ℝ) : ℝ := (v * a - te * v * μ) / (v + μ)

theorem sedov_phase {v a te μ : ℝ} (hμ : 0 < μ) (hv : 0 < v + μ) (s : ℝ) :
    s + v * (te + (s - a) / μ) = (v + μ) / μ * (s - shockMeet v a te μ) := by
  unfold shockMeet
  field_simp
  ring

theorem passTime_ray {a x t μ : ℝ} (s : ℝ) :
    passTime s x t μ = ((a - x) / μ + t) + (s - a) / μ := by
  unfold passTime
  rw [add_right_comm, ← add_div]
  rw [show a - x + (s - a) = -(x - s) by ring, neg_div]
  ring

theorem sigma_before {o : OpacityConfig} (ho : o.func = .fakeSedov) {s τ : ℝ}
    (h : s + o.sigmaV * τ < 0) : sigmaFunction o s τ = 0.2 := by
  unfold sigmaFunction
  rw [ho]
  have h1 : heavisideVec (-(xi2 s τ 1 o.sigmaV) - 1) = 0 :=
    if_pos (by unfold xi2; linarith)
  have h2 : heavisideVec (xi2 s τ 1 o.sigmaV + 1) = 1 :=
    if_neg (by unfold xi2; linarith)
  show exp (-(xi2 s τ 1 o.sigmaV) ^ 2 / 2 ^ 2) * heavisideVec (-(xi2 s τ 1 o.sigmaV) - 1)
      + 0.2 * heavisideVec (xi2 s τ 1 o.sigmaV + 1) = _
  rw [h1, h2]
  ring

theorem sigma_behind {o : OpacityConfig} (ho : o.func = .fakeSedov) {s τ : ℝ}
    (h : 0 < s + o.sigmaV * τ) :
    sigmaFunction o s τ = exp (-((1 + s + o.sigmaV * τ) / 2) ^ 2) := by
  unfold sigmaFunction
  rw [ho]
  have h1 : heavisideVec (-(xi2 s τ 1 o.sigmaV) - 1) = 1 :=
    if_neg (by unfold xi2; linarith)
  have h2 : heavisideVec (xi2 s τ 1 o.sigmaV + 1) = 0 :=
    if_pos (by unfold xi2; linarith)
  show exp (-(xi2 s τ 1 o.sigmaV) ^ 2 / 2 ^ 2) * heavisideVec (-(xi2 s τ 1 o.sigmaV) - 1)
      + 0.2 * heavisideVec (xi2 s τ 1 o.sigmaV + 1) = _
  rw [h1, h2, mul_one, mul_zero, add_zero, xi2]
  congr 1
  ring

theorem hasDerivAt_sedovT1 {c : UncollidedConfig} (hc : c.erf = Verif.Spec.erf) {a te μ : ℝ}
    (hμ : 0 < μ) (hv : 0 < c.v0 + μ) (s : ℝ) :
    HasDerivAt (sedovT1 c a te μ) (exp (-((1 + s + c.v0 * (te + (s - a) / μ)) / 2) ^ 2)) s := by
  have hpi : (0 : ℝ) < √π := Real.sqrt_pos.mpr Real.pi_pos
  have h1 : HasDerivAt (fun s : ℝ => (c.v0 * (s - a) + (1 + s + te * c.v0) * μ) / (2 * μ))
      ((c.v0 + μ) / (2 * μ)) s := by
    have h2 := ((hasDerivAt_id s).sub_const a).const_mul c.v0
    have h3 := (((hasDerivAt_id s).const_add 1).add_const (te * c.v0)).mul_const μ
    have h4 := (h2.add h3).div_const (2 * μ)
    refine h4.congr_deriv ?_
    ring
  have h5 := (((hasDerivAt_erf _).comp s h1).const_mul (√π * 2 * μ)).div_const (2 * (c.v0 + μ))
  have e : (fun s => √π * 2 * μ * (Verif.Spec.erf ∘
      fun s : ℝ => (c.v0 * (s - a) + (1 + s + te * c.v0) * μ) / (2 * μ)) s / (2 * (c.v0 + μ))) =
      sedovT1 c a te μ := by
    funext s
    simp only [sedovT1, hc, Function.comp]
  rw [← e]
  refine h5.congr_deriv ?_
  have e2 : (c.v0 * (s - a) + (1 + s + te * c.v0) * μ) / (2 * μ) =
      (1 + s + c.v0 * (te + (s - a) / μ)) / 2 := by
    field_simp
    ring
  rw [e2]
  field_simp

/-- Mean free paths along the ray on the near side of the shock. -/
theorem integral_sigma_before {o : OpacityConfig} (ho : o.func = .fakeSedov) {a te μ lo hi : ℝ}
    (hμ : 0 < μ) (hv : 0 < o.sigmaV + μ) (hl : lo ≤ hi) (hh : hi ≤ shockMeet o.sigmaV a te μ) :
    IntervalIntegrable (fun s => sigmaFunction o s (te + (s - a) / μ)) volume lo hi ∧
    ∫ s in lo..hi, sigmaFunction o s (te + (s - a) / μ) = 0.2 * (hi - lo) := by
  have h : (Ioo lo hi).EqOn (fun s => sigmaFunction o s (te + (s - a) / μ)) (fun _ => (0.2 : ℝ)) := by
    intro s hs
    refine sigma_before ho ?_
    rw [sedov_phase hμ hv]
    exact mul_neg_of_pos_of_neg (by positivity) (by linarith [hs.2])
  constructor
  · refine IntervalIntegrable.congr_uIoo (f := fun _ => (0.2 : ℝ)) intervalIntegrable_const ?_
    rw [uIoo_of_le hl]
    exact h.symm
  · rw [intervalIntegral.integral_congr_Ioo_of_le hl h]
    simp
    ring

/-- Mean free paths along the ray on the far side of the shock. -/
theorem integral_sigma_behind {c : UncollidedConfig} (hc : c.erf = Verif.Spec.erf)
    {o : OpacityConfig} (ho : o.func = .fakeSedov) (hov : o.sigmaV = c.v0) {a te μ lo hi : ℝ}
    (hμ : 0 < μ) (hv : 0 < o.sigmaV + μ) (hl : lo ≤ hi) (hh : shockMeet o.sigmaV a te μ ≤ lo) :
    IntervalIntegrable (fun s => sigmaFunction o s (te + (s - a) / μ)) volume lo hi ∧
    ∫ s in lo..hi, sigmaFunction o s (te + (s - a) / μ) =
      sedovT1 c a te μ hi - sedovT1 c a te μ lo := by
  have hcont : Continuous fun s : ℝ => exp (-((1 + s + o.sigmaV * (te + (s - a) / μ)) / 2) ^ 2) := by
    fun_prop
  have h : (Ioo lo hi).EqOn (fun s => sigmaFunction o s (te + (s - a) / μ))
      (fun s => exp (-((1 + s + o.sigmaV * (te + (s - a) / μ)) / 2) ^ 2)) := by
    intro s hs
    refine sigma_behind ho ?_
    rw [sedov_phase hμ hv]
    exact mul_pos (by positivity) (by linarith [hs.1])
  constructor
  · refine IntervalIntegrable.congr_uIoo (hcont.intervalIntegrable lo hi) ?_
    rw [uIoo_of_le hl]
    exact h.symm
  · rw [intervalIntegral.integral_congr_Ioo_of_le hl h]
    refine intervalIntegral.integral_eq_sub_of_hasDerivAt (fun s _ => ?_)
      (hcont.intervalIntegrable lo hi)
    rw [hov] at hv ⊢
    exact hasDerivAt_sedovT1 hc hμ hv s

/-- The exponent of the program is the number of mean free paths, provided the shock had not left
through the left end when the particle entered. -/
theorem sedov_depth {c : UncollidedConfig} (hc : c.erf = Verif.Spec.erf)
    {o : OpacityConfig} (ho : o.func = .fakeSedov) (hov : o.sigmaV = c.v0) {a te μ x : ℝ}
    (hμ : 0 < μ) (hv : 0 < c.v0 + μ) (hx : a ≤ x) (hshock : a ≤ -c.v0 * te) :
    sedovT1 c a te μ (max x (shockMeet c.v0 a te μ)) -
        sedovT1 c a te μ (shockMeet c.v0 a te μ) + 0.2 * min x (shockMeet c.v0 a te μ) - 0.2 * a =
      ∫ s in a..x, sigmaFunction o s (te + (s - a) / μ) := by
  have hm : a ≤ shockMeet c.v0 a te μ := by
    have h := sedov_phase (v := c.v0) (a := a) (te := te) hμ hv a
    rw [sub_self, zero_div, add_zero] at h
    have h2 : (c.v0 + μ) / μ * (a - shockMeet c.v0 a te μ) ≤ 0 := by rw [← h]; linarith
    have h3 : 0 < (c.v0 + μ) / μ := by positivity
    by_contra h4
    push Not at h4
    have := mul_pos h3 (sub_pos.mpr h4)
    linarith
  have hv' : 0 < o.sigmaV + μ := by rw [hov]; exact hv
  rcases le_total x (shockMeet c.v0 a te μ) with h | h
  · rw [max_eq_right h, min_eq_left h, (integral_sigma_before ho hμ hv' hx (by rw [hov]; exact h)).2]
    ring
  · rw [max_eq_left h, min_eq_right h]
    have h1 := integral_sigma_before ho (a := a) (te := te) hμ hv' hm (by rw [hov])
    have h2 := integral_sigma_behind hc ho hov (a := a) (te := te) hμ hv' h (by rw [hov])
    rw [← intervalIntegral.integral_add_adjacent_intervals h1.1 h2.1, h1.2, h2.2]
    ring

/-- The boundary is taken to emit from `-1e-10` (the program's guard against a division by zero)
to `t0`. -/
noncomputable def emission (t0 τ : ℝ) : ℝ := if -1e-10 ≤ τ ∧ τ ≤ t0 then 1 else 0

theorem heaviside_pair {c : UncollidedConfig} {μ t x : ℝ} (hμ : 0 < μ) (ht : 0 ≤ t)
    (hx : -c.x0 ≤ x) :
    heavisideScalar (μ - |(x - -c.x0) / (t + 1e-10)|) *
      heavisideScalar (|-c.x0 - x| - μ * (t - c.t0)) = emission c.t0 (passTime (-c.x0) x t μ) := by
  have h1 : |(x - -c.x0) / (t + 1e-10)| = (x - -c.x0) / (t + 1e-10) :=
    abs_of_nonneg (div_nonneg (by linarith) (by positivity))
  have h2 : |-c.x0 - x| = x - -c.x0 := by rw [abs_sub_comm, abs_of_nonneg (by linarith)]
  rw [h1, h2]
  have ht' : (0 : ℝ) < t + 1e-10 := by positivity
  have e1 : μ - (x - -c.x0) / (t + 1e-10) < 0 ↔ ¬ -1e-10 ≤ passTime (-c.x0) x t μ := by
    unfold passTime
    rw [sub_neg, lt_div_iff₀ ht', not_le, sub_lt_iff_lt_add, ← sub_lt_iff_lt_add',
      lt_div_iff₀ hμ]
    constructor <;> intro h <;> linarith
  have e2 : x - -c.x0 - μ * (t - c.t0) < 0 ↔ ¬ passTime (-c.x0) x t μ ≤ c.t0 := by
    unfold passTime
    rw [not_le, lt_sub_comm, div_lt_iff₀ hμ]
    constructor <;> intro h <;> linarith
  have g1 := if_congr e1 (rfl : (0 : ℝ) = 0) (rfl : (1 : ℝ) = 1)
  have g2 := if_congr e2 (rfl : (0 : ℝ) = 0) (rfl : (1 : ℝ) = 1)
  unfold heavisideScalar emission
  rw [g1, g2]
  by_cases a1 : -1e-10 ≤ passTime (-c.x0) x t μ <;> by_cases a2 : passTime (-c.x0) x t μ ≤ c.t0 <;>
    simp only [a1, a2, not_true_eq_false, not_false_eq_true, if_true, if_false, and_self, and_true,
      and_false, mul_one, mul_zero]

/-- C90: in a direction pointing into the slab the uncollided angular flux is the beam entering
through the left end attenuated by the opacity that the absorption term uses.

Missing from the full claim: particles that enter after the shock has left through the left end,
for which it is false (`c90_shock_left`). -/
theorem c90_beam_partial {c : UncollidedConfig} (hc : c.erf = Verif.Spec.erf)
    {o : OpacityConfig} (ho : o.func = .fakeSedov) (hov : o.sigmaV = c.v0) {μ t x : ℝ}
    (hμ : 0 < μ) (hv : 0 < c.v0 + μ) (ht : 0 ≤ t) (hx : -c.x0 ≤ x)
    (hshock : -c.x0 ≤ -c.v0 * passTime (-c.x0) x t μ) :
    sedovIntegrand c μ t x = beam (sigmaFunction o) (emission c.t0) (-c.x0) x t μ := by
  unfold sedovIntegrand
  simp only
  rw [mul_assoc, heaviside_pair hμ ht hx, beam, mul_comm]
  congr 2
  have e : (-c.x0 - x) / μ + t = passTime (-c.x0) x t μ := by
    unfold passTime
    rw [show -c.x0 - x = -(x - -c.x0) by ring, neg_div]
    ring
  have h := sedov_depth hc ho hov (a := -c.x0) (te := passTime (-c.x0) x t μ) hμ hv hx hshock
  rw [e]
  unfold shockMeet at h
  rw [h, opticalDepth, neg_div]
  congr 2
  refine intervalIntegral.integral_congr fun s _ => ?_
  rw [passTime_ray (a := -c.x0) s, e]

/-- C90: nothing is found in directions pointing out of the slab through the left end. -/
theorem c90_no_backward {c : UncollidedConfig} {μ t x : ℝ} (hμ : μ < 0) :
    sedovIntegrand c μ t x = 0 := by
  unfold sedovIntegrand
  simp only
  have : heavisideScalar (μ - |(x - -c.x0) / (t + 1e-10)|) = 0 := by
    unfold heavisideScalar
    rw [if_pos]
    have := abs_nonneg ((x - -c.x0) / (t + 1e-10))
    linarith
  rw [this]
  ring

/-- C90: the uncollided scalar flux is the sum of these beams over the directions pointing into
the slab, with weights that sum to two. -/
theorem c90_scalar_partial {c : UncollidedConfig} (hc : c.erf = Verif.Spec.erf)
    {o : OpacityConfig} (ho : o.func = .fakeSedov) (hov : o.sigmaV = c.v0) {t x : ℝ}
    (hang : ∀ q ∈ c.angles, q.1 ≠ 0) (hv : 0 ≤ c.v0) (ht : 0 ≤ t) (hx : -c.x0 ≤ x)
    (hshock : c.v0 * t ≤ c.x0) :
    fakeSedov c x t = ((c.angles.filter fun q => 0 < q.1).map fun q =>
      (2 * q.2) * beam (sigmaFunction o) (emission c.t0) (-c.x0) x t q.1).sum := by
  unfold fakeSedov
  have key : ∀ l : List (ℝ × ℝ), (∀ q ∈ l, q.1 ≠ 0) →
      2 * (l.map fun a => a.2 * sedovIntegrand c a.1 t x).sum =
      ((l.filter fun q => 0 < q.1).map fun q =>
        (2 * q.2) * beam (sigmaFunction o) (emission c.t0) (-c.x0) x t q.1).sum := by
    intro l
    induction l with
    | nil => intro _; simp
    | cons q l ih =>
      intro hl
      have ih' := ih fun p hp => hl p (List.mem_cons_of_mem _ hp)
      rw [List.map_cons, List.sum_cons, mul_add, ih']
      rcases lt_or_gt_of_ne (hl q List.mem_cons_self) with h | h
      · rw [List.filter_cons_of_neg (by simpa using h.le), c90_no_backward h]
        ring
      · rw [List.filter_cons_of_pos (by simpa using h), List.map_cons, List.sum_cons,
          c90_beam_partial hc ho hov h (by linarith) ht hx]
        · ring
        · have h1 : passTime (-c.x0) x t q.1 ≤ t := by
            unfold passTime
            have : 0 ≤ (x - -c.x0) / q.1 := div_nonneg (by linarith) h.le
            linarith
          have := mul_le_mul_of_nonneg_left h1 hv
          linarith
  exact key c.angles hang

/-- C90: away from the shock the uncollided angular flux solves the transport equation with the
opacity of the absorption term: along a particle path it decays at the rate given by that
opacity. -/
theorem c90_transport_partial {c : UncollidedConfig} (hc : c.erf = Verif.Spec.erf)
    {o : OpacityConfig} (ho : o.func = .fakeSedov) (hov : o.sigmaV = c.v0) {μ t x : ℝ}
    (hμ : 0 < μ) (hv : 0 < c.v0 + μ) (ht : 0 < t) (hx : -c.x0 < x)
    (hshock : -c.x0 ≤ -c.v0 * passTime (-c.x0) x t μ) (hne : x ≠ -c.v0 * t) :
    HasDerivAt (fun h => sedovIntegrand c μ (t + h) (x + μ * h))
      (-sigmaFunction o x t * sedovIntegrand c μ t x) 0 := by
  have hμ0 : μ ≠ 0 := hμ.ne'
  -- the entry time is the same all along the path
  have hpass : ∀ s h, passTime s (x + μ * h) (t + h) μ = passTime s x t μ := by
    intro s h
    unfold passTime
    field_simp
    ring
  set a := -c.x0 with ha
  set te := passTime a x t μ with hte
  have hG : ∀ y, a ≤ y → opticalDepth (sigmaFunction o) a y (te + (y - a) / μ) μ =
      (sedovT1 c a te μ (max y (shockMeet c.v0 a te μ)) -
        sedovT1 c a te μ (shockMeet c.v0 a te μ) +
        0.2 * min y (shockMeet c.v0 a te μ) - 0.2 * a) / μ := by
    intro y hy
    rw [sedov_depth hc ho hov hμ hv hy hshock, opticalDepth]
    congr 1
    refine intervalIntegral.integral_congr fun s _ => ?_
    simp only [passTime]
    congr 1
    ring
  have htx : t = te + (x - a) / μ := by rw [hte]; unfold passTime; ring
  have hmeet : x + c.v0 * t = (c.v0 + μ) / μ * (x - shockMeet c.v0 a te μ) := by
    have := sedov_phase (v := c.v0) (a := a) (te := te) hμ hv x
    rw [← htx] at this
    exact this
  have hder : HasDerivAt (fun y => (sedovT1 c a te μ (max y (shockMeet c.v0 a te μ)) -
        sedovT1 c a te μ (shockMeet c.v0 a te μ) +
        0.2 * min y (shockMeet c.v0 a te μ) - 0.2 * a) / μ) (sigmaFunction o x t / μ) x := by
    refine HasDerivAt.div_const ?_ μ
    have hk : 0 < (c.v0 + μ) / μ := by positivity
    rcases lt_trichotomy x (shockMeet c.v0 a te μ) with h | h | h
    · have e : sigmaFunction o x t = 0.2 := by
        refine sigma_before ho ?_
        rw [hov, hmeet]
        exact mul_neg_of_pos_of_neg hk (by linarith)
      rw [e]
      have h1 : HasDerivAt (fun y => sedovT1 c a te μ (shockMeet c.v0 a te μ) -
        sedovT1 c a te μ (shockMeet c.v0 a te μ) + 0.2 * y - 0.2 * a) 0.2 x := by
        have := (((hasDerivAt_id x).const_mul (0.2 : ℝ)).const_add
          (sedovT1 c a te μ (shockMeet c.v0 a te μ) -
            sedovT1 c a te μ (shockMeet c.v0 a te μ))).sub_const (0.2 * a)
        simpa using this
      refine h1.congr_of_eventuallyEq ?_
      filter_upwards [eventually_lt_nhds h] with y hy
      rw [max_eq_right hy.le, min_eq_left hy.le]
    · exfalso
      rw [← h, sub_self, mul_zero] at hmeet
      exact hne (by linarith)
    · have e : sigmaFunction o x t = exp (-((1 + x + c.v0 * (te + (x - a) / μ)) / 2) ^ 2) := by
        rw [← htx, ← hov]
        refine sigma_behind ho ?_
        rw [hov, hmeet]
        exact mul_pos hk (by linarith)
      rw [e]
      have h1 := (((hasDerivAt_sedovT1 hc (a := a) (te := te) hμ hv x).sub_const
        (sedovT1 c a te μ (shockMeet c.v0 a te μ))).add_const
          (0.2 * shockMeet c.v0 a te μ)).sub_const (0.2 * a)
      refine h1.congr_of_eventuallyEq ?_
      filter_upwards [eventually_gt_nhds h] with y hy
      rw [max_eq_left hy.le, min_eq_right hy.le]
  have hy : HasDerivAt (fun h : ℝ => x + μ * h) μ 0 := by
    simpa using ((hasDerivAt_id (0 : ℝ)).const_mul μ).const_add x
  have hder' : HasDerivAt (fun y => (sedovT1 c a te μ (max y (shockMeet c.v0 a te μ)) -
        sedovT1 c a te μ (shockMeet c.v0 a te μ) +
        0.2 * min y (shockMeet c.v0 a te μ) - 0.2 * a) / μ) (sigmaFunction o x t / μ)
      (x + μ * 0) := by
    rw [mul_zero, add_zero]; exact hder
  have hcomp := hder'.comp (0 : ℝ) hy
  have hexp := (hcomp.neg.exp).const_mul (emission c.t0 te)
  have hval : sedovIntegrand c μ t x = emission c.t0 te *
      exp (-((sedovT1 c a te μ (max x (shockMeet c.v0 a te μ)) -
        sedovT1 c a te μ (shockMeet c.v0 a te μ) +
        0.2 * min x (shockMeet c.v0 a te μ) - 0.2 * a) / μ)) := by
    rw [c90_beam_partial hc ho hov hμ hv ht.le hx.le hshock, beam, ← hG x hx.le, ← htx]
  have hfun : (fun h => sedovIntegrand c μ (t + h) (x + μ * h)) =ᶠ[nhds 0]
      fun h => emission c.t0 te * exp (-((fun y => (sedovT1 c a te μ (max y (shockMeet c.v0 a te μ)) -
        sedovT1 c a te μ (shockMeet c.v0 a te μ) +
        0.2 * min y (shockMeet c.v0 a te μ) - 0.2 * a) / μ) ∘ fun h : ℝ => x + μ * h) h) := by
    have e1 : ∀ᶠ h in nhds (0 : ℝ), 0 < t + h := by
      have : Filter.Tendsto (fun h : ℝ => t + h) (nhds 0) (nhds (t + 0)) :=
        (continuous_const.add continuous_id).tendsto 0
      rw [add_zero] at this
      exact this.eventually (eventually_gt_nhds ht)
    have e2 : ∀ᶠ h in nhds (0 : ℝ), a < x + μ * h := by
      have : Filter.Tendsto (fun h : ℝ => x + μ * h) (nhds 0) (nhds (x + μ * 0)) :=
        (continuous_const.add (continuous_const.mul continuous_id)).tendsto 0
      rw [mul_zero, add_zero] at this
      exact this.eventually (eventually_gt_nhds hx)
    filter_upwards [e1, e2] with h h1 h2
    rw [c90_beam_partial hc ho hov hμ hv h1.le h2.le (by rw [hpass]; exact hshock), beam, hpass]
    have e3 : t + h = te + (x + μ * h - a) / μ := by
      rw [hte]; unfold passTime; field_simp; ring
    rw [e3, hG _ h2.le]
    rfl
  refine (hexp.congr_of_eventuallyEq hfun).congr_deriv ?_
  rw [hval]
  simp only [Function.comp, mul_zero, add_zero, Pi.neg_apply]
  field_simp

/-- The moving-shock problem with shock speed `v`, slab half width `x0` and four directions. -/
noncomputable def sedovConfig (v x0 : ℝ) : UncollidedConfig where
  uncollided := true
  sourceType := [0, 0, 0, 0, 0, 0]
  geometry := .slab
  x0 := x0
  t0 := 20
  tQuad := [(0, 2)]
  angles := [(-1, 1 / 4), (-1 / 2, 1 / 4), (1 / 2, 1 / 4), (1, 1 / 4)]
  nAng := 4
  sigma := 1 / 2
  strength := 1
  v0 := v
  expi := fun _ => 0
  erf := Verif.Spec.erf

/-- The opacity of the moving-shock problem. -/
noncomputable def sedovOpacity (v : ℝ) : OpacityConfig where
  sigmaT := 1
  sigmaS := 1
  func := .fakeSedov
  M := 2
  Msigma := 2
  quad := [(0, 2)]
  Nspace := 8
  sigmaV := v

example : sedovIntegrand (sedovConfig (1 / 10) 5) (1 / 2) 20 3 =
    beam (sigmaFunction (sedovOpacity (1 / 10))) (emission 20) (-5) 3 20 (1 / 2) :=
  c90_beam_partial (c := sedovConfig (1 / 10) 5) rfl rfl rfl (by norm_num)
    (by norm_num [sedovConfig]) (by norm_num) (by norm_num [sedovConfig])
    (by norm_num [sedovConfig, passTime])

example : fakeSedov (sedovConfig (1 / 10) 5) 3 20 =
    (([(-1, 1 / 4), (-1 / 2, 1 / 4), (1 / 2, 1 / 4), (1, 1 / 4)].filter fun q : ℝ × ℝ => 0 < q.1).map
      fun q => (2 * q.2) * beam (sigmaFunction (sedovOpacity (1 / 10))) (emission 20) (-5) 3 20 q.1).sum :=
  c90_scalar_partial (c := sedovConfig (1 / 10) 5) rfl rfl rfl
    (by
      intro q hq
      simp only [sedovConfig, List.mem_cons, List.not_mem_nil, or_false] at hq
      rcases hq with h | h | h | h <;> rw [h] <;> norm_num)
    (by norm_num [sedovConfig]) (by norm_num) (by norm_num [sedovConfig])
    (by norm_num [sedovConfig])

example : HasDerivAt (fun h => sedovIntegrand (sedovConfig (1 / 10) 5) (1 / 2) (20 + h) (3 + 1 / 2 * h))
    (-sigmaFunction (sedovOpacity (1 / 10)) 3 20 *
      sedovIntegrand (sedovConfig (1 / 10) 5) (1 / 2) 20 3) 0 :=
  c90_transport_partial (c := sedovConfig (1 / 10) 5) rfl rfl rfl (by norm_num)
    (by norm_num [sedovConfig]) (by norm_num) (by norm_num [sedovConfig])
    (by norm_num [sedovConfig, passTime]) (by norm_num [sedovConfig])

/-- C90 fails once the shock has left through the left end: shock speed 1, slab `[-1, 1]`, a
particle that enters at time 2 and is found at the origin at time 3. -/
theorem c90_shock_left :
    sedovIntegrand (sedovConfig 1 1) 1 3 0 ≠
      beam (sigmaFunction (sedovOpacity 1)) (emission 20) (-1) 0 3 1 := by
  have hder : ∀ s : ℝ, HasDerivAt (sedovT1 (sedovConfig 1 1) (-1) 2 1)
      (exp (-((1 + s + (sedovConfig 1 1).v0 * (2 + (s - -1) / 1)) / 2) ^ 2)) s := fun s =>
    hasDerivAt_sedovT1 (c := sedovConfig 1 1) rfl (by norm_num) (by norm_num [sedovConfig]) s
  have hcont : Continuous fun s : ℝ =>
      exp (-((1 + s + (sedovConfig 1 1).v0 * (2 + (s - -1) / 1)) / 2) ^ 2) := by fun_prop
  -- the depth counted by the program
  have h1 : (∫ s in (-1 : ℝ)..0, sigmaFunction (sedovOpacity 1) s (2 + (s - -1) / 1)) =
      sedovT1 (sedovConfig 1 1) (-1) 2 1 0 - sedovT1 (sedovConfig 1 1) (-1) 2 1 (-1) :=
    (integral_sigma_behind (c := sedovConfig 1 1) rfl (o := sedovOpacity 1) rfl rfl (by norm_num)
      (by norm_num [sedovOpacity]) (by norm_num) (by norm_num [sedovOpacity, shockMeet])).2
  have h2 : (1 : ℝ) / 10 < sedovT1 (sedovConfig 1 1) (-1) 2 1 (-1) -
      sedovT1 (sedovConfig 1 1) (-1) 2 1 (-3 / 2) := by
    rw [← intervalIntegral.integral_eq_sub_of_hasDerivAt (a := -3 / 2) (b := -1)
      (fun s _ => hder s) (hcont.intervalIntegrable _ _)]
    have h3 : ∫ _s in (-3 / 2 : ℝ)..(-1), exp (-1) ≤ ∫ s in (-3 / 2 : ℝ)..(-1),
        exp (-((1 + s + (sedovConfig 1 1).v0 * (2 + (s - -1) / 1)) / 2) ^ 2) := by
      refine intervalIntegral.integral_mono_on (by norm_num) (by simp)
        (hcont.intervalIntegrable _ _) fun s hs => ?_
      refine exp_le_exp.mpr ?_
      simp only [sedovConfig]
      nlinarith [hs.1, hs.2]
    rw [intervalIntegral.integral_const, smul_eq_mul] at h3
    have h4 : (1 : ℝ) / 4 < exp (-1) := by
      rw [exp_neg, one_div]
      exact inv_strictAnti₀ (exp_pos 1) (by linarith [exp_one_lt_d9])
    linarith
  have h5 : sedovIntegrand (sedovConfig 1 1) 1 3 0 =
      exp (-(sedovT1 (sedovConfig 1 1) (-1) 2 1 0 - sedovT1 (sedovConfig 1 1) (-1) 2 1 (-3 / 2) +
        0.2 * (-3 / 2) - 0.2 * -1)) := by
    unfold sedovIntegrand
    simp only
    rw [mul_assoc, heaviside_pair (by norm_num) (by norm_num) (by norm_num [sedovConfig])]
    have e1 : emission (sedovConfig 1 1).t0 (passTime (-(sedovConfig 1 1).x0) 0 3 1) = 1 := by
      norm_num [emission, passTime, sedovConfig]
    have e2 : (-(sedovConfig 1 1).x0 - 0) / 1 + 3 = 2 := by norm_num [sedovConfig]
    have e3 : ((sedovConfig 1 1).v0 * -(sedovConfig 1 1).x0 - 2 * (sedovConfig 1 1).v0 * 1) /
        ((sedovConfig 1 1).v0 + 1) = -3 / 2 := by norm_num [sedovConfig]
    have e4 : -(sedovConfig 1 1).x0 = -1 := by norm_num [sedovConfig]
    rw [e1, e2, e3, e4, max_eq_left (by norm_num), min_eq_right (by norm_num), mul_one, div_one]
  have h6 : beam (sigmaFunction (sedovOpacity 1)) (emission 20) (-1) 0 3 1 =
      exp (-(sedovT1 (sedovConfig 1 1) (-1) 2 1 0 - sedovT1 (sedovConfig 1 1) (-1) 2 1 (-1))) := by
    unfold beam opticalDepth
    rw [← h1, div_one]
    have e1 : emission 20 (passTime (-1) 0 3 1) = 1 := by norm_num [emission, passTime]
    rw [e1, one_mul]
    congr 2
    refine intervalIntegral.integral_congr fun s _ => ?_
    simp only [passTime]
    congr 1
    ring
  rw [h5, h6]
  intro h
  have := exp_injective h
  linarith

end Verif.Props
