import Verif.Model.MovingShock
import Verif.Model.Opacity
import Mathlib.MeasureTheory.Integral.IntervalIntegral.FundThmCalculus
import Mathlib.Analysis.Calculus.MeanValue
import Mathlib.Analysis.SpecialFunctions.ExpDeriv

/-! Properties of the benchmark for a travelling Gaussian opacity (C137). -/

namespace Verif.Props

open Verif.Model Real

/-- The opacity of the benchmark: a bump of height 1 that is at `-t/4` at time `t`. -/
noncomputable def travellingBump (x t : ℝ) : ℝ := exp (-(x + t / 4) ^ 2 / 8)

theorem shockSigma_eq (x t : ℝ) : shockSigma x t = travellingBump x t := by
  unfold shockSigma travellingBump
  congr 1
  ring

theorem travellingBump_continuous : Continuous fun p : ℝ × ℝ => travellingBump p.1 p.2 := by
  unfold travellingBump
  fun_prop

theorem travellingBump_pos (x t : ℝ) : 0 < travellingBump x t := exp_pos _

/-- The optical thickness is the integral of the opacity along the ray through the point. -/
theorem shockMfp_eq {mu : ℝ} (hmu : mu ≠ 0) (t x : ℝ) :
    shockMfp t x mu = ∫ s in (-5)..x, travellingBump s (t + (s - x) / mu) := by
  unfold shockMfp
  apply intervalIntegral.integral_congr
  intro s _
  simp only [shockSigma_eq]
  congr 1
  field_simp
  ring

theorem shockMfp_ray {mu : ℝ} (hmu : mu ≠ 0) (t x r : ℝ) :
    shockMfp (t + r) (x + mu * r) mu = ∫ s in (-5)..(x + mu * r), travellingBump s (t + (s - x) / mu) := by
  rw [shockMfp_eq hmu]
  apply intervalIntegral.integral_congr
  intro s _
  dsimp only
  congr 1
  field_simp
  ring

theorem bump_ray_continuous (mu t x : ℝ) : Continuous fun s => travellingBump s (t + (s - x) / mu) := by
  unfold travellingBump
  fun_prop

theorem shockMfp_ray_deriv {mu : ℝ} (hmu : mu ≠ 0) (t x r : ℝ) :
    HasDerivAt (fun r => shockMfp (t + r) (x + mu * r) mu)
      (travellingBump (x + mu * r) (t + r) * mu) r := by
  simp only [shockMfp_ray hmu]
  have hc := bump_ray_continuous mu t x
  have h1 := intervalIntegral.integral_hasDerivAt_right (hc.intervalIntegrable (-5) (x + mu * r))
    (hc.stronglyMeasurableAtFilter _ _) hc.continuousAt
  have h2 : HasDerivAt (fun r => x + mu * r) mu r := by
    simpa using ((hasDerivAt_id r).const_mul mu).const_add x
  have h3 := h1.comp r h2
  refine h3.congr_deriv ?_
  congr 2
  field_simp
  ring

/-- Inside the region reached by the radiation. -/
theorem shock_inside {mu t x : ℝ} (h : 0 < |mu| - |(x - -5) / t|) :
    movingGaussianShock t x mu = exp (-shockMfp t x mu / |mu|) := by
  unfold movingGaussianShock
  rw [if_pos h, mul_one]

theorem inside_iff {mu t x : ℝ} (ht : 0 < t) : 0 < |mu| - |(x - -5) / t| ↔ |x + 5| < |mu| * t := by
  rw [sub_pos, abs_div, abs_of_pos ht, div_lt_iff₀ ht, sub_neg_eq_add]

/-- The rays stay in the region reached, for a while in both directions. -/
theorem inside_eventually {mu t x : ℝ} (ht : 0 < t) (h : |x + 5| < |mu| * t) :
    ∀ᶠ r in nhds (0 : ℝ), 0 < |mu| - |(x + mu * r - -5) / (t + r)| := by
  have hc : ContinuousAt (fun r => |mu| - |(x + mu * r - -5) / (t + r)|) 0 := by
    apply ContinuousAt.sub continuousAt_const
    apply ContinuousAt.abs
    apply ContinuousAt.div (by fun_prop) (by fun_prop)
    linarith
  refine hc.eventually (lt_mem_nhds ?_)
  simpa using (inside_iff ht).2 h

/-- C137: where the radiation that enters at `x = -5` has arrived, the benchmark satisfies the transport equation
for the opacity `exp(-(x + t/4)²/8)` along every ray with positive direction. -/
theorem c137_transport {mu t x : ℝ} (hmu : 0 < mu) (ht : 0 < t) (hx : |x + 5| < mu * t) :
    HasDerivAt (fun r => movingGaussianShock (t + r) (x + mu * r) mu)
      (-travellingBump x t * movingGaussianShock t x mu) 0 := by
  have hin : |x + 5| < |mu| * t := by rwa [abs_of_pos hmu]
  have h1 := shockMfp_ray_deriv hmu.ne' t x 0
  have h2 := (h1.neg.div_const |mu|).exp
  have h3 := h2.congr_of_eventuallyEq ((inside_eventually ht hin).mono fun r hr => shock_inside hr)
  refine h3.congr_deriv ?_
  rw [shock_inside ((inside_iff ht).2 hin), abs_of_pos hmu]
  simp only [mul_zero, add_zero, Pi.neg_apply]
  field_simp

/-- C137: for directions that point to the left it is not the solution: along the ray the benchmark grows where
absorption should let it decay. -/
theorem c137_left_directions {mu t x : ℝ} (hmu : mu < 0) (ht : 0 < t) (hx : |x + 5| < -mu * t) :
    HasDerivAt (fun r => movingGaussianShock (t + r) (x + mu * r) mu)
      (travellingBump x t * movingGaussianShock t x mu) 0 ∧ 0 < travellingBump x t * movingGaussianShock t x mu := by
  have hin : |x + 5| < |mu| * t := by rwa [abs_of_neg hmu]
  have h1 := shockMfp_ray_deriv hmu.ne t x 0
  have h2 := (h1.neg.div_const |mu|).exp
  have h3 := h2.congr_of_eventuallyEq ((inside_eventually ht hin).mono fun r hr => shock_inside hr)
  have h4 := shock_inside ((inside_iff ht).2 hin)
  refine ⟨h3.congr_deriv ?_, mul_pos (travellingBump_pos _ _) (h4 ▸ exp_pos _)⟩
  rw [h4, abs_of_neg hmu]
  simp only [mul_zero, add_zero, Pi.neg_apply]
  have := hmu.ne
  field_simp

/-- C137: at the left end the benchmark is 1, ahead of the front it is 0. -/
theorem c137_boundary {mu t : ℝ} (hmu : 0 < mu) (ht : 0 < t) :
    movingGaussianShock t (-5) mu = 1 ∧ ∀ x, mu * t ≤ x + 5 → movingGaussianShock t x mu = 0 := by
  refine ⟨?_, fun x hx => ?_⟩
  · rw [shock_inside ((inside_iff ht).2 (by rw [abs_of_pos hmu]; simpa using mul_pos hmu ht)), shockMfp]
    simp
  · unfold movingGaussianShock
    rw [if_neg, mul_zero]
    rw [inside_iff ht, abs_of_pos hmu, not_lt]
    exact hx.trans (le_abs_self _)

/-- C137: to the right of the end the benchmark lies between 0 and 1. -/
theorem c137_bounds {mu t x : ℝ} (hmu : 0 < mu) (hx : -5 ≤ x) :
    0 ≤ movingGaussianShock t x mu ∧ movingGaussianShock t x mu ≤ 1 := by
  have h0 : 0 ≤ shockMfp t x mu := by
    rw [shockMfp_eq hmu.ne']
    exact intervalIntegral.integral_nonneg hx fun s _ => (travellingBump_pos _ _).le
  have h1 : exp (-shockMfp t x mu / |mu|) ≤ 1 := by
    rw [exp_le_one_iff]
    exact div_nonpos_of_nonpos_of_nonneg (neg_nonpos.2 h0) (abs_nonneg _)
  unfold movingGaussianShock
  split_ifs
  · rw [mul_one]
    exact ⟨(exp_pos _).le, h1⟩
  · simp

/-- C137: to the left of the end, where no radiation is, the benchmark is larger than 1. -/
theorem c137_left_of_source {mu t x : ℝ} (hmu : 0 < mu) (ht : 0 < t) (hx : x < -5) (h : -5 - x < mu * t) :
    1 < movingGaussianShock t x mu := by
  have hin : |x + 5| < |mu| * t := by
    rw [abs_of_pos hmu, abs_of_neg (by linarith)]
    linarith
  rw [shock_inside ((inside_iff ht).2 hin), one_lt_exp_iff, abs_of_pos hmu]
  apply div_pos _ hmu
  rw [shockMfp_eq hmu.ne', intervalIntegral.integral_symm, neg_neg]
  exact intervalIntegral.intervalIntegral_pos_of_pos ((bump_ray_continuous mu t x).intervalIntegrable _ _)
    (fun s => travellingBump_pos _ _) hx

/-- C137: the benchmark is the only solution: every `ψ` that satisfies the transport equation along the rays of
the direction, is 1 at `x = -5` for all positive times and 0 to the right of it at time 0 agrees with it at all
points to the right, except on the front itself. -/
theorem c137_exact {mu : ℝ} (hmu : 0 < mu) {ψ : ℝ → ℝ → ℝ}
    (hray : ∀ t x, 0 ≤ t → -5 ≤ x → (0 < t ∨ -5 < x) →
      HasDerivWithinAt (fun r => ψ (t + r) (x + mu * r)) (-travellingBump x t * ψ t x) (Set.Ici 0) 0)
    (hcont : ∀ t x, 0 ≤ t → -5 ≤ x → (0 < t ∨ -5 < x) →
      ContinuousOn (fun r => ψ (t + r) (x + mu * r)) (Set.Ici 0))
    (hin : ∀ t, 0 < t → ψ t (-5) = 1) (h0 : ∀ x, -5 < x → ψ 0 x = 0)
    {t x : ℝ} (ht : 0 < t) (hx : -5 ≤ x) (hfront : x + 5 ≠ mu * t) :
    ψ t x = movingGaussianShock t x mu := by
  -- along a ray the product with the integrating factor is constant
  have key : ∀ t₀ x₀ T, 0 ≤ t₀ → -5 ≤ x₀ → (0 < t₀ ∨ -5 < x₀) → 0 ≤ T →
      ψ (t₀ + T) (x₀ + mu * T) * exp (shockMfp (t₀ + T) (x₀ + mu * T) mu / mu) =
        ψ t₀ x₀ * exp (shockMfp t₀ x₀ mu / mu) := by
    intro t₀ x₀ T h1 h2 h3 hT
    have hE : ∀ r, HasDerivAt (fun r => exp (shockMfp (t₀ + r) (x₀ + mu * r) mu / mu))
        (exp (shockMfp (t₀ + r) (x₀ + mu * r) mu / mu) * travellingBump (x₀ + mu * r) (t₀ + r)) r := by
      intro r
      have := ((shockMfp_ray_deriv hmu.ne' t₀ x₀ r).div_const mu).exp
      refine this.congr_deriv ?_
      field_simp
    have hψ : ∀ r ∈ Set.Ico (0 : ℝ) T, HasDerivWithinAt (fun r => ψ (t₀ + r) (x₀ + mu * r))
        (-travellingBump (x₀ + mu * r) (t₀ + r) * ψ (t₀ + r) (x₀ + mu * r)) (Set.Ici r) r := by
      intro r hr
      have hq := hray (t₀ + r) (x₀ + mu * r) (by linarith [hr.1])
        (by nlinarith [hr.1, mul_nonneg hmu.le hr.1]) (by
          rcases h3 with h3 | h3
          · exact .inl (by linarith [hr.1])
          · exact .inr (by linarith [mul_nonneg hmu.le hr.1]))
      have hs : HasDerivWithinAt (fun u : ℝ => u - r) 1 (Set.Ici r) r :=
        ((hasDerivAt_id r).sub_const r).hasDerivWithinAt
      have hm : Set.MapsTo (fun u : ℝ => u - r) (Set.Ici r) (Set.Ici 0) := fun u hu => by
        simpa using hu
      have hq' : HasDerivWithinAt (fun r' => ψ (t₀ + r + r') (x₀ + mu * r + mu * r'))
        (-travellingBump (x₀ + mu * r) (t₀ + r) * ψ (t₀ + r) (x₀ + mu * r)) (Set.Ici 0) (r - r) := by
        rwa [sub_self]
      have hcomp := HasDerivWithinAt.comp (h := fun u : ℝ => u - r) r hq' hs hm
      rw [mul_one] at hcomp
      refine hcomp.congr_of_eventuallyEq (Filter.Eventually.of_forall fun u => ?_) ?_ <;>
        simp only [Function.comp] <;> congr 1 <;> ring
    have hc : ContinuousOn (fun r => ψ (t₀ + r) (x₀ + mu * r) *
        exp (shockMfp (t₀ + r) (x₀ + mu * r) mu / mu)) (Set.Icc 0 T) :=
      ((hcont t₀ x₀ h1 h2 h3).mono fun r hr => hr.1).mul
        fun r _ => (hE r).continuousAt.continuousWithinAt
    have := constant_of_has_deriv_right_zero hc (fun r hr => by
      have := (hψ r hr).mul (hE r).hasDerivWithinAt
      refine this.congr_deriv ?_
      ring) T ⟨hT, le_rfl⟩
    simpa using this
  rcases lt_or_gt_of_ne hfront with hf | hf
  · -- the ray comes from the left end
    have hT : 0 ≤ (x + 5) / mu := div_nonneg (by linarith) hmu.le
    have ht0 : 0 < t - (x + 5) / mu := by
      rw [sub_pos, div_lt_iff₀ hmu]
      linarith
    have h1 := key (t - (x + 5) / mu) (-5) ((x + 5) / mu) ht0.le le_rfl (.inl ht0) hT
    have e1 : t - (x + 5) / mu + (x + 5) / mu = t := by ring
    have e2 : -5 + mu * ((x + 5) / mu) = x := by field_simp; ring
    rw [e1, e2, hin _ ht0] at h1
    have e3 : shockMfp (t - (x + 5) / mu) (-5) mu = 0 := by simp [shockMfp]
    rw [e3, zero_div, exp_zero, one_mul] at h1
    rw [shock_inside ((inside_iff ht).2 (by
      rw [abs_of_pos hmu, abs_of_nonneg (by linarith)]; exact hf)), abs_of_pos hmu, neg_div, exp_neg]
    exact eq_inv_of_mul_eq_one_left h1
  · -- the ray comes from the initial state
    have hx0 : -5 < x - mu * t := by linarith
    have h1 := key 0 (x - mu * t) t le_rfl hx0.le (.inr hx0) ht.le
    rw [zero_add, sub_add_cancel, h0 _ hx0, zero_mul] at h1
    rw [(c137_boundary hmu ht).2 x hf.le]
    exact (mul_eq_zero.1 h1).resolve_right (exp_pos _).ne'

/-- A solution as `c137_exact` wants it, for every positive direction. -/
theorem c137_solvable {mu : ℝ} (hmu : 0 < mu) : ∃ ψ : ℝ → ℝ → ℝ,
    (∀ t x, 0 ≤ t → -5 ≤ x → (0 < t ∨ -5 < x) →
      HasDerivWithinAt (fun r => ψ (t + r) (x + mu * r)) (-travellingBump x t * ψ t x) (Set.Ici 0) 0) ∧
    (∀ t x, 0 ≤ t → -5 ≤ x → (0 < t ∨ -5 < x) →
      ContinuousOn (fun r => ψ (t + r) (x + mu * r)) (Set.Ici 0)) ∧
    (∀ t, 0 < t → ψ t (-5) = 1) ∧ ∀ x, -5 < x → ψ 0 x = 0 := by
  classical
  have e : ∀ t x r : ℝ, (if x + mu * r + 5 < mu * (t + r) then
      exp (-shockMfp (t + r) (x + mu * r) mu / mu) else 0) =
      if x + 5 < mu * t then exp (-shockMfp (t + r) (x + mu * r) mu / mu) else 0 := fun t x r => by
    apply if_congr _ rfl rfl
    constructor <;> intro h <;> linarith
  have hd : ∀ t x r : ℝ, HasDerivAt (fun r => exp (-shockMfp (t + r) (x + mu * r) mu / mu))
      (exp (-shockMfp (t + r) (x + mu * r) mu / mu) *
        (-(travellingBump (x + mu * r) (t + r) * mu) / mu)) r :=
    fun t x r => ((shockMfp_ray_deriv hmu.ne' t x r).neg.div_const mu).exp
  refine ⟨fun t x => if x + 5 < mu * t then exp (-shockMfp t x mu / mu) else 0, ?_, ?_, ?_, ?_⟩
  · intro t x _ _ _
    simp only [e]
    split_ifs
    · refine ((hd t x 0).congr_deriv ?_).hasDerivWithinAt
      simp only [mul_zero, add_zero]
      field_simp
    · rw [mul_zero]
      exact hasDerivWithinAt_const _ _ _
  · intro t x _ _ _
    simp only [e]
    split_ifs
    · exact fun r _ => (hd t x r).continuousAt.continuousWithinAt
    · exact continuousOn_const
  · intro t ht
    dsimp only
    rw [if_pos (by simpa using mul_pos hmu ht)]
    simp [shockMfp]
  · intro x hx
    dsimp only
    rw [if_neg (by linarith)]

/-- `moving_gaussian_shock` in direction 1 agrees with a solution at a point that the radiation has reached. -/
example : ∃ ψ : ℝ → ℝ → ℝ, (∀ t, 0 < t → ψ t (-5) = 1) ∧ ψ 2 (-4) = movingGaussianShock 2 (-4) 1 := by
  obtain ⟨ψ, h1, h2, h3, h4⟩ := c137_solvable (mu := 1) one_pos
  exact ⟨ψ, h3, c137_exact one_pos h1 h2 h3 h4 two_pos (by norm_num) (by norm_num)⟩

/-- A point and a direction as the theorems about the region reached want it. -/
example : |(-4 : ℝ) + 5| < 1 * 2 ∧ |(-4 : ℝ) + 5| < - -(3 / 5) * 2 ∧ (-5 : ℝ) - -6 < 1 * 2 := by
  norm_num

theorem fold_closer (z : ℝ) (ms : List ℝ) (m : ℝ) :
    (ms.foldl (fun a b => if |b - z| < |a - z| then b else a) m = m ∨
      ms.foldl (fun a b => if |b - z| < |a - z| then b else a) m ∈ ms) ∧
    |ms.foldl (fun a b => if |b - z| < |a - z| then b else a) m - z| ≤ |m - z| ∧
    ∀ b ∈ ms, |ms.foldl (fun a b => if |b - z| < |a - z| then b else a) m - z| ≤ |b - z| := by
  induction ms generalizing m with
  | nil => simp
  | cons b ms ih =>
    obtain ⟨h1, h2, h3⟩ := ih (if |b - z| < |m - z| then b else m)
    rw [List.foldl_cons]
    by_cases hb : |b - z| < |m - z|
    · rw [if_pos hb] at h1 h2 h3 ⊢
      refine ⟨.inr ?_, h2.trans hb.le, ?_⟩
      · rcases h1 with h1 | h1
        · rw [h1]; exact List.mem_cons_self
        · exact List.mem_cons_of_mem _ h1
      · intro d hd
        rcases List.mem_cons.1 hd with rfl | hd
        · exact h2
        · exact h3 d hd
    · rw [if_neg hb] at h1 h2 h3 ⊢
      refine ⟨h1.imp id (List.mem_cons_of_mem _), h2, ?_⟩
      intro d hd
      rcases List.mem_cons.1 hd with rfl | hd
      · exact h2.trans (not_lt.1 hb)
      · exact h3 d hd

/-- C137: the curves drawn are the benchmark at 25 equidistant points from the first to the last output point,
in direction 1 and in one of the directions of the run that is closest to 0.6. If one direction lies strictly
between 0 and 1.2 the second curve belongs to a positive direction, and both are exact in the sense of
`c137_exact`. -/
theorem c137_curves {mus xs : List ℝ} {tfinal : ℝ} {out : List (ℝ × ℝ × ℝ)}
    (h : movingShockBenchmark mus xs tfinal = some out) :
    ∃ mu2 ∈ mus, (∀ m ∈ mus, |mu2 - 0.6| ≤ |m - 0.6|) ∧ ((∃ m ∈ mus, 0 < m ∧ m < 1.2) → 0 < mu2) ∧
      out.length = 25 ∧ (∃ hne : xs ≠ [], out.head?.map Prod.fst = some (xs.head hne) ∧
        out.getLast?.map Prod.fst = some (xs.getLast hne)) ∧
      ∀ q ∈ out, q.2.1 = movingGaussianShock tfinal q.1 1 ∧ q.2.2 = movingGaussianShock tfinal q.1 mu2 := by
  unfold movingShockBenchmark at h
  obtain ⟨mu2, h1, h⟩ := Option.bind_eq_some_iff.1 h
  obtain ⟨a, ha, h⟩ := Option.bind_eq_some_iff.1 h
  obtain ⟨b, hb, h⟩ := Option.map_eq_some_iff.1 h
  have hmu : mu2 ∈ mus ∧ ∀ m ∈ mus, |mu2 - 0.6| ≤ |m - 0.6| := by
    cases mus with
    | nil => simp [nearSixTenths] at h1
    | cons m ms =>
      obtain ⟨g1, g2, g3⟩ := fold_closer 0.6 ms m
      rw [nearSixTenths, Option.some_inj] at h1
      rw [h1] at g1 g2 g3
      refine ⟨?_, fun d hd => ?_⟩
      · rcases g1 with g1 | g1
        · rw [g1]; exact List.mem_cons_self
        · exact List.mem_cons_of_mem _ g1
      · rcases List.mem_cons.1 hd with rfl | hd
        · exact g2
        · exact g3 d hd
  refine ⟨mu2, hmu.1, hmu.2, ?_, ?_, ?_, ?_⟩
  · rintro ⟨m, hm, hm0, hm1⟩
    have := hmu.2 m hm
    have h2 : |m - 0.6| < 0.6 := by
      rw [abs_lt]
      constructor <;> linarith
    have := (abs_lt.1 (this.trans_lt h2)).1
    linarith
  · subst h
    simp [sparseXs]
  · have hne : xs ≠ [] := by
      rintro rfl
      simp at ha
    refine ⟨hne, ?_, ?_⟩
    · rw [List.head?_eq_some_head hne, Option.some_inj] at ha
      subst h
      simp [sparseXs, List.range_succ, ha]
    · rw [List.getLast?_eq_some_getLast hne, Option.some_inj] at hb
      subst h
      simp [sparseXs, List.range_succ, hb]
      ring
  · subst h
    intro q hq
    obtain ⟨x, -, rfl⟩ := List.mem_map.1 hq
    exact ⟨rfl, rfl⟩

/-- The two directions of the S2 run and two output points. -/
example : ∃ out, movingShockBenchmark [-0.5773502691896257, 0.5773502691896257] [-5, 5] 1 = some out :=
  ⟨_, rfl⟩

/-- C137: no opacity of the program is the one of this benchmark, whatever the parameters. -/
theorem c137_no_setting (c : OpacityConfig) : ∃ x t, 0 ≤ t ∧ sigmaFunction c x t ≠ travellingBump x t := by
  have hb : ∀ x t, x + t / 4 ≠ 0 → travellingBump x t < 1 := fun x t h => by
    unfold travellingBump
    rw [exp_lt_one_iff]
    have := sq_pos_of_ne_zero h
    linarith [this]
  have h1 : travellingBump 0 0 = 1 := by simp [travellingBump]
  unfold sigmaFunction
  rcases c.func with _ | _ | _ | _ | _ | _
  · refine ⟨1, 0, le_rfl, ?_⟩
    have := hb 1 0 (by norm_num)
    dsimp only
    linarith
  · refine ⟨0, 4, by norm_num, ?_⟩
    have := hb 0 4 (by norm_num)
    dsimp only
    norm_num
    linarith
  · refine ⟨0, 0, le_rfl, ?_⟩
    rw [h1]
    dsimp only
    rw [Ne, exp_eq_one_iff]
    norm_num
  · refine ⟨-1, 0, le_rfl, ?_⟩
    have := hb (-1) 0 (by norm_num)
    have h2 : (1 : ℝ) < exp (- -1 / 100000000000) := by
      rw [one_lt_exp_iff]
      norm_num
    dsimp only
    linarith
  · refine ⟨-1, 0, le_rfl, ?_⟩
    have h2 : (7 / 8 : ℝ) ≤ travellingBump (-1) 0 := by
      unfold travellingBump
      have := add_one_le_exp (-(-1 + (0 : ℝ) / 4) ^ 2 / 8)
      norm_num at this ⊢
      linarith
    dsimp only
    have e : xi2 (-1) 0 1 c.sigmaV = 0 := by simp [xi2]
    rw [e]
    rw [heavisideVec, heavisideVec, if_pos (by norm_num), if_neg (by norm_num)]
    norm_num
    linarith
  · refine ⟨0, 0, le_rfl, ?_⟩
    rw [h1]
    norm_num

end Verif.Props
