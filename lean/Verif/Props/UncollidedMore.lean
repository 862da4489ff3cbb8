import Verif.Props.UncollidedS2
import Verif.Props.SlabBasis

/-!
C42, C43, C66-C69: proportionality to the source strength, the spherical shell, Gaussian pulses and
sources, the plane source moments, independence of earlier calls.
-/

namespace Verif.Props

open MeasureTheory Real Set Verif.Spec Verif.Model Verif.Lemmas

/-! ### C42 -/

/-- The configurations whose uncollided flux contains the strength twice. -/
def StrengthTwice (c : UncollidedConfig) : Prop :=
  c.uncollided = true ∧ c.geometry = .slab ∧ c.st 0 ≠ 1 ∧
    (c.st 1 = 1 ∨ (c.st 2 ≠ 1 ∧ c.st 3 = 1))

/-- A configuration with the strength scaled. -/
def scaleStrength (k : ℝ) (c : UncollidedConfig) : UncollidedConfig :=
  { c with strength := k * c.strength }

/-- C42: proportional to the strength, except for square and Gaussian pulses in the slab. -/
theorem c42_proportional_partial (c : UncollidedConfig) (h : ¬ StrengthTwice c) (k t : ℝ)
    (prev xs : List ℝ) :
    uncollidedSolution (scaleStrength k c) (prev.map (k * ·)) xs t =
      (uncollidedSolution c prev xs t).map (k * ·) := by
  obtain ⟨d, hd⟩ : ∃ d, d = scaleStrength k c := ⟨_, rfl⟩
  have hst : ∀ i, d.st i = c.st i := fun i => by rw [hd]; rfl
  have haz : d.allZero = c.allZero := by rw [hd]; rfl
  have hu' : d.uncollided = c.uncollided := by rw [hd]; rfl
  have hg' : d.geometry = c.geometry := by rw [hd]; rfl
  have hx0 : d.x0 = c.x0 := by rw [hd]; rfl
  have ht0 : d.t0 = c.t0 := by rw [hd]; rfl
  have hN : d.nAng = c.nAng := by rw [hd]; rfl
  have hE : d.expi = c.expi := by rw [hd]; rfl
  have hs : d.strength = k * c.strength := by rw [hd]; rfl
  have f1 : ∀ x, gaussianS2 d x t = gaussianS2 c x t := fun x => by rw [hd]; rfl
  have f2 : ∀ x, gaussianSource d x t = gaussianSource c x t := fun x => by rw [hd]; rfl
  have f3 : ∀ x, fakeSedov d x t = fakeSedov c x t := fun x => by rw [hd]; rfl
  rw [← hd]
  unfold uncollidedSolution
  rw [hu', hg']
  simp only [hst, haz, hx0, ht0, hN, hE, hs, f1, f2, f3]
  by_cases hu : c.uncollided = true
  · rw [if_pos hu, if_pos hu]
    rcases hg : c.geometry with _ | _
    · simp only
      by_cases h0 : c.st 0 = 1
      · simp [h0, List.map_map, Function.comp_def, mul_left_comm]
      by_cases h1 : c.st 1 = 1
      · exact absurd ⟨hu, hg, h0, Or.inl h1⟩ h
      by_cases h2 : c.st 2 = 1
      · by_cases h3 : c.nAng = 2 <;>
          simp [h0, h1, h2, h3, List.map_map, Function.comp_def, mul_left_comm]
      by_cases h4 : c.st 3 = 1
      · exact absurd ⟨hu, hg, h0, Or.inr ⟨h2, h4⟩⟩ h
      by_cases h5 : c.st 5 = 1
      · by_cases h3 : c.nAng = 2 <;>
          simp [h0, h1, h2, h3, h4, h5, List.map_map, Function.comp_def, mul_left_comm]
      by_cases h6 : c.allZero <;>
        (have h6' := h6
         rw [← haz] at h6'
         simp [h0, h1, h2, h4, h5, h6, h6', List.map_map, Function.comp_def, mul_left_comm])
    · simp only
      by_cases h0 : c.st 0 = 1
      · simp [h0, List.map_map, Function.comp_def, mul_left_comm]
      by_cases h1 : c.st 1 = 1 <;>
        simp [h0, h1, List.map_map, Function.comp_def, mul_left_comm]
  · simp only [hu]
    simp

/-- C42 fails for square and Gaussian pulses in the slab: the flux grows with the square of the
strength. -/
theorem c42_squared (c : UncollidedConfig) (h : StrengthTwice c) (k t : ℝ) (prev xs : List ℝ) :
    uncollidedSolution (scaleStrength k c) prev xs t =
      (uncollidedSolution c prev xs t).map (k ^ 2 * ·) := by
  obtain ⟨hu, hg, h0, hh⟩ := h
  have e : ∀ i, (scaleStrength k c).st i = c.st i := fun i => rfl
  unfold uncollidedSolution
  simp only [e]
  simp only [scaleStrength, hu, hg, if_true, h0, if_false]
  by_cases h1 : c.st 1 = 1
  · simp only [h1, if_true, List.map_map, Function.comp_def]
    exact List.map_congr_left fun x _ => by ring
  · obtain ⟨h2, h3⟩ := hh.resolve_left h1
    simp only [h1, h2, h3, if_true, if_false, gaussianIC, List.map_map, Function.comp_def]
    exact List.map_congr_left fun x _ => by ring

/-- A configuration for the examples. -/
noncomputable def exampleUncollided (st : List ℤ) : UncollidedConfig where
  sourceType := st
  uncollided := true
  geometry := .slab
  x0 := 1 / 2
  t0 := 5
  tQuad := [(0, 2)]
  angles := [(1 / 2, 1)]
  nAng := 16
  sigma := 1 / 2
  strength := 1
  v0 := 0
  expi := fun _ => 0
  erf := Verif.Spec.erf

/-- C42 fails: a square pulse of double strength has four times the flux. -/
theorem c42_not_proportional :
    uncollidedSolution (scaleStrength 2 (exampleUncollided [0, 1, 0, 0, 0, 0])) [] [0] 0 = [4] ∧
      uncollidedSolution (exampleUncollided [0, 1, 0, 0, 0, 0]) [] [0] 0 = [1] := by
  have h1 : uncollidedSolution (exampleUncollided [0, 1, 0, 0, 0, 0]) [] [0] 0 = [1] := by
    have := c38_start (x0 := 1 / 2) (x := 0) (by norm_num)
    simp only [uncollidedSolution, exampleUncollided, UncollidedConfig.st, if_true]
    norm_num at this ⊢
    exact this
  refine ⟨?_, h1⟩
  rw [c42_squared _ ⟨rfl, rfl, by decide, Or.inl (by decide)⟩, h1]
  norm_num

example : uncollidedSolution (scaleStrength 3 (exampleUncollided [1, 0, 0, 0, 0, 0])) [] [0, 1] 2 =
    (uncollidedSolution (exampleUncollided [1, 0, 0, 0, 0, 0]) [] [0, 1] 2).map (3 * ·) :=
  c42_proportional_partial _ (by
    rintro ⟨_, _, h, _⟩
    exact h (by decide)) 3 2 [] _

/-! ### C43 -/

/-- C43: the shell flux counts the directions pointing back into the ball. -/
theorem c43_shell {x0 r t : ℝ} (hr : 0 < r) (ht : 0 ≤ t) :
    shellIC x0 r t = exp (-t) * (1 / (4 * π / 3 * x0 ^ 3) / (4 * π)) *
      (2 * π * (volume (ballDirections r (t + 1e-12) x0)).toReal) := by
  have htt : (0 : ℝ) < t + 1e-12 := by positivity
  unfold shellIC
  simp only
  obtain ⟨s, hs⟩ : ∃ s : ℝ, s = t + 1e-12 := ⟨_, rfl⟩
  rw [← hs] at htt ⊢
  obtain ⟨m, hm⟩ : ∃ m : ℝ, m = 0.5 * (s / r + r / s - x0 ^ 2 / (r * s)) := ⟨_, rfl⟩
  have hm' : m = (r ^ 2 + s ^ 2 - x0 ^ 2) / (2 * r * s) := by
    rw [hm]; field_simp; ring
  have e : ballDirections r s x0 = Icc (max (-1) m) 1 := by
    ext μ
    simp only [ballDirections, mem_ofPred_eq, mem_Icc, max_le_iff]
    rw [hm', div_le_iff₀ (by positivity)]
    constructor
    · rintro ⟨h1, h2, h3⟩
      exact ⟨⟨h1, by linarith⟩, h2⟩
    · rintro ⟨⟨h1, h3⟩, h2⟩
      exact ⟨h1, h2, by linarith⟩
  rw [e, Real.volume_Icc, ENNReal.toReal_ofReal', ← hm]
  have e2 : max (1 - max (-1) m) 0 = 1 - min 1 (max (-1) m) := by
    rcases le_total (max (-1) m) 1 with h | h
    · rw [min_eq_right h, max_eq_left (by linarith)]
    · rw [min_eq_left h, max_eq_right (by linarith)]; ring
  rw [e2, mul_one]
  ring

example : shellIC 1 2 3 = exp (-3) * (1 / (4 * π / 3 * 1 ^ 3) / (4 * π)) *
    (2 * π * (volume (ballDirections 2 (3 + 1e-12) 1)).toReal) :=
  c43_shell (by norm_num) (by norm_num)

/-! ### C66 -/

theorem hasDerivAt_erf (x : ℝ) : HasDerivAt erf (2 / √π * exp (-x ^ 2)) x := by
  have hc : Continuous fun u : ℝ => exp (-u ^ 2) := by fun_prop
  exact (intervalIntegral.integral_hasDerivAt_right (hc.intervalIntegrable _ _)
    (hc.stronglyMeasurableAtFilter _ _) hc.continuousAt).const_mul _

theorem erf_neg (x : ℝ) : erf (-x) = -erf x := by
  unfold erf
  have := intervalIntegral.integral_comp_neg (a := 0) (b := x) (fun u : ℝ => exp (-u ^ 2))
  simp only [neg_zero, neg_sq] at this
  rw [intervalIntegral.integral_symm, ← this]
  ring

theorem erf_mono : StrictMono erf := by
  refine strictMono_of_hasDerivAt_pos hasDerivAt_erf fun x => ?_
  positivity

/-- The Gaussian pulse in closed form. -/
theorem gaussPulse_closed (x : ℝ) {s σ : ℝ} (hs : 0 < s) (hσ : 0 < σ) :
    gaussPulse x s σ = σ * exp (-s) * √π * (erf ((s - x) / σ) + erf ((s + x) / σ)) / (4 * s) := by
  have hpi : (0 : ℝ) < √π := Real.sqrt_pos.mpr Real.pi_pos
  have hd : ∀ μ : ℝ, HasDerivAt (fun μ => σ * √π / (2 * s) * erf ((μ * s - x) / σ))
      (exp (-((x - μ * s) ^ 2 / σ ^ 2))) μ := by
    intro μ
    have h1 : HasDerivAt (fun μ : ℝ => (μ * s - x) / σ) (s / σ) μ := by
      have := (((hasDerivAt_id μ).mul_const s).sub_const x).div_const σ
      simpa using this
    have h2 := ((hasDerivAt_erf ((μ * s - x) / σ)).comp μ h1).const_mul (σ * √π / (2 * s))
    refine h2.congr_deriv ?_
    have : -((μ * s - x) / σ) ^ 2 = -((x - μ * s) ^ 2 / σ ^ 2) := by
      rw [div_pow]; ring
    rw [this]
    field_simp
  have hi := intervalIntegral.integral_eq_sub_of_hasDerivAt (a := -1) (b := 1)
    (fun μ _ => hd μ) (by
      apply Continuous.intervalIntegrable
      fun_prop)
  unfold gaussPulse
  rw [hi]
  have e1 : (-1 * s - x) / σ = -((s + x) / σ) := by ring
  rw [e1, erf_neg, one_mul]
  field_simp
  ring

/-- C66: the Gaussian pulse is the free-streaming solution up to the factor `1 + 1e-12/t`. -/
theorem c66_gaussian_pulse (c : UncollidedConfig) (he : c.erf = erf) (x : ℝ) {t : ℝ} (ht : 0 < t)
    (hσ : 0 < c.sigma) :
    ∃ G, gaussianIC c x t = c.strength * G ∧ G ≤ gaussPulse x t c.sigma ∧
      gaussPulse x t c.sigma ≤ G * (1 + 1e-12 / t) := by
  refine ⟨c.sigma * exp (-t) * √π * (erf ((t - x) / c.sigma) + erf ((t + x) / c.sigma)) /
    (4 * t + 1e-12), ?_, ?_⟩
  · unfold gaussianIC
    rw [he]
    ring
  · rw [gaussPulse_closed x ht hσ]
    refine regularised ?_ (by linarith) (by norm_num) ?_
    · refine mul_nonneg (by positivity) ?_
      have h : erf (-((t - x) / c.sigma)) ≤ erf ((t + x) / c.sigma) := by
        apply erf_mono.monotone
        rw [← neg_div]
        exact div_le_div_of_nonneg_right (by linarith) hσ.le
      rw [erf_neg] at h
      linarith
    · apply div_le_div_of_nonneg_left (by norm_num) ht; linarith

/-- C66: the integrand for the Gaussian source, with the factors of line 148, is the flux of a pulse
emitted at `τ`. -/
theorem c66_gaussian_integrand (c : UncollidedConfig) (he : c.erf = erf) (x : ℝ) {t τ : ℝ}
    (h : τ < t) (hσ : 0 < c.sigma) :
    gaussianIntegrand c t x τ * √π * c.sigma = gaussPulse x (t - τ) c.sigma := by
  have hs : 0 < t - τ := by linarith
  rw [gaussPulse_closed x hs hσ]
  unfold gaussianIntegrand
  rw [if_pos hs.ne', he]
  have e : erf ((t - τ - |x|) / c.sigma) + erf ((t - τ + |x|) / c.sigma) =
      erf ((t - τ - x) / c.sigma) + erf ((t - τ + x) / c.sigma) := by
    rcases abs_cases x with ⟨h, _⟩ | ⟨h, _⟩ <;> rw [h]
    rw [sub_neg_eq_add, ← sub_eq_add_neg, add_comm]
  rw [e]
  field_simp

example : ∃ G, gaussianIC (exampleUncollided [0, 0, 0, 1, 0, 0]) 3 2 = 1 * G ∧
    G ≤ gaussPulse 3 2 (1 / 2) ∧ gaussPulse 3 2 (1 / 2) ≤ G * (1 + 1e-12 / 2) :=
  c66_gaussian_pulse (exampleUncollided _) rfl 3 (by norm_num) (by norm_num [exampleUncollided])

/-! ### C67 -/

/-- C67: the integrand for wide sources is that of the two-ray integral. -/
theorem c67_thick_integrand (σ t x τ : ℝ) :
    gaussianS2Thick σ t x τ = exp (-(t - τ)) / 2 *
      (exp (-((x - (t - τ) / √3) ^ 2 / σ ^ 2)) + exp (-((x + (t - τ) / √3) ^ 2 / σ ^ 2))) := by
  have h3 : √3 ^ 2 = (3 : ℝ) := Real.sq_sqrt (by norm_num)
  have r := sqrt3_pos
  have key : ∀ y z : ℝ, (3 * y + √3 * z) ^ 2 / (9 * σ ^ 2) = (y + z / √3) ^ 2 / σ ^ 2 := by
    intro y z
    have : z / √3 = √3 * z / 3 := (sqrt3_third z).symm
    rw [this]
    rcases eq_or_ne σ 0 with h | h
    · simp [h]
    · field_simp
      ring
  unfold gaussianS2Thick
  have e1 : -(√3 * t + 3 * x - √3 * τ) ^ 2 / (9 * σ ^ 2) = -((x + (t - τ) / √3) ^ 2 / σ ^ 2) := by
    rw [← key, neg_div]; congr 3; ring
  have e2 : -(-(√3 * t) + 3 * x + √3 * τ) ^ 2 / (9 * σ ^ 2) =
      -((x - (t - τ) / √3) ^ 2 / σ ^ 2) := by
    have := key x (-(t - τ))
    rw [neg_div, ← sub_eq_add_neg] at this
    rw [← this, neg_div]; congr 3; ring
  rw [e1, e2, show -t + τ = -(t - τ) by ring]
  ring

/-- C67: the closed form is the two-ray integral. -/
theorem c67_closed_form (x t t0 : ℝ) {σ : ℝ} (hσ : 0 < σ) :
    gaussianS2Closed erf x t σ t0 = gaussSourceS2 x t σ t0 := by
  have r := sqrt3_pos
  have h3 : √3 ^ 2 = (3 : ℝ) := Real.sq_sqrt (by norm_num)
  have hpi : (0 : ℝ) < √π := Real.sqrt_pos.mpr Real.pi_pos
  have h3p : √(3 * π) = √3 * √π := Real.sqrt_mul (by norm_num) _
  -- the part of the closed form that depends on the final time
  have hd : ∀ τ : ℝ, HasDerivAt (fun τ => exp (-(√3 * x) + 3 * σ ^ 2 / 4) * √(3 * π) * σ *
      (erf ((-2 * t + 2 * τ + 2 * √3 * x - 3 * σ ^ 2) / (2 * √3 * σ)) +
        exp (2 * √3 * x) * (erf (t / (√3 * σ) + x / σ + √3 * σ / 2) -
          erf ((2 * t - 2 * τ + 2 * √3 * x + 3 * σ ^ 2) / (2 * √3 * σ))) +
        erf ((2 * √3 * t - 6 * x + 3 * √3 * σ ^ 2) / (6 * σ))) / 4)
      (exp (-(t - τ)) / 2 *
        (exp (-((x - (t - τ) / √3) ^ 2 / σ ^ 2)) + exp (-((x + (t - τ) / √3) ^ 2 / σ ^ 2)))) τ := by
    intro τ
    have a1 : HasDerivAt (fun τ : ℝ => (-2 * t + 2 * τ + 2 * √3 * x - 3 * σ ^ 2) / (2 * √3 * σ))
        (1 / (√3 * σ)) τ := by
      have := (((((hasDerivAt_id τ).const_mul (2 : ℝ)).const_add (-2 * t)).add_const
        (2 * √3 * x)).sub_const (3 * σ ^ 2)).div_const (2 * √3 * σ)
      refine this.congr_deriv ?_
      field_simp
    have a2 : HasDerivAt (fun τ : ℝ => (2 * t - 2 * τ + 2 * √3 * x + 3 * σ ^ 2) / (2 * √3 * σ))
        (-(1 / (√3 * σ))) τ := by
      have := (((((hasDerivAt_id τ).const_mul (2 : ℝ)).const_sub (2 * t)).add_const
        (2 * √3 * x)).add_const (3 * σ ^ 2)).div_const (2 * √3 * σ)
      refine this.congr_deriv ?_
      field_simp
    have d1 := (hasDerivAt_erf _).comp τ a1
    have d2 := (hasDerivAt_erf _).comp τ a2
    have := ((((d1.add ((d2.const_sub (erf (t / (√3 * σ) + x / σ + √3 * σ / 2))).const_mul
      (exp (2 * √3 * x)))).add_const
      (erf ((2 * √3 * t - 6 * x + 3 * √3 * σ ^ 2) / (6 * σ)))).const_mul
      (exp (-(√3 * x) + 3 * σ ^ 2 / 4) * √(3 * π) * σ)).div_const 4)
    refine this.congr_deriv ?_
    have q1 : -((-2 * t + 2 * τ + 2 * √3 * x - 3 * σ ^ 2) / (2 * √3 * σ)) ^ 2 =
        -((x - (t - τ) / √3) ^ 2 / σ ^ 2) + (√3 * x - (t - τ)) - 3 * σ ^ 2 / 4 := by
      rw [← sqrt3_third]
      field_simp
      ring_nf
      simp only [h3, show √3 ^ 3 = 3 * √3 by rw [pow_succ, h3],
        show √3 ^ 4 = (9 : ℝ) by rw [show √3 ^ 4 = (√3 ^ 2) ^ 2 by ring, h3]; norm_num]
      ring
    have q2 : -((2 * t - 2 * τ + 2 * √3 * x + 3 * σ ^ 2) / (2 * √3 * σ)) ^ 2 =
        -((x + (t - τ) / √3) ^ 2 / σ ^ 2) - (√3 * x + (t - τ)) - 3 * σ ^ 2 / 4 := by
      rw [← sqrt3_third]
      field_simp
      ring_nf
      simp only [h3, show √3 ^ 3 = 3 * √3 by rw [pow_succ, h3],
        show √3 ^ 4 = (9 : ℝ) by rw [show √3 ^ 4 = (√3 ^ 2) ^ 2 by ring, h3]; norm_num]
      ring
    have p1 : exp (-(t - τ)) * exp (-((x - (t - τ) / √3) ^ 2 / σ ^ 2)) =
        exp (-(√3 * x) + 3 * σ ^ 2 / 4) *
          exp (-((-2 * t + 2 * τ + 2 * √3 * x - 3 * σ ^ 2) / (2 * √3 * σ)) ^ 2) := by
      rw [q1, ← exp_add, ← exp_add]; congr 1; ring
    have p2 : exp (-(t - τ)) * exp (-((x + (t - τ) / √3) ^ 2 / σ ^ 2)) =
        exp (-(√3 * x) + 3 * σ ^ 2 / 4) * (exp (2 * √3 * x) *
          exp (-((2 * t - 2 * τ + 2 * √3 * x + 3 * σ ^ 2) / (2 * √3 * σ)) ^ 2)) := by
      rw [q2, ← exp_add, ← exp_add, ← exp_add]; congr 1; ring
    have p3 : ∀ a b d : ℝ, a / 2 * (b + d) = (a * b + a * d) / 2 := fun a b d => by ring
    rw [p3, p1, p2, h3p]
    generalize exp (-(√3 * x) + 3 * σ ^ 2 / 4) = A
    generalize exp (2 * √3 * x) = B
    generalize exp (-((-2 * t + 2 * τ + 2 * √3 * x - 3 * σ ^ 2) / (2 * √3 * σ)) ^ 2) = C
    generalize exp (-((2 * t - 2 * τ + 2 * √3 * x + 3 * σ ^ 2) / (2 * √3 * σ)) ^ 2) = D
    field_simp
    ring
  have hi := intervalIntegral.integral_eq_sub_of_hasDerivAt (a := 0) (b := min t t0)
    (fun τ _ => hd τ) (by
      apply Continuous.intervalIntegrable
      fun_prop)
  unfold gaussSourceS2
  rw [hi]
  unfold gaussianS2Closed
  simp only
  have z1 : (-2 * t + 2 * 0 + 2 * √3 * x - 3 * σ ^ 2) / (2 * √3 * σ) =
      -((2 * √3 * t - 6 * x + 3 * √3 * σ ^ 2) / (6 * σ)) := by
    field_simp
    ring_nf
    simp only [h3]
    ring
  have z2 : (2 * t - 2 * 0 + 2 * √3 * x + 3 * σ ^ 2) / (2 * √3 * σ) =
      t / (√3 * σ) + x / σ + √3 * σ / 2 := by
    field_simp
    ring_nf
    simp only [h3]
    ring
  rw [z1, z2, erf_neg]
  ring

example : gaussianS2Closed erf 1 7 (1 / 2) 5 = gaussSourceS2 1 7 (1 / 2) 5 :=
  c67_closed_form 1 7 5 (by norm_num)

/-! ### C68 -/

/-- C68: with `x0` equal to the regularisation, the source moments written (line 122: the first
only, the others staying zero) are the moments of the plane flux. -/
theorem c68_plane_moments_partial (j : ℕ) {t xL xR : ℝ} (h : xL < xR) (hL : -t ≤ xL) (hR : xR ≤ t) :
    ∫ x in xL..xR, planeIC x t * normPn j x xL xR =
      if j = 0 then planeIntegrated 1e-12 t xL xR else 0 := by
  have hw : 0 < xR - xL := by linarith
  have hs : 0 < √(xR - xL) := Real.sqrt_pos.mpr hw
  have hP0 : ∀ x, normPn 0 x xL xR = 1 / √(xR - xL) := by
    intro x
    unfold normPn
    simp [Verif.Spec.legendre, Real.sqrt_inv]
  have e : ∫ x in xL..xR, planeIC x t * normPn j x xL xR =
      ∫ x in xL..xR, (exp (-t) / (2 * t + 1e-12) * √(xR - xL)) *
        (normPn j x xL xR * normPn 0 x xL xR) := by
    refine intervalIntegral.integral_congr ?_
    intro x hx
    rw [uIcc_of_le h.le] at hx
    simp only
    unfold planeIC
    rw [if_pos ⟨by linarith [hx.1], by linarith [hx.2]⟩, hP0]
    field_simp
  rw [e, intervalIntegral.integral_const_mul, c01_slab_basis_orthonormal j 0 h]
  split_ifs
  · unfold planeIntegrated
    ring
  · ring

/-- C68 fails for every other positive `x0`, the usual case, the parameter being the width of the
source. -/
theorem c68_other_x0 {t xL xR x0 : ℝ} (h : xL < xR) (hL : -t ≤ xL) (hR : xR ≤ t) (h0 : 0 < x0)
    (hne : x0 ≠ 1e-12) :
    planeIntegrated x0 t xL xR ≠ ∫ x in xL..xR, planeIC x t * normPn 0 x xL xR := by
  rw [c68_plane_moments_partial 0 h hL hR, if_pos rfl]
  have ht : 0 < t := by linarith
  have hs : 0 < √(xR - xL) := Real.sqrt_pos.mpr (by linarith)
  have hp := exp_pos (-t)
  unfold planeIntegrated
  intro he
  have h1 : (0 : ℝ) < 2 * t + x0 := by linarith
  have h2 : (0 : ℝ) < 2 * t + 1e-12 := by positivity
  have he := mul_right_cancel₀ hs.ne' he
  rw [div_eq_div_iff h1.ne' h2.ne'] at he
  exact hne (by linarith [mul_left_cancel₀ hp.ne' he])

example : planeIntegrated (1 / 2) 2 0 1 ≠ ∫ x in (0 : ℝ)..1, planeIC x 2 * normPn 0 x 0 1 :=
  c68_other_x0 (by norm_num) (by norm_num) (by norm_num) (by norm_num) (by norm_num)

/-! ### C69 -/

/-- The configurations for which some branch computes a new value. -/
def HasUncollidedBranch (c : UncollidedConfig) : Prop :=
  c.uncollided = false ∨
    (c.geometry = .slab ∧
      (c.st 0 = 1 ∨ c.st 1 = 1 ∨ c.st 2 = 1 ∨ c.st 3 = 1 ∨ c.st 5 = 1 ∨ c.allZero)) ∨
    (c.geometry = .sphere ∧ (c.st 0 = 1 ∨ c.st 1 = 1))

/-- C69: where a branch applies there is one value per point, each depending on its point and the
time only. -/
theorem c69_independent_partial (c : UncollidedConfig) (h : HasUncollidedBranch c) (t : ℝ) :
    ∃ f : ℝ → ℝ, ∀ prev xs, uncollidedSolution c prev xs t = xs.map f := by
  unfold uncollidedSolution
  by_cases hu : c.uncollided = true
  · simp only [hu, if_true]
    rcases hg : c.geometry with _ | _
    · simp only
      split_ifs with h0 h1 h2 h3 h4 h5 h6 h7
      all_goals first
        | exact ⟨_, fun _ _ => rfl⟩
        | skip
      exfalso
      rcases h with h | ⟨_, h⟩ | ⟨h, _⟩
      · simp [hu] at h
      · rcases h with h | h | h | h | h | h <;> contradiction
      · rw [hg] at h; cases h
    · simp only
      split_ifs with h0 h1
      · exact ⟨_, fun _ _ => rfl⟩
      · exact ⟨_, fun _ _ => rfl⟩
      · exfalso
        rcases h with h | ⟨h, _⟩ | ⟨_, h⟩
        · simp [hu] at h
        · rw [hg] at h; cases h
        · rcases h with h | h <;> contradiction
  · simp only [hu]
    exact ⟨_, fun _ _ => rfl⟩

/-- C69 fails for the others: they return what was left by the call before. -/
theorem c69_stale (c : UncollidedConfig) (h : ¬ HasUncollidedBranch c) (prev xs : List ℝ) (t : ℝ) :
    uncollidedSolution c prev xs t = prev := by
  unfold HasUncollidedBranch at h
  push Not at h
  obtain ⟨hu, h1, h2⟩ := h
  have hu : c.uncollided = true := by simpa using hu
  unfold uncollidedSolution
  simp only [hu, if_true]
  rcases hg : c.geometry with _ | _
  · obtain ⟨a0, a1, a2, a3, a5, a6⟩ := h1 hg
    simp [a0, a1, a2, a3, a5, a6]
  · obtain ⟨a0, a1⟩ := h2 hg
    simp [a0, a1]

/-- C69 fails: the manufactured source with the uncollided switch on gives one zero for any points
(`np.zeros(1)` is the initial value). -/
theorem c69_manufactured : uncollidedSolution (exampleUncollided [0, 0, 0, 0, 1, 0]) [0] [1, 2, 3] 1 =
    [0] :=
  c69_stale _ (by
    rintro (h | ⟨_, h⟩ | ⟨h, _⟩)
    · simp [exampleUncollided] at h
    · rcases h with h | h | h | h | h | h
      · exact absurd h (by decide)
      · exact absurd h (by decide)
      · exact absurd h (by decide)
      · exact absurd h (by decide)
      · exact absurd h (by decide)
      · exact absurd (h 1 (by simp [exampleUncollided])) (by decide)
    · cases h) _ _ _

example : ∃ f : ℝ → ℝ, ∀ prev xs,
    uncollidedSolution (exampleUncollided [0, 0, 1, 0, 0, 0]) prev xs 3 = xs.map f :=
  c69_independent_partial _ (Or.inr (Or.inl ⟨rfl, Or.inr (Or.inr (Or.inl (by decide)))⟩)) 3

end Verif.Props
