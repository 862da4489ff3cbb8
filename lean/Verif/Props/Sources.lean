import Verif.Spec.Sources
import Verif.Lemmas.Sources
import Verif.Model.Build
import Verif.Model.ActiveRhs
import Verif.Props.UncollidedMore

/-!
Properties C44 - C46, C70, C71, C74 - C76: manufactured solution, emission, sources.
-/

namespace Verif.Props

open Verif.Spec Verif.Model Verif.Lemmas Real

/-! ### C44 -/

/-- The manufactured angular flux. -/
noncomputable def manufactured (x t _μ : ℝ) : ℝ := exp (-x ^ 2 / 2) / (2 * (1 + t))

/-- C44: the manufactured flux satisfies the transport equation with scattering ratio one and half
the manufactured source, in the source region and for all directions. -/
theorem c44_transport (dirs : List (ℝ × ℝ)) (hw : (dirs.map Prod.snd).sum = 1) (x0 x t μ : ℝ)
    (ht : 0 ≤ t) (h : -t - x0 ≤ x) (h' : x ≤ t + x0) :
    TransportAt dirs 1 (mmsSource x0 x t μ) manufactured x t μ := by
  have h1 : (1 + t) ≠ 0 := by positivity
  refine ⟨-exp (-x ^ 2 / 2) / (2 * (1 + t) ^ 2), -x * exp (-x ^ 2 / 2) / (2 * (1 + t)), ?_, ?_, ?_⟩
  · have hd : HasDerivAt (fun s : ℝ => 2 * (1 + s)) 2 t := by
      simpa using ((hasDerivAt_id t).const_add 1).const_mul 2
    have := (hasDerivAt_const t (exp (-x ^ 2 / 2))).div hd (by positivity)
    refine this.congr_deriv ?_
    field_simp
    ring
  · have hd : HasDerivAt (fun y : ℝ => -y ^ 2 / 2) (-x) x := by
      have := ((hasDerivAt_pow 2 x).neg).div_const 2
      refine this.congr_deriv ?_
      norm_num
      ring
    have := hd.exp.div_const (2 * (1 + t))
    refine this.congr_deriv ?_
    ring
  · have e : (dirs.map fun d => d.2 * manufactured x t d.1).sum = manufactured x t μ := by
      have : (dirs.map fun d => d.2 * manufactured x t d.1) =
          dirs.map fun d => manufactured x t μ * d.2 := by
        apply List.map_congr_left
        intro d _
        simp only [manufactured]
        ring
      rw [this, list_sum_mul_left]
      have e : (dirs.map fun d => d.2).sum = 1 := hw
      rw [e, mul_one]
    rw [e]
    unfold mmsSource manufactured
    rw [if_pos ⟨h, h'⟩]
    have hx : exp (-x ^ 2 / 2) = (exp (x ^ 2 / 2))⁻¹ := by rw [← exp_neg]; congr 1; ring
    rw [hx]
    have := exp_pos (x ^ 2 / 2)
    field_simp
    ring

/-- C44: the initial condition is the manufactured flux at time zero. -/
theorem c44_initial (c : ICConfig) (hg : c.geometry = .slab) (hu : c.uncollided = false)
    (h0 : c.st 0 = 0) (h1 : c.st 1 = 0) (h2 : c.st 2 = 0) (h3 : c.st 3 = 0) (h4 : c.st 4 = 1)
    (x μ : ℝ) : icFunction c x μ = some (manufactured x 0 μ) := by
  unfold icFunction manufactured mmsIC
  have e : -x * x = -x ^ 2 := by ring
  simp only [hg, hu, h0, h1, h2, h3, h4, e]
  norm_num

/-- C44: the incoming flux used at the outer boundary is the manufactured flux there. -/
theorem c44_boundary (c : FluxConfig) (h : c.mms = true) (x t μ : ℝ) :
    bcFunc c x t = manufactured x t μ := by
  unfold bcFunc manufactured
  rw [if_pos h, div_div]
  congr 1
  · congr 1; ring
  · ring

/-- The normalised weights of the code satisfy the hypothesis on the weights. -/
theorem normalized_sum (mus ws : List ℝ) (hl : mus.length = ws.length) (h : ws.sum ≠ 0) :
    ((mus.zip (normalizedWeights ws)).map Prod.snd).sum = 1 := by
  have : (mus.zip (normalizedWeights ws)).map Prod.snd = normalizedWeights ws := by
    apply List.map_snd_zip
    simp [normalizedWeights, hl]
  rw [this]
  unfold normalizedWeights
  have e : (ws.map (· / ws.sum)) = ws.map fun w => (ws.sum)⁻¹ * w := by
    apply List.map_congr_left; intro w _; ring
  rw [e, list_sum_mul_left]
  simp [h]

example (x : ℝ) (h : -2 - 1 ≤ x) (h' : x ≤ 2 + 1) : TransportAt
    (List.zip [-1, 0, 1] (normalizedWeights [1 / 3, 4 / 3, 1 / 3])) 1 (mmsSource 1 x 2 (1 / 2))
    manufactured x 2 (1 / 2) :=
  c44_transport _ (normalized_sum [-1, 0, 1] [1 / 3, 4 / 3, 1 / 3] rfl (by norm_num)) 1 x 2 (1 / 2) (by norm_num) h h'

example (x μ : ℝ) := c44_initial ⟨[0, 0, 0, 0, 1, 0], false, .slab, 1, 1, 1, 0⟩ rfl rfl rfl rfl rfl
  rfl rfl x μ

/-! ### C45 -/

/-- C45: for any positive radiation constant, emission of the linearised model is the material
energy density, for every real energy. -/
theorem c45_emission_general {a : ℝ} (ha : 0 < a) (e : ℝ) :
    a * suOlsonT (4 * a) e ^ 4 * fudgeFactor e = e := by
  have hp : ∀ y : ℝ, 0 ≤ y → (y ^ (0.25 : ℝ)) ^ 4 = y := fun y hy => by
    rw [← rpow_natCast, ← rpow_mul hy]; norm_num
  unfold suOlsonT fudgeFactor
  rw [hp _ (abs_nonneg _), abs_div, abs_mul, abs_of_pos (by positivity : (0 : ℝ) < 4 * a),
    abs_of_pos (by norm_num : (0 : ℝ) < 4)]
  split_ifs with h
  · rw [abs_of_neg h]; field_simp
  · rw [abs_of_nonneg (not_lt.1 h)]; field_simp

/-- C45: with the constants of the code. -/
theorem c45_emission (cv0 e : ℝ) : tFunc .suOlson cv0 e = some e := by
  unfold tFunc radAlpha
  rw [c45_emission_general (by unfold radA; norm_num)]

/-- C45, second model: with a constant heat capacity, emission is `T⁴` for the temperature at which
the material energy density (in units of `a`) is `cv0 T`. -/
theorem c45_constant_cv {cv0 : ℝ} (hcv : cv0 ≠ 0) (T e : ℝ) (h : 0.0137225 * e = cv0 * T) :
    tFunc .constantCv cv0 e = some (T ^ 4) := by
  have ha : radA ≠ 0 := by unfold radA; norm_num
  change radA * e = cv0 * T at h
  have : e / scaledCv cv0 = T := by
    unfold scaledCv
    field_simp
    linarith
  unfold tFunc
  rw [this]

example : tFunc .suOlson 0 (-3) = some (-3) := c45_emission 0 (-3)
example : tFunc .constantCv 0.3 (0.3 * 2 / 0.0137225) = some (2 ^ 4) :=
  c45_constant_cv (by norm_num) 2 _ (by norm_num)

/-! ### C46 -/

/-- C46: the square source. -/
theorem c46_square (x0 t0 x t : ℝ) :
    ((|x| ≤ x0 ∧ t < t0) → squareVolumeSource x0 t0 x t = 1) ∧
      (¬ (|x| ≤ x0 ∧ t < t0) → squareVolumeSource x0 t0 x t = 0) ∧
      0 ≤ squareVolumeSource x0 t0 x t ∧
      squareVolumeSource x0 t0 (-x) t = squareVolumeSource x0 t0 x t := by
  unfold squareVolumeSource
  rw [abs_neg]
  refine ⟨fun h => by simp [h], fun h => by simp [h], ?_, ?_⟩ <;> split_ifs <;> simp

/-- C46: the gaussian source. -/
theorem c46_gaussian (σ t0 x t : ℝ) :
    (t ≤ t0 → gaussianVolumeSource σ t0 x t = exp (-(x / σ) ^ 2)) ∧
      (t0 < t → gaussianVolumeSource σ t0 x t = 0) ∧ 0 ≤ gaussianVolumeSource σ t0 x t ∧
      gaussianVolumeSource σ t0 (-x) t = gaussianVolumeSource σ t0 x t := by
  unfold gaussianVolumeSource
  refine ⟨fun h => ?_, fun h => by simp [h], ?_, ?_⟩
  · rw [if_pos h]; congr 1; ring
  · split_ifs
    · exact (exp_pos _).le
    · simp
  · simp

example : squareVolumeSource (1 / 2) 10 (1 / 2) 9 = 1 :=
  (c46_square _ _ _ _).1 ⟨by rw [abs_of_pos (by norm_num)], by norm_num⟩
example : squareVolumeSource (1 / 2) 10 (1 / 2) 10 = 0 := (c46_square _ _ _ _).2.1 (by norm_num)

/-! ### C71 -/

/-- C71: with a quadrature rule exact to degree `2M` (the code uses `2M+1` Gauss points, exact to
degree `4M+1`) the emission vector of the linearised model is the vector of material energy
coefficients. -/
theorem c71_emission_moments (cv0 : ℝ) (M : ℕ) (q : List (ℝ × ℝ)) (hq : QuadExact q (2 * M))
    {a b : ℝ} (h : a < b) (e : ℕ → ℝ) {j : ℕ} (hj : j ≤ M) :
    makeEmission .suOlson cv0 false M q a b e j = some (e j) := by
  simp only [makeEmission, Bool.false_eq_true, if_false, Option.some.injEq]
  apply slabMoment_field hq h e _ _ hj
  intro r _
  rw [c45_emission]
  simp only [Option.getD_some]
  unfold makeE slabField
  exact Finset.sum_congr rfl fun i _ => by rw [normPn_eq_slabBasis i _ h, mul_comm]

/-- Two-point Gauss rule: exact to degree three, used as an example. -/
theorem two_point_exact : QuadExact [(-(√3)⁻¹, 1), ((√3)⁻¹, 1)] 3 := by
  intro p hp
  have h3 : (√3 : ℝ) ^ 2 = 3 := Real.sq_sqrt (by norm_num)
  have hs : ((√3 : ℝ)⁻¹) ^ 2 = 1 / 3 := by rw [inv_pow, h3]; norm_num
  have e : ∀ x : ℝ, p.eval x =
      p.coeff 0 + p.coeff 1 * x + p.coeff 2 * x ^ 2 + p.coeff 3 * x ^ 3 := by
    intro x
    rw [Polynomial.eval_eq_sum_range' (lt_of_le_of_lt hp (by norm_num : 3 < 4))]
    simp [Finset.sum_range_succ]
  have hi : ∫ x in (-1 : ℝ)..1, p.eval x = 2 * p.coeff 0 + 2 / 3 * p.coeff 2 := by
    simp_rw [e]
    have hd : ∀ x ∈ Set.uIcc (-1 : ℝ) 1, HasDerivAt (fun x : ℝ => p.coeff 0 * x +
        p.coeff 1 * (x ^ 2 / 2) + p.coeff 2 * (x ^ 3 / 3) + p.coeff 3 * (x ^ 4 / 4))
        (p.coeff 0 + p.coeff 1 * x + p.coeff 2 * x ^ 2 + p.coeff 3 * x ^ 3) x := by
      intro x _
      have h1 := (hasDerivAt_id x).const_mul (p.coeff 0)
      have h2 := ((hasDerivAt_pow 2 x).div_const 2).const_mul (p.coeff 1)
      have h3 := ((hasDerivAt_pow 3 x).div_const 3).const_mul (p.coeff 2)
      have h4 := ((hasDerivAt_pow 4 x).div_const 4).const_mul (p.coeff 3)
      refine (((h1.add h2).add h3).add h4).congr_deriv ?_
      norm_num
    rw [intervalIntegral.integral_eq_sub_of_hasDerivAt hd
      (by apply Continuous.intervalIntegrable; fun_prop)]
    ring
  rw [hi]
  simp only [List.map_cons, List.map_nil, List.sum_cons, List.sum_nil, e]
  have h4 : ((√3 : ℝ)⁻¹) ^ 3 = (√3)⁻¹ * (1 / 3) := by rw [pow_succ, hs]; ring
  rw [neg_sq, hs, Odd.neg_pow (by decide), h4]
  ring

theorem quadExact_mono {q : List (ℝ × ℝ)} {m n : ℕ} (h : QuadExact q n) (hm : m ≤ n) :
    QuadExact q m := fun p hp => h p (hp.trans hm)

/-- C71: without material nothing is emitted, whatever the temperature function is called. -/
theorem c71_no_material (f : TempFunction) (cv0 : ℝ) (M : ℕ) (q : List (ℝ × ℝ)) (a b : ℝ) (e : ℕ → ℝ) (j : ℕ) :
    makeEmission f cv0 true M q a b e j = some 0 := rfl

example (e : ℕ → ℝ) : makeEmission .suOlson 0 false 1 [(-(√3)⁻¹, 1), ((√3)⁻¹, 1)] 2 5 e 1 =
    some (e 1) :=
  c71_emission_moments 0 1 _ (quadExact_mono two_point_exact (by norm_num)) (by norm_num) e le_rfl

/-! ### C70 -/

/-- Invariant of the source vector: what `make_source` may find in `S` when it is called. -/
def SourceInv (c : SourceConfig) (S : ℕ → ℝ) : Prop :=
  (∀ j, c.M < j → S j = 0) ∧
    ((c.geometry = .slab ∧ c.uncollided = true ∧ c.st 0 = 1 ∧ c.moving = true) →
      ∀ j, 0 < j → S j = 0) ∧
    ((c.geometry = .slab ∧ c.uncollided = false ∧ c.st 2 ≠ 1 ∧ c.st 5 ≠ 1) → ∀ j, S j = 0) ∧
    ((c.geometry = .sphere ∧ ¬ (c.uncollided = true ∧ c.st 1 = 1)) → ∀ j, S j = 0)

theorem sourceInv_init (c : SourceConfig) : SourceInv c sourceInit :=
  ⟨fun _ _ => rfl, fun _ _ _ => rfl, fun _ _ => rfl, fun _ _ => rfl⟩

theorem sourceInv_step (c : SourceConfig) (unc : ℝ → ℝ → ℝ) (pl : ℝ → ℝ → ℝ → ℝ) (t xL xR : ℝ)
    {S S' : ℕ → ℝ} (h : SourceInv c S) (hs : makeSource c unc pl t xL xR S = some S') :
    SourceInv c S' := by
  obtain ⟨h1, h2, h3, h4⟩ := h
  unfold makeSource at hs
  rcases hg : c.geometry with _ | _
  · simp only [hg] at hs
    split_ifs at hs with hu hp hq hr
    · injection hs with hs
      subst hs
      refine ⟨fun j hj => ?_, fun _ j hj => ?_, fun hh => ?_, fun hh => by simp [hg] at hh⟩
      · simp [assignUpTo, h1 j hj, show ¬ j = 0 by omega]
      · simp [assignUpTo, h2 ⟨hg, hu, hp⟩ j hj, show ¬ j = 0 by omega]
      · simp [hu] at hh
    · injection hs with hs
      subst hs
      refine ⟨fun j hj => ?_, fun hh => absurd hh.2.2 hp, fun hh => ?_,
        fun hh => by simp [hg] at hh⟩
      · simp [assignUpTo, h1 j hj, show ¬ j ≤ c.M by omega]
      · simp [hu] at hh
    · injection hs with hs
      subst hs
      refine ⟨fun j hj => ?_, fun hh => absurd hh.2.1 hu, fun hh => absurd hq hh.2.2.1,
        fun hh => by simp [hg] at hh⟩
      simp [assignUpTo, h1 j hj, show ¬ j ≤ c.M by omega]
    · injection hs with hs
      subst hs
      refine ⟨fun j hj => ?_, fun hh => absurd hh.2.1 hu, fun hh => absurd hr hh.2.2.2,
        fun hh => by simp [hg] at hh⟩
      simp [assignUpTo, h1 j hj, show ¬ j ≤ c.M by omega]
    · injection hs with hs
      subst hs
      refine ⟨fun j hj => by simp [h1 j hj], fun hh => absurd hh.2.1 hu,
        fun hh j => by simp [h3 hh j], fun hh => by simp [hg] at hh⟩
  · simp only [hg] at hs
    split_ifs at hs with hu hM
    · injection hs with hs
      subst hs
      refine ⟨fun j hj => ?_, fun hh => by simp [hg] at hh, fun hh => by simp [hg] at hh,
        fun hh => absurd hu hh.2⟩
      simp [assignUpTo, h1 j hj, show ¬ j ≤ c.M by omega]
    · injection hs with hs
      subst hs
      refine ⟨fun j hj => by simp [h1 j hj], fun hh => by simp [hg] at hh,
        fun hh => by simp [hg] at hh, fun hh j => by simp [h4 hh j]⟩

theorem sourceInv_run (c : SourceConfig) (unc : ℝ → ℝ → ℝ) (pl : ℝ → ℝ → ℝ → ℝ)
    (calls : List (ℝ × ℝ × ℝ)) {S S' : ℕ → ℝ} (h : SourceInv c S)
    (hs : sourceRun c unc pl calls S = some S') : SourceInv c S' := by
  induction calls generalizing S with
  | nil => simp only [sourceRun, Option.some.injEq] at hs; exact hs ▸ h
  | cons k ks ih =>
    simp only [sourceRun, Option.bind_eq_some_iff] at hs
    obtain ⟨S1, hS1, hs⟩ := hs
    exact ih (sourceInv_step c unc pl _ _ _ h hS1) hs

/-- Two states that satisfy the invariant give the same new source. -/
theorem makeSource_inv (c : SourceConfig) (unc : ℝ → ℝ → ℝ) (pl : ℝ → ℝ → ℝ → ℝ) (t xL xR : ℝ)
    {S S' : ℕ → ℝ} (h : SourceInv c S) (h' : SourceInv c S') :
    makeSource c unc pl t xL xR S = makeSource c unc pl t xL xR S' := by
  obtain ⟨h1, h2, h3, h4⟩ := h
  obtain ⟨k1, k2, k3, k4⟩ := h'
  have up : ∀ v : ℕ → ℝ, assignUpTo c.M S v = assignUpTo c.M S' v := fun v => by
    funext j
    unfold assignUpTo
    split_ifs with hj
    · rfl
    · rw [h1 j (by omega), k1 j (by omega)]
  unfold makeSource
  rcases hg : c.geometry with _ | _
  · simp only
    split_ifs with hu hp hq hr
    · congr 1
      funext j
      unfold assignUpTo
      split_ifs with hj
      · rfl
      · rw [h2 ⟨hg, hu, hp⟩ j (by omega), k2 ⟨hg, hu, hp⟩ j (by omega)]
    · rw [up]
    · rw [up]
    · rw [up]
    · congr 1
      funext j
      rw [h3 ⟨hg, by simpa using hu, hq, hr⟩ j, k3 ⟨hg, by simpa using hu, hq, hr⟩ j]
  · simp only
    split_ifs with hu hM
    · rw [up]
    · rfl
    · congr 1
      funext j
      rw [h4 ⟨hg, hu⟩ j, k4 ⟨hg, hu⟩ j]

/-- C70: after any sequence of earlier calls, at any times and for any cells, `make_source` gives
the source vector it gives on a fresh object. -/
theorem c70_history (c : SourceConfig) (unc : ℝ → ℝ → ℝ) (pl : ℝ → ℝ → ℝ → ℝ)
    (calls : List (ℝ × ℝ × ℝ)) (t xL xR : ℝ) {S : ℕ → ℝ}
    (hs : sourceRun c unc pl calls sourceInit = some S) :
    makeSource c unc pl t xL xR S = makeSource c unc pl t xL xR sourceInit :=
  makeSource_inv c unc pl t xL xR (sourceInv_run c unc pl calls (sourceInv_init c) hs)
    (sourceInv_init c)

/-- C70, manufactured source: the vector of a direction does not depend on the object's past. -/
theorem c70_manufactured (c : SourceConfig) (h4 : c.st 4 = 1) (t μ xL xR : ℝ) (S S' : ℕ → ℝ) {j : ℕ}
    (hj : j ≤ c.M) :
    makeSourceNotIsotropic c t μ xL xR S j = makeSourceNotIsotropic c t μ xL xR S' j := by
  simp [makeSourceNotIsotropic, h4, assignUpTo, hj]

/-- A configuration with a square source in slab geometry. -/
noncomputable def exampleSource : SourceConfig :=
  ⟨[0, 0, 1, 0, 0, 0], false, .slab, 1, 1 / 2, 5, true, 1, 1, 2, [(-(√3)⁻¹, 1), ((√3)⁻¹, 1)]⟩

example : ∃ S, sourceRun exampleSource (fun _ _ => 0) (fun _ _ _ => 0) [(0, -1, 0), (1, 0, 2)]
    sourceInit = some S ∧ makeSource exampleSource (fun _ _ => 0) (fun _ _ _ => 0) 0 (-1) 0 S =
      makeSource exampleSource (fun _ _ => 0) (fun _ _ _ => 0) 0 (-1) 0 sourceInit := by
  have h : ∀ t xL xR S, ∃ S', makeSource exampleSource (fun _ _ => 0) (fun _ _ _ => 0) t xL xR S =
      some S' := fun t xL xR S => ⟨_, rfl⟩
  obtain ⟨S1, h1⟩ := h 0 (-1) 0 sourceInit
  obtain ⟨S2, h2⟩ := h 1 0 2 S1
  have hr : sourceRun exampleSource (fun _ _ => 0) (fun _ _ _ => 0) [(0, -1, 0), (1, 0, 2)]
      sourceInit = some S2 := by simp [sourceRun, h1, h2]
  exact ⟨S2, hr, c70_history _ _ _ _ _ _ _ hr⟩

/-! ### C76 -/

/-- C76, slab: in a cell inside the source region, while the source is on, the source vector holds
the coefficients of the constant field `strength`; after any earlier calls. -/
theorem c76_square_source_partial (c : SourceConfig) (hg : c.geometry = .slab)
    (hu : c.uncollided = false) (h2 : c.st 2 = 1) (unc : ℝ → ℝ → ℝ) (pl : ℝ → ℝ → ℝ → ℝ)
    (hq : QuadExact c.quad (2 * c.M)) (hn : ∀ r ∈ c.quad, -1 ≤ r.1 ∧ r.1 ≤ 1) {t a b : ℝ}
    (h : a < b) (ha : -c.x0 ≤ a) (hb : b ≤ c.x0) (ht : t < c.t0) (S : ℕ → ℝ) :
    ∃ S', makeSource c unc pl t a b S = some S' ∧
      ∀ x, slabField c.M S' a b x = c.strength := by
  let U : ℕ → ℝ := fun j => if j = 0 then √(b - a) else 0
  have hb' : (0 : ℝ) < b - a := by linarith
  have field : ∀ x, slabField c.M U a b x = 1 := fun x => by
    unfold slabField
    rw [Finset.sum_eq_single 0]
    · simp only [U, if_true, slabBasis, legendre]
      rw [← mul_assoc, ← Real.sqrt_mul hb'.le]
      have : (b - a) * ((2 * ((0 : ℕ) : ℝ) + 1) / (b - a)) = 1 := by
        push_cast; field_simp; ring
      rw [this]; simp
    · intro j _ hj; simp [U, hj]
    · intro hh; simp at hh
  have e : makeSource c unc pl t a b S = some fun j => assignUpTo c.M S
      (slabMoment c.quad (squareVolumeSource c.x0 c.t0 · t) a b) j * c.strength := by
    unfold makeSource
    simp only [hg, hu, h2, if_true, Bool.false_eq_true, if_false]
  refine ⟨_, e, ?_⟩
  intro x
  have key : ∀ j ∈ Finset.range (c.M + 1), assignUpTo c.M S
      (slabMoment c.quad (squareVolumeSource c.x0 c.t0 · t) a b) j * c.strength *
        slabBasis j x a b = c.strength * (U j * slabBasis j x a b) := by
    intro j hj
    have hj : j ≤ c.M := by have := Finset.mem_range.1 hj; omega
    rw [assignUpTo, if_pos hj, slabMoment_field hq h U _ _ hj]
    · ring
    · intro r hr
      rw [field]
      obtain ⟨r1, r2⟩ := hn r hr
      refine (c46_square _ _ _ _).1 ⟨abs_le.2 ⟨?_, ?_⟩, ht⟩ <;> unfold quadPoint <;> nlinarith
  have := field x
  unfold slabField at this ⊢
  rw [Finset.sum_congr rfl key, ← Finset.mul_sum, this, mul_one]

/-- C76 fails in sphere geometry: without the uncollided treatment the source vector stays zero
whatever source is configured. -/
theorem c76_sphere_no_source (c : SourceConfig) (hg : c.geometry = .sphere)
    (hu : c.uncollided = false) (unc : ℝ → ℝ → ℝ) (pl : ℝ → ℝ → ℝ → ℝ)
    (calls : List (ℝ × ℝ × ℝ)) : sourceRun c unc pl calls sourceInit = some sourceInit := by
  have h : ∀ t xL xR, makeSource c unc pl t xL xR sourceInit = some sourceInit := by
    intro t xL xR
    unfold makeSource
    simp only [hg, hu, Bool.false_eq_true, false_and, if_false]
    congr 1
    funext j
    simp [sourceInit]
  induction calls with
  | nil => rfl
  | cons k ks ih => simp [sourceRun, h, ih]

/-- C76 fails for the manufactured source: the only source call of the active right-hand side
leaves the source vector zero. -/
theorem c76_manufactured_no_source (c : SourceConfig) (hg : c.geometry = .slab)
    (hu : c.uncollided = false) (h2 : c.st 2 ≠ 1) (h5 : c.st 5 ≠ 1) (unc : ℝ → ℝ → ℝ)
    (pl : ℝ → ℝ → ℝ → ℝ) (calls : List (ℝ × ℝ × ℝ)) :
    sourceRun c unc pl calls sourceInit = some sourceInit := by
  have h : ∀ t xL xR, makeSource c unc pl t xL xR sourceInit = some sourceInit := by
    intro t xL xR
    unfold makeSource
    simp only [hg, hu, h2, h5, Bool.false_eq_true, if_false]
    congr 1
    funext j
    simp [sourceInit]
  induction calls with
  | nil => rfl
  | cons k ks ih => simp [sourceRun, h, ih]

theorem two_point_inside : ∀ r ∈ [(-(√3 : ℝ)⁻¹, (1 : ℝ)), ((√3)⁻¹, 1)], -1 < r.1 ∧ r.1 < 1 := by
  have h3 : (√3 : ℝ)⁻¹ < 1 :=
    inv_lt_one_of_one_lt₀ (by rw [Real.lt_sqrt (by norm_num)]; norm_num)
  have h0 : (0 : ℝ) < (√3)⁻¹ := by positivity
  simp only [List.mem_cons, List.not_mem_nil, or_false]
  rintro r (rfl | rfl)
  · exact ⟨by simp only; linarith, by simp only; linarith⟩
  · exact ⟨by simp only; linarith, by simp only; linarith⟩

example := c76_square_source_partial exampleSource rfl rfl rfl (fun _ _ => 0) (fun _ _ _ => 0)
  (quadExact_mono two_point_exact (by show 2 * 1 ≤ 3; norm_num))
  (fun r hr => ⟨(two_point_inside r hr).1.le, (two_point_inside r hr).2.le⟩)
  (t := 1) (a := -1 / 4) (b := 1 / 2) (by norm_num) (by show -(1 / 2) ≤ (-1 / 4 : ℝ); norm_num)
  (by show (1 / 2 : ℝ) ≤ 1 / 2; norm_num) (by show (1 : ℝ) < 5; norm_num) sourceInit

example := c76_sphere_no_source { exampleSource with geometry := .sphere } rfl rfl (fun _ _ => 0)
  (fun _ _ _ => 0) [(0, 0, 1), (1, 0, 1)]

/-! ### C74: proportional to the source strength -/

/-- C74, solid sources in slab geometry: the source vector is proportional to the strength. -/
theorem c74_solid_partial (c : SourceConfig) (hg : c.geometry = .slab) (hu : c.uncollided = false)
    (h : c.st 2 = 1 ∨ c.st 5 = 1) (unc : ℝ → ℝ → ℝ) (pl : ℝ → ℝ → ℝ → ℝ) (k t a b : ℝ) (S : ℕ → ℝ) :
    ∃ S1 S2, makeSource c unc pl t a b S = some S1 ∧
      makeSource { c with strength := k * c.strength } unc pl t a b S = some S2 ∧
      ∀ j, S2 j = k * S1 j := by
  unfold makeSource
  simp only [hg, hu, SourceConfig.st, Bool.false_eq_true, if_false]
  rw [SourceConfig.st, SourceConfig.st] at h
  by_cases h2 : c.sourceType.getD 2 0 = 1
  · simp only [h2, if_true, Option.some.injEq]
    exact ⟨_, _, rfl, rfl, fun j => by ring⟩
  · simp only [h2, h.resolve_left h2, if_true, if_false, Option.some.injEq]
    exact ⟨_, _, rfl, rfl, fun j => by ring⟩

theorem makeSource_uncollided (c : SourceConfig) (hg : c.geometry = .slab)
    (hu : c.uncollided = true) (h : ¬ (c.st 0 = 1 ∧ c.moving = true)) (u : ℝ → ℝ → ℝ)
    (pl : ℝ → ℝ → ℝ → ℝ) (t a b : ℝ) (S : ℕ → ℝ) :
    makeSource c u pl t a b S = some fun j =>
      assignUpTo c.M S (slabMoment c.quad (u · t) a b) j * c.sigmaS * c.strength := by
  unfold makeSource
  simp only [hg, hu, if_true, h, if_false]

/-- C74 with the uncollided treatment in slab geometry: when the uncollided flux is multiplied by `k`
together with the strength, the source vector is multiplied by `k²`. -/
theorem c74_uncollided_squared (c : SourceConfig) (hg : c.geometry = .slab)
    (hu : c.uncollided = true) (h : ¬ (c.st 0 = 1 ∧ c.moving = true)) (k : ℝ) (u u' : ℝ → ℝ → ℝ)
    (huu : ∀ x t, u' x t = k * u x t) (pl : ℝ → ℝ → ℝ → ℝ) (t a b : ℝ) (S : ℕ → ℝ) :
    ∃ S1 S2, makeSource c u pl t a b S = some S1 ∧
      makeSource { c with strength := k * c.strength } u' pl t a b S = some S2 ∧
      ∀ j, j ≤ c.M → S2 j = k ^ 2 * S1 j := by
  have hm : ∀ j, slabMoment c.quad (u' · t) a b j = k * slabMoment c.quad (u · t) a b j :=
    fun j => slabMoment_const_mul _ _ _ _ (fun x => huu x t) _ _ _
  unfold makeSource
  simp only [hg, hu, if_true, SourceConfig.st]
  rw [SourceConfig.st] at h
  simp only [h, if_false]
  refine ⟨_, _, rfl, rfl, fun j hj => ?_⟩
  simp only [assignUpTo, hj, if_true, hm]
  ring

/-- Value of the uncollided solution at one point. -/
noncomputable def uncAt (uc : UncollidedConfig) (x t : ℝ) : ℝ :=
  (uncollidedSolution uc [] [x] t).headD 0

/-- C74 with the uncollided fluxes of the code: they are proportional to the strength themselves
(C42), so the source vector of the collided flux grows with the square of the strength. -/
theorem c74_uncollided_code (c : SourceConfig) (hg : c.geometry = .slab)
    (hu : c.uncollided = true) (h : ¬ (c.st 0 = 1 ∧ c.moving = true)) (uc : UncollidedConfig)
    (ht : ¬ StrengthTwice uc) (k : ℝ) (pl : ℝ → ℝ → ℝ → ℝ) (t a b : ℝ) (S : ℕ → ℝ) :
    ∃ S1 S2, makeSource c (uncAt uc) pl t a b S = some S1 ∧
      makeSource { c with strength := k * c.strength } (uncAt (scaleStrength k uc)) pl t a b S =
        some S2 ∧
      ∀ j, j ≤ c.M → S2 j = k ^ 2 * S1 j := by
  refine c74_uncollided_squared c hg hu h k _ _ (fun x t => ?_) pl t a b S
  have := c42_proportional_partial uc ht k t [] [x]
  simp only [List.map_nil] at this
  unfold uncAt
  rw [this]
  cases uncollidedSolution uc [] [x] t <;> simp

/-- C74 fails: doubling the strength of a plane pulse on a static mesh, treated with the uncollided
flux, gives four times the source of the collided flux. -/
theorem c74_not_proportional : ∃ (c : SourceConfig) (uc : UncollidedConfig) (S1 S2 : ℕ → ℝ),
    makeSource c (uncAt uc) (fun _ _ _ => 0) 1 (-1) 1 sourceInit = some S1 ∧
    makeSource { c with strength := 2 * c.strength } (uncAt (scaleStrength 2 uc))
      (fun _ _ _ => 0) 1 (-1) 1 sourceInit = some S2 ∧ S2 0 ≠ 2 * S1 0 := by
  obtain ⟨S1, S2, h1, h2, h3⟩ := c74_uncollided_code
    ⟨[1, 0, 0, 0, 0, 0], true, .slab, 0, 1, 5, false, 1, 1, 1, [(0, 2)]⟩ rfl rfl (by decide)
    (exampleUncollided [1, 0, 0, 0, 0, 0]) (fun h => absurd (show (1 : ℤ) = 1 from rfl) h.2.2.1)
    2 (fun _ _ _ => 0) 1 (-1) 1 sourceInit
  refine ⟨_, _, S1, S2, h1, h2, ?_⟩
  have h0 : S1 0 ≠ 0 := by
    rw [makeSource_uncollided _ rfl rfl (by decide)] at h1
    injection h1 with h1
    rw [← h1]
    clear h1 h2 h3
    simp [assignUpTo, slabMoment, normPn, quadPoint, legendre, uncAt, uncollidedSolution,
      exampleUncollided, UncollidedConfig.st, planeIC]
    norm_num
  rw [h3 0 le_rfl]
  intro hh
  apply h0
  linarith

example := c74_solid_partial exampleSource rfl rfl (Or.inl rfl) (fun _ _ => 0) (fun _ _ _ => 0) 3 0
  (-1) 1 sourceInit

/-! ### C75: first-collision source -/

/-- C75, slab: what the uncollided treatment adds to the right-hand side.  The first-collision source
of a flux `φ` is `c φ / 2`; the code has in addition the factors `sigma_s` and `source_strength`. -/
theorem c75_slab_first_collision (p : RhsParams) (f : FluxConfig) (c : SourceConfig)
    (hg : c.geometry = .slab) (hu : c.uncollided = true) (h : ¬ (c.st 0 = 1 ∧ c.moving = true))
    (φ : ℝ → ℝ → ℝ) (pl : ℝ → ℝ → ℝ → ℝ) (t : ℝ) (m : MeshView) (S0 : ℕ → ℕ → ℝ)
    (S : ℕ → ℕ → ℝ)
    (hS : ∀ space, makeSource c φ pl t (m.edges space) (m.edges (space + 1)) (S0 space) =
      some (S space)) (uRefl : ℕ → ℝ) (fs : FluxState) (V : ℕ → ℕ → ℕ → ℝ) (angle space i : ℕ)
    (hi : i ≤ c.M) :
    slabUncollidedRhs p f t m S uRefl fs V angle space i -
      slabUncollidedRhs p f t m (fun _ _ => 0) uRefl fs V angle space i =
      c.sigmaS * c.strength *
        slabMoment c.quad (fun x => p.c * φ x t / 2) (m.edges space) (m.edges (space + 1)) i := by
  have hs := hS space
  unfold makeSource at hs
  simp only [hg, hu, if_true, h, if_false] at hs
  injection hs with hs
  have hv : S space i = slabMoment c.quad (φ · t) (m.edges space) (m.edges (space + 1)) i *
      c.sigmaS * c.strength := by
    rw [← hs]; simp [assignUpTo, hi]
  have hm : slabMoment c.quad (fun x => p.c * φ x t / 2) (m.edges space) (m.edges (space + 1)) i =
      p.c / 2 * slabMoment c.quad (φ · t) (m.edges space) (m.edges (space + 1)) i := by
    exact slabMoment_const_mul _ _ _ _ (fun x => by ring) _ _ _
  unfold slabUncollidedRhs
  rw [hv, hm]
  ring

/-- C75 as stated, when scattering cross section and strength are one. -/
theorem c75_slab_first_collision_partial (p : RhsParams) (f : FluxConfig) (c : SourceConfig)
    (hg : c.geometry = .slab) (hu : c.uncollided = true) (h : ¬ (c.st 0 = 1 ∧ c.moving = true))
    (hσ : c.sigmaS = 1) (hs : c.strength = 1)
    (φ : ℝ → ℝ → ℝ) (pl : ℝ → ℝ → ℝ → ℝ) (t : ℝ) (m : MeshView) (S0 : ℕ → ℕ → ℝ)
    (S : ℕ → ℕ → ℝ)
    (hS : ∀ space, makeSource c φ pl t (m.edges space) (m.edges (space + 1)) (S0 space) =
      some (S space)) (uRefl : ℕ → ℝ) (fs : FluxState) (V : ℕ → ℕ → ℕ → ℝ) (angle space i : ℕ)
    (hi : i ≤ c.M) :
    slabUncollidedRhs p f t m S uRefl fs V angle space i -
      slabUncollidedRhs p f t m (fun _ _ => 0) uRefl fs V angle space i =
        slabMoment c.quad (fun x => p.c * φ x t / 2) (m.edges space) (m.edges (space + 1)) i := by
  rw [c75_slab_first_collision p f c hg hu h φ pl t m S0 S hS uRefl fs V angle space i hi, hσ, hs]
  ring

/-- C75, sphere (active right-hand side): the vector before the mass matrix is inverted receives
`strength` times the moment of `c φ / 2`. -/
theorem c75_sphere_first_collision (p : RhsParams) (f : FluxConfig) (c : SourceConfig)
    (hg : c.geometry = .sphere) (hu : c.uncollided = true) (h : c.st 1 = 1) (hM : c.M ≤ 12)
    (φ : ℝ → ℝ → ℝ) (pl : ℝ → ℝ → ℝ → ℝ) (t : ℝ) (m : MeshView) (mats : CellMats)
    (S0 : ℕ → ℕ → ℝ) (S : ℕ → ℕ → ℝ)
    (hS : ∀ space, makeSource c φ pl t (m.edges space) (m.edges (space + 1)) (S0 space) =
      some (S space)) (fs : FluxState) (V : ℕ → ℕ → ℕ → ℝ) (angle space i : ℕ)
    (hi : i ≤ c.M) :
    ∃ v, sphereMoment c.quad (fun x => p.c * φ x t / 2) (m.edges space) (m.edges (space + 1)) i =
        some v ∧
      sphereWeak p f t m mats S fs V angle space i -
        sphereWeak p f t m mats (fun _ _ => 0) fs V angle space i = c.strength * v := by
  have hs := hS space
  unfold makeSource at hs
  simp only [hg, hu, h, hM, and_self, if_true] at hs
  injection hs with hs
  refine ⟨_, by unfold sphereMoment; rw [if_pos (by omega)], ?_⟩
  have hv : S space i = 1 / 2 * (m.edges (space + 1) - m.edges space) * (c.quad.map fun q =>
      quadPoint (m.edges space) (m.edges (space + 1)) q.1 ^ 2 * √(1 - q.1 ^ 2) * q.2 *
        φ (quadPoint (m.edges space) (m.edges (space + 1)) q.1) t * 1 *
        (normTn i (quadPoint (m.edges space) (m.edges (space + 1)) q.1) (m.edges space)
          (m.edges (space + 1))).getD 0).sum * c.strength := by
    rw [← hs]; simp only [assignUpTo, hi, if_true, sphereMoment]
    rw [if_pos (by omega)]; rfl
  have hm : (c.quad.map fun q =>
      quadPoint (m.edges space) (m.edges (space + 1)) q.1 ^ 2 * √(1 - q.1 ^ 2) * q.2 *
        (p.c * φ (quadPoint (m.edges space) (m.edges (space + 1)) q.1) t / 2) * 1 *
        (normTn i (quadPoint (m.edges space) (m.edges (space + 1)) q.1) (m.edges space)
          (m.edges (space + 1))).getD 0).sum = p.c / 2 * (c.quad.map fun q =>
      quadPoint (m.edges space) (m.edges (space + 1)) q.1 ^ 2 * √(1 - q.1 ^ 2) * q.2 *
        φ (quadPoint (m.edges space) (m.edges (space + 1)) q.1) t * 1 *
        (normTn i (quadPoint (m.edges space) (m.edges (space + 1)) q.1) (m.edges space)
          (m.edges (space + 1))).getD 0).sum := by
    rw [← list_sum_mul_left]
    congr 1
    apply List.map_congr_left
    intro r _
    ring
  unfold sphereWeak
  rw [hv, hm]
  ring

/-- C75 fails in slab geometry for a scattering ratio below one (unit total cross section, so
`sigma_s = c`): the code adds `c² φ / 2`. -/
theorem c75_slab_wrong_factor (p : RhsParams) (f : FluxConfig) (c : SourceConfig)
    (hg : c.geometry = .slab) (hu : c.uncollided = true) (h : ¬ (c.st 0 = 1 ∧ c.moving = true))
    (hσ : c.sigmaS = p.c) (hs : c.strength = 1) (φ : ℝ → ℝ → ℝ) (pl : ℝ → ℝ → ℝ → ℝ) (t : ℝ)
    (m : MeshView) (S0 : ℕ → ℕ → ℝ) (S : ℕ → ℕ → ℝ)
    (hS : ∀ space, makeSource c φ pl t (m.edges space) (m.edges (space + 1)) (S0 space) =
      some (S space)) (uRefl : ℕ → ℝ) (fs : FluxState) (V : ℕ → ℕ → ℕ → ℝ) (angle space i : ℕ)
    (hi : i ≤ c.M) (hc : p.c ≠ 1)
    (hφ : slabMoment c.quad (fun x => p.c * φ x t / 2) (m.edges space) (m.edges (space + 1)) i ≠ 0) :
    slabUncollidedRhs p f t m S uRefl fs V angle space i -
      slabUncollidedRhs p f t m (fun _ _ => 0) uRefl fs V angle space i ≠
        slabMoment c.quad (fun x => p.c * φ x t / 2) (m.edges space) (m.edges (space + 1)) i := by
  rw [c75_slab_first_collision p f c hg hu h φ pl t m S0 S hS uRefl fs V angle space i hi, hσ, hs]
  intro hh
  apply hc
  have := mul_right_cancel₀ hφ (hh.trans (one_mul _).symm)
  linarith

/-- Square source treated with the uncollided flux. -/
noncomputable def exampleUncSource (σ : ℝ) : SourceConfig :=
  ⟨[0, 0, 1, 0, 0, 0], true, .slab, 0, 1 / 2, 5, true, 1, σ, 1, [(0, 2)]⟩

example (f : FluxConfig) (uRefl : ℕ → ℝ) (fs : FluxState) (V : ℕ → ℕ → ℕ → ℝ) :=
  c75_slab_first_collision_partial ⟨2, fun _ => 0, fun _ => 1 / 2, 1, 0, 1⟩ f (exampleUncSource 1) rfl
    rfl (by decide) rfl rfl (fun _ _ => 3) (fun _ _ _ => 0) 1 ⟨fun k => k, fun _ => 0⟩
    (fun _ => sourceInit) _
    (fun _ => makeSource_uncollided (exampleUncSource 1) rfl rfl (by decide) _ _ _ _ _ _) uRefl fs V
    0 1 0 le_rfl

example (f : FluxConfig) (uRefl : ℕ → ℝ) (fs : FluxState) (V : ℕ → ℕ → ℕ → ℝ) :=
  c75_slab_wrong_factor ⟨2, fun _ => 0, fun _ => 1 / 2, 1 / 2, 0, 1⟩ f (exampleUncSource (1 / 2)) rfl
    rfl (by decide) rfl rfl (fun _ _ => 3) (fun _ _ _ => 0) 1 ⟨fun k => k, fun _ => 0⟩
    (fun _ => sourceInit) _
    (fun _ => makeSource_uncollided (exampleUncSource (1 / 2)) rfl rfl (by decide) _ _ _ _ _ _) uRefl
    fs V 0 1 0 le_rfl (by norm_num) (by
      simp [exampleUncSource, slabMoment, normPn, quadPoint, legendre]; norm_num)

end Verif.Props
