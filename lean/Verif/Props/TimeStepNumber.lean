import Verif.Props.TimeStep
import Verif.Props.SphereSuperposition

/-!
Property C126: what the Runge-Kutta steps of a sphere run keep of the exact laws of the equations
(superposition, emptiness, particle number).
-/

namespace Verif.Props

open Set Filter Verif.Spec Verif.Model Verif.Lemmas

/-! ### Steps and linear maps -/

theorem rkStages_combine {E : Type*} [NormedAddCommGroup E] [NormedSpace ℝ E] (τ : Tableau)
    {f₁ f₂ f₃ : ℝ → E → E} {x y : ℝ}
    {t h : ℝ} (hn : ∀ i ≤ τ.n, 0 ≤ t + τ.node i * h)
    (hf : ∀ t, 0 ≤ t → ∀ u v, f₃ t (x • u + y • v) = x • f₁ t u + y • f₂ t v) (u v a b : E) (m : ℕ)
    (hm : m ≤ τ.n) (j : ℕ) :
    rkStages τ f₃ t h (x • u + y • v) (x • a + y • b) m j =
      x • rkStages τ f₁ t h u a m j + y • rkStages τ f₂ t h v b m j := by
  induction m generalizing j with
  | zero => rfl
  | succ m ih =>
    have ih := fun j => ih (by omega) j
    rw [rkStages, rkStages, rkStages]
    by_cases hj : j = m + 1
    · subst hj
      simp only [Function.update_self]
      rw [← hf _ (hn _ hm)]
      congr 1
      simp only [ih, smul_add, Finset.sum_add_distrib, Finset.smul_sum, smul_comm _ x, smul_comm _ y]
      abel
    · simp only [Function.update_of_ne hj, ih]

theorem rkAdvance_combine {E : Type*} [NormedAddCommGroup E] [NormedSpace ℝ E] (τ : Tableau)
    {f₁ f₂ f₃ : ℝ → E → E} {x y : ℝ} {t h : ℝ} (ht : 0 ≤ t) (hn : ∀ i ≤ τ.n, 0 ≤ t + τ.node i * h)
    (hf : ∀ t, 0 ≤ t → ∀ u v, f₃ t (x • u + y • v) = x • f₁ t u + y • f₂ t v) (u v : E) :
    rkAdvance τ f₃ t h (x • u + y • v) = x • rkAdvance τ f₁ t h u + y • rkAdvance τ f₂ t h v := by
  unfold rkAdvance
  rw [hf t ht]
  simp only [rkStages_combine τ hn hf _ _ _ _ _ le_rfl, smul_add, Finset.sum_add_distrib,
    Finset.smul_sum, smul_comm _ x, smul_comm _ y]
  abel

theorem rkRun_combine {E : Type*} [NormedAddCommGroup E] [NormedSpace ℝ E] {τ : Tableau}
    (hτ : UsableMethod τ) {f₁ f₂ f₃ : ℝ → E → E} {x y : ℝ}
    (hf : ∀ t, 0 ≤ t → ∀ u v, f₃ t (x • u + y • v) = x • f₁ t u + y • f₂ t v) (hs : List ℝ)
    (hpos : ∀ s ∈ hs, 0 ≤ s) {t : ℝ} (ht : 0 ≤ t) (u v : E) :
    (rkRun τ f₃ hs (t, x • u + y • v)).2 =
      x • (rkRun τ f₁ hs (t, u)).2 + y • (rkRun τ f₂ hs (t, v)).2 := by
  induction hs generalizing t u v with
  | nil => rfl
  | cons s hs ih =>
    have hs0 := hpos s List.mem_cons_self
    rw [rkRun, rkRun, rkRun]
    dsimp only
    rw [rkAdvance_combine τ ht (fun i hi => by
      have := (hτ.node i hi).1
      positivity) hf]
    exact ih (fun s hs => hpos s (List.mem_cons_of_mem _ hs)) (add_nonneg ht hs0) _ _

/-- A linear functional that the equations multiply by a number is integrated like that number. -/
theorem rkStages_functional {E : Type*} [NormedAddCommGroup E] [NormedSpace ℝ E] (τ : Tableau)
    {f : ℝ → E → E} (Λ : E →ₗ[ℝ] ℝ) {g : ℝ → ℝ} {t h : ℝ} (hn : ∀ i ≤ τ.n, 0 ≤ t + τ.node i * h)
    (hf : ∀ t, 0 ≤ t → ∀ u, Λ (f t u) = g t * Λ u) (u a : E) (m : ℕ) (hm : m ≤ τ.n) (j : ℕ) :
    Λ (rkStages τ f t h u a m j) = rkStages τ (fun t r => g t * r) t h (Λ u) (Λ a) m j := by
  induction m generalizing j with
  | zero => rfl
  | succ m ih =>
    have ih := fun j => ih (by omega) j
    rw [rkStages, rkStages]
    by_cases hj : j = m + 1
    · subst hj
      simp only [Function.update_self]
      rw [hf _ (hn _ hm), map_add, map_smul, map_sum]
      simp only [map_smul, ih]
    · simp only [Function.update_of_ne hj, ih]

theorem rkRun_functional {E : Type*} [NormedAddCommGroup E] [NormedSpace ℝ E] {τ : Tableau}
    (hτ : UsableMethod τ) {f : ℝ → E → E} (Λ : E →ₗ[ℝ] ℝ) {g : ℝ → ℝ}
    (hf : ∀ t, 0 ≤ t → ∀ u, Λ (f t u) = g t * Λ u) (hs : List ℝ) (hpos : ∀ s ∈ hs, 0 ≤ s) {t : ℝ}
    (ht : 0 ≤ t) (u : E) :
    Λ (rkRun τ f hs (t, u)).2 = (rkRun τ (fun t r => g t * r) hs (t, Λ u)).2 := by
  induction hs generalizing t u with
  | nil => rfl
  | cons s hs ih =>
    have hs0 := hpos s List.mem_cons_self
    rw [rkRun, rkRun, ih (fun s hs => hpos s (List.mem_cons_of_mem _ hs)) (add_nonneg ht hs0)]
    congr 3
    unfold rkAdvance
    rw [map_add, map_smul, map_sum]
    simp only [map_smul]
    congr 2
    refine Finset.sum_congr rfl fun i _ => ?_
    rw [rkStages_functional τ Λ (fun i hi => by
      have := (hτ.node i hi).1
      positivity) hf _ _ _ le_rfl, hf t ht]

/-- A scalar linear equation: the step is a factor. -/
theorem rkRun_scalar {τ : Tableau} (hτ : UsableMethod τ) (g : ℝ → ℝ) (hs : List ℝ)
    (hpos : ∀ s ∈ hs, 0 ≤ s) {t : ℝ} (ht : 0 ≤ t) (r : ℝ) :
    (rkRun τ (fun t r => g t * r) hs (t, r)).2 = (rkRun τ (fun t r => g t * r) hs (t, 1)).2 * r := by
  have := rkRun_combine hτ (f₁ := fun t r : ℝ => g t * r) (f₂ := fun t r : ℝ => g t * r)
    (f₃ := fun t r : ℝ => g t * r) (x := r) (y := 0)
    (fun t _ u v => by simp only [smul_eq_mul]; ring) hs hpos ht 1 0
  simp only [smul_eq_mul, mul_one, zero_mul, add_zero] at this
  rw [this]
  ring

/-- The coefficients that a run ends with. -/
theorem integrate_unknowns {P : Problem} {e d : ℕ → ℝ} (h : SphereProblem P e d) {τ : Tableau}
    (hτ : UsableMethod τ) {y0 : StateVec} {es : List Event} (hpos : ∀ s ∈ acceptedSteps es, 0 ≤ s)
    {x : StepState} (hx : P.integrate τ y0 es = some x) : x.t = (acceptedSteps es).sum ∧
      unknowns P x.y = (rkRun τ (programRate P) (acceptedSteps es) (0, unknowns P y0)).2 := by
  obtain ⟨z, h1, -, h2⟩ := integrate_reached h.toSphereSetup (steady_of_constant h.opacity) τ y0 es
  obtain rfl := Option.some_inj.1 (hx.symm.trans h1)
  have h3 := pureRun_rate h hτ (acceptedSteps es) hpos (0, y0, evaluation P 0 y0) le_rfl
    (evaluation_rate h le_rfl y0)
  rw [← h2] at h3
  refine ⟨?_, h3.1⟩
  have := congrArg Prod.fst h2
  rw [pureRun_time, zero_add] at this
  exact this

/-! ### C126: superposition -/

theorem programSource_superpose {P : Problem} (hg : P.mesh.geometry = .sphere)
    {x y s₁ s₂ s₃ b₁ b₂ b₃ : ℝ} (hs : SourceAsked P → s₃ ^ 2 = x * s₁ ^ 2 + y * s₂ ^ 2) (t : ℝ) :
    programSource (withStrengths P s₃ b₃) t = fun k i =>
      x * programSource (withStrengths P s₁ b₁) t k i +
        y * programSource (withStrengths P s₂ b₂) t k i := by
  funext k i
  rw [programSource_strength hg s₁, programSource_strength hg s₂, programSource_strength hg s₃]
  by_cases hask : SourceAsked P
  · rw [hs hask]
    ring
  · have : programSource (withStrengths P 1 0) t k i = 0 := by
      unfold programSource sourceOf
      exact if_neg hask
    rw [this]
    ring

/-- The rates for other strengths. -/
noncomputable def rateWith (P : Problem) (s b t : ℝ) (U : Coefs P.params P.fluxConfig) :
    Coefs P.params P.fluxConfig := programRate (withStrengths P s b) t U

theorem programRate_superpose {P : Problem} (hg : P.mesh.geometry = .sphere) (hmms : P.mesh.st 4 ≠ 1)
    {x y s₁ s₂ s₃ b₁ b₂ : ℝ} (hs : SourceAsked P → s₃ ^ 2 = x * s₁ ^ 2 + y * s₂ ^ 2) (t : ℝ)
    (U W : Coefs P.params P.fluxConfig) :
    rateWith P s₃ (x * b₁ + y * b₂) t (x • U + y • W) =
      x • rateWith P s₁ b₁ t U + y • rateWith P s₂ b₂ t W := by
  have hm : P.fluxConfig.mms = false := by simp [Problem.fluxConfig, hmms]
  funext q
  have hsp : spread P.params P.fluxConfig (x • U + y • W) = fun l k i =>
      x * spread P.params P.fluxConfig U l k i + y * spread P.params P.fluxConfig W l k i := by
    funext l k i
    unfold spread
    split_ifs
    · rfl
    · ring
  have h1 := sphereField0_combine P.params P.fluxConfig hg hm rfl x y b₁ b₂ t (meshAt P t)
    (programSource (withStrengths P s₁ b₁) t) (programSource (withStrengths P s₂ b₂) t)
    (spread P.params P.fluxConfig U) (spread P.params P.fluxConfig W) q.1 q.2.1 q.2.2
  rw [← hsp, ← programSource_superpose hg hs (b₃ := x * b₁ + y * b₂) t] at h1
  exact h1

/-- C126: two runs and a run with the combined data, all with the same accepted steps, whatever else
was tried in between, superpose exactly: the sizes of the steps do not enter. -/
theorem c126_superpose {P : Problem} {e d : ℕ → ℝ} (h : SphereProblem P e d) (hmms : P.mesh.st 4 ≠ 1)
    {τ : Tableau} (hτ : UsableMethod τ) {x y s₁ s₂ s₃ b₁ b₂ : ℝ}
    (hs : SourceAsked P → s₃ ^ 2 = x * s₁ ^ 2 + y * s₂ ^ 2) {V0 W0 U0 : StateVec}
    (h0 : ∀ l < P.Nang, ∀ k < P.mesh.N, ∀ i ≤ P.M, U0 l k i = x * V0 l k i + y * W0 l k i)
    {es₁ es₂ es₃ : List Event} (h12 : acceptedSteps es₂ = acceptedSteps es₁)
    (h13 : acceptedSteps es₃ = acceptedSteps es₁) (hpos : ∀ s ∈ acceptedSteps es₁, 0 ≤ s)
    {v w u : StepState} (hv : (withStrengths P s₁ b₁).integrate τ V0 es₁ = some v)
    (hw : (withStrengths P s₂ b₂).integrate τ W0 es₂ = some w)
    (hu : (withStrengths P s₃ (x * b₁ + y * b₂)).integrate τ U0 es₃ = some u) :
    ∀ l < P.Nang, ∀ k < P.mesh.N, ∀ i ≤ P.M, u.y l k i = x * v.y l k i + y * w.y l k i := by
  have hp := withStrengths_problem h
  have e1 := (integrate_unknowns (hp _ _) hτ hpos hv).2
  have e2 := (integrate_unknowns (hp _ _) hτ (by rw [h12]; exact hpos) hw).2
  have e3 := (integrate_unknowns (hp _ _) hτ (by rw [h13]; exact hpos) hu).2
  rw [h12] at e2
  rw [h13] at e3
  have hU : unknowns P U0 = x • unknowns P V0 + y • unknowns P W0 := by
    funext q
    exact h0 q.1 q.1.2 q.2.1 q.2.1.2 q.2.2 (Nat.lt_succ_iff.1 q.2.2.2)
  have key := rkRun_combine (E := Coefs P.params P.fluxConfig) hτ
    (f₁ := rateWith P s₁ b₁) (f₂ := rateWith P s₂ b₂)
    (f₃ := rateWith P s₃ (x * b₁ + y * b₂)) (x := x) (y := y)
    (fun t _ U W => programRate_superpose h.sphere hmms hs t U W) (acceptedSteps es₁) hpos le_rfl
    (unknowns P V0) (unknowns P W0)
  intro l hl k hk i hi
  rw [← hU] at key
  have h4 : unknowns P u.y = x • unknowns P v.y + y • unknowns P w.y :=
    Eq.trans e3 (key.trans (congrArg₂ (fun a b => x • a + y • b) e1.symm e2.symm))
  exact congrFun h4 (⟨l, hl⟩, ⟨k, hk⟩, ⟨i, Nat.lt_succ_of_le hi⟩)

/-! ### C126: nothing comes from nothing -/

/-- C126: without source and boundary source a run that starts empty stays empty, with every method
and all steps. -/
theorem c126_empty {P : Problem} {e d : ℕ → ℝ} (h : SphereProblem P e d) (hs : ¬ SourceAsked P)
    (hb : P.boundarySource = false ∨ P.uncollided = true) (hmms : P.mesh.st 4 ≠ 1) {τ : Tableau}
    (hτ : UsableMethod τ) {y0 : StateVec} (h0 : ∀ l < P.Nang, ∀ k < P.mesh.N, ∀ i ≤ P.M, y0 l k i = 0)
    {es : List Event} (hpos : ∀ s ∈ acceptedSteps es, 0 ≤ s) {x : StepState}
    (hx : P.integrate τ y0 es = some x) : ∀ l < P.Nang, ∀ k < P.mesh.N, ∀ i ≤ P.M, x.y l k i = 0 := by
  have hrate : ∀ t, 0 ≤ t → ∀ u v : Coefs P.params P.fluxConfig,
      programRate P t ((0 : ℝ) • u + (0 : ℝ) • v) = (0 : ℝ) • programRate P t u
        + (0 : ℝ) • programRate P t v := by
    intro t ht u v
    simp only [zero_smul, add_zero]
    obtain ⟨m1, m2, m3⟩ := programMesh_at h.toSphereSetup ht
    funext q
    have hsrc : programSource P t = fun _ _ => 0 := by
      funext k i
      simp only [programSource, sourceOf, if_neg hs]
    have hsp : spread P.params P.fluxConfig 0 = fun _ _ _ => 0 := by
      funext l k i
      unfold spread
      split_ifs <;> rfl
    have h4 := sphereRhs_closed P.params P.fluxConfig h.sphere h.order t (meshAt P t) m1 m2
      (programMats P t) (programSource P t) fluxInit (fun _ _ _ => 0) q.1 q.2.1 q.2.2 q.2.1.2
      (m3 _ q.2.1.2)
    unfold programRate
    rw [hsp, ← h4, hsrc]
    refine sphereRhs_zero _ _ h.sphere _ _ m2 (fun s => ?_) _ _ q.2.1.2
    rcases hb with hb | hb <;> simp [isBoundarySourceOn, Problem.fluxConfig, hmms, hb]
  have e1 := (integrate_unknowns h hτ hpos hx).2
  have h00 : unknowns P y0 = (0 : ℝ) • (0 : Coefs P.params P.fluxConfig)
      + (0 : ℝ) • (0 : Coefs P.params P.fluxConfig) := by
    funext q
    rw [zero_smul, add_zero]
    exact h0 q.1 q.1.2 q.2.1 q.2.1.2 q.2.2 (Nat.lt_succ_iff.1 q.2.2.2)
  rw [h00, rkRun_combine hτ hrate _ hpos le_rfl, zero_smul, add_zero] at e1
  intro l hl k hk i hi
  exact congrFun e1 (⟨l, hl⟩, ⟨k, hk⟩, ⟨i, Nat.lt_succ_of_le hi⟩)

/-- C126 with C112: a point pulse with uncollided treatment comes out of the integrator as zero,
whatever its strength, the scattering, the method and the steps. -/
theorem c126_point_uncollided_empty {P : Problem} (hpl : IsPlane P.mesh) (h0 : P.mesh.st 0 = 1)
    (hmv : P.mesh.moving = true) (hg : P.mesh.geometry = .sphere) (hN : 1 ≤ P.mesh.N)
    (hx : 0 < P.mesh.x0) (hv : 0 ≤ P.mesh.edgeV) (hM : P.M ≤ 10)
    (htab : TablesExact P.tables (P.M + 1)) (hinv : InverseCorrect P.M P.inv) (hn : 2 ≤ P.Nang)
    (hop : P.sigmaFunc = .constant) (hu : P.uncollided = true)
    (hch : centreChecks P.Nang P.mus) (hmms : P.mesh.st 4 ≠ 1) {τ : Tableau} (hτ : UsableMethod τ)
    {y0 : StateVec} (hy : StartsFrom P y0) {es : List Event} (hpos : ∀ s ∈ acceptedSteps es, 0 ≤ s) :
    ∃ x, P.integrate τ y0 es = some x ∧
      ∀ l < P.Nang, ∀ k < P.mesh.N, ∀ i ≤ P.M, x.y l k i = 0 := by
  have hp := point_problem hpl h0 hmv hg hN hx hv hM htab hinv hn hop hch
  have hz := initial_zero (plane_init hpl hmv) hg hu (hM.trans (by norm_num))
  obtain ⟨x, h1, -⟩ := c125_never_fails hp.toSphereSetup (steady_of_constant hp.opacity) τ y0 es
  refine ⟨x, h1, c126_empty hp (fun h => hpl.s1 h.2) (Or.inr hu) hmms hτ (fun l hl k hk i hi => ?_)
    hpos h1⟩
  have := hy l hl k hk i hi
  rw [hz l hl k hk i hi] at this
  exact (Option.some_inj.1 this).symm

/-! ### C126: the particle number -/

/-- A shell of `c` times the size holds `c^(5/2)` times as much, with the same coefficients. -/
theorem sphereContent_scale (M : ℕ) (U : ℕ → ℝ) {c a b : ℝ} (hc : 0 < c) (hab : a < b) :
    sphereContent M U (c * a) (c * b) = c ^ 2 * Real.sqrt c * sphereContent M U a b := by
  have hB : ∀ j r, sphereBasis j (c * r) (c * a) (c * b) = (Real.sqrt c)⁻¹ * sphereBasis j r a b := by
    intro j r
    unfold sphereBasis
    have e1 : ref (c * r) (c * a) (c * b) = ref r a b := by
      unfold ref
      have : b - a ≠ 0 := by linarith
      have h2 : c * b - c * a ≠ 0 := by rw [← mul_sub]; positivity
      field_simp
    rw [e1, ← mul_assoc, ← Real.sqrt_inv, ← Real.sqrt_mul (by positivity)]
    congr 2
    rw [← mul_sub]
    split_ifs <;> field_simp
  have hF : ∀ r, sphereField M U (c * a) (c * b) (c * r) = (Real.sqrt c)⁻¹ * sphereField M U a b r := by
    intro r
    unfold sphereField
    rw [Finset.mul_sum]
    exact Finset.sum_congr rfl fun j _ => by rw [hB]; ring
  unfold sphereContent
  have h1 := intervalIntegral.integral_comp_mul_left (a := a) (b := b)
    (fun r => r ^ 2 * sphereField M U (c * a) (c * b) r) hc.ne'
  rw [smul_eq_mul] at h1
  have h2 : ∫ r in (c * a)..(c * b), r ^ 2 * sphereField M U (c * a) (c * b) r =
      c * ∫ r in a..b, (c * r) ^ 2 * sphereField M U (c * a) (c * b) (c * r) := by
    rw [h1, ← mul_assoc, mul_inv_cancel₀ hc.ne', one_mul]
  rw [h2, ← intervalIntegral.integral_const_mul, ← intervalIntegral.integral_const_mul]
  refine intervalIntegral.integral_congr fun r _ => ?_
  rw [hF]
  have hs : Real.sqrt c * Real.sqrt c = c := Real.mul_self_sqrt hc.le
  have hs0 : Real.sqrt c ≠ 0 := (Real.sqrt_pos.2 hc).ne'
  field_simp
  rw [Real.sq_sqrt hc.le]
  ring

/-- Particle number of coefficients on the even mesh of radius one. -/
noncomputable def unitNumber (P : Problem) (hN : 1 ≤ P.mesh.N) : Coefs P.params P.fluxConfig →ₗ[ℝ] ℝ where
  toFun U := sphereTotal P.params P.fluxConfig ⟨evenEdges P.mesh.N 1, fun _ => 0⟩
    (spread P.params P.fluxConfig U)
  map_add' U W := by
    have hord : ∀ k, evenEdges P.mesh.N 1 k < evenEdges P.mesh.N 1 (k + 1) := fun k => by
      have := evenEdges_width (N := P.mesh.N) 1 k
      have h2 : (0 : ℝ) < 1 / P.mesh.N := by positivity
      linarith
    unfold sphereTotal angularSum
    rw [← Finset.sum_add_distrib]
    refine Finset.sum_congr rfl fun l _ => ?_
    rw [← mul_add, ← Finset.sum_add_distrib]
    congr 1
    refine Finset.sum_congr rfl fun k _ => ?_
    rw [sphereContent_eq _ _ (hord k), sphereContent_eq _ _ (hord k), sphereContent_eq _ _ (hord k),
      ← mul_add, ← Finset.sum_add_distrib]
    congr 1
    refine Finset.sum_congr rfl fun j _ => ?_
    rw [← mul_add]
    congr 1
    unfold spread
    split_ifs
    · rfl
    · rw [add_zero]
  map_smul' x U := by
    have hord : ∀ k, evenEdges P.mesh.N 1 k < evenEdges P.mesh.N 1 (k + 1) := fun k => by
      have := evenEdges_width (N := P.mesh.N) 1 k
      have h2 : (0 : ℝ) < 1 / P.mesh.N := by positivity
      linarith
    unfold sphereTotal angularSum
    rw [RingHom.id_apply, smul_eq_mul, Finset.mul_sum]
    refine Finset.sum_congr rfl fun l _ => ?_
    rw [mul_left_comm x]
    congr 1
    rw [Finset.mul_sum]
    refine Finset.sum_congr rfl fun k _ => ?_
    rw [sphereContent_eq _ _ (hord k), sphereContent_eq _ _ (hord k), mul_left_comm x]
    congr 1
    rw [Finset.mul_sum]
    refine Finset.sum_congr rfl fun j _ => ?_
    rw [mul_left_comm x]
    congr 1
    unfold spread
    split_ifs
    · rfl
    · rw [mul_zero]

theorem evenEdges_one (N : ℕ) (R : ℝ) (k : ℕ) : evenEdges N R k = R * evenEdges N 1 k := by
  unfold evenEdges
  ring

/-- The particle number on an even mesh of any radius. -/
theorem sphereTotal_even {P : Problem} (hN : 1 ≤ P.mesh.N) {R : ℝ} (hR : 0 < R) (m : MeshView)
    (hm : ∀ k ≤ P.mesh.N, m.edges k = evenEdges P.mesh.N R k) (V : StateVec) :
    sphereTotal P.params P.fluxConfig m V = R ^ 2 * Real.sqrt R * unitNumber P hN (unknowns P V) := by
  show _ = _ * sphereTotal P.params P.fluxConfig ⟨evenEdges P.mesh.N 1, fun _ => 0⟩
    (spread P.params P.fluxConfig (unknowns P V))
  have hord : ∀ k, evenEdges P.mesh.N 1 k < evenEdges P.mesh.N 1 (k + 1) := fun k => by
    have := evenEdges_width (N := P.mesh.N) 1 k
    have h2 : (0 : ℝ) < 1 / P.mesh.N := by positivity
    linarith
  unfold sphereTotal angularSum
  rw [Finset.mul_sum]
  refine Finset.sum_congr rfl fun l hl => ?_
  rw [mul_left_comm (R ^ 2 * Real.sqrt R)]
  congr 1
  rw [Finset.mul_sum]
  refine Finset.sum_congr rfl fun k hk => ?_
  have hl : l < P.Nang := Finset.mem_range.1 hl
  have hk : k < P.mesh.N := Finset.mem_range.1 hk
  rw [hm k hk.le, hm (k + 1) hk, evenEdges_one _ R, evenEdges_one _ R, sphereContent_scale _ _ hR (hord k)]
  congr 1
  unfold sphereContent
  refine intervalIntegral.integral_congr fun r _ => ?_
  congr 1
  unfold sphereField
  refine Finset.sum_congr rfl fun j hj => ?_
  rw [show spread P.params P.fluxConfig (unknowns P V) l k j = V l k j from
    spread_gather _ _ V hl hk (Nat.lt_succ_iff.1 (Finset.mem_range.1 hj))]

/-- What the exact law of the particle number asks: directions in order and symmetric, weights of the
angular cells, no source, no boundary source, an even mesh whose outer edge is at least as fast as
every direction. -/
structure NumberSetting (P : Problem) (R0 v : ℝ) : Prop where
  problem : SphereProblem P (evenEdges P.mesh.N R0) (evenEdges P.mesh.N v)
  shells : 2 ≤ P.mesh.N
  noSource : ¬ SourceAsked P
  noBoundary : P.boundarySource = false
  noManufactured : P.mesh.st 4 ≠ 1
  directions : DirectionSet P.Nang P.mus
  symmetric : SymmetricSet P.Nang P.mus
  weights : CellWeights P
  fast : ∀ l < P.Nang, P.mus l ≤ v

theorem NumberSetting.radius {P : Problem} {R0 v : ℝ} (h : NumberSetting P R0 v) {t : ℝ} (ht : 0 ≤ t) :
    0 < R0 + v * t := by
  have h1 := h.problem.mesh.ordered t ht 0 (by have := h.shells; omega)
  have hN : (0 : ℝ) < P.mesh.N := by exact_mod_cast (by have := h.shells; omega : 0 < P.mesh.N)
  unfold evenEdges at h1
  have h2 : 0 < 1 / (P.mesh.N : ℝ) * (R0 + v * t) := by
    push_cast at h1
    simp only [zero_div, zero_mul, zero_add] at h1
    linarith
  exact (pos_iff_pos_of_mul_pos h2).1 (by positivity)

theorem NumberSetting.edges {P : Problem} {R0 v : ℝ} (h : NumberSetting P R0 v) (t : ℝ) :
    ∀ k ≤ P.mesh.N, (meshAt P t).edges k = evenEdges P.mesh.N (R0 + v * t) k := by
  intro k hk
  rw [(meshAt_linear h.problem.mesh t).1 k hk]
  unfold evenEdges
  ring

theorem programTotal_even {P : Problem} {R0 v : ℝ} (h : NumberSetting P R0 v) {t : ℝ} (ht : 0 ≤ t)
    (V : StateVec) : programTotal P t V = (R0 + v * t) ^ 2 * Real.sqrt (R0 + v * t) *
      unitNumber P (by have := h.shells; omega) (unknowns P V) :=
  sphereTotal_even _ (h.radius ht) _ (h.edges t) V

/-- The rate at which the equations change the number on the mesh of radius one. -/
theorem unitNumber_rate {P : Problem} {R0 v : ℝ} (h : NumberSetting P R0 v) {t : ℝ} (ht : 0 ≤ t)
    (U : Coefs P.params P.fluxConfig) :
    unitNumber P (by have := h.shells; omega) (programRate P t U) =
      (P.sigmaS - 1 - 5 / 2 * v / (R0 + v * t)) * unitNumber P (by have := h.shells; omega) U := by
  have hN : 1 ≤ P.mesh.N := by have := h.shells; omega
  have hp := h.problem
  have hmesh := programMesh hp.toSphereSetup le_rfl (b := t + 1) ∅
  have hl := fun t => meshAt_linear hp.mesh t
  have hmem : t ∈ Ico (0 : ℝ) (t + 1) \ ∅ := ⟨⟨ht, by linarith⟩, notMem_empty _⟩
  set V0 := spread P.params P.fluxConfig U with hV0
  have hU : unknowns P V0 = U := by
    funext q
    exact spread_at P.params P.fluxConfig U q
  set R := evaluation P t V0 with hR
  set V : ℝ → StateVec := fun s l k i => V0 l k i + (s - t) * R l k i with hV
  have hVt : V t = V0 := by
    funext l k i
    simp [hV]
  have hact : ∀ left t, ¬ BoundaryActive P.fluxConfig left t := by
    intro left t
    simp [BoundaryActive, Problem.fluxConfig, h.noManufactured, h.noBoundary]
  have hcall : activeCall P.params P.fluxConfig t (meshAt P t) (programMats P t) (programSource P t)
      fluxInit (V t) = some R := by
    obtain ⟨o, ho⟩ := reached_exists hp.mesh
    obtain ⟨o', h1, -⟩ := call_reached hp.toSphereSetup (steady_of_constant hp.opacity) ho t V0
    have h2 : answer P o t V0 = some (evaluation P t V0) := by
      unfold answer
      rw [h1, Option.map_some]
    rw [answer_eq_activeCall hp.sphere (hp.tables.usable' (Nat.lt_succ_self _) hp.order) hp.opacity
      hp.mesh.noHistory ho t V0 fluxInit] at h2
    rw [hVt]
    exact h2
  have d1 := sphere_conserves_right P.params h.directions h.symmetric
    (h.weights.ws hp.directions) P.fluxConfig hp.sphere hp.order h.shells t
    (hact _ _) (hact _ _) (meshAt P) (programMats P t) (programSource P t) fluxInit V R
    (by rw [(hl t).2 0 (Nat.zero_le _), hp.mesh.rest]) (hmesh.ordered t ⟨ht, by linarith⟩)
    (hmesh.velocity t hmem) (hmesh.mats t hmem) hcall
    (fun l _ k _ i _ => by
      have := (((hasDerivAt_id t).sub_const t).mul_const (R l k i)).const_add (V0 l k i)
      rw [one_mul] at this
      exact this.hasDerivWithinAt)
  have hout : angularSum P.params.Nang P.params.ws (fun l =>
        max (P.params.mus l - (meshAt P t).Dedges P.fluxConfig.Nspace) 0 *
          sphereField P.fluxConfig.M (V t l (P.fluxConfig.Nspace - 1))
            ((meshAt P t).edges (P.fluxConfig.Nspace - 1))
            ((meshAt P t).edges P.fluxConfig.Nspace) ((meshAt P t).edges P.fluxConfig.Nspace))
      = 0 := by
    unfold angularSum
    refine Finset.sum_eq_zero fun l hl' => ?_
    have h2 : (meshAt P t).Dedges P.fluxConfig.Nspace = v := by
      rw [show P.fluxConfig.Nspace = P.mesh.N from rfl, (hl t).2 _ le_rfl]
      unfold evenEdges
      rw [div_self (Nat.cast_ne_zero.2 (by omega)), one_mul]
    have h3 : P.params.mus l ≤ v := h.fast l (Finset.mem_range.1 hl')
    simp only [h2, max_eq_right (sub_nonpos.2 h3), zero_mul, mul_zero]
  have hsrc : ∀ k i, programSource P t k i = 0 := by
    intro k i
    simp only [programSource, sourceOf, if_neg h.noSource]
  simp only [hsrc, mul_zero, Finset.sum_const_zero, add_zero] at d1
  rw [hout, mul_zero, zero_add] at d1
  set ρ := R0 + v * t with hρ
  have hρ0 : 0 < ρ := h.radius ht
  have e1 : ∀ s ∈ Ici t, sphereTotal P.params P.fluxConfig (meshAt P s) (V s) =
      (R0 + v * s) ^ 2 * Real.sqrt (R0 + v * s) *
        (unitNumber P hN U + (s - t) * unitNumber P hN (programRate P t U)) := by
    intro s hs
    rw [sphereTotal_even hN (h.radius (ht.trans hs)) _ (h.edges s)]
    congr 1
    have : unknowns P (V s) = U + (s - t) • programRate P t U := by
      rw [← hU, ← evaluation_rate hp ht V0]
      rfl
    rw [this, map_add, map_smul, smul_eq_mul]
  have d2 : HasDerivAt (fun s => (R0 + v * s) ^ 2 * Real.sqrt (R0 + v * s) *
        (unitNumber P hN U + (s - t) * unitNumber P hN (programRate P t U)))
      ((2 * ρ * v * Real.sqrt ρ + ρ ^ 2 * (v / (2 * Real.sqrt ρ))) * unitNumber P hN U
        + ρ ^ 2 * Real.sqrt ρ * unitNumber P hN (programRate P t U)) t := by
    have a1 : HasDerivAt (fun s => R0 + v * s) v t := by
      simpa using ((hasDerivAt_id t).const_mul v).const_add R0
    have a2 : HasDerivAt (fun s => (R0 + v * s) ^ 2) (2 * ρ * v) t := by
      refine (a1.pow 2).congr_deriv ?_
      simp only [hρ]
      ring
    have a3 := a1.sqrt hρ0.ne'
    have a4 : HasDerivAt (fun s => unitNumber P hN U + (s - t) * unitNumber P hN (programRate P t U))
        (unitNumber P hN (programRate P t U)) t := by
      have := (((hasDerivAt_id t).sub_const t).mul_const
        (unitNumber P hN (programRate P t U))).const_add (unitNumber P hN U)
      rwa [one_mul] at this
    refine ((a2.mul a3).mul a4).congr_deriv ?_
    simp only [sub_self, zero_mul, add_zero, Pi.mul_apply]
    rfl
  have d3 := d1.congr (fun s hs => (e1 s hs).symm) (e1 t self_mem_Ici).symm
  have h5 := (uniqueDiffWithinAt_Ici t).eq_deriv _ d3 d2.hasDerivWithinAt
  rw [e1 t self_mem_Ici, sub_self, zero_mul, add_zero, ← hρ] at h5
  have hs0 : Real.sqrt ρ ≠ 0 := (Real.sqrt_pos.2 hρ0).ne'
  have hs2 : Real.sqrt ρ ^ 2 = ρ := Real.sq_sqrt hρ0.le
  have hc : P.params.c = P.sigmaS := rfl
  rw [hc] at h5
  have h6 : ρ ^ 2 * Real.sqrt ρ * unitNumber P hN (programRate P t U) =
      ρ ^ 2 * Real.sqrt ρ * ((P.sigmaS - 1 - 5 / 2 * v / ρ) * unitNumber P hN U) := by
    have h7 : ρ ^ 2 * (v / (2 * Real.sqrt ρ)) = ρ * Real.sqrt ρ * v / 2 := by
      field_simp
      rw [hs2]
      ring
    rw [h7] at h5
    have h8 : ρ ^ 2 * Real.sqrt ρ * ((P.sigmaS - 1 - 5 / 2 * v / ρ) * unitNumber P hN U) =
        (P.sigmaS - 1) * (ρ ^ 2 * Real.sqrt ρ * unitNumber P hN U)
          - 5 / 2 * v * ρ * Real.sqrt ρ * unitNumber P hN U := by
      field_simp
    rw [h8]
    linear_combination -h5
  exact mul_left_cancel₀ (by positivity) h6

/-- C126: the particle number that a run ends with.  It is the initial one, times the growth of the
mesh to the power `5/2`, times what the same method makes of the single equation
`r' = (σ - 1 - (5/2) v / (R0 + v t)) r`; the state, the order and the directions do not enter. -/
theorem c126_particle_number {P : Problem} {R0 v : ℝ} (h : NumberSetting P R0 v) {τ : Tableau}
    (hτ : UsableMethod τ) {y0 : StateVec} {es : List Event} (hpos : ∀ s ∈ acceptedSteps es, 0 ≤ s)
    {x : StepState} (hx : P.integrate τ y0 es = some x) :
    programTotal P x.t x.y = ((R0 + v * x.t) / R0) ^ 2 * Real.sqrt ((R0 + v * x.t) / R0) *
      (rkRun τ (fun t r => (P.sigmaS - 1 - 5 / 2 * v / (R0 + v * t)) * r) (acceptedSteps es) (0, 1)).2 *
      programTotal P 0 y0 := by
  have hN : 1 ≤ P.mesh.N := by have := h.shells; omega
  obtain ⟨h1, h2⟩ := integrate_unknowns h.problem hτ hpos hx
  have hx0 : 0 ≤ x.t := by
    rw [h1]
    exact List.sum_nonneg hpos
  have hR0 : 0 < R0 := by simpa using h.radius le_rfl
  rw [programTotal_even h hx0, programTotal_even h le_rfl, h2,
    rkRun_functional hτ (unitNumber P hN) (fun t ht u => unitNumber_rate h ht u) _ hpos le_rfl,
    rkRun_scalar hτ _ _ hpos le_rfl, mul_zero, add_zero,
    Real.sqrt_div (h.radius hx0).le]
  have : Real.sqrt R0 ≠ 0 := (Real.sqrt_pos.2 hR0).ne'
  field_simp

/-! ### C126: the two methods of low order -/

theorem acceptedSteps_append (es es' : List Event) :
    acceptedSteps (es ++ es') = acceptedSteps es ++ acceptedSteps es' := by
  induction es with
  | nil => rfl
  | cons ev es ih =>
    cases ev with
    | step s acc => cases acc <;> simp [acceptedSteps, ih]
    | probe s V => simp [acceptedSteps, ih]

theorem rkRun_time {E : Type*} [NormedAddCommGroup E] [NormedSpace ℝ E] (τ : Tableau)
    (f : ℝ → E → E) (hs : List ℝ) (x : ℝ × E) : (rkRun τ f hs x).1 = x.1 + hs.sum := by
  induction hs generalizing x with
  | nil => simp [rkRun]
  | cons h hs ih => rw [rkRun, ih, List.sum_cons]; ring

theorem rkRun_append {E : Type*} [NormedAddCommGroup E] [NormedSpace ℝ E] (τ : Tableau)
    (f : ℝ → E → E) (hs hs' : List ℝ) (x : ℝ × E) :
    rkRun τ f (hs ++ hs') x = rkRun τ f hs' (rkRun τ f hs x) := by
  induction hs generalizing x with
  | nil => rfl
  | cons h hs ih => exact ih _

/-- The particle number after one more accepted step. -/
theorem number_step {P : Problem} {R0 v : ℝ} (h : NumberSetting P R0 v) {τ : Tableau}
    (hτ : UsableMethod τ) {y0 : StateVec} {es : List Event} (hpos : ∀ s ∈ acceptedSteps es, 0 ≤ s)
    {x x' : StepState} (hx : P.integrate τ y0 es = some x) {s : ℝ} (hs : 0 ≤ s)
    (hx' : P.integrate τ y0 (es ++ [.step s true]) = some x') :
    0 < R0 + v * x.t ∧ programTotal P x'.t x'.y =
      (1 + s * v / (R0 + v * x.t)) ^ 2 * Real.sqrt (1 + s * v / (R0 + v * x.t)) *
        rkAdvance τ (fun t r => (P.sigmaS - 1 - 5 / 2 * v / (R0 + v * t)) * r) x.t s 1 *
        programTotal P x.t x.y := by
  have hacc : acceptedSteps (es ++ [.step s true]) = acceptedSteps es ++ [s] := by
    rw [acceptedSteps_append]
    rfl
  have hpos' : ∀ r ∈ acceptedSteps (es ++ [.step s true]), 0 ≤ r := by
    rw [hacc]
    intro r hr
    rcases List.mem_append.1 hr with hr | hr
    · exact hpos r hr
    · rw [List.mem_singleton.1 hr]
      exact hs
  have e1 := c126_particle_number h hτ hpos hx
  have e2 := c126_particle_number h hτ hpos' hx'
  have t1 := (integrate_unknowns h.problem hτ hpos hx).1
  have t2 := (integrate_unknowns h.problem hτ hpos' hx').1
  rw [hacc, List.sum_append, ← t1, List.sum_singleton] at t2
  have hx0 : 0 ≤ x.t := by
    rw [t1]
    exact List.sum_nonneg hpos
  have hR := h.radius hx0
  have hR0 : 0 < R0 := by simpa using h.radius le_rfl
  have hR' : 0 < R0 + v * x'.t := h.radius (by rw [t2]; linarith)
  refine ⟨hR, ?_⟩
  set g : ℝ → ℝ := fun t => P.sigmaS - 1 - 5 / 2 * v / (R0 + v * t) with hg
  have e3 : (rkRun τ (fun t r => g t * r) (acceptedSteps (es ++ [.step s true])) (0, 1)).2 =
      rkAdvance τ (fun t r => g t * r) x.t s 1 *
        (rkRun τ (fun t r => g t * r) (acceptedSteps es) (0, 1)).2 := by
    rw [hacc, rkRun_append]
    have h1 : rkRun τ (fun t r => g t * r) (acceptedSteps es) (0, 1) =
        (x.t, (rkRun τ (fun t r => g t * r) (acceptedSteps es) (0, 1)).2) := by
      refine Prod.ext ?_ rfl
      rw [rkRun_time, zero_add, t1]
    rw [h1]
    have h2 := rkRun_scalar hτ g [s] (fun r hr => by rw [List.mem_singleton.1 hr]; exact hs) hx0
      (rkRun τ (fun t r => g t * r) (acceptedSteps es) (0, 1)).2
    rw [h2]
    rfl
  rw [e2, e3, e1]
  have hz : 1 + s * v / (R0 + v * x.t) = (R0 + v * x'.t) / (R0 + v * x.t) := by
    rw [t2]
    field_simp
    ring
  rw [hz, Real.sqrt_div hR'.le, Real.sqrt_div hR'.le, Real.sqrt_div hR.le]
  have s1 : Real.sqrt R0 ≠ 0 := (Real.sqrt_pos.2 hR0).ne'
  have s2 : Real.sqrt (R0 + v * x.t) ≠ 0 := (Real.sqrt_pos.2 hR).ne'
  have main : ∀ A B T : ℝ, ((R0 + v * x'.t) / R0) ^ 2 *
      (Real.sqrt (R0 + v * x'.t) / Real.sqrt R0) * (A * B) * T =
      ((R0 + v * x'.t) / (R0 + v * x.t)) ^ 2 *
        (Real.sqrt (R0 + v * x'.t) / Real.sqrt (R0 + v * x.t)) * A *
        (((R0 + v * x.t) / R0) ^ 2 * (Real.sqrt (R0 + v * x.t) / Real.sqrt R0) * B * T) := by
    intro A B T
    field_simp
  exact main _ _ _

/-- What a step of `RK23` over the fraction `z` of the radius makes of the particle number. -/
noncomputable def rk23Factor (z : ℝ) : ℝ :=
  (1 + z) ^ 2 * Real.sqrt (1 + z) * ((4 - 5 * z) * (8 + 13 * z ^ 2) / (4 * (2 + z) * (4 + 3 * z)))

/-- The same for `RK45`. -/
noncomputable def rk45Factor (z : ℝ) : ℝ :=
  (1 + z) ^ 2 * Real.sqrt (1 + z) * ((1 + 31 / 45 * z + 373 / 1800 * z ^ 2 - 56 / 1125 * z ^ 3
    + 8531 / 144000 * z ^ 4 - 8881 / 144000 * z ^ 5 + 8849 / 69120 * z ^ 6) /
    ((1 + 1 / 5 * z) * (1 + 3 / 10 * z) * (1 + 4 / 5 * z) * (1 + 8 / 9 * z) * (1 + z)))

theorem rk23_scalar {R0 v t h : ℝ} (hR : 0 < R0 + v * t) (hz : 0 ≤ h * v) :
    rkAdvance rk23 (fun t r => (1 - 1 - 5 / 2 * v / (R0 + v * t)) * r) t h 1 =
      (4 - 5 * (h * v / (R0 + v * t))) * (8 + 13 * (h * v / (R0 + v * t)) ^ 2) /
        (4 * (2 + h * v / (R0 + v * t)) * (4 + 3 * (h * v / (R0 + v * t)))) := by
  set f : ℝ → ℝ → ℝ := fun t r => (1 - 1 - 5 / 2 * v / (R0 + v * t)) * r with hf
  set R := R0 + v * t with hRd
  set z := h * v / R with hzd
  have hz0 : 0 ≤ z := by positivity
  have hg : ∀ c r : ℝ, 0 ≤ c → h * f (t + c * h) r = -(5 / 2) * z / (1 + c * z) * r := by
    intro c r hc
    have h1 : R0 + v * (t + c * h) = R * (1 + c * z) := by
      rw [hzd]
      field_simp
      rw [hRd]
      ring
    simp only [hf]
    rw [h1]
    have : 1 + c * z ≠ 0 := by positivity
    rw [hzd]
    field_simp
    ring
  have k0 : h * rkStages rk23 f t h 1 (f t 1) rk23.n 0 = -(5 / 2) * z := by
    rw [rkStages_zero]
    have := hg 0 1 le_rfl
    rw [zero_mul, add_zero] at this
    rw [this]
    ring
  have k1 : h * rkStages rk23 f t h 1 (f t 1) rk23.n 1 = -(5 / 2) * z / (1 + 1 / 2 * z) *
      (1 + 1 / 2 * (h * rkStages rk23 f t h 1 (f t 1) rk23.n 0)) := by
    rw [rkStages_succ rk23 f t h 1 (f t 1) (i := 0) (by norm_num [rk23])]
    have e1 : rk23.node (0 + 1) = 1 / 2 := by norm_num [rk23, Tableau.node]
    have e2 : rk23.row (0 + 1) 0 = 1 / 2 := by norm_num [rk23, Tableau.row]
    rw [e1, hg _ _ (by norm_num)]
    simp only [Finset.sum_range_succ, Finset.sum_range_zero, smul_eq_mul, e2]
    ring
  have k2 : h * rkStages rk23 f t h 1 (f t 1) rk23.n 2 = -(5 / 2) * z / (1 + 3 / 4 * z) *
      (1 + 3 / 4 * (h * rkStages rk23 f t h 1 (f t 1) rk23.n 1)) := by
    rw [rkStages_succ rk23 f t h 1 (f t 1) (i := 1) (by norm_num [rk23])]
    have e1 : rk23.node (1 + 1) = 3 / 4 := by norm_num [rk23, Tableau.node]
    have e2 : rk23.row (1 + 1) 0 = 0 := by norm_num [rk23, Tableau.row]
    have e3 : rk23.row (1 + 1) 1 = 3 / 4 := by norm_num [rk23, Tableau.row]
    rw [e1, hg _ _ (by norm_num)]
    simp only [Finset.sum_range_succ, Finset.sum_range_zero, smul_eq_mul, e2, e3]
    ring
  have hadv : rkAdvance rk23 f t h 1 = 1 + 2 / 9 * (h * rkStages rk23 f t h 1 (f t 1) rk23.n 0)
      + 1 / 3 * (h * rkStages rk23 f t h 1 (f t 1) rk23.n 1)
      + 4 / 9 * (h * rkStages rk23 f t h 1 (f t 1) rk23.n 2) := by
    unfold rkAdvance
    have : ∀ g : ℕ → ℝ, ∑ i ∈ Finset.range rk23.n, rk23.b i • g i =
        2 / 9 * g 0 + 1 / 3 * g 1 + 4 / 9 * g 2 := by
      intro g
      norm_num [rk23, Finset.sum_range_succ]
    rw [this, smul_eq_mul]
    ring
  rw [hadv, k2, k1, k0]
  have d1 : 1 + 1 / 2 * z ≠ 0 := by positivity
  have d2 : 1 + 3 / 4 * z ≠ 0 := by positivity
  have d3 : 2 + z ≠ 0 := by positivity
  have d4 : 4 + 3 * z ≠ 0 := by positivity
  have c1 : 1 + 1 / 2 * z = (2 + z) / 2 := by ring
  have c2 : 1 + 3 / 4 * z = (4 + 3 * z) / 4 := by ring
  rw [c1, c2]
  field_simp
  ring

theorem rk45_scalar {R0 v t h : ℝ} (hR : 0 < R0 + v * t) (hz : 0 ≤ h * v) :
    rkAdvance rk45 (fun t r => (1 - 1 - 5 / 2 * v / (R0 + v * t)) * r) t h 1 =
      (1 + 31 / 45 * (h * v / (R0 + v * t)) + 373 / 1800 * (h * v / (R0 + v * t)) ^ 2
        - 56 / 1125 * (h * v / (R0 + v * t)) ^ 3 + 8531 / 144000 * (h * v / (R0 + v * t)) ^ 4
        - 8881 / 144000 * (h * v / (R0 + v * t)) ^ 5 + 8849 / 69120 * (h * v / (R0 + v * t)) ^ 6) /
      ((1 + 1 / 5 * (h * v / (R0 + v * t))) * (1 + 3 / 10 * (h * v / (R0 + v * t))) *
        (1 + 4 / 5 * (h * v / (R0 + v * t))) * (1 + 8 / 9 * (h * v / (R0 + v * t))) *
        (1 + h * v / (R0 + v * t))) := by
  set f : ℝ → ℝ → ℝ := fun t r => (1 - 1 - 5 / 2 * v / (R0 + v * t)) * r with hf
  set R := R0 + v * t with hRd
  set z := h * v / R with hzd
  have hz0 : 0 ≤ z := by positivity
  have hg : ∀ c r : ℝ, 0 ≤ c → h * f (t + c * h) r = -(5 / 2) * z / (1 + c * z) * r := by
    intro c r hc
    have h1 : R0 + v * (t + c * h) = R * (1 + c * z) := by
      rw [hzd]
      field_simp
      rw [hRd]
      ring
    simp only [hf]
    rw [h1]
    have : 1 + c * z ≠ 0 := by positivity
    rw [hzd]
    field_simp
    ring
  set K := fun i => h * rkStages rk45 f t h 1 (f t 1) rk45.n i with hK
  have hsucc : ∀ i, i + 1 ≤ 6 → K (i + 1) = -(5 / 2) * z / (1 + rk45.node (i + 1) * z) *
      (1 + ∑ j ∈ Finset.range (i + 1), rk45.row (i + 1) j * K j) := by
    intro i hi
    simp only [hK]
    rw [rkStages_succ rk45 f t h 1 (f t 1) (show i + 1 ≤ rk45.n from hi),
      hg _ _ (rk45_usable.node (i + 1) hi).1, smul_eq_mul, Finset.mul_sum]
    congr 2
    refine Finset.sum_congr rfl fun j _ => ?_
    rw [smul_eq_mul]
    ring
  have k0 : K 0 = -(5 / 2) * z := by
    simp only [hK]
    rw [rkStages_zero]
    have := hg 0 1 le_rfl
    rw [zero_mul, add_zero] at this
    rw [this]
    ring
  have k1 : K 1 = -(5 / 2) * z / (1 + 1 / 5 * z) * (1 + 1 / 5 * K 0) := by
    have := hsucc 0 (by norm_num)
    norm_num [rk45, Tableau.node, Tableau.row, Finset.sum_range_succ] at this
    rw [this]
    ring
  have k2 : K 2 = -(5 / 2) * z / (1 + 3 / 10 * z) * (1 + (3 / 40 * K 0 + 9 / 40 * K 1)) := by
    have := hsucc 1 (by norm_num)
    norm_num [rk45, Tableau.node, Tableau.row, Finset.sum_range_succ] at this
    rw [this]
    ring
  have k3 : K 3 = -(5 / 2) * z / (1 + 4 / 5 * z) * (1 + (44 / 45 * K 0 - 56 / 15 * K 1
      + 32 / 9 * K 2)) := by
    have := hsucc 2 (by norm_num)
    norm_num [rk45, Tableau.node, Tableau.row, Finset.sum_range_succ] at this
    rw [this]
    ring
  have k4 : K 4 = -(5 / 2) * z / (1 + 8 / 9 * z) * (1 + (19372 / 6561 * K 0 - 25360 / 2187 * K 1
      + 64448 / 6561 * K 2 - 212 / 729 * K 3)) := by
    have := hsucc 3 (by norm_num)
    norm_num [rk45, Tableau.node, Tableau.row, Finset.sum_range_succ] at this
    rw [this]
    ring
  have k5 : K 5 = -(5 / 2) * z / (1 + z) * (1 + (9017 / 3168 * K 0 - 355 / 33 * K 1
      + 46732 / 5247 * K 2 + 49 / 176 * K 3 - 5103 / 18656 * K 4)) := by
    have := hsucc 4 (by norm_num)
    norm_num [rk45, Tableau.node, Tableau.row, Finset.sum_range_succ] at this
    rw [this]
    ring
  have hadv : rkAdvance rk45 f t h 1 = 1 + (35 / 384 * K 0 + 500 / 1113 * K 2 + 125 / 192 * K 3
      - 2187 / 6784 * K 4 + 11 / 84 * K 5) := by
    unfold rkAdvance
    have : ∀ g : ℕ → ℝ, ∑ i ∈ Finset.range rk45.n, rk45.b i • g i =
        35 / 384 * g 0 + 500 / 1113 * g 2 + 125 / 192 * g 3 - 2187 / 6784 * g 4 + 11 / 84 * g 5 := by
      intro g
      norm_num [rk45, Finset.sum_range_succ]
      ring
    rw [this, smul_eq_mul]
    simp only [hK]
    ring
  have d1 : 1 + 1 / 5 * z = (5 + z) / 5 := by ring
  have d2 : 1 + 3 / 10 * z = (10 + 3 * z) / 10 := by ring
  have d3 : 1 + 4 / 5 * z = (5 + 4 * z) / 5 := by ring
  have d4 : 1 + 8 / 9 * z = (9 + 8 * z) / 9 := by ring
  have n1 : 5 + z ≠ 0 := by positivity
  have n2 : 10 + 3 * z ≠ 0 := by positivity
  have n3 : 5 + 4 * z ≠ 0 := by positivity
  have n4 : 9 + 8 * z ≠ 0 := by positivity
  have n5 : 1 + z ≠ 0 := by positivity
  rw [d1] at k1
  rw [d2] at k2
  rw [d3] at k3
  rw [d4] at k4
  have j1 : K 1 = -(25 / 4) * z * (2 - z) / (5 + z) := by
    rw [k1, k0]
    field_simp
    ring
  rw [hadv, d1, d2, d3, d4, k5, k4, k3, k2, j1, k0]
  field_simp
  ring

/-- C126: with scattering ratio one the equations conserve the particle number.  An accepted step of
`RK23` multiplies it by `rk23Factor z`, where `z` is the growth of the radius over the step relative to
the radius. -/
theorem c126_rk23_step {P : Problem} {R0 v : ℝ} (h : NumberSetting P R0 v) (hσ : P.sigmaS = 1)
    (hv : 0 ≤ v) {y0 : StateVec} {es : List Event} (hpos : ∀ s ∈ acceptedSteps es, 0 ≤ s)
    {x x' : StepState} (hx : P.integrate rk23 y0 es = some x) {s : ℝ} (hs : 0 ≤ s)
    (hx' : P.integrate rk23 y0 (es ++ [.step s true]) = some x') :
    programTotal P x'.t x'.y = rk23Factor (s * v / (R0 + v * x.t)) * programTotal P x.t x.y := by
  obtain ⟨h1, h2⟩ := number_step h rk23_usable hpos hx hs hx'
  rw [hσ, rk23_scalar h1 (mul_nonneg hs hv)] at h2
  exact h2

/-- C126: the same for `RK45`. -/
theorem c126_rk45_step {P : Problem} {R0 v : ℝ} (h : NumberSetting P R0 v) (hσ : P.sigmaS = 1)
    (hv : 0 ≤ v) {y0 : StateVec} {es : List Event} (hpos : ∀ s ∈ acceptedSteps es, 0 ≤ s)
    {x x' : StepState} (hx : P.integrate rk45 y0 es = some x) {s : ℝ} (hs : 0 ≤ s)
    (hx' : P.integrate rk45 y0 (es ++ [.step s true]) = some x') :
    programTotal P x'.t x'.y = rk45Factor (s * v / (R0 + v * x.t)) * programTotal P x.t x.y := by
  obtain ⟨h1, h2⟩ := number_step h rk45_usable hpos hx hs hx'
  rw [hσ, rk45_scalar h1 (mul_nonneg hs hv)] at h2
  exact h2

theorem factor_sq {z : ℝ} (hz : 0 ≤ z) (q : ℝ) :
    ((1 + z) ^ 2 * Real.sqrt (1 + z) * q) ^ 2 = (1 + z) ^ 5 * q ^ 2 := by
  have : Real.sqrt (1 + z) ^ 2 = 1 + z := Real.sq_sqrt (by linarith)
  linear_combination (1 + z) ^ 4 * q ^ 2 * this

/-- C126: every step of `RK23` on a growing mesh loses particles, however short it is; a step over
which the radius grows by more than four fifths makes the number negative. -/
theorem c126_rk23_loses {z : ℝ} (hz : 0 < z) :
    rk23Factor z < 1 ∧ (4 / 5 < z → rk23Factor z < 0) ∧ (z < 4 / 5 → 0 < rk23Factor z) := by
  have hsq : 0 < (1 + z) ^ 2 * Real.sqrt (1 + z) := by positivity
  have hden : 0 < 4 * (2 + z) * (4 + 3 * z) := by positivity
  have hq : 0 < 8 + 13 * z ^ 2 := by positivity
  have hneg : 4 / 5 < z → rk23Factor z < 0 := by
    intro h
    refine mul_neg_of_pos_of_neg hsq (div_neg_of_neg_of_pos (mul_neg_of_neg_of_pos ?_ hq) hden)
    linarith
  have hp : z < 4 / 5 → 0 < rk23Factor z := by
    intro h
    refine mul_pos hsq (div_pos (mul_pos ?_ hq) hden)
    linarith
  refine ⟨?_, hneg, hp⟩
  rcases lt_or_ge (4 / 5) z with h | h
  · exact (hneg h).trans one_pos
  have h1 : rk23Factor z ^ 2 < 1 := by
    unfold rk23Factor
    rw [factor_sq hz.le, div_pow, ← mul_div_assoc, div_lt_one (by positivity)]
    have e : (4 * (2 + z) * (4 + 3 * z)) ^ 2 - (1 + z) ^ 5 * ((4 - 5 * z) * (8 + 13 * z ^ 2)) ^ 2 =
        z ^ 4 * (5040 + 12936 * z + 11655 * z ^ 2 + 4107 * z ^ 3 - 5850 * z ^ 4 - 16354 * z ^ 5
          - 14365 * z ^ 6 - 4225 * z ^ 7) := by ring
    have b1 : ∀ n : ℕ, z ^ (n + 1) ≤ z ^ n := fun n => by
      rw [pow_succ]
      exact mul_le_of_le_one_right (by positivity) (by linarith)
    have z2 : z ^ 2 ≤ z := by simpa using b1 1
    have : 0 < 5040 + 12936 * z + 11655 * z ^ 2 + 4107 * z ^ 3 - 5850 * z ^ 4 - 16354 * z ^ 5
          - 14365 * z ^ 6 - 4225 * z ^ 7 := by
      have h45 : z ^ 5 ≤ 4 / 5 * z ^ 4 := by rw [pow_succ]; nlinarith [pow_pos hz 4]
      have h4 : z ^ 4 ≤ 4 / 5 * z ^ 3 := by rw [pow_succ]; nlinarith [pow_pos hz 3]
      have h3 : z ^ 3 ≤ 4 / 5 * z ^ 2 := by rw [pow_succ]; nlinarith [pow_pos hz 2]
      have h2 : z ^ 2 ≤ 4 / 5 * z := by rw [pow_succ]; nlinarith
      have h6 : z ^ 6 ≤ 4 / 5 * z ^ 5 := by rw [pow_succ]; nlinarith [pow_pos hz 5]
      have h7 : z ^ 7 ≤ 4 / 5 * z ^ 6 := by rw [pow_succ]; nlinarith [pow_pos hz 6]
      linarith
    have h5 : 0 < z ^ 4 * (5040 + 12936 * z + 11655 * z ^ 2 + 4107 * z ^ 3 - 5850 * z ^ 4
        - 16354 * z ^ 5 - 14365 * z ^ 6 - 4225 * z ^ 7) := by positivity
    linarith
  by_contra hc
  have hc : 1 ≤ rk23Factor z := not_lt.1 hc
  nlinarith

/-- C126: every step of `RK45` on a growing mesh makes particles, however short it is. -/
theorem c126_rk45_creates {z : ℝ} (hz : 0 < z) : 1 < rk45Factor z := by
  have hnum : 0 < 1 + 31 / 45 * z + 373 / 1800 * z ^ 2 - 56 / 1125 * z ^ 3
    + 8531 / 144000 * z ^ 4 - 8881 / 144000 * z ^ 5 + 8849 / 69120 * z ^ 6 := by
    nlinarith [sq_nonneg (z ^ 3 - z ^ 2), sq_nonneg (z ^ 2 - z), pow_pos hz 2, pow_pos hz 4, pow_pos hz 6]
  have hden : 0 < (1 + 1 / 5 * z) * (1 + 3 / 10 * z) * (1 + 4 / 5 * z) * (1 + 8 / 9 * z) * (1 + z) := by
    positivity
  have hpos : 0 < rk45Factor z := by
    unfold rk45Factor
    have : 0 < Real.sqrt (1 + z) := Real.sqrt_pos.2 (by linarith)
    exact mul_pos (by positivity) (div_pos hnum hden)
  have h1 : 1 < rk45Factor z ^ 2 := by
    unfold rk45Factor
    rw [factor_sq hz.le, div_pow, ← mul_div_assoc, one_lt_div (by positivity)]
    have e : (1 + z) ^ 5 * (1 + 31 / 45 * z + 373 / 1800 * z ^ 2 - 56 / 1125 * z ^ 3
        + 8531 / 144000 * z ^ 4 - 8881 / 144000 * z ^ 5 + 8849 / 69120 * z ^ 6) ^ 2
        - ((1 + 1 / 5 * z) * (1 + 3 / 10 * z) * (1 + 4 / 5 * z) * (1 + 8 / 9 * z) * (1 + z)) ^ 2 =
        z ^ 6 * (8911 / 69120 + 1343513 / 1555200 * z + 392930293 / 165888000 * z ^ 2
          + 8615294981 / 2488320000 * z ^ 3 + 72694936261 / 24883200000 * z ^ 4
          + 11107100989 / 7776000000 * z ^ 5 + 1149910051801 / 2985984000000 * z ^ 6
          + 227553047813 / 2985984000000 * z ^ 7 + 120629924201 / 1492992000000 * z ^ 8
          + 155146590917 / 1492992000000 * z ^ 9 + 7901988869 / 119439360000 * z ^ 10
          + 78304801 / 4777574400 * z ^ 11) := by ring
    have h5 : 0 < z ^ 6 * (8911 / 69120 + 1343513 / 1555200 * z + 392930293 / 165888000 * z ^ 2
          + 8615294981 / 2488320000 * z ^ 3 + 72694936261 / 24883200000 * z ^ 4
          + 11107100989 / 7776000000 * z ^ 5 + 1149910051801 / 2985984000000 * z ^ 6
          + 227553047813 / 2985984000000 * z ^ 7 + 120629924201 / 1492992000000 * z ^ 8
          + 155146590917 / 1492992000000 * z ^ 9 + 7901988869 / 119439360000 * z ^ 10
          + 78304801 / 4777574400 * z ^ 11) := by positivity
    linarith
  by_contra hc
  have hc : rk45Factor z ≤ 1 := not_lt.1 hc
  nlinarith

/-- C126: a whole run with `RK45`: the particle number never falls and has grown if a step of positive
size was accepted, although the equations conserve it and nothing is emitted. -/
theorem c126_rk45_run {P : Problem} {R0 v : ℝ} (h : NumberSetting P R0 v) (hσ : P.sigmaS = 1)
    (hv : 0 < v) {y0 : StateVec} (hy : 0 < programTotal P 0 y0) {es : List Event}
    (hpos : ∀ s ∈ acceptedSteps es, 0 ≤ s) {x : StepState} (hx : P.integrate rk45 y0 es = some x) :
    programTotal P 0 y0 ≤ programTotal P x.t x.y ∧
      ((∃ s ∈ acceptedSteps es, 0 < s) → programTotal P 0 y0 < programTotal P x.t x.y) := by
  induction es using List.reverseRecOn generalizing x with
  | nil =>
    obtain ⟨h1, h2⟩ := integrate_unknowns h.problem rk45_usable hpos hx
    have h1 : x.t = 0 := by rw [h1]; rfl
    have h2 : unknowns P x.y = unknowns P y0 := h2
    have : programTotal P x.t x.y = programTotal P 0 y0 := by
      rw [h1, programTotal_even h le_rfl, programTotal_even h le_rfl, h2]
    refine ⟨this.ge, fun ⟨s, hs, _⟩ => absurd hs List.not_mem_nil⟩
  | append_singleton es ev ih =>
    have hacc := acceptedSteps_append es [ev]
    have hpos' : ∀ s ∈ acceptedSteps es, 0 ≤ s := fun s hs =>
      hpos s (by rw [hacc]; exact List.mem_append_left _ hs)
    obtain ⟨z, hz, -⟩ := c125_never_fails h.problem.toSphereSetup (steady_of_constant h.problem.opacity)
      rk45 y0 es
    obtain ⟨i1, i2⟩ := ih hpos' hz
    have same : acceptedSteps [ev] = [] → programTotal P x.t x.y = programTotal P z.t z.y := by
      intro h0
      rw [h0, List.append_nil] at hacc
      obtain ⟨e1, e2, -⟩ := c125_rejected_steps_leave_no_trace h.problem.toSphereSetup
        (steady_of_constant h.problem.opacity) rk45 y0 hacc hx hz
      rw [e1, e2]
    have rest : acceptedSteps [ev] = [] → programTotal P 0 y0 ≤ programTotal P x.t x.y ∧
        ((∃ s ∈ acceptedSteps (es ++ [ev]), 0 < s) →
          programTotal P 0 y0 < programTotal P x.t x.y) := by
      intro h0
      rw [same h0, hacc, h0, List.append_nil]
      exact ⟨i1, i2⟩
    cases ev with
    | probe s V => exact rest rfl
    | step s acc =>
      cases acc with
      | false => exact rest rfl
      | true =>
        have hs : 0 ≤ s := hpos s (by rw [hacc]; exact List.mem_append_right _ List.mem_cons_self)
        have h3 := c126_rk45_step h hσ hv.le hpos' hz hs hx
        have hR := (number_step h rk45_usable hpos' hz hs hx).1
        have hz0 : 0 < programTotal P z.t z.y := hy.trans_le i1
        rcases hs.eq_or_lt with rfl | hs'
        · have h4 : rk45Factor 0 = 1 := by
            unfold rk45Factor
            norm_num
          rw [zero_mul, zero_div, h4, one_mul] at h3
          rw [h3]
          refine ⟨i1, fun ⟨r, hr, hr0⟩ => i2 ⟨r, ?_, hr0⟩⟩
          rw [hacc] at hr
          rcases List.mem_append.1 hr with hr | hr
          · exact hr
          · rw [List.mem_singleton.1 hr] at hr0
            exact absurd hr0 (lt_irrefl _)
        · have h4 := c126_rk45_creates (z := s * v / (R0 + v * z.t)) (by positivity)
          have h5 : programTotal P z.t z.y < programTotal P x.t x.y := by
            rw [h3]
            nlinarith
          exact ⟨(i1.trans_lt h5).le, fun _ => i1.trans_lt h5⟩

/-- A point pulse on the even mesh that starts at `x0` and grows with the edge velocity. -/
theorem point_setting {P : Problem} (hpl : IsPlane P.mesh) (h0 : P.mesh.st 0 = 1)
    (hmv : P.mesh.moving = true) (hg : P.mesh.geometry = .sphere) (hN : 2 ≤ P.mesh.N)
    (hx : 0 < P.mesh.x0) (hv : 0 ≤ P.mesh.edgeV) (hM : P.M ≤ 10)
    (htab : TablesExact P.tables (P.M + 1)) (hinv : InverseCorrect P.M P.inv) (hn : 2 ≤ P.Nang)
    (hop : P.sigmaFunc = .constant)
    (hd : DirectionSet P.Nang P.mus) (hsym : SymmetricSet P.Nang P.mus)
    (hch : centreChecks P.Nang P.mus)
    (hw : CellWeights P) (hb : P.boundarySource = false) (hmms : P.mesh.st 4 ≠ 1)
    (hfast : ∀ l < P.Nang, P.mus l ≤ P.mesh.edgeV) : NumberSetting P P.mesh.x0 P.mesh.edgeV where
  problem := point_problem hpl h0 hmv hg (by omega) hx hv hM htab hinv hn hop hch
  shells := hN
  noSource := fun h => hpl.s1 h.2
  noBoundary := hb
  noManufactured := hmms
  directions := hd
  symmetric := hsym
  weights := hw
  fast := hfast

/-- C126 with C112: a point pulse in a medium that only scatters.  The exact particle number is
`8 π / 3 · strength` for ever.  The program integrated with `RK45` has more than that after the first
accepted step of positive size and never less again. -/
theorem c126_point_pulse {P : Problem} (hpl : IsPlane P.mesh) (h0 : P.mesh.st 0 = 1)
    (hmv : P.mesh.moving = true) (hg : P.mesh.geometry = .sphere) (hN : 2 ≤ P.mesh.N)
    (hx : 0 < P.mesh.x0) (hv : 0 < P.mesh.edgeV) (hM : P.M ≤ 10)
    (htab : TablesExact P.tables (P.M + 1)) (hinv : InverseCorrect P.M P.inv) (hn : 2 ≤ P.Nang)
    (hop : P.sigmaFunc = .constant) (hu : P.uncollided = false)
    (hquad : P.quad = chebRule (6 * P.M + 1))
    (hd : DirectionSet P.Nang P.mus) (hsym : SymmetricSet P.Nang P.mus)
    (hch : centreChecks P.Nang P.mus)
    (hw : CellWeights P) (hb : P.boundarySource = false) (hmms : P.mesh.st 4 ≠ 1)
    (hfast : ∀ l < P.Nang, P.mus l ≤ P.mesh.edgeV) (hσ : P.sigmaS = 1) (hstr : 0 < P.strength)
    {y0 : StateVec} (hy : StartsFrom P y0) {es : List Event}
    (hpos : ∀ s ∈ acceptedSteps es, 0 ≤ s) (hsome : ∃ s ∈ acceptedSteps es, 0 < s) :
    ∃ x, P.integrate rk45 y0 es = some x ∧
      8 * Real.pi / 3 * P.strength < runParticles P x.t x.y := by
  have h := point_setting hpl h0 hmv hg hN hx hv.le hM htab hinv hn hop hd hsym hch hw hb hmms hfast
  obtain ⟨V, ⟨hV0, -⟩, hV, -⟩ := c112_point_run hpl h0 hmv hg hN hx hv.le hM htab hinv hn hop hu hquad
    hd hsym hch hw hb hmms hfast (T := 0) le_rfl
  have hV := hV 0 ⟨le_rfl, le_rfl⟩
  have hun : unknowns P y0 = unknowns P (V 0) := by
    funext q
    have h1 := hy q.1 q.1.2 q.2.1 q.2.1.2 q.2.2 (Nat.lt_succ_iff.1 q.2.2.2)
    have h2 := hV0 q.1 q.1.2 q.2.1 q.2.1.2 q.2.2 (Nat.lt_succ_iff.1 q.2.2.2)
    exact Option.some.inj (h1.symm.trans h2)
  have htot : programTotal P 0 y0 = programTotal P 0 (V 0) := by
    rw [programTotal_even h le_rfl, programTotal_even h le_rfl, hun]
  have hπ := Real.pi_pos
  rw [runParticles_eq, mul_zero, Real.exp_zero, mul_one, ← htot] at hV
  have hy0 : 0 < programTotal P 0 y0 := by
    have : 0 < 8 * Real.pi * programTotal P 0 y0 := by rw [hV]; positivity
    exact (pos_iff_pos_of_mul_pos this).1 (by positivity)
  obtain ⟨x, h1, -⟩ := c125_never_fails h.problem.toSphereSetup (steady_of_constant h.problem.opacity)
    rk45 y0 es
  refine ⟨x, h1, ?_⟩
  rw [runParticles_eq, ← hV]
  have := (c126_rk45_run h hσ hv hy0 hpos h1).2 hsome
  gcongr

/-- The point pulse of C112 in a medium that only scatters. -/
noncomputable def exampleScatterRun (inv : (ℕ → ℕ → ℝ) → ℕ → ℕ → ℝ) : Problem :=
  { examplePointRun inv false with sigmaS := 1 }

theorem exampleScatterRun_fast (inv : (ℕ → ℕ → ℝ) → ℕ → ℕ → ℝ) :
    ∀ l < (exampleScatterRun inv).Nang,
      (exampleScatterRun inv).mus l ≤ (exampleScatterRun inv).mesh.edgeV := by
  intro l hl
  have : l = 0 ∨ l = 1 := by
    have : l < 2 := hl
    omega
  rcases this with rfl | rfl <;>
    norm_num [exampleScatterRun, examplePointRun, exampleShellRun, exampleShell, exampleSphereParams,
      exampleShellMesh, exampleSquareMesh]

theorem exampleScatterRun_setting {inv : (ℕ → ℕ → ℝ) → ℕ → ℕ → ℝ} (hi : InverseCorrect 1 inv) :
    NumberSetting (exampleScatterRun inv) (1 / 2) 1 :=
  point_setting (P := exampleScatterRun inv) (examplePointRun_mesh inv false) rfl rfl rfl
    (Nat.le_of_ble_eq_true rfl)
    (by norm_num [exampleScatterRun, examplePointRun, exampleShellMesh, exampleSquareMesh])
    (by norm_num [exampleScatterRun, examplePointRun, exampleShellMesh, exampleSquareMesh])
    (Nat.le_of_ble_eq_true rfl) (exactTables_exact 2) hi le_rfl rfl
    exampleSphere_directions exampleSphere_symmetric exampleShell_checks
    (exampleShell_weights inv) rfl (zero_ne_one' ℤ) (exampleScatterRun_fast inv)

/-- Started by the program with `8 π` particles, after a rejected step and two steps of a half there are
more than `8 π`. -/
example : ∃ inv, InverseCorrect 1 inv ∧ ∀ y0, StartsFrom (exampleScatterRun inv) y0 →
    ∃ x, (exampleScatterRun inv).integrate rk45 y0
      [.step 3 false, .step (1 / 2) true, .step (1 / 2) true] = some x ∧
      8 * Real.pi < runParticles (exampleScatterRun inv) x.t x.y := by
  obtain ⟨inv, hi⟩ := inverse_exists 1
  refine ⟨inv, hi, fun y0 hy => ?_⟩
  obtain ⟨x, h1, h2⟩ := c126_point_pulse (P := exampleScatterRun inv) (examplePointRun_mesh inv false)
    rfl rfl rfl (Nat.le_of_ble_eq_true rfl)
    (by norm_num [exampleScatterRun, examplePointRun, exampleShellMesh, exampleSquareMesh])
    (by norm_num [exampleScatterRun, examplePointRun, exampleShellMesh, exampleSquareMesh])
    (Nat.le_of_ble_eq_true rfl) (exactTables_exact 2) hi le_rfl rfl rfl rfl
    exampleSphere_directions exampleSphere_symmetric exampleShell_checks
    (exampleShell_weights inv) rfl (zero_ne_one' ℤ) (exampleScatterRun_fast inv) rfl
    (by norm_num [exampleScatterRun, examplePointRun, exampleShellRun]) hy
    (es := [.step 3 false, .step (1 / 2) true, .step (1 / 2) true])
    (by norm_num [acceptedSteps]) (by norm_num [acceptedSteps])
  refine ⟨x, h1, ?_⟩
  have e : (exampleScatterRun inv).strength = 3 := rfl
  rw [e] at h2
  linarith

/-- From ones, one step of a half with `RK23`: the radius doubles and the number changes its sign. -/
example : ∃ inv, InverseCorrect 1 inv ∧ ∃ x,
    (exampleScatterRun inv).integrate rk23 (fun _ _ _ => 1) [.step (1 / 2) true] = some x ∧
    programTotal (exampleScatterRun inv) x.t x.y =
      rk23Factor 1 * programTotal (exampleScatterRun inv) 0 (fun _ _ _ => 1) ∧ rk23Factor 1 < 0 := by
  obtain ⟨inv, hi⟩ := inverse_exists 1
  have h := exampleScatterRun_setting hi
  have hf := steady_of_constant h.problem.opacity
  obtain ⟨z, h1, h2⟩ := c125_never_fails h.problem.toSphereSetup hf rk23 (fun _ _ _ => 1) []
  obtain ⟨x, h3, -⟩ := c125_never_fails h.problem.toSphereSetup hf rk23 (fun _ _ _ => 1)
    [.step (1 / 2) true]
  have h4 := c126_rk23_step h rfl zero_le_one (fun s hs => absurd hs List.not_mem_nil) h1
    (s := 1 / 2) (by norm_num) h3
  have h5 := (integrate_unknowns h.problem rk23_usable (fun s hs => absurd hs List.not_mem_nil) h1).2
  have h5 : unknowns (exampleScatterRun inv) z.y = unknowns _ (fun _ _ _ => 1) := h5
  have h6 : z.t = 0 := by rw [h2]; rfl
  refine ⟨inv, hi, x, h3, ?_, (c126_rk23_loses one_pos).2.1 (by norm_num)⟩
  rw [h4, h6, programTotal_even h le_rfl, programTotal_even h le_rfl, h5]
  norm_num

/-- Doubling the source strength of the shell multiplies what the source has made by four. -/
example : ∃ inv, InverseCorrect 1 inv ∧ ∃ v u,
    (withStrengths (exampleShell inv) 1 0).integrate rk45 (fun _ _ _ => 0)
      [.step 7 false, .step 1 true] = some v ∧
    (withStrengths (exampleShell inv) 2 0).integrate rk45 (fun _ _ _ => 0) [.step 1 true] = some u ∧
    ∀ l < 2, ∀ k < 4, ∀ i ≤ 1, u.y l k i = 4 * v.y l k i := by
  obtain ⟨inv, hi⟩ := inverse_exists 1
  have hp := exampleShell_problem hi
  have hq := fun s b => withStrengths_problem hp s b
  have hf := fun s b => steady_of_constant (hq s b).opacity
  obtain ⟨v, h1, -⟩ := c125_never_fails (hq 1 0).toSphereSetup (hf 1 0) rk45 (fun _ _ _ => 0)
    [.step 7 false, .step 1 true]
  obtain ⟨u, h2, -⟩ := c125_never_fails (hq 2 0).toSphereSetup (hf 2 0) rk45 (fun _ _ _ => 0)
    [.step 1 true]
  refine ⟨inv, hi, v, u, h1, h2, fun l hl k hk i hi' => ?_⟩
  have h2' : (withStrengths (exampleShell inv) 2 (4 * 0 + 0 * 0)).integrate rk45 (fun _ _ _ => 0)
      [.step 1 true] = some u := by
    rw [mul_zero, mul_zero, add_zero]
    exact h2
  have := c126_superpose hp (zero_ne_one' ℤ) rk45_usable (x := 4) (y := 0) (s₁ := 1) (s₂ := 1)
    (s₃ := 2) (b₁ := 0) (b₂ := 0) (fun _ => by norm_num) (V0 := fun _ _ _ => 0)
    (W0 := fun _ _ _ => 0) (U0 := fun _ _ _ => 0) (fun _ _ _ _ _ _ => by norm_num) rfl
    (by simp [acceptedSteps]) (by norm_num [acceptedSteps]) h1 h1 h2' l hl k hk i hi'
  rw [this]
  ring

/-- The pulse of C112 with uncollided treatment comes out as zero. -/
example : ∃ inv, InverseCorrect 1 inv ∧ ∀ y0, StartsFrom (examplePointRun inv true) y0 →
    ∃ x, (examplePointRun inv true).integrate rk45 y0
      [.step 3 false, .step (1 / 2) true, .step (1 / 2) true] = some x ∧
      ∀ l < 2, ∀ k < 4, ∀ i ≤ 1, x.y l k i = 0 := by
  obtain ⟨inv, hi⟩ := inverse_exists 1
  refine ⟨inv, hi, fun y0 hy => ?_⟩
  exact c126_point_uncollided_empty (P := examplePointRun inv true)
    (examplePointRun_mesh inv true) rfl rfl rfl (Nat.le_of_ble_eq_true rfl)
    (by norm_num [examplePointRun, exampleShellMesh, exampleSquareMesh])
    (by norm_num [examplePointRun, exampleShellMesh, exampleSquareMesh])
    (Nat.le_of_ble_eq_true rfl) (exactTables_exact 2) hi le_rfl rfl rfl exampleShell_checks
    (zero_ne_one' ℤ) rk45_usable hy (by norm_num [acceptedSteps])

end Verif.Props
