import Verif.Props.SpherePositivity
import Verif.Props.SystemRun

/-!
Property C123: whole sphere runs superpose, scale with the data, and for one constant per shell are
ordered like their data.
-/

namespace Verif.Props

open Set Filter Topology Verif.Spec Verif.Model Verif.Lemmas

/-! ### The closed form is linear in state, source and boundary strength -/

theorem sphereField_combine (M : ℕ) (U W : ℕ → ℝ) (x y a b r : ℝ) :
    sphereField M (fun j => x * U j + y * W j) a b r =
      x * sphereField M U a b r + y * sphereField M W a b r := by
  unfold sphereField
  rw [Finset.mul_sum, Finset.mul_sum, ← Finset.sum_add_distrib]
  exact Finset.sum_congr rfl fun _ _ => by ring

theorem angularTerm_combine (n : ℕ) (mus u w : ℕ → ℝ) (x y : ℝ) (l : ℕ) :
    angularTerm n mus (fun l => x * u l + y * w l) l =
      x * angularTerm n mus u l + y * angularTerm n mus w l := by
  unfold angularTerm finiteDiffUneven
  split_ifs <;> ring

theorem sum_combine (n : ℕ) (f u w : ℕ → ℝ) (x y : ℝ) :
    ∑ j ∈ Finset.range n, f j * (x * u j + y * w j) =
      x * ∑ j ∈ Finset.range n, f j * u j + y * ∑ j ∈ Finset.range n, f j * w j := by
  rw [Finset.mul_sum, Finset.mul_sum, ← Finset.sum_add_distrib]
  exact Finset.sum_congr rfl fun _ _ => by ring

/-- The same arguments of the flux class with another boundary strength. -/
def withBoundary (c : FluxConfig) (b : ℝ) : FluxConfig := { c with boundaryStrength := b }

theorem fluxIntegrateQuad_combine (c : FluxConfig) (hm : c.mms = false) (ht : c.thermalIsOne = false)
    (x y b₁ b₂ t u v : ℝ) (j : ℕ) :
    fluxIntegrateQuad (withBoundary c (x * b₁ + y * b₂)) t u v j =
      x * fluxIntegrateQuad (withBoundary c b₁) t u v j +
        y * fluxIntegrateQuad (withBoundary c b₂) t u v j := by
  have hbc : ∀ b z, bcFunc (withBoundary c b) z t = (if c.boundarySource then 1 else 0) * b := by
    intro b z
    unfold bcFunc
    simp only [withBoundary, hm, ht]
    cases c.boundarySource <;> simp
  unfold fluxIntegrateQuad
  simp only [hbc]
  generalize (if c.boundarySource then 1 else 0 : ℝ) = β
  have h : ∀ q : List (ℝ × ℝ), ∀ g : ℝ → ℝ,
      (q.map fun z => z.2 * (β * (x * b₁ + y * b₂)) * g z.1).sum =
        x * (q.map fun z => z.2 * (β * b₁) * g z.1).sum
          + y * (q.map fun z => z.2 * (β * b₂) * g z.1).sum := by
    intro q g
    induction q with
    | nil => simp
    | cons z q ih =>
      simp only [List.map_cons, List.sum_cons, ih]
      ring
  have := h c.quad fun z => normPn j ((v - u) / 2 * z + (u + v) / 2) u v
  show (v - u) / 2 * _ = x * ((v - u) / 2 * _) + y * ((v - u) / 2 * _)
  refine Eq.trans (congrArg _ this) ?_
  simp only [withBoundary]
  ring

theorem rightOuter_combine (c : FluxConfig) (hg : c.geometry = .sphere) (hm : c.mms = false)
    (ht : c.thermalIsOne = false) (x y b₁ b₂ t : ℝ) (m : MeshView) (u w : ℕ → ℕ → ℝ) (k : ℕ) :
    rightOuter (withBoundary c (x * b₁ + y * b₂)) t m (fun k j => x * u k j + y * w k j) k =
      x * rightOuter (withBoundary c b₁) t m u k + y * rightOuter (withBoundary c b₂) t m w k := by
  have hon : ∀ b, isBoundarySourceOn (withBoundary c b) k t = isBoundarySourceOn c k t := fun _ => rfl
  unfold rightOuter
  simp only [hon, fluxIntegrateQuad_combine c hm ht]
  have e1 : ∀ b, (withBoundary c b).geometry = .sphere := fun _ => hg
  have e2 : ∀ b, (withBoundary c b).M = c.M := fun _ => rfl
  have e3 : ∀ b, (withBoundary c b).Nspace = c.Nspace := fun _ => rfl
  simp only [e1, e2, e3, geomField]
  split_ifs
  · exact sphereField_combine _ _ _ _ _ _ _ _
  · rw [Finset.mul_sum, Finset.mul_sum, ← Finset.sum_add_distrib]
    exact Finset.sum_congr rfl fun _ _ => by ring
  · ring

theorem sphereFlow_combine (p : RhsParams) (c : FluxConfig) (hg : c.geometry = .sphere)
    (hm : c.mms = false) (ht : c.thermalIsOne = false) (x y b₁ b₂ t : ℝ) (m : MeshView)
    (S R : ℕ → ℕ → ℝ) (V W : ℕ → ℕ → ℕ → ℝ) (l k i : ℕ) :
    sphereFlow p (withBoundary c (x * b₁ + y * b₂)) t m (fun k i => x * S k i + y * R k i)
        (fun l k i => x * V l k i + y * W l k i) l k i =
      x * sphereFlow p (withBoundary c b₁) t m S V l k i +
        y * sphereFlow p (withBoundary c b₂) t m R W l k i := by
  have e2 : ∀ b, (withBoundary c b).M = c.M := fun _ => rfl
  unfold sphereFlow
  simp only [e2, sphereField_combine, angularTerm_combine, sum_combine,
    rightOuter_combine c hg hm ht, upwind]
  split_ifs <;> ring

theorem scalarCoef_combine (p : RhsParams) (V W : ℕ → ℕ → ℕ → ℝ) (x y : ℝ) (k i : ℕ) :
    scalarCoef p (fun l k i => x * V l k i + y * W l k i) k i =
      x * scalarCoef p V k i + y * scalarCoef p W k i := by
  unfold scalarCoef angularSum
  exact sum_combine _ _ _ _ _ _

theorem sphereField0_combine (p : RhsParams) (c : FluxConfig) (hg : c.geometry = .sphere)
    (hm : c.mms = false) (ht : c.thermalIsOne = false) (x y b₁ b₂ t : ℝ) (m : MeshView)
    (S R : ℕ → ℕ → ℝ) (V W : ℕ → ℕ → ℕ → ℝ) (l k : ℕ) (i : Fin (c.M + 1)) :
    sphereField0 p (withBoundary c (x * b₁ + y * b₂)) t m (fun k i => x * S k i + y * R k i)
        (fun l k i => x * V l k i + y * W l k i) l k i =
      x * sphereField0 p (withBoundary c b₁) t m S V l k i +
        y * sphereField0 p (withBoundary c b₂) t m R W l k i := by
  have h := fun j => sphereFlow_combine p c hg hm ht x y b₁ b₂ t m S R V W l k j
  have key : ∀ (A : Fin (c.M + 1) → ℝ) (f g₁ g₂ : ℕ → ℝ), (∀ j, f j = x * g₁ j + y * g₂ j) →
      ∑ j, A j * f j = x * ∑ j, A j * g₁ j + y * ∑ j, A j * g₂ j := by
    intro A f g₁ g₂ hf
    rw [Finset.mul_sum, Finset.mul_sum, ← Finset.sum_add_distrib]
    exact Finset.sum_congr rfl fun j _ => by rw [hf]; ring
  have h1 := key (fun j => (massMatrix c.M (m.edges k) (m.edges (k + 1)))⁻¹ i j) _ _ _ h
  have h2 := scalarCoef_combine p V W x y k i
  have e : ∀ b S V, sphereField0 p (withBoundary c b) t m S V l k i =
      ∑ j : Fin (c.M + 1), (massMatrix c.M (m.edges k) (m.edges (k + 1)))⁻¹ i j *
        sphereFlow p (withBoundary c b) t m S V l k j + p.c * scalarCoef p V k i - V l k i :=
    fun _ _ _ => rfl
  rw [e, e, e, h1, h2]
  ring

/-- A trajectory with the right rates is a solution. -/
theorem SphereSolutionOn.of_rate {p : RhsParams} {c : FluxConfig} {mesh : ℝ → MeshView}
    {mats : ℝ → ℕ → CellMats} {S : ℝ → ℕ → ℕ → ℝ} {a b : ℝ} {F : Set ℝ}
    {V : ℝ → ℕ → ℕ → ℕ → ℝ} (hcc : centreChecks p.Nang p.mus)
    (hg : c.geometry = .sphere) (hM : c.M ≤ 10) (hmesh : SphereMeshOn c mesh mats a b F)
    (h1 : ∀ l < p.Nang, ∀ k < c.Nspace, ∀ i ≤ c.M, ContinuousOn (fun s => V s l k i) (Icc a b))
    (h2 : ∀ t ∈ Ico a b \ F, ∀ l < p.Nang, ∀ k < c.Nspace, ∀ i : Fin (c.M + 1),
      HasDerivWithinAt (fun s => V s l k i) (sphereField0 p c t (mesh t) (S t) (V t) l k i)
        (Ici t) t) : SphereSolutionOn p c mesh mats S a b F V := by
  refine ⟨h1, fun t ht fs => ?_⟩
  have htc : t ∈ Icc a b := ⟨ht.1.1, ht.1.2.le⟩
  obtain ⟨R, hR⟩ : ∃ R, activeCall p c t (mesh t) (mats t) (S t) fs (V t) = some R := by
    unfold activeCall
    rw [if_neg (fun h => h.2 hcc), hg]
    exact ⟨_, rfl⟩
  refine ⟨R, hR, fun l hl k hk i hi => ?_⟩
  refine (h2 t ht l hl k hk ⟨i, Nat.lt_succ_of_le hi⟩).congr_deriv ?_
  rw [activeCall_sphere hg hR hl hk hi]
  exact (sphereRhs_closed p c hg hM t (mesh t) (hmesh.centre t htc) (hmesh.ordered t htc) (mats t)
    (S t) fs _ l k ⟨i, Nat.lt_succ_of_le hi⟩ hk (hmesh.mats t ht k hk)).symm

/-! ### C123 -/

/-- The same arguments of `solve` with another source strength and another boundary strength. -/
def withStrengths (P : Problem) (s b : ℝ) : Problem := { P with strength := s, boundaryStrength := b }

/-- The source vector grows with the square of the strength. -/
theorem programSource_strength {P : Problem} (hg : P.mesh.geometry = .sphere) (s b t : ℝ) (k i : ℕ) :
    programSource (withStrengths P s b) t k i = s ^ 2 * programSource (withStrengths P 1 0) t k i := by
  have hx : ∀ s b, (withStrengths P s b).builtX0 = P.builtX0 := by
    intro s b
    unfold Problem.builtX0
    show (match meshInit P.mesh with
      | some m => ((withStrengths P s b).buildConfig m.edges).adjustedX0
      | none => P.mesh.x0) = _
    cases meshInit P.mesh <;> rfl
  have hm : ∀ s b, meshAt (withStrengths P s b) t = meshAt P t := fun _ _ => rfl
  unfold programSource sourceOf
  simp only [hm]
  by_cases ha : SourceAsked P
  · rw [if_pos (show SourceAsked (withStrengths P s b) from ha),
      if_pos (show SourceAsked (withStrengths P 1 0) from ha)]
    have hu : ∃ f : ℝ → ℝ, ∀ s b x, (uncollidedSolution (withStrengths P s b).uncollidedConfig [] [x] t).getD
        0 0 = f x * s := by
      unfold uncollidedSolution
      have h1 : ∀ s b, (withStrengths P s b).uncollidedConfig.uncollided = true := fun _ _ => ha.1
      have h2 : ∀ s b, (withStrengths P s b).uncollidedConfig.geometry = .sphere := fun _ _ => hg
      have h3 : ∀ s b, (withStrengths P s b).uncollidedConfig.x0 = P.builtX0 := hx
      have h4 : ∀ s b j, (withStrengths P s b).uncollidedConfig.st j = P.mesh.st j := fun _ _ _ => rfl
      have h5 : ∀ s b, (withStrengths P s b).uncollidedConfig.strength = s := fun _ _ => rfl
      simp only [h1, h2, h3, h4, h5, ha.2, if_true]
      by_cases h0 : P.mesh.st 0 = 1
      · exact ⟨fun x => pointSource x t, fun s b x => by simp [h0]⟩
      · exact ⟨fun x => shellIC P.builtX0 x t, fun s b x => by simp [h0]⟩
    obtain ⟨f, hf⟩ := hu
    simp only [hf]
    unfold sphereMoment
    split_ifs with hi
    · simp only [Option.getD_some]
      have h5 : ∀ s b, (withStrengths P s b).strength = s := fun _ _ => rfl
      have h6 : ∀ s b, (withStrengths P s b).quad = P.quad := fun _ _ => rfl
      rw [h5, h5, h6, h6]
      have hfac : ∀ w x y : ℝ, x * s = y * s ^ 2 → w * x * s = s ^ 2 * (w * y * 1) :=
        fun w x y h => by rw [mul_assoc, h]; ring
      refine hfac _ _ _ ?_
      rw [← List.sum_map_mul_right, ← List.sum_map_mul_right]
      congr 1
      refine List.map_congr_left fun z hz => ?_
      ring
    · simp
  · rw [if_neg (show ¬ SourceAsked (withStrengths P s b) from ha),
      if_neg (show ¬ SourceAsked (withStrengths P 1 0) from ha)]
    simp

theorem withStrengths_problem {P : Problem} {e d : ℕ → ℝ} (h : SphereProblem P e d) (s b : ℝ) :
    SphereProblem (withStrengths P s b) e d where
  sphere := h.sphere
  mesh := h.mesh
  order := h.order
  tables := h.tables
  inverse := h.inverse
  directions := h.directions
  checks := h.checks
  opacity := h.opacity

/-- C123: runs superpose.  If `V` is a run with source strength `s₁` and boundary strength `b₁` and
`W` one with `s₂` and `b₂`, everything else being the same, `x V + y W` is a run with boundary
strength `x b₁ + y b₂` and a source strength whose square is `x s₁² + y s₂²`; without uncollided source
the source strength does not matter, being used in the initial state only. -/
theorem c123_superpose {P : Problem} {e d : ℕ → ℝ} (h : SphereProblem P e d)
    (hmms : P.mesh.st 4 ≠ 1) {x y s₁ s₂ s₃ b₁ b₂ : ℝ}
    (hs : SourceAsked P → s₃ ^ 2 = x * s₁ ^ 2 + y * s₂ ^ 2) {a T : ℝ} (ha : 0 ≤ a) {F : Set ℝ}
    {V W : ℝ → ℕ → ℕ → ℕ → ℝ} (hV : ProgramSolutionOn (withStrengths P s₁ b₁) a T F V)
    (hW : ProgramSolutionOn (withStrengths P s₂ b₂) a T F W) :
    ProgramSolutionOn (withStrengths P s₃ (x * b₁ + y * b₂)) a T F
      (fun t l k i => x * V t l k i + y * W t l k i) := by
  have hp := withStrengths_problem h
  have hV' := (programSolution_iff (hp s₁ b₁) _ _ _ _).1 hV
  have hW' := (programSolution_iff (hp s₂ b₂) _ _ _ _).1 hW
  rw [programSolution_iff (hp s₃ (x * b₁ + y * b₂))]
  have hm : P.fluxConfig.mms = false := by simp [Problem.fluxConfig, hmms]
  have hmesh := fun s b => programMesh (hp s b).toSphereSetup ha (b := T) F
  have hsrc : ∀ t, programSource (withStrengths P s₃ (x * b₁ + y * b₂)) t = fun k i =>
      x * programSource (withStrengths P s₁ b₁) t k i +
        y * programSource (withStrengths P s₂ b₂) t k i := by
    intro t
    funext k i
    rw [programSource_strength h.sphere s₁, programSource_strength h.sphere s₂,
      programSource_strength h.sphere s₃]
    by_cases hask : SourceAsked P
    · rw [hs hask]
      ring
    · have : programSource (withStrengths P 1 0) t k i = 0 := by
        unfold programSource sourceOf
        exact if_neg hask
      rw [this]
      ring
  refine SphereSolutionOn.of_rate h.checks h.sphere h.order (hmesh _ _) (fun l hl k hk i hi =>
    ((hV'.1 l hl k hk i hi).const_smul x).add ((hW'.1 l hl k hk i hi).const_smul y))
    fun t ht l hl k hk i => ?_
  have htc : t ∈ Icc a T := ⟨ht.1.1, ht.1.2.le⟩
  have d1 := hV'.rate h.sphere h.order ht ((hmesh _ _).centre t htc)
    ((hmesh _ _).ordered t htc) ((hmesh _ _).mats t ht) hl hk i.2
  have d2 := hW'.rate h.sphere h.order ht ((hmesh _ _).centre t htc)
    ((hmesh _ _).ordered t htc) ((hmesh _ _).mats t ht) hl hk i.2
  refine ((d1.const_mul x).add (d2.const_mul y)).congr_deriv ?_
  rw [hsrc t]
  exact (sphereField0_combine P.params P.fluxConfig h.sphere hm rfl x y b₁ b₂ t (meshAt P t) _ _
    (V t) (W t) l k i).symm

theorem withStrengths_self (P : Problem) : withStrengths P P.strength P.boundaryStrength = P := rfl

/-- C123: the difference of two runs with the same arguments is a run without source and without
boundary source strength. -/
theorem c123_difference {P : Problem} {e d : ℕ → ℝ} (h : SphereProblem P e d)
    (hmms : P.mesh.st 4 ≠ 1) {a T : ℝ} (ha : 0 ≤ a) {F : Set ℝ} {V W : ℝ → ℕ → ℕ → ℕ → ℝ}
    (hV : ProgramSolutionOn P a T F V) (hW : ProgramSolutionOn P a T F W) :
    ProgramSolutionOn (withStrengths P 0 0) a T F (fun t l k i => V t l k i - W t l k i) := by
  have := c123_superpose h hmms (x := 1) (y := -1) (s₁ := P.strength) (s₂ := P.strength) (s₃ := 0)
    (b₁ := P.boundaryStrength) (b₂ := P.boundaryStrength) (fun _ => by ring) ha hV hW
  have e1 : (1 : ℝ) * P.boundaryStrength + -1 * P.boundaryStrength = 0 := by ring
  rw [e1] at this
  have e2 : (fun t l k i => V t l k i - W t l k i) =
      fun t l k i => 1 * V t l k i + -1 * W t l k i := by
    funext t l k i
    ring
  rwa [e2]

/-- C123: with data `x` times as large the answer is `x` times as large, at every time.  For the
uncollided source the data are the square of the strength. -/
theorem c123_proportional {P : Problem} {e d : ℕ → ℝ} (h : SphereProblem P e d)
    (hmms : P.mesh.st 4 ≠ 1) (hq : ¬ SourceAsked P ∨ (P.mesh.st 0 ≠ 1 ∧ OpenNodes P.quad))
    {x s₁ s₂ b : ℝ} (hs : SourceAsked P → s₂ ^ 2 = x * s₁ ^ 2) {T : ℝ} {F G : Set ℝ}
    (hF : F.Finite) (hG : G.Finite) {V W : ℝ → ℕ → ℕ → ℕ → ℝ}
    (hV : ProgramSolutionOn (withStrengths P s₁ b) 0 T F V)
    (hW : ProgramSolutionOn (withStrengths P s₂ (x * b)) 0 T G W)
    (h0 : ∀ l < P.Nang, ∀ k < P.mesh.N, ∀ i ≤ P.M, W 0 l k i = x * V 0 l k i) :
    ∀ t ∈ Icc 0 T, ∀ l < P.Nang, ∀ k < P.mesh.N, ∀ i ≤ P.M, W t l k i = x * V t l k i := by
  intro t ht
  have hT : 0 ≤ T := ht.1.trans ht.2
  have hp := withStrengths_problem h s₂ (x * b)
  obtain ⟨U, -, huniq⟩ := c110_wellposed_partial hp hq hT (fun l k i => x * V 0 l k i)
  have hxV := c123_superpose h hmms (x := x) (y := 0) (s₁ := s₁) (s₂ := s₁) (s₃ := s₂)
    (b₁ := b) (b₂ := b) (fun ha => by rw [hs ha]; ring) le_rfl hV hV
  have e1 : x * b + 0 * b = x * b := by ring
  have e2 : (fun t l k i => x * V t l k i + 0 * V t l k i) = fun t l k i => x * V t l k i := by
    funext t l k i
    ring
  rw [e1, e2] at hxV
  intro l hl k hk i hi
  rw [huniq G W hG hW h0 t ht l hl k hk i hi]
  exact (huniq F _ hF hxV (fun _ _ _ _ _ _ => rfl) t ht l hl k hk i hi).symm

/-- C123: with one constant per shell and scattering that makes up for the loss by redistribution,
the run that starts with more radiation everywhere has more everywhere at all times, with whatever
source. -/
theorem c123_ordered {P : Problem} {e d : ℕ → ℝ} (h : ConstantShells P e d) (hs : 0 ≤ P.sigmaS)
    (hw : ∀ l < P.Nang, 0 ≤ P.ws l) {a T : ℝ} (ha : 0 ≤ a) {F : Set ℝ} (hF : F.Finite)
    (hfill : ∀ t ∈ Ico a T \ F, ∀ k < P.mesh.N, ScatteringFills P.Nang P.mus P.ws P.sigmaS
      (e k + d k * t) (e (k + 1) + d (k + 1) * t))
    {V W : ℝ → ℕ → ℕ → ℕ → ℝ} (hV : ProgramSolutionOn P a T F V) (hW : ProgramSolutionOn P a T F W)
    (h0 : ∀ l < P.Nang, ∀ k < P.mesh.N, ∀ r,
      sphereField P.M (W a l k) (e k + d k * a) (e (k + 1) + d (k + 1) * a) r ≤
        sphereField P.M (V a l k) (e k + d k * a) (e (k + 1) + d (k + 1) * a) r) :
    ∀ t ∈ Icc a T, ∀ l < P.Nang, ∀ k < P.mesh.N, ∀ r,
      sphereField P.M (W t l k) (e k + d k * t) (e (k + 1) + d (k + 1) * t) r ≤
        sphereField P.M (V t l k) (e k + d k * t) (e (k + 1) + d (k + 1) * t) r := by
  have hD := c123_difference h.problem h.noManufactured ha hV hW
  have hp := withStrengths_problem h.problem 0 0
  have hc : ConstantShells (withStrengths P 0 0) e d :=
    ⟨hp, h.order, h.directions, h.noBoundary, h.noManufactured⟩
  have hl := fun t => meshAt_linear h.problem.mesh t
  have hord := h.problem.mesh.ordered
  have hsub := fun (V W : ℕ → ℝ) (x y r : ℝ) => sphereField_sub P.M V W x y r
  have main := sphere_nonneg (withStrengths P 0 0).params hc.directions hs hw
    (withStrengths P 0 0).fluxConfig hp.sphere hc.order a T F hF
    (meshAt (withStrengths P 0 0)) (programMats (withStrengths P 0 0))
    (programMesh hp.toSphereSetup ha F) (hc.velocities _)
    (programSource (withStrengths P 0 0))
    (fun t _ k _ => by rw [programSource_strength h.problem.sphere]; simp)
    (fun t _ k => hc.off k t)
    (fun t ht k hk => by
      have hk : k < P.mesh.N := hk
      have := hfill t ht k hk
      rw [← (hl t).1 k hk.le, ← (hl t).1 (k + 1) hk] at this
      exact this) _ ((programSolution_iff hp _ _ _ _).1 hD)
    (fun l hl' k hk => by
      have h1 := h0 l hl' k hk 0
      rw [← sub_nonneg, ← hsub, h.order, sphere_field_nonneg_iff (hord a ha k hk)] at h1
      exact h1)
  intro t ht l hl' k hk r
  rw [← sub_nonneg, ← hsub, h.order, sphere_field_nonneg_iff (hord t (ha.trans ht.1) k hk)]
  exact main t ht l hl' k hk

/-! ### Examples -/

/-- Any two runs of the critical sphere differ by a run without source. -/
example {inv : (ℕ → ℕ → ℝ) → ℕ → ℕ → ℝ} (hi : InverseCorrect 0 inv) {N : ℕ} (hN : 1 ≤ N) {s T : ℝ}
    (hT : 0 ≤ T) : ∃ V W, ProgramSolutionOn (exampleConstant inv N s) 0 T {0, max 0 (min
      (exampleConstant inv N s).mesh.t0 T)} V ∧
    ProgramSolutionOn (exampleConstant inv N s) 0 T {0, max 0 (min
      (exampleConstant inv N s).mesh.t0 T)} W ∧ V 0 0 0 0 = 1 ∧ W 0 0 0 0 = 2 ∧
    ∀ t ∈ Icc 0 T, W t 0 0 0 = 2 * V t 0 0 0 := by
  have h := exampleConstant_setting hi hN s
  have hq : ¬ SourceAsked (exampleConstant inv N s) := by
    simp [SourceAsked, exampleConstant, exampleCritical]
  obtain ⟨V, ⟨hV, hV0⟩, -⟩ := c110_wellposed_partial h.problem (Or.inl hq) hT (fun _ _ _ => 1)
  obtain ⟨W, ⟨hW, hW0⟩, -⟩ := c110_wellposed_partial h.problem (Or.inl hq) hT (fun _ _ _ => 2)
  have hF : ({0, max 0 (min (exampleConstant inv N s).mesh.t0 T)} : Set ℝ).Finite := by simp
  have h2 : 0 < (exampleConstant inv N s).Nang := by show 0 < 2; norm_num
  have hb : (exampleConstant inv N s).boundaryStrength = 2 * (exampleConstant inv N s).boundaryStrength := by
    have : (exampleConstant inv N s).boundaryStrength = 0 := rfl
    rw [this]
    ring
  have hW' : ProgramSolutionOn (withStrengths (exampleConstant inv N s)
      (exampleConstant inv N s).strength (2 * (exampleConstant inv N s).boundaryStrength)) 0 T
      {0, max 0 (min (exampleConstant inv N s).mesh.t0 T)} W := by
    rw [← hb]
    exact hW
  refine ⟨V, W, hV, hW, hV0 0 h2 0 hN 0 (Nat.zero_le _), hW0 0 h2 0 hN 0 (Nat.zero_le _), ?_⟩
  intro t ht
  exact c123_proportional h.problem h.noManufactured (Or.inl hq) (x := 2)
    (fun ha => absurd ha hq) hF hF hV hW' (fun l hl k hk i hi => by
      rw [hV0 l hl k hk i hi, hW0 l hl k hk i hi]; norm_num) t ht 0 h2 0 hN 0 (Nat.zero_le _)

end Verif.Props
