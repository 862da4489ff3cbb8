import Verif.Model.System
import Verif.Lemmas.Flux
import Verif.Props.SphereTables

/-! Helper facts: the composed right-hand side and the state that its objects carry along. -/

namespace Verif.Lemmas

open Verif.Model Verif.Props

/-! ### Numerical flux -/

/-- What `make_LU` leaves behind does not depend on what it found. -/
theorem fluxLU_history (c : FluxConfig) (t : ℝ) (m : MeshView) (u : ℕ → ℕ → ℝ) (space : ℕ)
    (mul : ℝ) (uRefl : ℕ → ℝ) (s s' : FluxState) {i : ℕ} (hi : i ≤ c.M) :
    fluxLU c t m u space mul uRefl s i = fluxLU c t m u space mul uRefl s' i := by
  unfold fluxLU makeLU makeSol extendMesh makeH v0Term v3Term
  by_cases h1 : space + 1 ≠ c.Nspace <;> by_cases h2 : space ≠ 0
  · simp only [if_pos h1, if_pos h2, if_pos hi]
  · simp only [if_pos h1, if_neg h2, if_pos hi]
  · simp only [if_neg h1, if_pos h2, if_pos hi]
  · simp only [if_neg h1, if_neg h2, if_pos hi]

/-! ### Matrices -/

/-- What `make_all_matrices` leaves behind, for tables and orders it can handle. -/
noncomputable def matricesAfter (s : SphereObject) (T : SphereTables) (a b ap bp : ℝ) :
    SphereObject where
  M := s.M
  L := fun i j => if 1 ≤ i ∧ i ≤ s.M ∧ j ≤ s.M then lEntry T a b i j else s.L i j
  G := fun i j => if i ≤ s.M ∧ j ≤ s.M then (gMatrix i j a b ap bp).getD 0 / Real.pi else s.G i j
  Mass := fun i j => if i ≤ s.M ∧ j ≤ s.M then massEntry T a b i j else s.Mass i j
  J := fun i j => if i ≤ s.M ∧ j ≤ s.M then jEntry T a b i j else s.J i j
  MPRIME := fun i j =>
    if i ≤ s.M ∧ j ≤ s.M then (mPrime i j a b ap bp).getD 0 / Real.pi else s.MPRIME i j

/-- The tables can be used for order `M`. -/
structure TablesUsable (T : SphereTables) (M : ℕ) : Prop where
  order : M ≤ 10
  mass : usable T.massSize M T.massDenom 0
  j : usable T.jSize M T.jDenom 0
  l : usable T.lSize M T.lDenom 1

theorem makeAll_eq {s : SphereObject} {T : SphereTables} (h : TablesUsable T s.M)
    (a b ap bp : ℝ) : s.makeAll T a b ap bp = some (matricesAfter s T a b ap bp) := by
  have hG : ∀ i ≤ s.M, ∀ j ≤ s.M, (gMatrix i j a b ap bp).isSome := fun i hi j hj =>
    gMatrix_isSome (hi.trans h.order) (hj.trans h.order) a b ap bp
  have hP : ∀ i ≤ s.M, ∀ j ≤ s.M, (mPrime i j a b ap bp).isSome := fun i hi j hj =>
    mPrime_isSome (hi.trans h.order) (hj.trans h.order) a b ap bp
  simp only [SphereObject.makeAll, SphereObject.makeL, SphereObject.makeG,
    SphereObject.makeMass, SphereObject.makeJ, SphereObject.makeMPRIME, fillFromTable, if_pos h.l,
    if_pos hG, if_pos h.mass, if_pos h.j, if_pos hP, Option.map_some, Option.bind_eq_bind,
    Option.bind_some]
  rfl

/-- Entries that are never written are the zeros of the constructor. -/
structure MatricesReady (M : ℕ) (s : SphereObject) : Prop where
  order : s.M = M
  outside : ∀ i j, ¬ (i ≤ M ∧ j ≤ M) →
    s.L i j = 0 ∧ s.G i j = 0 ∧ s.Mass i j = 0 ∧ s.J i j = 0 ∧ s.MPRIME i j = 0
  row : ∀ j, s.L 0 j = 0

theorem matricesReady_init (M : ℕ) : MatricesReady M (SphereObject.init M) :=
  ⟨rfl, fun _ _ _ => ⟨rfl, rfl, rfl, rfl, rfl⟩, fun _ => rfl⟩

theorem MatricesReady.after {M : ℕ} {s : SphereObject} (h : MatricesReady M s) (T : SphereTables)
    (a b ap bp : ℝ) : MatricesReady M (matricesAfter s T a b ap bp) where
  order := h.order
  outside i j hij := by
    obtain ⟨h1, h2, h3, h4, h5⟩ := h.outside i j hij
    rw [← h.order] at hij
    have hij' : ¬ (1 ≤ i ∧ i ≤ s.M ∧ j ≤ s.M) := fun hh => hij hh.2
    simp only [matricesAfter, if_neg hij, if_neg hij']
    exact ⟨h1, h2, h3, h4, h5⟩
  row j := by simp [matricesAfter, h.row j]

/-- The matrices of a cell do not depend on the cells and calls before. -/
theorem MatricesReady.after_eq {M : ℕ} {s : SphereObject} (h : MatricesReady M s)
    (T : SphereTables) (a b ap bp : ℝ) :
    matricesAfter s T a b ap bp = matricesAfter (SphereObject.init M) T a b ap bp := by
  have ho := h.order
  unfold matricesAfter
  simp only [SphereObject.mk.injEq]
  refine ⟨ho, ?_, ?_, ?_, ?_, ?_⟩ <;> funext i j
  · by_cases hij : i ≤ M ∧ j ≤ M
    · by_cases h1 : 1 ≤ i
      · simp [ho, hij.1, hij.2, h1, SphereObject.init]
      · obtain rfl : i = 0 := by omega
        simp [h.row j, SphereObject.init]
    · have hij' : ¬ (1 ≤ i ∧ i ≤ M ∧ j ≤ M) := fun hh => hij hh.2
      show (if 1 ≤ i ∧ i ≤ s.M ∧ j ≤ s.M then _ else _) = (if 1 ≤ i ∧ i ≤ M ∧ j ≤ M then _ else _)
      rw [ho, if_neg hij', if_neg hij']
      exact (h.outside i j hij).1
  all_goals
    by_cases hij : i ≤ M ∧ j ≤ M
    · show (if i ≤ s.M ∧ j ≤ s.M then _ else _) = (if i ≤ M ∧ j ≤ M then _ else _)
      rw [ho, if_pos hij, if_pos hij]
    · obtain ⟨h1, h2, h3, h4, h5⟩ := h.outside i j hij
      show (if i ≤ s.M ∧ j ≤ s.M then _ else _) = (if i ≤ M ∧ j ≤ M then _ else _)
      rw [ho, if_neg hij, if_neg hij]
      assumption

/-! ### The state carried along -/

/-- Opacities that do not depend on time. -/
def SteadyOpacity (P : Problem) : Prop := P.sigmaFunc ≠ .fakeSedov ∧ P.sigmaFunc ≠ .other

theorem SteadyOpacity.time {P : Problem} (h : SteadyOpacity P) (x t : ℝ) :
    sigmaFunction P.opacityConfig x t = sigmaFunction P.opacityConfig x 0 := by
  unfold sigmaFunction
  cases hf : P.opacityConfig.func <;> try rfl
  · exact absurd hf h.1

/-- The opacity moments of a mesh. -/
noncomputable def momentsOf (P : Problem) (e : ℕ → ℝ) (k j : ℕ) : ℝ :=
  slabMoment P.quad (fun x => sigmaFunction P.opacityConfig x 0) (e k) (e (k + 1)) j

/-- The source vector is computed in every cell. -/
def SourceAsked (P : Problem) : Prop := P.uncollided = true ∧ P.mesh.st 1 = 1

/-- What every sequence of calls preserves. -/
structure Ready (P : Problem) (o : Objects) : Prop where
  matrices : MatricesReady P.M o.matrices
  source : ¬ SourceAsked P → ∀ j, o.S j = 0
  scalar : P.sigmaS = 0 → ∀ i, o.scalar i = 0
  moments : ∀ k < P.mesh.N, ∀ j ≤ P.Msigma, o.opacity.cs k j = momentsOf P o.opacity.edges k j

theorem ready_objects {P : Problem} {o : Objects} (h : P.objects = some o) : Ready P o := by
  unfold Problem.objects at h
  obtain ⟨m, -, rfl⟩ := Option.map_eq_some_iff.1 h
  refine ⟨matricesReady_init _, fun _ _ => rfl, fun _ _ => rfl, fun k _ j _ => ?_⟩
  simp [momentsOf, slabMoment, opacityInit]

theorem prepare_eq {P : Problem} (hf : SteadyOpacity P) {o o' : Objects} {t : ℝ}
    (h : P.prepare o t = some o') : meshMove P.mesh o.mesh t = some o'.mesh ∧
      o'.matrices = o.matrices ∧ o'.flux = o.flux ∧ o'.S = o.S ∧ o'.unc = o.unc ∧
      o'.scalar = o.scalar ∧
      o'.opacity = sigmaMoments P.opacityConfig o'.mesh.edges t o.opacity := by
  unfold Problem.prepare at h
  rw [if_neg hf.2] at h
  obtain ⟨m, hm, rfl⟩ := Option.map_eq_some_iff.1 h
  unfold Problem.timeStepCounter
  split_ifs <;> exact ⟨hm, rfl, rfl, rfl, rfl, rfl, rfl⟩

theorem Ready.prepare {P : Problem} (hf : SteadyOpacity P) {o o' : Objects} {t : ℝ}
    (hr : Ready P o) (h : P.prepare o t = some o') :
    Ready P o' ∧ o'.opacity.edges = o'.mesh.edges := by
  obtain ⟨-, h2, -, h4, -, h5, h6⟩ := prepare_eq hf h
  refine ⟨⟨h2 ▸ hr.matrices, h4 ▸ hr.source, h5 ▸ hr.scalar, fun k hk j hj => ?_⟩, by rw [h6]; rfl⟩
  rw [h6]
  unfold sigmaMoments
  by_cases hc : o'.mesh.edges k ≠ o.opacity.edges k ∨ o'.mesh.edges (k + 1) ≠ o.opacity.edges (k + 1)
  · have : k < P.opacityConfig.Nspace ∧ (o'.mesh.edges k ≠ o.opacity.edges k ∨
      o'.mesh.edges (k + 1) ≠ o.opacity.edges (k + 1)) ∧ j ≤ P.opacityConfig.Msigma := ⟨hk, hc, hj⟩
    simp only [if_pos this]
    unfold momentsOf
    congr 1
    funext x
    exact hf.time x t
  · have : ¬ (k < P.opacityConfig.Nspace ∧ (o'.mesh.edges k ≠ o.opacity.edges k ∨
      o'.mesh.edges (k + 1) ≠ o.opacity.edges (k + 1)) ∧ j ≤ P.opacityConfig.Msigma) :=
      fun hh => hc hh.2.1
    simp only [if_neg this]
    rw [hr.moments k hk j hj]
    push Not at hc
    unfold momentsOf
    rw [hc.1, hc.2]

/-! ### One cell -/

/-- The source vector of a cell, from the constructor's zeros. -/
noncomputable def sourceOf (P : Problem) (t xL xR : ℝ) (j : ℕ) : ℝ :=
  open Classical in
  if SourceAsked P then
    (sphereMoment P.quad
      (fun x => (uncollidedSolution P.uncollidedConfig [] [x] t).getD 0 0) xL xR j).getD 0
      * P.strength
  else 0

theorem uncollided_point {P : Problem} (hg : P.mesh.geometry = .sphere) (ha : SourceAsked P)
    (prev : List ℝ) (x t : ℝ) : uncollidedSolution P.uncollidedConfig prev [x] t =
      uncollidedSolution P.uncollidedConfig [] [x] t := by
  unfold uncollidedSolution
  have h1 : P.uncollidedConfig.geometry = .sphere := hg
  have h2 : P.uncollidedConfig.st 1 = 1 := ha.2
  rw [h1]
  simp only [h2, if_true]

theorem sourceStep_eq {P : Problem} (hg : P.mesh.geometry = .sphere) (hM : P.M ≤ 10) {o : Objects}
    (hr : ¬ SourceAsked P → ∀ j, o.S j = 0) (t xL xR : ℝ) :
    ∃ S unc, P.sourceStep o t xL xR = some { o with S := S, unc := unc } ∧
      (∀ j ≤ P.M, S j = sourceOf P t xL xR j) ∧ (¬ SourceAsked P → ∀ j, S j = 0) := by
  have h1 : P.sourceConfig.geometry = .sphere := hg
  have h12 : P.sourceConfig.M ≤ 12 := hM.trans (by norm_num)
  unfold Problem.sourceStep makeSource
  rw [h1]
  by_cases ha : SourceAsked P
  · have ha' : P.sourceConfig.uncollided = true ∧ P.sourceConfig.st 1 = 1 := ha
    simp only [if_pos ha', if_pos h12, Option.map_some]
    refine ⟨_, _, rfl, fun j hj => ?_, fun hn => absurd ha hn⟩
    have hj' : j ≤ P.sourceConfig.M := hj
    simp only [assignUpTo, if_pos hj', sourceOf, if_pos ha]
    simp only [uncollided_point hg ha]
    rfl
  · have ha' : ¬ (P.sourceConfig.uncollided = true ∧ P.sourceConfig.st 1 = 1) := ha
    simp only [if_neg ha', Option.map_some]
    refine ⟨_, _, rfl, fun j hj => ?_, fun _ j => ?_⟩
    · simp [hr ha j, sourceOf, ha]
    · simp [hr ha j]

/-- The scalar flux term of a cell. -/
noncomputable def scalarOf (P : Problem) (e : ℕ → ℝ) (V : ℕ → ℕ → ℕ → ℝ) (space i : ℕ) : ℝ :=
  open Classical in
  if P.sigmaS ≠ 0 then
    scalarFluxTerm P.opacityConfig .sphere P.Nang P.ws (momentsOf P e) (fun l => V l space) space
      (e space) (e (space + 1)) i
  else 0

/-- The matrices of a cell. -/
noncomputable def matsOf (P : Problem) (m : MeshView) (k : ℕ) : CellMats :=
  let s := matricesAfter (SphereObject.init P.M) P.tables (m.edges k) (m.edges (k + 1))
    (m.Dedges k) (m.Dedges (k + 1))
  s.cellMats (P.inv s.Mass)

/-- The objects hold what belongs to cell `k` at time `t`. -/
structure InCell (P : Problem) (t : ℝ) (V : ℕ → ℕ → ℕ → ℝ) (k : ℕ) (o : Objects) : Prop where
  ready : Ready P o
  synced : o.opacity.edges = o.mesh.edges
  mats : o.matrices.cellMats (P.inv o.matrices.Mass) = matsOf P (Problem.view o) k
  source : ∀ j ≤ P.M, o.S j = sourceOf P t (o.mesh.edges k) (o.mesh.edges (k + 1)) j
  scalar : ∀ j ≤ P.M, o.scalar j = scalarOf P o.mesh.edges V k j

theorem scalarFluxTerm_congr (P : Problem) {cs cs' : ℕ → ℕ → ℝ} (u : ℕ → ℕ → ℝ) (k : ℕ)
    (a b : ℝ) (i : ℕ) (h : ∀ j ≤ P.Msigma, cs k j = cs' k j) :
    scalarFluxTerm P.opacityConfig .sphere P.Nang P.ws cs u k a b i =
      scalarFluxTerm P.opacityConfig .sphere P.Nang P.ws cs' u k a b i := by
  unfold scalarFluxTerm scatterVector
  split_ifs
  · rfl
  · congr 1
    refine Finset.sum_congr rfl fun l _ => Finset.sum_congr rfl fun j _ =>
      Finset.sum_congr rfl fun q hq => ?_
    rw [h q (by have := Finset.mem_range.1 hq; simp only [Problem.opacityConfig] at this; omega)]

theorem cellStep_eq {P : Problem} (hg : P.mesh.geometry = .sphere) (hT : TablesUsable P.tables P.M)
    {o : Objects} (hr : Ready P o) (hs : o.opacity.edges = o.mesh.edges) (t : ℝ)
    (V : ℕ → ℕ → ℕ → ℝ) {k : ℕ} (hk : k < P.mesh.N) :
    ∃ o', P.cellStep o t V k = some o' ∧ InCell P t V k o' ∧ o'.mesh = o.mesh := by
  have hT' : TablesUsable P.tables o.matrices.M := by rw [hr.matrices.order]; exact hT
  unfold Problem.cellStep
  rw [makeAll_eq hT', Option.bind_some]
  set s := matricesAfter o.matrices P.tables (o.mesh.edges k) (o.mesh.edges (k + 1))
    (o.mesh.Dedges k) (o.mesh.Dedges (k + 1)) with hsdef
  -- the scalar flux term
  obtain ⟨sc, hsc, hsc1, hsc2⟩ : ∃ sc, P.scalarStep { o with matrices := s } V k =
      { o with matrices := s, scalar := sc } ∧
      (∀ j ≤ P.M, sc j = scalarOf P o.mesh.edges V k j) ∧ (P.sigmaS = 0 → ∀ j, sc j = 0) := by
    unfold Problem.scalarStep
    by_cases hc : P.sigmaS = 0
    · refine ⟨o.scalar, by simp [hc], fun j _ => ?_, fun _ => hr.scalar hc⟩
      rw [hr.scalar hc j]
      simp [scalarOf, hc]
    · refine ⟨assignUpTo P.M o.scalar (scalarFluxTerm P.opacityConfig P.mesh.geometry P.Nang P.ws
          o.opacity.cs (fun l => V l k) k (o.mesh.edges k) (o.mesh.edges (k + 1))),
        by simp only [ne_eq, hc, not_false_eq_true, if_true], fun j hj => ?_,
        fun h0 => absurd h0 hc⟩
      simp only [assignUpTo, if_pos hj, scalarOf, ne_eq, hc, not_false_eq_true, if_true, hg]
      exact scalarFluxTerm_congr P _ k _ _ j fun q hq => by rw [hr.moments k hk q hq, hs]
  rw [hsc]
  obtain ⟨S, unc, h1, h2, h3⟩ := sourceStep_eq hg hT.order
    (o := { o with matrices := s, scalar := sc }) hr.source t (o.mesh.edges k) (o.mesh.edges (k + 1))
  refine ⟨_, h1, ⟨⟨hr.matrices.after _ _ _ _ _, h3, hsc2, hr.moments⟩, hs, ?_, h2, hsc1⟩, rfl⟩
  show s.cellMats (P.inv s.Mass) = _
  unfold matsOf
  rw [hsdef, hr.matrices.after_eq]
  rfl

/-! ### Directions -/

/-- One entry of the returned array. -/
noncomputable def entryOf (P : Problem) (m : MeshView) (t : ℝ) (V : ℕ → ℕ → ℕ → ℝ)
    (angle space i : ℕ) : ℝ :=
  matVec P.M (matsOf P m space).Minv (sphereWeak P.params P.fluxConfig t m (matsOf P m space)
    (fun k => sourceOf P t (m.edges k) (m.edges (k + 1))) fluxInit V angle space) i
    + scalarOf P m.edges V space i * P.sigmaS - V angle space i

theorem matVec_vec_congr {M : ℕ} (A : ℕ → ℕ → ℝ) {x y : ℕ → ℝ} (h : ∀ j ≤ M, x j = y j) (i : ℕ) :
    matVec M A x i = matVec M A y i := by
  unfold matVec
  exact Finset.sum_congr rfl fun j hj => by rw [h j (by have := Finset.mem_range.1 hj; omega)]

theorem angleStep_eq {P : Problem} {t : ℝ} {V : ℕ → ℕ → ℕ → ℝ} {k : ℕ} {o : Objects}
    (h : InCell P t V k o) (R : ℕ → ℕ → ℕ → ℝ) (angle : ℕ) (ha : P.asserts k angle) :
    ∃ o', P.angleStep o R t V k angle = some (o', fun a q i =>
        if a = angle ∧ q = k ∧ i ≤ P.M then entryOf P (Problem.view o) t V angle k i
        else R a q i) ∧
      InCell P t V k o' ∧ o'.mesh = o.mesh := by
  unfold Problem.angleStep
  rw [if_pos ha]
  refine ⟨{ o with
      flux := makeLU P.fluxConfig t (Problem.view o) (V angle) k (P.mus angle)
        (V (reflIndex P.Nang angle k) 0) o.flux
      opacity := makeVectors P.opacityConfig o.mesh.edges (V angle k) k o.opacity }, ?_,
    ⟨⟨h.ready.matrices, h.ready.source, h.ready.scalar, ?_⟩, ?_, h.mats, h.source,
    h.scalar⟩, rfl⟩
  · refine congrArg some (Prod.ext rfl ?_)
    funext a q i
    show (if a = angle ∧ q = k ∧ i ≤ P.M then _ else _) = _
    by_cases hc : a = angle ∧ q = k ∧ i ≤ P.M
    · simp only [if_pos hc]
      unfold Problem.row entryOf
      have hm := h.mats
      have e1 : P.inv o.matrices.Mass = (matsOf P (Problem.view o) k).Minv := by rw [← hm]; rfl
      rw [h.scalar i hc.2.2]
      congr 2
      rw [e1]
      refine matVec_vec_congr _ (fun j hj => ?_) i
      unfold sphereWeak
      rw [← hm]
      have e2 := fluxLU_history P.fluxConfig t (Problem.view o) (V angle) k (P.mus angle)
        (V (reflIndex P.Nang angle k) 0) o.flux fluxInit (i := j) hj
      simp only [fluxLU] at e2
      rw [h.source j hj]
      simp only [fluxLU]
      show 0 - (makeLU P.fluxConfig t (Problem.view o) (V angle) k (P.mus angle)
        (V (reflIndex P.Nang angle k) 0) o.flux).LU j + _ - _ + _ + _ - _ = _
      rw [e2]
      rfl
    · simp only [if_neg hc]
  · intro q hq j hj
    show (makeVectors _ _ _ _ _).cs q j = momentsOf P (makeVectors _ _ _ _ _).edges q j
    unfold makeVectors
    split_ifs <;> exact h.ready.moments q hq j hj
  · show (makeVectors _ _ _ _ _).edges = _
    unfold makeVectors
    split_ifs <;> exact h.synced

theorem angleLoop_eq {P : Problem} {t : ℝ} {V : ℕ → ℕ → ℕ → ℝ} {k : ℕ} {o : Objects}
    (h : InCell P t V k o) (R : ℕ → ℕ → ℕ → ℝ) (n : ℕ) (ha : ∀ angle < n, P.asserts k angle) :
    ∃ o', P.angleLoop t V k n (o, R) = some (o', fun a q i =>
        if a < n ∧ q = k ∧ i ≤ P.M then entryOf P (Problem.view o) t V a k i else R a q i) ∧
      InCell P t V k o' ∧ o'.mesh = o.mesh := by
  induction n with
  | zero => exact ⟨o, by simp [Problem.angleLoop], h, rfl⟩
  | succ n ih =>
    obtain ⟨o1, h1, h2, h3⟩ := ih fun angle hn => ha angle (by omega)
    obtain ⟨o2, g1, g2, g3⟩ := angleStep_eq h2 (fun a q i =>
        if a < n ∧ q = k ∧ i ≤ P.M then entryOf P (Problem.view o) t V a k i else R a q i) n
        (ha n (by omega))
    refine ⟨o2, ?_, g2, g3.trans h3⟩
    rw [Problem.angleLoop, h1, Option.bind_some, g1]
    have hv : Problem.view o1 = Problem.view o := by unfold Problem.view; rw [h3]
    rw [hv]
    congr 2
    funext a q i
    by_cases hq : q = k ∧ i ≤ P.M
    · rcases lt_trichotomy a n with h' | h' | h'
      · simp [hq, h', h'.ne, Nat.lt_succ_of_lt h']
      · simp [hq, h']
      · simp [hq, h'.ne', not_lt.2 h'.le, show ¬ a < n + 1 by omega]
    · simp [hq]

theorem angleLoop_none {P : Problem} {t : ℝ} {V : ℕ → ℕ → ℕ → ℝ} {k n angle : ℕ} (hn : angle < n)
    (ha : ¬ P.asserts k angle) (x : Objects × (ℕ → ℕ → ℕ → ℝ)) :
    P.angleLoop t V k n x = none := by
  induction n with
  | zero => omega
  | succ n ih =>
    rw [Problem.angleLoop]
    by_cases h : angle = n
    · subst h
      cases P.angleLoop t V k angle x with
      | none => rfl
      | some y => simp [Problem.angleStep, ha]
    · rw [ih (by omega), Option.bind_none]

/-! ### Cells -/

theorem cellLoop_eq {P : Problem} (hg : P.mesh.geometry = .sphere)
    (hT : TablesUsable P.tables P.M) (hc : centreChecks P.Nang P.mus) {o : Objects}
    (hr : Ready P o) (hs : o.opacity.edges = o.mesh.edges) (t : ℝ) (V R : ℕ → ℕ → ℕ → ℝ) (n : ℕ)
    (hn : n ≤ P.mesh.N) :
    ∃ o', P.cellLoop t V n (o, R) = some (o', fun a q i =>
        if a < P.Nang ∧ q < n ∧ i ≤ P.M then entryOf P (Problem.view o) t V a q i else R a q i) ∧
      Ready P o' ∧ o'.opacity.edges = o'.mesh.edges ∧ o'.mesh = o.mesh := by
  induction n with
  | zero => exact ⟨o, by simp [Problem.cellLoop], hr, hs, rfl⟩
  | succ n ih =>
    obtain ⟨o1, h1, h2, h3, h4⟩ := ih (by omega)
    obtain ⟨o2, g1, g2, g3⟩ := cellStep_eq hg hT h2 h3 t V (show n < P.mesh.N by omega)
    obtain ⟨o3, f1, f2, f3⟩ := angleLoop_eq g2 (fun a q i =>
        if a < P.Nang ∧ q < n ∧ i ≤ P.M then entryOf P (Problem.view o) t V a q i else R a q i)
        P.Nang (fun angle ha _ h => hc angle ha h)
    refine ⟨o3, ?_, f2.ready, f2.synced, by rw [f3, g3, h4]⟩
    rw [Problem.cellLoop, h1, Option.bind_some, g1, Option.bind_some, f1]
    have hv : Problem.view o2 = Problem.view o := by unfold Problem.view; rw [g3, h4]
    rw [hv]
    congr 2
    funext a q i
    by_cases hq : a < P.Nang ∧ i ≤ P.M
    · rcases lt_trichotomy q n with h' | h' | h'
      · simp [hq, h', h'.ne, Nat.lt_succ_of_lt h']
      · simp [hq, h']
      · simp [hq, h'.ne', not_lt.2 h'.le, show ¬ q < n + 1 by omega]
    · have h1 : ¬ (a < P.Nang ∧ q = n ∧ i ≤ P.M) := fun h => hq ⟨h.1, h.2.2⟩
      have h2 : ¬ (a < P.Nang ∧ q < n ∧ i ≤ P.M) := fun h => hq ⟨h.1, h.2.2⟩
      have h3 : ¬ (a < P.Nang ∧ q < n + 1 ∧ i ≤ P.M) := fun h => hq ⟨h.1, h.2.2⟩
      simp only [if_neg h1, if_neg h2, if_neg h3]

theorem cellLoop_none {P : Problem} (hc : ¬ centreChecks P.Nang P.mus) (t : ℝ)
    (V : ℕ → ℕ → ℕ → ℝ) (x : Objects × (ℕ → ℕ → ℕ → ℝ)) (n : ℕ) :
    P.cellLoop t V (n + 1) x = none := by
  unfold centreChecks at hc
  push Not at hc
  obtain ⟨angle, h1, h2, h3⟩ := hc
  have hn : ¬ P.asserts 0 angle := fun ha => absurd (ha rfl h2).2 (not_le.2 (h3 (ha rfl h2).1))
  induction n with
  | zero =>
    rw [Problem.cellLoop, Problem.cellLoop, Option.bind_some]
    cases P.cellStep x.1 t V 0 with
    | none => rfl
    | some o => exact angleLoop_none h1 hn _
  | succ n ih => rw [Problem.cellLoop, ih, Option.bind_none]

open Classical in
/-- The composed right-hand side: what it returns, and what it leaves behind. -/
theorem call_eq {P : Problem} (hg : P.mesh.geometry = .sphere) (hT : TablesUsable P.tables P.M)
    (hf : SteadyOpacity P) {o : Objects} (hr : Ready P o) (t : ℝ) (V : ℕ → ℕ → ℕ → ℝ)
    {m : MeshState} (hm : meshMove P.mesh o.mesh t = some m) :
    (P.call o t V).map (·.2) =
        (if 0 < P.mesh.N ∧ ¬ centreChecks P.Nang P.mus then none
        else some fun a q i => if a < P.Nang ∧ q < P.mesh.N ∧ i ≤ P.M then
          entryOf P ⟨m.edges, m.Dedges⟩ t V a q i else V a q i) ∧
      ∀ y, P.call o t V = some y → Ready P y.1 ∧ y.1.mesh = m := by
  obtain ⟨o1, h1⟩ : ∃ o1, P.prepare o t = some o1 := by
    unfold Problem.prepare
    rw [if_neg hf.2, hm]
    exact ⟨_, rfl⟩
  obtain ⟨h2, h3⟩ := hr.prepare hf h1
  have h4 : o1.mesh = m := by
    have := (prepare_eq hf h1).1
    rw [hm] at this
    exact (Option.some_inj.1 this).symm
  unfold Problem.call
  rw [h1, Option.bind_some]
  by_cases hc : centreChecks P.Nang P.mus
  · obtain ⟨o2, g1, g2, g3, g4⟩ := cellLoop_eq hg hT hc h2 h3 t V V P.mesh.N le_rfl
    rw [g1]
    have hv : Problem.view o1 = ⟨m.edges, m.Dedges⟩ := by unfold Problem.view; rw [h4]
    refine ⟨by simp [hc, hv], fun y hy => ?_⟩
    obtain rfl := Option.some_inj.1 hy
    exact ⟨g2, g4.trans h4⟩
  · cases hN : P.mesh.N with
    | zero =>
      simp only [Problem.cellLoop, Option.map_some]
      refine ⟨by simp, fun y hy => ?_⟩
      obtain rfl := Option.some_inj.1 hy
      exact ⟨h2, h4⟩
    | succ n =>
      rw [cellLoop_none hc]
      simp [hc]

end Verif.Lemmas
