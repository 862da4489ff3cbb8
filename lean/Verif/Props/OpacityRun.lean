import Verif.Props.SystemOpacity
import Verif.Props.Solve
import Verif.Lemmas.LinearODE

/-!
Property C131: sphere runs with an opacity that depends on the place, from the equations to what
`solve` returns.
-/

namespace Verif.Props

open Set Filter Topology Verif.Spec Verif.Model Verif.Lemmas
open scoped ContDiff NNReal

/-- Arguments of `solve` for a sphere with an opacity function other than `constant`, without
source. -/
structure OpacityProblem (P : Problem) (e d : ℕ → ℝ) : Prop extends SphereSetup P e d where
  steady : SteadyOpacity P
  varies : P.sigmaFunc ≠ .constant
  noSource : ¬ SourceAsked P

theorem OpacityProblem.absorber {P : Problem} {e d : ℕ → ℝ} (h : OpacityProblem P e d) :
    SphereProblem (absorber P) e d :=
  ⟨⟨h.sphere, h.mesh, h.order, h.tables, h.inverse, h.directions, h.checks⟩, rfl⟩

/-! ### The scattering vector as a linear map -/

theorem programScatter_add (P : Problem) (e : ℕ → ℝ) (V W : ℕ → ℕ → ℕ → ℝ) (k i : ℕ) :
    programScatter P e (fun l k i => V l k i + W l k i) k i =
      programScatter P e V k i + programScatter P e W k i := by
  unfold programScatter scatterVector
  rw [← add_div]
  congr 1
  simp only [← Finset.sum_add_distrib]
  refine Finset.sum_congr rfl fun l _ => Finset.sum_congr rfl fun j _ => Finset.sum_congr rfl fun m _ => ?_
  ring

theorem programScatter_smul (P : Problem) (e : ℕ → ℝ) (x : ℝ) (V : ℕ → ℕ → ℕ → ℝ) (k i : ℕ) :
    programScatter P e (fun l k i => x * V l k i) k i = x * programScatter P e V k i := by
  unfold programScatter scatterVector
  rw [← mul_div_assoc]
  congr 1
  simp only [Finset.mul_sum]
  refine Finset.sum_congr rfl fun l _ => Finset.sum_congr rfl fun j _ => Finset.sum_congr rfl fun m _ => ?_
  ring

theorem programScatter_congr (P : Problem) (e : ℕ → ℝ) {V W : ℕ → ℕ → ℕ → ℝ} {k : ℕ}
    (h : ∀ l < P.Nang, ∀ i ≤ P.M, V l k i = W l k i) (i : ℕ) :
    programScatter P e V k i = programScatter P e W k i := by
  unfold programScatter scatterVector
  congr 1
  refine Finset.sum_congr rfl fun l hl => Finset.sum_congr rfl fun j hj => Finset.sum_congr rfl fun m _ => ?_
  dsimp only
  rw [h l (Finset.mem_range.1 hl) j (Nat.lt_succ_iff.1 (Finset.mem_range.1 hj))]

/-- What scattering adds to the rate. -/
noncomputable def scatterRate (P : Problem) (t : ℝ) :
    Coefs P.params P.fluxConfig →ₗ[ℝ] Coefs P.params P.fluxConfig where
  toFun U q := P.sigmaS * programScatter P (meshAt P t).edges (spread P.params P.fluxConfig U)
    q.2.1 q.2.2
  map_add' U W := by
    funext q
    have e : spread P.params P.fluxConfig (U + W) = fun l k i =>
        spread P.params P.fluxConfig U l k i + spread P.params P.fluxConfig W l k i := by
      funext l k i
      have := spread_sub P.params P.fluxConfig (U + W) W l k i
      rw [add_sub_cancel_right] at this
      rw [this]
      ring
    rw [e, programScatter_add, mul_add]
    rfl
  map_smul' x U := by
    funext q
    have e : spread P.params P.fluxConfig (x • U) = fun l k i =>
        x * spread P.params P.fluxConfig U l k i := by
      funext l k i
      exact spread_smul P.params P.fluxConfig x U l k i
    rw [e, programScatter_smul]
    simp only [RingHom.id_apply, Pi.smul_apply, smul_eq_mul]
    ring

theorem contDiff_sigma {P : Problem} (hf : SteadyOpacity P) :
    ContDiff ℝ ∞ fun x => sigmaFunction P.opacityConfig x 0 := by
  have h1 : P.opacityConfig.func ≠ .fakeSedov := hf.1
  have h2 : P.opacityConfig.func ≠ .other := hf.2
  unfold sigmaFunction
  cases h : P.opacityConfig.func with
  | constant => simp only; fun_prop
  | gaussian => simp only; fun_prop
  | siewert1 => simp only; fun_prop
  | siewert2 => simp only; fun_prop
  | fakeSedov => exact absurd h h1
  | other => exact absurd h h2

theorem contDiffOn_list_sum {s : Set ℝ} (l : List (ℝ × ℝ)) (f : ℝ × ℝ → ℝ → ℝ)
    (h : ∀ z, ContDiffOn ℝ ∞ (f z) s) : ContDiffOn ℝ ∞ (fun t => (l.map fun z => f z t).sum) s := by
  induction l with
  | nil => simpa using contDiffOn_const
  | cons z l ih =>
    simp only [List.map_cons, List.sum_cons]
    exact (h z).add ih

theorem contDiffOn_moment {s : Set ℝ} (quad : List (ℝ × ℝ)) {f : ℝ → ℝ} (hf : ContDiff ℝ ∞ f)
    {a b : ℝ → ℝ} (ha : ContDiffOn ℝ ∞ a s) (hb : ContDiffOn ℝ ∞ b s) (h : ∀ t ∈ s, a t < b t) (j : ℕ) :
    ContDiffOn ℝ ∞ (fun t => slabMoment quad f (a t) (b t) j) s := by
  unfold slabMoment
  refine ((hb.sub ha).div_const 2).mul (contDiffOn_list_sum quad
    (fun z t => z.2 * f (quadPoint (a t) (b t) z.1) * normPn j (quadPoint (a t) (b t) z.1) (a t) (b t))
    fun z => ?_)
  have hq : ContDiffOn ℝ ∞ (fun t => quadPoint (a t) (b t) z.1) s :=
    (((hb.sub ha).div_const 2).mul contDiffOn_const).add ((ha.add hb).div_const 2)
  refine (contDiffOn_const.mul (hf.comp_contDiffOn hq)).mul ?_
  have hd : ∀ t ∈ s, b t - a t ≠ 0 := fun t ht => (sub_pos.2 (h t ht)).ne'
  unfold normPn zSlab
  refine ContDiffOn.mul ?_ (ContDiffOn.sqrt (contDiffOn_const.div (hb.sub ha) hd) fun t ht => ?_)
  · exact (contDiff_eval _).comp_contDiffOn
      (((hb.add ha).sub (contDiffOn_const.mul hq)).div (ha.sub hb) fun t ht =>
        (sub_neg.2 (h t ht)).ne)
  · have := sub_pos.2 (h t ht)
    positivity

theorem orderedTimes_mesh {P : Problem} {e d : ℕ → ℝ} (h : MovesLinearly P.mesh e d) (T : ℝ) :
    (∀ t ∈ orderedTimes P.mesh.N e d T, ∀ k < P.mesh.N,
      (meshAt P t).edges k < (meshAt P t).edges (k + 1)) ∧
    ∀ k ≤ P.mesh.N, ContDiffOn ℝ ∞ (fun t => (meshAt P t).edges k) (orderedTimes P.mesh.N e d T) := by
  have hl := fun t => meshAt_linear h t
  constructor
  · intro t ht k hk
    rw [(hl t).1 k hk.le, (hl t).1 (k + 1) hk]
    exact mem_iInter₂.1 ht.2 k (Finset.mem_range.2 hk)
  · intro k hk
    have : (fun s => (meshAt P s).edges k) = fun s => e k + d k * s :=
      funext fun s => (hl s).1 k hk
    rw [this]
    fun_prop

theorem icc_orderedTimes {P : Problem} {e d : ℕ → ℝ} (h : MovesLinearly P.mesh e d) (T : ℝ) :
    Icc 0 T ⊆ orderedTimes P.mesh.N e d T := fun t ht =>
  ⟨⟨by linarith [ht.1], by linarith [ht.2]⟩, mem_iInter₂.2 fun k hk =>
    h.ordered t ht.1 k (Finset.mem_range.1 hk)⟩

theorem scatterRate_smooth {P : Problem} {e d : ℕ → ℝ} (h : OpacityProblem P e d) (T : ℝ)
    (U : Coefs P.params P.fluxConfig) :
    ContDiffOn ℝ ∞ (fun t => scatterRate P t U) (orderedTimes P.mesh.N e d T) := by
  obtain ⟨hm, he⟩ := orderedTimes_mesh h.mesh T
  refine contDiffOn_pi.2 fun q => ?_
  have hk : (q.2.1 : ℕ) < P.mesh.N := q.2.1.2
  refine contDiffOn_const.mul (ContDiffOn.div (ContDiffOn.sum fun l _ => ContDiffOn.sum fun j _ =>
    ContDiffOn.sum fun m _ => ?_) (ContDiffOn.sqrt ((he _ hk).sub (he _ hk.le)) fun t ht => ?_)
    fun t ht => ?_)
  · exact (((contDiffOn_const.mul (contDiffOn_moment P.quad (contDiff_sigma h.steady) (he _ hk.le)
      (he _ hk) (fun t ht => hm t ht _ hk) m)).mul contDiffOn_const).mul contDiffOn_const).mul
        contDiffOn_const
  · exact (sub_pos.2 (hm t ht _ hk)).ne'
  · exact (Real.sqrt_pos.2 (sub_pos.2 (hm t ht _ hk))).ne'

/-- Scattering as an operator that is defined at all times. -/
noncomputable def scatterOp (P : Problem) (t : ℝ) :
    Coefs P.params P.fluxConfig →L[ℝ] Coefs P.params P.fluxConfig :=
  ∑ q, (ContinuousLinearMap.proj (R := ℝ) (φ := fun _ => ℝ) q).smulRight
    (scatterRate P t (Pi.single q 1))

theorem scatterOp_apply (P : Problem) (t : ℝ) (U : Coefs P.params P.fluxConfig) :
    scatterOp P t U = scatterRate P t U := by
  have h1 := LinearMap.pi_apply_eq_sum_univ (scatterRate P t) U
  rw [h1, scatterOp, sum_apply]
  refine Finset.sum_congr rfl fun q _ => ?_
  show U q • scatterRate P t (Pi.single q 1) = _
  congr 2
  funext j
  simp [Pi.single_apply, eq_comm]

theorem scatterOp_smooth {P : Problem} {e d : ℕ → ℝ} (h : OpacityProblem P e d) (T : ℝ) :
    ContDiffOn ℝ ∞ (scatterOp P) (orderedTimes P.mesh.N e d T) :=
  ContDiffOn.sum fun _ _ => contDiffOn_const.smulRight (scatterRate_smooth h T _)

/-! ### The rate -/

/-- The rate without scattering. -/
noncomputable def absorberRate (P : Problem) (t : ℝ) (U : Coefs P.params P.fluxConfig) :
    Coefs P.params P.fluxConfig := programRate (absorber P) t U

/-- The rate of change of the coefficients. -/
noncomputable def opacityRate (P : Problem) (t : ℝ) (U : Coefs P.params P.fluxConfig) :
    Coefs P.params P.fluxConfig := absorberRate P t U + scatterOp P t U

theorem evaluation_opacity {P : Problem} {e d : ℕ → ℝ} (h : OpacityProblem P e d) {t : ℝ} (ht : 0 ≤ t)
    (V : StateVec) : unknowns P (evaluation P t V) = opacityRate P t (unknowns P V) := by
  have hA := h.absorber
  have hTu := h.tables.usable' (Nat.lt_succ_self _) h.order
  have hno : ¬ (0 < P.mesh.N ∧ ¬ centreChecks P.Nang P.mus) := fun h' => h'.2 h.checks
  have ent : ∀ {Q : Problem}, SphereSetup Q e d → SteadyOpacity Q → ∀ l < Q.Nang, ∀ k < Q.mesh.N,
      ∀ i ≤ Q.M, evaluation Q t V l k i = entryOf Q (meshAt Q t) t V l k i := by
    intro Q hQ hf l hl k hk i hi
    obtain ⟨o, ho⟩ := reached_exists hQ.mesh
    obtain ⟨o', h1, -⟩ := call_reached hQ hf ho t V
    have h2 : answer Q o t V = some (evaluation Q t V) := by
      unfold answer
      rw [h1, Option.map_some]
    have hno : ¬ (0 < Q.mesh.N ∧ ¬ centreChecks Q.Nang Q.mus) := fun h' => h'.2 hQ.checks
    rw [answer_eq hQ.sphere (hQ.tables.usable' (Nat.lt_succ_self _) hQ.order) hf hQ.mesh.noHistory ho,
      if_neg hno] at h2
    have h3 := congrFun (congrFun (congrFun (Option.some_inj.1 h2) l) k) i
    rw [if_pos ⟨hl, hk, hi⟩] at h3
    exact h3.symm
  funext q
  have hl : (q.1 : ℕ) < P.Nang := q.1.2
  have hk : (q.2.1 : ℕ) < P.mesh.N := q.2.1.2
  have hi : (q.2.2 : ℕ) ≤ P.M := Nat.lt_succ_iff.1 q.2.2.2
  have h1 : unknowns P (evaluation P t V) q = evaluation P t V q.1 q.2.1 q.2.2 := rfl
  rw [h1, ent h.toSphereSetup h.steady _ hl _ hk _ hi, entry_scatter h.varies h.noSource]
  have h2 := congrFun (evaluation_rate hA ht V) q
  have h3 : unknowns (absorber P) (evaluation (absorber P) t V) q =
      evaluation (absorber P) t V q.1 q.2.1 q.2.2 := rfl
  rw [h3, ent hA.toSphereSetup (steady_of_constant hA.opacity) _ hl _ hk _ hi] at h2
  have h4 : meshAt (absorber P) t = meshAt P t := rfl
  rw [h4] at h2
  rw [h2, opacityRate, Pi.add_apply, scatterOp_apply]
  congr 1
  show _ = P.sigmaS * programScatter P (meshAt P t).edges _ _ _
  congr 1
  exact programScatter_congr P _ (fun l hl' i hi' => (spread_gather _ _ V hl' hk hi').symm) _

/-! ### Integration of any rate -/

/-- The program evaluates the rate `f`. -/
def HasRate (P : Problem) (f : ℝ → Coefs P.params P.fluxConfig → Coefs P.params P.fluxConfig) : Prop :=
  ∀ t, 0 ≤ t → ∀ V, unknowns P (evaluation P t V) = f t (unknowns P V)

theorem OpacityProblem.hasRate {P : Problem} {e d : ℕ → ℝ} (h : OpacityProblem P e d) :
    HasRate P (opacityRate P) := fun _ ht V => evaluation_opacity h ht V

section
variable {P : Problem} {e d : ℕ → ℝ} {f : ℝ → Coefs P.params P.fluxConfig → Coefs P.params P.fluxConfig}
  {τ : Tableau}

theorem HasRate.stages (hr : HasRate P f) (hτ : UsableMethod τ) {t s : ℝ} (ht : 0 ≤ t) (hs : 0 ≤ s)
    (y g : StateVec) (i : ℕ) (hi : i ≤ τ.n) (j : ℕ) : unknowns P (pureStages P τ t s y g i j) =
      rkStages τ f t s (unknowns P y) (unknowns P g) i j := by
  induction i generalizing j with
  | zero => rfl
  | succ i ih =>
    rw [pureStages, rkStages]
    by_cases hj : j = i + 1
    · subst hj
      rw [Function.update_self, Function.update_self, hr _ (by
        have := (hτ.node (i + 1) hi).1
        positivity), unknowns_combine]
      congr 3
      exact Finset.sum_congr rfl fun m _ => by rw [ih (by omega)]
    · rw [Function.update_of_ne hj, Function.update_of_ne hj, ih (by omega)]

theorem HasRate.run (hr : HasRate P f) (hτ : UsableMethod τ) (hs : List ℝ) (hpos : ∀ s ∈ hs, 0 ≤ s)
    (x : ℝ × StateVec × StateVec) (hx0 : 0 ≤ x.1)
    (hx : unknowns P x.2.2 = f x.1 (unknowns P x.2.1)) :
    unknowns P (pureRun P τ hs x).2.1 = (rkRun τ f hs (x.1, unknowns P x.2.1)).2 ∧
      unknowns P (pureRun P τ hs x).2.2 =
        f (pureRun P τ hs x).1 (unknowns P (pureRun P τ hs x).2.1) := by
  induction hs generalizing x with
  | nil => exact ⟨rfl, hx⟩
  | cons s hs ih =>
    have hs0 := hpos s List.mem_cons_self
    rw [pureRun, rkRun]
    have e1 : unknowns P (combine x.2.1 s τ.b (pureStages P τ x.1 s x.2.1 x.2.2 τ.n) τ.n) =
        rkAdvance τ f x.1 s (unknowns P x.2.1) := by
      rw [unknowns_combine, rkAdvance, ← hx]
      congr 2
      exact Finset.sum_congr rfl fun j _ => by rw [hr.stages hτ hx0 hs0 _ _ _ le_rfl]
    have := ih (fun s hs => hpos s (List.mem_cons_of_mem _ hs)) (x.1 + s,
      combine x.2.1 s τ.b (pureStages P τ x.1 s x.2.1 x.2.2 τ.n) τ.n,
      pureStages P τ x.1 s x.2.1 x.2.2 τ.n τ.n) (add_nonneg hx0 hs0) (by
        rw [pureStages_last hτ.stages, hr _ (add_nonneg hx0 hs0)])
    rw [e1] at this
    exact this

/-- The coefficients that a run ends with, and the rate that is kept. -/
theorem HasRate.integrate (hr : HasRate P f) (h : SphereSetup P e d) (hf : SteadyOpacity P)
    (hτ : UsableMethod τ) {y0 : StateVec} {es : List Event} (hpos : ∀ s ∈ acceptedSteps es, 0 ≤ s)
    {x : StepState} (hx : P.integrate τ y0 es = some x) : x.t = (acceptedSteps es).sum ∧
      unknowns P x.y = (rkRun τ f (acceptedSteps es) (0, unknowns P y0)).2 ∧
      unknowns P x.f = f x.t (unknowns P x.y) := by
  obtain ⟨z, h1, -, h2⟩ := integrate_reached h hf τ y0 es
  obtain rfl := Option.some_inj.1 (hx.symm.trans h1)
  have h3 := hr.run hτ (acceptedSteps es) hpos (0, y0, evaluation P 0 y0) le_rfl (hr 0 le_rfl y0)
  rw [← h2] at h3
  refine ⟨?_, h3⟩
  have := congrArg Prod.fst h2
  rw [pureRun_time, zero_add] at this
  exact this

/-- What an attempted step leaves for the dense output. -/
theorem HasRate.dense (hr : HasRate P f) (h : SphereSetup P e d) (hf : SteadyOpacity P)
    (hτ : UsableMethod τ) {y0 : StateVec} {es : List Event} (hpos : ∀ s ∈ acceptedSteps es, 0 ≤ s)
    {x : StepState} (hx : P.integrate τ y0 es = some x) {s : ℝ} (hs : 0 ≤ s) {o : Objects}
    {K : ℕ → StateVec} (hK : P.rkStep τ x s = some (o, K)) (w : ℕ → ℝ) :
    unknowns P (combine x.y s w K (τ.n + 1)) = rkCombine τ f x.t s (unknowns P x.y) w := by
  obtain ⟨z, h1, h2, -⟩ := integrate_reached h hf τ y0 es
  obtain rfl := Option.some_inj.1 (hx.symm.trans h1)
  obtain ⟨h3, -, h5⟩ := hr.integrate h hf hτ hpos hx
  have hx0 : 0 ≤ x.t := by
    rw [h3]
    exact List.sum_nonneg hpos
  obtain ⟨o', h8, -⟩ := stageLoop_reached h hf τ x.t s x.y x.f h2 τ.n
  have h9 : (o, K) = (o', pureStages P τ x.t s x.y x.f τ.n) := Option.some_inj.1 (hK.symm.trans h8)
  obtain rfl : K = _ := congrArg Prod.snd h9
  rw [unknowns_combine, rkCombine, ← h5]
  congr 2
  exact Finset.sum_congr rfl fun j _ => by rw [hr.stages hτ hx0 hs _ _ _ le_rfl]

/-- The solutions of the equations of the program are those of the rate. -/
theorem HasRate.solution_iff (hr : HasRate P f) (h : SphereSetup P e d) (hf : SteadyOpacity P) (T : ℝ)
    (F : Set ℝ) (V : ℝ → StateVec) : ProgramSolutionOn P 0 T F V ↔
      ContinuousOn (fun t => unknowns P (V t)) (Icc 0 T) ∧ ∀ t ∈ Ico 0 T \ F,
        HasDerivWithinAt (fun t => unknowns P (V t)) (f t (unknowns P (V t))) (Ici t) t := by
  have hans : ∀ o, Reached P o → ∀ t, answer P o t (V t) = some (evaluation P t (V t)) := by
    intro o ho t
    obtain ⟨o', h1, -⟩ := call_reached h hf ho t (V t)
    unfold answer
    rw [h1, Option.map_some]
  refine and_congr ⟨fun h1 => continuousOn_pi.2 fun q =>
    h1 q.1 q.1.2 q.2.1 q.2.1.2 q.2.2 (Nat.lt_succ_iff.1 q.2.2.2), fun h1 l hl k hk i hi =>
    continuousOn_pi.1 h1 (⟨l, hl⟩, ⟨k, hk⟩, ⟨i, Nat.lt_succ_of_le hi⟩)⟩
    ⟨fun h1 t ht => ?_, fun h1 t ht o ho => ?_⟩
  · obtain ⟨o, ho⟩ := reached_exists h.mesh
    obtain ⟨R, hR, h2⟩ := h1 t ht o ho
    obtain rfl : _ = R := Option.some_inj.1 ((hans o ho t).symm.trans hR)
    rw [← hr t ht.1.1]
    exact hasDerivWithinAt_pi.2 fun q =>
      h2 q.1 q.1.2 q.2.1 q.2.1.2 q.2.2 (Nat.lt_succ_iff.1 q.2.2.2)
  · have h2 := h1 t ht
    rw [← hr t ht.1.1] at h2
    exact ⟨_, hans o ho t, fun l hl k hk i hi =>
      hasDerivWithinAt_pi.1 h2 (⟨l, hl⟩, ⟨k, hk⟩, ⟨i, Nat.lt_succ_of_le hi⟩)⟩

theorem HasRate.order (hr : HasRate P f) (h : SphereSetup P e d) (hf : SteadyOpacity P)
    (hτ : UsableMethod τ) {T : ℝ} {L : ℝ} (hL0 : 0 ≤ L)
    (hL : ∀ t ∈ Icc 0 T, ∀ U W, ‖f t U - f t W‖ ≤ L * ‖U - W‖) {V : ℝ → StateVec} {m : ℕ}
    (hstep : Small T (m + 1) fun x => rkAdvance τ f x.1 x.2 (unknowns P (V x.1)) -
      unknowns P (V (x.1 + x.2))) :
    ∃ C, ∃ η₀ > 0, ∀ (y0 : StateVec) (es : List Event) (x : StepState) (δ η : ℝ), 0 ≤ δ → 0 ≤ η → η ≤ η₀ →
      (∀ s ∈ acceptedSteps es, 0 ≤ s ∧ s ≤ η) → StatesWithin P y0 (V 0) δ →
      P.integrate τ y0 es = some x → x.t ≤ T → StatesWithin P x.y (V x.t) (C * (δ + η ^ m)) := by
  obtain ⟨α, hα⟩ := hτ.bound
  obtain ⟨C, hC0, η₀, hη₀, hC⟩ := rkRun_order hα hL0 hL (Y := fun t => unknowns P (V t)) hstep
  have hLα : 0 ≤ 2 * L * α := by have := hα.pos; positivity
  refine ⟨Real.exp (2 * L * α * T) * max 1 (C * T), η₀, hη₀, ?_⟩
  intro y0 es x δ η hδ hη0 hη hes hy0 hx hxT
  obtain ⟨h1, h2, -⟩ := hr.integrate h hf hτ (fun s hs => (hes s hs).1) hx
  have hsum0 : 0 ≤ (acceptedSteps es).sum := List.sum_nonneg fun s hs => (hes s hs).1
  rw [h1] at hxT
  have hT0 : 0 ≤ T := hsum0.trans hxT
  have h3 := hC (acceptedSteps es) η 0 (unknowns P y0) le_rfl hη hes (by rw [zero_add]; exact hxT)
  rw [zero_add, ← h2, ← h1] at h3
  have hmax : 1 ≤ max 1 (C * T) := le_max_left _ _
  have hηm : 0 ≤ η ^ m := by positivity
  rw [statesWithin_iff P _ _ (by positivity)]
  refine h3.trans ?_
  have h4 := (statesWithin_iff P _ _ hδ).1 hy0
  have h5 : Real.exp (2 * L * α * x.t) ≤ Real.exp (2 * L * α * T) := by
    rw [Real.exp_le_exp, h1]
    gcongr
  have h6 : ‖unknowns P y0 - unknowns P (V 0)‖ + C * x.t * η ^ m ≤ max 1 (C * T) * (δ + η ^ m) := by
    have a1 : C * x.t ≤ max 1 (C * T) := by
      refine le_trans ?_ (le_max_right _ _)
      rw [h1]
      gcongr
    have a2 : C * x.t * η ^ m ≤ max 1 (C * T) * η ^ m := by gcongr
    have a3 : δ ≤ max 1 (C * T) * δ := le_mul_of_one_le_left hδ hmax
    rw [mul_add]
    linarith
  have hx0 : 0 ≤ x.t := by rw [h1]; exact hsum0
  calc _ ≤ Real.exp (2 * L * α * T) * (max 1 (C * T) * (δ + η ^ m)) :=
        mul_le_mul h5 h6 (by positivity) (Real.exp_pos _).le
    _ = _ := by ring

/-- What `solve` returns is the report of the state that the integration reaches. -/
theorem HasRate.solve (hr : HasRate P f) (h : SphereSetup P e d) (hf : SteadyOpacity P)
    (hN : 1 ≤ P.mesh.N) (hu : P.uncollided = false) (hT : 0 < P.mesh.tfinal) (hτ : UsableMethod τ)
    {D : Interpolant} (hD : EndsRight τ D) {y0 : StateVec} (hy : StartsFrom P y0) {es : List Event}
    (hes : Arrives P es) (estimate : Bool) (choose : Option (List ℝ)) :
    ∃ R x, P.solve τ D es estimate choose = some R ∧ P.integrate τ y0 es = some x ∧
      x.t = P.mesh.tfinal ∧ Reports P e d choose x.y R := by
  obtain ⟨y, hy1, hy2, hy3⟩ := startVector_of hy
  have hpos : ∀ s ∈ acceptedSteps es, 0 ≤ s := fun s hs => (hes.1 s hs).le
  obtain ⟨hr1, hr2⟩ := outputTimes_range hT estimate
  obtain ⟨o, h1, ho⟩ := solveIvp_reached h hf τ D hr2 hr1 hpos hy1
  obtain ⟨x, hx, -, hx2⟩ := integrate_reached h hf τ y0 es
  obtain ⟨x', hx', -, hx2'⟩ := integrate_reached h hf τ y es
  obtain ⟨k1, k2, -⟩ := hr.integrate h hf hτ hpos hx
  obtain ⟨-, k2', -⟩ := hr.integrate h hf hτ hpos hx'
  have hne := hes.ne hT
  have hall : answered 0 (acceptedSteps es) (P.outputTimes estimate) = P.outputTimes estimate :=
    answered_all hne fun t ht => by
      rw [zero_add, hes.2]
      exact (hr1 t ht).2
  have hend : pureOutput P τ D (acceptedSteps es) (0, y, evaluation P 0 y) P.mesh.tfinal = x'.y := by
    have := pureOutput_end P hD hne (0, y, evaluation P 0 y) hes.1
    rw [zero_add, hes.2] at this
    rw [this, ← hx2']
  obtain ⟨R, h2, h3⟩ := finish_reports h hf hN hu hT.le ho choose
    (SphereSetup.congrHolds (P := P) (V := x'.y) (W := x.y) (by rw [k2, k2', hy3]))
  refine ⟨R, x, ?_, hx, by rw [k1, hes.2], h3⟩
  unfold Problem.solve
  rw [h1, Option.bind_some]
  dsimp only
  rw [hall, List.getLast?_map, outputTimes_last, Option.map_some, Option.bind_some]
  dsimp only
  rw [hend]
  exact h2

end

/-! ### The equations -/

/-- The rate without scattering, with a boundary source that is switched off at `x`. -/
noncomputable def switchedRate (P : Problem) (x t : ℝ) (U : Coefs P.params P.fluxConfig) :
    Coefs P.params P.fluxConfig := fun q =>
  sphereField0 (absorber P).params { (absorber P).fluxConfig with t0 := x } t (meshAt P t)
    (programSource (absorber P) t) (spread P.params P.fluxConfig U) q.1 q.2.1 q.2.2

theorem continuousOn_switchedRate {P : Problem} {e d : ℕ → ℝ} (h : OpacityProblem P e d) {T : ℝ}
    {U : ℝ → Coefs P.params P.fluxConfig} (hU : ContinuousOn U (Icc 0 T)) (x : ℝ)
    (sw : ℕ → Bool)
    (hsw : ∀ t ∈ Icc 0 T, ∀ k, isBoundarySourceOn { P.fluxConfig with t0 := x } k t = sw k) :
    ContinuousOn (fun t => switchedRate P x t (U t)) (Icc 0 T) :=
  continuousOn_programRate h.absorber (Or.inl h.noSource) hU x sw hsw

theorem continuousOn_on {P : Problem} {e d : ℕ → ℝ} (h : OpacityProblem P e d) {T : ℝ}
    {U : ℝ → Coefs P.params P.fluxConfig} (hU : ContinuousOn U (Icc 0 T)) :
    ContinuousOn (fun t => switchedRate P T t (U t)) (Icc 0 T) :=
  continuousOn_switchedRate h hU T (fun k => isBoundarySourceOn { P.fluxConfig with t0 := 0 } k 0)
    fun _ ht k => switch_on P.fluxConfig ht.2 k

theorem continuousOn_off {P : Problem} {e d : ℕ → ℝ} (h : OpacityProblem P e d) {T : ℝ}
    {U : ℝ → Coefs P.params P.fluxConfig} (hU : ContinuousOn U (Icc 0 T)) :
    ContinuousOn (fun t => switchedRate P (-1) t (U t)) (Icc 0 T) :=
  continuousOn_switchedRate h hU (-1) (fun _ => if P.fluxConfig.mms then true else
      if P.fluxConfig.thermalIsOne then true else false)
    fun _ ht k => switch_off P.fluxConfig (by linarith [ht.1]) k

theorem absorberRate_congr {P : Problem} {e d : ℕ → ℝ} (h : OpacityProblem P e d) (t0 t : ℝ)
    (hsw : ∀ k, isBoundarySourceOn P.fluxConfig k t =
      isBoundarySourceOn { P.fluxConfig with t0 := t0 } k t) (U : Coefs P.params P.fluxConfig) :
    absorberRate P t U = switchedRate P t0 t U := by
  funext q
  exact sphereField0_congr (absorber P).params h.directions (absorber P).fluxConfig
    { (absorber P).fluxConfig with t0 := t0 } t0 t rfl
    hsw _ _ rfl (fun _ _ => rfl) _ _ (fun _ _ _ _ => rfl) _ _ (fun _ _ _ _ _ _ => rfl) q.1.2 q.2.1.2
    q.2.2.2 q.2.2.2

theorem absorberRate_on {P : Problem} {e d : ℕ → ℝ} (h : OpacityProblem P e d) {T t : ℝ}
    (ht : t ≤ T) (ht0 : t ≤ P.mesh.t0) (U : Coefs P.params P.fluxConfig) :
    absorberRate P t U = switchedRate P T t U :=
  absorberRate_congr h T t (fun k =>
    (switch_on P.fluxConfig (t0 := P.mesh.t0) ht0 k).trans (switch_on P.fluxConfig ht k).symm) U

theorem absorberRate_off {P : Problem} {e d : ℕ → ℝ} (h : OpacityProblem P e d) {t : ℝ}
    (ht : 0 ≤ t) (ht0 : P.mesh.t0 < t) (U : Coefs P.params P.fluxConfig) :
    absorberRate P t U = switchedRate P (-1) t U :=
  absorberRate_congr h (-1) t (fun k =>
    (switch_off P.fluxConfig (t0 := P.mesh.t0) ht0 k).trans
      (switch_off P.fluxConfig (by linarith) k).symm) U

theorem continuousOn_scatter {P : Problem} {e d : ℕ → ℝ} (h : OpacityProblem P e d) (T : ℝ) :
    ContinuousOn (scatterOp P) (Icc 0 T) :=
  (scatterOp_smooth h T).continuousOn.mono (icc_orderedTimes h.mesh T)

theorem switchedRate_lipschitz {P : Problem} {e d : ℕ → ℝ} (h : OpacityProblem P e d) (T x : ℝ) :
    ∃ L : ℝ≥0, ∀ t ∈ Icc 0 T, ∀ U W, ‖(switchedRate P x t U + scatterOp P t U) -
      (switchedRate P x t W + scatterOp P t W)‖ ≤ L * ‖U - W‖ := by
  have hA := h.absorber
  have hl := fun t => meshAt_linear h.mesh t
  obtain ⟨K, hK⟩ := sphereOp_bound (absorber P).params { (absorber P).fluxConfig with t0 := x } hA.sphere
    hA.order 0 T (meshAt P)
    (fun s hs => (programMesh_at h.toSphereSetup hs.1).1)
    (fun s hs => (programMesh_at h.toSphereSetup hs.1).2.1)
    (fun k hk => by
      have : (fun s => (meshAt P s).edges k) = fun s => e k + d k * s :=
        funext fun s => (hl s).1 k hk
      rw [this]
      fun_prop)
    (fun k hk => by
      have : (fun s => (meshAt P s).Dedges k) = fun _ => d k := funext fun s => (hl s).2 k hk
      rw [this]
      exact continuousOn_const)
  obtain ⟨B, hB⟩ := isCompact_Icc.exists_bound_of_continuousOn (continuousOn_scatter h T)
  refine ⟨K + B.toNNReal, fun t ht U W => ?_⟩
  have e1 : (switchedRate P x t U + scatterOp P t U) - (switchedRate P x t W + scatterOp P t W) =
      (switchedRate P x t U - switchedRate P x t W) + scatterOp P t (U - W) := by
    rw [map_sub]
    abel
  have hdiff : switchedRate P x t U - switchedRate P x t W =
      sphereOp (absorber P).params { (absorber P).fluxConfig with t0 := x } (meshAt P) t (U - W) := by
    funext j
    have h1 := sphereField0_sub (absorber P).params { (absorber P).fluxConfig with t0 := x } hA.sphere
      hA.order t (meshAt P t)
      (programMesh_at h.toSphereSetup ht.1).1 (programMesh_at h.toSphereSetup ht.1).2.1
      (programSource (absorber P) t) (spread P.params P.fluxConfig U)
      (spread P.params P.fluxConfig W) j.1 j.2.1 j.2.2 j.2.1.2
    have e : (fun l k i => spread P.params P.fluxConfig U l k i - spread P.params P.fluxConfig W l k i)
        = spread P.params P.fluxConfig (U - W) := by
      funext l k i; rw [spread_sub]
    rw [e] at h1
    exact h1
  have h1 : ‖switchedRate P x t U - switchedRate P x t W‖ ≤ K * ‖U - W‖ := by
    rw [hdiff]
    exact hK t ht _
  have h2 : ‖scatterOp P t (U - W)‖ ≤ max B 0 * ‖U - W‖ :=
    ((scatterOp P t).le_opNorm _).trans
      (mul_le_mul_of_nonneg_right ((hB t ht).trans (le_max_left _ _)) (norm_nonneg _))
  rw [e1]
  refine (norm_add_le _ _).trans ((add_le_add h1 h2).trans_eq ?_)
  rw [NNReal.coe_add, Real.coe_toNNReal', add_mul]

theorem opacityRate_lipschitz {P : Problem} {e d : ℕ → ℝ} (h : OpacityProblem P e d) (T : ℝ) :
    ∃ L : ℝ, 0 ≤ L ∧ ∀ t ∈ Icc 0 T, ∀ U W, ‖opacityRate P t U - opacityRate P t W‖ ≤ L * ‖U - W‖ := by
  obtain ⟨L, hL⟩ := switchedRate_lipschitz h T P.mesh.t0
  refine ⟨L, L.2, fun t ht U W => ?_⟩
  have h1 := hL t ht U W
  rw [← absorberRate_congr h _ _ fun _ => rfl, ← absorberRate_congr h _ _ fun _ => rfl] at h1
  exact h1

/-- A function whose derivative is at most a multiple of it stays zero. -/
theorem zero_of_except {ι : Type*} [Fintype ι] {F : Set ℝ} (hF : F.Finite) {Z Z' : ℝ → ι → ℝ} {L T : ℝ}
    (hL0 : 0 ≤ L) (hZ : ContinuousOn Z (Icc 0 T))
    (hd : ∀ t ∈ Ico 0 T \ F, HasDerivWithinAt Z (Z' t) (Ici t) t)
    (hL : ∀ t ∈ Ico 0 T \ F, ‖Z' t‖ ≤ L * ‖Z t‖) (h0 : Z 0 = 0) : ∀ t ∈ Icc 0 T, Z t = 0 := by
  intro t ht
  have h1 := gronwall_except hF (fun t => ∑ i, Z t i ^ 2) (fun t => ∑ i, 2 * Z t i * Z' t i)
    (2 * L * Fintype.card ι) 0 0 T 0
    (continuousOn_finsetSum _ fun i _ => (continuousOn_pi.1 hZ i).pow 2)
    (fun x hx => by
      have := HasDerivWithinAt.fun_sum (u := Finset.univ) fun i _ =>
        (hasDerivWithinAt_pi.1 (hd x hx) i).pow 2
      refine this.congr_deriv (Finset.sum_congr rfl fun i _ => ?_)
      simp) (by simp [h0])
    (fun x hx => by
      have h2 : ‖Z x‖ ^ 2 ≤ ∑ i, Z x i ^ 2 := by
        have h4 : 0 ≤ ∑ i, Z x i ^ 2 := Finset.sum_nonneg fun i _ => sq_nonneg _
        have h5 : ‖Z x‖ ≤ √(∑ i, Z x i ^ 2) := by
          rw [pi_norm_le_iff_of_nonneg (Real.sqrt_nonneg _)]
          intro i
          refine Real.le_sqrt_of_sq_le ?_
          rw [Real.norm_eq_abs, sq_abs]
          exact Finset.single_le_sum (f := fun i => Z x i ^ 2) (fun i _ => sq_nonneg _) (Finset.mem_univ i)
        calc ‖Z x‖ ^ 2 ≤ √(∑ i, Z x i ^ 2) ^ 2 := pow_le_pow_left₀ (norm_nonneg _) h5 2
          _ = _ := Real.sq_sqrt h4
      have h3 : ∀ i, 2 * Z x i * Z' x i ≤ 2 * L * ‖Z x‖ ^ 2 := by
        intro i
        have a1 : |Z x i| ≤ ‖Z x‖ := norm_le_pi_norm (Z x) i
        have a2 : |Z' x i| ≤ L * ‖Z x‖ := (norm_le_pi_norm (Z' x) i).trans (hL x hx)
        have a3 : Z x i * Z' x i ≤ ‖Z x‖ * (L * ‖Z x‖) := by
          refine (le_abs_self _).trans ?_
          rw [abs_mul]
          exact mul_le_mul a1 a2 (abs_nonneg _) (norm_nonneg _)
        nlinarith
      calc ∑ i, 2 * Z x i * Z' x i ≤ ∑ _i : ι, 2 * L * ‖Z x‖ ^ 2 := Finset.sum_le_sum fun i _ => h3 i
        _ = 2 * L * Fintype.card ι * ‖Z x‖ ^ 2 := by
          rw [Finset.sum_const, Finset.card_univ, nsmul_eq_mul]
          ring
        _ ≤ 2 * L * Fintype.card ι * ∑ i, Z x i ^ 2 + 0 := by
          rw [add_zero]
          gcongr) t ht
  have h2 : gronwallBound 0 (2 * L * Fintype.card ι) 0 (t - 0) = 0 := by
    unfold gronwallBound
    split_ifs <;> simp
  rw [h2] at h1
  funext i
  have h3 : Z t i ^ 2 ≤ 0 := le_trans
    (Finset.single_le_sum (f := fun i => Z t i ^ 2) (fun i _ => sq_nonneg _) (Finset.mem_univ i)) h1
  exact pow_eq_zero_iff two_ne_zero |>.1 (le_antisymm h3 (sq_nonneg _))

/-- C131: with an opacity that depends on the place the equations that the program integrates have
exactly one solution from every initial state, on every interval from time zero, whatever the calls
made before. -/
theorem c131_wellposed {P : Problem} {e d : ℕ → ℝ} (h : OpacityProblem P e d) {T : ℝ} (hT : 0 ≤ T)
    (V0 : StateVec) :
    ∃ V, (ProgramSolutionOn P 0 T {0, max 0 (min P.mesh.t0 T)} V ∧
      ∀ l < P.Nang, ∀ k < P.mesh.N, ∀ i ≤ P.M, V 0 l k i = V0 l k i) ∧
      ∀ (G : Set ℝ) (W : ℝ → StateVec), G.Finite → ProgramSolutionOn P 0 T G W →
        (∀ l < P.Nang, ∀ k < P.mesh.N, ∀ i ≤ P.M, W 0 l k i = V0 l k i) →
        ∀ t ∈ Icc 0 T, ∀ l < P.Nang, ∀ k < P.mesh.N, ∀ i ≤ P.M, W t l k i = V t l k i := by
  set x := max 0 (min P.mesh.t0 T) with hx
  have hx0 : 0 ≤ x := le_max_left _ _
  have hxT : x ≤ T := max_le hT (min_le_right _ _)
  have hr := h.hasRate
  have sol : ∀ y, (∀ U : Coefs P.params P.fluxConfig,
      ContinuousOn (fun t => switchedRate P y t U) (Icc 0 T)) → ∀ a b, 0 ≤ a → a ≤ b → b ≤ T → ∀ U0,
      ∃ α : ℝ → Coefs P.params P.fluxConfig, α a = U0 ∧
        SolvesOn (fun t U => switchedRate P y t U + scatterOp P t U) a b α := by
    intro y hy a b ha hab hb U0
    have hsub : Icc a b ⊆ Icc 0 T := Icc_subset_Icc ha hb
    obtain ⟨L, hL⟩ := switchedRate_lipschitz h T y
    refine exists_solution _ a b hab L (fun t ht => LipschitzWith.of_dist_le_mul fun U W => ?_)
      (fun U => ((hy U).mono hsub).add (((continuousOn_scatter h T).mono hsub).clm_apply
        continuousOn_const)) U0
    rw [dist_eq_norm, dist_eq_norm]
    exact hL t (hsub ht) U W
  obtain ⟨α, hα0, hα⟩ := sol T (fun U => continuousOn_on h continuousOn_const) 0 x le_rfl hx0 hxT
    (unknowns P V0)
  obtain ⟨β, hβ0, hβ⟩ := sol (-1) (fun U => continuousOn_off h continuousOn_const) x T hx0 hxT le_rfl
    (α x)
  set f : ℝ → Coefs P.params P.fluxConfig → Coefs P.params P.fluxConfig := fun t U =>
    if t < x then switchedRate P T t U + scatterOp P t U
    else switchedRate P (-1) t U + scatterOp P t U with hf
  have hα' : SolvesOn f 0 x α := ⟨hα.1, fun t ht => by
    have := hα.2 t ht
    simp only [hf, if_pos ht.2]
    exact this⟩
  have hβ' : SolvesOn f x T β := ⟨hβ.1, fun t ht => by
    have := hβ.2 t ht
    simp only [hf, if_neg (not_lt.2 ht.1)]
    exact this⟩
  have hg := hα'.glue hx0 hxT hβ' hβ0.symm
  set γ : ℝ → Coefs P.params P.fluxConfig := fun t => if t ≤ x then α t else β t with hγ
  set V : ℝ → StateVec := fun t => spread P.params P.fluxConfig (γ t) with hV
  have hVγ : ∀ t, unknowns P (V t) = γ t := fun t => funext fun q => spread_at _ _ _ q
  have hsol : ProgramSolutionOn P 0 T {0, x} V := by
    rw [hr.solution_iff h.toSphereSetup h.steady]
    simp only [hVγ]
    refine ⟨hg.1, fun t ht => ?_⟩
    have ht0 : t ≠ 0 := fun h' => ht.2 (Or.inl h')
    have htx : t ≠ x := fun h' => ht.2 (Or.inr h')
    have h1 := hg.2 t ht.1
    refine h1.congr_deriv ?_
    simp only [hf, opacityRate]
    split_ifs with hlt
    · congr 1
      refine (absorberRate_on h (hlt.le.trans hxT) ?_ _).symm
      rcases le_total (min P.mesh.t0 T) 0 with h2 | h2
      · rw [hx, max_eq_left h2] at hlt
        exact absurd ht.1.1 (not_le.2 hlt)
      · rw [hx, max_eq_right h2] at hlt
        exact hlt.le.trans (min_le_left _ _)
    · congr 1
      have hxt : x < t := lt_of_le_of_ne (not_lt.1 hlt) (Ne.symm htx)
      refine (absorberRate_off h ht.1.1 ?_ _).symm
      have h2 : min P.mesh.t0 T < t := (le_max_right _ _).trans_lt hxt
      rcases min_lt_iff.1 h2 with h3 | h3
      · exact h3
      · exact absurd ht.1.2 (not_lt.2 h3.le)
  have hV0 : ∀ l < P.Nang, ∀ k < P.mesh.N, ∀ i ≤ P.M, V 0 l k i = V0 l k i := by
    intro l hl k hk i hi
    have : γ 0 = unknowns P V0 := by simp only [hγ, if_pos hx0, hα0]
    simp only [hV, this]
    exact spread_gather _ _ V0 hl hk hi
  refine ⟨V, ⟨hsol, hV0⟩, fun G W hG hW hW0 t ht l hl k hk i hi => ?_⟩
  obtain ⟨L, hL0, hL⟩ := opacityRate_lipschitz h T
  rw [hr.solution_iff h.toSphereSetup h.steady] at hsol hW
  have hF : (G ∪ {0, x}).Finite := hG.union (by simp)
  have h1 := zero_of_except hF hL0 (Z := fun t => unknowns P (W t) - unknowns P (V t))
    (hW.1.sub hsol.1) (fun t ht => (hW.2 t ⟨ht.1, fun h' => ht.2 (Or.inl h')⟩).sub
      (hsol.2 t ⟨ht.1, fun h' => ht.2 (Or.inr h')⟩))
    (fun t ht => hL t ⟨ht.1.1, ht.1.2.le⟩ _ _)
    (by
      rw [sub_eq_zero]
      funext q
      exact (hW0 q.1 q.1.2 q.2.1 q.2.1.2 q.2.2 (Nat.lt_succ_iff.1 q.2.2.2)).trans
        (hV0 q.1 q.1.2 q.2.1 q.2.1.2 q.2.2 (Nat.lt_succ_iff.1 q.2.2.2)).symm) t ht
  exact sub_eq_zero.1 (congrFun h1 (⟨l, hl⟩, ⟨k, hk⟩, ⟨i, Nat.lt_succ_of_le hi⟩))

/-! ### Accuracy of the integration -/

theorem opacity_linearSolution {P : Problem} {e d : ℕ → ℝ} (h : OpacityProblem P e d)
    {T : ℝ} (hb : P.boundarySource = false ∨ T ≤ P.mesh.t0)
    {F : Set ℝ} (hF : F.Finite) {V : ℝ → StateVec} (hV : ProgramSolutionOn P 0 T F V) :
    ∃ A A' G, LinearSolution T (opacityRate P) A A' G ∧ ∀ t, G 0 t = unknowns P (V t) := by
  have hA := h.absorber
  have hsub := icc_orderedTimes h.mesh T
  set S : ℝ → Coefs P.params P.fluxConfig →L[ℝ] Coefs P.params P.fluxConfig := fun t =>
    steadyOp (absorber P) T t with hS
  set g : ℝ → Coefs P.params P.fluxConfig := fun t => steadyRate (absorber P) T t 0 with hg'
  have hrate : ∀ t ∈ Icc 0 T, ∀ y, opacityRate P t y = (S t + scatterOp P t) y + g t := by
    intro t ht y
    have h1 : absorberRate P t y = S t y + g t :=
      (steadyRate_eq hA h.noSource hb ht y).trans (steadyOp_apply hA ht y)
    rw [opacityRate, h1, add_apply]
    abel
  have hS' : ContDiffOn ℝ ∞ S (orderedTimes P.mesh.N e d T) := steadyOp_smooth hA T
  have hSA := hS'.add (scatterOp_smooth h T)
  have hg : ContDiffOn ℝ ∞ g (orderedTimes P.mesh.N e d T) := steadyRate_smooth hA T 0
  obtain ⟨hYc, hY⟩ := (h.hasRate.solution_iff h.toSphereSetup h.steady T F V).1 hV
  have hφ : ContinuousOn (fun t => opacityRate P t (unknowns P (V t))) (Icc 0 T) :=
    (((hSA.continuousOn.mono hsub).clm_apply hYc).add (hg.continuousOn.mono hsub)).congr
      fun t ht => hrate t ht _
  refine ⟨_, _, _, linearSolution_of_smooth (orderedTimes_open _ _ _ _) hsub hSA hg hrate hYc
    (fun t ht => hasDeriv_of_except hF hYc hφ hY ht), fun t => ?_⟩
  simp [derivPair]

/-- C131: `RK45` is of fifth order on these runs. -/
theorem c131_rk45_order {P : Problem} {e d : ℕ → ℝ} (h : OpacityProblem P e d)
    {T : ℝ} (hb : P.boundarySource = false ∨ T ≤ P.mesh.t0)
    {F : Set ℝ} (hF : F.Finite) {V : ℝ → StateVec} (hV : ProgramSolutionOn P 0 T F V) :
    ∃ C, ∃ η₀ > 0, ∀ (y0 : StateVec) (es : List Event) (x : StepState) (δ η : ℝ), 0 ≤ δ → 0 ≤ η → η ≤ η₀ →
      (∀ s ∈ acceptedSteps es, 0 ≤ s ∧ s ≤ η) → StatesWithin P y0 (V 0) δ →
      P.integrate rk45 y0 es = some x → x.t ≤ T → StatesWithin P x.y (V x.t) (C * (δ + η ^ 5)) := by
  obtain ⟨A, A', G, hG, hG0⟩ := opacity_linearSolution h hb hF hV
  obtain ⟨L, hL0, hL⟩ := opacityRate_lipschitz h T
  refine h.hasRate.order h.toSphereSetup h.steady rk45_usable hL0 hL
    ((fifth_order_step rk45_fifth hG).congr fun x _ => ?_)
  rw [hG0, hG0]

/-- C131: `RK23` is of third order on these runs. -/
theorem c131_rk23_order {P : Problem} {e d : ℕ → ℝ} (h : OpacityProblem P e d)
    {T : ℝ} (hb : P.boundarySource = false ∨ T ≤ P.mesh.t0)
    {F : Set ℝ} (hF : F.Finite) {V : ℝ → StateVec} (hV : ProgramSolutionOn P 0 T F V) :
    ∃ C, ∃ η₀ > 0, ∀ (y0 : StateVec) (es : List Event) (x : StepState) (δ η : ℝ), 0 ≤ δ → 0 ≤ η → η ≤ η₀ →
      (∀ s ∈ acceptedSteps es, 0 ≤ s ∧ s ≤ η) → StatesWithin P y0 (V 0) δ →
      P.integrate rk23 y0 es = some x → x.t ≤ T → StatesWithin P x.y (V x.t) (C * (δ + η ^ 3)) := by
  obtain ⟨A, A', G, hG, hG0⟩ := opacity_linearSolution h hb hF hV
  obtain ⟨L, hL0, hL⟩ := opacityRate_lipschitz h T
  refine h.hasRate.order h.toSphereSetup h.steady rk23_usable hL0 hL
    ((third_order_step rk23_third hG).congr fun x _ => ?_)
  rw [hG0, hG0]

/-- Convergence of the integration with every consistent method, also when a boundary source is
switched off on the way. -/
theorem opacity_converges {P : Problem} {e d : ℕ → ℝ} (h : OpacityProblem P e d) {τ : Tableau}
    (hτ : UsableMethod τ) (hb : ∑ i ∈ Finset.range τ.n, τ.b i = 1) {T : ℝ} (hT : 0 ≤ T) {F : Set ℝ}
    (hF : F.Finite) {V : ℝ → StateVec} (hV : ProgramSolutionOn P 0 T F V) :
    ∀ ε > 0, ∃ η > 0, ∀ (y0 : StateVec) (es : List Event) (x : StepState),
      (∀ s ∈ acceptedSteps es, 0 ≤ s ∧ s ≤ η) → StatesWithin P y0 (V 0) η →
      P.integrate τ y0 es = some x → x.t ≤ T → StatesWithin P x.y (V x.t) ε := by
  intro ε hε
  obtain ⟨α, hα⟩ := hτ.bound
  obtain ⟨L, hL0, hL⟩ := opacityRate_lipschitz h T
  obtain ⟨hYc, hY⟩ := (h.hasRate.solution_iff h.toSphereSetup h.steady T F V).1 hV
  have hsc : ContinuousOn (fun t => scatterOp P t (unknowns P (V t))) (Icc 0 T) :=
    (continuousOn_scatter h T).clm_apply hYc
  obtain ⟨C, hC⟩ := rkRun_converges hα 0 (opacityRate P) (fun t => unknowns P (V t)) hF
    (x := P.mesh.t0) hT hL0 hL hYc hY ((continuousOn_on h hYc).add hsc) ((continuousOn_off h hYc).add hsc)
    (fun t ht htx => congrArg (· + _) (absorberRate_on h ht.2 htx _))
    (fun t ht htx => congrArg (· + _) (absorberRate_off h ht.1 htx _))
  obtain ⟨η, hη, hC⟩ := hC ε hε
  refine ⟨η, hη, fun y0 es x hes hy0 hx hxT => ?_⟩
  obtain ⟨h1, h2, -⟩ := h.hasRate.integrate h.toSphereSetup h.steady hτ (fun s hs => (hes s hs).1) hx
  have h3 := (hC (acceptedSteps es) (unknowns P y0) hes (h1 ▸ hxT)
    ((statesWithin_iff P _ _ hη.le).1 hy0)).1
  rw [hb, sub_self, abs_zero, mul_zero, add_zero, ← h2, ← h1] at h3
  exact (statesWithin_iff P _ _ hε.le).2 h3

/-! ### What `solve` returns -/

/-- C131: `solve` returns, with every Runge-Kutta method whose dense output ends in the new state; what
it returns is the report of the state that the integration reaches. -/
theorem c131_solve {P : Problem} {e d : ℕ → ℝ} (h : OpacityProblem P e d) (hN : 1 ≤ P.mesh.N)
    (hu : P.uncollided = false) (hT : 0 < P.mesh.tfinal) {τ : Tableau} (hτ : UsableMethod τ)
    {D : Interpolant} (hD : EndsRight τ D) {y0 : StateVec} (hy : StartsFrom P y0) {es : List Event}
    (hes : Arrives P es) (estimate : Bool) (choose : Option (List ℝ)) :
    ∃ R x, P.solve τ D es estimate choose = some R ∧ P.integrate τ y0 es = some x ∧
      x.t = P.mesh.tfinal ∧ Reports P e d choose x.y R :=
  h.hasRate.solve h.toSphereSetup h.steady hN hu hT hτ hD hy hes estimate choose

/-- C131: everything that `solve` returns with `RK45` is within a constant times the fifth power of
the largest step of what belongs to the run of the program. -/
theorem c131_rk45 {P : Problem} {e d : ℕ → ℝ} (h : OpacityProblem P e d) (hN : 1 ≤ P.mesh.N)
    (hu : P.uncollided = false) (hT : 0 < P.mesh.tfinal)
    (hb : P.boundarySource = false ∨ P.mesh.tfinal ≤ P.mesh.t0) {F : Set ℝ} (hF : F.Finite)
    {V : ℝ → StateVec} (hV : RunOn P P.mesh.tfinal F V) :
    ∃ C, ∃ η₀ > 0, ∀ (es : List Event) (η : ℝ), 0 ≤ η → η ≤ η₀ → Arrives P es →
      (∀ s ∈ acceptedSteps es, s ≤ η) → ∀ estimate choose, ∃ R,
        P.solve rk45 (rkInterpolant rk45 rk45Dense 4) es estimate choose = some R ∧
        ReportsWithin P e d choose (V P.mesh.tfinal) (C * η ^ 5) R := by
  obtain ⟨C, η₀, h0, h1⟩ := c131_rk45_order h hb hF hV.2
  obtain ⟨K, hK0, hK⟩ := report_close h.mesh hT.le
  refine ⟨K * max C 0, η₀, h0, fun es η hη hη0 hes hs estimate choose => ?_⟩
  obtain ⟨R, x, r1, r2, r3, r4⟩ := c131_solve h hN hu hT rk45_usable rk45_endsRight hV.1 hes estimate choose
  refine ⟨R, r1, r4.within fun z => ?_⟩
  have h2 := h1 _ es x 0 η le_rfl hη hη0 (fun s hs' => ⟨(hes.1 s hs').le, hs s hs'⟩)
    (hV.1.within hV.1) r2 r3.le
  rw [zero_add, r3] at h2
  have h3 := hK P.mesh.tfinal ⟨hT.le, le_rfl⟩ x.y (V P.mesh.tfinal) (max C 0 * η ^ 5) (by positivity)
    (fun l hl k hk i hi => (h2 l hl k hk i hi).trans
      (mul_le_mul_of_nonneg_right (le_max_left _ _) (by positivity))) z
  rw [← mul_assoc] at h3
  exact h3

/-- C131: with `RK23` it is the third power. -/
theorem c131_rk23 {P : Problem} {e d : ℕ → ℝ} (h : OpacityProblem P e d) (hN : 1 ≤ P.mesh.N)
    (hu : P.uncollided = false) (hT : 0 < P.mesh.tfinal)
    (hb : P.boundarySource = false ∨ P.mesh.tfinal ≤ P.mesh.t0) {F : Set ℝ} (hF : F.Finite)
    {V : ℝ → StateVec} (hV : RunOn P P.mesh.tfinal F V) :
    ∃ C, ∃ η₀ > 0, ∀ (es : List Event) (η : ℝ), 0 ≤ η → η ≤ η₀ → Arrives P es →
      (∀ s ∈ acceptedSteps es, s ≤ η) → ∀ estimate choose, ∃ R,
        P.solve rk23 (rkInterpolant rk23 rk23Dense 3) es estimate choose = some R ∧
        ReportsWithin P e d choose (V P.mesh.tfinal) (C * η ^ 3) R := by
  obtain ⟨C, η₀, h0, h1⟩ := c131_rk23_order h hb hF hV.2
  obtain ⟨K, hK0, hK⟩ := report_close h.mesh hT.le
  refine ⟨K * max C 0, η₀, h0, fun es η hη hη0 hes hs estimate choose => ?_⟩
  obtain ⟨R, x, r1, r2, r3, r4⟩ := c131_solve h hN hu hT rk23_usable rk23_endsRight hV.1 hes estimate choose
  refine ⟨R, r1, r4.within fun z => ?_⟩
  have h2 := h1 _ es x 0 η le_rfl hη hη0 (fun s hs' => ⟨(hes.1 s hs').le, hs s hs'⟩)
    (hV.1.within hV.1) r2 r3.le
  rw [zero_add, r3] at h2
  have h3 := hK P.mesh.tfinal ⟨hT.le, le_rfl⟩ x.y (V P.mesh.tfinal) (max C 0 * η ^ 3) (by positivity)
    (fun l hl k hk i hi => (h2 l hl k hk i hi).trans
      (mul_le_mul_of_nonneg_right (le_max_left _ _) (by positivity))) z
  rw [← mul_assoc] at h3
  exact h3

/-- C131: with every consistent method, also with a boundary source that is switched off on the way,
what `solve` returns is as close as one likes to what belongs to the run of the program, if the
accepted steps are short enough. -/
theorem c131_converges {P : Problem} {e d : ℕ → ℝ} (h : OpacityProblem P e d) (hN : 1 ≤ P.mesh.N)
    (hu : P.uncollided = false) (hT : 0 < P.mesh.tfinal) {τ : Tableau} (hτ : UsableMethod τ)
    (hb : ∑ i ∈ Finset.range τ.n, τ.b i = 1) {D : Interpolant} (hD : EndsRight τ D)
    {F : Set ℝ} (hF : F.Finite) {V : ℝ → StateVec} (hV : RunOn P P.mesh.tfinal F V) :
    ∀ ε > 0, ∃ η > 0, ∀ es : List Event, Arrives P es → (∀ s ∈ acceptedSteps es, s ≤ η) →
      ∀ estimate choose, ∃ R, P.solve τ D es estimate choose = some R ∧
        ReportsWithin P e d choose (V P.mesh.tfinal) ε R := by
  intro ε hε
  obtain ⟨K, hK0, hK⟩ := report_close h.mesh hT.le
  obtain ⟨η, hη, h2⟩ := opacity_converges h hτ hb hT.le hF hV.2 (ε / (K + 1)) (by positivity)
  refine ⟨η, hη, fun es hes hs estimate choose => ?_⟩
  obtain ⟨R, x, r1, r2, r3, r4⟩ := c131_solve h hN hu hT hτ hD hV.1 hes estimate choose
  refine ⟨R, r1, r4.within fun z => ?_⟩
  have h3 := h2 (V 0) es x (fun s hs' => ⟨(hes.1 s hs').le, hs s hs'⟩)
    (fun l hl k hk i hi => (hV.1.within hV.1 l hl k hk i hi).trans hη.le) r2 r3.le
  rw [r3] at h3
  have h4 := hK P.mesh.tfinal ⟨hT.le, le_rfl⟩ x.y (V P.mesh.tfinal) (ε / (K + 1)) (by positivity) h3 z
  have h5 : K * (ε / (K + 1)) ≤ ε := by
    rw [mul_div_assoc', div_le_iff₀ (by positivity)]
    nlinarith
  exact ⟨h4.1.trans h5, fun l hl => (h4.2 l hl).trans h5⟩

/-! ### A concrete problem -/

/-- The point pulse in a scatterer with the Gaussian opacity of the program. -/
noncomputable def exampleGaussianRun (inv : (ℕ → ℕ → ℝ) → ℕ → ℕ → ℝ) : Problem :=
  { exampleScatterRun inv with sigmaFunc := .gaussian, Msigma := 2 }

theorem exampleGaussianRun_problem {inv : (ℕ → ℕ → ℝ) → ℕ → ℕ → ℝ} (hi : InverseCorrect 1 inv) :
    OpacityProblem (exampleGaussianRun inv) (evenEdges 4 (1 / 2)) (evenEdges 4 1) := by
  have h := (exampleScatterRun_setting hi).problem
  exact ⟨⟨h.sphere, h.mesh, h.order, h.tables, h.inverse, h.directions, h.checks⟩,
    ⟨SigmaFunc.noConfusion, SigmaFunc.noConfusion⟩, SigmaFunc.noConfusion,
    not_sourceAsked (P := exampleGaussianRun inv) rfl⟩

/-- There is a run, it is the only one, and what `solve` returns is close to it, with `RK45` and with
`RK23`, in `n` equal steps after a rejected one. -/
example : ∃ inv, InverseCorrect 1 inv ∧ ∃ V F, RunOn (exampleGaussianRun inv) 2 F V ∧
    (∀ (G : Set ℝ) W, G.Finite → RunOn (exampleGaussianRun inv) 2 G W →
      ∀ t ∈ Icc (0 : ℝ) 2, ∀ l < 2, ∀ k < 4, ∀ i ≤ 1, W t l k i = V t l k i) ∧ ∃ C, ∃ η₀ > 0,
    ∀ (n : ℕ) (η : ℝ), 0 < η → η ≤ η₀ → n * η = 2 →
      (∃ R, (exampleGaussianRun inv).solve rk45 (rkInterpolant rk45 rk45Dense 4)
          (.step 1 false :: List.replicate n (.step η true)) true (some [0, 1 / 3, 1]) = some R ∧
        ReportsWithin (exampleGaussianRun inv) (evenEdges 4 (1 / 2)) (evenEdges 4 1) (some [0, 1 / 3, 1])
          (V 2) (C * η ^ 5) R) ∧
      ∃ R, (exampleGaussianRun inv).solve rk23 (rkInterpolant rk23 rk23Dense 3)
          (.step 1 false :: List.replicate n (.step η true)) false none = some R ∧
        ReportsWithin (exampleGaussianRun inv) (evenEdges 4 (1 / 2)) (evenEdges 4 1) none (V 2)
          (C * η ^ 3) R := by
  obtain ⟨inv, hi⟩ := inverse_exists 1
  have h := exampleGaussianRun_problem hi
  obtain ⟨V₀, F₀, -, hV₀, -⟩ := exampleScatterRun_run hi
  have hstart : StartsFrom (exampleGaussianRun inv) (V₀ 0) := hV₀
  have e : (exampleGaussianRun inv).mesh.tfinal = 2 := rfl
  obtain ⟨V, ⟨hV, h0⟩, hu⟩ := c131_wellposed h (T := 2) zero_le_two (V₀ 0)
  have hrun : RunOn (exampleGaussianRun inv) 2 {0, max 0 (min (exampleGaussianRun inv).mesh.t0 2)} V :=
    ⟨fun l hl k hk i hi' => by rw [h0 l hl k hk i hi']; exact hstart l hl k hk i hi', hV⟩
  have hF : ({0, max 0 (min (exampleGaussianRun inv).mesh.t0 2)} : Set ℝ).Finite := by simp
  obtain ⟨C₁, η₁, p1, u1⟩ := c131_rk45 h (Nat.le_of_ble_eq_true rfl) rfl zero_lt_two (Or.inl rfl)
    hF hrun
  obtain ⟨C₂, η₂, p2, u2⟩ := c131_rk23 h (Nat.le_of_ble_eq_true rfl) rfl zero_lt_two (Or.inl rfl)
    hF hrun
  refine ⟨inv, hi, V, _, hrun, fun G W hG hW t ht l hl k hk i hi' => hu G W hG hW.2
      (fun l hl k hk i hi' => ?_) t ht l hl k hk i hi', max C₁ C₂, min η₁ η₂, lt_min p1 p2,
      fun n η hη hη0 hn => ?_⟩
  · exact Option.some_inj.1 ((hW.1 l hl k hk i hi').symm.trans (hstart l hl k hk i hi'))
  obtain ⟨b1, b2⟩ := le_min_iff.1 hη0
  have hacc : acceptedSteps (.step 1 false :: List.replicate n (.step η true)) = List.replicate n η := by
    rw [acceptedSteps, acceptedSteps_replicate]
  have harr : Arrives (exampleGaussianRun inv) (.step 1 false :: List.replicate n (.step η true)) := by
    constructor
    · intro s hs
      rw [hacc] at hs
      rwa [(List.mem_replicate.1 hs).2]
    · rw [hacc, List.sum_replicate, nsmul_eq_mul]
      exact hn
  have hle : ∀ s ∈ acceptedSteps (.step 1 false :: List.replicate n (.step η true)), s ≤ η := by
    intro s hs
    rw [hacc] at hs
    rw [(List.mem_replicate.1 hs).2]
  have mono : ∀ {choose : Option (List ℝ)} {r r' : ℝ} {R : Results}, r ≤ r' →
      ReportsWithin (exampleGaussianRun inv) (evenEdges 4 (1 / 2)) (evenEdges 4 1) choose (V 2) r R →
      ReportsWithin (exampleGaussianRun inv) (evenEdges 4 (1 / 2)) (evenEdges 4 1) choose (V 2) r' R :=
    fun hr hR => ⟨hR.xs, hR.edges, hR.phi.imp fun _ _ h => h.trans hr,
      fun l hl => (hR.psi l hl).imp fun _ _ h => h.trans hr, fun l hl => (hR.inner l hl).trans hr,
      fun l hl => (hR.outer l hl).trans hr, hR.exitPhi.imp fun _ _ h => h.trans hr⟩
  refine ⟨?_, ?_⟩
  · obtain ⟨R, r1, r2⟩ := u1 _ η hη.le b1 harr hle true (some [0, 1 / 3, 1])
    exact ⟨R, r1, mono (mul_le_mul_of_nonneg_right (le_max_left _ _) (by positivity)) r2⟩
  · obtain ⟨R, r1, r2⟩ := u2 _ η hη.le b2 harr hle false none
    exact ⟨R, r1, mono (mul_le_mul_of_nonneg_right (le_max_right _ _) (by positivity)) r2⟩

end Verif.Props
