import Verif.Lemmas.RungeKutta
import Verif.Props.SpherePositivity

/-!
Property C125: the sphere program under the Runge-Kutta integrators of `solve_ivp`.
-/

namespace Verif.Props

open Set Filter Verif.Spec Verif.Model Verif.Lemmas

/-! ### Evaluations on reached objects -/

theorem runCalls_append (P : Problem) (o : Objects) (xs ys : List (ℝ × (ℕ → ℕ → ℕ → ℝ))) :
    P.runCalls o (xs ++ ys) = (P.runCalls o xs).bind fun o' => P.runCalls o' ys := by
  induction xs generalizing o with
  | nil => rfl
  | cons x xs ih =>
    rw [List.cons_append, Problem.runCalls, Problem.runCalls]
    cases P.call o x.1 x.2 with
    | none => rfl
    | some r => exact ih r.1

theorem Reached.call {P : Problem} {o o' : Objects} (ho : Reached P o) {t : ℝ} {V R : StateVec}
    (h : P.call o t V = some (o', R)) : Reached P o' := by
  obtain ⟨o0, calls, h0, h1⟩ := ho
  refine ⟨o0, calls ++ [(t, V)], h0, ?_⟩
  rw [runCalls_append, h1, Option.bind_some, Problem.runCalls, h, Option.bind_some, Problem.runCalls]

/-- What every evaluation returns. -/
noncomputable def evaluation (P : Problem) (t : ℝ) (V : StateVec) : StateVec :=
  fun a q i => open Classical in if a < P.Nang ∧ q < P.mesh.N ∧ i ≤ P.M then
    entryOf P (meshAt P t) t V a q i else V a q i

theorem call_reached {P : Problem} {e d : ℕ → ℝ} (h : SphereSetup P e d) (hf : SteadyOpacity P)
    {o : Objects} (ho : Reached P o) (t : ℝ) (V : StateVec) :
    ∃ o', P.call o t V = some (o', evaluation P t V) ∧ Reached P o' := by
  have h1 := answer_eq h.sphere (h.tables.usable' (Nat.lt_succ_self _) h.order) hf h.mesh.noHistory
    ho t V
  rw [if_neg (fun hc => hc.2 h.checks)] at h1
  obtain ⟨r, hr, hr'⟩ := Option.map_eq_some_iff.1 h1
  have h2 : P.call o t V = some (r.1, evaluation P t V) := by
    rw [hr]
    congr 1
    exact Prod.ext rfl hr'
  exact ⟨r.1, h2, ho.call h2⟩

/-- The evaluations of a step, as if the program had no memory. -/
noncomputable def pureStages (P : Problem) (τ : Tableau) (t h : ℝ) (y f : StateVec) : ℕ → ℕ → StateVec
  | 0 => fun _ => f
  | i + 1 => Function.update (pureStages P τ t h y f i) (i + 1)
      (evaluation P (t + τ.node (i + 1) * h)
        (combine y h (τ.row (i + 1)) (pureStages P τ t h y f i) (i + 1)))

theorem stageLoop_reached {P : Problem} {e d : ℕ → ℝ} (h : SphereSetup P e d) (hf : SteadyOpacity P)
    (τ : Tableau) (t s : ℝ) (y f : StateVec) {o : Objects} (ho : Reached P o) (i : ℕ) :
    ∃ o', P.stageLoop τ t s y i (o, fun _ => f) = some (o', pureStages P τ t s y f i) ∧
      Reached P o' := by
  induction i with
  | zero => exact ⟨o, rfl, ho⟩
  | succ i ih =>
    obtain ⟨o1, h1, h2⟩ := ih
    obtain ⟨o2, h3, h4⟩ := call_reached h hf h2 (t + τ.node (i + 1) * s)
      (combine y s (τ.row (i + 1)) (pureStages P τ t s y f i) (i + 1))
    refine ⟨o2, ?_, h4⟩
    rw [Problem.stageLoop, h1, Option.bind_some, h3, Option.map_some]
    rfl

/-- What an integrator without objects would keep after accepted steps. -/
noncomputable def pureRun (P : Problem) (τ : Tableau) : List ℝ → ℝ × StateVec × StateVec →
    ℝ × StateVec × StateVec
  | [], x => x
  | h :: hs, x => pureRun P τ hs (x.1 + h,
      combine x.2.1 h τ.b (pureStages P τ x.1 h x.2.1 x.2.2 τ.n) τ.n,
      pureStages P τ x.1 h x.2.1 x.2.2 τ.n τ.n)

theorem runEvents_reached {P : Problem} {e d : ℕ → ℝ} (h : SphereSetup P e d) (hf : SteadyOpacity P)
    (τ : Tableau) (es : List Event) (x : StepState) (hx : Reached P x.objects) :
    ∃ x', P.runEvents τ es x = some x' ∧ Reached P x'.objects ∧
      (x'.t, x'.y, x'.f) = pureRun P τ (acceptedSteps es) (x.t, x.y, x.f) := by
  induction es generalizing x with
  | nil => exact ⟨x, rfl, hx, rfl⟩
  | cons ev es ih =>
    rw [Problem.runEvents]
    cases ev with
    | step s acc =>
      obtain ⟨o, h1, h2⟩ := stageLoop_reached h hf τ x.t s x.y x.f hx τ.n
      have h3 : P.rkStep τ x s = some (o, pureStages P τ x.t s x.y x.f τ.n) := h1
      rw [Problem.event, h3, Option.map_some, Option.bind_some]
      cases acc with
      | true => exact ih _ h2
      | false => exact ih { x with objects := o } h2
    | probe s V =>
      obtain ⟨o, h1, h2⟩ := call_reached h hf hx s V
      rw [Problem.event, h1, Option.map_some, Option.bind_some]
      exact ih { x with objects := o } h2

theorem integrate_reached {P : Problem} {e d : ℕ → ℝ} (h : SphereSetup P e d) (hf : SteadyOpacity P)
    (τ : Tableau) (y0 : StateVec) (es : List Event) :
    ∃ x, P.integrate τ y0 es = some x ∧ Reached P x.objects ∧
      (x.t, x.y, x.f) = pureRun P τ (acceptedSteps es) (0, y0, evaluation P 0 y0) := by
  obtain ⟨s, hs, -⟩ := h.mesh.moves
  have hex : ∃ o, P.objects = some o := by
    unfold Problem.objects
    rw [hs]
    exact ⟨_, rfl⟩
  obtain ⟨o, ho⟩ := hex
  obtain ⟨o1, h1, h2⟩ := call_reached h hf ⟨o, [], ho, rfl⟩ 0 y0
  unfold Problem.integrate Problem.integratorStart
  rw [ho, Option.bind_some, h1, Option.map_some, Option.bind_some]
  exact runEvents_reached h hf τ es ⟨o1, 0, y0, evaluation P 0 y0⟩ h2

theorem pureRun_time (P : Problem) (τ : Tableau) (hs : List ℝ) (x : ℝ × StateVec × StateVec) :
    (pureRun P τ hs x).1 = x.1 + hs.sum := by
  induction hs generalizing x with
  | nil => simp [pureRun]
  | cons h hs ih => rw [pureRun, ih, List.sum_cons]; ring

/-! ### C125: failures, rejected steps, the stored rate -/

/-- C125: with every Runge-Kutta method the integration never fails, whatever sizes are tried and
whatever is accepted; the time is the sum of the accepted steps. -/
theorem c125_never_fails {P : Problem} {e d : ℕ → ℝ} (h : SphereSetup P e d) (hf : SteadyOpacity P)
    (τ : Tableau) (y0 : StateVec) (es : List Event) :
    ∃ x, P.integrate τ y0 es = some x ∧ x.t = (acceptedSteps es).sum := by
  obtain ⟨x, h1, -, h2⟩ := integrate_reached h hf τ y0 es
  refine ⟨x, h1, ?_⟩
  have := congrArg Prod.fst h2
  rw [pureRun_time, zero_add] at this
  exact this

/-- C125: rejected steps, the choice of the first step and dense output leave no trace: time, state
and stored rate depend only on the start and on the accepted steps, although every evaluation
changes the objects that the later ones use. -/
theorem c125_rejected_steps_leave_no_trace {P : Problem} {e d : ℕ → ℝ} (h : SphereSetup P e d)
    (hf : SteadyOpacity P) (τ : Tableau) (y0 : StateVec) {es es' : List Event}
    (hes : acceptedSteps es = acceptedSteps es') {x x' : StepState}
    (hx : P.integrate τ y0 es = some x) (hx' : P.integrate τ y0 es' = some x') :
    x.t = x'.t ∧ x.y = x'.y ∧ x.f = x'.f := by
  obtain ⟨z, h1, -, h2⟩ := integrate_reached h hf τ y0 es
  obtain ⟨z', h1', -, h2'⟩ := integrate_reached h hf τ y0 es'
  obtain rfl := Option.some_inj.1 (hx.symm.trans h1)
  obtain rfl := Option.some_inj.1 (hx'.symm.trans h1')
  rw [hes, ← h2'] at h2
  exact ⟨congrArg Prod.fst h2, congrArg (fun x => x.2.1) h2, congrArg (fun x => x.2.2) h2⟩

theorem pureStages_last {P : Problem} {τ : Tableau} (hn : 1 ≤ τ.n) (t h : ℝ) (y f : StateVec) :
    pureStages P τ t h y f τ.n τ.n =
      evaluation P (t + h) (combine y h τ.b (pureStages P τ t h y f τ.n) τ.n) := by
  obtain ⟨m, hm⟩ : ∃ m, τ.n = m + 1 := ⟨τ.n - 1, by omega⟩
  have e1 : pureStages P τ t h y f τ.n τ.n = evaluation P (t + τ.node τ.n * h)
      (combine y h (τ.row τ.n) (pureStages P τ t h y f m) τ.n) := by
    rw [hm, pureStages, Function.update_self]
  have e2 : τ.node τ.n = 1 := if_neg (lt_irrefl _)
  have e3 : τ.row τ.n = τ.b := by
    funext j
    exact if_neg (lt_irrefl _)
  rw [e1, e2, e3, one_mul]
  congr 1
  funext l k i
  unfold combine
  congr 2
  refine Finset.sum_congr rfl fun j hj => ?_
  have hj := Finset.mem_range.1 hj
  have : pureStages P τ t h y f τ.n j = pureStages P τ t h y f m j := by
    conv_lhs => rw [hm, pureStages]
    exact Function.update_of_ne (by omega) _ _
  rw [this]

/-- C125: the rate that the integrator keeps for the first evaluation of the next step is what the
program, after any history, answers for the time and the state reached. -/
theorem c125_stored_rate {P : Problem} {e d : ℕ → ℝ} (h : SphereSetup P e d) (hf : SteadyOpacity P)
    {τ : Tableau} (hn : 1 ≤ τ.n) (y0 : StateVec) {es : List Event} {x : StepState}
    (hx : P.integrate τ y0 es = some x) {o : Objects} (ho : Reached P o) :
    answer P o x.t x.y = some x.f := by
  obtain ⟨z, h1, -, h2⟩ := integrate_reached h hf τ y0 es
  obtain rfl := Option.some_inj.1 (hx.symm.trans h1)
  have key : ∀ (hs : List ℝ) (w : ℝ × StateVec × StateVec), w.2.2 = evaluation P w.1 w.2.1 →
      (pureRun P τ hs w).2.2 = evaluation P (pureRun P τ hs w).1 (pureRun P τ hs w).2.1 := by
    intro hs
    induction hs with
    | nil => exact fun w hw => hw
    | cons s hs ih => exact fun w _ => ih _ (pureStages_last hn _ _ _ _)
  have h3 := key (acceptedSteps es) (0, y0, evaluation P 0 y0) rfl
  rw [← h2] at h3
  obtain ⟨o', h4, -⟩ := call_reached h hf ho x.t x.y
  unfold answer
  rw [h4, Option.map_some]
  exact congrArg some h3.symm

/-! ### The equations as a field on coefficient vectors -/

/-- The rate of change of the coefficients. -/
noncomputable def programRate (P : Problem) (t : ℝ) (U : Coefs P.params P.fluxConfig) :
    Coefs P.params P.fluxConfig := fun q =>
  sphereField0 P.params P.fluxConfig t (meshAt P t) (programSource P t)
    (spread P.params P.fluxConfig U) q.1 q.2.1 q.2.2

/-- The coefficients that the scheme uses. -/
noncomputable def unknowns (P : Problem) (V : StateVec) : Coefs P.params P.fluxConfig :=
  gather P.params P.fluxConfig V

theorem programRate_gather {P : Problem} {e d : ℕ → ℝ} (h : SphereProblem P e d) (t : ℝ)
    (V : StateVec) (q : Fin P.params.Nang × Fin P.fluxConfig.Nspace × Fin (P.fluxConfig.M + 1)) :
    programRate P t (unknowns P V) q = sphereField0 P.params P.fluxConfig t (meshAt P t)
      (programSource P t) V q.1 q.2.1 q.2.2 :=
  sphereField0_congr P.params h.directions P.fluxConfig P.fluxConfig P.fluxConfig.t0 t rfl
    (fun _ => rfl) _ _ rfl (fun _ _ => rfl) _ _ (fun _ _ _ _ => rfl) _ _
    (fun _ hl _ hk _ hi => spread_gather _ _ V hl hk hi) q.1.2 q.2.1.2 q.2.2.2 q.2.2.2

theorem programMesh_at {P : Problem} {e d : ℕ → ℝ} (h : SphereSetup P e d) {t : ℝ} (ht : 0 ≤ t) :
    (meshAt P t).edges 0 = 0 ∧
      (∀ k < P.mesh.N, (meshAt P t).edges k < (meshAt P t).edges (k + 1)) ∧
      ∀ k < P.mesh.N, MatsExact P.M ((meshAt P t).edges k) ((meshAt P t).edges (k + 1))
        ((meshAt P t).Dedges k) ((meshAt P t).Dedges (k + 1)) (programMats P t k) := by
  have hm := programMesh h (a := 0) (b := t + 1) le_rfl ∅
  have hmem : t ∈ Icc 0 (t + 1) := ⟨ht, by linarith⟩
  exact ⟨hm.centre t hmem, hm.ordered t hmem,
    hm.mats t ⟨⟨ht, by linarith⟩, notMem_empty _⟩⟩

theorem evaluation_rate {P : Problem} {e d : ℕ → ℝ} (h : SphereProblem P e d) {t : ℝ} (ht : 0 ≤ t)
    (V : StateVec) : unknowns P (evaluation P t V) = programRate P t (unknowns P V) := by
  obtain ⟨o, ho⟩ := reached_exists h.mesh
  obtain ⟨o', h1, -⟩ := call_reached h.toSphereSetup (steady_of_constant h.opacity) ho t V
  have h2 : answer P o t V = some (evaluation P t V) := by
    unfold answer
    rw [h1, Option.map_some]
  rw [answer_eq_activeCall h.sphere (h.tables.usable' (Nat.lt_succ_self _) h.order) h.opacity
    h.mesh.noHistory ho t V fluxInit] at h2
  obtain ⟨m1, m2, m3⟩ := programMesh_at h.toSphereSetup ht
  funext q
  rw [programRate_gather h]
  have h3 := activeCall_sphere (show P.fluxConfig.geometry = .sphere from h.sphere) h2 q.1.2 q.2.1.2
    (Nat.lt_succ_iff.1 q.2.2.2)
  have h4 := sphereRhs_closed P.params P.fluxConfig h.sphere h.order t (meshAt P t) m1 m2
    (programMats P t) (programSource P t) fluxInit V q.1 q.2.1 q.2.2 q.2.1.2 (m3 _ q.2.1.2)
  exact h3.trans h4

theorem unknowns_combine (P : Problem) (y : StateVec) (s : ℝ) (w : ℕ → ℝ) (K : ℕ → StateVec) (i : ℕ) :
    unknowns P (combine y s w K i) =
      unknowns P y + s • ∑ j ∈ Finset.range i, w j • unknowns P (K j) := by
  funext q
  simp only [Pi.add_apply, Pi.smul_apply, Finset.sum_apply, smul_eq_mul]
  rfl

/-- A Runge-Kutta method of scipy: the first evaluation is at the start, no evaluation lies outside
the step. -/
structure UsableMethod (τ : Tableau) : Prop where
  stages : 1 ≤ τ.n
  first : τ.c 0 = 0
  nodes : ∀ i < τ.n, 0 ≤ τ.c i ∧ τ.c i ≤ 1

theorem UsableMethod.node {τ : Tableau} (h : UsableMethod τ) (i : ℕ) (_ : i ≤ τ.n) :
    0 ≤ τ.node i ∧ τ.node i ≤ 1 := by
  unfold Tableau.node
  split_ifs with hlt
  · exact h.nodes i hlt
  · norm_num

theorem UsableMethod.bound {τ : Tableau} (h : UsableMethod τ) : ∃ α, TableauBound τ α := by
  refine ⟨∑ i ∈ Finset.range (τ.n + 1), ∑ j ∈ Finset.range i, |τ.row i j|, ?_, h.node, fun i hi => ?_,
    Finset.sum_nonneg fun i _ => Finset.sum_nonneg fun j _ => abs_nonneg _⟩
  · exact (if_pos h.stages).trans h.first
  · exact Finset.single_le_sum (f := fun i => ∑ j ∈ Finset.range i, |τ.row i j|)
      (fun i _ => Finset.sum_nonneg fun j _ => abs_nonneg _) (Finset.mem_range.2 (by omega))

theorem pureStages_rate {P : Problem} {e d : ℕ → ℝ} (h : SphereProblem P e d) {τ : Tableau}
    (hτ : UsableMethod τ) {t s : ℝ} (ht : 0 ≤ t) (hs : 0 ≤ s) (y f : StateVec) (i : ℕ) (hi : i ≤ τ.n)
    (j : ℕ) : unknowns P (pureStages P τ t s y f i j) =
      rkStages τ (programRate P) t s (unknowns P y) (unknowns P f) i j := by
  induction i generalizing j with
  | zero => rfl
  | succ i ih =>
    rw [pureStages, rkStages]
    by_cases hj : j = i + 1
    · subst hj
      rw [Function.update_self, Function.update_self, evaluation_rate h (by
        have := (hτ.node (i + 1) hi).1
        positivity), unknowns_combine]
      congr 3
      exact Finset.sum_congr rfl fun m _ => by rw [ih (by omega)]
    · rw [Function.update_of_ne hj, Function.update_of_ne hj, ih (by omega)]

theorem pureRun_rate {P : Problem} {e d : ℕ → ℝ} (h : SphereProblem P e d) {τ : Tableau}
    (hτ : UsableMethod τ) (hs : List ℝ) (hpos : ∀ s ∈ hs, 0 ≤ s) (x : ℝ × StateVec × StateVec)
    (hx0 : 0 ≤ x.1) (hx : unknowns P x.2.2 = programRate P x.1 (unknowns P x.2.1)) :
    unknowns P (pureRun P τ hs x).2.1 =
        (rkRun τ (programRate P) hs (x.1, unknowns P x.2.1)).2 ∧
      unknowns P (pureRun P τ hs x).2.2 =
        programRate P (pureRun P τ hs x).1 (unknowns P (pureRun P τ hs x).2.1) := by
  induction hs generalizing x with
  | nil => exact ⟨rfl, hx⟩
  | cons s hs ih =>
    have hs0 := hpos s List.mem_cons_self
    rw [pureRun, rkRun]
    have e1 : unknowns P (combine x.2.1 s τ.b (pureStages P τ x.1 s x.2.1 x.2.2 τ.n) τ.n) =
        rkAdvance τ (programRate P) x.1 s (unknowns P x.2.1) := by
      rw [unknowns_combine, rkAdvance, ← hx]
      congr 2
      exact Finset.sum_congr rfl fun j _ => by rw [pureStages_rate h hτ hx0 hs0 _ _ _ le_rfl]
    have := ih (fun s hs => hpos s (List.mem_cons_of_mem _ hs)) (x.1 + s,
      combine x.2.1 s τ.b (pureStages P τ x.1 s x.2.1 x.2.2 τ.n) τ.n,
      pureStages P τ x.1 s x.2.1 x.2.2 τ.n τ.n) (add_nonneg hx0 hs0) (by
        rw [pureStages_last hτ.stages, evaluation_rate h (add_nonneg hx0 hs0)])
    rw [e1] at this
    exact this

/-! ### Convergence -/

theorem continuousOn_programRate {P : Problem} {e d : ℕ → ℝ} (h : SphereProblem P e d)
    (hs : ¬ SourceAsked P ∨ (P.mesh.st 0 ≠ 1 ∧ OpenNodes P.quad)) {T : ℝ}
    {U : ℝ → Coefs P.params P.fluxConfig} (hU : ContinuousOn U (Icc 0 T)) (x : ℝ)
    (sw : ℕ → Bool) (hsw : ∀ t ∈ Icc 0 T, ∀ k, isBoundarySourceOn { P.fluxConfig with t0 := x } k t = sw k) :
    ContinuousOn (fun t => (fun q => sphereField0 P.params { P.fluxConfig with t0 := x } t (meshAt P t)
      (programSource P t) (spread P.params P.fluxConfig (U t)) q.1 q.2.1 q.2.2 :
        Coefs P.params P.fluxConfig)) (Icc 0 T) := by
  have hl := fun t => meshAt_linear h.mesh t
  have hsrc : ∀ k < P.mesh.N, ∀ i ≤ P.M,
      ContinuousOn (fun t => programSource P t k i) (Icc 0 T) := by
    intro k hk i _
    rcases hs with hs | hs
    · have : (fun t => programSource P t k i) = fun _ => 0 := by
        funext t
        simp only [programSource, sourceOf, if_neg hs]
      rw [this]
      exact continuousOn_const
    · exact (continuousOn_programSource h hs.1 hs.2 hk i).mono fun t ht => ht.1
  refine continuousOn_pi.2 fun q => ?_
  refine continuousOn_sphereField0 P.params { P.fluxConfig with t0 := x } h.sphere continuousOn_id
    (Or.inr fun t ht => by have := ht.1; simp only [id]; linarith) sw hsw
    (fun t ht => (programMesh_at h.toSphereSetup ht.1).2.1)
    (fun k hk => ?_) (fun k hk => ?_) hsrc (u := fun t => spread P.params P.fluxConfig (U t))
    (fun l k i => ?_) q.1 q.2.2 q.2.1.2
  · have : (fun s => (meshAt P s).edges k) = fun s => e k + d k * s :=
      funext fun s => (hl s).1 k hk
    rw [this]
    fun_prop
  · have : (fun s => (meshAt P s).Dedges k) = fun _ => d k := funext fun s => (hl s).2 k hk
    rw [this]
    exact continuousOn_const
  · exact (spread_continuous P.params P.fluxConfig l k i).comp_continuousOn hU

theorem switch_off (c : FluxConfig) {t0 t : ℝ} (h : t0 < t) (k : ℕ) :
    isBoundarySourceOn { c with t0 := t0 } k t = if c.mms then true else if c.thermalIsOne then true
      else false := by
  unfold isBoundarySourceOn
  simp [not_le.2 h]

theorem switch_on (c : FluxConfig) {t0 t : ℝ} (h : t ≤ t0) (k : ℕ) :
    isBoundarySourceOn { c with t0 := t0 } k t = isBoundarySourceOn { c with t0 := 0 } k 0 := by
  unfold isBoundarySourceOn
  simp [h]

theorem programRate_lipschitz {P : Problem} {e d : ℕ → ℝ} (h : SphereProblem P e d) (T : ℝ) :
    ∃ L : ℝ, 0 ≤ L ∧ ∀ t ∈ Icc 0 T, ∀ U W, ‖programRate P t U - programRate P t W‖ ≤ L * ‖U - W‖ := by
  have hl := fun t => meshAt_linear h.mesh t
  obtain ⟨K, hK⟩ := sphereOp_bound P.params P.fluxConfig h.sphere h.order 0 T (meshAt P)
    (fun s hs => (programMesh_at h.toSphereSetup hs.1).1)
    (fun s hs => (programMesh_at h.toSphereSetup hs.1).2.1)
    (fun k hk => by
      have : (fun s => (meshAt P s).edges k) = fun s => e k + d k * s :=
        funext fun s => (hl s).1 k hk
      rw [this]
      fun_prop)
    (fun k hk => by
      have : (fun s => (meshAt P s).Dedges k) = fun _ => d k := funext fun s => (hl s).2 k hk
      rw [this]
      exact continuousOn_const)
  refine ⟨K, K.2, fun t ht U W => ?_⟩
  have hdiff : programRate P t U - programRate P t W =
      sphereOp P.params P.fluxConfig (meshAt P) t (U - W) := by
    funext j
    have h1 := sphereField0_sub P.params P.fluxConfig h.sphere h.order t (meshAt P t)
      (programMesh_at h.toSphereSetup ht.1).1 (programMesh_at h.toSphereSetup ht.1).2.1
      (programSource P t) (spread P.params P.fluxConfig U)
      (spread P.params P.fluxConfig W) j.1 j.2.1 j.2.2 j.2.1.2
    have e : (fun l k i => spread P.params P.fluxConfig U l k i - spread P.params P.fluxConfig W l k i)
        = spread P.params P.fluxConfig (U - W) := by
      funext l k i; rw [spread_sub]
    rw [e] at h1
    exact h1
  rw [hdiff]
  exact hK t ht _

/-- The unknowns of two states differ by at most `r`. -/
def StatesWithin (P : Problem) (V W : StateVec) (r : ℝ) : Prop :=
  ∀ l < P.Nang, ∀ k < P.mesh.N, ∀ i ≤ P.M, |V l k i - W l k i| ≤ r

theorem statesWithin_iff (P : Problem) (V W : StateVec) {r : ℝ} (hr : 0 ≤ r) :
    StatesWithin P V W r ↔ ‖unknowns P V - unknowns P W‖ ≤ r := by
  rw [pi_norm_le_iff_of_nonneg hr]
  constructor
  · intro h q
    exact h q.1 q.1.2 q.2.1 q.2.1.2 q.2.2 (Nat.lt_succ_iff.1 q.2.2.2)
  · intro h l hl k hk i hi
    exact h (⟨l, hl⟩, ⟨k, hk⟩, ⟨i, Nat.lt_succ_iff.2 hi⟩)

/-- C125: when all accepted steps are short, the state of the integrator is close to the solution of
the equations of the program at its time, and so is the dense output of a further step; the boundary
source may be switched off within a step.  `V` is the solution, `β` bounds the weights of the dense
output; the last summand is there for coefficients that were rounded. -/
theorem c125_converges {P : Problem} {e d : ℕ → ℝ} (h : SphereProblem P e d)
    (hs : ¬ SourceAsked P ∨ (P.mesh.st 0 ≠ 1 ∧ OpenNodes P.quad)) {τ : Tableau} (hτ : UsableMethod τ)
    {T : ℝ} (hT : 0 ≤ T) {F : Set ℝ} (hF : F.Finite) {V : ℝ → StateVec}
    (hV : ProgramSolutionOn P 0 T F V) (β : ℝ) :
    ∃ C, ∀ ε > 0, ∃ η > 0, ∀ (y0 : StateVec) (es : List Event) (x : StepState),
      (∀ s ∈ acceptedSteps es, 0 ≤ s ∧ s ≤ η) → StatesWithin P y0 (V 0) η →
      P.integrate τ y0 es = some x → x.t ≤ T →
      StatesWithin P x.y (V x.t) (ε + C * |∑ i ∈ Finset.range τ.n, τ.b i - 1|) ∧
      ∀ s, 0 ≤ s → s ≤ η → x.t + s ≤ T → ∀ o K, P.rkStep τ x s = some (o, K) →
        ∀ θ ∈ Icc (0 : ℝ) 1, ∀ w : ℕ → ℝ, ∑ i ∈ Finset.range (τ.n + 1), |w i| ≤ β →
          ∑ i ∈ Finset.range (τ.n + 1), w i = θ →
          StatesWithin P (combine x.y s w K (τ.n + 1)) (V (x.t + θ * s))
            (ε + C * |∑ i ∈ Finset.range τ.n, τ.b i - 1|) := by
  obtain ⟨α, hα⟩ := hτ.bound
  obtain ⟨L, hL0, hL⟩ := programRate_lipschitz h T
  have hf := steady_of_constant h.opacity
  set Y : ℝ → Coefs P.params P.fluxConfig := fun t => unknowns P (V t) with hYdef
  have hYc : ContinuousOn Y (Icc 0 T) := continuousOn_pi.2 fun q =>
    hV.1 q.1 q.1.2 q.2.1 q.2.1.2 q.2.2 (Nat.lt_succ_iff.1 q.2.2.2)
  have hsol := (programSolution_iff h 0 T F V).1 hV
  have hY : ∀ t ∈ Ico 0 T \ F, HasDerivWithinAt Y (programRate P t (Y t)) (Ici t) t := by
    intro t ht
    obtain ⟨m1, m2, m3⟩ := programMesh_at h.toSphereSetup ht.1.1
    refine hasDerivWithinAt_pi.2 fun q => ?_
    rw [programRate_gather h]
    exact hsol.rate h.sphere h.order ht m1 m2 m3 q.1.2 q.2.1.2 q.2.2.2
  have hcongr : ∀ (t0 t : ℝ), (∀ k, isBoundarySourceOn P.fluxConfig k t =
      isBoundarySourceOn { P.fluxConfig with t0 := t0 } k t) → ∀ U, programRate P t U = fun q =>
      sphereField0 P.params { P.fluxConfig with t0 := t0 } t (meshAt P t) (programSource P t)
        (spread P.params P.fluxConfig U) q.1 q.2.1 q.2.2 := by
    intro t0 t hsw U
    funext q
    exact sphereField0_congr P.params h.directions P.fluxConfig { P.fluxConfig with t0 := t0 } t0 t rfl
      hsw _ _ rfl (fun _ _ => rfl) _ _ (fun _ _ _ _ => rfl) _ _ (fun _ _ _ _ _ _ => rfl) q.1.2 q.2.1.2
      q.2.2.2 q.2.2.2
  obtain ⟨C, hC⟩ := rkRun_converges hα β (programRate P) Y hF (x := P.mesh.t0) hT hL0 hL hYc hY
    (continuousOn_programRate h hs hYc T (fun k => isBoundarySourceOn { P.fluxConfig with t0 := 0 } k 0)
      fun t ht k => switch_on P.fluxConfig ht.2 k)
    (continuousOn_programRate h hs hYc (-1) (fun k => if P.fluxConfig.mms then true else
      if P.fluxConfig.thermalIsOne then true else false)
      fun t ht k => switch_off P.fluxConfig (by linarith [ht.1]) k)
    (fun t ht htx => hcongr T t (fun k => by
      exact (switch_on P.fluxConfig (t0 := P.mesh.t0) htx k).trans (switch_on P.fluxConfig ht.2 k).symm) _)
    (fun t ht htx => hcongr (-1) t (fun k => by
      exact (switch_off P.fluxConfig (t0 := P.mesh.t0) htx k).trans
        (switch_off P.fluxConfig (by linarith [ht.1]) k).symm) _)
  refine ⟨max C 0, fun ε hε => ?_⟩
  obtain ⟨η, hη, hC⟩ := hC ε hε
  refine ⟨η, hη, fun y0 es x hes hy0 hx hxT => ?_⟩
  set b := |∑ i ∈ Finset.range τ.n, τ.b i - 1| with hb
  have hb0 : 0 ≤ b := abs_nonneg _
  have hCb : C * b ≤ max C 0 * b := mul_le_mul_of_nonneg_right (le_max_left _ _) hb0
  have hr : 0 ≤ ε + max C 0 * b := add_nonneg hε.le (mul_nonneg (le_max_right _ _) hb0)
  obtain ⟨z, h1, h2, h3⟩ := integrate_reached h.toSphereSetup hf τ y0 es
  obtain rfl := Option.some_inj.1 (hx.symm.trans h1)
  have ht : x.t = (acceptedSteps es).sum := by
    have := congrArg Prod.fst h3
    rw [pureRun_time, zero_add] at this
    exact this
  obtain ⟨h4, h5⟩ := pureRun_rate h hτ (acceptedSteps es) (fun s hs => (hes s hs).1)
    (0, y0, evaluation P 0 y0) le_rfl (evaluation_rate h le_rfl y0)
  rw [← h3] at h4 h5
  obtain ⟨h6, h7⟩ := hC (acceptedSteps es) (unknowns P y0) hes (ht ▸ hxT)
    ((statesWithin_iff P _ _ hη.le).1 hy0)
  rw [← h4, ← ht] at h6 h7
  refine ⟨(statesWithin_iff P _ _ hr).2 (h6.trans (by linarith)), fun s hs0 hsη hsT o K hK θ hθ w hw hwθ =>
    (statesWithin_iff P _ _ hr).2 ?_⟩
  obtain ⟨o', h8, -⟩ := stageLoop_reached h.toSphereSetup hf τ x.t s x.y x.f h2 τ.n
  have h9 : (o, K) = (o', pureStages P τ x.t s x.y x.f τ.n) := Option.some_inj.1 (hK.symm.trans h8)
  obtain rfl : K = _ := congrArg Prod.snd h9
  have hx0 : 0 ≤ x.t := ht ▸ List.sum_nonneg fun s hs => (hes s hs).1
  have h10 := h7 s hs0 hsη hsT θ hθ w hw hwθ
  have h11 : unknowns P (combine x.y s w (pureStages P τ x.t s x.y x.f τ.n) (τ.n + 1)) =
      rkCombine τ (programRate P) x.t s (unknowns P x.y) w := by
    rw [unknowns_combine, rkCombine, ← h5]
    congr 2
    exact Finset.sum_congr rfl fun j _ => by rw [pureStages_rate h hτ hx0 hs0 _ _ _ le_rfl]
  rw [h11]
  exact h10.trans (by linarith)

/-! ### What `solve` reads at the final time -/

/-- C125: `solve` asks for the dense output at the final time, the end of the last step
(main_functions.py 178 and 209: `t_eval = [tfinal]`, `sol.y[:, -1]`); for `RK45` this is the new
state of that step. -/
theorem c125_rk45_end (x : StepState) (s : ℝ) (K : ℕ → StateVec) :
    Problem.denseOutput rk45 rk45Dense 4 x s K 1 = combine x.y s rk45.b K rk45.n := by
  funext l k i
  simp only [Problem.denseOutput, combine, rk45, rk45Dense, Finset.sum_range_succ, Finset.sum_range_zero,
    List.getD_cons_zero, List.getD_cons_succ]
  norm_num

/-- C125: the weights of the dense output of `RK45` at a fraction of the step add up to it. -/
theorem c125_rk45_dense_consistent (θ : ℝ) :
    ∑ i ∈ Finset.range (rk45.n + 1), ∑ p ∈ Finset.range 4, rk45Dense i p * θ ^ (p + 1) = θ := by
  simp only [rk45, rk45Dense, Finset.sum_range_succ, Finset.sum_range_zero,
    List.getD_cons_zero, List.getD_cons_succ]
  ring

/-- C125: the same for `DOP853`, whatever the further evaluations gave. -/
theorem c125_dop853_end (yOld yNew : StateVec) (F : ℕ → StateVec) :
    dopOutput yOld yNew F 1 = yNew := by
  funext l k i
  simp only [dopOutput, List.range, List.range.loop, List.foldl_cons, List.foldl_nil]
  norm_num

/-! ### Examples -/

theorem rk45_usable : UsableMethod rk45 where
  stages := by norm_num [rk45]
  first := by norm_num [rk45]
  nodes i hi := by
    have hi : i < 6 := hi
    interval_cases i <;> norm_num [rk45]

theorem rk45_sum : ∑ i ∈ Finset.range rk45.n, rk45.b i - 1 = 0 := by
  norm_num [rk45, Finset.sum_range_succ]

theorem rk23_usable : UsableMethod rk23 where
  stages := by norm_num [rk23]
  first := by norm_num [rk23]
  nodes i hi := by
    have hi : i < 3 := hi
    interval_cases i <;> norm_num [rk23]

theorem rk23_sum : ∑ i ∈ Finset.range rk23.n, rk23.b i - 1 = 0 := by
  norm_num [rk23, Finset.sum_range_succ]

/-- Two integrations of the shell with the same accepted steps: one with a rejected step, a wild
evaluation and a step that is tried and thrown away, one without.  Both succeed and end in the same
state at time `1`. -/
example : ∃ inv, InverseCorrect 1 inv ∧ ∃ x x',
    (exampleShell inv).integrate rk45 (fun _ _ _ => 1)
      [.step 7 false, .step (1 / 2) true, .probe 30 (fun l _ _ => l), .step 1 false, .step (1 / 2) true] =
        some x ∧
    (exampleShell inv).integrate rk45 (fun _ _ _ => 1) [.step (1 / 2) true, .step (1 / 2) true] =
      some x' ∧ x.t = 1 ∧ x'.t = 1 ∧ x.y = x'.y ∧ x.f = x'.f := by
  obtain ⟨inv, hi⟩ := inverse_exists 1
  have hp := exampleShell_problem hi
  have hf := steady_of_constant hp.opacity
  obtain ⟨x, h1, h2⟩ := c125_never_fails hp.toSphereSetup hf rk45 (fun _ _ _ => 1)
    [.step 7 false, .step (1 / 2) true, .probe 30 (fun l _ _ => l), .step 1 false, .step (1 / 2) true]
  obtain ⟨x', h1', h2'⟩ := c125_never_fails hp.toSphereSetup hf rk45 (fun _ _ _ => 1)
    [.step (1 / 2) true, .step (1 / 2) true]
  obtain ⟨-, h3, h4⟩ := c125_rejected_steps_leave_no_trace hp.toSphereSetup hf rk45 (fun _ _ _ => 1)
    (by simp [acceptedSteps]) h1 h1'
  refine ⟨inv, hi, x, x', h1, h1', ?_, ?_, h3, h4⟩
  · rw [h2]; norm_num [acceptedSteps]
  · rw [h2']; norm_num [acceptedSteps]

/-- The shell with its source, started from ones, with `RK45`: equal steps that are short enough end
at time `2` as close as one likes to the solution. -/
example : ∃ inv, InverseCorrect 1 inv ∧ ∃ V, ProgramSolutionOn (exampleShell inv) 0 2 {0, 1} V ∧
    (∀ l < 2, ∀ k < 4, ∀ i ≤ 1, V 0 l k i = 1) ∧
    ∀ ε > 0, ∃ n0 : ℕ, ∀ n : ℕ, n0 ≤ n → ∃ x, (exampleShell inv).integrate rk45 (fun _ _ _ => 1)
      (List.replicate (n + 1) (.step (2 / (n + 1)) true)) = some x ∧ x.t = 2 ∧
      StatesWithin (exampleShell inv) x.y (V 2) ε := by
  obtain ⟨inv, hi⟩ := inverse_exists 1
  have hp := exampleShell_problem hi
  have hf := steady_of_constant hp.opacity
  obtain ⟨V, ⟨h1, h2⟩, -⟩ := c110_wellposed_partial hp (Or.inr (exampleShell_source inv)) (T := 2)
    (by norm_num) fun _ _ _ => 1
  have ht : max 0 (min (exampleShell inv).mesh.t0 2) = 1 := by
    have : (exampleShell inv).mesh.t0 = 1 := rfl
    rw [this]; norm_num
  rw [ht] at h1
  refine ⟨inv, hi, V, h1, h2, fun ε hε => ?_⟩
  obtain ⟨C, hC⟩ := c125_converges hp (Or.inr (exampleShell_source inv)) rk45_usable zero_le_two
    (F := {0, 1}) (by simp) h1 0
  obtain ⟨η, hη, hC⟩ := hC ε hε
  obtain ⟨n0, hn0⟩ := exists_nat_gt (2 / η)
  refine ⟨n0, fun n hn => ?_⟩
  have hacc : ∀ m : ℕ, acceptedSteps (List.replicate m (.step (2 / ((n : ℝ) + 1)) true)) =
      List.replicate m (2 / ((n : ℝ) + 1)) := by
    intro m
    induction m with
    | zero => rfl
    | succ m ih => rw [List.replicate_succ, acceptedSteps, ih, List.replicate_succ]
  obtain ⟨x, h3, h4⟩ := c125_never_fails hp.toSphereSetup hf rk45 (fun _ _ _ => 1)
    (List.replicate (n + 1) (.step (2 / (n + 1)) true))
  have hn1 : (0 : ℝ) < n + 1 := by positivity
  have hx : x.t = 2 := by
    rw [h4, hacc, List.sum_replicate, nsmul_eq_mul]
    push_cast
    field_simp
  refine ⟨x, h3, hx, ?_⟩
  have h5 := (hC (fun _ _ _ => 1) _ x (fun s hs => ?_) (fun l hl k hk i hi => ?_) h3 (by rw [hx])).1
  · rw [rk45_sum, abs_zero, mul_zero, add_zero, hx] at h5
    exact h5
  · rw [hacc] at hs
    obtain rfl := List.eq_of_mem_replicate hs
    refine ⟨by positivity, ?_⟩
    rw [div_le_iff₀ hn1]
    have h6 : (n0 : ℝ) ≤ n := by exact_mod_cast hn
    have h7 : 2 / η < n + 1 := by linarith
    rw [div_lt_iff₀ hη] at h7
    linarith
  · rw [h2 l hl k hk i hi, sub_self, abs_zero]
    exact hη.le

end Verif.Props
