import Verif.Props.TimeStepNumber
import Verif.Lemmas.RungeKuttaOrder
import Verif.Lemmas.SphereSmooth

/-! C127: the order of the integrator on sphere runs. -/

namespace Verif.Props

open Set Verif.Spec Verif.Model Verif.Lemmas Filter Topology
open scoped ContDiff

/-! ### The coefficients of scipy -/

theorem rk45_fifth : FifthOrder rk45 where
  first := by norm_num [Tableau.node, rk45]
  nodes := rk45_usable.node
  rows i hi := by
    have hi : i ≤ 6 := hi
    interval_cases i <;>
      norm_num [rowMoment, Tableau.node, Tableau.row, rk45, Finset.sum_range_succ]
  rows2 i hi h2 := by
    have hi : i ≤ 6 := hi
    interval_cases i <;>
      norm_num [rowMoment, Tableau.node, Tableau.row, rk45, Finset.sum_range_succ]
  weights q hq := by
    interval_cases q <;>
      norm_num [rowMoment, Tableau.node, Tableau.row, rk45, Finset.sum_range_succ]
  weightOne := by norm_num [rk45]
  one := by norm_num [stageOne, Tableau.row, rk45, Finset.sum_range_succ]
  oneNode := by norm_num [stageOne, Tableau.row, Tableau.node, rk45, Finset.sum_range_succ]
  oneTwice := by norm_num [stageOneTwice, stageOne, Tableau.row, rk45, Finset.sum_range_succ]
  fourth := by
    norm_num [fourthMoment, rowMoment, Tableau.row, Tableau.node, rk45, Finset.sum_range_succ]

theorem rk23_third : ThirdOrder rk23 where
  first := by norm_num [Tableau.node, rk23]
  nodes := rk23_usable.node
  rows i hi := by
    have hi : i ≤ 3 := hi
    interval_cases i <;>
      norm_num [rowMoment, Tableau.node, Tableau.row, rk23, Finset.sum_range_succ]
  weights q hq := by
    interval_cases q <;>
      norm_num [rowMoment, Tableau.node, Tableau.row, rk23, Finset.sum_range_succ]
  second := by norm_num [rowMoment, Tableau.row, Tableau.node, rk23, Finset.sum_range_succ]

/-! ### Smoothness of the equations -/

/-- At exceptional times the derivative is what the equation says, too. -/
theorem hasDeriv_of_except {E : Type*} [NormedAddCommGroup E] [NormedSpace ℝ E] {F : Set ℝ}
    (hF : F.Finite) {Y φ : ℝ → E} {T : ℝ} (hY : ContinuousOn Y (Icc 0 T))
    (hφ : ContinuousOn φ (Icc 0 T))
    (hd : ∀ t ∈ Ico 0 T \ F, HasDerivWithinAt Y (φ t) (Ici t) t) {t : ℝ} (ht : t ∈ Ico 0 T) :
    HasDerivWithinAt Y (φ t) (Ici t) t := by
  rw [hasDerivWithinAt_iff_isLittleO, Asymptotics.isLittleO_iff]
  intro c hc
  have h1 := Metric.continuousWithinAt_iff.1 (hφ t ⟨ht.1, ht.2.le⟩) c hc
  obtain ⟨δ, hδ, h1⟩ := h1
  have hmem : Ico t (min (t + δ) T) ∈ 𝓝[Ici t] t :=
    Ico_mem_nhdsGE (lt_min (by linarith) ht.2)
  filter_upwards [hmem] with x hx
  have hxδ : x < t + δ := hx.2.trans_le (min_le_left _ _)
  have hxT : x < T := hx.2.trans_le (min_le_right _ _)
  have h2 := norm_sub_le_except hF (fun x => Y x - (x - t) • φ t) (fun x => φ x - φ t) c t x hx.1
    ((hY.mono (Icc_subset_Icc ht.1 hxT.le)).sub (by fun_prop))
    (fun z hz => by
      have h3 := hd z ⟨⟨ht.1.trans hz.1.1, hz.1.2.trans hxT⟩, hz.2⟩
      have h4 : HasDerivAt (fun x : ℝ => (x - t) • φ t) (φ t) z := by
        simpa using ((hasDerivAt_id z).sub_const t).smul_const (φ t)
      exact h3.sub h4.hasDerivWithinAt)
    (fun z hz => by
      rw [← dist_eq_norm]
      refine (h1 ⟨ht.1.trans hz.1.1, (hz.1.2.trans hxT).le⟩ ?_).le
      rw [Real.dist_eq, abs_of_nonneg (by linarith [hz.1.1])]
      linarith [hz.1.2])
  simp only [sub_self, zero_smul, sub_zero] at h2
  rw [Real.norm_eq_abs, abs_of_nonneg (by linarith [hx.1])]
  refine le_trans (le_of_eq ?_) h2
  congr 1
  abel

theorem additive_apply {ι : Type*} [Fintype ι] [DecidableEq ι] {E : Type*} [NormedAddCommGroup E]
    [NormedSpace ℝ E] (φ : (ι → ℝ) → E) (hadd : ∀ x y, φ (x + y) = φ x + φ y) {K : ℝ}
    (hK : ∀ x, ‖φ x‖ ≤ K * ‖x‖) (x : ι → ℝ) : φ x = ∑ i, x i • φ (Pi.single i 1) := by
  set f : (ι → ℝ) →+ E := AddMonoidHom.mk' φ hadd with hf
  have hc : Continuous f := AddMonoidHomClass.continuous_of_bound f K hK
  have h1 := LinearMap.pi_apply_eq_sum_univ (f.toRealLinearMap hc : (ι → ℝ) →ₗ[ℝ] E) x
  refine Eq.trans h1 (Finset.sum_congr rfl fun i _ => ?_)
  congr 1
  show φ _ = _
  congr 1
  funext j
  simp [Pi.single_apply, eq_comm]

/-- The rate at all times, with a boundary source that is not switched off before `T + 1`. -/
noncomputable def steadyRate (P : Problem) (T t : ℝ) (U : Coefs P.params P.fluxConfig) :
    Coefs P.params P.fluxConfig := fun q =>
  sphereField0 P.params { P.fluxConfig with t0 := T + 1 } t (meshAt P t) (fun _ _ => 0)
    (spread P.params P.fluxConfig U) q.1 q.2.1 q.2.2

theorem steadyRate_eq {P : Problem} {e d : ℕ → ℝ} (h : SphereProblem P e d) (hs : ¬ SourceAsked P)
    {T : ℝ} (hb : P.boundarySource = false ∨ T ≤ P.mesh.t0) {t : ℝ} (ht : t ∈ Icc 0 T)
    (U : Coefs P.params P.fluxConfig) : programRate P t U = steadyRate P T t U := by
  have hsrc : programSource P t = fun _ _ => 0 := by
    funext k i
    simp only [programSource, sourceOf, if_neg hs]
  funext q
  unfold programRate steadyRate
  rw [hsrc]
  refine sphereField0_congr P.params h.directions P.fluxConfig { P.fluxConfig with t0 := T + 1 } (T + 1) t
    rfl (fun k => ?_) _ _ rfl (fun _ _ => rfl) _ _ (fun _ _ _ _ => rfl) _ _ (fun _ _ _ _ _ _ => rfl)
    q.1.2 q.2.1.2 q.2.2.2 q.2.2.2
  rcases hb with hb | hb
  · have : P.fluxConfig.boundarySource = false := hb
    simp [isBoundarySourceOn, this]
  · exact (switch_on P.fluxConfig (t0 := P.mesh.t0) (ht.2.trans hb) k).trans
      (switch_on P.fluxConfig (by linarith [ht.2]) k).symm

/-- Times before `T + 1` at which the edges are in order. -/
def orderedTimes (N : ℕ) (e d : ℕ → ℝ) (T : ℝ) : Set ℝ :=
  Ioo (-1) (T + 1) ∩ ⋂ k ∈ Finset.range N, {t | e k + d k * t < e (k + 1) + d (k + 1) * t}

theorem orderedTimes_open (N : ℕ) (e d : ℕ → ℝ) (T : ℝ) : IsOpen (orderedTimes N e d T) :=
  isOpen_Ioo.inter (isOpen_biInter_finset fun k _ => isOpen_lt (by fun_prop) (by fun_prop))

theorem steadyRate_smooth {P : Problem} {e d : ℕ → ℝ} (h : SphereProblem P e d) (T : ℝ)
    (U : Coefs P.params P.fluxConfig) :
    ContDiffOn ℝ ∞ (fun t => steadyRate P T t U) (orderedTimes P.mesh.N e d T) := by
  have hl := fun t => meshAt_linear h.mesh t
  have hm : ∀ t ∈ orderedTimes P.mesh.N e d T, ∀ k < P.mesh.N,
      (meshAt P t).edges k < (meshAt P t).edges (k + 1) := by
    intro t ht k hk
    rw [(hl t).1 k hk.le, (hl t).1 (k + 1) hk]
    exact mem_iInter₂.1 ht.2 k (Finset.mem_range.2 hk)
  have he : ∀ k ≤ P.mesh.N, ContDiffOn ℝ ∞ (fun t => (meshAt P t).edges k)
      (orderedTimes P.mesh.N e d T) := by
    intro k hk
    have : (fun s => (meshAt P s).edges k) = fun s => e k + d k * s :=
      funext fun s => (hl s).1 k hk
    rw [this]
    fun_prop
  refine contDiffOn_pi.2 fun q => ?_
  unfold steadyRate sphereField0
  refine ContDiffOn.sub (ContDiffOn.add (ContDiffOn.sum fun j _ => ?_) contDiffOn_const)
    contDiffOn_const
  refine (contDiffOn_massInv (he q.2.1 q.2.1.2.le) (he (q.2.1 + 1) q.2.1.2)
    (fun t ht => hm t ht q.2.1 q.2.1.2) _ _ j).mul ?_
  exact contDiffOn_sphereFlow P.params { P.fluxConfig with t0 := T + 1 } h.sphere contDiffOn_id
    (Or.inr fun t ht => by have := ht.1.1; simp only [id]; linarith)
    (fun k => isBoundarySourceOn { P.fluxConfig with t0 := 0 } k 0)
    (fun t ht k => switch_on P.fluxConfig ht.1.2.le k) hm he d (fun k hk t _ => (hl t).2 k hk)
    (fun _ _ _ _ => contDiffOn_const) _ _ q.2.1.2 (Nat.lt_succ_iff.1 j.2)

theorem steadyRate_sub {P : Problem} {e d : ℕ → ℝ} (h : SphereProblem P e d) (T : ℝ) {t : ℝ}
    (ht : 0 ≤ t) (U W : Coefs P.params P.fluxConfig) : steadyRate P T t U - steadyRate P T t W =
      sphereOp P.params { P.fluxConfig with t0 := T + 1 } (meshAt P) t (U - W) := by
  obtain ⟨m1, m2, -⟩ := programMesh_at h.toSphereSetup ht
  funext j
  have h1 := sphereField0_sub P.params { P.fluxConfig with t0 := T + 1 } h.sphere h.order t (meshAt P t)
    m1 m2 (fun _ _ => 0) (spread P.params P.fluxConfig U) (spread P.params P.fluxConfig W) j.1 j.2.1
    j.2.2 j.2.1.2
  have e : (fun l k i => spread P.params P.fluxConfig U l k i - spread P.params P.fluxConfig W l k i)
      = spread P.params P.fluxConfig (U - W) := by
    funext l k i; rw [spread_sub]
  rw [e] at h1
  exact h1

/-- The linear part as an operator that is defined at all times. -/
noncomputable def steadyOp (P : Problem) (T t : ℝ) :
    Coefs P.params P.fluxConfig →L[ℝ] Coefs P.params P.fluxConfig :=
  ∑ q, (ContinuousLinearMap.proj (R := ℝ) (φ := fun _ => ℝ) q).smulRight
    (steadyRate P T t (Pi.single q 1) - steadyRate P T t 0)

theorem steadyOp_smooth {P : Problem} {e d : ℕ → ℝ} (h : SphereProblem P e d) (T : ℝ) :
    ContDiffOn ℝ ∞ (steadyOp P T) (orderedTimes P.mesh.N e d T) :=
  ContDiffOn.sum fun _ _ => contDiffOn_const.smulRight
    ((steadyRate_smooth h T _).sub (steadyRate_smooth h T _))

theorem steadyOp_apply {P : Problem} {e d : ℕ → ℝ} (h : SphereProblem P e d) {T t : ℝ}
    (ht : t ∈ Icc 0 T) (U : Coefs P.params P.fluxConfig) :
    steadyRate P T t U = steadyOp P T t U + steadyRate P T t 0 := by
  have hl := fun t => meshAt_linear h.mesh t
  obtain ⟨K, hK⟩ := sphereOp_bound P.params { P.fluxConfig with t0 := T + 1 } h.sphere h.order 0 T
    (meshAt P) (fun s hs => (programMesh_at h.toSphereSetup hs.1).1)
    (fun s hs => (programMesh_at h.toSphereSetup hs.1).2.1)
    (fun k hk => by
      have : (fun s => (meshAt P s).edges k) = fun s => e k + d k * s :=
        funext fun s => (hl s).1 k hk
      rw [this]
      fun_prop)
    (fun k hk => by
      have : (fun s => (meshAt P s).Dedges k) = fun _ => d k := funext fun s => (hl s).2 k hk
      rw [this]
      exact continuousOn_const)
  have hsub := steadyRate_sub h T ht.1
  set φ : Coefs P.params P.fluxConfig → Coefs P.params P.fluxConfig := fun D =>
    steadyRate P T t D - steadyRate P T t 0 with hφ
  have hφ' : ∀ D, φ D = sphereOp P.params { P.fluxConfig with t0 := T + 1 } (meshAt P) t D := by
    intro D
    rw [hφ]
    simp only
    rw [hsub D 0, sub_zero]
  have hadd : ∀ x y, φ (x + y) = φ x + φ y := by
    intro x y
    have h1 := hsub (x + y) y
    rw [add_sub_cancel_right, ← hφ'] at h1
    rw [← h1]
    simp only [hφ]
    abel
  have h2 := additive_apply φ hadd (K := K) (fun D => by rw [hφ']; exact hK t ht D) U
  rw [← sub_eq_iff_eq_add]
  refine h2.trans ?_
  rw [steadyOp, sum_apply]
  rfl

/-! ### C127 -/

theorem program_linearSolution {P : Problem} {e d : ℕ → ℝ} (h : SphereProblem P e d)
    (hs : ¬ SourceAsked P) {T : ℝ} (hb : P.boundarySource = false ∨ T ≤ P.mesh.t0)
    {F : Set ℝ} (hF : F.Finite) {V : ℝ → StateVec} (hV : ProgramSolutionOn P 0 T F V) :
    ∃ G, LinearSolution T (programRate P) (steadyOp P T) (deriv (steadyOp P T)) G ∧
      ∀ t, G 0 t = unknowns P (V t) := by
  have hsub : Icc 0 T ⊆ orderedTimes P.mesh.N e d T := fun t ht =>
    ⟨⟨by linarith [ht.1], by linarith [ht.2]⟩, mem_iInter₂.2 fun k hk =>
      h.mesh.ordered t ht.1 k (Finset.mem_range.1 hk)⟩
  have hrate : ∀ t ∈ Icc 0 T, ∀ y, programRate P t y = steadyOp P T t y + steadyRate P T t 0 :=
    fun t ht y => (steadyRate_eq h hs hb ht y).trans (steadyOp_apply h ht y)
  have hA := steadyOp_smooth h T
  have hg := steadyRate_smooth h T 0
  have hYc : ContinuousOn (fun t => unknowns P (V t)) (Icc 0 T) := continuousOn_pi.2 fun q =>
    hV.1 q.1 q.1.2 q.2.1 q.2.1.2 q.2.2 (Nat.lt_succ_iff.1 q.2.2.2)
  have hφ : ContinuousOn (fun t => programRate P t (unknowns P (V t))) (Icc 0 T) :=
    (((hA.continuousOn.mono hsub).clm_apply hYc).add (hg.continuousOn.mono hsub)).congr
      fun t ht => hrate t ht _
  have hsol := (programSolution_iff h 0 T F V).1 hV
  have hY : ∀ t ∈ Ico 0 T \ F, HasDerivWithinAt (fun t => unknowns P (V t))
      (programRate P t (unknowns P (V t))) (Ici t) t := by
    intro t ht
    obtain ⟨m1, m2, m3⟩ := programMesh_at h.toSphereSetup ht.1.1
    refine hasDerivWithinAt_pi.2 fun q => ?_
    rw [programRate_gather h]
    exact hsol.rate h.sphere h.order ht m1 m2 m3 q.1.2 q.2.1.2 q.2.2.2
  refine ⟨_, linearSolution_of_smooth (orderedTimes_open _ _ _ _) hsub hA hg hrate hYc
    (fun t ht => hasDeriv_of_except hF hYc hφ hY ht), fun t => ?_⟩
  simp [derivPair]

theorem order_of_step {P : Problem} {e d : ℕ → ℝ} (h : SphereProblem P e d) {τ : Tableau}
    (hτ : UsableMethod τ) {T : ℝ} {V : ℝ → StateVec} {m : ℕ}
    (hstep : Small T (m + 1) fun x => rkAdvance τ (programRate P) x.1 x.2 (unknowns P (V x.1)) -
      unknowns P (V (x.1 + x.2))) :
    ∃ C, ∃ η₀ > 0, ∀ (y0 : StateVec) (es : List Event) (x : StepState) (δ η : ℝ), 0 ≤ δ → 0 ≤ η → η ≤ η₀ →
      (∀ s ∈ acceptedSteps es, 0 ≤ s ∧ s ≤ η) → StatesWithin P y0 (V 0) δ →
      P.integrate τ y0 es = some x → x.t ≤ T → StatesWithin P x.y (V x.t) (C * (δ + η ^ m)) := by
  obtain ⟨α, hα⟩ := hτ.bound
  obtain ⟨L, hL0, hL⟩ := programRate_lipschitz h T
  obtain ⟨C, hC0, η₀, hη₀, hC⟩ := rkRun_order hα hL0 hL (Y := fun t => unknowns P (V t)) hstep
  have hLα : 0 ≤ 2 * L * α := by have := hα.pos; positivity
  refine ⟨Real.exp (2 * L * α * T) * max 1 (C * T), η₀, hη₀, ?_⟩
  intro y0 es x δ η hδ hη0 hη hes hy0 hx hxT
  obtain ⟨h1, h2⟩ := integrate_unknowns h hτ (fun s hs => (hes s hs).1) hx
  have hsum0 : 0 ≤ (acceptedSteps es).sum := List.sum_nonneg fun s hs => (hes s hs).1
  rw [h1] at hxT
  have hT0 : 0 ≤ T := hsum0.trans hxT
  have h3 := hC (acceptedSteps es) η 0 (unknowns P y0) le_rfl hη hes (by rw [zero_add]; exact hxT)
  rw [zero_add, ← h2, ← h1] at h3
  have hmax : 1 ≤ max 1 (C * T) := le_max_left _ _
  have hηm : 0 ≤ η ^ m := by positivity
  rw [statesWithin_iff P _ _ (by positivity)]
  refine h3.trans ?_
  have h4 := (statesWithin_iff P _ _ hδ).1 hy0
  have h5 : Real.exp (2 * L * α * x.t) ≤ Real.exp (2 * L * α * T) := by
    rw [Real.exp_le_exp, h1]
    gcongr
  have h6 : ‖unknowns P y0 - unknowns P (V 0)‖ + C * x.t * η ^ m ≤ max 1 (C * T) * (δ + η ^ m) := by
    have a1 : C * x.t ≤ max 1 (C * T) := by
      refine le_trans ?_ (le_max_right _ _)
      rw [h1]
      gcongr
    have a2 : C * x.t * η ^ m ≤ max 1 (C * T) * η ^ m := by gcongr
    have a3 : δ ≤ max 1 (C * T) * δ := le_mul_of_one_le_left hδ hmax
    rw [mul_add]
    linarith
  have hx0 : 0 ≤ x.t := by rw [h1]; exact hsum0
  calc _ ≤ Real.exp (2 * L * α * T) * (max 1 (C * T) * (δ + η ^ m)) :=
        mul_le_mul h5 h6 (by positivity) (Real.exp_pos _).le
    _ = _ := by ring

/-- C127: on sphere runs without source `RK45` is of fifth order: with accepted steps of at most `η` the
state is within `C η⁵` of the solution of the equations of the program, at every time up to `T`, plus
what the initial states differ by.  A boundary source may act, as long as it is not switched off before
`T`; steps may be rejected and the sizes may vary. -/
theorem c127_rk45_order {P : Problem} {e d : ℕ → ℝ} (h : SphereProblem P e d)
    (hs : ¬ SourceAsked P) {T : ℝ} (hb : P.boundarySource = false ∨ T ≤ P.mesh.t0)
    {F : Set ℝ} (hF : F.Finite) {V : ℝ → StateVec} (hV : ProgramSolutionOn P 0 T F V) :
    ∃ C, ∃ η₀ > 0, ∀ (y0 : StateVec) (es : List Event) (x : StepState) (δ η : ℝ), 0 ≤ δ → 0 ≤ η → η ≤ η₀ →
      (∀ s ∈ acceptedSteps es, 0 ≤ s ∧ s ≤ η) → StatesWithin P y0 (V 0) δ →
      P.integrate rk45 y0 es = some x → x.t ≤ T → StatesWithin P x.y (V x.t) (C * (δ + η ^ 5)) := by
  obtain ⟨G, hG, hG0⟩ := program_linearSolution h hs hb hF hV
  refine order_of_step h rk45_usable ((fifth_order_step rk45_fifth hG).congr fun x _ => ?_)
  rw [hG0, hG0]

/-- C127: in the same setting `RK23` is of third order. -/
theorem c127_rk23_order {P : Problem} {e d : ℕ → ℝ} (h : SphereProblem P e d)
    (hs : ¬ SourceAsked P) {T : ℝ} (hb : P.boundarySource = false ∨ T ≤ P.mesh.t0)
    {F : Set ℝ} (hF : F.Finite) {V : ℝ → StateVec} (hV : ProgramSolutionOn P 0 T F V) :
    ∃ C, ∃ η₀ > 0, ∀ (y0 : StateVec) (es : List Event) (x : StepState) (δ η : ℝ), 0 ≤ δ → 0 ≤ η → η ≤ η₀ →
      (∀ s ∈ acceptedSteps es, 0 ≤ s ∧ s ≤ η) → StatesWithin P y0 (V 0) δ →
      P.integrate rk23 y0 es = some x → x.t ≤ T → StatesWithin P x.y (V x.t) (C * (δ + η ^ 3)) := by
  obtain ⟨G, hG, hG0⟩ := program_linearSolution h hs hb hF hV
  refine order_of_step h rk23_usable ((third_order_step rk23_third hG).congr fun x _ => ?_)
  rw [hG0, hG0]

/-! ### C127: output between the steps -/

theorem rk45_dense_moments : DenseMoments rk45 rk45Dense 4 := by
  intro p hp q hq
  interval_cases p <;> interval_cases q <;>
    norm_num [Tableau.node, rk45, rk45Dense, Finset.sum_range_succ]

theorem rk45_dense_one {p : ℕ} (hp : p < 4) : rk45Dense 1 p = 0 := by
  interval_cases p <;> norm_num [rk45Dense]

theorem rk45_dense_stage {p : ℕ} (hp : p < 4) :
    ∑ i ∈ Finset.range (rk45.n + 1), rk45Dense i p * stageOne rk45 i = 0 := by
  interval_cases p <;>
    norm_num [stageOne, Tableau.row, rk45, rk45Dense, Finset.sum_range_succ]

/-- What an attempted step leaves for the dense output. -/
theorem dense_unknowns {P : Problem} {e d : ℕ → ℝ} (h : SphereProblem P e d) {τ : Tableau}
    (hτ : UsableMethod τ) {y0 : StateVec} {es : List Event} (hpos : ∀ s ∈ acceptedSteps es, 0 ≤ s)
    {x : StepState} (hx : P.integrate τ y0 es = some x) {s : ℝ} (hs : 0 ≤ s) {o : Objects}
    {K : ℕ → StateVec} (hK : P.rkStep τ x s = some (o, K)) (w : ℕ → ℝ) :
    unknowns P (combine x.y s w K (τ.n + 1)) = rkCombine τ (programRate P) x.t s (unknowns P x.y) w := by
  have hf := steady_of_constant h.opacity
  obtain ⟨z, h1, h2, h3⟩ := integrate_reached h.toSphereSetup hf τ y0 es
  obtain rfl := Option.some_inj.1 (hx.symm.trans h1)
  have hx0 : 0 ≤ x.t := by
    rw [(integrate_unknowns h hτ hpos hx).1]
    exact List.sum_nonneg hpos
  obtain ⟨-, h5⟩ := pureRun_rate h hτ (acceptedSteps es) hpos (0, y0, evaluation P 0 y0) le_rfl
    (evaluation_rate h le_rfl y0)
  rw [← h3] at h5
  obtain ⟨o', h8, -⟩ := stageLoop_reached h.toSphereSetup hf τ x.t s x.y x.f h2 τ.n
  have h9 : (o, K) = (o', pureStages P τ x.t s x.y x.f τ.n) := Option.some_inj.1 (hK.symm.trans h8)
  obtain rfl : K = _ := congrArg Prod.snd h9
  rw [unknowns_combine, rkCombine, ← h5]
  congr 2
  exact Finset.sum_congr rfl fun j _ => by rw [pureStages_rate h hτ hx0 hs _ _ _ le_rfl]

/-- C127: the dense output of `RK45`, from which `solve_ivp` answers `t_eval` (main_functions.py 183),
is as accurate as the states at the ends of the steps: within `C η⁵` of the solution at every time
inside a step. -/
theorem c127_rk45_dense_order {P : Problem} {e d : ℕ → ℝ} (h : SphereProblem P e d)
    (hs : ¬ SourceAsked P) {T : ℝ} (hb : P.boundarySource = false ∨ T ≤ P.mesh.t0)
    {F : Set ℝ} (hF : F.Finite) {V : ℝ → StateVec} (hV : ProgramSolutionOn P 0 T F V) :
    ∃ C, ∃ η₀ > 0, ∀ (y0 : StateVec) (es : List Event) (x : StepState) (δ η : ℝ), 0 ≤ δ → 0 ≤ η → η ≤ η₀ →
      (∀ s ∈ acceptedSteps es, 0 ≤ s ∧ s ≤ η) → StatesWithin P y0 (V 0) δ →
      P.integrate rk45 y0 es = some x → ∀ s, 0 ≤ s → s ≤ η → x.t + s ≤ T →
      ∀ o K, P.rkStep rk45 x s = some (o, K) → ∀ θ ∈ Icc (0 : ℝ) 1,
        StatesWithin P (Problem.denseOutput rk45 rk45Dense 4 x s K θ) (V (x.t + θ * s))
          (C * (δ + η ^ 5)) := by
  obtain ⟨G, hG, hG0⟩ := program_linearSolution h hs hb hF hV
  obtain ⟨C₁, η₁, hη₁, h1⟩ := c127_rk45_order h hs hb hF hV
  obtain ⟨C₂, hC₂, h2⟩ := dense_exact rk45_fifth.nodes hG rk45_dense_moments le_rfl fun p hp =>
    fifth_order_dense rk45_fifth hG (w := fun i => rk45Dense i p) (rk45_dense_one hp)
      (rk45_dense_stage hp)
  obtain ⟨α, hα⟩ := rk45_usable.bound
  obtain ⟨L, hL0, hL⟩ := programRate_lipschitz h T
  have hα0 := hα.pos
  set β := ∑ i ∈ Finset.range (rk45.n + 1), ∑ p ∈ Finset.range 4, |rk45Dense i p| with hβ
  have hβ0 : 0 ≤ β := Finset.sum_nonneg fun i _ => Finset.sum_nonneg fun p _ => abs_nonneg _
  have hC₁ : 0 ≤ max C₁ 0 := le_max_right _ _
  refine ⟨(1 + 2 * L * β) * max C₁ 0 + C₂, min η₁ (min 1 (1 / (2 * (L * α) + 1))), by positivity, ?_⟩
  intro y0 es x δ η hδ hη0 hη hes hy0 hx s hs0 hsη hsT o K hK θ hθ
  have hη1 : η ≤ η₁ := hη.trans (min_le_left _ _)
  have hs1 : s ≤ 1 := hsη.trans (hη.trans ((min_le_right _ _).trans (min_le_left _ _)))
  have hs2 : s ≤ 1 / (2 * (L * α) + 1) :=
    hsη.trans (hη.trans ((min_le_right _ _).trans (min_le_right _ _)))
  have hsm : L * α * s ≤ 1 / 2 := by
    rw [le_div_iff₀ (by positivity)] at hs2
    nlinarith [mul_nonneg hL0 hα0]
  have hx0 : 0 ≤ x.t := by
    rw [(integrate_unknowns h rk45_usable (fun s hs => (hes s hs).1) hx).1]
    exact List.sum_nonneg fun s hs => (hes s hs).1
  have h3 := h1 y0 es x δ η hδ hη0 hη1 hes hy0 hx (by linarith)
  have hr : 0 ≤ δ + η ^ 5 := by positivity
  have h3' : ‖unknowns P x.y - unknowns P (V x.t)‖ ≤ max C₁ 0 * (δ + η ^ 5) := by
    have h4 : StatesWithin P x.y (V x.t) (max C₁ 0 * (δ + η ^ 5)) := fun l hl k hk i hi =>
      (h3 l hl k hk i hi).trans (mul_le_mul_of_nonneg_right (le_max_left _ _) hr)
    exact (statesWithin_iff P _ _ (by positivity)).1 h4
  rw [statesWithin_iff P _ _ (by positivity), Problem.denseOutput,
    dense_unknowns h rk45_usable (fun s hs => (hes s hs).1) hx hs0 hK]
  have h5 := rkCombine_stability hα hL0 hL hx0 hs0 hsT hsm (unknowns P x.y) (unknowns P (V x.t))
    (dense_weights_bound (rk45.n + 1) rk45Dense 4 hθ)
  have h6 := h2 (x.t, s) ⟨hx0, hs0, hs1, hsT⟩ θ hθ
  simp only [hG0] at h6
  set A := rkCombine rk45 (programRate P) x.t s (unknowns P x.y)
    (fun i => ∑ p ∈ Finset.range 4, rk45Dense i p * θ ^ (p + 1))
  set B := rkCombine rk45 (programRate P) x.t s (unknowns P (V x.t))
    (fun i => ∑ p ∈ Finset.range 4, rk45Dense i p * θ ^ (p + 1))
  have h7 : ‖A - unknowns P (V (x.t + θ * s))‖ ≤ ‖A - B‖ + ‖B - unknowns P (V (x.t + θ * s))‖ := by
    have := norm_add_le (A - B) (B - unknowns P (V (x.t + θ * s)))
    rwa [sub_add_sub_cancel] at this
  have h8 : (1 + 2 * L * β * s) * ‖unknowns P x.y - unknowns P (V x.t)‖ ≤
      (1 + 2 * L * β) * (max C₁ 0 * (δ + η ^ 5)) := by
    refine mul_le_mul ?_ h3' (norm_nonneg _) (by positivity)
    have : 2 * L * β * s ≤ 2 * L * β * 1 := by gcongr
    linarith
  have h9 : C₂ * s ^ (4 + 1) ≤ C₂ * (δ + η ^ 5) := by
    have : s ^ (4 + 1) ≤ η ^ 5 := pow_le_pow_left₀ hs0 hsη 5
    gcongr
    linarith
  rw [← hβ] at h5
  calc _ ≤ (1 + 2 * L * β) * (max C₁ 0 * (δ + η ^ 5)) + C₂ * (δ + η ^ 5) := by linarith
    _ = _ := by ring

/-! ### C127: the order is not better -/

theorem rk45_factor_lower {z : ℝ} (hz : 0 ≤ z) (hz1 : z ≤ 1) :
    1 + z ^ 6 / 1000 ≤ rk45Factor z ^ 2 := by
  unfold rk45Factor
  have hden : 0 < (1 + 1 / 5 * z) * (1 + 3 / 10 * z) * (1 + 4 / 5 * z) * (1 + 8 / 9 * z) * (1 + z) := by
    positivity
  rw [factor_sq hz, div_pow, ← mul_div_assoc, le_div_iff₀ (by positivity)]
  have e : (1 + z) ^ 5 * (1 + 31 / 45 * z + 373 / 1800 * z ^ 2 - 56 / 1125 * z ^ 3
      + 8531 / 144000 * z ^ 4 - 8881 / 144000 * z ^ 5 + 8849 / 69120 * z ^ 6) ^ 2
      - ((1 + 1 / 5 * z) * (1 + 3 / 10 * z) * (1 + 4 / 5 * z) * (1 + 8 / 9 * z) * (1 + z)) ^ 2 =
      z ^ 6 * (8911 / 69120 + 1343513 / 1555200 * z + 392930293 / 165888000 * z ^ 2
        + 8615294981 / 2488320000 * z ^ 3 + 72694936261 / 24883200000 * z ^ 4
        + 11107100989 / 7776000000 * z ^ 5 + 1149910051801 / 2985984000000 * z ^ 6
        + 227553047813 / 2985984000000 * z ^ 7 + 120629924201 / 1492992000000 * z ^ 8
        + 155146590917 / 1492992000000 * z ^ 9 + 7901988869 / 119439360000 * z ^ 10
        + 78304801 / 4777574400 * z ^ 11) := by ring
  have hd : (1 + 1 / 5 * z) * (1 + 3 / 10 * z) * (1 + 4 / 5 * z) * (1 + 8 / 9 * z) * (1 + z) ≤ 11 := by
    calc _ ≤ (1 + 1 / 5 * 1) * (1 + 3 / 10 * 1) * (1 + 4 / 5 * 1) * (1 + 8 / 9 * 1) * (1 + (1 : ℝ)) := by
          gcongr
      _ ≤ 11 := by norm_num
  have h2 : 8911 / 69120 ≤ 8911 / 69120 + 1343513 / 1555200 * z
        + 392930293 / 165888000 * z ^ 2
        + 8615294981 / 2488320000 * z ^ 3 + 72694936261 / 24883200000 * z ^ 4
        + 11107100989 / 7776000000 * z ^ 5 + 1149910051801 / 2985984000000 * z ^ 6
        + 227553047813 / 2985984000000 * z ^ 7 + 120629924201 / 1492992000000 * z ^ 8
        + 155146590917 / 1492992000000 * z ^ 9 + 7901988869 / 119439360000 * z ^ 10
        + 78304801 / 4777574400 * z ^ 11 := by
    simp only [add_assoc, le_add_iff_nonneg_right]
    positivity
  have h3 : 0 ≤ z ^ 6 := by positivity
  revert e hd h2
  generalize (1 + 1 / 5 * z) * (1 + 3 / 10 * z) * (1 + 4 / 5 * z) * (1 + 8 / 9 * z) * (1 + z) = D at hden ⊢
  generalize 8911 / 69120 + 1343513 / 1555200 * z
        + 392930293 / 165888000 * z ^ 2
        + 8615294981 / 2488320000 * z ^ 3 + 72694936261 / 24883200000 * z ^ 4
        + 11107100989 / 7776000000 * z ^ 5 + 1149910051801 / 2985984000000 * z ^ 6
        + 227553047813 / 2985984000000 * z ^ 7 + 120629924201 / 1492992000000 * z ^ 8
        + 155146590917 / 1492992000000 * z ^ 9 + 7901988869 / 119439360000 * z ^ 10
        + 78304801 / 4777574400 * z ^ 11 = q
  generalize (1 + z) ^ 5 * (1 + 31 / 45 * z + 373 / 1800 * z ^ 2 - 56 / 1125 * z ^ 3
      + 8531 / 144000 * z ^ 4 - 8881 / 144000 * z ^ 5 + 8849 / 69120 * z ^ 6) ^ 2 = B
  generalize z ^ 6 = w at h3 ⊢
  intro e hd h2
  have hd2 : D ^ 2 ≤ 11 ^ 2 := pow_le_pow_left₀ hden.le hd 2
  have h1 : w / 1000 * D ^ 2 ≤ w / 1000 * 11 ^ 2 := by gcongr
  have h4 : w * (8911 / 69120) ≤ w * q := by gcongr
  linarith

theorem rk23_factor_upper {z : ℝ} (hz : 0 ≤ z) (hz1 : z ≤ 4 / 5) :
    rk23Factor z ^ 2 * (1 + z ^ 4 / 2) ≤ 1 := by
  unfold rk23Factor
  have hden : 0 < 4 * (2 + z) * (4 + 3 * z) := by positivity
  rw [factor_sq hz, div_pow, ← mul_div_assoc, div_mul_eq_mul_div, div_le_one (by positivity)]
  have e : (4 * (2 + z) * (4 + 3 * z)) ^ 2 - (1 + z) ^ 5 * ((4 - 5 * z) * (8 + 13 * z ^ 2)) ^ 2 =
      z ^ 4 * (5040 + 12936 * z + 11655 * z ^ 2 + 4107 * z ^ 3 - 5850 * z ^ 4 - 16354 * z ^ 5
        - 14365 * z ^ 6 - 4225 * z ^ 7) := by ring
  have h5 : z ^ 5 ≤ 4 / 5 * z ^ 4 := by rw [pow_succ]; nlinarith [pow_nonneg hz 4]
  have h4 : z ^ 4 ≤ 4 / 5 * z ^ 3 := by rw [pow_succ]; nlinarith [pow_nonneg hz 3]
  have h3 : z ^ 3 ≤ 4 / 5 * z ^ 2 := by rw [pow_succ]; nlinarith [pow_nonneg hz 2]
  have h2 : z ^ 2 ≤ 4 / 5 * z := by rw [pow_succ]; nlinarith
  have h6 : z ^ 6 ≤ 4 / 5 * z ^ 5 := by rw [pow_succ]; nlinarith [pow_nonneg hz 5]
  have h7 : z ^ 7 ≤ 4 / 5 * z ^ 6 := by rw [pow_succ]; nlinarith [pow_nonneg hz 6]
  have hq : 5040 ≤ 5040 + 12936 * z + 11655 * z ^ 2 + 4107 * z ^ 3 - 5850 * z ^ 4 - 16354 * z ^ 5
        - 14365 * z ^ 6 - 4225 * z ^ 7 := by linarith
  set q := 5040 + 12936 * z + 11655 * z ^ 2 + 4107 * z ^ 3 - 5850 * z ^ 4 - 16354 * z ^ 5
        - 14365 * z ^ 6 - 4225 * z ^ 7
  have hA : (4 * (2 + z) * (4 + 3 * z)) ^ 2 ≤ 5200 := by
    have : 4 * (2 + z) * (4 + 3 * z) ≤ 72 := by nlinarith
    nlinarith
  set B := (1 + z) ^ 5 * ((4 - 5 * z) * (8 + 13 * z ^ 2)) ^ 2
  have h8 : 0 ≤ z ^ 4 := by positivity
  have h9 : 0 ≤ z ^ 4 * q := mul_nonneg h8 (by linarith)
  have hB : B ≤ 5200 := by linarith
  have h10 : z ^ 4 * 5040 ≤ z ^ 4 * q := by gcongr
  have h11 : z ^ 4 * B ≤ z ^ 4 * 5200 := by gcongr
  nlinarith

theorem acceptedSteps_replicate (n : ℕ) (s : ℝ) :
    acceptedSteps (List.replicate n (.step s true)) = List.replicate n s := by
  induction n with
  | zero => rfl
  | succ n ih => rw [List.replicate_succ, List.replicate_succ, acceptedSteps, ih]

/-- Equal steps over `[0, T]`: where the run is and that no step was longer than its share. -/
theorem replicate_time {P : Problem} {e d : ℕ → ℝ} (h : SphereProblem P e d) {τ : Tableau}
    (hτ : UsableMethod τ) {y0 : StateVec} {n : ℕ} {s : ℝ} (hs : 0 ≤ s) {x : StepState}
    (hx : P.integrate τ y0 (List.replicate n (.step s true)) = some x) : x.t = n * s := by
  have := (integrate_unknowns h hτ (fun r hr => by
    rw [acceptedSteps_replicate] at hr
    rw [(List.mem_replicate.1 hr).2]; exact hs) hx).1
  rw [this, acceptedSteps_replicate, List.sum_replicate, nsmul_eq_mul]

/-- A quantity multiplied at every step by a factor that is known below. -/
theorem number_replicate {P : Problem} {R0 v : ℝ} (h : NumberSetting P R0 v) {τ : Tableau}
    (hτ : UsableMethod τ) (hv : 0 ≤ v) {ρ : ℝ → ℝ} {y0 : StateVec} {s T : ℝ} (hs : 0 ≤ s)
    (hstep : ∀ (n : ℕ) (x x' : StepState), P.integrate τ y0 (List.replicate n (.step s true)) = some x →
      P.integrate τ y0 (List.replicate n (.step s true) ++ [.step s true]) = some x' →
      programTotal P x'.t x'.y = ρ (s * v / (R0 + v * x.t)) * programTotal P x.t x.y)
    {κ : ℝ} (hκ : 0 ≤ κ) (up : Prop)
    (hup : up → ∀ z, s * v / (R0 + v * T) ≤ z → z ≤ s * v / R0 → κ ≤ ρ z ^ 2)
    (hdown : ¬ up → ∀ z, s * v / (R0 + v * T) ≤ z → z ≤ s * v / R0 → ρ z ^ 2 * κ ≤ 1) :
    ∀ (n : ℕ) (x : StepState), n * s ≤ T →
      P.integrate τ y0 (List.replicate n (.step s true)) = some x →
      (up → κ ^ n * programTotal P 0 y0 ^ 2 ≤ programTotal P x.t x.y ^ 2) ∧
      (¬ up → κ ^ n * programTotal P x.t x.y ^ 2 ≤ programTotal P 0 y0 ^ 2) := by
  intro n
  induction n with
  | zero =>
    intro x _ hx
    have ht := replicate_time h.problem hτ hs hx
    obtain ⟨-, h2⟩ := integrate_unknowns h.problem hτ (fun r hr => absurd hr List.not_mem_nil) hx
    have h2 : unknowns P x.y = unknowns P y0 := h2
    have ht : x.t = 0 := by rw [ht]; simp
    have : programTotal P x.t x.y = programTotal P 0 y0 := by
      rw [ht, programTotal_even h le_rfl, programTotal_even h le_rfl, h2]
    rw [this, pow_zero, one_mul]
    exact ⟨fun _ => le_rfl, fun _ => le_rfl⟩
  | succ n ih =>
    intro x' hn hx'
    obtain ⟨x, hx, -⟩ := c125_never_fails h.problem.toSphereSetup
      (steady_of_constant h.problem.opacity) τ y0 (List.replicate n (.step s true))
    push_cast at hn
    have hn' : n * s ≤ T := by linarith
    have ht := replicate_time h.problem hτ hs hx
    obtain ⟨i1, i2⟩ := ih x hn' hx
    rw [List.replicate_succ'] at hx'
    have h3 := hstep n x x' hx hx'
    have hx0 : 0 ≤ x.t := by rw [ht]; positivity
    have hR0 : 0 < R0 := by simpa using h.radius le_rfl
    have hRx := h.radius hx0
    have l1 : s * v / (R0 + v * T) ≤ s * v / (R0 + v * x.t) := by
      have : x.t ≤ T := by rw [ht]; exact hn'
      gcongr
    have l2 : s * v / (R0 + v * x.t) ≤ s * v / R0 := by
      have : 0 ≤ v * x.t := by positivity
      gcongr
      linarith
    rw [h3, mul_pow]
    refine ⟨fun hu => ?_, fun hu => ?_⟩
    · calc κ ^ (n + 1) * programTotal P 0 y0 ^ 2 = κ * (κ ^ n * programTotal P 0 y0 ^ 2) := by ring
        _ ≤ _ := mul_le_mul (hup hu _ l1 l2) (i1 hu) (by positivity) (sq_nonneg _)
    · calc κ ^ (n + 1) * (ρ (s * v / (R0 + v * x.t)) ^ 2 * programTotal P x.t x.y ^ 2)
          = ρ (s * v / (R0 + v * x.t)) ^ 2 * κ * (κ ^ n * programTotal P x.t x.y ^ 2) := by ring
        _ ≤ 1 * (κ ^ n * programTotal P x.t x.y ^ 2) := by
            refine mul_le_mul_of_nonneg_right (hdown hu _ l1 l2) (by positivity)
        _ ≤ _ := by rw [one_mul]; exact i2 hu

/-- From the squares to the numbers. -/
theorem sq_gain {a b k w W : ℝ} (hb : 0 ≤ b) (hk : 0 ≤ k) (hw : 0 ≤ w) (hW : w ≤ W)
    (h : (1 + k * w) * a ^ 2 ≤ b ^ 2) : (1 + k / (2 + k * W) * w) * a ≤ b := by
  have hW0 : 0 ≤ W := hw.trans hW
  refine le_of_sq_le_sq ?_ hb
  rw [mul_pow]
  refine le_trans (mul_le_mul_of_nonneg_right ?_ (sq_nonneg a)) h
  have h1 : k / (2 + k * W) * (2 + k * W) = k := div_mul_cancel₀ _ (by positivity)
  set c := k / (2 + k * W)
  have hc : 0 ≤ c := by positivity
  have hck : c ≤ k := by nlinarith [mul_nonneg hc (mul_nonneg hk hW0)]
  have h2 : c * c * w ≤ c * k * W := by
    have : c * c * w ≤ c * k * w := by gcongr
    have : c * k * w ≤ c * k * W := by gcongr
    linarith
  nlinarith [mul_nonneg hw hc]

/-- C127: with scattering ratio one the equations conserve the particle number; `n` equal steps of
`RK45` over a fixed time have multiplied it by at least `1 + c η⁵`. -/
theorem c127_rk45_number_gain {P : Problem} {R0 v : ℝ} (h : NumberSetting P R0 v) (hσ : P.sigmaS = 1)
    (hv : 0 < v) {T : ℝ} (hT : 0 < T) :
    ∃ c > 0, ∃ η₀ > 0, ∀ (n : ℕ) (η : ℝ), 0 ≤ η → η ≤ η₀ → n * η = T → ∀ (y0 : StateVec) (x : StepState),
      0 < programTotal P 0 y0 → P.integrate rk45 y0 (List.replicate n (.step η true)) = some x →
      (1 + c * η ^ 5) * programTotal P 0 y0 ≤ programTotal P x.t x.y := by
  have hR0 : 0 < R0 := by simpa using h.radius le_rfl
  have hRT := h.radius hT.le
  set k := (v / (R0 + v * T)) ^ 6 / 1000 * T with hk
  have hk0 : 0 < k := by positivity
  set η₀ := R0 / v with hη₀
  have hη₀0 : 0 < η₀ := by positivity
  refine ⟨k / (2 + k * η₀ ^ 5), by positivity, η₀, hη₀0, ?_⟩
  intro n η hη hη1 hn y0 x hy hx
  have hpos : ∀ m, ∀ s ∈ acceptedSteps (List.replicate m (.step η true)), 0 ≤ s := fun m s hs => by
    rw [acceptedSteps_replicate] at hs
    rw [(List.mem_replicate.1 hs).2]
    exact hη
  have h1 := (number_replicate h rk45_usable hv.le (ρ := rk45Factor) (y0 := y0) (T := T) hη
    (fun m x x' hx hx' => c126_rk45_step h hσ hv.le (hpos m) hx hη hx')
    (κ := 1 + (η * v / (R0 + v * T)) ^ 6 / 1000) (by positivity) True
    (fun _ z z1 z2 => by
      have z0 : 0 ≤ η * v / (R0 + v * T) := by positivity
      have z3 : η * v / R0 ≤ 1 := by
        rw [div_le_one hR0]
        rwa [hη₀, le_div_iff₀ hv] at hη1
      refine le_trans ?_ (rk45_factor_lower (z0.trans z1) (z2.trans z3))
      gcongr) (fun hc => absurd trivial hc) n x hn.le hx).1 trivial
  have h2 : programTotal P 0 y0 ≤ programTotal P x.t x.y := (c126_rk45_run h hσ hv hy (hpos n) hx).1
  refine sq_gain (hy.le.trans h2) hk0.le (by positivity) (by gcongr) ?_
  refine le_trans (mul_le_mul_of_nonneg_right ?_ (sq_nonneg _)) h1
  have h3 := one_add_mul_le_pow (a := (η * v / (R0 + v * T)) ^ 6 / 1000)
    (le_trans (by norm_num) (show (0 : ℝ) ≤ (η * v / (R0 + v * T)) ^ 6 / 1000 by positivity)) n
  refine le_trans (le_of_eq ?_) h3
  rw [hk, ← hn]
  ring

/-- C127: and `RK23` has kept at most the part `1 / (1 + c η³)`. -/
theorem c127_rk23_number_loss {P : Problem} {R0 v : ℝ} (h : NumberSetting P R0 v) (hσ : P.sigmaS = 1)
    (hv : 0 < v) {T : ℝ} (hT : 0 < T) :
    ∃ c > 0, ∃ η₀ > 0, ∀ (n : ℕ) (η : ℝ), 0 ≤ η → η ≤ η₀ → n * η = T → ∀ (y0 : StateVec) (x : StepState),
      0 < programTotal P 0 y0 → P.integrate rk23 y0 (List.replicate n (.step η true)) = some x →
      (1 + c * η ^ 3) * |programTotal P x.t x.y| ≤ programTotal P 0 y0 := by
  have hR0 : 0 < R0 := by simpa using h.radius le_rfl
  have hRT := h.radius hT.le
  set k := (v / (R0 + v * T)) ^ 4 / 2 * T with hk
  have hk0 : 0 < k := by positivity
  set η₀ := 4 / 5 * R0 / v with hη₀
  have hη₀0 : 0 < η₀ := by positivity
  refine ⟨k / (2 + k * η₀ ^ 3), by positivity, η₀, hη₀0, ?_⟩
  intro n η hη hη1 hn y0 x hy hx
  have hpos : ∀ m, ∀ s ∈ acceptedSteps (List.replicate m (.step η true)), 0 ≤ s := fun m s hs => by
    rw [acceptedSteps_replicate] at hs
    rw [(List.mem_replicate.1 hs).2]
    exact hη
  have h1 := (number_replicate h rk23_usable hv.le (ρ := rk23Factor) (y0 := y0) (T := T) hη
    (fun m x x' hx hx' => c126_rk23_step h hσ hv.le (hpos m) hx hη hx')
    (κ := 1 + (η * v / (R0 + v * T)) ^ 4 / 2) (by positivity) False (fun hc => hc.elim)
    (fun _ z z1 z2 => by
      have z0 : 0 ≤ η * v / (R0 + v * T) := by positivity
      have z3 : η * v / R0 ≤ 4 / 5 := by
        rw [div_le_iff₀ hR0]
        rwa [hη₀, le_div_iff₀ hv] at hη1
      refine le_trans ?_ (rk23_factor_upper (z0.trans z1) (z2.trans z3))
      gcongr) n x hn.le hx).2 not_false
  refine sq_gain hy.le hk0.le (by positivity) (by gcongr) ?_
  rw [sq_abs]
  refine le_trans (mul_le_mul_of_nonneg_right ?_ (sq_nonneg _)) h1
  have h3 := one_add_mul_le_pow (a := (η * v / (R0 + v * T)) ^ 4 / 2)
    (le_trans (by norm_num) (show (0 : ℝ) ≤ (η * v / (R0 + v * T)) ^ 4 / 2 by positivity)) n
  refine le_trans (le_of_eq ?_) h3
  rw [hk, ← hn]
  ring

/-- States close together have numbers close together. -/
theorem number_close {P : Problem} {R0 v : ℝ} (h : NumberSetting P R0 v) {T : ℝ} (hT : 0 ≤ T) :
    ∃ K > 0, ∀ V W r, StatesWithin P V W r → |programTotal P T V - programTotal P T W| ≤ K * r := by
  have hN : 1 ≤ P.mesh.N := by have := h.shells; omega
  set Λ := LinearMap.toContinuousLinearMap (unitNumber P hN) with hΛ
  have hRT := h.radius hT
  have hq : 0 < (R0 + v * T) ^ 2 * Real.sqrt (R0 + v * T) := by positivity
  refine ⟨(R0 + v * T) ^ 2 * Real.sqrt (R0 + v * T) * (‖Λ‖ + 1), by positivity, ?_⟩
  intro V W r hr
  have hr0 : 0 ≤ r := (abs_nonneg _).trans
    (hr 0 (by have := h.problem.directions; omega) 0 (by omega) 0 (Nat.zero_le _))
  have h1 := (statesWithin_iff P _ _ hr0).1 hr
  rw [programTotal_even h hT, programTotal_even h hT, ← mul_sub, abs_mul, abs_of_pos hq, ← map_sub,
    mul_assoc (_ * _) (‖Λ‖ + 1)]
  refine mul_le_mul_of_nonneg_left ?_ hq.le
  have h2 := Λ.le_opNorm (unknowns P V - unknowns P W)
  have h3 : ‖Λ‖ * ‖unknowns P V - unknowns P W‖ ≤ (‖Λ‖ + 1) * r := by
    refine mul_le_mul (by linarith) h1 (norm_nonneg _) (by positivity)
  exact h2.trans h3

/-- C127: the order of `RK45` on sphere runs is not better than five: whenever a solution carries
particles through a medium that only scatters, the run with equal steps `η` is at least `c η⁵` away
from it in some coefficient. -/
theorem c127_rk45_sharp {P : Problem} {R0 v : ℝ} (h : NumberSetting P R0 v) (hσ : P.sigmaS = 1)
    (hv : 0 < v) {T : ℝ} (hT : 0 < T) {F : Set ℝ} (hF : F.Finite) {V : ℝ → StateVec}
    (hV : ProgramSolutionOn P 0 T F V) (hy : 0 < programTotal P 0 (V 0)) :
    ∃ c > 0, ∃ η₀ > 0, ∀ (n : ℕ) (η : ℝ), 0 ≤ η → η ≤ η₀ → n * η = T → ∀ x : StepState,
      P.integrate rk45 (V 0) (List.replicate n (.step η true)) = some x →
      ∀ r, StatesWithin P x.y (V T) r → c * η ^ 5 ≤ r := by
  obtain ⟨c, hc, η₀, hη₀, h1⟩ := c127_rk45_number_gain h hσ hv hT
  obtain ⟨K, hK, h2⟩ := number_close h hT.le
  refine ⟨c * programTotal P 0 (V 0) / K, by positivity, η₀, hη₀, ?_⟩
  intro n η hη hη1 hn x hx r hr
  have h3 := h1 n η hη hη1 hn (V 0) x hy hx
  have h4 := h2 _ _ _ hr
  have ht : x.t = T := (replicate_time h.problem rk45_usable hη hx).trans hn
  have h5 := c110_particle_number_without_source_partial h.problem h.noSource h.shells h.directions
    h.symmetric h.weights h.noBoundary h.noManufactured (by
      intro l hl
      have := h.fast l hl
      have e : evenEdges P.mesh.N v P.mesh.N = v := by
        have : (P.mesh.N : ℝ) ≠ 0 := by have := h.shells; positivity
        unfold evenEdges
        field_simp
      rwa [e]) hF hV ⟨hT.le, le_rfl⟩
  rw [hσ, sub_self, zero_mul, Real.exp_zero, one_mul] at h5
  rw [ht] at h3
  rw [h5] at h4
  have h6 := (le_abs_self _).trans h4
  rw [div_mul_eq_mul_div, div_le_iff₀ hK]
  nlinarith

/-- C127: the order of `RK23` is not better than three. -/
theorem c127_rk23_sharp {P : Problem} {R0 v : ℝ} (h : NumberSetting P R0 v) (hσ : P.sigmaS = 1)
    (hv : 0 < v) {T : ℝ} (hT : 0 < T) {F : Set ℝ} (hF : F.Finite) {V : ℝ → StateVec}
    (hV : ProgramSolutionOn P 0 T F V) (hy : 0 < programTotal P 0 (V 0)) :
    ∃ c > 0, ∃ η₀ > 0, ∀ (n : ℕ) (η : ℝ), 0 ≤ η → η ≤ η₀ → n * η = T → ∀ x : StepState,
      P.integrate rk23 (V 0) (List.replicate n (.step η true)) = some x →
      ∀ r, StatesWithin P x.y (V T) r → c * η ^ 3 ≤ r := by
  obtain ⟨c, hc, η₀, hη₀, h1⟩ := c127_rk23_number_loss h hσ hv hT
  obtain ⟨K, hK, h2⟩ := number_close h hT.le
  refine ⟨c * programTotal P 0 (V 0) / (K * (1 + c * η₀ ^ 3)), by positivity, η₀, hη₀, ?_⟩
  intro n η hη hη1 hn x hx r hr
  have h3 := h1 n η hη hη1 hn (V 0) x hy hx
  have h4 := h2 _ _ _ hr
  have ht : x.t = T := (replicate_time h.problem rk23_usable hη hx).trans hn
  have h5 := c110_particle_number_without_source_partial h.problem h.noSource h.shells h.directions
    h.symmetric h.weights h.noBoundary h.noManufactured (by
      intro l hl
      have := h.fast l hl
      have e : evenEdges P.mesh.N v P.mesh.N = v := by
        have : (P.mesh.N : ℝ) ≠ 0 := by have := h.shells; positivity
        unfold evenEdges
        field_simp
      rwa [e]) hF hV ⟨hT.le, le_rfl⟩
  rw [hσ, sub_self, zero_mul, Real.exp_zero, one_mul] at h5
  rw [ht] at h3
  rw [h5] at h4
  set A := programTotal P 0 (V 0)
  set B := programTotal P T x.y
  have h6 : A - |B| ≤ K * r := by
    have := abs_sub_comm B A
    have h7 := abs_sub_abs_le_abs_sub A B
    rw [abs_of_pos hy] at h7
    linarith
  have hr0 : 0 ≤ r := (abs_nonneg _).trans (hr 0 (by have := h.problem.directions; omega) 0
    (by have := h.shells; omega) 0 (Nat.zero_le _))
  have hw : 0 ≤ c * η ^ 3 := by positivity
  have h8 : c * η ^ 3 * A ≤ (1 + c * η ^ 3) * (K * r) := by
    have h9 : (1 + c * η ^ 3) * (A - |B|) ≤ (1 + c * η ^ 3) * (K * r) := by gcongr
    linarith
  have h10 : (1 + c * η ^ 3) * (K * r) ≤ (1 + c * η₀ ^ 3) * (K * r) := by gcongr
  rw [div_mul_eq_mul_div, div_le_iff₀ (by positivity)]
  linarith

/-! ### C127: a concrete run -/

/-- The run of the point pulse in a medium that only scatters. -/
theorem exampleScatterRun_solution {inv : (ℕ → ℕ → ℝ) → ℕ → ℕ → ℝ} (hi : InverseCorrect 1 inv) :
    ∃ V, RunOn (exampleScatterRun inv) 1 {0, max 0 (min (exampleScatterRun inv).mesh.t0 1)} V ∧
      0 < programTotal (exampleScatterRun inv) 0 (V 0) := by
  obtain ⟨V, h1, h2, -⟩ := c112_point_run (P := exampleScatterRun inv) (examplePointRun_mesh inv false)
    rfl rfl rfl (Nat.le_of_ble_eq_true rfl)
    (by norm_num [exampleScatterRun, examplePointRun, exampleShellMesh, exampleSquareMesh])
    (by norm_num [exampleScatterRun, examplePointRun, exampleShellMesh, exampleSquareMesh])
    (Nat.le_of_ble_eq_true rfl) (exactTables_exact 2) hi le_rfl rfl rfl rfl
    exampleSphere_directions exampleSphere_symmetric exampleShell_checks
    (exampleShell_weights inv) rfl (zero_ne_one' ℤ) (exampleScatterRun_fast inv) (T := 1) zero_le_one
  refine ⟨V, h1, ?_⟩
  have h3 := h2 0 ⟨le_rfl, zero_le_one⟩
  have e : (exampleScatterRun inv).strength = 3 := rfl
  have hπ := Real.pi_pos
  rw [runParticles_eq, mul_zero, Real.exp_zero, e] at h3
  have : 0 < 8 * Real.pi * programTotal (exampleScatterRun inv) 0 (V 0) := by
    rw [h3]
    positivity
  exact (pos_iff_pos_of_mul_pos this).1 (by positivity)

/-- With `n` equal steps over the time one, the error of `RK45` is between two multiples of `η⁵`, and
that of `RK23` between two multiples of `η³`. -/
example : ∃ inv, InverseCorrect 1 inv ∧ ∃ V F,
    RunOn (exampleScatterRun inv) 1 F V ∧ ∃ C, ∃ c > 0, ∃ η₀ > 0, ∀ (n : ℕ) (η : ℝ), 0 ≤ η → η ≤ η₀ →
      n * η = 1 →
      (∃ x, (exampleScatterRun inv).integrate rk45 (V 0) (List.replicate n (.step η true)) = some x ∧
        StatesWithin (exampleScatterRun inv) x.y (V 1) (C * η ^ 5) ∧
        ∀ r, StatesWithin (exampleScatterRun inv) x.y (V 1) r → c * η ^ 5 ≤ r) ∧
      ∃ x, (exampleScatterRun inv).integrate rk23 (V 0) (List.replicate n (.step η true)) = some x ∧
        StatesWithin (exampleScatterRun inv) x.y (V 1) (C * η ^ 3) ∧
        ∀ r, StatesWithin (exampleScatterRun inv) x.y (V 1) r → c * η ^ 3 ≤ r := by
  obtain ⟨inv, hi⟩ := inverse_exists 1
  have h := exampleScatterRun_setting hi
  obtain ⟨V, hV, hy⟩ := exampleScatterRun_solution hi
  have hF : ({0, max 0 (min (exampleScatterRun inv).mesh.t0 1)} : Set ℝ).Finite := by simp
  obtain ⟨C₁, η₁, p1, u1⟩ := c127_rk45_order h.problem h.noSource (Or.inl h.noBoundary) hF hV.2
  obtain ⟨C₂, η₂, p2, u2⟩ := c127_rk23_order h.problem h.noSource (Or.inl h.noBoundary) hF hV.2
  obtain ⟨c₁, q1, η₃, p3, l1⟩ := c127_rk45_sharp h rfl one_pos one_pos hF hV.2 hy
  obtain ⟨c₂, q2, η₄, p4, l2⟩ := c127_rk23_sharp h rfl one_pos one_pos hF hV.2 hy
  refine ⟨inv, hi, V, _, hV, max C₁ C₂, min c₁ c₂, lt_min q1 q2, min (min η₁ η₂) (min η₃ η₄),
    lt_min (lt_min p1 p2) (lt_min p3 p4), ?_⟩
  intro n η hη hη1 hn
  simp only [le_min_iff] at hη1
  obtain ⟨⟨b1, b2⟩, b3, b4⟩ := hη1
  have hf := steady_of_constant h.problem.opacity
  have hst : ∀ s ∈ acceptedSteps (List.replicate n (.step η true)), 0 ≤ s ∧ s ≤ η := fun s hs => by
    rw [acceptedSteps_replicate] at hs
    rw [(List.mem_replicate.1 hs).2]
    exact ⟨hη, le_rfl⟩
  have h0 : StatesWithin (exampleScatterRun inv) (V 0) (V 0) 0 := fun l _ k _ i _ => by simp
  constructor
  · obtain ⟨x, hx, -⟩ := c125_never_fails h.problem.toSphereSetup hf rk45 (V 0)
      (List.replicate n (.step η true))
    have ht : x.t = 1 := (replicate_time h.problem rk45_usable hη hx).trans hn
    refine ⟨x, hx, fun l hl k hk i hi => ?_, fun r hr => ?_⟩
    · have := u1 _ _ x 0 η le_rfl hη b1 hst h0 hx ht.le l hl k hk i hi
      rw [ht, zero_add] at this
      exact this.trans (mul_le_mul_of_nonneg_right (le_max_left _ _) (by positivity))
    · exact (mul_le_mul_of_nonneg_right (min_le_left _ _) (by positivity)).trans
        (l1 n η hη b3 hn x hx r hr)
  · obtain ⟨x, hx, -⟩ := c125_never_fails h.problem.toSphereSetup hf rk23 (V 0)
      (List.replicate n (.step η true))
    have ht : x.t = 1 := (replicate_time h.problem rk23_usable hη hx).trans hn
    refine ⟨x, hx, fun l hl k hk i hi => ?_, fun r hr => ?_⟩
    · have := u2 _ _ x 0 η le_rfl hη b2 hst h0 hx ht.le l hl k hk i hi
      rw [ht, zero_add] at this
      exact this.trans (mul_le_mul_of_nonneg_right (le_max_right _ _) (by positivity))
    · exact (mul_le_mul_of_nonneg_right (min_le_right _ _) (by positivity)).trans
        (l2 n η hη b4 hn x hx r hr)

/-- In the middle of a step of the same run the dense output is as good. -/
example : ∃ inv, InverseCorrect 1 inv ∧ ∃ V F, RunOn (exampleScatterRun inv) 1 F V ∧ ∃ C, ∃ η₀ > 0,
    ∀ η, 0 ≤ η → η ≤ η₀ → 2 * η ≤ 1 → ∀ x o K,
      (exampleScatterRun inv).integrate rk45 (V 0) [.step η true] = some x →
      (exampleScatterRun inv).rkStep rk45 x η = some (o, K) →
      StatesWithin (exampleScatterRun inv) (Problem.denseOutput rk45 rk45Dense 4 x η K (1 / 2))
        (V (x.t + 1 / 2 * η)) (C * η ^ 5) := by
  obtain ⟨inv, hi⟩ := inverse_exists 1
  have h := exampleScatterRun_setting hi
  obtain ⟨V, hV, -⟩ := exampleScatterRun_solution hi
  obtain ⟨C, η₀, p, u⟩ := c127_rk45_dense_order h.problem h.noSource (Or.inl h.noBoundary)
    (by simp) hV.2
  refine ⟨inv, hi, V, _, hV, C, η₀, p, fun η hη hη0 h2 x o K hx hK => ?_⟩
  have hst : ∀ s ∈ acceptedSteps [.step η true], 0 ≤ s ∧ s ≤ η := by
    intro s hs
    rw [List.mem_singleton.1 hs]
    exact ⟨hη, le_rfl⟩
  have ht : x.t = η := by
    rw [(integrate_unknowns h.problem rk45_usable (fun s hs => (hst s hs).1) hx).1]
    exact List.sum_singleton
  have := u (V 0) _ x 0 η le_rfl hη hη0 hst (fun l _ k _ i _ => by simp) hx η hη le_rfl
    (by rw [ht]; linarith) o K hK (1 / 2) ⟨by norm_num, by norm_num⟩
  rwa [zero_add] at this

end Verif.Props
