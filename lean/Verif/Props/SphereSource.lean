import Verif.Props.SphereSourceError

/-!
C124: how the source of uncollided particles is integrated over the shells in sphere.

`solve` hands `quadrature(6*M+1, 'chebyshev')` to the sources (main_functions.py 119-120), and
sources.py 84-86 multiplies by the root `√(1 - x²)` of the node.  With one constant per shell the
resulting source is `π/2` times the value in the middle of the shell.  The runs are compared with the
runs whose source is integrated exactly.
-/

namespace Verif.Props

open Set Filter Topology Verif.Spec Verif.Model Verif.Lemmas

/-! ### Two runs of one problem with different sources -/

/-- What the comparison of sources asks of the arguments. -/
structure SourceSetting (P : Problem) (e d : ℕ → ℝ) : Prop where
  problem : SphereProblem P e d
  shells : 2 ≤ P.mesh.N
  noBoundary : P.boundarySource = false
  noManufactured : P.mesh.st 4 ≠ 1
  directions : DirectionSet P.Nang P.mus
  weights : CellWeights P
  scattering : 0 < P.sigmaS
  middle : ∀ l < P.Nang, angularMid P.Nang P.mus l ≤ P.mus l

theorem SourceSetting.kappa {P : Problem} {e d : ℕ → ℝ} (h : SourceSetting P e d) :
    ∑ l ∈ Finset.range P.Nang, P.ws l ^ 2 / (angularWidth P.Nang P.mus l / 2) ≤ 1 := by
  have hw := h.weights.ws h.problem.directions
  obtain ⟨hp, hw1⟩ := cell_weights (p := P.params) h.directions hw
  have : ∀ l ∈ Finset.range P.Nang, P.ws l ^ 2 / (angularWidth P.Nang P.mus l / 2) = P.ws l := by
    intro l hl
    have hl := Finset.mem_range.1 hl
    have h0 : P.ws l ≠ 0 := (hp l hl).ne'
    rw [← hw l hl, sq, mul_div_assoc, div_self h0, mul_one]
  rw [Finset.sum_congr rfl this]
  exact hw1.le

theorem exists_pos_le {n : ℕ} {f : ℕ → ℝ} (h : ∀ l < n, 0 < f l) : ∃ W > 0, ∀ l < n, W ≤ f l := by
  induction n with
  | zero => exact ⟨1, one_pos, fun l hl => absurd hl (Nat.not_lt_zero _)⟩
  | succ n ih =>
    obtain ⟨W, hW, h1⟩ := ih fun l hl => h l (by omega)
    refine ⟨min W (f n), lt_min hW (h n (by omega)), fun l hl => ?_⟩
    rcases Nat.lt_succ_iff_lt_or_eq.1 hl with h2 | h2
    · exact (min_le_left _ _).trans (h1 l h2)
    · subst h2; exact min_le_right _ _

theorem exists_abs_le (n N : ℕ) (g : ℕ → ℕ → ℝ) : ∃ A, ∀ l < n, ∀ k ≤ N, |g l k| ≤ A := by
  refine ⟨∑ l ∈ Finset.range n, ∑ k ∈ Finset.range (N + 1), |g l k|, fun l hl k hk => ?_⟩
  refine le_trans ?_ (Finset.single_le_sum (f := fun l => ∑ k ∈ Finset.range (N + 1), |g l k|)
    (fun l _ => Finset.sum_nonneg fun k _ => abs_nonneg _) (Finset.mem_range.2 hl))
  exact Finset.single_le_sum (f := fun k => |g l k|) (fun k _ => abs_nonneg _)
    (Finset.mem_range.2 (by omega))

/-- The difference of a run and a multiple of another is a run with the difference of the sources. -/
theorem combined_run {P : Problem} {e d : ℕ → ℝ} (h : SourceSetting P e d) {a T : ℝ} (ha : 0 ≤ a)
    {F : Set ℝ} {S S' : ℝ → ℕ → ℕ → ℝ} {V W : ℝ → ℕ → ℕ → ℕ → ℝ} (x : ℝ)
    (hV : SphereSolutionOn P.params P.fluxConfig (meshAt P) (programMats P) S a T F V)
    (hW : SphereSolutionOn P.params P.fluxConfig (meshAt P) (programMats P) S' a T F W) :
    SphereSolutionOn P.params (withBoundary P.fluxConfig
        (1 * P.fluxConfig.boundaryStrength + -x * P.fluxConfig.boundaryStrength))
      (meshAt P) (programMats P) (fun t k i => 1 * S t k i + -x * S' t k i) a T F
      (fun t l k i => 1 * V t l k i + -x * W t l k i) := by
  have hm : P.fluxConfig.mms = false := by simp [Problem.fluxConfig, h.noManufactured]
  have hmesh := programMesh h.problem.toSphereSetup ha (b := T) F
  refine SphereSolutionOn.of_rate (c := withBoundary P.fluxConfig _) h.problem.checks
    h.problem.sphere h.problem.order ⟨hmesh.centre, hmesh.ordered, hmesh.cont, hmesh.velocity,
      hmesh.mats⟩ (fun l hl k hk i hi =>
    ((hV.1 l hl k hk i hi).const_smul (1 : ℝ)).add ((hW.1 l hl k hk i hi).const_smul (-x)))
    fun t ht l hl k hk i => ?_
  have htc : t ∈ Icc a T := ⟨ht.1.1, ht.1.2.le⟩
  have d1 := hV.rate h.problem.sphere h.problem.order ht (hmesh.centre t htc)
    (hmesh.ordered t htc) (hmesh.mats t ht) hl hk i.2
  have d2 := hW.rate h.problem.sphere h.problem.order ht (hmesh.centre t htc)
    (hmesh.ordered t htc) (hmesh.mats t ht) hl hk i.2
  refine ((d1.const_mul (1 : ℝ)).add (d2.const_mul (-x))).congr_deriv ?_
  exact (sphereField0_combine P.params P.fluxConfig h.problem.sphere hm rfl 1 (-x) _ _ t (meshAt P t)
    _ _ (V t) (W t) l k i).symm

/-- C124: two runs of the same problem with different sources.  If the difference of their sources is
that of a density `f` whose square integral is at most `E`, the difference of the runs grows at most
as the Gronwall bound says. -/
theorem c124_source_stability {P : Problem} {e d : ℕ → ℝ} (h : SourceSetting P e d) {a T : ℝ}
    (ha : 0 ≤ a) {F : Set ℝ} (hF : F.Finite) {S S' : ℝ → ℕ → ℕ → ℝ} {V W : ℝ → ℕ → ℕ → ℕ → ℝ}
    (x : ℝ)
    (hV : SphereSolutionOn P.params P.fluxConfig (meshAt P) (programMats P) S a T F V)
    (hW : SphereSolutionOn P.params P.fluxConfig (meshAt P) (programMats P) S' a T F W)
    (f : ℕ → ℝ → ℝ → ℝ) (hf : ∀ t, ∀ k < P.mesh.N, Continuous fun r => f k r t)
    (hS : ∀ t ∈ Ico a T \ F, ∀ k < P.mesh.N, ∀ i ≤ P.M, 1 / 2 * (S t k i - x * S' t k i) * P.sigmaS =
      weightedMoment (fun r => f k r t) ((meshAt P t).edges k) ((meshAt P t).edges (k + 1)) i)
    {E : ℝ} (hE0 : 0 ≤ E) (hE : ∀ t ∈ Ico a T \ F, ∑ k ∈ Finset.range P.mesh.N,
      ∫ r in ((meshAt P t).edges k)..((meshAt P t).edges (k + 1)), r ^ 2 * f k r t ^ 2 ≤ E) :
    ∀ t ∈ Icc a T,
      sphereAngularSq P.params P.mesh.N P.M (meshAt P t).edges (fun l k i => V t l k i - x * W t l k i) ≤
        (sphereAngularSq P.params P.mesh.N P.M (meshAt P a).edges
          (fun l k i => V a l k i - x * W a l k i) + (t - a) * E) *
          Real.exp (2 * P.sigmaS * (t - a)) := by
  intro t ht
  have hl := fun t => meshAt_linear h.problem.mesh t
  have hmesh := programMesh h.problem.toSphereSetup ha (b := T) F
  have hN1 : 1 ≤ P.mesh.N := by have := h.shells; omega
  have hord : ∀ s, 0 ≤ s → ∀ k < P.mesh.N, (meshAt P s).edges k < (meshAt P s).edges (k + 1) := by
    intro s hs k hk
    rw [(hl s).1 k hk.le, (hl s).1 (k + 1) hk]
    exact h.problem.mesh.ordered s hs k hk
  obtain ⟨A, hA⟩ := exists_abs_le P.Nang P.mesh.N fun l k => P.mus l - d k
  obtain ⟨w, hw, hw1⟩ := exists_pos_le (n := P.Nang) (f := fun l => angularWidth P.Nang P.mus l)
    fun l hl => angularWidth_pos h.directions hl
  obtain ⟨m, hm, hm1⟩ : ∃ m > 0, ∀ s ∈ Icc a T, m ≤ (meshAt P s).edges 1 := by
    have h0 : ∀ s, 0 ≤ s → 0 < e 1 + d 1 * s := by
      intro s hs
      have := h.problem.mesh.ordered s hs 0 hN1
      rw [h.problem.mesh.centre, h.problem.mesh.rest] at this
      simpa using this
    have haT : a ≤ T := ht.1.trans ht.2
    refine ⟨min (e 1 + d 1 * a) (e 1 + d 1 * T), lt_min (h0 a ha) (h0 T (ha.trans haT)), fun s hs => ?_⟩
    rw [(hl s).1 1 hN1]
    rcases le_total (d 1) 0 with hd | hd
    · exact (min_le_right _ _).trans (by nlinarith [hs.2])
    · exact (min_le_left _ _).trans (by nlinarith [hs.1])
  obtain ⟨R, hR⟩ : ∃ R, ∀ s ∈ Icc a T, (meshAt P s).edges P.mesh.N ≤ R := by
    refine ⟨max (e P.mesh.N + d P.mesh.N * a) (e P.mesh.N + d P.mesh.N * T), fun s hs => ?_⟩
    rw [(hl s).1 _ le_rfl]
    rcases le_total (d P.mesh.N) 0 with hd | hd
    · exact le_max_of_le_left (by nlinarith [hs.1])
    · exact le_max_of_le_right (by nlinarith [hs.2])
  obtain ⟨C, hC, hb⟩ := sphere_error_bound_source P.M h.problem.order
  have hact : ∀ left t, ¬ BoundaryActive (withBoundary P.fluxConfig
        (1 * P.fluxConfig.boundaryStrength + -x * P.fluxConfig.boundaryStrength)) left t := by
    intro left t
    simp [BoundaryActive, Problem.fluxConfig, withBoundary, h.noManufactured, h.noBoundary]
  have hzero : ∀ (M : ℕ) (a b r : ℝ), sphereField M (fun _ => (0 : ℝ)) a b r = 0 := by
    intro M a b r
    simp [sphereField]
  have hmain := hb P.params (withBoundary P.fluxConfig
        (1 * P.fluxConfig.boundaryStrength + -x * P.fluxConfig.boundaryStrength)) (meshAt P)
    (programMats P) (fun t k i => 1 * S t k i + -x * S' t k i) a T 0 m 1 A R w 0 E F
    (fun _ _ _ => 0) f (fun _ _ _ _ => 0) (fun _ _ _ _ => 0) _ h.directions h.kappa h.scattering
    h.problem.sphere rfl h.shells hF
    ⟨hmesh.centre, hmesh.ordered, hmesh.cont, hmesh.velocity, hmesh.mats⟩ (fun t _ => hact _ _)
    ⟨fun _ _ _ _ => contDiff_const, fun t _ l _ k _ r _ => by
        simp [angularDifference], fun _ _ _ _ _ _ => by simp, fun _ _ _ _ _ => rfl⟩
    (fun t ht k hk i hi => by
      have := hS t ht k hk i hi
      simp only [zero_add]
      rw [← this]
      show 1 / 2 * (1 * S t k i + -x * S' t k i) * P.sigmaS = _
      ring)
    (fun _ _ _ => continuous_const) hf hE
    (fun t _ l _ k _ i _ => by simp [hzero]) le_rfl
    (fun l hl => by have := h.middle l hl; show _ - P.mus l ≤ 0; linarith!)
    hw hw1 hm (fun s hs => ⟨hm1 s hs, hR s hs⟩)
    (fun t _ l hl' k hk => by
      rw [(hl t).2 k hk]
      exact hA l hl' k hk)
    (fun t _ l _ k _ r _ => by simp [hzero])
    (combined_run h ha x hV hW) t ht
  have hws := h.weights.ws h.problem.directions
  have e0 : ∀ s, sphereAngularSq P.params P.mesh.N P.M (meshAt P s).edges
      (fun l k i => V s l k i - x * W s l k i) =
      sphereAngularSq (cellParams P.params) (withBoundary P.fluxConfig
        (1 * P.fluxConfig.boundaryStrength + -x * P.fluxConfig.boundaryStrength)).Nspace
        (withBoundary P.fluxConfig
        (1 * P.fluxConfig.boundaryStrength + -x * P.fluxConfig.boundaryStrength)).M (meshAt P s).edges
      (fun l k i => 1 * V s l k i + -x * W s l k i - 0) := by
    intro s
    have e1 : (fun l k i => V s l k i - x * W s l k i) =
        fun l k i => 1 * V s l k i + -x * W s l k i - 0 := by
      funext l k i
      ring
    rw [e1]
    unfold sphereAngularSq angularSum
    refine Finset.sum_congr rfl fun l hl => ?_
    have : P.params.ws l = (cellParams P.params).ws l := hws l (Finset.mem_range.1 hl)
    rw [this]
    rfl
  have e3 : ∀ y : ℝ, y * (A * R ^ 2 * 0 ^ 2) + R * (2 * 0 / w) ^ 2 + E = E := by
    intro y
    simp
  rw [e3] at hmain
  rw [e0, e0]
  refine hmain.trans ?_
  have hnn : 0 ≤ sphereAngularSq (cellParams P.params) P.mesh.N P.M (meshAt P a).edges
      (fun l k i => 1 * V a l k i + -x * W a l k i - 0) := by
    unfold sphereAngularSq angularSum
    refine Finset.sum_nonneg fun l hl => mul_nonneg ?_ ?_
    · have := angularWidth_pos h.directions (Finset.mem_range.1 hl)
      show 0 ≤ angularWidth P.Nang P.mus l / 2
      linarith
    · unfold sphereSqNorm
      refine Finset.sum_nonneg fun k hk => intervalIntegral.integral_nonneg
        (hord a ha k (Finset.mem_range.1 hk)).le fun r _ => by positivity
  refine (gronwallBound_le_exp hnn hE0 (sub_nonneg.2 ht.1)).trans_eq ?_
  have e2 : P.params.c * (1 + 1) + 2 * 0 * C / m = 2 * P.sigmaS := by
    show P.sigmaS * (1 + 1) + _ = _
    simp only [mul_zero, zero_mul, zero_div]
    ring
  rw [e2, max_eq_left (by have := h.scattering; linarith), mul_comm E]
  rfl

/-! ### The exactly integrated source -/

/-- The source with its moments integrated exactly instead of with the rule of the program. -/
noncomputable def exactSource (P : Problem) (t : ℝ) (k i : ℕ) : ℝ :=
  P.strength ^ 2 * weightedMoment (fun r => ballFlux P.mesh.x0 r t) ((meshAt P t).edges k)
    ((meshAt P t).edges (k + 1)) i

theorem continuousOn_ballFlux_time {x0 : ℝ} {r : ℝ → ℝ} (hr : ContinuousOn r (Ici 0))
    (hp : ∀ t ∈ Ici (0 : ℝ), 0 < r t) : ContinuousOn (fun t => ballFlux x0 (r t) t) (Ici 0) := by
  have h1 : ContinuousOn (fun t => Real.exp (-t) * ballDensity x0 *
      (1 - ballEdge (r t) (t + 1e-12) x0)) (Ici 0) := by
    have h2 : ContinuousOn (fun t : ℝ => t + 1e-12) (Ici 0) := by fun_prop
    have h3 : ∀ t ∈ Ici (0 : ℝ), 2 * r t * (t + 1e-12) ≠ 0 := by
      intro t ht
      have ht : (0 : ℝ) ≤ t := ht
      have := hp t ht
      positivity
    unfold ballEdge
    refine ContinuousOn.mul (by fun_prop) (continuousOn_const.sub ?_)
    refine ContinuousOn.inf continuousOn_const (ContinuousOn.sup continuousOn_const (ContinuousOn.div ?_ ?_ h3))
    · exact ((hr.pow 2).add (h2.pow 2)).sub continuousOn_const
    · exact (continuousOn_const.mul hr).mul h2
  exact h1.congr fun t ht => ballFlux_eq (hp t ht) ht

theorem SourceSetting.edges {P : Problem} {e d : ℕ → ℝ} (h : SourceSetting P e d) {t : ℝ}
    (ht : 0 ≤ t) : (∀ k < P.mesh.N, (meshAt P t).edges k < (meshAt P t).edges (k + 1)) ∧
      ∀ k ≤ P.mesh.N, 0 ≤ (meshAt P t).edges k := by
  have hl := fun t => meshAt_linear h.problem.mesh t
  have h1 : ∀ k < P.mesh.N, (meshAt P t).edges k < (meshAt P t).edges (k + 1) := by
    intro k hk
    rw [(hl t).1 k hk.le, (hl t).1 (k + 1) hk]
    exact h.problem.mesh.ordered t ht k hk
  refine ⟨h1, fun k => ?_⟩
  induction k with
  | zero =>
    intro _
    rw [(hl t).1 0 (Nat.zero_le _), h.problem.mesh.centre, h.problem.mesh.rest]
    simp
  | succ k ih => intro hk; exact (ih (by omega)).trans (h1 k hk).le

theorem continuousOn_exactSource {P : Problem} {e d : ℕ → ℝ} (h : SourceSetting P e d)
    (hx : 0 < P.mesh.x0) {k : ℕ} (hk : k < P.mesh.N) (i : ℕ) :
    ContinuousOn (fun t => exactSource P t k i) (Ici 0) := by
  have hl := fun t => meshAt_linear h.problem.mesh t
  have hcont : ∀ k ≤ P.mesh.N, Continuous fun t => (meshAt P t).edges k := by
    intro k hk
    have : (fun t => (meshAt P t).edges k) = fun t => e k + d k * t := funext fun t => (hl t).1 k hk
    rw [this]
    fun_prop
  have ca := hcont k hk.le
  have cb := hcont (k + 1) hk
  have hB := ballDensity_pos hx
  unfold exactSource
  refine continuousOn_const.mul (ContinuousOn.congr ?_ fun t ht =>
    weightedMoment_eq ((h.edges ht).1 k hk) (fun r => ballFlux P.mesh.x0 r t) i)
  refine (continuousOn_const.mul (cb.sub ca).sqrt.continuousOn).mul fun t₀ ht₀ => ?_
  have hpt : ∀ t, 0 ≤ t → ∀ ξ ∈ Icc (-1 : ℝ) 1,
      cellPoint ((meshAt P t).edges k) ((meshAt P t).edges (k + 1)) ξ ∈
        Icc ((meshAt P t).edges k) ((meshAt P t).edges (k + 1)) := by
    intro t ht ξ hξ
    have := (h.edges ht).1 k hk
    unfold cellPoint
    constructor <;> nlinarith [hξ.1, hξ.2]
  have hpp : ∀ t, 0 ≤ t → ∀ ξ ∈ Ioc (-1 : ℝ) 1,
      0 < cellPoint ((meshAt P t).edges k) ((meshAt P t).edges (k + 1)) ξ := by
    intro t ht ξ hξ
    have h1 := (h.edges ht).1 k hk
    have h2 := (h.edges ht).2 k hk.le
    unfold cellPoint
    nlinarith [hξ.1, hξ.2]
  have cT : Continuous fun ξ : ℝ => (Polynomial.Chebyshev.T ℝ (i : ℕ)).eval ξ := Polynomial.continuous _
  refine intervalIntegral.continuousWithinAt_of_dominated_interval
    (bound := fun ξ => ((meshAt P t₀).edges (k + 1) + 1) ^ 2 * (2 * ballDensity P.mesh.x0) *
      |(Polynomial.Chebyshev.T ℝ (i : ℕ)).eval ξ|) ?_ ?_ ?_ ?_
  · filter_upwards [self_mem_nhdsWithin] with t ht
    have ht : 0 ≤ t := ht
    rw [uIoc_of_le (by norm_num)]
    have h1 : ContinuousOn (fun ξ => cellPoint ((meshAt P t).edges k) ((meshAt P t).edges (k + 1)) ξ ^ 2 *
        ballFlux P.mesh.x0 (cellPoint ((meshAt P t).edges k) ((meshAt P t).edges (k + 1)) ξ) t)
        (Icc (-1) 1) :=
      (continuousOn_sq_ballFlux hx ht ((h.edges ht).2 k hk.le)).comp
        (by unfold cellPoint; fun_prop) (fun ξ hξ => hpt t ht ξ hξ)
    exact ((h1.mul cT.continuousOn).mono Ioc_subset_Icc_self).aestronglyMeasurable measurableSet_Ioc
  · have h1 : ∀ᶠ t in 𝓝[Ici 0] t₀, (meshAt P t).edges (k + 1) < (meshAt P t₀).edges (k + 1) + 1 :=
      nhdsWithin_le_nhds (cb.continuousAt.eventually_lt continuousAt_const (by linarith))
    filter_upwards [h1, self_mem_nhdsWithin] with t h2 ht
    have ht : 0 ≤ t := ht
    refine Filter.Eventually.of_forall fun ξ hξ => ?_
    rw [uIoc_of_le (by norm_num)] at hξ
    have h3 := hpt t ht ξ (Ioc_subset_Icc_self hξ)
    have h4 := hpp t ht ξ hξ
    have h5 := ballFlux_mem hx h4 ht
    rw [norm_mul, norm_mul, Real.norm_eq_abs, Real.norm_eq_abs, Real.norm_eq_abs,
      abs_of_nonneg (sq_nonneg _), abs_of_nonneg h5.1]
    refine mul_le_mul_of_nonneg_right (mul_le_mul (pow_le_pow_left₀ h4.le (h3.2.trans h2.le) 2) h5.2
      h5.1 (sq_nonneg _)) (abs_nonneg _)
  · exact Continuous.intervalIntegrable (by fun_prop) _ _
  · refine Filter.Eventually.of_forall fun ξ hξ => ?_
    rw [uIoc_of_le (by norm_num)] at hξ
    have hc : Continuous fun t => cellPoint ((meshAt P t).edges k) ((meshAt P t).edges (k + 1)) ξ := by
      unfold cellPoint
      fun_prop
    exact (((hc.pow 2).continuousOn.mul (continuousOn_ballFlux_time hc.continuousOn
      fun t ht => hpp t ht ξ hξ)).mul continuousOn_const) t₀ ht₀

/-- Existence for any source that is continuous in time, as in C110. -/
theorem run_exists {P : Problem} {e d : ℕ → ℝ} (h : SphereProblem P e d) {S : ℝ → ℕ → ℕ → ℝ}
    (hsrc : ∀ k < P.mesh.N, ∀ i ≤ P.M, ContinuousOn (fun t => S t k i) (Ici 0)) {T : ℝ} (hT : 0 ≤ T)
    (V0 : ℕ → ℕ → ℕ → ℝ) :
    ∃ V, (SphereSolutionOn P.params P.fluxConfig (meshAt P) (programMats P) S 0 T {0, max 0 (min P.mesh.t0 T)} V ∧
      ∀ l < P.Nang, ∀ k < P.mesh.N, ∀ i ≤ P.M, V 0 l k i = V0 l k i) ∧
      ∀ (G : Set ℝ) (W : ℝ → ℕ → ℕ → ℕ → ℝ), G.Finite → SphereSolutionOn P.params P.fluxConfig (meshAt P) (programMats P) S 0 T G W →
        (∀ l < P.Nang, ∀ k < P.mesh.N, ∀ i ≤ P.M, W 0 l k i = V0 l k i) →
        ∀ t ∈ Icc 0 T, ∀ l < P.Nang, ∀ k < P.mesh.N, ∀ i ≤ P.M, W t l k i = V t l k i := by
  set x := max 0 (min P.mesh.t0 T) with hx
  have hx0 : 0 ≤ x := le_max_left _ _
  have hxT : x ≤ T := max_le hT (min_le_right _ _)
  set τ : ℕ → ℝ := fun j => if j = 0 then 0 else if j = 1 then x else T with hτ
  have t0 : τ 0 = 0 := rfl
  have t1 : τ 1 = x := rfl
  have t2 : τ 2 = T := rfl
  have hmesh := programMesh h.toSphereSetup le_rfl (b := T) ∅
  have hl := fun t => meshAt_linear h.mesh t
  have hτ0 : ∀ j, 0 ≤ τ j := by
    intro j
    simp only [hτ]
    split_ifs
    exacts [le_rfl, hx0, hT]
  have hcase : ∀ j < 2, j = 0 ∨ j = 1 := fun j hj => by omega
  obtain ⟨V, hV, hu⟩ := c104_wellposed P.params h.directions h.checks P.fluxConfig h.sphere h.order
    2 τ (fun j hj => by rcases hcase j hj with rfl | rfl <;> simpa [hτ])
    (Or.inr (by rw [t0]; norm_num))
    (fun j hj => by
      have hF : P.fluxConfig.t0 = P.mesh.t0 := rfl
      rw [hF]
      rcases hcase j hj with rfl | rfl
      · rw [zero_add, t1, t0]
        rcases le_total P.mesh.t0 0 with h3 | h3
        · exact Or.inr h3
        · exact Or.inl (max_le h3 (min_le_left _ _))
      · rw [show 1 + 1 = 2 from rfl, t2, t1]
        rcases le_total T P.mesh.t0 with h3 | h3
        · exact Or.inl h3
        · exact Or.inr (by rw [hx, min_eq_left h3]; exact le_max_right _ _))
    (meshAt P) (by rw [t0, t2]; exact hmesh.centre) (by rw [t0, t2]; exact hmesh.ordered)
    (by rw [t0, t2]; exact hmesh.cont)
    (fun j _ k hk => ⟨fun _ => d k, continuousOn_const, fun t _ => (hl t).2 k hk⟩)
    (programMats P)
    (fun j _ t ht k hk => (programMesh h.toSphereSetup (a := 0) (b := t + 1) le_rfl ∅).mats t
      ⟨⟨(hτ0 j).trans ht.1.le, by linarith⟩, notMem_empty _⟩ k hk)
    S
    (fun j _ k hk i hi => ⟨_, (hsrc k hk i hi).mono fun t ht => (hτ0 j).trans ht.1,
      fun t _ => rfl⟩) V0
  have hset : {t | ∃ j < 2, t = τ j} = {0, x} := by
    ext t
    constructor
    · rintro ⟨j, hj, rfl⟩
      rcases hcase j hj with rfl | rfl
      exacts [Or.inl rfl, Or.inr rfl]
    · rintro (rfl | rfl)
      exacts [⟨0, by norm_num, rfl⟩, ⟨1, by norm_num, rfl⟩]
  rw [hset, t0, t2] at hV
  rw [t0, t2] at hu
  exact ⟨V, hV, hu⟩

/-- C124: the run with the exactly integrated source exists, from every initial state. -/
theorem c124_exact_run {P : Problem} {e d : ℕ → ℝ} (h : SourceSetting P e d) (hx : 0 < P.mesh.x0)
    {T : ℝ} (hT : 0 ≤ T) (V0 : ℕ → ℕ → ℕ → ℝ) :
    ∃ W, SphereSolutionOn P.params P.fluxConfig (meshAt P) (programMats P) (exactSource P) 0 T
        {0, max 0 (min P.mesh.t0 T)} W ∧
      ∀ l < P.Nang, ∀ k < P.mesh.N, ∀ i ≤ P.M, W 0 l k i = V0 l k i := by
  obtain ⟨W, hW, -⟩ := run_exists h.problem (S := exactSource P)
    (fun k hk i _ => continuousOn_exactSource h hx hk i) hT V0
  exact ⟨W, hW⟩

/-! ### One constant per shell: the limit of the runs -/

theorem SphereSolutionOn.restrict {p : RhsParams} {c : FluxConfig} {mesh : ℝ → MeshView}
    {mats : ℝ → ℕ → CellMats} {S : ℝ → ℕ → ℕ → ℝ} {a b a' b' : ℝ} {F : Set ℝ}
    {V : ℝ → ℕ → ℕ → ℕ → ℝ} (h : SphereSolutionOn p c mesh mats S a b F V) (ha : a ≤ a')
    (hb : b' ≤ b) : SphereSolutionOn p c mesh mats S a' b' F V :=
  ⟨fun l hl k hk i hi => (h.1 l hl k hk i hi).mono (Icc_subset_Icc ha hb),
    fun t ht => h.2 t ⟨⟨ha.trans ht.1.1, ht.1.2.trans_le hb⟩, ht.2⟩⟩

theorem sphereQuad_zero : sphereQuad 0 = [(0, Real.pi)] := by
  unfold sphereQuad chebNode chebWeight
  have h : (2 * (((0 : ℕ) : ℝ) + 1) - 1) / 2 / ((6 * 0 + 1 : ℕ) : ℝ) * Real.pi = Real.pi / 2 := by
    norm_num
    ring
  have h2 : List.range (6 * 0 + 1) = [0] := rfl
  rw [h2, List.map_cons, List.map_nil, h, Real.cos_pi_div_two]
  norm_num

theorem sphereQuad_open (M : ℕ) : OpenNodes (sphereQuad M) := by
  intro z hz
  unfold sphereQuad at hz
  obtain ⟨i, hi, rfl⟩ := List.mem_map.1 hz
  have hi : i < 6 * M + 1 := List.mem_range.1 hi
  have hn : (0 : ℝ) < ((6 * M + 1 : ℕ) : ℝ) := by positivity
  have hi' : (i : ℝ) + 1 ≤ ((6 * M + 1 : ℕ) : ℝ) := by exact_mod_cast hi
  have hp := Real.pi_pos
  set θ := (2 * ((i : ℝ) + 1) - 1) / 2 / ((6 * M + 1 : ℕ) : ℝ) * Real.pi with hθ
  have h0 : 0 < θ := by
    have : (0 : ℝ) < 2 * ((i : ℝ) + 1) - 1 := by
      have : (0 : ℝ) ≤ i := Nat.cast_nonneg i
      linarith
    positivity
  have h1 : θ < Real.pi := by
    have : (2 * ((i : ℝ) + 1) - 1) / 2 / ((6 * M + 1 : ℕ) : ℝ) < 1 := by
      rw [div_lt_one hn]
      linarith
    rw [hθ]
    nlinarith
  show -1 < Real.cos θ ∧ Real.cos θ < 1
  constructor
  · rw [← Real.cos_pi]
    exact Real.cos_lt_cos_of_nonneg_of_le_pi h0.le le_rfl h1
  · rw [← Real.cos_zero]
    exact Real.cos_lt_cos_of_nonneg_of_le_pi le_rfl h1.le h0

theorem sphereBasis_zero (r a b : ℝ) : sphereBasis 0 r a b = √(1 / (Real.pi * (b - a))) := by
  simp [sphereBasis]

theorem weightedMoment_zero (f : ℝ → ℝ) (a b : ℝ) :
    weightedMoment f a b 0 = √(1 / (Real.pi * (b - a))) * ∫ r in a..b, r ^ 2 * f r := by
  unfold weightedMoment
  rw [← intervalIntegral.integral_const_mul]
  refine intervalIntegral.integral_congr fun r _ => ?_
  simp only [sphereBasis_zero]
  ring

/-- The only moment of the program with one constant per shell. -/
theorem sphereMoment_midpoint (f : ℝ → ℝ) {a b : ℝ} (h : a < b) :
    (sphereMoment (sphereQuad 0) f a b 0).getD 0 =
      Real.pi / 2 * (√(1 / (Real.pi * (b - a))) * ((b - a) * ((a + b) / 2) ^ 2 * f ((a + b) / 2))) := by
  rw [sphereQuad_zero]
  unfold sphereMoment
  rw [if_pos (Nat.zero_le _)]
  simp only [Option.getD_some, List.map_cons, List.map_nil, List.sum_cons, List.sum_nil,
    normTn_quadPoint (Nat.zero_le 12) h, sphereBasis_zero]
  have e : quadPoint a b 0 = (a + b) / 2 := by unfold quadPoint; ring
  rw [e]
  norm_num
  ring

theorem midpoint_source {P : Problem} {e d : ℕ → ℝ} (h : SourceSetting P e d)
    (hask : SourceAsked P) (h0 : P.mesh.st 0 = 0) (hq : P.quad = sphereQuad 0) {t : ℝ} (ht : 0 ≤ t)
    {k : ℕ} (hk : k < P.mesh.N) :
    1 / 2 * (programSource P t k 0 - Real.pi / 2 * exactSource P t k 0) * P.sigmaS =
      weightedMoment (fun _ => P.sigmaS * P.strength ^ 2 * (Real.pi / 4) *
          shellDefect P.mesh.x0 ((meshAt P t).edges k) ((meshAt P t).edges (k + 1)) t)
        ((meshAt P t).edges k) ((meshAt P t).edges (k + 1)) 0 := by
  obtain ⟨hab, hnn⟩ := h.edges ht
  have hv := shell_volume_pos (hnn k hk.le) (hab k hk)
  rw [c112_shell_source_strength_squared h.problem hask.1 h0 hask.2 (hq ▸ sphereQuad_open 0) ht hk,
    hq, sphereMoment_midpoint _ (hab k hk), weightedMoment_zero,
    intervalIntegral.integral_mul_const, shell_volume]
  unfold exactSource
  rw [weightedMoment_zero]
  have key : (((meshAt P t).edges (k + 1) ^ 3 - (meshAt P t).edges k ^ 3) / 3) *
      shellDefect P.mesh.x0 ((meshAt P t).edges k) ((meshAt P t).edges (k + 1)) t =
      ((meshAt P t).edges (k + 1) - (meshAt P t).edges k) *
        (((meshAt P t).edges k + (meshAt P t).edges (k + 1)) / 2) ^ 2 *
        ballFlux P.mesh.x0 (((meshAt P t).edges k + (meshAt P t).edges (k + 1)) / 2) t
      - ∫ r in ((meshAt P t).edges k)..((meshAt P t).edges (k + 1)), r ^ 2 * ballFlux P.mesh.x0 r t :=
    mul_div_cancel₀ _ hv.ne'
  linear_combination (-(√(1 / (Real.pi * ((meshAt P t).edges (k + 1) - (meshAt P t).edges k))) *
    P.sigmaS * P.strength ^ 2 * Real.pi / 4)) * key

theorem shells_sum (e : ℕ → ℝ) (N : ℕ) (g : ℝ → ℝ) :
    ∑ k ∈ Finset.range N, (g (e (k + 1)) - g (e k)) = g (e N) - g (e 0) :=
  Finset.sum_range_sub (fun k => g (e k)) N

/-- Size of the error of the source in two regimes of time. -/
theorem midpoint_energy {P : Problem} {e d : ℕ → ℝ} (h : SourceSetting P e d) (hx : 0 < P.mesh.x0)
    {t : ℝ} (ht : 0 ≤ t) {R : ℝ} (hR : (meshAt P t).edges P.mesh.N ≤ R) (c : ℝ) :
    (∑ k ∈ Finset.range P.mesh.N,
      ∫ r in ((meshAt P t).edges k)..((meshAt P t).edges (k + 1)), r ^ 2 * (c *
        shellDefect P.mesh.x0 ((meshAt P t).edges k) ((meshAt P t).edges (k + 1)) t) ^ 2 ≤
      c ^ 2 * (4 * ballDensity P.mesh.x0 ^ 2 * (R ^ 3 / 3))) ∧
    ∀ w t₀, (∀ k < P.mesh.N, (meshAt P t).edges (k + 1) - (meshAt P t).edges k ≤ w) → 0 < t₀ →
      t₀ ≤ t → ∑ k ∈ Finset.range P.mesh.N,
      ∫ r in ((meshAt P t).edges k)..((meshAt P t).edges (k + 1)), r ^ 2 * (c *
        shellDefect P.mesh.x0 ((meshAt P t).edges k) ((meshAt P t).edges (k + 1)) t) ^ 2 ≤
      c ^ 2 * (R * (4 * (ballDensity P.mesh.x0 * w * (R / t₀ + 1)) ^ 2)) := by
  obtain ⟨hab, hnn⟩ := h.edges ht
  have h0 : (meshAt P t).edges 0 = 0 := by
    rw [(meshAt_linear h.problem.mesh t).1 0 (Nat.zero_le _), h.problem.mesh.centre,
      h.problem.mesh.rest]
    simp
  have hB := ballDensity_pos hx
  have hR0 : 0 ≤ R := (hnn _ le_rfl).trans hR
  have hN1 : 1 ≤ P.mesh.N := by have := h.shells; omega
  have e1 : ∀ k, (∫ r in ((meshAt P t).edges k)..((meshAt P t).edges (k + 1)), r ^ 2 * (c *
        shellDefect P.mesh.x0 ((meshAt P t).edges k) ((meshAt P t).edges (k + 1)) t) ^ 2) =
      c ^ 2 * (shellDefect P.mesh.x0 ((meshAt P t).edges k) ((meshAt P t).edges (k + 1)) t ^ 2 *
        (((meshAt P t).edges (k + 1) ^ 3 - (meshAt P t).edges k ^ 3) / 3)) := by
    intro k
    rw [intervalIntegral.integral_mul_const, shell_volume]
    ring
  simp_rw [e1, ← Finset.mul_sum]
  constructor
  · refine mul_le_mul_of_nonneg_left ?_ (sq_nonneg c)
    have h2 : ∀ k ∈ Finset.range P.mesh.N,
        shellDefect P.mesh.x0 ((meshAt P t).edges k) ((meshAt P t).edges (k + 1)) t ^ 2 *
        (((meshAt P t).edges (k + 1) ^ 3 - (meshAt P t).edges k ^ 3) / 3) ≤
        4 * ballDensity P.mesh.x0 ^ 2 *
        (((meshAt P t).edges (k + 1) ^ 3 / 3 - (meshAt P t).edges k ^ 3 / 3)) := by
      intro k hk
      have hk := Finset.mem_range.1 hk
      have h3 := shellDefect_trivial hx ht (hnn k hk.le) (hab k hk)
      have h4 := shell_volume_pos (hnn k hk.le) (hab k hk)
      have h5 := pow_le_pow_left₀ (abs_nonneg _) h3 2
      rw [sq_abs] at h5
      calc _ ≤ (2 * ballDensity P.mesh.x0) ^ 2 *
            (((meshAt P t).edges (k + 1) ^ 3 - (meshAt P t).edges k ^ 3) / 3) :=
            mul_le_mul_of_nonneg_right h5 h4.le
        _ = _ := by ring
    refine (Finset.sum_le_sum h2).trans ?_
    rw [← Finset.mul_sum, shells_sum _ _ (fun x => x ^ 3 / 3), h0]
    have h6 : (meshAt P t).edges P.mesh.N ^ 3 ≤ R ^ 3 := pow_le_pow_left₀ (hnn _ le_rfl) hR 3
    refine mul_le_mul_of_nonneg_left ?_ (by positivity)
    norm_num
    linarith
  · intro w t₀ hw ht₀ htt
    refine mul_le_mul_of_nonneg_left ?_ (sq_nonneg c)
    have hw0 : 0 ≤ w := by
      have := hw 0 (by omega)
      have := hab 0 (by omega)
      linarith
    have h2 : ∀ k ∈ Finset.range P.mesh.N,
        shellDefect P.mesh.x0 ((meshAt P t).edges k) ((meshAt P t).edges (k + 1)) t ^ 2 *
        (((meshAt P t).edges (k + 1) ^ 3 - (meshAt P t).edges k ^ 3) / 3) ≤
        ((meshAt P t).edges (k + 1) - (meshAt P t).edges k) *
          (4 * (ballDensity P.mesh.x0 * w * (R / t₀ + 1)) ^ 2) := by
      intro k hk
      have hk := Finset.mem_range.1 hk
      refine (shellDefect_sq_le hx ht (hnn k hk.le) (hab k hk) (hw k hk)
        ((edges_mono hab (Nat.succ_le_of_lt hk) le_rfl).trans hR)).trans ?_
      have : 0 < (meshAt P t).edges (k + 1) - (meshAt P t).edges k := by linarith [hab k hk]
      have h7 : R / (t + 1e-12) ≤ R / t₀ := by
        refine div_le_div_of_nonneg_left hR0 ht₀ ?_
        have : (0 : ℝ) < 1e-12 := by norm_num
        linarith
      gcongr
    refine (Finset.sum_le_sum h2).trans ?_
    rw [← Finset.sum_mul, shells_sum _ _ (fun x => x), h0, sub_zero]
    exact mul_le_mul_of_nonneg_right hR (by positivity)

/-- C124, one constant per shell and the quadrature with which `solve` is run: with uncollided source
the answer differs from `π/2` times the run with the exactly integrated source by an amount that
tends to zero with the width `w` of the shells (choose `t₀` first, then `w`). -/
theorem c124_midpoint_bound {P : Problem} {e d : ℕ → ℝ} (h : SourceSetting P e d)
    (hask : SourceAsked P) (h0 : P.mesh.st 0 = 0) (hM : P.M = 0) (hq : P.quad = sphereQuad P.M)
    (hx : 0 < P.mesh.x0) {T w R : ℝ} (hR0 : e P.mesh.N ≤ R) (hR1 : e P.mesh.N + d P.mesh.N * T ≤ R)
    (hw0 : ∀ k < P.mesh.N, e (k + 1) - e k ≤ w)
    (hw1 : ∀ k < P.mesh.N, e (k + 1) + d (k + 1) * T - (e k + d k * T) ≤ w) {F : Set ℝ}
    (hF : F.Finite) {V W : ℝ → ℕ → ℕ → ℕ → ℝ} (hV : ProgramSolutionOn P 0 T F V)
    (hW : SphereSolutionOn P.params P.fluxConfig (meshAt P) (programMats P) (exactSource P) 0 T F W)
    {t₀ : ℝ} (ht₀ : 0 < t₀) (htT : t₀ ≤ T) :
    ∀ t ∈ Icc 0 T,
      sphereAngularSq P.params P.mesh.N P.M (meshAt P t).edges
          (fun l k i => V t l k i - Real.pi / 2 * W t l k i) ≤
        (sphereAngularSq P.params P.mesh.N P.M (meshAt P 0).edges
            (fun l k i => V 0 l k i - Real.pi / 2 * W 0 l k i)
          + (P.sigmaS * P.strength ^ 2 * (Real.pi / 4)) ^ 2 *
            (t₀ * (4 * ballDensity P.mesh.x0 ^ 2 * (R ^ 3 / 3))
              + T * (R * (4 * (ballDensity P.mesh.x0 * w * (R / t₀ + 1)) ^ 2))))
          * Real.exp (2 * P.sigmaS * T) := by
  intro t ht
  have hl := fun t => meshAt_linear h.problem.mesh t
  have hV' := (programSolution_iff h.problem _ _ _ _).1 hV
  have hRt : ∀ s ∈ Icc 0 T, (meshAt P s).edges P.mesh.N ≤ R := fun s hs => by
    rw [(hl s).1 _ le_rfl]
    exact line_le hR0 hR1 hs
  have hwt : ∀ s ∈ Icc 0 T, ∀ k < P.mesh.N, (meshAt P s).edges (k + 1) - (meshAt P s).edges k ≤ w :=
    fun s hs k hk => by
      rw [(hl s).1 k hk.le, (hl s).1 (k + 1) hk]
      have := line_le (a := e (k + 1) - e k) (b := d (k + 1) - d k) (hw0 k hk)
        (by have := hw1 k hk; linarith) hs
      linarith
  have hB := ballDensity_pos hx
  have hT : 0 ≤ T := ht₀.le.trans htT
  have hR : 0 ≤ R := ((h.edges le_rfl).2 _ le_rfl).trans (hRt 0 ⟨le_rfl, hT⟩)
  have hs := h.scattering
  set c := P.sigmaS * P.strength ^ 2 * (Real.pi / 4) with hc
  set E0 := c ^ 2 * (4 * ballDensity P.mesh.x0 ^ 2 * (R ^ 3 / 3)) with hE0
  set E1 := c ^ 2 * (R * (4 * (ballDensity P.mesh.x0 * w * (R / t₀ + 1)) ^ 2)) with hE1
  have hE0' : 0 ≤ E0 := by positivity
  have hE1' : 0 ≤ E1 := by positivity
  rw [hM] at hq
  have hsrc : ∀ t, 0 ≤ t → ∀ k < P.mesh.N, ∀ i ≤ P.M,
      1 / 2 * (programSource P t k i - Real.pi / 2 * exactSource P t k i) * P.sigmaS =
      weightedMoment (fun _ => c * shellDefect P.mesh.x0 ((meshAt P t).edges k)
        ((meshAt P t).edges (k + 1)) t) ((meshAt P t).edges k) ((meshAt P t).edges (k + 1)) i := by
    intro t ht k hk i hi
    have : i = 0 := by omega
    subst this
    exact midpoint_source h hask h0 hq ht hk
  set D : ℝ → ℝ := fun t => sphereAngularSq P.params P.mesh.N P.M (meshAt P t).edges
    (fun l k i => V t l k i - Real.pi / 2 * W t l k i) with hD
  have hD0 : 0 ≤ D 0 := by
    simp only [hD]
    unfold sphereAngularSq angularSum
    have hws := h.weights.ws h.problem.directions
    refine Finset.sum_nonneg fun l hl => mul_nonneg ?_ ?_
    · have := angularWidth_pos h.directions (Finset.mem_range.1 hl)
      show 0 ≤ P.ws l
      rw [hws l (Finset.mem_range.1 hl)]
      linarith
    · unfold sphereSqNorm
      refine Finset.sum_nonneg fun k hk => intervalIntegral.integral_nonneg
        ((h.edges le_rfl).1 k (Finset.mem_range.1 hk)).le fun r _ => by positivity
  have hfirst : ∀ t ∈ Icc 0 t₀, D t ≤ (D 0 + (t - 0) * E0) * Real.exp (2 * P.sigmaS * (t - 0)) :=
    c124_source_stability h le_rfl hF (Real.pi / 2) (hV'.restrict le_rfl htT)
      (hW.restrict le_rfl htT)
      (fun k _ t => c * shellDefect P.mesh.x0 ((meshAt P t).edges k) ((meshAt P t).edges (k + 1)) t)
      (fun _ _ _ => continuous_const) (fun t ht => hsrc t ht.1.1) hE0'
      (fun t ht => (midpoint_energy h hx ht.1.1 (hRt t ⟨ht.1.1, ht.1.2.le.trans htT⟩) c).1)
  have hsecond : ∀ t ∈ Icc t₀ T,
      D t ≤ (D t₀ + (t - t₀) * E1) * Real.exp (2 * P.sigmaS * (t - t₀)) :=
    c124_source_stability h ht₀.le hF (Real.pi / 2) (hV'.restrict ht₀.le le_rfl)
      (hW.restrict ht₀.le le_rfl)
      (fun k _ t => c * shellDefect P.mesh.x0 ((meshAt P t).edges k) ((meshAt P t).edges (k + 1)) t)
      (fun _ _ _ => continuous_const) (fun t ht => hsrc t (ht₀.le.trans ht.1.1)) hE1'
      (fun t ht => (midpoint_energy h hx (ht₀.le.trans ht.1.1)
        (hRt t ⟨ht₀.le.trans ht.1.1, ht.1.2.le⟩) c).2 w t₀
        (hwt t ⟨ht₀.le.trans ht.1.1, ht.1.2.le⟩) ht₀ ht.1.1)
  have hgoal : (D 0 + c ^ 2 * (t₀ * (4 * ballDensity P.mesh.x0 ^ 2 * (R ^ 3 / 3))
      + T * (R * (4 * (ballDensity P.mesh.x0 * w * (R / t₀ + 1)) ^ 2)))) *
      Real.exp (2 * P.sigmaS * T) = (D 0 + t₀ * E0 + T * E1) * Real.exp (2 * P.sigmaS * T) := by
    rw [hE0, hE1]
    ring
  show D t ≤ _
  rw [hgoal]
  rcases le_total t t₀ with h1 | h1
  · refine (hfirst t ⟨ht.1, h1⟩).trans ?_
    rw [sub_zero]
    have h2 : t * E0 ≤ t₀ * E0 := mul_le_mul_of_nonneg_right h1 hE0'
    have h3 : 0 ≤ T * E1 := mul_nonneg hT hE1'
    have h4 : 0 ≤ t₀ * E0 := mul_nonneg ht₀.le hE0'
    refine mul_le_mul (by linarith) (Real.exp_le_exp.2 ?_) (Real.exp_pos _).le (by linarith)
    nlinarith [ht.2]
  · have h2 := hfirst t₀ ⟨ht₀.le, le_rfl⟩
    rw [sub_zero] at h2
    refine (hsecond t ⟨h1, ht.2⟩).trans ?_
    have h3 : (t - t₀) * E1 ≤ T * E1 := mul_le_mul_of_nonneg_right (by linarith [ht.2]) hE1'
    have h5 : 0 ≤ T * E1 := mul_nonneg hT hE1'
    have h6 : 1 ≤ Real.exp (2 * P.sigmaS * t₀) := Real.one_le_exp (by positivity)
    have h4 : D t₀ + (t - t₀) * E1 ≤ (D 0 + t₀ * E0 + T * E1) * Real.exp (2 * P.sigmaS * t₀) := by
      nlinarith
    refine (mul_le_mul_of_nonneg_right h4 (Real.exp_pos _).le).trans ?_
    rw [mul_assoc, ← Real.exp_add]
    have h7 : 0 ≤ t₀ * E0 := mul_nonneg ht₀.le hE0'
    refine mul_le_mul_of_nonneg_left (Real.exp_le_exp.2 ?_) (by linarith)
    nlinarith [ht.2]

/-- C124: with one constant per shell the runs of the program tend to `π/2` times the runs with the
exactly integrated source when the shells get narrow, at fixed data. -/
theorem c124_limit {σ s x₀ R T ε : ℝ} (hx : 0 < x₀) (hR : 0 ≤ R) (hT : 0 < T) (hε : 0 < ε) :
    ∃ η > 0, ∀ (P : Problem) (e d : ℕ → ℝ), SourceSetting P e d → SourceAsked P → P.mesh.st 0 = 0 →
      P.M = 0 → P.quad = sphereQuad P.M → P.sigmaS = σ → P.strength = s → P.mesh.x0 = x₀ →
      e P.mesh.N ≤ R → e P.mesh.N + d P.mesh.N * T ≤ R →
      (∀ k < P.mesh.N, e (k + 1) - e k ≤ η) →
      (∀ k < P.mesh.N, e (k + 1) + d (k + 1) * T - (e k + d k * T) ≤ η) →
      ∀ (F : Set ℝ) (V W : ℝ → ℕ → ℕ → ℕ → ℝ), F.Finite → ProgramSolutionOn P 0 T F V →
      SphereSolutionOn P.params P.fluxConfig (meshAt P) (programMats P) (exactSource P) 0 T F W →
      (∀ l < P.Nang, ∀ k < P.mesh.N, V 0 l k 0 = 0 ∧ W 0 l k 0 = 0) →
      ∀ t ∈ Icc 0 T, sphereAngularSq P.params P.mesh.N P.M (meshAt P t).edges
          (fun l k i => V t l k i - Real.pi / 2 * W t l k i) ≤ ε := by
  have hB := ballDensity_pos hx
  set X := Real.exp (2 * σ * T) with hX
  have hX0 : 0 < X := Real.exp_pos _
  set c := (σ * s ^ 2 * (Real.pi / 4)) ^ 2 with hc
  have hc0 : 0 ≤ c := sq_nonneg _
  set A := c * (4 * ballDensity x₀ ^ 2 * (R ^ 3 / 3)) * X with hA
  have hA0 : 0 ≤ A := by positivity
  set t₀ := min T (ε / (2 * (A + 1))) with ht₀
  have ht0 : 0 < t₀ := lt_min hT (by positivity)
  set C := c * (T * (R * (4 * (ballDensity x₀ * (R / t₀ + 1)) ^ 2))) * X with hC
  have hC0 : 0 ≤ C := by positivity
  set η := min 1 (ε / (2 * (C + 1))) with hη
  have hη0 : 0 < η := lt_min one_pos (by positivity)
  refine ⟨η, hη0, ?_⟩
  intro P e d h hask h0 hM hq hσ hs hx0 hR0 hR1 hw0 hw1 F V W hF hV hW hVW t ht
  have hmain := c124_midpoint_bound h hask h0 hM hq (by rw [hx0]; exact hx) hR0 hR1 hw0 hw1 hF hV hW
    ht0 (min_le_left _ _) t ht
  have e0 : sphereAngularSq P.params P.mesh.N P.M (meshAt P 0).edges
      (fun l k i => V 0 l k i - Real.pi / 2 * W 0 l k i) = 0 := by
    unfold sphereAngularSq angularSum
    refine Finset.sum_eq_zero fun l hl => ?_
    rw [mul_eq_zero]
    right
    unfold sphereSqNorm
    refine Finset.sum_eq_zero fun k hk => ?_
    obtain ⟨h1, h2⟩ := hVW l (Finset.mem_range.1 hl) k (Finset.mem_range.1 hk)
    simp [sphereField, hM, h1, h2]
  rw [e0, zero_add, hσ, hs, hx0] at hmain
  refine hmain.trans ?_
  have h1 : A * t₀ ≤ ε / 2 := by
    have h2 : t₀ ≤ ε / (2 * (A + 1)) := min_le_right _ _
    rw [le_div_iff₀ (by positivity)] at h2
    nlinarith
  have h3 : C * η ≤ ε / 2 := by
    have h2 : η ≤ ε / (2 * (C + 1)) := min_le_right _ _
    rw [le_div_iff₀ (by positivity)] at h2
    nlinarith
  have h4 : C * η ^ 2 ≤ C * η := by
    have : η ≤ 1 := min_le_left _ _
    refine mul_le_mul_of_nonneg_left ?_ hC0
    nlinarith
  have e1 : c * (t₀ * (4 * ballDensity x₀ ^ 2 * (R ^ 3 / 3)) +
      T * (R * (4 * (ballDensity x₀ * η * (R / t₀ + 1)) ^ 2))) * X = A * t₀ + C * η ^ 2 := by
    rw [hA, hC]
    ring
  rw [e1]
  linarith

/-! ### The source of the program is too strong at every order -/

theorem sum_sin_telescope (n : ℕ) (x : ℝ) (m : ℝ) :
    2 * Real.sin (m * x) * ∑ q ∈ Finset.range n, Real.sin (m * ((2 * (q : ℝ) + 1) * x)) =
      1 - Real.cos (2 * n * (m * x)) := by
  induction n with
  | zero => simp
  | succ n ih =>
    rw [Finset.sum_range_succ, mul_add, ih]
    have h1 := Real.cos_sub (m * ((2 * (n : ℝ) + 1) * x)) (m * x)
    have h2 := Real.cos_add (m * ((2 * (n : ℝ) + 1) * x)) (m * x)
    have e1 : m * ((2 * (n : ℝ) + 1) * x) - m * x = 2 * n * (m * x) := by ring
    have e2 : m * ((2 * (n : ℝ) + 1) * x) + m * x = 2 * ((n + 1 : ℕ) : ℝ) * (m * x) := by
      push_cast; ring
    rw [e1] at h1
    rw [e2] at h2
    linarith

/-- The rule of the program applied to `r²` times the factor `√(1 - x²)`, on the cell with middle `m`
and half width `δ`. -/
theorem sphereQuad_square (M : ℕ) (m δ : ℝ) :
    ((sphereQuad M).map fun z => (δ * z.1 + m) ^ 2 * √(1 - z.1 ^ 2) * z.2).sum =
      Real.pi / (6 * M + 1) * ∑ q ∈ Finset.range (6 * M + 1),
        ((m ^ 2 + δ ^ 2 / 4) * Real.sin (1 * ((2 * (q : ℝ) + 1) * (Real.pi / (2 * (6 * M + 1)))))
          + δ * m * Real.sin (2 * ((2 * (q : ℝ) + 1) * (Real.pi / (2 * (6 * M + 1)))))
          + δ ^ 2 / 4 * Real.sin (3 * ((2 * (q : ℝ) + 1) * (Real.pi / (2 * (6 * M + 1)))))) := by
  unfold sphereQuad
  rw [List.map_map, Finset.mul_sum, ← List.sum_toFinset _ List.nodup_range, List.toFinset_range]
  refine Finset.sum_congr rfl fun q hq => ?_
  have hq : q < 6 * M + 1 := Finset.mem_range.1 hq
  have hn : (0 : ℝ) < 6 * M + 1 := by positivity
  have hq' : (q : ℝ) + 1 ≤ 6 * M + 1 := by exact_mod_cast hq
  have hp := Real.pi_pos
  set θ := (2 * (q : ℝ) + 1) * (Real.pi / (2 * (6 * M + 1))) with hθ
  have e1 : (2 * ((q : ℝ) + 1) - 1) / 2 / ((6 * M + 1 : ℕ) : ℝ) * Real.pi = θ := by
    rw [hθ]
    push_cast
    field_simp
    ring
  have h0 : 0 ≤ θ := by positivity
  have h1 : θ ≤ Real.pi := by
    rw [hθ, ← mul_div_assoc, div_le_iff₀ (by positivity)]
    nlinarith
  have hs : 0 ≤ Real.sin θ := Real.sin_nonneg_of_nonneg_of_le_pi h0 h1
  simp only [Function.comp, chebNode, chebWeight, e1]
  have e2 : √(1 - Real.cos θ ^ 2) = Real.sin θ := by
    rw [← Real.sin_sq, Real.sqrt_sq hs]
  rw [e2, one_mul, Real.sin_two_mul, Real.sin_three_mul]
  have e3 := Real.sin_sq_add_cos_sq θ
  push_cast
  have e4 : Real.cos θ ^ 2 = 1 - Real.sin θ ^ 2 := by linarith
  have e5 : (δ * Real.cos θ + m) ^ 2 * Real.sin θ * (Real.pi / (6 * M + 1)) =
      Real.pi / (6 * M + 1) * (δ ^ 2 * Real.cos θ ^ 2 * Real.sin θ + 2 * δ * m * Real.cos θ * Real.sin θ
        + m ^ 2 * Real.sin θ) := by ring
  rw [e5, e4]
  ring

/-- Sum of the rule against the integral `2 m² + 2 δ²/3` over the reference cell. -/
theorem sphereQuad_square_gt (M : ℕ) {m δ : ℝ} (hδ : 0 < δ) (hm : δ ≤ m) :
    2 * m ^ 2 + 2 / 3 * δ ^ 2 <
      ((sphereQuad M).map fun z => (δ * z.1 + m) ^ 2 * √(1 - z.1 ^ 2) * z.2).sum := by
  have hp := Real.pi_pos
  have hp3 := Real.pi_gt_three
  have hm0 : 0 < m := by linarith
  rcases Nat.eq_zero_or_pos M with rfl | hM
  · rw [sphereQuad_zero]
    simp only [List.map_cons, List.map_nil, List.sum_cons, List.sum_nil]
    norm_num
    nlinarith
  rw [sphereQuad_square]
  have hM1 : (1 : ℝ) ≤ M := by exact_mod_cast hM
  set x := Real.pi / (2 * (6 * (M : ℝ) + 1)) with hx
  have hn : (0 : ℝ) < 6 * M + 1 := by positivity
  have hx0 : 0 < x := by positivity
  have e0 : 2 * ((6 * M + 1 : ℕ) : ℝ) * x = Real.pi := by
    rw [hx]
    push_cast
    field_simp
  have hx3 : 3 * x < Real.pi := by
    have : 3 * x * (2 * (6 * (M : ℝ) + 1)) = 3 * Real.pi := by rw [hx]; field_simp
    nlinarith
  have hx1 : x < Real.pi := by linarith
  have hs1 : 0 < Real.sin x := Real.sin_pos_of_pos_of_lt_pi hx0 hx1
  have hs3 : 0 < Real.sin (3 * x) := Real.sin_pos_of_pos_of_lt_pi (by linarith) hx3
  have hl1 : Real.sin x < x := Real.sin_lt hx0
  have hl3 : Real.sin (3 * x) < 3 * x := Real.sin_lt (by linarith)
  have hs2 : 0 < Real.sin (2 * x) := Real.sin_pos_of_pos_of_lt_pi (by linarith) (by linarith)
  have t1 := sum_sin_telescope (6 * M + 1) x 1
  have t2 := sum_sin_telescope (6 * M + 1) x 2
  have t3 := sum_sin_telescope (6 * M + 1) x 3
  have a1 : 2 * ((6 * M + 1 : ℕ) : ℝ) * (1 * x) = Real.pi := by linarith
  have a2 : 2 * ((6 * M + 1 : ℕ) : ℝ) * (2 * x) = 2 * Real.pi := by linarith
  have a3 : 2 * ((6 * M + 1 : ℕ) : ℝ) * (3 * x) = Real.pi + 2 * Real.pi := by linarith
  rw [a1, Real.cos_pi, one_mul] at t1
  rw [a2, Real.cos_two_pi] at t2
  rw [a3, Real.cos_add_two_pi, Real.cos_pi] at t3
  simp only [Finset.sum_add_distrib, ← Finset.mul_sum]
  set s1 := ∑ q ∈ Finset.range (6 * M + 1), Real.sin (1 * ((2 * (q : ℝ) + 1) * x))
  set s2 := ∑ q ∈ Finset.range (6 * M + 1), Real.sin (2 * ((2 * (q : ℝ) + 1) * x))
  set s3 := ∑ q ∈ Finset.range (6 * M + 1), Real.sin (3 * ((2 * (q : ℝ) + 1) * x))
  have z2 : s2 = 0 := by
    have : 2 * Real.sin (2 * x) * s2 = 0 := by linarith
    rcases mul_eq_zero.1 this with h | h
    · linarith
    · exact h
  have ex : Real.pi / (6 * (M : ℝ) + 1) = 2 * x := by rw [hx]; field_simp
  have g1 : 2 < 2 * x * s1 := by
    have p1 : 0 < s1 := by
      have : 0 < 2 * Real.sin x * s1 := by linarith
      exact pos_of_mul_pos_right this (by linarith)
    nlinarith
  have g3 : 2 / 3 < 2 * x * s3 := by
    have p3 : 0 < s3 := by
      have : 0 < 2 * Real.sin (3 * x) * s3 := by linarith
      exact pos_of_mul_pos_right this (by linarith)
    nlinarith
  rw [z2, ex]
  have hd2 : 0 < δ ^ 2 := by positivity
  have hm2 : 0 < m ^ 2 := by positivity
  have r1 : (m ^ 2 + δ ^ 2 / 4) * 2 < (m ^ 2 + δ ^ 2 / 4) * (2 * x * s1) :=
    mul_lt_mul_of_pos_left g1 (by positivity)
  have r3 : δ ^ 2 / 4 * (2 / 3) < δ ^ 2 / 4 * (2 * x * s3) := mul_lt_mul_of_pos_left g3 (by positivity)
  have e9 : 2 * x * ((m ^ 2 + δ ^ 2 / 4) * s1 + δ * m * 0 + δ ^ 2 / 4 * s3) =
      (m ^ 2 + δ ^ 2 / 4) * (2 * x * s1) + δ ^ 2 / 4 * (2 * x * s3) := by ring
  rw [e9]
  linarith

/-- C124: in every shell that the edge of the cloud has not reached (there the uncollided flux is
constant) the source of the program has too many particles, at every order. -/
theorem c124_source_too_strong {P : Problem} {e d : ℕ → ℝ} (h : SourceSetting P e d)
    (hask : SourceAsked P) (h0 : P.mesh.st 0 = 0) (hq : P.quad = sphereQuad P.M)
    (hx : 0 < P.mesh.x0) (hs : P.strength ≠ 0) {t : ℝ} (ht : 0 ≤ t) {k : ℕ} (hk : k < P.mesh.N)
    (hin : (meshAt P t).edges (k + 1) ≤ P.mesh.x0 - (t + 1e-12)) :
    exactSource P t k 0 < programSource P t k 0 := by
  obtain ⟨hab, hnn⟩ := h.edges ht
  set a := (meshAt P t).edges k with ha
  set b := (meshAt P t).edges (k + 1) with hb
  have hab' : a < b := hab k hk
  have ha0 : 0 ≤ a := hnn k hk.le
  have hφ : ∀ r, 0 < r → r ≤ b → ballFlux P.mesh.x0 r t = Real.exp (-t) * ballDensity P.mesh.x0 * 2 := by
    intro r hr hrb
    have h12 : (0 : ℝ) < t + 1e-12 := by positivity
    rw [ballFlux_eq hr ht, ballEdge_inner hr h12 hx
      ((hrb.trans hin).trans (le_abs_self _)), if_pos (by linarith)]
    norm_num
  set φ := Real.exp (-t) * ballDensity P.mesh.x0 * 2 with hφ'
  have hφ0 : 0 < φ := by
    have := ballDensity_pos hx
    positivity
  have hB : 0 < √(1 / (Real.pi * (b - a))) :=
    Real.sqrt_pos.2 (div_pos one_pos (mul_pos Real.pi_pos (by linarith)))
  have hs2 : 0 < P.strength ^ 2 := by positivity
  rw [c112_shell_source_strength_squared h.problem hask.1 h0 hask.2 (hq ▸ sphereQuad_open P.M) ht hk]
  unfold exactSource
  rw [← ha, ← hb]
  refine mul_lt_mul_of_pos_left ?_ hs2
  have e1 : weightedMoment (fun r => ballFlux P.mesh.x0 r t) a b 0 =
      √(1 / (Real.pi * (b - a))) * ((b - a) / 2 * φ *
        (2 * ((a + b) / 2) ^ 2 + 2 / 3 * ((b - a) / 2) ^ 2)) := by
    rw [weightedMoment_zero]
    congr 1
    have : ∫ r in a..b, r ^ 2 * ballFlux P.mesh.x0 r t = ∫ r in a..b, r ^ 2 * φ := by
      refine intervalIntegral.integral_congr_ae (Filter.Eventually.of_forall fun r hr => ?_)
      rw [uIoc_of_le hab'.le] at hr
      rw [hφ r (by linarith [hr.1]) hr.2]
    rw [this, intervalIntegral.integral_mul_const, shell_volume]
    ring
  have e2 : (sphereMoment P.quad (fun r => ballFlux P.mesh.x0 r t) a b 0).getD 0 =
      √(1 / (Real.pi * (b - a))) * ((b - a) / 2 * φ *
        ((sphereQuad P.M).map fun z => ((b - a) / 2 * z.1 + (a + b) / 2) ^ 2 * √(1 - z.1 ^ 2) *
          z.2).sum) := by
    unfold sphereMoment
    rw [if_pos (Nat.zero_le _), Option.getD_some, hq]
    have : ∀ z ∈ sphereQuad P.M, quadPoint a b z.1 ^ 2 * √(1 - z.1 ^ 2) * z.2 *
        ballFlux P.mesh.x0 (quadPoint a b z.1) t * 1 * (normTn 0 (quadPoint a b z.1) a b).getD 0 =
        φ * √(1 / (Real.pi * (b - a))) *
          (((b - a) / 2 * z.1 + (a + b) / 2) ^ 2 * √(1 - z.1 ^ 2) * z.2) := by
      intro z hz
      have h1 := quadPoint_inside hab' (sphereQuad_open P.M z hz).1 (sphereQuad_open P.M z hz).2
      rw [normTn_quadPoint (Nat.zero_le 12) hab', sphereBasis_zero, hφ _ (by linarith) h1.2.le]
      unfold quadPoint
      ring
    rw [List.map_congr_left this, List.sum_map_mul_left]
    ring
  rw [e1, e2]
  refine mul_lt_mul_of_pos_left (mul_lt_mul_of_pos_left ?_ (mul_pos (by linarith) hφ0)) hB
  exact sphereQuad_square_gt P.M (by linarith) (by linarith)

/-! ### Particle numbers -/

/-- Rate at which a source makes particles. -/
noncomputable def shellEmission (P : Problem) (S : ℝ → ℕ → ℕ → ℝ) (t : ℝ) : ℝ :=
  1 / 2 * P.sigmaS * ∑ k ∈ Finset.range P.mesh.N,
    Real.sqrt (Real.pi * ((meshAt P t).edges (k + 1) - (meshAt P t).edges k)) * S t k 0

/-- Particle number of a run with any source that is continuous in time, as in C110. -/
theorem run_total {P : Problem} {e d : ℕ → ℝ} (h : SphereProblem P e d) {S : ℝ → ℕ → ℕ → ℝ}
    (hsrc : ∀ k < P.mesh.N, ContinuousOn (fun t => S t k 0) (Ici 0)) (hN : 2 ≤ P.mesh.N)
    (hd : DirectionSet P.Nang P.mus) (hsym : SymmetricSet P.Nang P.mus)
    (hw : CellWeights P)
    (hb : P.boundarySource = false) (hmms : P.mesh.st 4 ≠ 1)
    (hfast : ∀ l < P.Nang, P.mus l ≤ d P.mesh.N) {T : ℝ} {F : Set ℝ} (hF : F.Finite)
    {V : ℝ → ℕ → ℕ → ℕ → ℝ}
    (hV' : SphereSolutionOn P.params P.fluxConfig (meshAt P) (programMats P) S 0 T F V) {t : ℝ}
    (ht : t ∈ Icc 0 T) :
    programTotal P t (V t) = Real.exp ((P.sigmaS - 1) * t) * (programTotal P 0 (V 0) +
      ∫ s in (0 : ℝ)..t, Real.exp (-((P.sigmaS - 1) * s)) * shellEmission P S s) := by
  have hmesh := programMesh h.toSphereSetup le_rfl (b := T) F
  have hl := fun t => meshAt_linear h.mesh t
  have hact : ∀ left t, ¬ BoundaryActive P.fluxConfig left t := by
    intro left t
    simp [BoundaryActive, Problem.fluxConfig, hmms, hb]
  have hedges : ∀ k ≤ P.mesh.N, Continuous fun s => (meshAt P s).edges k := by
    intro k hk
    have : (fun s => (meshAt P s).edges k) = fun s => e k + d k * s :=
      funext fun s => (hl s).1 k hk
    rw [this]
    fun_prop
  have hem : ContinuousOn (shellEmission P S) (Ici 0) := by
    unfold shellEmission
    refine continuousOn_const.mul (continuousOn_finsetSum _ fun k hk => ?_)
    have hk := Finset.mem_range.1 hk
    refine ContinuousOn.mul (Continuous.continuousOn ?_) (hsrc k hk)
    exact (continuous_const.mul ((hedges _ hk).sub (hedges _ hk.le))).sqrt
  have hexp : Continuous fun s : ℝ => Real.exp (-((P.sigmaS - 1) * s)) := by fun_prop
  have hint : ContinuousOn (fun s => Real.exp (-((P.sigmaS - 1) * s)) * shellEmission P S s)
      (Ici 0) := hexp.continuousOn.mul hem
  have hT : 0 ≤ T := ht.1.trans ht.2
  set f : ℝ → ℝ := fun s => Real.exp (-((P.sigmaS - 1) * s)) * programTotal P s (V s)
    - ∫ x in (0 : ℝ)..s, Real.exp (-((P.sigmaS - 1) * x)) * shellEmission P S x with hf
  have hint' : ∀ s, 0 ≤ s → IntervalIntegrable
      (fun x => Real.exp (-((P.sigmaS - 1) * x)) * shellEmission P S x) MeasureTheory.volume 0 s :=
    fun s hs => (hint.mono (by rw [uIcc_of_le hs]; exact Icc_subset_Ici_self)).intervalIntegrable
  have hfc : ContinuousOn f (Icc 0 T) := by
    refine (hexp.continuousOn.mul (continuousOn_sphereTotal hmesh.cont hmesh.ordered hV'.1)).sub ?_
    have := intervalIntegral.continuousOn_primitive_interval' (hint' T hT) left_mem_uIcc
    rwa [uIcc_of_le hT] at this
  have hfd : ∀ x ∈ Ico 0 T \ F, HasDerivWithinAt f 0 (Ici x) x := by
    intro x hx
    obtain ⟨R, hR, hrate⟩ := hV'.2 x hx fluxInit
    have h1 := sphere_conserves_right P.params hd hsym (hw.ws h.directions) P.fluxConfig h.sphere h.order hN x
      (hact _ _) (hact _ _) (meshAt P) (programMats P x) (S x) fluxInit V R
      (by rw [(hl x).2 0 (Nat.zero_le _), h.mesh.rest]) (hmesh.ordered x ⟨hx.1.1, hx.1.2.le⟩)
      (hmesh.velocity x hx) (hmesh.mats x hx) hR hrate
    have hout : angularSum P.params.Nang P.params.ws (fun l =>
          max (P.params.mus l - (meshAt P x).Dedges P.fluxConfig.Nspace) 0 *
            sphereField P.fluxConfig.M (V x l (P.fluxConfig.Nspace - 1))
              ((meshAt P x).edges (P.fluxConfig.Nspace - 1))
              ((meshAt P x).edges P.fluxConfig.Nspace) ((meshAt P x).edges P.fluxConfig.Nspace))
        = 0 := by
      unfold angularSum
      refine Finset.sum_eq_zero fun l hl' => ?_
      have h2 : (meshAt P x).Dedges P.fluxConfig.Nspace = d P.mesh.N := (hl x).2 _ le_rfl
      have h3 : P.params.mus l ≤ d P.mesh.N := hfast l (Finset.mem_range.1 hl')
      simp only [h2, max_eq_right (sub_nonpos.2 h3), zero_mul, mul_zero]
    rw [hout, mul_zero, zero_add] at h1
    have h2 : HasDerivWithinAt (fun s : ℝ => Real.exp (-((P.sigmaS - 1) * s)))
        (-(P.sigmaS - 1) * Real.exp (-((P.sigmaS - 1) * x))) (Ici x) x := by
      have := ((((hasDerivAt_id x).const_mul (P.sigmaS - 1)).neg).exp).hasDerivWithinAt (s := Ici x)
      refine this.congr_deriv ?_
      simp only [id, mul_one, Pi.neg_apply]
      ring
    have h3 : HasDerivWithinAt
        (fun s => ∫ x in (0 : ℝ)..s, Real.exp (-((P.sigmaS - 1) * x)) * shellEmission P S x)
        (Real.exp (-((P.sigmaS - 1) * x)) * shellEmission P S x) (Ici x) x := by
      have hsub : Ici x ⊆ Ici (0 : ℝ) := Ici_subset_Ici.2 hx.1.1
      refine intervalIntegral.integral_hasDerivWithinAt_right (hint' x hx.1.1) (t := Ioi x)
        ?_ ((hint x hx.1.1).mono (Ioi_subset_Ici_self.trans hsub))
      exact (hint.mono (Ioi_subset_Ici_self.trans hsub)).stronglyMeasurableAtFilter_nhdsWithin
        measurableSet_Ioi x
    refine ((h2.mul h1).sub h3).congr_deriv ?_
    have hc : P.params.c = P.sigmaS := rfl
    have hNs : P.fluxConfig.Nspace = P.mesh.N := rfl
    rw [hc, hNs]
    unfold shellEmission
    ring
  have h4 := constant_except hF hfc hfd ht
  have h5 : f 0 = programTotal P 0 (V 0) := by
    simp [hf]
  rw [h5] at h4
  rw [← h4]
  simp only [hf]
  have h6 : Real.exp ((P.sigmaS - 1) * t) * Real.exp (-((P.sigmaS - 1) * t)) = 1 := by
    rw [← Real.exp_add]; simp
  linear_combination (-(programTotal P t (V t))) * h6

theorem content_combine (M : ℕ) (U W : ℕ → ℝ) (x : ℝ) {a b : ℝ} (h : a < b) :
    sphereContent M (fun i => U i - x * W i) a b = sphereContent M U a b - x * sphereContent M W a b := by
  have h1 := continuous_sphereField M U h
  have h2 := continuous_sphereField M W h
  unfold sphereContent
  rw [← intervalIntegral.integral_const_mul, ← intervalIntegral.integral_sub]
  · refine intervalIntegral.integral_congr fun r _ => ?_
    have := sphereField_combine M U W 1 (-x) a b r
    have e : (fun j => 1 * U j + -x * W j) = fun i => U i - x * W i := by funext j; ring
    rw [e] at this
    simp only [this]
    ring
  · exact Continuous.intervalIntegrable (by fun_prop) _ _
  · exact Continuous.intervalIntegrable (by fun_prop) _ _

theorem total_combine {P : Problem} {t : ℝ}
    (hab : ∀ k < P.mesh.N, (meshAt P t).edges k < (meshAt P t).edges (k + 1)) (V W : ℕ → ℕ → ℕ → ℝ)
    (x : ℝ) : programTotal P t (fun l k i => V l k i - x * W l k i) =
      programTotal P t V - x * programTotal P t W := by
  unfold programTotal sphereTotal angularSum
  rw [Finset.mul_sum, ← Finset.sum_sub_distrib]
  refine Finset.sum_congr rfl fun l _ => ?_
  have : ∑ k ∈ Finset.range P.fluxConfig.Nspace, sphereContent P.fluxConfig.M
      (fun i => V l k i - x * W l k i) ((meshAt P t).edges k) ((meshAt P t).edges (k + 1)) =
      ∑ k ∈ Finset.range P.fluxConfig.Nspace, (sphereContent P.fluxConfig.M (V l k)
        ((meshAt P t).edges k) ((meshAt P t).edges (k + 1)) - x * sphereContent P.fluxConfig.M (W l k)
        ((meshAt P t).edges k) ((meshAt P t).edges (k + 1))) :=
    Finset.sum_congr rfl fun k hk => content_combine _ _ _ _ (hab k (Finset.mem_range.1 hk))
  beta_reduce
  rw [this, Finset.sum_sub_distrib, ← Finset.mul_sum]
  ring

theorem content_le (M : ℕ) (U : ℕ → ℝ) {a b y : ℝ} (h : a < b) (hy : 0 < y) :
    2 * |sphereContent M U a b| ≤ y * ((b ^ 3 - a ^ 3) / 3) +
      (∫ r in a..b, r ^ 2 * sphereField M U a b r ^ 2) / y := by
  have h1 := continuous_sphereField M U h
  have e : y * ((b ^ 3 - a ^ 3) / 3) + (∫ r in a..b, r ^ 2 * sphereField M U a b r ^ 2) / y =
      ∫ r in a..b, (r ^ 2 * y + r ^ 2 * sphereField M U a b r ^ 2 / y) := by
    rw [intervalIntegral.integral_add, intervalIntegral.integral_mul_const, shell_volume,
      intervalIntegral.integral_div]
    · ring
    · exact Continuous.intervalIntegrable (by fun_prop) _ _
    · exact Continuous.intervalIntegrable (by fun_prop) _ _
  rw [e]
  unfold sphereContent
  have e2 : 2 * |∫ r in a..b, r ^ 2 * sphereField M U a b r| =
      ‖∫ r in a..b, 2 * (r ^ 2 * sphereField M U a b r)‖ := by
    rw [intervalIntegral.integral_const_mul, Real.norm_eq_abs, abs_mul, abs_of_pos (by norm_num : (0:ℝ) < 2)]
  rw [e2]
  refine intervalIntegral.norm_integral_le_of_norm_le h.le (Filter.Eventually.of_forall fun r _ => ?_)
    (Continuous.intervalIntegrable (by fun_prop) _ _)
  rw [Real.norm_eq_abs, abs_mul, abs_mul, abs_of_pos (by norm_num : (0:ℝ) < 2),
    abs_of_nonneg (sq_nonneg r)]
  set z := sphereField M U a b r
  have h2 : 2 * |z| ≤ y + z ^ 2 / y := by
    rw [← sub_nonneg]
    have : y + z ^ 2 / y - 2 * |z| = (y - |z|) ^ 2 / y := by
      rw [sub_sq, sq_abs]
      field_simp
      ring
    rw [this]
    positivity
  have h3 := mul_le_mul_of_nonneg_left h2 (sq_nonneg r)
  calc 2 * (r ^ 2 * |z|) = r ^ 2 * (2 * |z|) := by ring
    _ ≤ _ := h3
    _ = _ := by ring

/-- The particle number of a state against its square norm. -/
theorem total_le {P : Problem} {e d : ℕ → ℝ} (h : SourceSetting P e d) {t : ℝ} (ht : 0 ≤ t) {R : ℝ}
    (hR : (meshAt P t).edges P.mesh.N ≤ R) (V : ℕ → ℕ → ℕ → ℝ) {y : ℝ} (hy : 0 < y) :
    2 * |programTotal P t V| ≤ y * (R ^ 3 / 3) +
      sphereAngularSq P.params P.mesh.N P.M (meshAt P t).edges V / y := by
  obtain ⟨hab, hnn⟩ := h.edges ht
  have h0 : (meshAt P t).edges 0 = 0 := by
    rw [(meshAt_linear h.problem.mesh t).1 0 (Nat.zero_le _), h.problem.mesh.centre,
      h.problem.mesh.rest]
    simp
  obtain ⟨hp, hw1⟩ := cell_weights (p := P.params) h.directions (h.weights.ws h.problem.directions)
  have h1 : ∀ l, 2 * |∑ k ∈ Finset.range P.mesh.N, sphereContent P.M (V l k) ((meshAt P t).edges k)
      ((meshAt P t).edges (k + 1))| ≤ y * (R ^ 3 / 3) +
      sphereSqNorm P.mesh.N P.M (meshAt P t).edges (V l) / y := by
    intro l
    have h2 : ∑ k ∈ Finset.range P.mesh.N, 2 * |sphereContent P.M (V l k) ((meshAt P t).edges k)
        ((meshAt P t).edges (k + 1))| ≤ ∑ k ∈ Finset.range P.mesh.N,
        (y * ((meshAt P t).edges (k + 1) ^ 3 / 3 - (meshAt P t).edges k ^ 3 / 3) +
        (∫ r in ((meshAt P t).edges k)..((meshAt P t).edges (k + 1)),
          r ^ 2 * sphereField P.M (V l k) ((meshAt P t).edges k) ((meshAt P t).edges (k + 1)) r ^ 2) / y) := by
      refine Finset.sum_le_sum fun k hk => ?_
      have := content_le P.M (V l k) (hab k (Finset.mem_range.1 hk)) hy
      rwa [sub_div] at this
    rw [Finset.sum_add_distrib, ← Finset.mul_sum, ← Finset.mul_sum, ← Finset.sum_div,
      shells_sum _ _ (fun x => x ^ 3 / 3), h0] at h2
    have h3 := mul_le_mul_of_nonneg_left (Finset.abs_sum_le_sum_abs (fun k => sphereContent P.M (V l k)
      ((meshAt P t).edges k) ((meshAt P t).edges (k + 1))) (Finset.range P.mesh.N))
      (by norm_num : (0 : ℝ) ≤ 2)
    refine (h3.trans h2).trans (add_le_add (mul_le_mul_of_nonneg_left ?_ hy.le) le_rfl)
    have h6 : (meshAt P t).edges P.mesh.N ^ 3 ≤ R ^ 3 := pow_le_pow_left₀ (hnn _ le_rfl) hR 3
    norm_num
    linarith
  unfold programTotal sphereTotal sphereAngularSq angularSum
  have h4 : 2 * |∑ l ∈ Finset.range P.params.Nang, P.params.ws l *
      ∑ k ∈ Finset.range P.fluxConfig.Nspace, sphereContent P.fluxConfig.M (V l k)
        ((meshAt P t).edges k) ((meshAt P t).edges (k + 1))| ≤
      ∑ l ∈ Finset.range P.params.Nang, P.params.ws l * (y * (R ^ 3 / 3) +
        sphereSqNorm P.mesh.N P.M (meshAt P t).edges (V l) / y) := by
    refine (mul_le_mul_of_nonneg_left (Finset.abs_sum_le_sum_abs _ _) (by norm_num)).trans ?_
    rw [Finset.mul_sum]
    refine Finset.sum_le_sum fun l hl => ?_
    have hpl := hp l (Finset.mem_range.1 hl)
    rw [abs_mul, abs_of_pos hpl]
    calc _ = P.params.ws l * (2 * |∑ k ∈ Finset.range P.fluxConfig.Nspace, sphereContent P.fluxConfig.M
          (V l k) ((meshAt P t).edges k) ((meshAt P t).edges (k + 1))|) := by ring
      _ ≤ _ := mul_le_mul_of_nonneg_left (h1 l) hpl.le
  refine h4.trans_eq ?_
  simp only [mul_add, Finset.sum_add_distrib]
  rw [← Finset.sum_mul, hw1, one_mul, Finset.sum_div]
  congr 1
  exact Finset.sum_congr rfl fun l _ => by ring

/-- Emission of the exactly integrated source: the uncollided particles inside the mesh. -/
theorem shellEmission_exact {P : Problem} {e d : ℕ → ℝ} (h : SourceSetting P e d) (hx : 0 < P.mesh.x0)
    {t : ℝ} (ht : 0 ≤ t) : shellEmission P (exactSource P) t = 1 / 2 * P.sigmaS * (P.strength ^ 2 *
      ∫ r in (0 : ℝ)..(meshAt P t).edges P.mesh.N, r ^ 2 * ballFlux P.mesh.x0 r t) := by
  obtain ⟨hab, hnn⟩ := h.edges ht
  have h0 : (meshAt P t).edges 0 = 0 := by
    rw [(meshAt_linear h.problem.mesh t).1 0 (Nat.zero_le _), h.problem.mesh.centre,
      h.problem.mesh.rest]
    simp
  unfold shellEmission
  congr 1
  have h1 : ∀ k ∈ Finset.range P.mesh.N,
      √(Real.pi * ((meshAt P t).edges (k + 1) - (meshAt P t).edges k)) * exactSource P t k 0 =
      P.strength ^ 2 * ∫ r in ((meshAt P t).edges k)..((meshAt P t).edges (k + 1)),
        r ^ 2 * ballFlux P.mesh.x0 r t := by
    intro k hk
    have hk := hab k (Finset.mem_range.1 hk)
    have hp : 0 < Real.pi * ((meshAt P t).edges (k + 1) - (meshAt P t).edges k) :=
      mul_pos Real.pi_pos (by linarith)
    unfold exactSource
    rw [weightedMoment_zero, one_div, Real.sqrt_inv]
    have := (Real.sqrt_pos.2 hp).ne'
    field_simp
  rw [Finset.sum_congr rfl h1, ← Finset.mul_sum]
  congr 1
  have h2 := intervalIntegral.sum_integral_adjacent_intervals (μ := MeasureTheory.volume)
    (f := fun r => r ^ 2 * ballFlux P.mesh.x0 r t) (a := (meshAt P t).edges) (n := P.mesh.N)
    fun k hk => intervalIntegrable_sq_ballFlux hx ht (hnn k hk.le) (hab k hk).le
  rw [h2, h0]

/-- C124: at fixed data, as long as the edge of the cloud is beyond half its radius and nothing leaves
the mesh, runs with narrow shells make at least three halves of the particles that the exactly
integrated source makes. -/
theorem c124_too_many_particles {σ s x₀ R t : ℝ} (hσ : 0 < σ) (hs : s ≠ 0) (hx : 0 < x₀) (hR : 0 ≤ R)
    (ht : 0 < t) (htx : t + 1e-12 ≤ x₀ / 2) :
    ∃ κ > 0, ∃ η > 0, ∀ (P : Problem) (e d : ℕ → ℝ), SourceSetting P e d →
      SymmetricSet P.Nang P.mus → (∀ l < P.Nang, P.mus l ≤ d P.mesh.N) → 0 ≤ d P.mesh.N →
      SourceAsked P → P.mesh.st 0 = 0 → P.M = 0 → P.quad = sphereQuad P.M → P.sigmaS = σ →
      P.strength = s → P.mesh.x0 = x₀ → x₀ / 2 ≤ e P.mesh.N → e P.mesh.N + d P.mesh.N * t ≤ R →
      (∀ k < P.mesh.N, e (k + 1) - e k ≤ η) →
      (∀ k < P.mesh.N, e (k + 1) + d (k + 1) * t - (e k + d k * t) ≤ η) →
      ∀ (F : Set ℝ) (V W : ℝ → ℕ → ℕ → ℕ → ℝ), F.Finite → ProgramSolutionOn P 0 t F V →
      SphereSolutionOn P.params P.fluxConfig (meshAt P) (programMats P) (exactSource P) 0 t F W →
      (∀ l < P.Nang, ∀ k < P.mesh.N, V 0 l k 0 = 0 ∧ W 0 l k 0 = 0) →
      κ ≤ programTotal P t (W t) ∧ 3 / 2 * programTotal P t (W t) ≤ programTotal P t (V t) := by
  have hB := ballDensity_pos hx
  set g : ℝ → ℝ := fun τ => 1 / 2 * σ * (s ^ 2 * (Real.exp (-τ) * ballDensity x₀ * 2 * ((x₀ / 2) ^ 3 / 3)))
    with hg
  have hgc : Continuous fun τ => Real.exp (-((σ - 1) * τ)) * g τ := by
    simp only [hg]
    fun_prop
  have hg0 : ∀ τ, 0 < g τ := by
    intro τ
    have : 0 < s ^ 2 := by positivity
    simp only [hg]
    positivity
  set κ := Real.exp ((σ - 1) * t) * ∫ τ in (0 : ℝ)..t, Real.exp (-((σ - 1) * τ)) * g τ with hκ
  have hκ0 : 0 < κ := mul_pos (Real.exp_pos _) (intervalIntegral.intervalIntegral_pos_of_pos_on
    (hgc.intervalIntegrable _ _) (fun τ _ => mul_pos (Real.exp_pos _) (hg0 τ)) ht)
  set y := 7 / 100 * κ / (R ^ 3 / 3 + 1) with hy
  have hy0 : 0 < y := by positivity
  obtain ⟨η, hη, hlim⟩ := c124_limit (σ := σ) (s := s) hx hR ht (pow_pos hy0 2)
  refine ⟨κ, hκ0, η, hη, ?_⟩
  intro P e d h hsym hfast hd0 hask hst hM hq hPσ hPs hPx heN hR1 hw0 hw1 F V W hF hV hW h0
  have hPx0 : 0 < P.mesh.x0 := by rw [hPx]; exact hx
  have hl := fun t => meshAt_linear h.problem.mesh t
  have hR0 : e P.mesh.N ≤ R := by nlinarith
  have hD := hlim P e d h hask hst hM hq hPσ hPs hPx hR0 hR1 hw0 hw1 F V W hF hV hW h0 t ⟨ht.le, le_rfl⟩
  have hedge := (h.edges ht.le).1
  have hRt : (meshAt P t).edges P.mesh.N ≤ R := by rw [(hl t).1 _ le_rfl]; exact hR1
  have hW0 : programTotal P 0 (W 0) = 0 := by
    unfold programTotal sphereTotal angularSum
    refine Finset.sum_eq_zero fun l hl => mul_eq_zero_of_right _ (Finset.sum_eq_zero fun k hk => ?_)
    have := (h0 l (Finset.mem_range.1 hl) k (Finset.mem_range.1 hk)).2
    have hM' : P.fluxConfig.M = 0 := hM
    simp [sphereContent, sphereField, hM', this]
  have hsrc : ∀ k < P.mesh.N, ContinuousOn (fun t => exactSource P t k 0) (Ici 0) :=
    fun k hk => continuousOn_exactSource h hPx0 hk 0
  have htot := run_total h.problem hsrc h.shells h.directions hsym h.weights h.noBoundary
    h.noManufactured hfast hF hW ⟨ht.le, le_rfl⟩
  rw [hW0, zero_add] at htot
  have hem : ContinuousOn (shellEmission P (exactSource P)) (Ici 0) := by
    unfold shellEmission
    refine continuousOn_const.mul (continuousOn_finsetSum _ fun k hk => ?_)
    have hk := Finset.mem_range.1 hk
    refine ContinuousOn.mul (Continuous.continuousOn ?_) (hsrc k hk)
    have hcont : ∀ k ≤ P.mesh.N, Continuous fun t => (meshAt P t).edges k := by
      intro k hk
      have : (fun t => (meshAt P t).edges k) = fun t => e k + d k * t := funext fun t => (hl t).1 k hk
      rw [this]
      fun_prop
    exact (continuous_const.mul ((hcont _ hk).sub (hcont _ hk.le))).sqrt
  have hge : ∀ τ ∈ Icc 0 t, g τ ≤ shellEmission P (exactSource P) τ := by
    intro τ hτ
    rw [shellEmission_exact h hPx0 hτ.1, hPσ, hPs, hPx]
    have hsq : 0 ≤ s ^ 2 := sq_nonneg s
    simp only [hg]
    refine mul_le_mul_of_nonneg_left (mul_le_mul_of_nonneg_left ?_ hsq) (by positivity)
    have hN' : x₀ / 2 ≤ (meshAt P τ).edges P.mesh.N := by
      rw [(hl τ).1 _ le_rfl]
      have := mul_nonneg hd0 hτ.1
      linarith
    have hi := fun a b (ha : (0 : ℝ) ≤ a) (hab : a ≤ b) =>
      intervalIntegrable_sq_ballFlux (x0 := x₀) (t := τ) hx hτ.1 ha hab
    rw [← intervalIntegral.integral_add_adjacent_intervals (hi 0 (x₀ / 2) le_rfl (by linarith))
      (hi (x₀ / 2) _ (by linarith) hN')]
    have h1 : ∫ r in (0 : ℝ)..(x₀ / 2), r ^ 2 * ballFlux x₀ r τ =
        ∫ r in (0 : ℝ)..(x₀ / 2), r ^ 2 * (Real.exp (-τ) * ballDensity x₀ * 2) := by
      refine intervalIntegral.integral_congr_ae (Filter.Eventually.of_forall fun r hr => ?_)
      rw [uIoc_of_le (by linarith)] at hr
      have h12 : (0 : ℝ) < τ + 1e-12 := by have := hτ.1; positivity
      have h13 : r ≤ x₀ - (τ + 1e-12) := by linarith [hr.2, hτ.2]
      rw [ballFlux_eq hr.1 hτ.1, ballEdge_inner hr.1 h12 hx (h13.trans (le_abs_self _)),
        if_pos (by linarith [hτ.2])]
      norm_num
    have h2 : 0 ≤ ∫ r in (x₀ / 2)..(meshAt P τ).edges P.mesh.N, r ^ 2 * ballFlux x₀ r τ := by
      refine intervalIntegral.integral_nonneg hN' fun r hr => mul_nonneg (sq_nonneg r) ?_
      exact (ballFlux_mem hx (by linarith [hr.1]) hτ.1).1
    rw [h1, intervalIntegral.integral_mul_const, shell_volume]
    have : ((x₀ / 2) ^ 3 - 0 ^ 3) / 3 * (Real.exp (-τ) * ballDensity x₀ * 2) =
        Real.exp (-τ) * ballDensity x₀ * 2 * ((x₀ / 2) ^ 3 / 3) := by ring
    rw [this]
    linarith
  have hκW : κ ≤ programTotal P t (W t) := by
    rw [htot, hκ, hPσ]
    refine mul_le_mul_of_nonneg_left (intervalIntegral.integral_mono_on ht.le
      (hgc.intervalIntegrable _ _) ?_ fun τ hτ =>
        mul_le_mul_of_nonneg_left (hge τ hτ) (Real.exp_pos _).le) (Real.exp_pos _).le
    refine ContinuousOn.intervalIntegrable ?_
    rw [uIcc_of_le ht.le]
    exact (by fun_prop : Continuous fun τ : ℝ => Real.exp (-((σ - 1) * τ))).continuousOn.mul
      (hem.mono Icc_subset_Ici_self)
  refine ⟨hκW, ?_⟩
  have h1 := total_le h ht.le hRt (fun l k i => V t l k i - Real.pi / 2 * W t l k i) hy0
  rw [total_combine hedge] at h1
  have h2 : sphereAngularSq P.params P.mesh.N P.M (meshAt P t).edges
      (fun l k i => V t l k i - Real.pi / 2 * W t l k i) / y ≤ y := by
    rw [div_le_iff₀ hy0, ← sq]
    exact hD
  have h3 : y * (R ^ 3 / 3) + y = 7 / 100 * κ := by
    rw [hy]
    field_simp
  have h4 := neg_abs_le (programTotal P t (V t) - Real.pi / 2 * programTotal P t (W t))
  have h5 := Real.pi_gt_d2
  have h6 : 0 < programTotal P t (W t) := hκ0.trans_le hκW
  nlinarith

/-! ### Examples -/

/-- The shell problem on `2 n` shells with one constant per shell and the quadrature of `solve`. -/
noncomputable def exampleFine (inv : (ℕ → ℕ → ℝ) → ℕ → ℕ → ℝ) (n : ℕ) : Problem :=
  { exampleShell inv with
    mesh := { exampleShellMesh with N := 2 * n }
    M := 0
    tables := exactTables 1
    quad := sphereQuad 0 }

theorem exampleFine_square (n : ℕ) : IsSquare { exampleShellMesh with N := 2 * n } :=
  ⟨rfl, rfl, rfl, exampleShell_mesh.s3, exampleShell_mesh.s5⟩

theorem exampleFine_setting {inv : (ℕ → ℕ → ℝ) → ℕ → ℕ → ℝ} (hi : InverseCorrect 0 inv) {n : ℕ}
    (hn : 2 ≤ n) : SourceSetting (exampleFine inv n) (shellEdges (exampleFine inv n).mesh).get
      (shellState (exampleFine inv n).mesh).DedgesConst where
  problem :=
    { sphere := rfl
      mesh := shell_linear (exampleFine_square n) rfl rfl rfl (by simp [exampleFine]; omega)
        (by norm_num [exampleFine, exampleShellMesh, exampleSquareMesh])
        (by norm_num [exampleFine, exampleShellMesh, exampleSquareMesh])
      order := by norm_num [exampleFine]
      tables := exactTables_exact 1
      inverse := hi
      opacity := rfl
      directions := le_rfl
      checks := exampleShell_checks }
  shells := by simp [exampleFine]; omega
  noBoundary := rfl
  noManufactured := by
    simp [exampleFine, exampleShell, exampleShellMesh, exampleSquareMesh, MeshConfig.st]
  directions := exampleSphere_directions
  weights := exampleShell_weights inv
  scattering := by norm_num [exampleFine, exampleShell]
  middle := by
    intro l hl
    have hl : l < 2 := hl
    interval_cases l <;>
      norm_num [exampleFine, exampleShell, exampleSphereParams, angularMid, angularEdge]

/-- Runs of both kinds from rest. -/
theorem exampleFine_runs {inv : (ℕ → ℕ → ℝ) → ℕ → ℕ → ℝ} (hi : InverseCorrect 0 inv) {n : ℕ}
    (hn : 2 ≤ n) {T : ℝ} (hT : 0 ≤ T) : ∃ (F : Set ℝ) (V W : ℝ → ℕ → ℕ → ℕ → ℝ), F.Finite ∧
      ProgramSolutionOn (exampleFine inv n) 0 T F V ∧
      SphereSolutionOn (exampleFine inv n).params (exampleFine inv n).fluxConfig
        (meshAt (exampleFine inv n)) (programMats (exampleFine inv n)) (exactSource (exampleFine inv n))
        0 T F W ∧
      ∀ l < 2, ∀ k < 2 * n, V 0 l k 0 = 0 ∧ W 0 l k 0 = 0 := by
  have h := exampleFine_setting hi hn
  have hx : 0 < (exampleFine inv n).mesh.x0 := by
    norm_num [exampleFine, exampleShellMesh, exampleSquareMesh]
  obtain ⟨V, ⟨hV, hV0⟩, -⟩ := c110_wellposed_partial h.problem
    (Or.inr ⟨by simp [exampleFine, exampleShellMesh, exampleSquareMesh, MeshConfig.st],
      sphereQuad_open 0⟩) hT fun _ _ _ => 0
  obtain ⟨W, hW, hW0⟩ := c124_exact_run h hx hT fun _ _ _ => 0
  exact ⟨_, V, W, by simp, hV, hW, fun l hl k hk =>
    ⟨hV0 l hl k hk 0 (Nat.zero_le _), hW0 l hl k hk 0 (Nat.zero_le _)⟩⟩

theorem exampleFine_speed (inv : (ℕ → ℕ → ℝ) → ℕ → ℕ → ℝ) (n : ℕ) : (exampleFine inv n).mesh.speed = 1 := by
  norm_num [MeshConfig.speed, exampleFine, exampleShellMesh, exampleSquareMesh, MeshConfig.allZero]

/-- Width of the shells. -/
theorem exampleFine_width (inv : (ℕ → ℕ → ℝ) → ℕ → ℕ → ℝ) {n : ℕ} (hn : 2 ≤ n) {t : ℝ}
    (ht1 : t ≤ 1 / 2) {k : ℕ} (hk : k < 2 * n) :
    (shellEdges (exampleFine inv n).mesh).get (k + 1) +
        (shellState (exampleFine inv n).mesh).DedgesConst (k + 1) * t -
      ((shellEdges (exampleFine inv n).mesh).get k +
        (shellState (exampleFine inv n).mesh).DedgesConst k * t) ≤ 1 / (n - 1) := by
  set c := (exampleFine inv n).mesh with hc
  have hcN : c.N = 2 * n := rfl
  have hx : c.x0 = 1 / 2 := rfl
  have h1 := shell_moved (c := c) (k := k) (by omega) t
  have h2 := shell_moved (c := c) (k := k + 1) (by omega) t
  have e1 : (shellEdges c).get (k + 1) + (shellState c).DedgesConst (k + 1) * t =
      shellGrid c.x0 (1 / 10 ^ 5 + c.speed * t) c.N (c.N / 2 + 1) (k + 1) := h2
  have e2 : (shellEdges c).get k + (shellState c).DedgesConst k * t =
      shellGrid c.x0 (1 / 10 ^ 5 + c.speed * t) c.N (c.N / 2 + 1) k := h1
  have hp : c.N / 2 + 1 = n + 1 := by omega
  have hq : c.N - (n + 1) = n - 1 := by omega
  have hq' : ((c.N - (n + 1) : ℕ) : ℝ) = n - 1 := by rw [hq, Nat.cast_sub (by omega)]; simp
  have hn' : (2 : ℝ) ≤ n := by exact_mod_cast hn
  rw [e1, e2, exampleFine_speed, hp, hx]
  unfold shellGrid
  rw [hq']
  have h10 : (0 : ℝ) < n - 1 := by linarith
  rcases Nat.lt_or_ge n k with h | h
  · rw [if_neg (by omega)]
    have h3 : ((k + 1 - (n + 1) : ℕ) : ℝ) = k - n := by
      rw [Nat.add_sub_add_right, Nat.cast_sub h.le]
    rw [h3]
    rcases Nat.lt_or_ge (n + 1) k with h4 | h4
    · rw [if_neg (by omega)]
      have h5 : ((k - (n + 1) : ℕ) : ℝ) = k - n - 1 := by
        rw [Nat.cast_sub h4.le]; push_cast; ring
      rw [h5]
      have : (1 / 2 + ((k : ℝ) - n) / (n - 1) * (1 / 10 ^ 5 + 1 * t) -
          (1 / 2 + ((k : ℝ) - n - 1) / (n - 1) * (1 / 10 ^ 5 + 1 * t))) =
          (1 / 10 ^ 5 + t) / (n - 1) := by
        field_simp
        ring
      rw [this]
      gcongr
      linarith
    · obtain rfl : k = n + 1 := by omega
      rw [if_pos le_rfl]
      have : (1 / 2 + (((n + 1 : ℕ) : ℝ) - n) / (n - 1) * (1 / 10 ^ 5 + 1 * t) -
          ((n + 1 : ℕ) : ℝ) / ((n + 1 : ℕ) : ℝ) * (1 / 2)) = (1 / 10 ^ 5 + t) / (n - 1) := by
        push_cast
        field_simp
        ring
      rw [this]
      gcongr
      linarith
  · rw [if_pos (by omega), if_pos (by omega)]
    have : (((k + 1 : ℕ) : ℝ) / ((n + 1 : ℕ) : ℝ) * (1 / 2) - (k : ℝ) / ((n + 1 : ℕ) : ℝ) * (1 / 2)) =
        1 / (2 * (n + 1)) := by
      push_cast
      field_simp
      ring
    rw [this]
    apply one_div_le_one_div_of_le h10
    linarith

theorem exampleFine_outer (inv : (ℕ → ℕ → ℝ) → ℕ → ℕ → ℝ) {n : ℕ} (hn : 2 ≤ n) :
    (shellEdges (exampleFine inv n).mesh).get (2 * n) = 1 / 2 + 1 / 10 ^ 5 ∧
      (shellState (exampleFine inv n).mesh).DedgesConst (2 * n) = 1 := by
  have hcN : (exampleFine inv n).mesh.N = 2 * n := rfl
  have h1 := shell_outer_speed (c := (exampleFine inv n).mesh) (by omega)
  rw [exampleFine_speed, hcN] at h1
  refine ⟨?_, h1⟩
  rw [shell_get (by omega), hcN, shellGrid, if_neg (by omega), div_self]
  · have : (exampleFine inv n).mesh.x0 = 1 / 2 := rfl
    rw [this]
    ring
  · exact Nat.cast_ne_zero.2 (by omega)

/-- In the innermost of four shells the program's source is too strong at the start. -/
example (inv : (ℕ → ℕ → ℝ) → ℕ → ℕ → ℝ) (hi : InverseCorrect 0 inv) :
    exactSource (exampleFine inv 2) 0 0 0 < programSource (exampleFine inv 2) 0 0 0 := by
  have h := exampleFine_setting hi le_rfl
  refine c124_source_too_strong h ⟨rfl, rfl⟩ rfl rfl
    (by norm_num [exampleFine, exampleShellMesh, exampleSquareMesh])
    (by norm_num [exampleFine, exampleShell]) le_rfl (by simp [exampleFine]) ?_
  rw [(meshAt_linear h.problem.mesh 0).1 1 (by simp [exampleFine])]
  have h1 := shell_get (c := (exampleFine inv 2).mesh) (k := 1) (by simp [exampleFine])
  have hx : (exampleFine inv 2).mesh.x0 = 1 / 2 := rfl
  have hN : (exampleFine inv 2).mesh.N = 4 := rfl
  rw [h1, hx, hN]
  norm_num [shellGrid]

/-- Four shells: how far the run is from `π/2` times the run with the exactly integrated source. -/
example (inv : (ℕ → ℕ → ℝ) → ℕ → ℕ → ℝ) (hi : InverseCorrect 0 inv) :
    ∃ V W : ℝ → ℕ → ℕ → ℕ → ℝ,
      sphereAngularSq (exampleFine inv 2).params 4 0 (meshAt (exampleFine inv 2) (1 / 8)).edges
        (fun l k i => V (1 / 8) l k i - Real.pi / 2 * W (1 / 8) l k i) ≤
      (sphereAngularSq (exampleFine inv 2).params 4 0 (meshAt (exampleFine inv 2) 0).edges
          (fun l k i => V 0 l k i - Real.pi / 2 * W 0 l k i)
        + (1 / 2 * 1 ^ 2 * (Real.pi / 4)) ^ 2 * (1 / 8 * (4 * ballDensity (1 / 2) ^ 2 * (1 ^ 3 / 3))
          + 1 / 8 * (1 * (4 * (ballDensity (1 / 2) * 1 * (1 / (1 / 8) + 1)) ^ 2))))
        * Real.exp (2 * (1 / 2) * (1 / 8)) := by
  have h := exampleFine_setting hi le_rfl
  obtain ⟨F, V, W, hF, hV, hW, -⟩ := exampleFine_runs hi le_rfl (T := 1 / 8) (by norm_num)
  obtain ⟨o1, o2⟩ := exampleFine_outer inv le_rfl
  refine ⟨V, W, ?_⟩
  have hR0 : (shellEdges (exampleFine inv 2).mesh).get (exampleFine inv 2).mesh.N ≤ 1 := by
    refine o1.trans_le ?_
    norm_num
  refine c124_midpoint_bound h ⟨rfl, rfl⟩ rfl rfl rfl
    (by norm_num [exampleFine, exampleShellMesh, exampleSquareMesh]) (T := 1 / 8) (w := 1) (R := 1) hR0
    ?_ ?_ ?_ hF hV hW (by norm_num) le_rfl _ ⟨by norm_num, le_rfl⟩
  · have : (shellEdges (exampleFine inv 2).mesh).get (exampleFine inv 2).mesh.N +
        (shellState (exampleFine inv 2).mesh).DedgesConst (exampleFine inv 2).mesh.N * (1 / 8) =
        1 / 2 + 1 / 10 ^ 5 + 1 * (1 / 8) := by
      rw [← o1, ← o2]
      rfl
    rw [this]
    norm_num
  · intro k hk
    have := exampleFine_width inv le_rfl (t := 0) (by norm_num) (k := k) hk
    norm_num at this
    norm_num
    linarith
  · intro k hk
    have := exampleFine_width inv le_rfl (t := 1 / 8) (by norm_num) (k := k) hk
    norm_num at this
    norm_num
    linarith

/-- On a fine enough mesh the run from rest really makes half as many particles again as it should. -/
example (inv : (ℕ → ℕ → ℝ) → ℕ → ℕ → ℝ) (hi : InverseCorrect 0 inv) :
    ∃ (n : ℕ) (F : Set ℝ) (V W : ℝ → ℕ → ℕ → ℕ → ℝ), 2 ≤ n ∧
      ProgramSolutionOn (exampleFine inv n) 0 (1 / 8) F V ∧
      SphereSolutionOn (exampleFine inv n).params (exampleFine inv n).fluxConfig
        (meshAt (exampleFine inv n)) (programMats (exampleFine inv n)) (exactSource (exampleFine inv n))
        0 (1 / 8) F W ∧
      (∀ l < 2, ∀ k < 2 * n, V 0 l k 0 = 0 ∧ W 0 l k 0 = 0) ∧
      0 < programTotal (exampleFine inv n) (1 / 8) (W (1 / 8)) ∧
      3 / 2 * programTotal (exampleFine inv n) (1 / 8) (W (1 / 8)) ≤
        programTotal (exampleFine inv n) (1 / 8) (V (1 / 8)) := by
  obtain ⟨κ, hκ, η, hη, hmain⟩ := c124_too_many_particles (σ := 1 / 2) (s := 1) (x₀ := 1 / 2) (R := 1)
    (t := 1 / 8) (by norm_num) one_ne_zero (by norm_num) zero_le_one (by norm_num) (by norm_num)
  obtain ⟨m, hm⟩ := exists_nat_gt (1 / η)
  set n := m + 2 with hn
  have hn2 : 2 ≤ n := by omega
  have hnη : (1 : ℝ) / (n - 1) ≤ η := by
    rw [div_le_iff₀ (by rw [hn]; push_cast; linarith [(Nat.cast_nonneg m : (0 : ℝ) ≤ m)])]
    have h1 := (div_lt_iff₀ hη).1 hm
    have h2 : ((n : ℝ) - 1) = m + 1 := by rw [hn]; push_cast; ring
    rw [h2]
    nlinarith
  have h := exampleFine_setting hi hn2
  obtain ⟨F, V, W, hF, hV, hW, h0⟩ := exampleFine_runs hi hn2 (T := 1 / 8) (by norm_num)
  obtain ⟨o1, o2⟩ := exampleFine_outer inv hn2
  have o1' : (shellEdges (exampleFine inv n).mesh).get (exampleFine inv n).mesh.N =
    1 / 2 + 1 / 10 ^ 5 := o1
  have o2' : (shellState (exampleFine inv n).mesh).DedgesConst (exampleFine inv n).mesh.N = 1 := o2
  obtain ⟨h1, h2⟩ := hmain (exampleFine inv n) _ _ h exampleSphere_symmetric
    (fun l hl => by
      have hl : l < 2 := hl
      rw [o2']
      interval_cases l <;> norm_num [exampleFine, exampleShell, exampleSphereParams])
    (by rw [o2']; norm_num) ⟨rfl, rfl⟩ rfl rfl rfl rfl rfl rfl
    (by rw [o1']; norm_num)
    (by rw [o1', o2']; norm_num)
    (fun k hk => by
      have := exampleFine_width inv hn2 (t := 0) (by norm_num) (k := k) hk
      simp only [mul_zero, add_zero] at this
      exact this.trans hnη)
    (fun k hk => (exampleFine_width inv hn2 (t := 1 / 8) (by norm_num) (k := k) hk).trans
      hnη) F V W hF hV hW h0
  exact ⟨n, F, V, W, hn2, hV, hW, h0, hκ.trans_le h1, h2⟩

/-- Runs with the exactly integrated source from rest and from another start. -/
example (inv : (ℕ → ℕ → ℝ) → ℕ → ℕ → ℝ) (hi : InverseCorrect 0 inv) :
    ∃ V W : ℝ → ℕ → ℕ → ℕ → ℝ, (∀ l < 2, ∀ k < 4, V 0 l k 0 = 0) ∧
      (∀ l < 2, ∀ k < 4, W 0 l k 0 = k + 1) ∧
      sphereAngularSq (exampleFine inv 2).params 4 0 (meshAt (exampleFine inv 2) 3).edges
          (fun l k i => V 3 l k i - 1 * W 3 l k i) ≤
        (sphereAngularSq (exampleFine inv 2).params 4 0 (meshAt (exampleFine inv 2) 0).edges
          (fun l k i => V 0 l k i - 1 * W 0 l k i) + (3 - 0) * 0) * Real.exp (2 * (1 / 2) * (3 - 0)) := by
  have h := exampleFine_setting hi le_rfl
  have hx : 0 < (exampleFine inv 2).mesh.x0 := by
    norm_num [exampleFine, exampleShellMesh, exampleSquareMesh]
  obtain ⟨V, hV, hV0⟩ := c124_exact_run h hx (T := 3) (by norm_num) fun _ _ _ => 0
  obtain ⟨W, hW, hW0⟩ := c124_exact_run h hx (T := 3) (by norm_num) fun _ k _ => k + 1
  refine ⟨V, W, fun l hl k hk => hV0 l hl k hk 0 le_rfl, fun l hl k hk => hW0 l hl k hk 0 le_rfl, ?_⟩
  exact c124_source_stability h le_rfl (by simp) 1 hV hW (fun _ _ _ => 0)
    (fun _ _ _ => continuous_const) (fun t _ k _ i _ => by simp [weightedMoment]) le_rfl
    (fun t _ => by simp) 3 ⟨by norm_num, le_rfl⟩

end Verif.Props
