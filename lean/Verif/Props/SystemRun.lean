import Verif.Props.SystemSphere
import Verif.Props.UncollidedMore

/-!
Property C112: a run of the composed sphere solver, from the initial state that `solve` builds.
-/

namespace Verif.Props

open Set Filter Verif.Spec Verif.Model Verif.Lemmas

/-! ### The initial state -/

/-- `V` is the initial state that `solve` hands to the integrator. -/
def StartsFrom (P : Problem) (V : ℕ → ℕ → ℕ → ℝ) : Prop :=
  ∀ l < P.Nang, ∀ k < P.mesh.N, ∀ j ≤ P.M, P.initial l k j = some (V l k j)

/-- `V` is a run of the program up to time `T`: it starts from the initial state of the program and
solves its equations except at the times in `F`. -/
def RunOn (P : Problem) (T : ℝ) (F : Set ℝ) (V : ℝ → ℕ → ℕ → ℕ → ℝ) : Prop :=
  StartsFrom P (V 0) ∧ ProgramSolutionOn P 0 T F V

/-- The weights of the program, scaled so that the sum over directions is an integral over
`[-1, 1]`. -/
noncomputable def runWeights (P : Problem) : List ℝ := (List.range P.Nang).map fun l => 2 * P.ws l

/-- Number of particles of a state at a time. -/
noncomputable def runParticles (P : Problem) (t : ℝ) (V : ℕ → ℕ → ℕ → ℝ) : ℝ :=
  sphereParticles (runWeights P) P.M P.mesh.N V (meshAt P t).edges

theorem runWeights_length (P : Problem) : (runWeights P).length = P.Nang := by simp [runWeights]

theorem runWeights_get (P : Problem) {l : ℕ} (hl : l < P.Nang) :
    (runWeights P).getD l 0 = 2 * P.ws l := by
  simp [runWeights, hl]

theorem runWeights_sum {P : Problem} (h : CellWeights P) (hn : 2 ≤ P.Nang) :
    (runWeights P).sum = 2 := by
  have h1 : ∀ l ∈ Finset.range P.Nang, (runWeights P).getD l 0 = angularWidth P.Nang P.mus l := by
    intro l hl
    have hl := Finset.mem_range.1 hl
    rw [runWeights_get P hl, h.ws hn l hl]
    ring
  rw [← sum_getD, runWeights_length, Finset.sum_congr rfl h1, c15_widths_sum P.Nang (by omega)]

theorem runParticles_eq (P : Problem) (t : ℝ) (V : ℕ → ℕ → ℕ → ℝ) :
    runParticles P t V = 8 * Real.pi * programTotal P t V := by
  unfold runParticles sphereParticles programTotal sphereTotal angularSum
  rw [runWeights_length,
    Finset.sum_congr rfl fun l hl => by rw [runWeights_get P (Finset.mem_range.1 hl)],
    Finset.mul_sum, Finset.mul_sum]
  refine Finset.sum_congr rfl fun l _ => ?_
  have e1 : P.params.ws = P.ws := rfl
  have e2 : P.fluxConfig.M = P.M := rfl
  have e3 : P.fluxConfig.Nspace = P.mesh.N := rfl
  rw [e1, e2, e3]
  ring

/-- The initial state exists whenever the mesh can be built and the source is one of the two kinds
that the sphere knows. -/
theorem initial_exists {P : Problem} {m : MeshState} (hm : meshInit P.mesh = some m)
    (hg : P.mesh.geometry = .sphere) (h2 : P.mesh.st 0 ≠ 2)
    (hk : P.uncollided = true ∨ P.mesh.st 0 = 1 ∨ P.mesh.st 1 = 1) (hM : P.M ≤ 12) :
    ∃ V, StartsFrom P V := by
  have key : ∀ l k j, j ≤ P.M → ∃ v, P.initial l k j = some v := by
    intro l k j hj
    unfold Problem.initial
    rw [hm, Option.bind_some]
    unfold BuildConfig.initial
    have hic : (P.buildConfig m.edges).icObject = some { (P.buildConfig m.edges).ic with
        x0 := (P.buildConfig m.edges).adjustedX0, x1 := 0 } := by
      unfold BuildConfig.icObject
      rw [if_neg fun h => h2 h.2.1]
    have hg' : (P.buildConfig m.edges).ic.geometry = .sphere := hg
    rw [hic, Option.bind_some]
    simp only [hg']
    rw [if_neg]
    · unfold sphereProjection
      rw [if_pos (hj.trans hM)]
      exact ⟨_, rfl⟩
    · rintro ⟨a, b, c⟩
      rcases hk with h | h | h
      · have : P.uncollided = false := a
        simp [h] at this
      · exact b h
      · exact c h
  choose! V hV using key
  exact ⟨V, fun l _ k _ j hj => hV l k j hj⟩

theorem initial_build {P : Problem} {m : MeshState} (hm : meshInit P.mesh = some m) (l k j : ℕ) :
    P.initial l k j = (P.buildConfig m.edges).initial l k j := by
  unfold Problem.initial
  rw [hm, Option.bind_some]

/-- The Chebyshev nodes are inside the interval. -/
theorem chebRule_open (n : ℕ) : OpenNodes (chebRule n) := by
  intro z hz
  obtain ⟨i, hi, rfl⟩ := List.mem_map.1 hz
  have hi : i < n := List.mem_range.1 hi
  have hn : (0 : ℝ) < n := by exact_mod_cast (by omega : 0 < n)
  have hi' : (i : ℝ) + 1 ≤ n := by exact_mod_cast hi
  have h0 := Nat.cast_nonneg (α := ℝ) i
  set θ : ℝ := (2 * ((i : ℝ) + 1) - 1) / 2 / n * Real.pi with hθ
  have h1 : 0 < θ := by
    have : 0 < (2 * ((i : ℝ) + 1) - 1) / 2 / n := div_pos (by linarith) hn
    exact mul_pos this Real.pi_pos
  have h2 : θ < Real.pi := by
    have : (2 * ((i : ℝ) + 1) - 1) / 2 / n < 1 := by rw [div_lt_one hn]; linarith
    calc θ < 1 * Real.pi := mul_lt_mul_of_pos_right this Real.pi_pos
      _ = Real.pi := one_mul _
  have hc : chebNode n i = Real.cos θ := rfl
  refine ⟨?_, ?_⟩
  · show -1 < chebNode n i
    rw [hc, ← Real.cos_pi]
    exact Real.cos_lt_cos_of_nonneg_of_le_pi h1.le le_rfl h2
  · show chebNode n i < 1
    rw [hc, ← Real.cos_zero]
    exact Real.cos_lt_cos_of_nonneg_of_le_pi le_rfl h2.le h1

/-! ### The shell without uncollided treatment -/

/-- C112, shell: the program starts from exactly one state, has exactly one run, and the number of
particles in the run is the strength asked for times the decay by collisions. -/
theorem c112_shell_run_partial {P : Problem} (hsq : IsSquare P.mesh) (hmv : P.mesh.moving = true)
    (hg : P.mesh.geometry = .sphere) (hfin : P.mesh.finiteDomain = false) (hN : 3 ≤ P.mesh.N)
    (hx : 0 < P.mesh.x0) (hv : 0 ≤ P.mesh.edgeV) (hM : P.M ≤ 10)
    (htab : TablesExact P.tables (P.M + 1)) (hinv : InverseCorrect P.M P.inv) (hn : 2 ≤ P.Nang)
    (hop : P.sigmaFunc = .constant) (hu : P.uncollided = false)
    (hquad : P.quad = chebRule (6 * P.M + 1))
    (hd : DirectionSet P.Nang P.mus) (hsym : SymmetricSet P.Nang P.mus)
    (hch : centreChecks P.Nang P.mus)
    (hw : CellWeights P) (hb : P.boundarySource = false) (hmms : P.mesh.st 4 ≠ 1)
    (hfast : ∀ l < P.Nang, P.mus l ≤ P.mesh.edgeV) {T : ℝ} (hT : 0 ≤ T) :
    ∃ V, RunOn P T {0, max 0 (min P.mesh.t0 T)} V ∧
      (∀ t ∈ Icc 0 T, runParticles P t (V t) = P.strength * Real.exp ((P.sigmaS - 1) * t)) ∧
      ∀ (G : Set ℝ) (W : ℝ → ℕ → ℕ → ℕ → ℝ), G.Finite → RunOn P T G W →
        ∀ t ∈ Icc 0 T, ∀ l < P.Nang, ∀ k < P.mesh.N, ∀ i ≤ P.M, W t l k i = V t l k i := by
  have hi : meshInit P.mesh = some (shellState P.mesh) := by
    rw [shell_init (Or.inl hsq) hmv hg, if_pos (shell_size _ (by omega))]
  have hlin := shell_linear hsq hmv hg hfin (by omega) hx hv
  have hp : SphereProblem P (shellEdges P.mesh).get (shellState P.mesh).DedgesConst :=
    ⟨⟨hg, hlin, hM, htab, hinv, hn, hch⟩, hop⟩
  have hs : ¬ SourceAsked P := fun h => by simp [SourceAsked, hu] at h
  obtain ⟨V0, hV0⟩ := initial_exists hi hg (by rw [hsq.s0]; decide) (Or.inr (Or.inr hsq.s1))
    (by omega)
  obtain ⟨V, ⟨h1, h2⟩, h3⟩ := c110_wellposed_partial hp (Or.inl hs) hT V0
  have hst : StartsFrom P (V 0) := fun l hl k hk j hj => by rw [h2 l hl k hk j hj, hV0 l hl k hk j hj]
  refine ⟨V, ⟨hst, h1⟩, fun t ht => ?_, fun G W hG hW => h3 G W hG hW.2 fun l hl k hk j hj => ?_⟩
  · have hfast' : ∀ l < P.Nang, P.mus l ≤ (shellState P.mesh).DedgesConst P.mesh.N := by
      intro l hl
      rw [shell_outer_speed hN, hsq.speed]
      exact hfast l hl
    rw [runParticles_eq, c110_particle_number_without_source_partial hp hs (by omega) hd hsym hw hb
      hmms hfast' (by simp) h1 ht]
    have h0 : runParticles P 0 (V 0) = P.strength := by
      have hed : ∀ k ≤ P.mesh.N, (meshAt P 0).edges k = (shellEdges P.mesh).get k := fun k hk => by
        rw [(meshAt_linear hlin 0).1 k hk, mul_zero, add_zero]
      have e : runParticles P 0 (V 0) =
          sphereParticles (runWeights P) P.M P.mesh.N (V 0) (shellEdges P.mesh).get := by
        unfold runParticles sphereParticles
        congr 1
        refine Finset.sum_congr rfl fun l _ => ?_
        congr 1
        refine Finset.sum_congr rfl fun k hk => ?_
        have hk := Finset.mem_range.1 hk
        rw [hed k hk.le, hed (k + 1) hk]
      rw [e]
      have hgr : ∀ k ≤ P.mesh.N, (shellEdges P.mesh).get k =
          shellGrid P.mesh.x0 (1 / 10 ^ 5) P.mesh.N (P.mesh.N / 2 + 1) k := fun k hk => shell_get hk
      have hord := shellGrid_ordered (x0 := P.mesh.x0) (D := 1 / 10 ^ 5) (N := P.mesh.N)
        (p := P.mesh.N / 2 + 1) (by omega) hx (by norm_num)
      have hmid : shellGrid P.mesh.x0 (1 / 10 ^ 5) P.mesh.N (P.mesh.N / 2 + 1)
          (P.mesh.N / 2 + 1) = P.mesh.x0 := by
        rw [shellGrid, if_pos le_rfl, div_self, one_mul]
        exact Nat.cast_ne_zero.2 (by omega)
      refine c73_shell_partial (P.buildConfig (shellState P.mesh).edges) hg hu hsq.s0 hsq.s1 hx
        hquad (hM.trans (by norm_num)) (fun k hk => ?_) (fun k hk => ?_) ?_ ?_ (runWeights P)
        (runWeights_sum hw hn) (V 0) (fun l hl k hk j hj => ?_)
      · show (shellEdges P.mesh).get k < (shellEdges P.mesh).get (k + 1)
        have hk : k < P.mesh.N := hk
        rw [hgr k hk.le, hgr (k + 1) hk]
        exact hord k (k + 1) (by omega) (by omega)
      · show (shellEdges P.mesh).get (k + 1) ≤ P.mesh.x0 ∨ P.mesh.x0 ≤ (shellEdges P.mesh).get k
        have hk : k < P.mesh.N := hk
        rw [hgr k hk.le, hgr (k + 1) hk]
        rcases Nat.lt_or_ge k (P.mesh.N / 2 + 1) with h | h
        · left
          rcases Nat.eq_or_lt_of_le (Nat.succ_le_of_lt h) with h' | h'
          · rw [show k + 1 = P.mesh.N / 2 + 1 from h']
            exact hmid.le
          · exact (hord (k + 1) _ h' (by omega)).le.trans_eq hmid
        · right
          rcases Nat.eq_or_lt_of_le h with h' | h'
          · rw [← h']; exact hmid.ge
          · exact hmid.symm.le.trans (hord _ k h' (by omega)).le
      · show (shellEdges P.mesh).get 0 = 0
        rw [hgr 0 (Nat.zero_le _)]
        simp [shellGrid]
      · show P.mesh.x0 ≤ (shellEdges P.mesh).get P.mesh.N
        rw [hgr _ le_rfl]
        rcases Nat.eq_or_lt_of_le (show P.mesh.N / 2 + 1 ≤ P.mesh.N by omega) with h' | h'
        · omega
        · exact hmid.symm.le.trans (hord _ _ h' le_rfl).le
      · rw [← initial_build hi]
        rw [runWeights_length] at hl
        exact hst l hl k hk j hj
    rw [runParticles_eq] at h0
    linear_combination Real.exp ((P.sigmaS - 1) * t) * h0
  · have := hW.1 l hl k hk j hj
    rw [hV0 l hl k hk j hj] at this
    exact (Option.some_inj.1 this).symm

/-! ### The point pulse -/

/-- The arguments of `solve` for a point pulse on a moving mesh. -/
theorem point_problem {P : Problem} (hpl : IsPlane P.mesh) (h0 : P.mesh.st 0 = 1)
    (hmv : P.mesh.moving = true) (hg : P.mesh.geometry = .sphere) (hN : 1 ≤ P.mesh.N)
    (hx : 0 < P.mesh.x0) (hv : 0 ≤ P.mesh.edgeV) (hM : P.M ≤ 10)
    (htab : TablesExact P.tables (P.M + 1)) (hinv : InverseCorrect P.M P.inv) (hn : 2 ≤ P.Nang)
    (hop : P.sigmaFunc = .constant) (hch : centreChecks P.Nang P.mus) :
    SphereProblem P (fun k => (k : ℝ) / P.mesh.N * P.mesh.x0)
      fun k => (k : ℝ) / P.mesh.N * P.mesh.edgeV :=
  ⟨⟨hg, plane_linear hpl h0 hmv hg hN hx hv, hM, htab, hinv, hn, hch⟩, hop⟩

theorem point_initial_edges {c : MeshConfig} (h0 : c.st 0 = 1) (hg : c.geometry = .sphere)
    (hN : 1 ≤ c.N) (k : ℕ) :
    (simpleMovingInit c (meshBlank c)).edges k = (k : ℝ) / c.N * c.x0 := by
  have hN' : (c.N : ℝ) ≠ 0 := by positivity
  simp only [simpleMovingInit, hg, linspace_uniform, uniformGrid, h0]
  norm_num

/-- C112, point pulse: the number of particles in the run is `8π/3` times the strength asked for,
times the decay by collisions. -/
theorem c112_point_run {P : Problem} (hpl : IsPlane P.mesh) (h0 : P.mesh.st 0 = 1)
    (hmv : P.mesh.moving = true) (hg : P.mesh.geometry = .sphere) (hN : 2 ≤ P.mesh.N)
    (hx : 0 < P.mesh.x0) (hv : 0 ≤ P.mesh.edgeV) (hM : P.M ≤ 10)
    (htab : TablesExact P.tables (P.M + 1)) (hinv : InverseCorrect P.M P.inv) (hn : 2 ≤ P.Nang)
    (hop : P.sigmaFunc = .constant) (hu : P.uncollided = false)
    (hquad : P.quad = chebRule (6 * P.M + 1))
    (hd : DirectionSet P.Nang P.mus) (hsym : SymmetricSet P.Nang P.mus)
    (hch : centreChecks P.Nang P.mus)
    (hw : CellWeights P) (hb : P.boundarySource = false) (hmms : P.mesh.st 4 ≠ 1)
    (hfast : ∀ l < P.Nang, P.mus l ≤ P.mesh.edgeV) {T : ℝ} (hT : 0 ≤ T) :
    ∃ V, RunOn P T {0, max 0 (min P.mesh.t0 T)} V ∧
      (∀ t ∈ Icc 0 T, runParticles P t (V t) =
        8 * Real.pi / 3 * P.strength * Real.exp ((P.sigmaS - 1) * t)) ∧
      ∀ (G : Set ℝ) (W : ℝ → ℕ → ℕ → ℕ → ℝ), G.Finite → RunOn P T G W →
        ∀ t ∈ Icc 0 T, ∀ l < P.Nang, ∀ k < P.mesh.N, ∀ i ≤ P.M, W t l k i = V t l k i := by
  have hi := plane_init hpl hmv
  have hp := point_problem hpl h0 hmv hg (by omega) hx hv hM htab hinv hn hop hch
  have hs : ¬ SourceAsked P := fun h => by simp [SourceAsked, hu] at h
  obtain ⟨V0, hV0⟩ := initial_exists hi hg (by rw [h0]; decide) (Or.inr (Or.inl h0)) (by omega)
  obtain ⟨V, ⟨h1, h2⟩, h3⟩ := c110_wellposed_partial hp (Or.inl hs) hT V0
  have hst : StartsFrom P (V 0) := fun l hl k hk j hj => by rw [h2 l hl k hk j hj, hV0 l hl k hk j hj]
  have hN' : (P.mesh.N : ℝ) ≠ 0 := Nat.cast_ne_zero.2 (by omega)
  refine ⟨V, ⟨hst, h1⟩, fun t ht => ?_, fun G W hG hW => h3 G W hG hW.2 fun l hl k hk j hj => ?_⟩
  · rw [runParticles_eq, c110_particle_number_without_source_partial hp hs hN hd hsym hw hb
      hmms (fun l hl => by rw [div_self hN', one_mul]; exact hfast l hl) (by simp) h1 ht]
    have h0 : runParticles P 0 (V 0) = 8 * Real.pi / 3 * P.strength := by
      have hed : ∀ k ≤ P.mesh.N, (meshAt P 0).edges k =
          (simpleMovingInit P.mesh (meshBlank P.mesh)).edges k := fun k hk => by
        rw [(meshAt_linear hp.mesh 0).1 k hk, mul_zero, add_zero,
          point_initial_edges h0 hg (by omega)]
      have e : runParticles P 0 (V 0) = sphereParticles (runWeights P) P.M P.mesh.N (V 0)
          (simpleMovingInit P.mesh (meshBlank P.mesh)).edges := by
        unfold runParticles sphereParticles
        congr 1
        refine Finset.sum_congr rfl fun l _ => ?_
        congr 1
        refine Finset.sum_congr rfl fun k hk => ?_
        have hk := Finset.mem_range.1 hk
        rw [hed k hk.le, hed (k + 1) hk]
      rw [e]
      have hx' : (P.buildConfig (simpleMovingInit P.mesh (meshBlank P.mesh)).edges).adjustedX0 =
          P.mesh.x0 := by
        have : (P.buildConfig (simpleMovingInit P.mesh (meshBlank P.mesh)).edges).moving = true :=
          hmv
        unfold BuildConfig.adjustedX0
        rw [if_neg (by simp [this])]
        rfl
      have hge := point_initial_edges h0 hg (show 1 ≤ P.mesh.N by omega)
      have hle : ∀ k : ℕ, k ≤ P.mesh.N → (k : ℝ) / P.mesh.N * P.mesh.x0 ≤ P.mesh.x0 := by
        intro k hk
        have : (k : ℝ) / P.mesh.N ≤ 1 := by
          rw [div_le_one (by positivity)]
          exact_mod_cast hk
        nlinarith
      refine c73_point_pulse (P.buildConfig (simpleMovingInit P.mesh (meshBlank P.mesh)).edges) hg
        hu h0 (by rw [hx']; exact hx) hquad (hM.trans (by norm_num)) (fun k hk => ?_)
        (fun k hk => ?_) ?_ ?_ (runWeights P)
        (runWeights_sum hw hn) (V 0) (fun l hl k hk j hj => ?_)
      · show (simpleMovingInit P.mesh (meshBlank P.mesh)).edges k <
          (simpleMovingInit P.mesh (meshBlank P.mesh)).edges (k + 1)
        rw [hge, hge]
        refine mul_lt_mul_of_pos_right ?_ hx
        exact div_lt_div_of_pos_right (by push_cast; linarith) (by positivity)
      · left
        rw [hx']
        show (simpleMovingInit P.mesh (meshBlank P.mesh)).edges (k + 1) ≤ P.mesh.x0
        rw [hge]
        exact hle (k + 1) hk
      · show (simpleMovingInit P.mesh (meshBlank P.mesh)).edges 0 = 0
        rw [hge]
        simp
      · rw [hx']
        show P.mesh.x0 ≤ (simpleMovingInit P.mesh (meshBlank P.mesh)).edges P.mesh.N
        rw [hge, div_self hN', one_mul]
      · rw [← initial_build hi]
        rw [runWeights_length] at hl
        exact hst l hl k hk j hj
    rw [runParticles_eq] at h0
    linear_combination Real.exp ((P.sigmaS - 1) * t) * h0
  · have := hW.1 l hl k hk j hj
    rw [hV0 l hl k hk j hj] at this
    exact (Option.some_inj.1 this).symm

/-- The right-hand side of nothing is nothing. -/
theorem sphereRhs_zero (p : RhsParams) (c : FluxConfig) (hg : c.geometry = .sphere) (t : ℝ)
    (m : MeshView) (hm : ∀ k < c.Nspace, m.edges k < m.edges (k + 1))
    (hoff : ∀ s, isBoundarySourceOn c s t = false) (mats : ℕ → CellMats) (fs : FluxState)
    {l k i : ℕ} (hk : k < c.Nspace) :
    sphereRhs p c t m mats (fun _ _ => 0) fs (fun _ _ _ => 0) l k i = 0 := by
  have hz : ∀ (A : ℕ → ℕ → ℝ) (x : ℕ → ℝ), (∀ j ≤ c.M, x j = 0) → ∀ i, matVec c.M A x i = 0 := by
    intro A x hx i
    unfold matVec
    refine Finset.sum_eq_zero fun j hj => ?_
    rw [hx j (Nat.lt_succ_iff.1 (Finset.mem_range.1 hj)), mul_zero]
  have hf : ∀ a b x, sphereField c.M (fun _ => 0) a b x = 0 := by
    intro a b x
    simp [sphereField]
  have hd : ∀ j, dterm p (fun _ _ _ => 0) l k j = 0 := by
    intro j
    have := angularTerm_sub p.Nang p.mus (fun _ => 0) (fun _ => 0) l
    simpa [dterm] using this
  have hw : ∀ j ≤ c.M, sphereWeak p c t m (mats k) (fun _ _ => 0) fs (fun _ _ _ => 0) l k j = 0 := by
    intro j hj
    have hl : leftOuter c t m (fun _ _ => 0) k (fun _ => 0) = 0 := by
      unfold leftOuter
      simp [hoff, hg, geomField, hf]
    have hr : rightOuter c t m (fun _ _ => 0) k = 0 := by
      unfold rightOuter
      simp [hoff, hg, geomField, hf]
    unfold sphereWeak
    rw [fluxLU_eq c t m _ k _ _ fs hk hm hj, hl, hr, hz _ _ fun _ _ => rfl, hz _ _ fun j _ => hd j,
      hz _ _ fun _ _ => rfl, hz _ _ fun _ _ => rfl]
    simp [hg, geomField, hf, upwind]
  have hp : p.c * activePV p (fun _ _ _ => 0) k i = 0 := by
    rw [c_activePV]
    simp [scalarCoef, angularSum]
  unfold sphereRhs
  rw [hz _ _ hw]
  linarith

/-- With uncollided treatment the program starts from nothing. -/
theorem initial_zero {P : Problem} {m : MeshState} (hm : meshInit P.mesh = some m)
    (hg : P.mesh.geometry = .sphere) (hu : P.uncollided = true) (hM : P.M ≤ 12) :
    StartsFrom P fun _ _ _ => 0 := by
  intro l _ k _ j hj
  rw [initial_build hm]
  unfold BuildConfig.initial
  have hic : (P.buildConfig m.edges).icObject = some { (P.buildConfig m.edges).ic with
      x0 := (P.buildConfig m.edges).adjustedX0, x1 := 0 } := by
    unfold BuildConfig.icObject
    rw [if_neg]
    rintro ⟨-, -, h, -⟩
    have : P.uncollided = false := h
    simp [hu] at this
  have hg' : (P.buildConfig m.edges).ic.geometry = .sphere := hg
  have hu' : (P.buildConfig m.edges).ic.uncollided = true := hu
  rw [hic, Option.bind_some]
  simp only [hg']
  rw [if_neg (by simp [hu'])]
  unfold sphereProjection
  rw [if_pos (hj.trans hM)]
  simp [icFunction, hu']

/-- C112 fails for the point pulse with uncollided treatment: the collided flux of every run is
zero at all times, whatever the strength and the scattering. -/
theorem c112_point_uncollided_empty {P : Problem} (hpl : IsPlane P.mesh) (h0 : P.mesh.st 0 = 1)
    (hmv : P.mesh.moving = true) (hg : P.mesh.geometry = .sphere) (hN : 1 ≤ P.mesh.N)
    (hx : 0 < P.mesh.x0) (hv : 0 ≤ P.mesh.edgeV) (hM : P.M ≤ 10)
    (htab : TablesExact P.tables (P.M + 1)) (hinv : InverseCorrect P.M P.inv) (hn : 2 ≤ P.Nang)
    (hop : P.sigmaFunc = .constant) (hu : P.uncollided = true)
    (hch : centreChecks P.Nang P.mus) (hmms : P.mesh.st 4 ≠ 1) {T : ℝ} (hT : 0 ≤ T) :
    RunOn P T ∅ (fun _ _ _ _ => 0) ∧
      ∀ (G : Set ℝ) (W : ℝ → ℕ → ℕ → ℕ → ℝ), G.Finite → RunOn P T G W →
        ∀ t ∈ Icc 0 T, ∀ l < P.Nang, ∀ k < P.mesh.N, ∀ i ≤ P.M, W t l k i = 0 := by
  have hi := plane_init hpl hmv
  have hp := point_problem hpl h0 hmv hg hN hx hv hM htab hinv hn hop hch
  have hs : ¬ SourceAsked P := fun h => hpl.s1 h.2
  have hz := initial_zero hi hg hu (hM.trans (by norm_num))
  have hoff : ∀ s t, isBoundarySourceOn P.fluxConfig s t = false := by
    intro s t
    simp [isBoundarySourceOn, Problem.fluxConfig, hmms, hu]
  have hsol : ProgramSolutionOn P 0 T ∅ (fun _ _ _ _ => 0) := by
    rw [programSolution_iff hp]
    have hmesh := programMesh hp.toSphereSetup le_rfl (b := T) ∅
    refine ⟨fun _ _ _ _ _ _ => continuousOn_const, fun t ht fs => ?_⟩
    have hcall : ∃ R, activeCall P.params P.fluxConfig t (meshAt P t) (programMats P t)
        (programSource P t) fs (fun _ _ _ => 0) = some R := by
      unfold activeCall
      rw [if_neg fun h => h.2 hch, show P.fluxConfig.geometry = .sphere from hg]
      exact ⟨_, rfl⟩
    obtain ⟨R, hR⟩ := hcall
    refine ⟨R, hR, fun l hl k hk i hi => ?_⟩
    rw [activeCall_sphere hg hR hl hk hi]
    have hsrc : programSource P t = fun _ _ => 0 := by
      funext k i
      simp only [programSource, sourceOf, if_neg hs]
    rw [hsrc, sphereRhs_zero _ _ hg _ _ (hmesh.ordered t ⟨ht.1.1, ht.1.2.le⟩) (fun s => hoff s t) _
      _ hk]
    exact hasDerivWithinAt_const _ _ _
  refine ⟨⟨hz, hsol⟩, fun G W hG hW t ht l hl k hk i hi' => ?_⟩
  obtain ⟨V, -, h3⟩ := c110_wellposed_partial hp (Or.inl hs) hT fun _ _ _ => 0
  rw [h3 G W hG hW.2 (fun l hl k hk j hj => ?_) t ht l hl k hk i hi',
    ← h3 ∅ _ finite_empty hsol (fun _ _ _ _ _ _ => rfl) t ht l hl k hk i hi']
  have := hW.1 l hl k hk j hj
  rw [hz l hl k hk j hj] at this
  exact (Option.some_inj.1 this).symm

/-! ### The shell with uncollided treatment -/

/-- The scalar flux of uncollided particles that fill the ball of radius `x0` at time zero, one per
ball, at the program's shifted time: density per solid angle times the solid angle of the directions
from which they can have come. -/
noncomputable def ballFlux (x0 r t : ℝ) : ℝ :=
  Real.exp (-t) * (1 / (4 * Real.pi / 3 * x0 ^ 3) / (4 * Real.pi)) *
    (2 * Real.pi * (MeasureTheory.volume (ballDirections r (t + 1e-12) x0)).toReal)

/-- C112, shell with uncollided treatment: the source vector is the moment of the uncollided flux of
one particle in the ball of radius `x0`, times the square of the strength. -/
theorem c112_shell_source_strength_squared {P : Problem} {e d : ℕ → ℝ} (h : SphereProblem P e d)
    (hu : P.uncollided = true) (h0 : P.mesh.st 0 = 0) (h1 : P.mesh.st 1 = 1)
    (hq : OpenNodes P.quad) {t : ℝ} (ht : 0 ≤ t) {k : ℕ} (hk : k < P.mesh.N) (j : ℕ) :
    programSource P t k j = P.strength ^ 2 *
      (sphereMoment P.quad (fun r => ballFlux P.mesh.x0 r t) ((meshAt P t).edges k)
        ((meshAt P t).edges (k + 1)) j).getD 0 := by
  have hord := (programMesh h.toSphereSetup (le_refl (0 : ℝ)) (b := t) ∅).ordered t ⟨ht, le_rfl⟩
  have hnn : ∀ k ≤ P.mesh.N, 0 ≤ (meshAt P t).edges k := by
    intro k
    induction k with
    | zero =>
      intro _
      rw [(meshAt_linear h.mesh t).1 0 (Nat.zero_le _), h.mesh.centre, h.mesh.rest]
      simp
    | succ k ih => intro hk; exact (ih (by omega)).trans (hord k hk).le
  have hx0 : P.builtX0 = P.mesh.x0 := by
    unfold Problem.builtX0
    cases meshInit P.mesh with
    | none => rfl
    | some m =>
      show (P.buildConfig m.edges).adjustedX0 = P.mesh.x0
      unfold BuildConfig.adjustedX0
      rw [if_neg]
      · rfl
      · rintro ⟨-, h', -⟩
        have : P.mesh.st 0 = 1 := h'
        omega
  unfold programSource sourceOf
  rw [if_pos ⟨hu, h1⟩]
  unfold sphereMoment
  split_ifs with hj
  · simp only [Option.getD_some]
    have hfac : ∀ w x y s : ℝ, x * s = y * s ^ 2 → w * x * s = s ^ 2 * (w * y) :=
      fun w x y s h => by rw [mul_assoc, h]; ring
    refine hfac _ _ _ _ ?_
    rw [← List.sum_map_mul_right, ← List.sum_map_mul_right]
    congr 1
    refine List.map_congr_left fun z hz => ?_
    have hr : 0 < quadPoint ((meshAt P t).edges k) ((meshAt P t).edges (k + 1)) z.1 :=
      (hnn k hk.le).trans_lt (quadPoint_inside (hord k hk) (hq z hz).1 (hq z hz).2).1
    have hu' : P.uncollidedConfig.uncollided = true := hu
    have hg' : P.uncollidedConfig.geometry = .sphere := h.sphere
    have h0' : P.uncollidedConfig.st 0 = 0 := h0
    have h1' : P.uncollidedConfig.st 1 = 1 := h1
    have hx' : P.uncollidedConfig.x0 = P.mesh.x0 := hx0
    have hs' : P.uncollidedConfig.strength = P.strength := rfl
    simp only [uncollidedSolution, hu', hg', h0', h1', if_true, List.map_cons,
      hx', hs']
    rw [if_neg (by norm_num), List.getD_cons_zero, c43_shell hr ht]
    unfold ballFlux
    ring
  · simp

/-! ### Examples -/

/-- The shell example with the rule that `solve` chooses, strength three, no uncollided treatment. -/
noncomputable def exampleShellRun (inv : (ℕ → ℕ → ℝ) → ℕ → ℕ → ℝ) : Problem :=
  { exampleShell inv with quad := chebRule 7, strength := 3, uncollided := false }

/-- Three particles at the start, `3 exp (-1)` at time two. -/
example : ∃ inv, InverseCorrect 1 inv ∧ ∃ V, RunOn (exampleShellRun inv) 2 {0, 1} V ∧
    runParticles (exampleShellRun inv) 0 (V 0) = 3 ∧
    runParticles (exampleShellRun inv) 2 (V 2) = 3 * Real.exp (-1) := by
  obtain ⟨inv, hi⟩ := inverse_exists 1
  obtain ⟨V, h1, h2, -⟩ := c112_shell_run_partial (P := exampleShellRun inv) exampleShell_mesh rfl rfl
    rfl (Nat.le_of_ble_eq_true rfl)
    (by norm_num [exampleShellRun, exampleShell, exampleShellMesh, exampleSquareMesh])
    (by norm_num [exampleShellRun, exampleShell, exampleShellMesh, exampleSquareMesh])
    (Nat.le_of_ble_eq_true rfl) (exactTables_exact 2) hi le_rfl rfl rfl rfl
    exampleSphere_directions exampleSphere_symmetric exampleShell_checks
    (exampleShell_weights inv) rfl
    (by simp [exampleShellRun, exampleShell, exampleShellMesh, exampleSquareMesh, MeshConfig.st])
    (fun l hl => by
      have : l = 0 ∨ l = 1 := by
        have : l < 2 := hl
        omega
      rcases this with rfl | rfl <;>
        norm_num [exampleShellRun, exampleShell, exampleSphereParams, exampleShellMesh,
          exampleSquareMesh])
    (T := 2) (by norm_num)
  have ht : max 0 (min (exampleShellRun inv).mesh.t0 2) = 1 := by
    have : (exampleShellRun inv).mesh.t0 = 1 := rfl
    rw [this]; norm_num
  rw [ht] at h1
  have e1 : (exampleShellRun inv).strength = 3 := rfl
  have e2 : (exampleShellRun inv).sigmaS = 1 / 2 := rfl
  refine ⟨inv, hi, V, h1, ?_, ?_⟩
  · rw [h2 0 ⟨le_rfl, by norm_num⟩, e1]
    simp
  · rw [h2 2 ⟨by norm_num, le_rfl⟩, e1, e2]
    norm_num

/-- A point pulse on the same mesh. -/
noncomputable def examplePointRun (inv : (ℕ → ℕ → ℝ) → ℕ → ℕ → ℝ) (unc : Bool) : Problem :=
  { exampleShellRun inv with
    mesh := { exampleShellMesh with sourceType := [1, 0, 0, 0, 0, 0] }, uncollided := unc }

theorem examplePointRun_mesh (inv : (ℕ → ℕ → ℝ) → ℕ → ℕ → ℝ) (unc : Bool) :
    IsPlane (examplePointRun inv unc).mesh :=
  ⟨rfl, Or.inl rfl, zero_ne_one' ℤ, zero_ne_one' ℤ, zero_ne_one' ℤ, zero_ne_one' ℤ⟩

/-- Without uncollided treatment `8π` particles instead of three; with it none. -/
example : ∃ inv, InverseCorrect 1 inv ∧ (∃ V, RunOn (examplePointRun inv false) 2 {0, 1} V ∧
      runParticles (examplePointRun inv false) 0 (V 0) = 8 * Real.pi) ∧
    RunOn (examplePointRun inv true) 2 ∅ fun _ _ _ _ => 0 := by
  obtain ⟨inv, hi⟩ := inverse_exists 1
  have hx : ∀ unc, 0 < (examplePointRun inv unc).mesh.x0 := fun unc => by
    norm_num [examplePointRun, exampleShellMesh, exampleSquareMesh]
  have hv : ∀ unc, 0 ≤ (examplePointRun inv unc).mesh.edgeV := fun unc => by
    norm_num [examplePointRun, exampleShellMesh, exampleSquareMesh]
  have hmms : ∀ unc, (examplePointRun inv unc).mesh.st 4 ≠ 1 := fun _ => zero_ne_one' ℤ
  refine ⟨inv, hi, ?_, ?_⟩
  · obtain ⟨V, h1, h2, -⟩ := c112_point_run (P := examplePointRun inv false)
      (examplePointRun_mesh inv false) rfl rfl rfl (Nat.le_of_ble_eq_true rfl) (hx _) (hv _)
      (Nat.le_of_ble_eq_true rfl) (exactTables_exact 2) hi le_rfl rfl rfl rfl
      exampleSphere_directions exampleSphere_symmetric exampleShell_checks
      (exampleShell_weights inv) rfl (hmms _)
      (fun l hl => by
        have : l = 0 ∨ l = 1 := by
          have : l < 2 := hl
          omega
        rcases this with rfl | rfl <;>
          norm_num [examplePointRun, exampleShellRun, exampleShell, exampleSphereParams,
            exampleShellMesh, exampleSquareMesh])
      (T := 2) (by norm_num)
    have ht : max 0 (min (examplePointRun inv false).mesh.t0 2) = 1 := by
      have : (examplePointRun inv false).mesh.t0 = 1 := rfl
      rw [this]; norm_num
    rw [ht] at h1
    refine ⟨V, h1, ?_⟩
    rw [h2 0 ⟨le_rfl, by norm_num⟩, show (examplePointRun inv false).strength = 3 from rfl]
    simp
  · exact (c112_point_uncollided_empty (P := examplePointRun inv true)
      (examplePointRun_mesh inv true) rfl rfl rfl (Nat.le_of_ble_eq_true rfl) (hx _) (hv _)
      (Nat.le_of_ble_eq_true rfl) (exactTables_exact 2) hi le_rfl rfl rfl exampleShell_checks
      (hmms _) (T := 2) (by norm_num)).1

/-- The source of the shell example of C109. -/
example : ∃ inv, InverseCorrect 1 inv ∧ programSource (exampleShell inv) 1 3 0 = 1 ^ 2 *
    (sphereMoment (exampleShell inv).quad (fun r => ballFlux (1 / 2) r 1)
      ((meshAt (exampleShell inv) 1).edges 3) ((meshAt (exampleShell inv) 1).edges 4) 0).getD 0 := by
  obtain ⟨inv, hi⟩ := inverse_exists 1
  exact ⟨inv, hi, c112_shell_source_strength_squared (exampleShell_problem hi) rfl rfl rfl
    (exampleShell_source inv).2 zero_le_one (Nat.le_of_ble_eq_true rfl) 0⟩

end Verif.Props
