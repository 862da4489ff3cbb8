import Verif.Lemmas.System
import Verif.Props.MeshMotion
import Verif.Props.SphereExistence
import Verif.Props.SphereStability
import Verif.Props.SphereUniform
import Verif.Props.MeshExtra

/-!
Properties C109 and C110: the composed right-hand side of the sphere solver.
-/

namespace Verif.Props

open Set Verif.Spec Verif.Model Verif.Lemmas

/-! ### C109: the right-hand side is a function of time and state -/

/-- The objects can be in state `o`: they were built by `solve` and any calls were made. -/
def Reached (P : Problem) (o : Objects) : Prop :=
  ∃ o0 calls, P.objects = some o0 ∧ P.runCalls o0 calls = some o

/-- What the program returns for time `t` and state `V` when its objects are in state `o`. -/
noncomputable def answer (P : Problem) (o : Objects) (t : ℝ) (V : ℕ → ℕ → ℕ → ℝ) :
    Option (ℕ → ℕ → ℕ → ℝ) := (P.call o t V).map (·.2)

/-- The mesh at a time: the constructed mesh after one request. -/
noncomputable def meshAt (P : Problem) (t : ℝ) : MeshView :=
  match (meshInit P.mesh).bind fun s => meshMove P.mesh s t with
  | some m => ⟨m.edges, m.Dedges⟩
  | none => ⟨fun _ => 0, fun _ => 0⟩

theorem ready_run {P : Problem} (hg : P.mesh.geometry = .sphere)
    (hT : TablesUsable P.tables P.M) (hf : SteadyOpacity P) (hn : NoHistory P.mesh)
    (calls : List (ℝ × (ℕ → ℕ → ℕ → ℝ))) {o o' : Objects} (hr : Ready P o)
    (h : P.runCalls o calls = some o') :
    Ready P o' ∧ ∀ t, meshMove P.mesh o'.mesh t = meshMove P.mesh o.mesh t := by
  induction calls generalizing o with
  | nil =>
    obtain rfl := Option.some_inj.1 h
    exact ⟨hr, fun _ => rfl⟩
  | cons x xs ih =>
    rw [Problem.runCalls] at h
    obtain ⟨y, hy, hy'⟩ := Option.bind_eq_some_iff.1 h
    obtain ⟨m, hm⟩ := move_total hn o.mesh x.1
    obtain ⟨h1, h2⟩ := (call_eq hg hT hf hr x.1 x.2 hm).2 y hy
    obtain ⟨h3, h4⟩ := ih h1 hy'
    refine ⟨h3, fun t => ?_⟩
    rw [h4 t, h2]
    exact move_move hn hm

open Classical in
/-- After every history of calls the answer is the same function of time and state. -/
theorem answer_eq {P : Problem} (hg : P.mesh.geometry = .sphere)
    (hT : TablesUsable P.tables P.M) (hf : SteadyOpacity P) (hn : NoHistory P.mesh) {o : Objects}
    (ho : Reached P o) (t : ℝ) (V : ℕ → ℕ → ℕ → ℝ) :
    answer P o t V = if 0 < P.mesh.N ∧ ¬ centreChecks P.Nang P.mus then none
      else some fun a q i => if a < P.Nang ∧ q < P.mesh.N ∧ i ≤ P.M then
        entryOf P (meshAt P t) t V a q i else V a q i := by
  obtain ⟨o0, calls, h0, h1⟩ := ho
  obtain ⟨hr, hm⟩ := ready_run hg hT hf hn calls (ready_objects h0) h1
  obtain ⟨m, hm'⟩ := move_total hn o.mesh t
  have e : meshAt P t = ⟨m.edges, m.Dedges⟩ := by
    unfold Problem.objects at h0
    obtain ⟨s, hs, rfl⟩ := Option.map_eq_some_iff.1 h0
    unfold meshAt
    rw [hs, Option.bind_some, ← hm t, hm']
  rw [e]
  exact (call_eq hg hT hf hr t V hm').1

/-- C109 (partial: meshes whose position does not depend on earlier requests, opacities that do not
depend on time, tables that can be used): whatever calls `solve_ivp` has made before, at whatever
times and states, also failed and rejected steps, the array returned for a time and a state is the
same. -/
theorem c109_history_irrelevant_partial {P : Problem} (hg : P.mesh.geometry = .sphere)
    (hT : TablesUsable P.tables P.M) (hf : SteadyOpacity P) (hn : NoHistory P.mesh)
    {o o' : Objects} (ho : Reached P o) (ho' : Reached P o') (t : ℝ) (V : ℕ → ℕ → ℕ → ℝ) :
    answer P o t V = answer P o' t V := by
  rw [answer_eq hg hT hf hn ho, answer_eq hg hT hf hn ho']

/-- `np.linalg.inv` returns an inverse when there is one. -/
def InverseCorrect (M : ℕ) (inv : (ℕ → ℕ → ℝ) → ℕ → ℕ → ℝ) : Prop :=
  ∀ A B : ℕ → ℕ → ℝ, (∀ x : ℕ → ℝ, ∀ i ≤ M, matVec M A (matVec M B x) i = x i) →
    ∀ x : ℕ → ℝ, ∀ i ≤ M, matVec M A (matVec M (inv A) x) i = x i

theorem inverse_exists (M : ℕ) : ∃ inv, InverseCorrect M inv := by
  classical
  refine ⟨fun A => if h : ∃ B : ℕ → ℕ → ℝ, ∀ x : ℕ → ℝ, ∀ i ≤ M,
    matVec M A (matVec M B x) i = x i then h.choose else fun _ _ => 0, fun A B hB x i hi => ?_⟩
  have h : ∃ B : ℕ → ℕ → ℝ, ∀ x : ℕ → ℝ, ∀ i ≤ M, matVec M A (matVec M B x) i = x i := ⟨B, hB⟩
  simp only [dif_pos h]
  exact h.choose_spec x i hi

theorem TablesExact.usable' {T : SphereTables} {n M : ℕ} (h : TablesExact T n) (hM : M < n)
    (hM' : M ≤ 10) : TablesUsable T M :=
  ⟨hM', (h.usable hM).1, (h.usable hM).2.1, (h.usable hM).2.2⟩

/-- With exact tables the matrices of a cell are exact. -/
theorem matsOf_exact {P : Problem} {n : ℕ} (h : TablesExact P.tables n) (hMn : P.M < n)
    (hM : P.M ≤ 10) (hi : InverseCorrect P.M P.inv) (m : MeshView) {k : ℕ}
    (hk : m.edges k < m.edges (k + 1)) :
    MatsExact P.M (m.edges k) (m.edges (k + 1)) (m.Dedges k) (m.Dedges (k + 1))
      (matsOf P m k) := by
  obtain ⟨s', h1, h2, h3, -, h5⟩ := h.makeAll (SphereObject.init P.M) hMn hM (fun _ _ => rfl)
    (m.edges k) (m.edges (k + 1)) (m.Dedges k) (m.Dedges (k + 1)) hk
  have e : s' = matricesAfter (SphereObject.init P.M) P.tables (m.edges k) (m.edges (k + 1))
      (m.Dedges k) (m.Dedges (k + 1)) :=
    Option.some_inj.1 (h1.symm.trans (makeAll_eq (h.usable' hMn hM) _ _ _ _))
  unfold matsOf
  rw [← e]
  obtain ⟨mats, hm⟩ := c65_matrices_exist hM hk (m.Dedges k) (m.Dedges (k + 1))
  refine h3.matsExact (s0 := ⟨P.M, (SphereObject.init P.M).G, (SphereObject.init P.M).MPRIME⟩) rfl
    h5 _ (hi s'.Mass mats.Minv fun x i hi' => ?_)
  rw [← hm.inv x i hi']
  unfold matVec
  refine Finset.sum_congr rfl fun j hj => ?_
  have hj : j ≤ P.M := by have := Finset.mem_range.1 hj; omega
  rw [h3.Mass i hi' j hj, hm.Mass i hi' j hj]

theorem steady_of_constant {P : Problem} (hf : P.sigmaFunc = .constant) : SteadyOpacity P :=
  ⟨by rw [hf]; decide, by rw [hf]; decide⟩

/-- Constant opacity: the composed program returns what the one-call model returns. -/
theorem answer_eq_activeCall {P : Problem} (hg : P.mesh.geometry = .sphere)
    (hT : TablesUsable P.tables P.M) (hf : P.sigmaFunc = .constant) (hn : NoHistory P.mesh)
    {o : Objects} (ho : Reached P o) (t : ℝ) (V : ℕ → ℕ → ℕ → ℝ) (fs : FluxState) :
    answer P o t V = activeCall P.params P.fluxConfig t (meshAt P t) (matsOf P (meshAt P t))
      (fun k => sourceOf P t ((meshAt P t).edges k) ((meshAt P t).edges (k + 1))) fs V := by
  rw [answer_eq hg hT (steady_of_constant hf) hn ho]
  unfold activeCall
  have e1 : P.fluxConfig.geometry = .sphere := hg
  rw [e1]
  by_cases hc : 0 < P.mesh.N ∧ ¬ centreChecks P.Nang P.mus
  · have hc' : 0 < P.fluxConfig.Nspace ∧ ¬ centreChecks P.params.Nang P.params.mus := hc
    rw [if_pos hc, if_pos hc']
  · have hc' : ¬ (0 < P.fluxConfig.Nspace ∧ ¬ centreChecks P.params.Nang P.params.mus) := hc
    rw [if_neg hc, if_neg hc']
    congr 1
    funext a k i
    by_cases hk : a < P.Nang ∧ k < P.mesh.N ∧ i ≤ P.M
    · have hk' : a < P.params.Nang ∧ k < P.fluxConfig.Nspace ∧ i ≤ P.fluxConfig.M := hk
      rw [if_pos hk, if_pos hk']
      unfold entryOf sphereRhs
      have e2 : scalarOf P (meshAt P t).edges V k i = activePV P.params V k i := by
        unfold scalarOf activePV scalarFluxTerm
        have : P.opacityConfig.func = .constant := hf
        simp only [this, if_true]
        rfl
      rw [e2]
      congr 2
      refine matVec_vec_congr _ (fun j hj => ?_) i
      unfold sphereWeak
      rw [fluxLU_history P.fluxConfig t (meshAt P t) (V a) k (P.params.mus a)
        (V (reflIndex P.params.Nang a k) 0) fluxInit fs hj]
    · have hk' : ¬ (a < P.params.Nang ∧ k < P.fluxConfig.Nspace ∧ i ≤ P.fluxConfig.M) := hk
      rw [if_neg hk, if_neg hk']

/-- C109: constant opacity, exact tables, a correct matrix inversion, a mesh whose position does
not depend on earlier requests.  There are exact matrices for every time and a source vector such
that after every history of calls the composed program returns what the one-call model `activeCall`
returns; the source vector is zero unless the uncollided treatment of a shell is on. -/
theorem c109_component_model_partial {P : Problem} (hg : P.mesh.geometry = .sphere) {n : ℕ}
    (hT : TablesExact P.tables n) (hMn : P.M < n) (hM : P.M ≤ 10)
    (hi : InverseCorrect P.M P.inv) (hf : P.sigmaFunc = .constant) (hn : NoHistory P.mesh) :
    ∃ (mats : ℝ → ℕ → CellMats) (S : ℝ → ℕ → ℕ → ℝ),
      (∀ t k, (meshAt P t).edges k < (meshAt P t).edges (k + 1) →
        MatsExact P.M ((meshAt P t).edges k) ((meshAt P t).edges (k + 1))
          ((meshAt P t).Dedges k) ((meshAt P t).Dedges (k + 1)) (mats t k)) ∧
      (¬ (P.uncollided = true ∧ P.mesh.st 1 = 1) → S = 0) ∧
      ∀ o, Reached P o → ∀ t V fs, answer P o t V =
        activeCall P.params P.fluxConfig t (meshAt P t) (mats t) (S t) fs V :=
  ⟨fun t => matsOf P (meshAt P t),
    fun t k => sourceOf P t ((meshAt P t).edges k) ((meshAt P t).edges (k + 1)),
    fun _ _ hk => matsOf_exact hT hMn hM hi _ hk,
    fun hn => by funext t k j; exact if_neg hn,
    fun _ ho t V fs => answer_eq_activeCall hg (hT.usable' hMn hM) hf hn ho t V fs⟩

/-- A shell with uncollided treatment on an unbounded mesh of four cells, order one, two directions,
scattering ratio one half; the inverse is any correct one. -/
noncomputable def exampleShell (inv : (ℕ → ℕ → ℝ) → ℕ → ℕ → ℝ) : Problem where
  mesh := exampleShellMesh
  Nang := 2
  M := 1
  mus := exampleSphereParams.mus
  rawWs _ := 3
  quad := [(-(1 / 2), 1), (1 / 2, 1)]
  tQuad := []
  sigmaT := 1
  sigmaS := 1 / 2
  sigma := 1
  strength := 1
  eInit := 0
  l := 1
  uncollided := true
  boundarySource := false
  boundaryOnLeft := false
  boundaryOnRight := false
  boundaryStrength := 0
  sigmaFunc := .constant
  Msigma := 0
  tables := exactTables 2
  inv := inv
  expi _ := 0
  erf _ := 0

theorem exampleShell_mesh : IsSquare exampleShellMesh := ⟨rfl, rfl, rfl, by decide, by decide⟩

theorem exampleShell_checks : centreChecks 2 exampleSphereParams.mus := by
  intro l hl h2
  have : l = 1 := by omega
  subst this
  norm_num [exampleSphereParams]

theorem exampleShell_objects (inv : (ℕ → ℕ → ℝ) → ℕ → ℕ → ℝ) :
    ∃ o, (exampleShell inv).objects = some o := by
  have : meshInit (exampleShell inv).mesh = some (shellState exampleShellMesh) := by
    rw [show (exampleShell inv).mesh = exampleShellMesh from rfl,
      shell_init (Or.inl exampleShell_mesh) rfl rfl, if_pos (shell_size _ (by decide))]
  unfold Problem.objects
  rw [this]
  exact ⟨_, rfl⟩

theorem exampleShell_tables (inv : (ℕ → ℕ → ℝ) → ℕ → ℕ → ℝ) :
    TablesUsable (exampleShell inv).tables (exampleShell inv).M :=
  (exactTables_exact 2).usable' Nat.one_lt_two (by norm_num [exampleShell])

/-- Two calls at a late and an earlier time, then the same answer as from the new objects. -/
example (inv : (ℕ → ℕ → ℝ) → ℕ → ℕ → ℝ) (V W : ℕ → ℕ → ℕ → ℝ) : ∃ o o' : Objects,
    (exampleShell inv).objects = some o ∧
    (exampleShell inv).runCalls o [(2, V), (1 / 2, W)] = some o' ∧
    answer (exampleShell inv) o 1 W = answer (exampleShell inv) o' 1 W ∧
    answer (exampleShell inv) o' 1 W ≠ none := by
  have hf : SteadyOpacity (exampleShell inv) := steady_of_constant rfl
  have hn : NoHistory (exampleShell inv).mesh := Or.inl rfl
  have hg : (exampleShell inv).mesh.geometry = .sphere := rfl
  have hT := exampleShell_tables inv
  have hc : ¬ (0 < (exampleShell inv).mesh.N ∧
      ¬ centreChecks (exampleShell inv).Nang (exampleShell inv).mus) :=
    fun h => h.2 exampleShell_checks
  obtain ⟨o, ho⟩ := exampleShell_objects inv
  have hr : Reached (exampleShell inv) o := ⟨o, [], ho, rfl⟩
  have step : ∀ o, Reached (exampleShell inv) o → ∀ t U, ∃ y,
      (exampleShell inv).call o t U = some y ∧ Reached (exampleShell inv) y.1 := by
    intro o ⟨o0, calls, h1, h2⟩ t U
    have h3 := answer_eq hg hT hf hn ⟨o0, calls, h1, h2⟩ t U
    rw [if_neg hc] at h3
    obtain ⟨y, hy, -⟩ := Option.map_eq_some_iff.1 h3
    refine ⟨y, hy, o0, calls ++ [(t, U)], h1, ?_⟩
    clear h1 h3 hr ho
    induction calls generalizing o0 with
    | nil =>
      obtain rfl := Option.some_inj.1 h2
      simp [Problem.runCalls, hy]
    | cons x xs ih =>
      rw [Problem.runCalls] at h2
      obtain ⟨z, hz, hz'⟩ := Option.bind_eq_some_iff.1 h2
      rw [List.cons_append, Problem.runCalls, hz, Option.bind_some]
      exact ih _ hz'
  obtain ⟨y, hy, hyr⟩ := step o hr 2 V
  obtain ⟨z, hz, hzr⟩ := step y.1 hyr (1 / 2) W
  refine ⟨o, z.1, ho, ?_, c109_history_irrelevant_partial hg hT hf hn hr hzr 1 W, ?_⟩
  · simp only [Problem.runCalls, hy, hz, Option.bind_some]
  · rw [answer_eq hg hT hf hn hzr, if_neg hc]
    exact Option.some_ne_none _

example : ∃ inv, InverseCorrect 1 inv ∧ ∃ (mats : ℝ → ℕ → CellMats) (S : ℝ → ℕ → ℕ → ℝ),
    ∀ o, Reached (exampleShell inv) o → ∀ t V fs, answer (exampleShell inv) o t V =
      activeCall (exampleShell inv).params (exampleShell inv).fluxConfig t
        (meshAt (exampleShell inv) t) (mats t) (S t) fs V := by
  obtain ⟨inv, hi⟩ := inverse_exists 1
  obtain ⟨mats, S, -, -, h⟩ := c109_component_model_partial (P := exampleShell inv) (n := 2) rfl
    (exactTables_exact 2) Nat.one_lt_two (by norm_num [exampleShell]) hi rfl (Or.inl rfl)
  exact ⟨inv, hi, mats, S, h⟩

/-! ### C109: a finite domain -/

/-- A shell in a finite domain, one cell, order zero, two directions, no scattering; the inverse is
any correct one. -/
noncomputable def exampleFiniteShell (inv : (ℕ → ℕ → ℝ) → ℕ → ℕ → ℝ) : Problem where
  mesh := { exampleSquareMesh with
    geometry := .sphere, N := 1, x0 := 1, tfinal := 1, finiteDomain := true, domainWidth := 4 }
  Nang := 2
  M := 0
  mus l := if l = 0 then -(1 / 4) else 1 / 4
  rawWs _ := 1
  quad := []
  tQuad := []
  sigmaT := 1
  sigmaS := 0
  sigma := 1
  strength := 1
  eInit := 0
  l := 1
  uncollided := false
  boundarySource := false
  boundaryOnLeft := false
  boundaryOnRight := false
  boundaryStrength := 0
  sigmaFunc := .constant
  Msigma := 0
  tables := exactTables 1
  inv := inv
  expi _ := 0
  erf _ := 0

/-- The entry of the outward direction for the state that is one everywhere, on a cell at rest. -/
theorem finiteShell_entry {inv : (ℕ → ℕ → ℝ) → ℕ → ℕ → ℝ} (hi : InverseCorrect 0 inv)
    {m : MeshView} {a b : ℝ} (ha : m.edges 0 = a) (hb : m.edges 1 = b) (hab : a < b)
    (h0 : m.Dedges 0 = 0) (h1 : m.Dedges 1 = 0) (t : ℝ) :
    sphereMass 0 0 a b ≠ 0 ∧ entryOf (exampleFiniteShell inv) m t (fun _ _ _ => 1) 1 0 0 =
      (a + b) / (4 * Real.pi) / sphereMass 0 0 a b - 1 := by
  set P := exampleFiniteShell inv with hP
  have hx := matsOf_exact (P := P) (n := 1) (exactTables_exact 1) Nat.zero_lt_one (Nat.zero_le _) hi m
    (k := 0) (by rw [ha]; simpa [hb] using hab)
  have hx' : MatsExact 0 a b 0 0 (matsOf P m 0) := by
    have := hx
    simp only [zero_add, ha, hb, h0, h1] at this
    exact this
  set mats := matsOf P m 0 with hmats
  obtain ⟨s0, s, e1, e2, e3, e4⟩ := hx'.tables
  obtain ⟨hG, hMP⟩ := makeAll_entries (i := 0) (j := 0) e2 (by omega) hab (by omega) (by omega)
  rw [← e3] at hG
  rw [← e4] at hMP
  have hG0 : mats.G 0 0 = 0 := by rw [hG]; simp [gExact]
  have hMP0 : mats.MPRIME 0 0 = 0 := by rw [hMP]; simp [mpExact]
  have hL0 : mats.L 0 0 = 0 := by
    rw [hx'.L 0 le_rfl 0 le_rfl]
    exact sphereL_zero hab 0
  have hJ : mats.J 0 0 = (a + b) / (2 * Real.pi) := by
    rw [hx'.J 0 le_rfl 0 le_rfl]
    exact sphereJ_zero hab
  have hinv := hx'.inv (fun _ => 1) 0 le_rfl
  simp only [matVec, zero_add, Finset.sum_range_one, mul_one] at hinv
  rw [hx'.Mass 0 le_rfl 0 le_rfl] at hinv
  have hm0 : sphereMass 0 0 a b ≠ 0 := left_ne_zero_of_mul_eq_one hinv
  have hd : dterm P.params (fun _ _ _ => 1) 1 0 0 = -1 := by
    simp only [dterm, angularTerm, finiteDiffUneven, Problem.params, hP, exampleFiniteShell]
    norm_num
  have hs : (P.fluxConfig).geometry = .sphere := rfl
  have hflux : fluxLU P.fluxConfig t m (fun _ _ => 1) 0 (P.params.mus 1) (fun _ => 1) fluxInit 0 =
      (a + b) / (4 * Real.pi) := by
    have hq : Real.sqrt (b - a) * Real.sqrt Real.pi * (Real.sqrt (b - a) * Real.sqrt Real.pi) =
        (b - a) * Real.pi := by
      rw [mul_mul_mul_comm, Real.mul_self_sqrt (by linarith), Real.mul_self_sqrt Real.pi_pos.le]
    have hpos : 0 < Real.sqrt (b - a) * Real.sqrt Real.pi :=
      mul_pos (Real.sqrt_pos.2 (by linarith)) (Real.sqrt_pos.2 Real.pi_pos)
    have hmu : P.params.mus 1 = 1 / 4 := by simp [Problem.params, hP, exampleFiniteShell]
    have hM : P.fluxConfig.M = 0 := rfl
    have hN : P.fluxConfig.Nspace = 1 := rfl
    have hb' : isBoundarySourceOn P.fluxConfig 0 t = false := by
      simp [isBoundarySourceOn, Problem.fluxConfig, hP, exampleFiniteShell, exampleSquareMesh,
        MeshConfig.st]
    simp only [fluxLU, makeLU, makeSol, makeH, extendMesh, v0Term, hs, hM, hN, hb', hmu, bLR,
      fluxSpeed, zero_add, h0, h1, ha, hb, Finset.sum_range_one]
    norm_num
    generalize Real.sqrt (b - a) = q at hq hpos ⊢
    generalize Real.sqrt Real.pi = r at hq hpos ⊢
    have hr : r ≠ 0 := right_ne_zero_of_mul hpos.ne'
    have hq0 : q ≠ 0 := left_ne_zero_of_mul hpos.ne'
    have hpi := Real.pi_ne_zero
    field_simp
    linear_combination (-(a + b)) * hq
  have hsrc : sourceOf P t (m.edges 0) (m.edges 1) 0 = 0 := by
    unfold sourceOf
    rw [if_neg]
    exact fun h => Bool.false_ne_true h.1
  have hsc : scalarOf P m.edges (fun _ _ _ => 1) 0 0 * P.sigmaS = 0 := by
    rw [show P.sigmaS = 0 from rfl, mul_zero]
  refine ⟨hm0, ?_⟩
  unfold entryOf
  rw [hsc]
  have hPM : P.M = 0 := rfl
  have hFM : P.fluxConfig.M = 0 := rfl
  rw [← hmats, hPM]
  simp only [matVec, Finset.sum_range_one, sphereWeak, hFM, zero_add]
  rw [hflux, hL0, hJ, hG0, hMP0, hd, hsrc]
  have hpi := Real.pi_ne_zero
  have : mats.Minv 0 0 = 1 / sphereMass 0 0 a b := by
    field_simp
    linear_combination hinv
  rw [this]
  field_simp
  ring

theorem finiteShell_class (inv : (ℕ → ℕ → ℝ) → ℕ → ℕ → ℝ) :
    IsSquare (exampleFiniteShell inv).mesh :=
  ⟨rfl, rfl, rfl, exampleSquare_class.s3, exampleSquare_class.s5⟩

/-- C109: with a finite domain the right-hand side is not a function of time and state: there is a
problem whose answer at one time for one state is different after an earlier call at the final
time, as `solve_ivp` makes when a step ends there and is rejected. -/
theorem c109_finite_domain_depends_on_history (inv : (ℕ → ℕ → ℝ) → ℕ → ℕ → ℝ)
    (hi : InverseCorrect 0 inv) : ∃ o o' : Objects, ∃ t : ℝ, ∃ V x y : ℕ → ℕ → ℕ → ℝ,
      Reached (exampleFiniteShell inv) o ∧ Reached (exampleFiniteShell inv) o' ∧
      answer (exampleFiniteShell inv) o t V = some x ∧
      answer (exampleFiniteShell inv) o' t V = some y ∧ x 1 0 0 ≠ y 1 0 0 := by
  set P := exampleFiniteShell inv with hP
  have hg : P.mesh.geometry = .sphere := rfl
  have hT : TablesUsable P.tables P.M := (exactTables_exact 1).usable' Nat.zero_lt_one (Nat.zero_le _)
  have hf : SteadyOpacity P := ⟨SigmaFunc.noConfusion, SigmaFunc.noConfusion⟩
  have hc : centreChecks P.Nang P.mus := by
    intro l hl hl'
    obtain rfl : l = 1 := by
      have h1 : P.Nang = 2 := rfl
      omega
    simp only [hP, exampleFiniteShell]
    norm_num
  have hinit : meshInit P.mesh = some (shellState P.mesh) := by
    rw [shell_init (Or.inl (finiteShell_class inv)) rfl rfl, if_pos (shell_size _ le_rfl)]
  have e0 : (shellState P.mesh).edges 0 = 0 := by
    show (shellEdges P.mesh).get 0 = 0
    rw [shell_get (Nat.zero_le _)]
    simp [shellGrid]
  have e1 : (shellState P.mesh).edges 1 = 1 := by
    show (shellEdges P.mesh).get 1 = 1
    rw [shell_get (show 1 ≤ P.mesh.N from le_rfl)]
    simp [shellGrid, hP, exampleFiniteShell]
  have d : ∀ k ≤ 1, (shellState P.mesh).DedgesConst k = 0 := by
    intro k hk
    show (if (1 / 2 + 1 + 1 ≤ k) then _ else (0 : ℝ)) = 0
    rw [if_neg (by omega)]
  have hne : ¬ reachedEnd P.mesh (shellState P.mesh) := by
    rintro ⟨-, h⟩
    have hN : P.mesh.N = 1 := rfl
    have hw : P.mesh.domainWidth = 4 := rfl
    rw [hN, hw, e1] at h
    rcases h with h | h <;> norm_num at h
  have hst0 : P.mesh.st 0 = 0 := rfl
  have hst1 : P.mesh.st 1 = 1 := rfl
  have htf : P.mesh.tfinal = 1 := rfl
  have hmv : (shellState P.mesh).moving = true := rfl
  -- the mesh at time one half, asked first
  have m1 : meshMove P.mesh (shellState P.mesh) (1 / 2) = some { shellState P.mesh with
      edges := fun k => (shellState P.mesh).edges0 k + (shellState P.mesh).DedgesConst k * (1 / 2)
      Dedges := (shellState P.mesh).DedgesConst } := by
    unfold meshMove
    rw [if_pos hmv, if_neg (by rw [hst0]; norm_num), if_pos hst1, if_neg (by rw [htf]; norm_num),
      if_neg hne]
  -- at the final time, and then at one half
  set w : MeshState := { shellState P.mesh with edges := (linspace (-4 / 2) (4 / 2) (1 + 1)).get }
    with hw
  have m2 : meshMove P.mesh (shellState P.mesh) 1 = some w := by
    unfold meshMove
    rw [if_pos hmv, if_neg (by rw [hst0]; norm_num), if_pos hst1, if_pos ⟨rfl, htf.symm⟩]
    rfl
  have w0 : w.edges 0 = -2 := by norm_num [hw, linspace]
  have w1 : w.edges 1 = 2 := by norm_num [hw, linspace]
  have hend : P.mesh.domainWidth / 2 ≤ w.edges P.mesh.N := by
    show (4 : ℝ) / 2 ≤ w.edges 1
    linarith
  have m3 : meshMove P.mesh w (1 / 2) = some { w with Dedges := fun k => w.DedgesConst k * 0 } := by
    unfold meshMove
    rw [if_pos (show w.moving = true from rfl), if_neg (by rw [hst0]; norm_num), if_pos hst1,
      if_neg (by rw [htf]; norm_num), if_pos ⟨rfl, Or.inl hend⟩]
  obtain ⟨o0, h0⟩ : ∃ o0, P.objects = some o0 := by
    unfold Problem.objects
    rw [hinit]
    exact ⟨_, rfl⟩
  have h0m : o0.mesh = shellState P.mesh := by
    unfold Problem.objects at h0
    rw [hinit] at h0
    obtain rfl := Option.some_inj.1 h0
    rfl
  have hr0 := ready_objects h0
  have hnc : ¬ (0 < P.mesh.N ∧ ¬ centreChecks P.Nang P.mus) := fun h => h.2 hc
  obtain ⟨c1, -⟩ := call_eq hg hT hf hr0 (1 / 2) (fun _ _ _ => 1) (h0m ▸ m1)
  obtain ⟨c2, c2'⟩ := call_eq hg hT hf hr0 1 (fun _ _ _ => 1) (h0m ▸ m2)
  rw [if_neg hnc] at c1 c2
  obtain ⟨y, hy, -⟩ := Option.map_eq_some_iff.1 c2
  obtain ⟨hry, hym⟩ := c2' y hy
  obtain ⟨c3, -⟩ := call_eq hg hT hf hry (1 / 2) (fun _ _ _ => 1) (hym ▸ m3)
  rw [if_neg hnc] at c3
  refine ⟨o0, y.1, 1 / 2, fun _ _ _ => 1, _, _, ⟨o0, [], h0, rfl⟩,
    ⟨o0, [(1, fun _ _ _ => 1)], h0, ?_⟩, c1, c3, ?_⟩
  · rw [Problem.runCalls, hy]
    rfl
  have hin : 1 < P.Nang ∧ 0 < P.mesh.N ∧ 0 ≤ P.M := ⟨Nat.one_lt_two, Nat.one_pos, Nat.zero_le _⟩
  simp only [if_pos hin]
  have g0 : (shellState P.mesh).edges0 0 + (shellState P.mesh).DedgesConst 0 * (1 / 2) = 0 := by
    rw [d 0 (by omega), zero_mul, add_zero]
    exact e0
  have g1 : (shellState P.mesh).edges0 1 + (shellState P.mesh).DedgesConst 1 * (1 / 2) = 1 := by
    rw [d 1 le_rfl, zero_mul, add_zero]
    exact e1
  obtain ⟨n1, f1⟩ := finiteShell_entry hi (a := 0) (b := 1)
    (m := ⟨fun k => (shellState P.mesh).edges0 k + (shellState P.mesh).DedgesConst k * (1 / 2),
      (shellState P.mesh).DedgesConst⟩) g0 g1 one_pos (d 0 (by omega)) (d 1 le_rfl) (1 / 2)
  obtain ⟨-, f2⟩ := finiteShell_entry hi (a := -2) (b := 2)
    (m := ⟨w.edges, fun k => w.DedgesConst k * 0⟩) w0 w1 (by norm_num) (mul_zero _) (mul_zero _)
    (1 / 2)
  rw [← hP] at f1 f2
  rw [hym, h0m, f1, f2]
  have hpi := Real.pi_ne_zero
  intro h
  have h' : (1 : ℝ) / (4 * Real.pi) / sphereMass 0 0 0 1 = 0 := by
    linear_combination h
  have : (1 : ℝ) / (4 * Real.pi) / sphereMass 0 0 0 1 ≠ 0 := by positivity
  exact this h'

end Verif.Props
