import Verif.Props.System
import Verif.Props.InitialCondition
import Verif.Props.SphereExistence

/-!
Property C110: the composed sphere solver, from the arguments of `solve` to the solution of its
equations.
-/

namespace Verif.Props

open Set Filter Verif.Spec Verif.Model Verif.Lemmas

/-! ### Meshes that move at constant velocities -/

/-- The mesh can be built; edge `k` is at `e k + d k t` with velocity `d k`; the centre is at rest
and the edges are in order from time zero on. -/
structure MovesLinearly (c : MeshConfig) (e d : ℕ → ℝ) : Prop where
  noHistory : NoHistory c
  moves : ∃ s, meshInit c = some s ∧ ∀ t, ∃ m, meshMove c s t = some m ∧
    (∀ k ≤ c.N, m.edges k = e k + d k * t) ∧ ∀ k ≤ c.N, m.Dedges k = d k
  centre : e 0 = 0
  rest : d 0 = 0
  ordered : ∀ t, 0 ≤ t → ∀ k < c.N, e k + d k * t < e (k + 1) + d (k + 1) * t

/-- Point pulse, moving mesh. -/
theorem plane_linear {c : MeshConfig} (h : IsPlane c) (h0 : c.st 0 = 1) (hm : c.moving = true)
    (hg : c.geometry = .sphere) (hN : 1 ≤ c.N) (hx : 0 < c.x0) (hv : 0 ≤ c.edgeV) :
    MovesLinearly c (fun k => (k : ℝ) / c.N * c.x0) (fun k => (k : ℝ) / c.N * c.edgeV) := by
  have hN' : (c.N : ℝ) ≠ 0 := by positivity
  refine ⟨plane_noHistory h, ⟨_, plane_init h hm, fun t => ?_⟩, by simp, by simp,
    fun t ht k hk => ?_⟩
  · rw [move_plane h (s := simpleMovingInit c (meshBlank c)) hm]
    refine ⟨_, rfl, fun k _ => ?_, fun k _ => ?_⟩
    · simp only [simpleMovingInit, hg, linspace_uniform, uniformGrid, div_self hN', h0, h.speed]
      norm_num
      field_simp
      simp
    · simp only [simpleMovingInit, hg, linspace_uniform, uniformGrid, div_self hN', h.speed]
      norm_num
      field_simp
      simp
  · have h1 : 0 < c.x0 + c.edgeV * t := by positivity
    have h2 : (0 : ℝ) < 1 / c.N := by positivity
    have : ((k + 1 : ℕ) : ℝ) / c.N = (k : ℝ) / c.N + 1 / c.N := by push_cast; ring
    rw [this]
    nlinarith [mul_pos h1 h2]

/-- Shell, moving mesh, unbounded domain. -/
theorem shell_linear {c : MeshConfig} (h : IsSquare c) (hm : c.moving = true)
    (hg : c.geometry = .sphere) (hf : c.finiteDomain = false) (hN : 1 ≤ c.N) (hx : 0 < c.x0)
    (hv : 0 ≤ c.edgeV) :
    MovesLinearly c (shellEdges c).get (shellState c).DedgesConst := by
  refine ⟨Or.inl hf, ⟨shellState c, by rw [shell_init (Or.inl h) hm hg, if_pos (shell_size c hN)],
    fun t => ?_⟩, ?_, ?_, fun t ht k hk => ?_⟩
  · rw [move_square h (s := shellState c) hm t, if_neg (by simp [hf]), if_neg (by simp [reachedEnd, hf])]
    exact ⟨_, rfl, fun k _ => rfl, fun k _ => rfl⟩
  · rw [shell_get (Nat.zero_le _)]
    simp [shellGrid]
  · simp [shellState]
  · have h1 := shell_moved (c := c) (k := k) (by omega) t
    have h2 := shell_moved (c := c) (k := k + 1) (by omega) t
    have hD : 0 < 1 / 10 ^ 5 + c.speed * t := by rw [h.speed]; positivity
    refine lt_of_eq_of_lt h1 (lt_of_lt_of_eq ?_ h2.symm)
    exact shellGrid_ordered (by omega) hx hD k (k + 1) (by omega) (by omega)

/-- A mesh that is kept fixed where the moving mesh would end. -/
theorem static_linear {c : MeshConfig} (hm : c.moving = false) (ht : c.thick = false)
    (hz : ¬ c.allZero) {e d : ℕ → ℝ} (h : MovesLinearly { c with moving := true } e d)
    (htf : 0 ≤ c.tfinal) (hn : NoHistory c) :
    MovesLinearly c (fun k => e k + d k * c.tfinal) fun _ => 0 := by
  obtain ⟨s0, h0, h1⟩ := h.moves
  obtain ⟨m, h2, h3, h4⟩ := h1 c.tfinal
  have hex : ∃ s, meshInit c = some s := by
    rw [init_moving rfl, chooseInit_moving ht hz] at h0
    cases hch : chooseInit c with
    | none => simp [hch] at h0
    | some s1 =>
      unfold meshInit
      rw [hch, Option.bind_some]
      unfold finishInit
      simp only [hm, if_true]
      obtain ⟨s', hs'⟩ := move_total hn
        ({ s1 with moving := true, DedgesConst := s1.Dedges } : MeshState) c.tfinal
      rw [hs']
      exact ⟨_, rfl⟩
  obtain ⟨s, hs⟩ := hex
  obtain ⟨g1, g2⟩ := c22_static_mesh hm hs
  obtain ⟨m0, m', k1, k2, k3⟩ := c22_static_at_final hm ht hz hs
  rw [h0] at k1
  obtain rfl := Option.some_inj.1 k1
  rw [h2] at k2
  obtain rfl := Option.some_inj.1 k2
  refine ⟨hn, ⟨s, hs, fun t => ⟨s, by simpa [meshRun] using g2 [t], fun k hk => ?_, fun k _ => g1 k⟩⟩,
    by simp [h.centre, h.rest], rfl, fun t _ k hk => ?_⟩
  · rw [k3, h3 k hk]
    ring
  · simpa using h.ordered c.tfinal htf k hk

theorem meshAt_linear {P : Problem} {e d : ℕ → ℝ} (h : MovesLinearly P.mesh e d) (t : ℝ) :
    (∀ k ≤ P.mesh.N, (meshAt P t).edges k = e k + d k * t) ∧
      ∀ k ≤ P.mesh.N, (meshAt P t).Dedges k = d k := by
  obtain ⟨s, h1, h2⟩ := h.moves
  obtain ⟨m, h3, h4, h5⟩ := h2 t
  unfold meshAt
  rw [h1, Option.bind_some, h3]
  exact ⟨h4, h5⟩

theorem reached_exists {P : Problem} {e d : ℕ → ℝ} (h : MovesLinearly P.mesh e d) :
    ∃ o, Reached P o := by
  obtain ⟨s, h1, -⟩ := h.moves
  have : ∃ o, P.objects = some o := by
    unfold Problem.objects
    rw [h1]
    exact ⟨_, rfl⟩
  obtain ⟨o, ho⟩ := this
  exact ⟨o, o, [], ho, rfl⟩

/-! ### Solutions -/

/-- `V` solves the equations of the program on `[a, b]` except at the times in `F`: whatever calls
were made before, the answer for a time and the state at that time is the rate of change to the
right of that time. -/
def ProgramSolutionOn (P : Problem) (a b : ℝ) (F : Set ℝ) (V : ℝ → ℕ → ℕ → ℕ → ℝ) : Prop :=
  (∀ l < P.Nang, ∀ k < P.mesh.N, ∀ i ≤ P.M, ContinuousOn (fun s => V s l k i) (Icc a b)) ∧
  ∀ t ∈ Ico a b \ F, ∀ o, Reached P o → ∃ R, answer P o t (V t) = some R ∧
    ∀ l < P.Nang, ∀ k < P.mesh.N, ∀ i ≤ P.M,
      HasDerivWithinAt (fun s => V s l k i) (R l k i) (Ici t) t

/-- Arguments of `solve` for a sphere whose mesh moves at constant velocities, with exact tables. -/
structure SphereSetup (P : Problem) (e d : ℕ → ℝ) : Prop where
  sphere : P.mesh.geometry = .sphere
  mesh : MovesLinearly P.mesh e d
  order : P.M ≤ 10
  tables : TablesExact P.tables (P.M + 1)
  inverse : InverseCorrect P.M P.inv
  directions : 2 ≤ P.Nang
  checks : centreChecks P.Nang P.mus

/-- The arguments of `solve` for which the equations are those of the one-call model. -/
structure SphereProblem (P : Problem) (e d : ℕ → ℝ) : Prop extends SphereSetup P e d where
  opacity : P.sigmaFunc = .constant

/-- The matrices of a time. -/
noncomputable def programMats (P : Problem) (t : ℝ) : ℕ → CellMats := matsOf P (meshAt P t)

/-- The source vector of a time. -/
noncomputable def programSource (P : Problem) (t : ℝ) (k : ℕ) : ℕ → ℝ :=
  sourceOf P t ((meshAt P t).edges k) ((meshAt P t).edges (k + 1))

theorem programSolution_iff {P : Problem} {e d : ℕ → ℝ} (h : SphereProblem P e d) (a b : ℝ)
    (F : Set ℝ) (V : ℝ → ℕ → ℕ → ℕ → ℝ) : ProgramSolutionOn P a b F V ↔
      SphereSolutionOn P.params P.fluxConfig (meshAt P) (programMats P) (programSource P) a b F V := by
  have key : ∀ o, Reached P o → ∀ t W fs, answer P o t W = activeCall P.params P.fluxConfig t
      (meshAt P t) (programMats P t) (programSource P t) fs W := fun o ho t W fs =>
    answer_eq_activeCall h.sphere (h.tables.usable' (Nat.lt_succ_self _) h.order) h.opacity
      h.mesh.noHistory ho t W fs
  obtain ⟨o, ho⟩ := reached_exists h.mesh
  constructor
  · rintro ⟨h1, h2⟩
    refine ⟨h1, fun t ht fs => ?_⟩
    obtain ⟨R, hR, h3⟩ := h2 t ht o ho
    exact ⟨R, (key o ho t (V t) fs) ▸ hR, h3⟩
  · rintro ⟨h1, h2⟩
    refine ⟨h1, fun t ht o' ho' => ?_⟩
    obtain ⟨R, hR, h3⟩ := h2 t ht fluxInit
    exact ⟨R, (key o' ho' t (V t) fluxInit).trans hR, h3⟩

theorem programMesh {P : Problem} {e d : ℕ → ℝ} (h : SphereSetup P e d) {a b : ℝ} (ha : 0 ≤ a)
    (F : Set ℝ) : SphereMeshOn P.fluxConfig (meshAt P) (programMats P) a b F := by
  have hl := fun t => meshAt_linear h.mesh t
  have hord : ∀ s, 0 ≤ s → ∀ k < P.mesh.N, (meshAt P s).edges k < (meshAt P s).edges (k + 1) := by
    intro s hs k hk
    rw [(hl s).1 k hk.le, (hl s).1 (k + 1) hk]
    exact h.mesh.ordered s hs k hk
  refine ⟨fun s _ => ?_, fun s hs => hord s (ha.trans hs.1), fun k hk => ?_, fun t ht k hk => ?_,
    fun t ht k hk => ?_⟩
  · rw [(hl s).1 0 (Nat.zero_le _), h.mesh.centre, h.mesh.rest]
    simp
  · have : (fun s => (meshAt P s).edges k) = fun s => e k + d k * s :=
      funext fun s => (hl s).1 k hk
    rw [this]
    fun_prop
  · have : (fun s => (meshAt P s).edges k) = fun s => e k + d k * s :=
      funext fun s => (hl s).1 k hk
    rw [this, (hl t).2 k hk]
    simpa using (((hasDerivAt_id t).const_mul (d k)).const_add (e k)).hasDerivWithinAt
  · exact matsOf_exact h.tables (Nat.lt_succ_self _) h.order h.inverse _
      (hord t (ha.trans ht.1.1) k hk)

/-! ### The source of a shell -/

theorem continuousOn_shellIC (x0 : ℝ) {r : ℝ → ℝ} {A : Set ℝ} (hA : ∀ t ∈ A, 0 ≤ t)
    (hr : ContinuousOn r A) (hp : ∀ t ∈ A, 0 < r t) :
    ContinuousOn (fun t => shellIC x0 (r t) t) A := by
  have h1 : ∀ t ∈ A, r t ≠ 0 := fun t ht => (hp t ht).ne'
  have h2 : ∀ t ∈ A, t + 1e-12 ≠ 0 := fun t ht => by
    have := hA t ht
    positivity
  have h3 : ∀ t ∈ A, r t * (t + 1e-12) ≠ 0 := fun t ht => mul_ne_zero (h1 t ht) (h2 t ht)
  have h4 : ContinuousOn (fun t : ℝ => t + 1e-12) A := by fun_prop
  have h5 : ContinuousOn (fun t => 0.5 * ((t + 1e-12) / r t + r t / (t + 1e-12)
      - x0 ^ 2 / (r t * (t + 1e-12)))) A :=
    continuousOn_const.mul (((h4.div hr h1).add (hr.div h4 h2)).sub
      (continuousOn_const.div (hr.mul h4) h3))
  have h6 : ContinuousOn (fun t => min 1 (max (-1) (0.5 * ((t + 1e-12) / r t + r t / (t + 1e-12)
      - x0 ^ 2 / (r t * (t + 1e-12)))))) A :=
    (continuous_const.min (continuous_const.max continuous_id)).comp_continuousOn h5
  have h7 : ContinuousOn (fun t : ℝ => Real.exp (-t * 1)) A := by fun_prop
  exact (continuousOn_const.mul (continuousOn_const.sub h6)).mul h7

/-- Nodes of a rule that lie inside the interval. -/
def OpenNodes (q : List (ℝ × ℝ)) : Prop := ∀ z ∈ q, -1 < z.1 ∧ z.1 < 1

theorem continuousOn_list_sum {q : List (ℝ × ℝ)} {f : ℝ × ℝ → ℝ → ℝ} {A : Set ℝ}
    (h : ∀ z ∈ q, ContinuousOn (f z) A) : ContinuousOn (fun t => (q.map fun z => f z t).sum) A := by
  induction q with
  | nil => simpa using continuousOn_const
  | cons z q ih =>
    simp only [List.map_cons, List.sum_cons]
    exact (h z (by simp)).add (ih fun y hy => h y (by simp [hy]))

theorem continuousOn_sphereMoment {q : List (ℝ × ℝ)} {f : ℝ → ℝ → ℝ} {a b : ℝ → ℝ} {A : Set ℝ}
    (ha : ContinuousOn a A) (hb : ContinuousOn b A) (hab : ∀ t ∈ A, a t < b t)
    (hf : ∀ z ∈ q, ContinuousOn (fun t => f t (quadPoint (a t) (b t) z.1)) A) (j : ℕ) :
    ContinuousOn (fun t => (sphereMoment q (f t) (a t) (b t) j).getD 0) A := by
  unfold sphereMoment
  by_cases hj : j ≤ 12
  · simp only [if_pos hj, Option.getD_some]
    refine (continuousOn_const.mul (hb.sub ha)).mul (continuousOn_list_sum
      (f := fun z t => quadPoint (a t) (b t) z.1 ^ 2 * √(1 - z.1 ^ 2) * z.2 *
        f t (quadPoint (a t) (b t) z.1) * 1 *
        (normTn j (quadPoint (a t) (b t) z.1) (a t) (b t)).getD 0) fun z hz => ?_)
    have h1 : ContinuousOn (fun t => quadPoint (a t) (b t) z.1) A := by
      unfold quadPoint
      exact (((hb.sub ha).div_const 2).mul continuousOn_const).add ((ha.add hb).div_const 2)
    have h2 : ContinuousOn
        (fun t => (normTn j (quadPoint (a t) (b t) z.1) (a t) (b t)).getD 0) A := by
      have e : ∀ t ∈ A, (normTn j (quadPoint (a t) (b t) z.1) (a t) (b t)).getD 0
          = normTnFactor j (a t) (b t) * (evalTn j z.1).getD 0 := by
        intro t ht
        unfold normTn
        rw [zSphere_quadPoint (hab t ht)]
        cases evalTn j z.1 <;> simp
      refine ContinuousOn.congr ?_ e
      refine ContinuousOn.mul ?_ continuousOn_const
      unfold normTnFactor
      refine ContinuousOn.div_const ((continuousOn_const.mul ?_).mul continuousOn_const) _
      exact (continuousOn_const.div (hb.sub ha) fun t ht => (sub_pos.2 (hab t ht)).ne').sqrt
    exact (((((h1.pow 2).mul continuousOn_const).mul continuousOn_const).mul (hf z hz)).mul
      continuousOn_const).mul h2
  · simp only [if_neg hj, Option.getD_none]
    exact continuousOn_const

/-- In the sphere the source of the only supported kind, the shell, is continuous in time. -/
theorem continuousOn_programSource {P : Problem} {e d : ℕ → ℝ} (h : SphereProblem P e d)
    (h0 : P.mesh.st 0 ≠ 1) (hq : OpenNodes P.quad) {k : ℕ} (hk : k < P.mesh.N) (i : ℕ) :
    ContinuousOn (fun t => programSource P t k i) (Ici 0) := by
  unfold programSource sourceOf
  by_cases ha : SourceAsked P
  · simp only [if_pos ha]
    have hl := fun t => (meshAt_linear h.mesh t).1
    have he : ∀ k ≤ P.mesh.N, ContinuousOn (fun t => (meshAt P t).edges k) (Ici 0) := by
      intro k hk
      have : (fun s => (meshAt P s).edges k) = fun s => e k + d k * s :=
        funext fun s => hl s k hk
      rw [this]
      fun_prop
    have hm := programMesh h.toSphereSetup (b := 0) le_rfl ∅
    have hab : ∀ t ∈ Ici (0 : ℝ), (meshAt P t).edges k < (meshAt P t).edges (k + 1) := by
      intro t ht
      rw [hl t k hk.le, hl t (k + 1) hk]
      exact h.mesh.ordered t ht k hk
    have hnn : ∀ t ∈ Ici (0 : ℝ), 0 ≤ (meshAt P t).edges k := by
      intro t ht
      have : ∀ n ≤ P.mesh.N, 0 ≤ e n + d n * t := by
        intro n
        induction n with
        | zero => intro _; rw [h.mesh.centre, h.mesh.rest]; simp
        | succ n ih => intro hn; exact (ih (by omega)).trans (h.mesh.ordered t ht n (by omega)).le
      rw [hl t k hk.le]
      exact this k hk.le
    refine ContinuousOn.mul (continuousOn_sphereMoment (f := fun t x =>
      (uncollidedSolution P.uncollidedConfig [] [x] t).getD 0 0) (he k hk.le) (he (k + 1) hk) hab
      (fun z hz => ?_) i) continuousOn_const
    have hu : P.uncollidedConfig.uncollided = true := ha.1
    have hg : P.uncollidedConfig.geometry = .sphere := h.sphere
    have h0' : P.uncollidedConfig.st 0 ≠ 1 := h0
    have h1' : P.uncollidedConfig.st 1 = 1 := ha.2
    simp only [uncollidedSolution, hu, hg, h0', h1', if_true, if_false, List.map_cons,
      List.getD_cons_zero]
    refine ContinuousOn.mul (continuousOn_shellIC _ (fun t ht => ht) ?_ fun t ht => ?_)
      continuousOn_const
    · unfold quadPoint
      exact ((((he _ hk).sub (he _ hk.le)).div_const 2).mul continuousOn_const).add
        (((he _ hk.le).add (he _ hk)).div_const 2)
    · exact (hnn t ht).trans_lt (quadPoint_inside (hab t ht) (hq z hz).1 (hq z hz).2).1
  · simp only [if_neg ha]
    exact continuousOn_const

/-! ### Existence and uniqueness -/

/-- C110: whatever the calls made before, the equations that the program integrates have exactly one
solution from every initial state, on every interval from time zero. -/
theorem c110_wellposed_partial {P : Problem} {e d : ℕ → ℝ} (h : SphereProblem P e d)
    (hs : ¬ SourceAsked P ∨ (P.mesh.st 0 ≠ 1 ∧ OpenNodes P.quad)) {T : ℝ} (hT : 0 ≤ T)
    (V0 : ℕ → ℕ → ℕ → ℝ) :
    ∃ V, (ProgramSolutionOn P 0 T {0, max 0 (min P.mesh.t0 T)} V ∧
      ∀ l < P.Nang, ∀ k < P.mesh.N, ∀ i ≤ P.M, V 0 l k i = V0 l k i) ∧
      ∀ (G : Set ℝ) (W : ℝ → ℕ → ℕ → ℕ → ℝ), G.Finite → ProgramSolutionOn P 0 T G W →
        (∀ l < P.Nang, ∀ k < P.mesh.N, ∀ i ≤ P.M, W 0 l k i = V0 l k i) →
        ∀ t ∈ Icc 0 T, ∀ l < P.Nang, ∀ k < P.mesh.N, ∀ i ≤ P.M, W t l k i = V t l k i := by
  set x := max 0 (min P.mesh.t0 T) with hx
  have hx0 : 0 ≤ x := le_max_left _ _
  have hxT : x ≤ T := max_le hT (min_le_right _ _)
  set τ : ℕ → ℝ := fun j => if j = 0 then 0 else if j = 1 then x else T with hτ
  have t0 : τ 0 = 0 := rfl
  have t1 : τ 1 = x := rfl
  have t2 : τ 2 = T := rfl
  have hmesh := programMesh h.toSphereSetup le_rfl (b := T) ∅
  have hl := fun t => meshAt_linear h.mesh t
  have hsrc : ∀ k < P.mesh.N, ∀ i ≤ P.M,
      ContinuousOn (fun t => programSource P t k i) (Ici 0) := by
    intro k hk i _
    rcases hs with hs | hs
    · have : (fun t => programSource P t k i) = fun _ => 0 := by
        funext t
        simp only [programSource, sourceOf, if_neg hs]
      rw [this]
      exact continuousOn_const
    · exact continuousOn_programSource h hs.1 hs.2 hk i
  have hτ0 : ∀ j, 0 ≤ τ j := by
    intro j
    simp only [hτ]
    split_ifs
    exacts [le_rfl, hx0, hT]
  have hcase : ∀ j < 2, j = 0 ∨ j = 1 := fun j hj => by omega
  obtain ⟨V, hV, hu⟩ := c104_wellposed P.params h.directions h.checks P.fluxConfig h.sphere h.order
    2 τ (fun j hj => by rcases hcase j hj with rfl | rfl <;> simpa [hτ])
    (Or.inr (by rw [t0]; norm_num))
    (fun j hj => by
      have hF : P.fluxConfig.t0 = P.mesh.t0 := rfl
      rw [hF]
      rcases hcase j hj with rfl | rfl
      · rw [zero_add, t1, t0]
        rcases le_total P.mesh.t0 0 with h3 | h3
        · exact Or.inr h3
        · exact Or.inl (max_le h3 (min_le_left _ _))
      · rw [show 1 + 1 = 2 from rfl, t2, t1]
        rcases le_total T P.mesh.t0 with h3 | h3
        · exact Or.inl h3
        · exact Or.inr (by rw [hx, min_eq_left h3]; exact le_max_right _ _))
    (meshAt P) (by rw [t0, t2]; exact hmesh.centre) (by rw [t0, t2]; exact hmesh.ordered)
    (by rw [t0, t2]; exact hmesh.cont)
    (fun j _ k hk => ⟨fun _ => d k, continuousOn_const, fun t _ => (hl t).2 k hk⟩)
    (programMats P)
    (fun j _ t ht k hk => (programMesh h.toSphereSetup (a := 0) (b := t + 1) le_rfl ∅).mats t
      ⟨⟨(hτ0 j).trans ht.1.le, by linarith⟩, notMem_empty _⟩ k hk)
    (programSource P)
    (fun j _ k hk i hi => ⟨_, (hsrc k hk i hi).mono fun t ht => (hτ0 j).trans ht.1,
      fun t _ => rfl⟩) V0
  have hset : {t | ∃ j < 2, t = τ j} = {0, x} := by
    ext t
    constructor
    · rintro ⟨j, hj, rfl⟩
      rcases hcase j hj with rfl | rfl
      exacts [Or.inl rfl, Or.inr rfl]
    · rintro (rfl | rfl)
      exacts [⟨0, by norm_num, rfl⟩, ⟨1, by norm_num, rfl⟩]
  rw [hset, t0, t2] at hV
  rw [t0, t2] at hu
  exact ⟨V, ⟨(programSolution_iff h _ _ _ _).2 hV.1, hV.2⟩,
    fun G W hG hW => hu G W hG ((programSolution_iff h _ _ _ _).1 hW)⟩

/-! ### Particle number -/

/-- The weights handed to `solve` are proportional to the angular cells. -/
def CellWeights (P : Problem) : Prop :=
  ∃ α, α ≠ 0 ∧ ∀ l < P.Nang, P.rawWs l = α * angularWidth P.Nang P.mus l

theorem CellWeights.ws {P : Problem} (h : CellWeights P) (hn : 2 ≤ P.Nang) :
    ∀ l < P.Nang, P.ws l = angularWidth P.Nang P.mus l / 2 := by
  obtain ⟨α, hα, h1⟩ := h
  intro l hl
  have h2 : ∑ i ∈ Finset.range P.Nang, P.rawWs i = α * 2 := by
    rw [Finset.sum_congr rfl fun i hi => h1 i (Finset.mem_range.1 hi), ← Finset.mul_sum,
      c15_widths_sum P.Nang (by omega)]
  unfold Problem.ws
  rw [h2, h1 l hl, mul_div_mul_left _ _ hα]

/-- A function with a derivative to the right, continued to the left by its tangent. -/
noncomputable def tangentLeft (f : ℝ → ℝ) (f' t s : ℝ) : ℝ :=
  if t ≤ s then f s else f t + (s - t) * f'

theorem tangentLeft_right (f : ℝ → ℝ) (f' : ℝ) {t s : ℝ} (h : t ≤ s) :
    tangentLeft f f' t s = f s := if_pos h

theorem hasDerivAt_tangentLeft {f : ℝ → ℝ} {f' t : ℝ} (h : HasDerivWithinAt f f' (Ici t) t) :
    HasDerivAt (tangentLeft f f' t) f' t := by
  have h1 : HasDerivWithinAt (tangentLeft f f' t) f' (Ici t) t :=
    h.congr (fun s hs => tangentLeft_right f f' hs) (tangentLeft_right f f' le_rfl)
  have h2 : HasDerivAt (fun s => f t + (s - t) * f') f' t := by
    simpa using (((hasDerivAt_id t).sub_const t).mul_const f').const_add (f t)
  have h3 : HasDerivWithinAt (tangentLeft f f' t) f' (Iic t) t := by
    refine h2.hasDerivWithinAt.congr (fun s hs => ?_) ?_
    · rcases eq_or_lt_of_le (show s ≤ t from hs) with rfl | h
      · simp [tangentLeft]
      · exact if_neg (not_le.2 h)
    · simp [tangentLeft]
  have := h3.union h1
  rwa [Iic_union_Ici, hasDerivWithinAt_univ] at this

/-- C62 for derivatives to the right. -/
theorem sphere_conserves_right (p : RhsParams) (hd : DirectionSet p.Nang p.mus)
    (hs : SymmetricSet p.Nang p.mus)
    (hw : ∀ l < p.Nang, p.ws l = angularWidth p.Nang p.mus l / 2)
    (c : FluxConfig) (hg : c.geometry = .sphere) (hM : c.M ≤ 10) (hN : 2 ≤ c.Nspace) (t : ℝ)
    (hofl : ¬ BoundaryActive c true t) (hofr : ¬ BoundaryActive c false t)
    (mesh : ℝ → MeshView) (mats : ℕ → CellMats) (S : ℕ → ℕ → ℝ) (fs : FluxState)
    (V : ℝ → ℕ → ℕ → ℕ → ℝ) (R : ℕ → ℕ → ℕ → ℝ)
    (hcentre : (mesh t).Dedges 0 = 0)
    (hm : ∀ k < c.Nspace, (mesh t).edges k < (mesh t).edges (k + 1))
    (hedge : ∀ k ≤ c.Nspace,
      HasDerivWithinAt (fun s => (mesh s).edges k) ((mesh t).Dedges k) (Ici t) t)
    (hmats : ∀ k < c.Nspace, MatsExact c.M ((mesh t).edges k) ((mesh t).edges (k + 1))
      ((mesh t).Dedges k) ((mesh t).Dedges (k + 1)) (mats k))
    (hR : activeCall p c t (mesh t) mats S fs (V t) = some R)
    (hrate : ∀ l < p.Nang, ∀ k < c.Nspace, ∀ i ≤ c.M,
      HasDerivWithinAt (fun s => V s l k i) (R l k i) (Ici t) t) :
    HasDerivWithinAt (fun s => sphereTotal p c (mesh s) (V s))
      (-(mesh t).edges c.Nspace ^ 2 * angularSum p.Nang p.ws (fun l =>
          max (p.mus l - (mesh t).Dedges c.Nspace) 0 *
            sphereField c.M (V t l (c.Nspace - 1)) ((mesh t).edges (c.Nspace - 1))
              ((mesh t).edges c.Nspace) ((mesh t).edges c.Nspace))
        + (p.c - 1) * sphereTotal p c (mesh t) (V t)
        + 1 / 2 * p.c * ∑ k ∈ Finset.range c.Nspace,
          Real.sqrt (Real.pi * ((mesh t).edges (k + 1) - (mesh t).edges k)) * S k 0)
      (Ici t) t := by
  set mesh' : ℝ → MeshView := fun s =>
    ⟨fun k => tangentLeft (fun s => (mesh s).edges k) ((mesh t).Dedges k) t s, (mesh t).Dedges⟩
    with hmesh'
  set V' : ℝ → ℕ → ℕ → ℕ → ℝ := fun s l k i => tangentLeft (fun s => V s l k i) (R l k i) t s
    with hV'
  have e1 : mesh' t = mesh t := by
    simp only [hmesh', tangentLeft, le_refl, if_true]
  have e2 : V' t = V t := by
    funext l k i
    exact tangentLeft_right _ _ le_rfl
  have := c62_sphere_conserves p hd hs hw c hg hM hN t hofl hofr mesh' mats S fs V' R
    (by rw [e1]; exact hcentre) (by rw [e1]; exact hm)
    (fun k hk => by rw [e1]; exact hasDerivAt_tangentLeft (hedge k hk)) (by rw [e1]; exact hmats)
    (by rw [e1, e2]; exact hR) (fun l hl k hk i hi => hasDerivAt_tangentLeft (hrate l hl k hk i hi))
  rw [e1, e2] at this
  have key : ∀ s ∈ Ici t, sphereTotal p c (mesh s) (V s) = sphereTotal p c (mesh' s) (V' s) := by
    intro s hs
    have h1 : (mesh' s).edges = (mesh s).edges := by
      funext k
      exact tangentLeft_right (fun s => (mesh s).edges k) _ hs
    have h2 : V' s = V s := by
      funext l k i
      exact tangentLeft_right _ _ hs
    simp only [sphereTotal, h1, h2]
  exact this.hasDerivWithinAt.congr key (key t (mem_Ici.2 le_rfl))

theorem continuousOn_sphereTotal {p : RhsParams} {c : FluxConfig} {mesh : ℝ → MeshView}
    {V : ℝ → ℕ → ℕ → ℕ → ℝ} {A : Set ℝ}
    (he : ∀ k ≤ c.Nspace, ContinuousOn (fun s => (mesh s).edges k) A)
    (ho : ∀ s ∈ A, ∀ k < c.Nspace, (mesh s).edges k < (mesh s).edges (k + 1))
    (hV : ∀ l < p.Nang, ∀ k < c.Nspace, ∀ i ≤ c.M, ContinuousOn (fun s => V s l k i) A) :
    ContinuousOn (fun s => sphereTotal p c (mesh s) (V s)) A := by
  unfold sphereTotal angularSum
  refine continuousOn_finsetSum _ fun l hl => continuousOn_const.mul
    (continuousOn_finsetSum _ fun k hk => ?_)
  have hl := Finset.mem_range.1 hl
  have hk := Finset.mem_range.1 hk
  refine ContinuousOn.congr ?_ fun s hs => sphereContent_eq c.M (V s l k) (ho s hs k hk)
  refine ContinuousOn.mul (ContinuousOn.sqrt (continuousOn_const.mul ((he _ hk).sub (he _ hk.le))))
    (continuousOn_finsetSum _ fun j hj => ?_)
  have hj : j ≤ c.M := by simpa [Nat.lt_succ_iff] using hj
  exact (continuousOn_sphereMass (he _ hk.le) (he _ hk) (fun s hs => ho s hs k hk) 0 j).mul
    (hV l hl k hk j hj)

/-- A continuous function whose derivative to the right vanishes except at finitely many times. -/
theorem constant_except {F : Set ℝ} (hF : F.Finite) {f : ℝ → ℝ} {a b : ℝ}
    (hf : ContinuousOn f (Icc a b))
    (hd : ∀ x ∈ Ico a b \ F, HasDerivWithinAt f 0 (Ici x) x) {t : ℝ} (ht : t ∈ Icc a b) :
    f t = f a := by
  have h1 := gronwall_except hF f (fun _ => 0) 0 0 a b (f a) hf hd le_rfl
    (fun x _ => by simp) t ht
  have h2 := gronwall_except hF (fun s => -f s) (fun _ => 0) 0 0 a b (-f a) hf.neg
    (fun x hx => (hd x hx).neg.congr_deriv neg_zero) le_rfl (fun x _ => by simp) t ht
  simp only [gronwallBound_K0, zero_mul, add_zero] at h1 h2
  linarith

/-- Particle number of a state at a time. -/
noncomputable def programTotal (P : Problem) (t : ℝ) (V : ℕ → ℕ → ℕ → ℝ) : ℝ :=
  sphereTotal P.params P.fluxConfig (meshAt P t) V

/-- Rate at which the source of the program makes particles. -/
noncomputable def programEmission (P : Problem) (t : ℝ) : ℝ :=
  1 / 2 * P.sigmaS * ∑ k ∈ Finset.range P.mesh.N,
    Real.sqrt (Real.pi * ((meshAt P t).edges (k + 1) - (meshAt P t).edges k)) *
      programSource P t k 0

/-- C110: directions in order and symmetric, weights equal to half the angular cells, no boundary
source, outer edge at least as fast as every direction.  Along every solution of the equations of
the program the particle number is the initial one, weakened or strengthened by collisions, plus
what the source has made since. -/
theorem c110_particle_number_partial {P : Problem} {e d : ℕ → ℝ} (h : SphereProblem P e d)
    (hs : ¬ SourceAsked P ∨ (P.mesh.st 0 ≠ 1 ∧ OpenNodes P.quad)) (hN : 2 ≤ P.mesh.N)
    (hd : DirectionSet P.Nang P.mus) (hsym : SymmetricSet P.Nang P.mus)
    (hw : CellWeights P)
    (hb : P.boundarySource = false) (hmms : P.mesh.st 4 ≠ 1)
    (hfast : ∀ l < P.Nang, P.mus l ≤ d P.mesh.N) {T : ℝ} {F : Set ℝ} (hF : F.Finite)
    {V : ℝ → ℕ → ℕ → ℕ → ℝ} (hV : ProgramSolutionOn P 0 T F V) {t : ℝ} (ht : t ∈ Icc 0 T) :
    programTotal P t (V t) = Real.exp ((P.sigmaS - 1) * t) * (programTotal P 0 (V 0) +
      ∫ s in (0 : ℝ)..t, Real.exp (-((P.sigmaS - 1) * s)) * programEmission P s) := by
  have hmesh := programMesh h.toSphereSetup le_rfl (b := T) F
  have hl := fun t => meshAt_linear h.mesh t
  have hV' := (programSolution_iff h _ _ _ _).1 hV
  have hact : ∀ left t, ¬ BoundaryActive P.fluxConfig left t := by
    intro left t
    simp [BoundaryActive, Problem.fluxConfig, hmms, hb]
  have hsrc : ∀ k < P.mesh.N, ContinuousOn (fun t => programSource P t k 0) (Ici 0) := by
    intro k hk
    rcases hs with hs | hs
    · have : (fun t => programSource P t k 0) = fun _ => 0 := by
        funext t
        simp only [programSource, sourceOf, if_neg hs]
      rw [this]
      exact continuousOn_const
    · exact continuousOn_programSource h hs.1 hs.2 hk 0
  have hedges : ∀ k ≤ P.mesh.N, Continuous fun s => (meshAt P s).edges k := by
    intro k hk
    have : (fun s => (meshAt P s).edges k) = fun s => e k + d k * s :=
      funext fun s => (hl s).1 k hk
    rw [this]
    fun_prop
  have hem : ContinuousOn (programEmission P) (Ici 0) := by
    unfold programEmission
    refine continuousOn_const.mul (continuousOn_finsetSum _ fun k hk => ?_)
    have hk := Finset.mem_range.1 hk
    refine ContinuousOn.mul (Continuous.continuousOn ?_) (hsrc k hk)
    exact (continuous_const.mul ((hedges _ hk).sub (hedges _ hk.le))).sqrt
  have hexp : Continuous fun s : ℝ => Real.exp (-((P.sigmaS - 1) * s)) := by fun_prop
  have hint : ContinuousOn (fun s => Real.exp (-((P.sigmaS - 1) * s)) * programEmission P s)
      (Ici 0) := hexp.continuousOn.mul hem
  have hT : 0 ≤ T := ht.1.trans ht.2
  set f : ℝ → ℝ := fun s => Real.exp (-((P.sigmaS - 1) * s)) * programTotal P s (V s)
    - ∫ x in (0 : ℝ)..s, Real.exp (-((P.sigmaS - 1) * x)) * programEmission P x with hf
  have hint' : ∀ s, 0 ≤ s → IntervalIntegrable
      (fun x => Real.exp (-((P.sigmaS - 1) * x)) * programEmission P x) MeasureTheory.volume 0 s :=
    fun s hs => (hint.mono (by rw [uIcc_of_le hs]; exact Icc_subset_Ici_self)).intervalIntegrable
  have hfc : ContinuousOn f (Icc 0 T) := by
    refine (hexp.continuousOn.mul (continuousOn_sphereTotal hmesh.cont hmesh.ordered hV'.1)).sub ?_
    have := intervalIntegral.continuousOn_primitive_interval' (hint' T hT) left_mem_uIcc
    rwa [uIcc_of_le hT] at this
  have hfd : ∀ x ∈ Ico 0 T \ F, HasDerivWithinAt f 0 (Ici x) x := by
    intro x hx
    obtain ⟨R, hR, hrate⟩ := hV'.2 x hx fluxInit
    have h1 := sphere_conserves_right P.params hd hsym (hw.ws h.directions) P.fluxConfig h.sphere h.order hN x
      (hact _ _) (hact _ _) (meshAt P) (programMats P x) (programSource P x) fluxInit V R
      (by rw [(hl x).2 0 (Nat.zero_le _), h.mesh.rest]) (hmesh.ordered x ⟨hx.1.1, hx.1.2.le⟩)
      (hmesh.velocity x hx) (hmesh.mats x hx) hR hrate
    have hout : angularSum P.params.Nang P.params.ws (fun l =>
          max (P.params.mus l - (meshAt P x).Dedges P.fluxConfig.Nspace) 0 *
            sphereField P.fluxConfig.M (V x l (P.fluxConfig.Nspace - 1))
              ((meshAt P x).edges (P.fluxConfig.Nspace - 1))
              ((meshAt P x).edges P.fluxConfig.Nspace) ((meshAt P x).edges P.fluxConfig.Nspace))
        = 0 := by
      unfold angularSum
      refine Finset.sum_eq_zero fun l hl' => ?_
      have h2 : (meshAt P x).Dedges P.fluxConfig.Nspace = d P.mesh.N := (hl x).2 _ le_rfl
      have h3 : P.params.mus l ≤ d P.mesh.N := hfast l (Finset.mem_range.1 hl')
      simp only [h2, max_eq_right (sub_nonpos.2 h3), zero_mul, mul_zero]
    rw [hout, mul_zero, zero_add] at h1
    have h2 : HasDerivWithinAt (fun s : ℝ => Real.exp (-((P.sigmaS - 1) * s)))
        (-(P.sigmaS - 1) * Real.exp (-((P.sigmaS - 1) * x))) (Ici x) x := by
      have := ((((hasDerivAt_id x).const_mul (P.sigmaS - 1)).neg).exp).hasDerivWithinAt (s := Ici x)
      refine this.congr_deriv ?_
      simp only [id, mul_one, Pi.neg_apply]
      ring
    have h3 : HasDerivWithinAt
        (fun s => ∫ x in (0 : ℝ)..s, Real.exp (-((P.sigmaS - 1) * x)) * programEmission P x)
        (Real.exp (-((P.sigmaS - 1) * x)) * programEmission P x) (Ici x) x := by
      have hsub : Ici x ⊆ Ici (0 : ℝ) := Ici_subset_Ici.2 hx.1.1
      refine intervalIntegral.integral_hasDerivWithinAt_right (hint' x hx.1.1) (t := Ioi x)
        ?_ ((hint x hx.1.1).mono (Ioi_subset_Ici_self.trans hsub))
      exact (hint.mono (Ioi_subset_Ici_self.trans hsub)).stronglyMeasurableAtFilter_nhdsWithin
        measurableSet_Ioi x
    refine ((h2.mul h1).sub h3).congr_deriv ?_
    have hc : P.params.c = P.sigmaS := rfl
    have hNs : P.fluxConfig.Nspace = P.mesh.N := rfl
    rw [hc, hNs]
    unfold programEmission
    ring
  have h4 := constant_except hF hfc hfd ht
  have h5 : f 0 = programTotal P 0 (V 0) := by
    simp [hf]
  rw [h5] at h4
  rw [← h4]
  simp only [hf]
  have h6 : Real.exp ((P.sigmaS - 1) * t) * Real.exp (-((P.sigmaS - 1) * t)) = 1 := by
    rw [← Real.exp_add]; simp
  linear_combination (-(programTotal P t (V t))) * h6

/-- C110: without source the particle number is the initial one times an exponential; with
scattering ratio one it is conserved exactly. -/
theorem c110_particle_number_without_source_partial {P : Problem} {e d : ℕ → ℝ}
    (h : SphereProblem P e d) (hs : ¬ SourceAsked P) (hN : 2 ≤ P.mesh.N)
    (hd : DirectionSet P.Nang P.mus) (hsym : SymmetricSet P.Nang P.mus)
    (hw : CellWeights P)
    (hb : P.boundarySource = false) (hmms : P.mesh.st 4 ≠ 1)
    (hfast : ∀ l < P.Nang, P.mus l ≤ d P.mesh.N) {T : ℝ} {F : Set ℝ} (hF : F.Finite)
    {V : ℝ → ℕ → ℕ → ℕ → ℝ} (hV : ProgramSolutionOn P 0 T F V) {t : ℝ} (ht : t ∈ Icc 0 T) :
    programTotal P t (V t) = Real.exp ((P.sigmaS - 1) * t) * programTotal P 0 (V 0) := by
  rw [c110_particle_number_partial h (Or.inl hs) hN hd hsym hw hb hmms hfast hF hV ht]
  have : ∀ s, programEmission P s = 0 := by
    intro s
    simp [programEmission, programSource, sourceOf, if_neg hs]
  simp [this]

/-! ### Stability -/

/-- C110: with the weights of the angular cells, no direction beyond the middle of its cell
and scattering ratio at most one, the distance of two solutions never grows. -/
theorem c110_never_grows_partial {P : Problem} {e d : ℕ → ℝ} (h : SphereProblem P e d)
    (hN : 1 ≤ P.mesh.N) (hd : DirectionSet P.Nang P.mus)
    (hw : CellWeights P) (hc : 0 ≤ P.sigmaS)
    (hc1 : P.sigmaS ≤ 1) (hmid : ∀ l < P.Nang, angularMid P.Nang P.mus l ≤ P.mus l) {T : ℝ}
    {F : Set ℝ} (hF : F.Finite) {V W : ℝ → ℕ → ℕ → ℕ → ℝ} (hV : ProgramSolutionOn P 0 T F V)
    (hW : ProgramSolutionOn P 0 T F W) :
    AntitoneOn (fun t => sphereAngularSq P.params P.mesh.N P.M (meshAt P t).edges
      fun l k i => V t l k i - W t l k i) (Icc 0 T) :=
  c103_sphere_never_grows_partial P.params hd (hw.ws h.directions) hc hc1 hmid P.fluxConfig h.sphere h.order hN 0 T F
    hF (meshAt P) (programMats P) (programMesh h.toSphereSetup le_rfl F) (programSource P) V W
    ((programSolution_iff h _ _ _ _).1 hV) ((programSolution_iff h _ _ _ _).1 hW)

/-! ### A concrete problem -/

/-- The outermost edge of the moving shell mesh has the full mesh speed. -/
theorem shell_outer_speed {c : MeshConfig} (hN : 3 ≤ c.N) :
    (shellState c).DedgesConst c.N = c.speed := by
  have h1 : c.N / 2 + 1 + 1 ≤ c.N := by omega
  have h2 : (shellEdges c).get c.N - c.x0 ≠ 0 := by
    rw [shell_get le_rfl, shellGrid, if_neg (by omega), div_self]
    · norm_num
    · exact Nat.cast_ne_zero.2 (by omega)
  simp only [shellState, if_pos h1]
  rw [div_self h2, one_mul]

theorem exampleShell_problem {inv : (ℕ → ℕ → ℝ) → ℕ → ℕ → ℝ} (hi : InverseCorrect 1 inv) :
    SphereProblem (exampleShell inv) (shellEdges exampleShellMesh).get
      (shellState exampleShellMesh).DedgesConst where
  sphere := rfl
  mesh := shell_linear exampleShell_mesh rfl rfl rfl (Nat.le_of_ble_eq_true rfl)
    (by norm_num [exampleShell, exampleShellMesh, exampleSquareMesh])
    (by norm_num [exampleShell, exampleShellMesh, exampleSquareMesh])
  order := by norm_num [exampleShell]
  tables := exactTables_exact 2
  inverse := hi
  opacity := rfl
  directions := le_rfl
  checks := exampleShell_checks

theorem exampleShell_source (inv : (ℕ → ℕ → ℝ) → ℕ → ℕ → ℝ) :
    (exampleShell inv).mesh.st 0 ≠ 1 ∧ OpenNodes (exampleShell inv).quad := by
  refine ⟨by simp [exampleShell, exampleShellMesh, exampleSquareMesh, MeshConfig.st], fun z hz => ?_⟩
  simp only [exampleShell, List.mem_cons, List.not_mem_nil, or_false] at hz
  rcases hz with rfl | rfl <;> norm_num

theorem exampleShell_weights (inv : (ℕ → ℕ → ℝ) → ℕ → ℕ → ℝ) : CellWeights (exampleShell inv) := by
  refine ⟨3, by norm_num, fun l hl => ?_⟩
  have h1 : (1 / 2 : ℝ) = angularWidth 2 exampleSphereParams.mus l / 2 := exampleSphere_weights l hl
  have h2 : (exampleShell inv).rawWs l = 3 := rfl
  have h3 : angularWidth (exampleShell inv).Nang (exampleShell inv).mus l =
      angularWidth 2 exampleSphereParams.mus l := rfl
  rw [h2, h3]
  linarith

/-- The equations of the example have exactly one solution over `[0, 2]`, and its particle number is
known from the source. -/
example : ∃ inv, InverseCorrect 1 inv ∧ ∃ V, ProgramSolutionOn (exampleShell inv) 0 2 {0, 1} V ∧
    (∀ l < 2, ∀ k < 4, ∀ i ≤ 1, V 0 l k i = 1) ∧
    programTotal (exampleShell inv) 2 (V 2) = Real.exp ((1 / 2 - 1) * 2) *
      (programTotal (exampleShell inv) 0 (V 0) + ∫ s in (0 : ℝ)..2,
        Real.exp (-((1 / 2 - 1) * s)) * programEmission (exampleShell inv) s) := by
  obtain ⟨inv, hi⟩ := inverse_exists 1
  have hp := exampleShell_problem hi
  have hs := exampleShell_source inv
  obtain ⟨V, ⟨h1, h2⟩, -⟩ := c110_wellposed_partial hp (Or.inr hs) (T := 2) (by norm_num)
    fun _ _ _ => 1
  have ht : max 0 (min (exampleShell inv).mesh.t0 2) = 1 := by
    have : (exampleShell inv).mesh.t0 = 1 := rfl
    rw [this]; norm_num
  rw [ht] at h1
  refine ⟨inv, hi, V, h1, h2, ?_⟩
  refine c110_particle_number_partial hp (Or.inr hs) (Nat.le_of_ble_eq_true rfl)
    exampleSphere_directions
    exampleSphere_symmetric (exampleShell_weights inv) rfl
    (by simp [exampleShell, exampleShellMesh, exampleSquareMesh, MeshConfig.st])
    (fun l hl => ?_) (by simp) h1 (t := 2) ⟨by norm_num, le_rfl⟩
  have e1 := shell_outer_speed (c := exampleShellMesh) (by decide)
  have e2 : exampleShellMesh.speed = 1 := by
    norm_num [MeshConfig.speed, exampleShellMesh, exampleSquareMesh]
  rw [show (exampleShell inv).mesh.N = exampleShellMesh.N from rfl, e1, e2]
  have : l = 0 ∨ l = 1 := by
    have : l < 2 := hl
    omega
  rcases this with rfl | rfl <;> norm_num [exampleShell, exampleSphereParams]

/-- Without uncollided treatment nothing is emitted. -/
example : ∃ inv, InverseCorrect 1 inv ∧ ∃ V W : ℝ → ℕ → ℕ → ℕ → ℝ,
    ProgramSolutionOn { exampleShell inv with uncollided := false } 0 2 {0, 1} V ∧
    (∀ l < 2, ∀ k < 4, ∀ i ≤ 1, V 0 l k i = 1) ∧ (∀ l < 2, ∀ k < 4, ∀ i ≤ 1, W 0 l k i = 3) ∧
    programTotal { exampleShell inv with uncollided := false } 2 (V 2) =
      Real.exp ((1 / 2 - 1) * 2) *
        programTotal { exampleShell inv with uncollided := false } 0 (V 0) ∧
    AntitoneOn (fun t => sphereAngularSq (exampleShell inv).params 4 1
      (meshAt { exampleShell inv with uncollided := false } t).edges
      fun l k i => V t l k i - W t l k i) (Icc 0 2) := by
  obtain ⟨inv, hi⟩ := inverse_exists 1
  have hp' := exampleShell_problem hi
  have hp : SphereProblem { exampleShell inv with uncollided := false }
      (shellEdges exampleShellMesh).get (shellState exampleShellMesh).DedgesConst :=
    ⟨⟨hp'.sphere, hp'.mesh, hp'.order, hp'.tables, hp'.inverse, hp'.directions, hp'.checks⟩,
      hp'.opacity⟩
  have hs : ¬ SourceAsked { exampleShell inv with uncollided := false } :=
    fun h => Bool.false_ne_true h.1
  obtain ⟨V, ⟨h1, h2⟩, -⟩ := c110_wellposed_partial hp (Or.inl hs) (T := 2) (by norm_num)
    fun _ _ _ => 1
  obtain ⟨W, ⟨h3, h4⟩, -⟩ := c110_wellposed_partial hp (Or.inl hs) (T := 2) (by norm_num)
    fun _ _ _ => 3
  have ht : max 0 (min (exampleShell inv).mesh.t0 2) = 1 := by
    have : (exampleShell inv).mesh.t0 = 1 := rfl
    rw [this]; norm_num
  have h1 : ProgramSolutionOn { exampleShell inv with uncollided := false } 0 2 {0, 1} V := by
    rw [← ht]; exact h1
  have h3 : ProgramSolutionOn { exampleShell inv with uncollided := false } 0 2 {0, 1} W := by
    rw [← ht]; exact h3
  refine ⟨inv, hi, V, W, h1, h2, h4, ?_, ?_⟩
  · refine c110_particle_number_without_source_partial hp hs (Nat.le_of_ble_eq_true rfl)
      exampleSphere_directions
      exampleSphere_symmetric (exampleShell_weights inv) rfl
      (by simp [exampleShell, exampleShellMesh, exampleSquareMesh, MeshConfig.st])
      (fun l hl => ?_) (by simp) h1 (t := 2) ⟨by norm_num, le_rfl⟩
    have e1 := shell_outer_speed (c := exampleShellMesh) (by decide)
    have e2 : exampleShellMesh.speed = 1 := by
      norm_num [MeshConfig.speed, exampleShellMesh, exampleSquareMesh]
    rw [show (exampleShell inv).mesh.N = exampleShellMesh.N from rfl, e1, e2]
    have : l = 0 ∨ l = 1 := by
      have : l < 2 := hl
      omega
    rcases this with rfl | rfl <;> norm_num [exampleShell, exampleSphereParams]
  · refine c110_never_grows_partial hp (Nat.le_of_ble_eq_true rfl) exampleSphere_directions
      (exampleShell_weights inv) (by norm_num [exampleShell]) (by norm_num [exampleShell])
      (fun l hl => ?_) (F := {0, 1}) (by simp) h1 h3
    have : l = 0 ∨ l = 1 := by
      have : l < 2 := hl
      omega
    rcases this with rfl | rfl <;>
      norm_num [exampleShell, exampleSphereParams, angularMid, angularEdge]

end Verif.Props
