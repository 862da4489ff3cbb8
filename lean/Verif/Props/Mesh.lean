import Verif.Lemmas.MeshGrids
import Mathlib.Analysis.Calculus.Deriv.Add
import Mathlib.Analysis.Calculus.Deriv.Mul
import Mathlib.Analysis.Calculus.Deriv.Pow
import Mathlib.Tactic.NormNum
import Mathlib.Tactic.IntervalCases

/-!
C22-C31: the moving mesh.
-/

namespace Verif.Props

open Verif.Model Verif.Lemmas Verif.Spec

/-! ### Problem classes -/

/-- Plane (`1`) or shifted plane (`2`) pulse, optically thin. -/
structure IsPlane (c : MeshConfig) : Prop where
  thin : c.thick = false
  s0 : c.st 0 = 1 ∨ c.st 0 = 2
  s1 : c.st 1 ≠ 1
  s2 : c.st 2 ≠ 1
  s3 : c.st 3 ≠ 1
  s5 : c.st 5 ≠ 1

/-- Square pulse, optically thin. -/
structure IsSquare (c : MeshConfig) : Prop where
  thin : c.thick = false
  s0 : c.st 0 = 0
  s1 : c.st 1 = 1
  s3 : c.st 3 ≠ 1
  s5 : c.st 5 ≠ 1

/-- Square source, optically thin. -/
structure IsSquareSource (c : MeshConfig) : Prop where
  thin : c.thick = false
  s0 : c.st 0 = 0
  s1 : c.st 1 = 0
  s2 : c.st 2 = 1
  s3 : c.st 3 ≠ 1
  s5 : c.st 5 ≠ 1

/-- Gaussian pulse or source, optically thin. -/
structure IsGaussian (c : MeshConfig) : Prop where
  thin : c.thick = false
  s0 : c.st 0 = 0
  s1 : c.st 1 = 0
  s2 : c.st 2 = 0
  s35 : c.st 3 = 1 ∨ c.st 5 = 1

/-- No volume source: radiation enters through the boundary, optically thin. -/
structure IsBoundary (c : MeshConfig) : Prop where
  thin : c.thick = false
  zero : c.allZero

theorem IsPlane.speed {c : MeshConfig} (h : IsPlane c) : c.speed = c.edgeV :=
  speed_of_not_allZero (not_allZero (i := 0) (by rcases h.s0 with e | e <;> rw [e] <;> decide))

theorem IsSquare.speed {c : MeshConfig} (h : IsSquare c) : c.speed = c.edgeV :=
  speed_of_not_allZero (not_allZero (i := 1) (by rw [h.s1]; decide))

theorem IsSquareSource.speed {c : MeshConfig} (h : IsSquareSource c) : c.speed = c.edgeV :=
  speed_of_not_allZero (not_allZero (i := 2) (by rw [h.s2]; decide))

theorem IsGaussian.speed {c : MeshConfig} (h : IsGaussian c) : c.speed = c.edgeV :=
  h.s35.elim (fun e => speed_of_not_allZero (not_allZero (i := 3) (by rw [e]; decide)))
    fun e => speed_of_not_allZero (not_allZero (i := 5) (by rw [e]; decide))

/-- The Gauss-Lobatto nodes handed to the mesh (main_functions.py 126-127): `N/2 + 1` and `N/4 + 1`
increasing symmetric nodes on `[-1, 1]` with both ends. -/
structure QuadsGiven (c : MeshConfig) : Prop where
  size : c.thickQuad.size = c.N / 2 + 1
  sizeEdge : c.thickQuadEdge.size = c.N / 4 + 1
  nodes : ClosedNodes c.thickQuad.get (c.N / 2)
  nodesEdge : ClosedNodes c.thickQuadEdge.get (c.N / 4)

/-! ### The constructed objects -/

theorem plane_init {c : MeshConfig} (h : IsPlane c) (hm : c.moving = true) :
    meshInit c = some (simpleMovingInit c (meshBlank c)) := by
  have hz : ¬ c.allZero := not_allZero (i := 0) (by rcases h.s0 with h | h <;> rw [h] <;> decide)
  rw [init_moving hm]
  simp [chooseInit, h.thin, h.s0, h.s1, h.s2, h.s3, h.s5, hz]
  rfl

theorem gaussian_init {c : MeshConfig} (h : IsGaussian c) (hm : c.moving = true) :
    meshInit c = some (simpleMovingInit c (meshBlank c)) := by
  rw [init_moving hm]
  simp [chooseInit, h.thin, h.s0, h.s35]
  rfl

/-- The slab square mesh as constructed. -/
noncomputable def legendreState (c : MeshConfig) : MeshState :=
  let d : ℕ → ℝ := fun k => squareVelocity c (fun _ => 0) (legendreEdges c).get k * c.speed
  { meshBlank c with
    edges := (legendreEdges c).get, edges0 := (legendreEdges c).get, Dedges := d, DedgesConst := d }

theorem legendre_init {c : MeshConfig} (h : IsSquare c ∨ IsSquareSource c) (hm : c.moving = true)
    (hg : c.geometry = .slab) :
    meshInit c = if c.N = 2 then none
      else if (legendreEdges c).size = c.N + 1 then some (legendreState c) else none := by
  rw [init_moving hm]
  have key : chooseInit c = legendreInit c (meshBlank c) := by
    rcases h with h | h
    · simp [chooseInit, h.thin, h.s0, h.s1, h.s3, h.s5, hg]
    · simp [chooseInit, h.thin, h.s0, h.s1, h.s2, h.s3, h.s5, hg]
  rw [key]
  unfold legendreInit
  split_ifs <;> simp_all [legendreState, meshBlank]

/-- The spherical square mesh as constructed. -/
noncomputable def shellState (c : MeshConfig) : MeshState :=
  let e := (shellEdges c).get
  let d : ℕ → ℝ := fun k =>
    if c.N / 2 + 1 + 1 ≤ k then (e k - c.x0) / (e c.N - c.x0) * c.speed else 0
  { meshBlank c with edges := e, edges0 := e, Dedges := d, DedgesConst := d }

theorem shell_init {c : MeshConfig} (h : IsSquare c ∨ IsSquareSource c) (hm : c.moving = true)
    (hg : c.geometry = .sphere) :
    meshInit c = if (shellEdges c).size = c.N + 1 then some (shellState c) else none := by
  rw [init_moving hm]
  have key : chooseInit c = shellInit c (meshBlank c) := by
    rcases h with h | h
    · simp [chooseInit, h.thin, h.s0, h.s1, h.s3, h.s5, hg]
    · simp [chooseInit, h.thin, h.s0, h.s1, h.s2, h.s3, h.s5, hg]
  rw [key]
  unfold shellInit
  split_ifs <;> simp_all [shellState, meshBlank]

/-- The boundary-source mesh as constructed. -/
noncomputable def boundaryState (c : MeshConfig) : MeshState :=
  let e := (linspace (-c.x0) c.x0 (c.N + 1)).get
  let d : ℕ → ℝ := fun k => ((boundaryFinal c c.vnaught).get k - e k) / c.tfinal
  { meshBlank c with edges := e, edges0 := e, Dedges := d, DedgesConst := d }

theorem boundary_init {c : MeshConfig} (h : IsBoundary c) (hm : c.moving = true) :
    meshInit c = if (boundaryFinal c c.vnaught).size = c.N + 1 then some (boundaryState c)
      else none := by
  rw [init_moving hm]
  have z := st_of_allZero h.zero
  have key : chooseInit c = boundaryInit c (meshBlank c) c.vnaught := by
    simp [chooseInit, h.thin, z, h.zero]
  rw [key]
  unfold boundaryInit
  have : (linspace (-c.x0) c.x0 (c.N + 1)).size = c.N + 1 := rfl
  simp only [this]
  split_ifs <;> simp_all [boundaryState, meshBlank]

/-! ### `move` by problem class -/

theorem move_plane {c : MeshConfig} (h : IsPlane c) {s : MeshState} (hm : s.moving = true) (t : ℝ) :
    meshMove c s t = some { s with edges := fun k => s.edges0 k + s.DedgesConst k * t } := by
  simp only [meshMove, hm, h.s0, if_true]

open Classical in
theorem move_square {c : MeshConfig} (h : IsSquare c) {s : MeshState} (hm : s.moving = true)
    (t : ℝ) : meshMove c s t =
      if c.finiteDomain = true ∧ t = c.tfinal then
        some { s with edges := (linspace (-c.domainWidth / 2) (c.domainWidth / 2) (c.N + 1)).get }
      else if reachedEnd c s then
        some { s with Dedges := fun k => s.DedgesConst k * 0 }
      else
        some { s with
          edges := fun k => s.edges0 k + s.DedgesConst k * t
          Dedges := s.DedgesConst } := by
  have h0 : ¬ (c.st 0 = 1 ∨ c.st 0 = 2) := by rw [h.s0]; decide
  simp only [meshMove, hm, h0, h.s1, if_true, if_false]

theorem move_source_open {c : MeshConfig} (h : IsSquareSource c) (hf : c.finiteDomain = false)
    (s : MeshState) (t : ℝ) : meshMove c s t = some s := by
  have h0 : ¬ (c.st 0 = 1 ∨ c.st 0 = 2) := by rw [h.s0]; decide
  have h1 : ¬ c.st 1 = 1 := by rw [h.s1]; decide
  have hz : ¬ c.allZero := not_allZero (i := 2) (by rw [h.s2]; decide)
  cases hm : s.moving <;> simp [meshMove, hm, h0, h1, hf, hz]

open Classical in
theorem move_source_finite {c : MeshConfig} (h : IsSquareSource c) (hf : c.finiteDomain = true)
    (h0 : c.moveFunc = 0) {s : MeshState} (hm : s.moving = true) (t : ℝ) :
    meshMove c s t = if reachedEnd c s then some { s with Dedges := fun k => s.DedgesConst k * 0 }
      else accelMove c s t := by
  have h0' : ¬ (c.st 0 = 1 ∨ c.st 0 = 2) := by rw [h.s0]; decide
  have h1 : ¬ c.st 1 = 1 := by rw [h.s1]; decide
  simp [meshMove, hm, h0', h1, h.s2, hf, h0]

theorem move_gaussian {c : MeshConfig} (h : IsGaussian c) (s : MeshState) (t : ℝ) :
    meshMove c s t = some s := by
  have hz : ¬ c.allZero := by
    rcases h.s35 with h3 | h3
    · exact not_allZero (i := 3) (by rw [h3]; decide)
    · exact not_allZero (i := 5) (by rw [h3]; decide)
  cases hm : s.moving <;> simp [meshMove, hm, h.s0, h.s1, h.s2, hz]

theorem move_boundary {c : MeshConfig} (h : IsBoundary c) {s : MeshState} (hm : s.moving = true)
    (t : ℝ) : meshMove c s t = some { s with edges := fun k => s.edges0 k + s.Dedges k * t } := by
  have z := st_of_allZero h.zero
  simp [meshMove, hm, z, h.zero]

/-! ### C22 -/

/-- C22: created with moving off, the mesh never changes and all velocities are zero. -/
theorem c22_static_mesh {c : MeshConfig} {s : MeshState} (hm : c.moving = false)
    (h : meshInit c = some s) :
    (∀ k, s.Dedges k = 0) ∧ ∀ ts, meshRun c s ts = some s := by
  unfold meshInit finishInit at h
  simp only [hm, if_true, Option.bind_eq_some_iff, Option.map_eq_some_iff] at h
  obtain ⟨s0, -, s1, -, rfl⟩ := h
  exact ⟨fun k => mul_zero _, fun ts => run_static rfl ts⟩

theorem legendreInit_moving (c : MeshConfig) (s : MeshState) :
    legendreInit { c with moving := true } { s with moving := true } =
      (legendreInit c s).map fun s => { s with moving := true } := by
  by_cases h1 : c.N = 2
  · simp [legendreInit, h1]
  · by_cases h2 : (legendreEdges c).size = c.N + 1
    · have h2' : (legendreEdges { c with moving := true }).size = c.N + 1 := h2
      simp only [legendreInit, h1, h2, h2', if_true, if_false, Option.map_some]
      rfl
    · have h2' : ¬ (legendreEdges { c with moving := true }).size = c.N + 1 := h2
      simp [legendreInit, h2, h2']

theorem shellInit_moving (c : MeshConfig) (s : MeshState) :
    shellInit { c with moving := true } { s with moving := true } =
      (shellInit c s).map fun s => { s with moving := true } := by
  by_cases h2 : (shellEdges c).size = c.N + 1
  · have h2' : (shellEdges { c with moving := true }).size = c.N + 1 := h2
    simp only [shellInit, h2, h2', if_true, Option.map_some]
    rfl
  · have h2' : ¬ (shellEdges { c with moving := true }).size = c.N + 1 := h2
    simp [shellInit, h2, h2']

theorem chooseInit_moving {c : MeshConfig} (ht : c.thick = false) (hz : ¬ c.allZero) :
    chooseInit { c with moving := true } =
      (chooseInit c).map fun s => { s with moving := true } := by
  obtain ⟨d, hd⟩ : ∃ d : MeshConfig, d = { c with moving := true } := ⟨_, rfl⟩
  rw [← hd]
  have hz' : ¬ d.allZero := by rw [hd]; exact hz
  have hst : ∀ i, d.st i = c.st i := fun _ => by rw [hd]; rfl
  have ht' : d.thick = false := by rw [hd]; exact ht
  have hg' : d.geometry = c.geometry := by rw [hd]
  by_cases h0 : c.st 0 = 1 ∨ c.st 0 = 2 <;> by_cases h3 : c.st 3 = 1 ∨ c.st 5 = 1 <;>
    by_cases h1 : c.st 1 = 1 ∨ c.st 2 = 1 <;> cases hg : c.geometry
  all_goals
    rw [hg] at hg'
    simp only [chooseInit, hst, ht, ht', hg, hg', h0, h3, h1, hz, hz', if_true, if_false,
      Option.map_some]
  all_goals
    subst hd
    first
      | rfl
      | exact legendreInit_moving c (meshBlank c)
      | exact shellInit_moving c (meshBlank c)
      | exact legendreInit_moving c (simpleMovingInit c (meshBlank c))

/-- C22: a thin static mesh (with a volume source) is where the moving mesh ends. -/
theorem c22_static_at_final {c : MeshConfig} {s : MeshState} (hm : c.moving = false)
    (ht : c.thick = false) (hz : ¬ c.allZero) (h : meshInit c = some s) :
    ∃ m m', meshInit { c with moving := true } = some m ∧
      meshMove { c with moving := true } m c.tfinal = some m' ∧ s.edges = m'.edges := by
  unfold meshInit finishInit at h
  simp only [hm, if_true, Option.bind_eq_some_iff, Option.map_eq_some_iff] at h
  obtain ⟨s0, h0, s1, h1, rfl⟩ := h
  refine ⟨{ s0 with moving := true, DedgesConst := s0.Dedges }, s1, ?_, h1, rfl⟩
  rw [init_moving rfl, chooseInit_moving ht hz, h0]
  rfl

/-! ### An example configuration -/

/-- Square pulse in a slab, four cells. -/
noncomputable def exampleSquareMesh : MeshConfig where
  N := 4
  x0 := 1 / 2
  tfinal := 2
  moving := true
  moveFunc := 0
  sourceType := [0, 1, 0, 0, 0, 0]
  edgeV := 1
  thick := false
  moveFactor := 1
  pad := 1
  leaderPad := 1
  thickQuad := ⟨3, fun i => (i : ℝ) - 1⟩
  thickQuadEdge := ⟨2, fun i => 2 * (i : ℝ) - 1⟩
  finiteDomain := false
  domainWidth := 10
  vnaught := 0
  t0 := 1
  geometry := .slab
  waveAt := fun t => t
  waveLastT := 1
  waveLastR := 1

/-- The same with a square source. -/
noncomputable def exampleSourceMesh : MeshConfig :=
  { exampleSquareMesh with sourceType := [0, 0, 1, 0, 0, 0] }

theorem exampleSquare_class : IsSquare exampleSquareMesh :=
  ⟨rfl, rfl, rfl, by decide, by decide⟩

theorem exampleSource_class : IsSquareSource exampleSourceMesh :=
  ⟨rfl, rfl, rfl, rfl, by decide, by decide⟩

theorem exampleSquare_quads : QuadsGiven exampleSquareMesh where
  size := rfl
  sizeEdge := rfl
  nodes :=
    { pos := by decide
      first := by norm_num [exampleSquareMesh]
      last := by norm_num [exampleSquareMesh]
      strict := fun i j hij _ => by
        have : (i : ℝ) < j := by exact_mod_cast hij
        simpa [exampleSquareMesh] using this
      symm := fun i hi => by
        have : i ≤ 2 := hi
        interval_cases i <;> norm_num [exampleSquareMesh] }
  nodesEdge :=
    { pos := by decide
      first := by norm_num [exampleSquareMesh]
      last := by norm_num [exampleSquareMesh]
      strict := fun i j hij _ => by
        have : (i : ℝ) < j := by exact_mod_cast hij
        simpa [exampleSquareMesh] using this
      symm := fun i hi => by
        have : i ≤ 1 := hi
        interval_cases i <;> norm_num [exampleSquareMesh] }

theorem exampleSource_quads : QuadsGiven exampleSourceMesh :=
  ⟨rfl, rfl, exampleSquare_quads.nodes, exampleSquare_quads.nodesEdge⟩

theorem exampleSquare_init : meshInit exampleSquareMesh = some (legendreState exampleSquareMesh) := by
  rw [legendre_init (Or.inl exampleSquare_class) rfl rfl]
  rfl

theorem exampleSource_init : meshInit exampleSourceMesh = some (legendreState exampleSourceMesh) := by
  rw [legendre_init (Or.inr exampleSource_class) rfl rfl]
  rfl

/-! ### C23 -/

/-- Configurations in which `move` never consults the present edges. -/
def NoHistory (c : MeshConfig) : Prop :=
  c.finiteDomain = false ∨ c.st 0 = 1 ∨ c.st 0 = 2 ∨ (c.st 1 ≠ 1 ∧ c.st 2 ≠ 1)

theorem move_move {c : MeshConfig} (h : NoHistory c) {s s1 : MeshState} {t t' : ℝ}
    (h1 : meshMove c s t = some s1) : meshMove c s1 t' = meshMove c s t' := by
  unfold meshMove at h1
  split_ifs at h1 with hm h0 hs1 hf hr hs2 hr' hm0 hm1 hm2 hz
  all_goals try (exfalso; simp_all [NoHistory, reachedEnd]; done)
  all_goals injection h1 with h1; subst h1
  all_goals try (simp_all [meshMove, NoHistory, reachedEnd]; done)
  have z := st_of_allZero hz
  simp [meshMove, hm, z, hz]

theorem move_total {c : MeshConfig} (h : NoHistory c) (s : MeshState) (t : ℝ) :
    ∃ s', meshMove c s t = some s' := by
  unfold meshMove
  split_ifs with hm h0 hs1 hf hr hs2 hr' hm0 hm1 hm2 hz
  all_goals try exact ⟨_, rfl⟩
  all_goals (exfalso; simp_all [NoHistory])

/-- C22: a static configuration that can be constructed. -/
example : ∃ s, meshInit { exampleSquareMesh with moving := false } = some s ∧
    (∀ k, s.Dedges k = 0) ∧ ∀ ts, meshRun { exampleSquareMesh with moving := false } s ts = some s := by
  have h := chooseInit_moving (c := { exampleSquareMesh with moving := false }) rfl
    (not_allZero (i := 1) (by decide))
  have h1 := exampleSquare_init
  rw [init_moving rfl] at h1
  obtain ⟨s0, h2, -⟩ := Option.map_eq_some_iff.mp h1
  rw [show ({ ({ exampleSquareMesh with moving := false } : MeshConfig) with moving := true } :
    MeshConfig) = exampleSquareMesh from rfl, h2] at h
  obtain ⟨s1, h3, -⟩ := Option.map_eq_some_iff.mp h.symm
  have h4 : ∃ s, meshInit { exampleSquareMesh with moving := false } = some s := by
    obtain ⟨s2, h5⟩ := move_total (c := { exampleSquareMesh with moving := false }) (Or.inl rfl)
      { s1 with DedgesConst := s1.Dedges, moving := true } exampleSquareMesh.tfinal
    refine ⟨{ s2 with Dedges := fun k => s2.Dedges k * 0, moving := false }, ?_⟩
    rw [meshInit, h3, Option.bind_some, finishInit]
    simp only [if_true, h5, Option.map_some]
  obtain ⟨s, hs⟩ := h4
  exact ⟨s, hs, c22_static_mesh rfl hs⟩

/-- C23 (partial: without a finite domain, or for sources to which it makes no difference): the
state after a move request does not depend on the requests before. -/
theorem c23_history_irrelevant_partial {c : MeshConfig} (h : NoHistory c) (s : MeshState)
    (ts : List ℝ) (t : ℝ) : meshRun c s (ts ++ [t]) = meshRun c s [t] := by
  induction ts generalizing s with
  | nil => rfl
  | cons u us ih =>
    obtain ⟨s1, h1⟩ := move_total h s u
    simp only [List.cons_append, meshRun, h1, Option.bind_some] at ih ⊢
    rw [ih s1, move_move h h1]

example : NoHistory exampleSquareMesh := Or.inl rfl

/-- C23 (partial, for objects): what the mesh reports after any history is what a fresh mesh
reports. -/
theorem c23_fresh_mesh_partial {c : MeshConfig} (h : NoHistory c) {s s1 s2 : MeshState}
    {ts us : List ℝ} {t : ℝ} (h1 : meshRun c s (ts ++ [t]) = some s1)
    (h2 : meshRun c s (us ++ [t]) = some s2) :
    s1.edges = s2.edges ∧ s1.Dedges = s2.Dedges := by
  rw [c23_history_irrelevant_partial h] at h1 h2
  rw [h1] at h2
  injection h2 with h2
  rw [h2]
  exact ⟨rfl, rfl⟩

/-! ### Reported positions -/

/-- Constructed square mesh with the number of cells it needs. -/
theorem square_constructed {c : MeshConfig} {s : MeshState} (h : IsSquare c ∨ IsSquareSource c)
    (hm : c.moving = true) (hg : c.geometry = .slab) (hq : QuadsGiven c)
    (hs : meshInit c = some s) : s = legendreState c ∧ c.N = 4 * (c.N / 4) ∧
      c.thickQuad.size = 2 * (c.N / 4) + 1 ∧ c.thickQuadEdge.size = c.N / 4 + 1 ∧
      ClosedNodes c.thickQuad.get (2 * (c.N / 4)) ∧ ClosedNodes c.thickQuadEdge.get (c.N / 4) := by
  rw [legendre_init h hm hg] at hs
  split_ifs at hs with h2 hsz
  injection hs with hs
  rw [legendre_size, hq.size, hq.sizeEdge] at hsz
  have hN : c.N = 4 * (c.N / 4) := by omega
  have h2 : c.N / 2 = 2 * (c.N / 4) := by omega
  refine ⟨hs.symm, hN, ?_, hq.sizeEdge, ?_, hq.nodesEdge⟩
  · rw [← h2]; exact hq.size
  · rw [← h2]; exact hq.nodes

/-- Edges of the slab square mesh reaching `D` beyond the source. -/
noncomputable def slabSquareAt (c : MeshConfig) (D : ℝ) : ℕ → ℝ :=
  squareGrid c.thickQuad.get c.thickQuadEdge.get c.x0 D (c.N / 4)

/-- Position of the slab square mesh at constant speed. -/
theorem legendreState_moved {c : MeshConfig} {s : MeshState} (h : IsSquare c ∨ IsSquareSource c)
    (hm : c.moving = true) (hg : c.geometry = .slab) (hq : QuadsGiven c)
    (hs : meshInit c = some s) (k : ℕ) (t : ℝ) :
    s.edges0 k + s.DedgesConst k * t = slabSquareAt c (1 / 100 + c.speed * t) k := by
  obtain ⟨rfl, hN, e1, e2, q1, q2⟩ := square_constructed h hm hg hq hs
  exact legendre_moved hN e1 e2 q2 t

/-- What the edges of a square-pulse mesh can be after any history. -/
theorem square_reachable {c : MeshConfig} {s s' : MeshState} (h : IsSquare c) {ts : List ℝ}
    (h0 : s.edges = s.edges0) (hr : meshRun c s ts = some s') :
    (∃ t, (t = 0 ∨ t ∈ ts) ∧ ∀ k, s'.edges k = s.edges0 k + s.DedgesConst k * t) ∨
      (c.finiteDomain = true ∧
        ∀ k, s'.edges k = uniformGrid (-c.domainWidth / 2) (c.domainWidth / 2) c.N k) := by
  have base : (∃ t, (t = 0 ∨ t ∈ ts) ∧ ∀ k, s.edges k = s.edges0 k + s.DedgesConst k * t) ∨
      (c.finiteDomain = true ∧
        ∀ k, s.edges k = uniformGrid (-c.domainWidth / 2) (c.domainWidth / 2) c.N k) :=
    Or.inl ⟨0, Or.inl rfl, fun k => by rw [h0]; ring⟩
  clear h0
  -- generalise over the reference data, which moves keep
  suffices H : ∀ (ts : List ℝ) (s : MeshState) (us : List ℝ), (∀ t ∈ ts, t ∈ us) →
      ((∃ t, (t = 0 ∨ t ∈ us) ∧ ∀ k, s.edges k = s.edges0 k + s.DedgesConst k * t) ∨
      (c.finiteDomain = true ∧
        ∀ k, s.edges k = uniformGrid (-c.domainWidth / 2) (c.domainWidth / 2) c.N k)) →
      meshRun c s ts = some s' →
      ((∃ t, (t = 0 ∨ t ∈ us) ∧ ∀ k, s'.edges k = s.edges0 k + s.DedgesConst k * t) ∨
      (c.finiteDomain = true ∧
        ∀ k, s'.edges k = uniformGrid (-c.domainWidth / 2) (c.domainWidth / 2) c.N k)) from
    H ts s ts (fun t ht => ht) base hr
  intro ts
  induction ts with
  | nil => intro s us _ hb hr; injection hr with hr; subst hr; exact hb
  | cons t ts ih =>
    intro s us hus hb hr
    simp only [meshRun, Option.bind_eq_some_iff] at hr
    obtain ⟨s1, h1, h2⟩ := hr
    have k1 := move_keeps h1
    have key := ih s1 us (fun u hu => hus u (List.mem_cons_of_mem _ hu)) ?_ h2
    · rw [k1.2.1, k1.2.2] at key; exact key
    · rw [k1.2.1, k1.2.2]
      cases hm : s.moving
      · rw [move_static hm] at h1
        injection h1 with h1; subst h1
        exact hb
      · rw [move_square h hm] at h1
        split_ifs at h1 with hf hend
        · injection h1 with h1; subst h1
          exact Or.inr ⟨hf.1, fun k => linspace_uniform _ _ _ _⟩
        · injection h1 with h1; subst h1
          exact hb
        · injection h1 with h1; subst h1
          exact Or.inl ⟨t, Or.inr (hus t List.mem_cons_self), fun k => rfl⟩

/-! ### C24 -/

/-- C24 (partial: slab square pulse, with or without finite domain). -/
theorem c24_square_ordered_partial {c : MeshConfig} {s s' : MeshState} (h : IsSquare c)
    (hm : c.moving = true) (hg : c.geometry = .slab) (hq : QuadsGiven c) (hx : 0 < c.x0)
    (hv : 0 ≤ c.edgeV) (hw : 0 < c.domainWidth) (hs : meshInit c = some s) {ts : List ℝ}
    (hts : ∀ t ∈ ts, 0 ≤ t) (hr : meshRun c s ts = some s') : Ordered c.N s'.edges := by
  rw [← h.speed] at hv
  obtain ⟨hs', hN, e1, e2, q1, q2⟩ := square_constructed (Or.inl h) hm hg hq hs
  have hpos := q2.pos
  rcases square_reachable h (by rw [hs']; rfl) hr with ⟨t, ht, he⟩ | ⟨-, he⟩
  · have ht0 : 0 ≤ t := by
      rcases ht with rfl | ht
      · exact le_rfl
      · exact hts t ht
    have hD : 0 < 1 / 100 + c.speed * t := by positivity
    have := squareGrid_ordered (x0 := c.x0) q1 q2 hx hD
    rw [← hN] at this
    intro i j hij hj
    rw [he, he, legendreState_moved (Or.inl h) hm hg hq hs,
      legendreState_moved (Or.inl h) hm hg hq hs]
    exact this i j hij hj
  · intro i j hij hj
    rw [he, he]
    exact uniformGrid_ordered (by linarith) (by omega) i j hij hj

/-- C24 (partial: spherical square pulse). -/
theorem c24_shell_ordered_partial {c : MeshConfig} {s s' : MeshState} (h : IsSquare c)
    (hm : c.moving = true) (hg : c.geometry = .sphere) (hx : 0 < c.x0) (hN : 1 ≤ c.N)
    (hv : 0 ≤ c.edgeV) (hw : 0 < c.domainWidth) (hs : meshInit c = some s) {ts : List ℝ}
    (hts : ∀ t ∈ ts, 0 ≤ t) (hr : meshRun c s ts = some s') : Ordered c.N s'.edges := by
  rw [← h.speed] at hv
  rw [shell_init (Or.inl h) hm hg, if_pos (shell_size c hN)] at hs
  injection hs with hs
  subst hs
  rcases square_reachable h rfl hr with ⟨t, ht, he⟩ | ⟨-, he⟩
  · have ht0 : 0 ≤ t := by
      rcases ht with rfl | ht
      · exact le_rfl
      · exact hts t ht
    have hD : 0 < 1 / 10 ^ 5 + c.speed * t := by positivity
    intro i j hij hj
    have hi : i ≤ c.N := by omega
    have e1 := shell_moved hi t
    have e2 := shell_moved hj t
    rw [he, he]
    refine lt_of_eq_of_lt e1 (lt_of_lt_of_eq ?_ e2.symm)
    exact shellGrid_ordered (by omega) hx hD i j hij hj
  · intro i j hij hj
    rw [he, he]
    exact uniformGrid_ordered (by linarith) (by omega) i j hij hj

end Verif.Props
