import Verif.Props.Mesh

/-!
C23-C31, continued: plane, boundary, Gaussian and accelerating meshes; where the claims fail.
-/

namespace Verif.Props

open Verif.Model Verif.Lemmas Verif.Spec

/-! ### C26 -/

/-- C26 (partial: `N_space` a multiple of four): the square meshes have `N_space + 1` edges exactly
when four divides `N_space`. -/
theorem c26_square_edge_count_partial {c : MeshConfig} (hs : c.thickQuad.size = c.N / 2 + 1)
    (he : c.thickQuadEdge.size = c.N / 4 + 1) :
    (legendreEdges c).size = c.N + 1 ↔ 4 ∣ c.N := by
  rw [legendre_size, hs, he]
  omega

/-- C26: the same for the other square meshes. -/
theorem c26_thin_square_edge_count_partial (c : MeshConfig) (outer : ℝ) :
    (squareEdges c outer).size = c.N + 1 ↔ 4 ∣ c.N := by
  simp only [squareEdges, Arr.append, Arr.dropLast, linspace]
  omega

/-- C26 (partial: even `N_space`): target grid of the boundary-source mesh. -/
theorem c26_boundary_edge_count_partial (c : MeshConfig) (v : ℝ) :
    (boundaryFinal c v).size = c.N + 1 ↔ 2 ∣ c.N := by
  simp only [boundaryFinal, Arr.append, Arr.dropLast, linspace]
  omega

/-- C26: the spherical shell mesh always has `N_space + 1` edges. -/
theorem c26_shell_edge_count (c : MeshConfig) (hN : 1 ≤ c.N) :
    (shellEdges c).size = c.N + 1 := shell_size c hN

/-- C26 fails: with six cells the slab square mesh has six edges. -/
theorem c26_six_cells : (legendreEdges { exampleSquareMesh with
      N := 6, thickQuad := linspace (-1) 1 4, thickQuadEdge := linspace (-1) 1 2 }).size = 6 := by
  rw [legendre_size]
  rfl

example : (legendreEdges exampleSquareMesh).size = 5 := by rw [legendre_size]; rfl

/-! ### Runs of the simple classes -/

theorem constructed_velocity {c : MeshConfig} {s : MeshState} (hm : c.moving = true)
    (hs : meshInit c = some s) : s.DedgesConst = s.Dedges := by
  rw [init_moving hm] at hs
  obtain ⟨s0, -, rfl⟩ := Option.map_eq_some_iff.mp hs
  rfl

theorem run_snoc {c : MeshConfig} (h : NoHistory c) {s s' : MeshState} {ts : List ℝ} {t : ℝ}
    (hr : meshRun c s (ts ++ [t]) = some s') : meshMove c s t = some s' := by
  rw [c23_history_irrelevant_partial h] at hr
  simpa [meshRun] using hr

/-! ### Plane meshes -/

theorem plane_noHistory {c : MeshConfig} (h : IsPlane c) : NoHistory c :=
  h.s0.elim (fun h => Or.inr (Or.inl h)) (fun h => Or.inr (Or.inr (Or.inl h)))

/-- The slab plane mesh at time `t`: uniform on `[-speed t, speed t]`. -/
theorem plane_slab_at {c : MeshConfig} {s s' : MeshState} (h : IsPlane c) (hm : c.moving = true)
    (hg : c.geometry = .slab) (hN : 1 ≤ c.N) (hx : 0 < c.x0) (hs : meshInit c = some s)
    {ts : List ℝ} {t : ℝ} (hr : meshRun c s (ts ++ [t]) = some s') (k : ℕ) :
    s'.edges k = uniformGrid (-(c.speed * t)) (c.speed * t) c.N k := by
  have h1 := run_snoc (plane_noHistory h) hr
  rw [plane_init h hm] at hs
  injection hs with hs
  subst hs
  rw [move_plane h hm] at h1
  injection h1 with h1
  subst h1
  have hN' : (c.N : ℝ) ≠ 0 := by positivity
  simp only [simpleMovingInit, hg, meshBlank, linspace_uniform, uniformGrid, div_self hN']
  field_simp
  ring

/-- Shift of the second plane problem, mesh.py 504. -/
noncomputable def planeShift (c : MeshConfig) : ℝ := if c.st 0 = 2 then 1 / 100 else 0

/-- The spherical plane mesh at time `t`. -/
theorem plane_sphere_at {c : MeshConfig} {s s' : MeshState} (h : IsPlane c) (hm : c.moving = true)
    (hg : c.geometry = .sphere) (hN : 1 ≤ c.N) (hx : 0 < c.x0) (hs : meshInit c = some s)
    {ts : List ℝ} {t : ℝ} (hr : meshRun c s (ts ++ [t]) = some s') (k : ℕ) :
    s'.edges k = uniformGrid 0 (c.x0 + c.speed * t) c.N k + planeShift c := by
  have h1 := run_snoc (plane_noHistory h) hr
  rw [plane_init h hm] at hs
  injection hs with hs
  subst hs
  rw [move_plane h hm] at h1
  injection h1 with h1
  subst h1
  have hN' : (c.N : ℝ) ≠ 0 := by positivity
  have hx' := hx.ne'
  simp only [simpleMovingInit, hg, linspace_uniform, uniformGrid, div_self hN', planeShift]
  generalize (if c.st 0 = 2 then (1 : ℝ) / 100 else 0) = z
  simp only [sub_zero, zero_add, one_mul]
  field_simp
  ring

/-- C24 (partial: plane pulse, sphere). -/
theorem c24_plane_sphere_ordered_partial {c : MeshConfig} {s s' : MeshState} (h : IsPlane c)
    (hm : c.moving = true) (hg : c.geometry = .sphere) (hN : 1 ≤ c.N) (hx : 0 < c.x0)
    (hv : 0 ≤ c.edgeV) (hs : meshInit c = some s) {ts : List ℝ} {t : ℝ} (ht : 0 ≤ t)
    (hr : meshRun c s (ts ++ [t]) = some s') : Ordered c.N s'.edges := by
  rw [← h.speed] at hv
  intro i j hij hj
  rw [plane_sphere_at h hm hg hN hx hs hr, plane_sphere_at h hm hg hN hx hs hr]
  have h1 : 0 < c.x0 + c.speed * t := by positivity
  have := uniformGrid_ordered h1 hN i j hij hj
  linarith

/-- C24 (partial: plane pulse, slab, after time zero). -/
theorem c24_plane_slab_ordered_partial {c : MeshConfig} {s s' : MeshState} (h : IsPlane c)
    (hm : c.moving = true) (hg : c.geometry = .slab) (hN : 1 ≤ c.N) (hx : 0 < c.x0)
    (hv : 0 < c.edgeV) (hs : meshInit c = some s) {ts : List ℝ} {t : ℝ} (ht : 0 < t)
    (hr : meshRun c s (ts ++ [t]) = some s') : Ordered c.N s'.edges := by
  rw [← h.speed] at hv
  intro i j hij hj
  rw [plane_slab_at h hm hg hN hx hs hr, plane_slab_at h hm hg hN hx hs hr]
  have h1 : 0 < c.speed * t := by positivity
  exact uniformGrid_ordered (by linarith) hN i j hij hj

/-- C24 and C29 fail for the slab plane mesh: a request for time zero puts all edges at the
origin. -/
theorem c29_plane_slab_collapses {c : MeshConfig} {s s' : MeshState} (h : IsPlane c)
    (hm : c.moving = true) (hg : c.geometry = .slab) (hs : meshInit c = some s)
    (hr : meshMove c s 0 = some s') (k : ℕ) : s'.edges k = 0 := by
  rw [plane_init h hm] at hs
  injection hs with hs
  subst hs
  rw [move_plane h hm] at hr
  injection hr with hr
  subst hr
  simp [simpleMovingInit, hg, meshBlank]

/-- The edges of a slab plane mesh when created. -/
theorem plane_slab_initial {c : MeshConfig} {s : MeshState} (h : IsPlane c) (hm : c.moving = true)
    (hg : c.geometry = .slab) (hs : meshInit c = some s) (k : ℕ) :
    s.edges k = uniformGrid (-c.x0) c.x0 c.N k + planeShift c := by
  rw [plane_init h hm] at hs
  injection hs with hs
  subst hs
  simp [simpleMovingInit, hg, linspace_uniform, planeShift]

/-- C29 fails for every slab plane mesh: after a request for time zero some edge is not where it
was when the mesh was created, and the edges are not ordered. -/
theorem c29_not_initial {c : MeshConfig} {s s' : MeshState} (h : IsPlane c)
    (hm : c.moving = true) (hg : c.geometry = .slab) (hN : 1 ≤ c.N) (hx : 0 < c.x0)
    (hs : meshInit c = some s) (hr : meshMove c s 0 = some s') :
    (∃ k, k ≤ c.N ∧ s'.edges k ≠ s.edges k) ∧ Ordered c.N s.edges ∧ ¬ Ordered c.N s'.edges := by
  have ho : Ordered c.N s.edges := by
    intro i j hij hj
    rw [plane_slab_initial h hm hg hs, plane_slab_initial h hm hg hs]
    have := uniformGrid_ordered (a := -c.x0) (b := c.x0) (by linarith) hN i j hij hj
    linarith
  have hc := c29_plane_slab_collapses h hm hg hs hr
  have hno : ¬ Ordered c.N s'.edges := fun hh => by
    have := hh 0 1 (by norm_num) hN
    rw [hc, hc] at this
    exact lt_irrefl _ this
  refine ⟨?_, ho, hno⟩
  by_contra hcon
  push Not at hcon
  exact hno fun i j hij hj => by
    rw [hcon i (by omega), hcon j hj]; exact ho i j hij hj

/-- C29 (partial: sphere): a request for time zero leaves the edges where they were created. -/
theorem c29_sphere_starts_partial {c : MeshConfig} {s s' : MeshState} (h : IsPlane c)
    (hm : c.moving = true) (hg : c.geometry = .sphere) (hs : meshInit c = some s)
    (hr : meshMove c s 0 = some s') : s'.edges = s.edges := by
  rw [plane_init h hm] at hs
  injection hs with hs
  subst hs
  rw [move_plane h hm] at hr
  injection hr with hr
  subst hr
  funext k
  simp [simpleMovingInit, hg]

/-- Plane pulse in a slab. -/
noncomputable def examplePlaneMesh : MeshConfig :=
  { exampleSquareMesh with sourceType := [1, 0, 0, 0, 0, 0] }

theorem examplePlane_class : IsPlane examplePlaneMesh :=
  ⟨rfl, Or.inl rfl, by decide, by decide, by decide, by decide⟩

example : ∃ s s', meshInit examplePlaneMesh = some s ∧ meshMove examplePlaneMesh s 0 = some s' ∧
    Ordered 4 s.edges ∧ ¬ Ordered 4 s'.edges := by
  obtain ⟨s', hs'⟩ := move_total (plane_noHistory examplePlane_class)
    (simpleMovingInit examplePlaneMesh (meshBlank examplePlaneMesh)) 0
  have := c29_not_initial examplePlane_class rfl rfl (by decide)
    (by norm_num [examplePlaneMesh, exampleSquareMesh]) (plane_init examplePlane_class rfl) hs'
  exact ⟨_, s', plane_init examplePlane_class rfl, hs', this.2⟩

/-! ### Boundary-source mesh -/

theorem boundary_noHistory {c : MeshConfig} (h : IsBoundary c) : NoHistory c := by
  have z := st_of_allZero h.zero
  refine Or.inr (Or.inr (Or.inr ⟨?_, ?_⟩)) <;> rw [z] <;> decide

/-- Two uniform grids meeting at `S`. -/
noncomputable def splitGrid (x0 S : ℝ) (n k : ℕ) : ℝ :=
  if k < n then uniformGrid (-x0) S n k else uniformGrid S x0 n (k - n)

theorem boundaryFinal_get (c : MeshConfig) (v : ℝ) (k : ℕ) :
    (boundaryFinal c v).get k = splitGrid c.x0 (-c.tfinal * v) (c.N / 2) k := by
  simp only [boundaryFinal, Arr.append, Arr.dropLast, splitGrid, linspace_uniform]
  have : (linspace (-c.x0) (-c.tfinal * v) (c.N / 2 + 1)).size - 1 = c.N / 2 := rfl
  rw [this]

theorem splitGrid_ordered {x0 S : ℝ} {n : ℕ} (hn : 1 ≤ n) (h1 : -x0 < S) (h2 : S < x0) :
    Ordered (2 * n) (splitGrid x0 S n) := by
  have hn' : (0 : ℝ) < n := by positivity
  intro i j hij hj
  unfold splitGrid
  by_cases hi : i < n
  · rw [if_pos hi]
    by_cases hj' : j < n
    · rw [if_pos hj']; exact uniformGrid_ordered h1 hn i j hij hj'.le
    · rw [if_neg hj']
      have e1 : uniformGrid (-x0) S n i < S := by
        have := uniformGrid_ordered h1 hn i n hi le_rfl
        have e : uniformGrid (-x0) S n n = S := by
          unfold uniformGrid; rw [div_self hn'.ne']; ring
        rwa [e] at this
      have e2 : S ≤ uniformGrid S x0 n (j - n) := by
        unfold uniformGrid
        have : 0 ≤ ((j - n : ℕ) : ℝ) / n * (x0 - S) := by
          have : 0 ≤ x0 - S := by linarith
          positivity
        linarith
      linarith
  · rw [if_neg hi, if_neg (by omega)]
    exact uniformGrid_ordered h2 hn _ _ (by omega) (by omega)

/-- Position of the boundary mesh at time `t`: between the uniform grid and the target grid. -/
theorem boundary_at {c : MeshConfig} {s s' : MeshState} (h : IsBoundary c) (hm : c.moving = true)
    (hs : meshInit c = some s) {ts : List ℝ} {t : ℝ}
    (hr : meshRun c s (ts ++ [t]) = some s') (k : ℕ) :
    2 ∣ c.N ∧ s'.edges k = uniformGrid (-c.x0) c.x0 c.N k +
      (splitGrid c.x0 (-c.tfinal * c.vnaught) (c.N / 2) k - uniformGrid (-c.x0) c.x0 c.N k)
        / c.tfinal * t := by
  have h1 := run_snoc (boundary_noHistory h) hr
  rw [boundary_init h hm] at hs
  split_ifs at hs with hsz
  injection hs with hs
  subst hs
  rw [move_boundary h hm] at h1
  injection h1 with h1
  subst h1
  refine ⟨(c26_boundary_edge_count_partial c _).mp hsz, ?_⟩
  simp only [boundaryState, linspace_uniform, boundaryFinal_get]

/-- C31: the outer edges do not move and the middle edge is at `-v0 t`. -/
theorem c31_shock_position {c : MeshConfig} {s s' : MeshState} (h : IsBoundary c)
    (hm : c.moving = true) (hN : 1 ≤ c.N) (hT : c.tfinal ≠ 0) (hs : meshInit c = some s)
    {ts : List ℝ} {t : ℝ} (hr : meshRun c s (ts ++ [t]) = some s') :
    s'.edges 0 = -c.x0 ∧ s'.edges c.N = c.x0 ∧ s'.edges (c.N / 2) = -(c.vnaught * t) := by
  obtain ⟨hd, -⟩ := boundary_at h hm hs hr 0
  have key := fun k => (boundary_at h hm hs hr k).2
  have hn : 1 ≤ c.N / 2 := by omega
  have hn' : ((c.N / 2 : ℕ) : ℝ) ≠ 0 := by
    have : c.N / 2 ≠ 0 := by omega
    exact_mod_cast this
  have hN' : (c.N : ℝ) = 2 * ((c.N / 2 : ℕ) : ℝ) := by
    have : c.N = 2 * (c.N / 2) := by omega
    exact_mod_cast this
  refine ⟨?_, ?_, ?_⟩
  · rw [key]
    simp [splitGrid, uniformGrid, show 2 ≤ c.N by omega]
  · rw [key]
    have e : c.N - c.N / 2 = c.N / 2 := by omega
    simp only [splitGrid, if_neg (show ¬ c.N < c.N / 2 by omega), e, uniformGrid, div_self hn']
    rw [hN', div_self (by positivity)]
    ring
  · rw [key]
    simp only [splitGrid, lt_irrefl, if_false, Nat.sub_self, uniformGrid, Nat.cast_zero, zero_div]
    rw [hN']
    field_simp
    ring

/-- C31 (and C24 for this class): while the shock stays inside the domain the edges are ordered up
to `tfinal`. -/
theorem c31_ordered {c : MeshConfig} {s s' : MeshState} (h : IsBoundary c)
    (hm : c.moving = true) (hN : 1 ≤ c.N) (hx : 0 < c.x0) (hT : 0 < c.tfinal)
    (hv : |c.vnaught| * c.tfinal < c.x0) (hs : meshInit c = some s)
    {ts : List ℝ} {t : ℝ} (ht : 0 ≤ t) (ht' : t ≤ c.tfinal)
    (hr : meshRun c s (ts ++ [t]) = some s') : Ordered c.N s'.edges := by
  obtain ⟨hd, -⟩ := boundary_at h hm hs hr 0
  have key := fun k => (boundary_at h hm hs hr k).2
  have hn : 1 ≤ c.N / 2 := by omega
  have h2 : c.N = 2 * (c.N / 2) := by omega
  have hab : |-c.tfinal * c.vnaught| < c.x0 := by
    rw [abs_mul, abs_neg, abs_of_pos hT, mul_comm]; exact hv
  have hlo := (abs_lt.mp hab).1
  have hhi := (abs_lt.mp hab).2
  intro i j hij hj
  rw [key, key]
  have o1 := uniformGrid_ordered (a := -c.x0) (b := c.x0) (by linarith) hN i j hij hj
  have o2 := splitGrid_ordered hn hlo hhi i j hij (by omega)
  generalize uniformGrid (-c.x0) c.x0 c.N i = a at *
  generalize uniformGrid (-c.x0) c.x0 c.N j = a' at *
  generalize splitGrid c.x0 (-c.tfinal * c.vnaught) (c.N / 2) i = b at *
  generalize splitGrid c.x0 (-c.tfinal * c.vnaught) (c.N / 2) j = b' at *
  have hr1 : 0 ≤ t / c.tfinal := by positivity
  have hr2 : t / c.tfinal ≤ 1 := (div_le_one hT).mpr ht'
  have e1 : a + (b - a) / c.tfinal * t = a + (b - a) * (t / c.tfinal) := by ring
  have e2 : a' + (b' - a') / c.tfinal * t = a' + (b' - a') * (t / c.tfinal) := by ring
  rw [e1, e2]
  generalize t / c.tfinal = r at *
  nlinarith [mul_nonneg hr1 (sub_pos.mpr o2).le, mul_nonneg (sub_nonneg.mpr hr2) (sub_pos.mpr o1).le]

/-- Boundary source with a shock moving at speed 1/10. -/
noncomputable def exampleBoundaryMesh : MeshConfig :=
  { exampleSquareMesh with sourceType := [0, 0, 0, 0, 0, 0], vnaught := 1 / 10 }

theorem exampleBoundary_class : IsBoundary exampleBoundaryMesh :=
  ⟨rfl, by intro x hx; simpa [exampleBoundaryMesh] using hx⟩

example : ∃ s s', meshInit exampleBoundaryMesh = some s ∧
    meshRun exampleBoundaryMesh s [2, 1] = some s' ∧ Ordered 4 s'.edges ∧
    s'.edges 2 = -(1 / 10) := by
  have hi : meshInit exampleBoundaryMesh = some (boundaryState exampleBoundaryMesh) := by
    rw [boundary_init exampleBoundary_class rfl, if_pos]
    rfl
  obtain ⟨s', hs'⟩ := move_total (boundary_noHistory exampleBoundary_class)
    (boundaryState exampleBoundaryMesh) 1
  have hr : meshRun exampleBoundaryMesh (boundaryState exampleBoundaryMesh) ([2] ++ [1]) =
      some s' := by
    rw [c23_history_irrelevant_partial (boundary_noHistory exampleBoundary_class)]
    simp [meshRun, hs']
  refine ⟨_, s', hi, hr, ?_, ?_⟩
  · exact c31_ordered exampleBoundary_class rfl (by decide)
      (by norm_num [exampleBoundaryMesh, exampleSquareMesh])
      (by norm_num [exampleBoundaryMesh, exampleSquareMesh])
      (by norm_num [exampleBoundaryMesh, exampleSquareMesh]) hi (by norm_num)
      (by norm_num [exampleBoundaryMesh, exampleSquareMesh]) hr
  · have := (c31_shock_position exampleBoundary_class rfl (by decide)
      (by norm_num [exampleBoundaryMesh, exampleSquareMesh]) hi hr).2.2
    have e : exampleBoundaryMesh.N / 2 = 2 := rfl
    rw [e] at this
    rw [this]
    norm_num [exampleBoundaryMesh]

end Verif.Props
