import Verif.Props.SlabSolve

/-!
Property C132: square pulses in a finite domain are reported on the uniform mesh of the domain.
-/

namespace Verif.Props

open Set Verif.Spec Verif.Model Verif.Lemmas

/-! ### The mesh -/

/-- A square pulse in a finite domain. -/
structure FiniteSquare (c : MeshConfig) : Prop where
  finite : c.finiteDomain = true
  notPlane : c.st 0 ≠ 1
  notShifted : c.st 0 ≠ 2
  square : c.st 1 = 1
  cells : 1 ≤ c.N

/-- Equal cells from `-D/2` to `D/2`, where `D` is the width of the domain. -/
noncomputable def domainGrid (c : MeshConfig) : ℕ → ℝ :=
  uniformGrid (-(c.domainWidth / 2)) (c.domainWidth / 2) c.N

theorem domainGrid_ordered {c : MeshConfig} (hN : 1 ≤ c.N) (hw : 0 < c.domainWidth) :
    ∀ i < c.N, domainGrid c i < domainGrid c (i + 1) := fun i hi =>
  uniformGrid_ordered (by linarith) hN i (i + 1) i.lt_succ_self hi

theorem domainGrid_last {c : MeshConfig} (hN : 1 ≤ c.N) : domainGrid c c.N = c.domainWidth / 2 := by
  have : (c.N : ℝ) ≠ 0 := Nat.cast_ne_zero.2 (by omega)
  unfold domainGrid uniformGrid
  field_simp
  ring

theorem domainGrid_eq (c : MeshConfig) :
    (linspace (-c.domainWidth / 2) (c.domainWidth / 2) (c.N + 1)).get = domainGrid c := by
  funext k
  rw [linspace_uniform, domainGrid, neg_div]

theorem finite_move {c : MeshConfig} (h : FiniteSquare c) {s : MeshState} (hm : s.moving = true) (t : ℝ) :
    meshMove c s t = open Classical in
      if t = c.tfinal then some { s with edges := domainGrid c }
      else if reachedEnd c s then some { s with Dedges := fun k => s.DedgesConst k * 0 }
      else some { s with
        edges := fun k => s.edges0 k + s.DedgesConst k * t
        Dedges := s.DedgesConst } := by
  have h0 : ¬ (c.st 0 = 1 ∨ c.st 0 = 2) := by
    rintro (h1 | h1)
    exacts [h.notPlane h1, h.notShifted h1]
  simp only [meshMove, hm, h0, h.square, h.finite, if_true, if_false, true_and, domainGrid_eq]

theorem finite_move_total {c : MeshConfig} (h : FiniteSquare c) (s : MeshState) (t : ℝ) :
    ∃ s', meshMove c s t = some s' := by
  cases hm : s.moving with
  | false => exact ⟨s, move_static hm t⟩
  | true =>
    rw [finite_move h hm]
    split_ifs <;> exact ⟨_, rfl⟩

theorem chooseInit_flag {c : MeshConfig} {s : MeshState} (h : chooseInit c = some s) :
    s.moving = c.moving := by
  have h1 : (if c.st 0 = 1 ∨ c.st 0 = 2 then simpleMovingInit c (meshBlank c) else meshBlank c).moving =
      c.moving := by
    split_ifs <;> rfl
  unfold chooseInit at h
  dsimp only at h
  generalize (if c.st 0 = 1 ∨ c.st 0 = 2 then simpleMovingInit c (meshBlank c) else meshBlank c) = s1 at *
  rw [← h1]
  have hi : ∀ s1 : MeshState, (simpleMovingInit c s1).moving = s1.moving := fun _ => rfl
  cases hg : c.geometry <;> rw [hg] at h <;> dsimp only at h <;> split_ifs at h <;>
    first
    | (rw [Option.some_inj] at h; rw [← h]; done)
    | (rw [Option.some_inj] at h; rw [← h]; rfl)
    | (simp only [legendreInit, shellInit, boundaryInit, thickGaussianInit, simpleThickSquareInit,
        thinSquareInit, thickSquareInit] at h
       split_ifs at h <;> rw [Option.some_inj] at h <;> rw [← h] <;> rfl)

/-- The mesh after construction moves if it has been asked to. -/
theorem meshInit_flag {c : MeshConfig} {m0 : MeshState} (hm : c.moving = true)
    (h : meshInit c = some m0) : m0.moving = true := by
  rw [init_moving hm] at h
  obtain ⟨s, hs, rfl⟩ := Option.map_eq_some_iff.1 h
  exact (chooseInit_flag hs).trans hm

theorem run_flag {c : MeshConfig} {ts : List ℝ} {s s' : MeshState} (h : meshRun c s ts = some s') :
    s'.moving = s.moving := by
  induction ts generalizing s with
  | nil =>
    rw [meshRun, Option.some_inj] at h
    rw [h]
  | cons t ts ih =>
    rw [meshRun, Option.bind_eq_some_iff] at h
    obtain ⟨s1, h1, h2⟩ := h
    rw [ih h2, (move_keeps h1).1]

/-- A mesh that does not move lies on the uniform mesh from the start. -/
theorem static_domain {c : MeshConfig} (h : FiniteSquare c) (hm : c.moving = false) {m0 : MeshState}
    (h0 : meshInit c = some m0) : m0.edges = domainGrid c := by
  unfold meshInit at h0
  rw [Option.bind_eq_some_iff] at h0
  obtain ⟨s, -, h1⟩ := h0
  unfold finishInit at h1
  dsimp only at h1
  rw [if_pos hm, finite_move h rfl, if_pos rfl, Option.map_some, Option.some_inj] at h1
  rw [← h1]

/-- C132: whatever requests were made before, whatever the positions and velocities then, a request for
the final time puts the edges onto the uniform mesh of the domain. -/
theorem c132_mesh {c : MeshConfig} (h : FiniteSquare c) {m0 m : MeshState} (h0 : meshInit c = some m0)
    {ts : List ℝ} (hr : meshRun c m0 (ts ++ [c.tfinal]) = some m) : m.edges = domainGrid c := by
  cases hm : c.moving with
  | false =>
    rw [(c22_static_mesh hm h0).2, Option.some_inj] at hr
    rw [← hr, static_domain h hm h0]
  | true =>
    rw [meshRun_snoc, Option.bind_eq_some_iff] at hr
    obtain ⟨s, h1, h2⟩ := hr
    rw [finite_move h ((run_flag h1).trans (meshInit_flag hm h0)), if_pos rfl, Option.some_inj] at h2
    rw [← h2]

/-- C132: from then on the edges stay where they are, and with the next request for another time the
velocities are zero: a single evaluation at the final time, also in a step that is rejected, ends the
motion of the mesh. -/
theorem c132_frozen {c : MeshConfig} (h : FiniteSquare c) {m0 m : MeshState} (h0 : meshInit c = some m0)
    {ts us : List ℝ} (hr : meshRun c m0 (ts ++ c.tfinal :: us) = some m) :
    m.edges = domainGrid c ∧ ((∃ t ∈ us, t ≠ c.tfinal) → ∀ k, m.Dedges k = 0) := by
  cases hm : c.moving with
  | false =>
    obtain ⟨hz, hs⟩ := c22_static_mesh hm h0
    rw [hs, Option.some_inj] at hr
    rw [← hr]
    exact ⟨static_domain h hm h0, fun _ => hz⟩
  | true =>
    induction us using List.reverseRecOn generalizing m with
    | nil => exact ⟨c132_mesh h h0 hr, fun ⟨t, ht, _⟩ => absurd ht (by simp)⟩
    | append_singleton us t ih =>
      rw [← List.cons_append, ← List.append_assoc, meshRun_snoc, Option.bind_eq_some_iff] at hr
      obtain ⟨s, h1, h2⟩ := hr
      obtain ⟨g1, g2⟩ := ih h1
      have hend : reachedEnd c s := ⟨h.finite, Or.inl (by rw [g1, domainGrid_last h.cells])⟩
      rw [finite_move h ((run_flag h1).trans (meshInit_flag hm h0))] at h2
      by_cases ht : t = c.tfinal
      · rw [if_pos ht, Option.some_inj] at h2
        rw [← h2]
        refine ⟨rfl, fun ⟨u, hu, hu'⟩ => g2 ⟨u, ?_, hu'⟩⟩
        rcases List.mem_append.1 hu with hu | hu
        · exact hu
        · rw [List.mem_singleton.1 hu] at hu'
          exact absurd ht hu'
      · rw [if_neg ht, if_pos hend, Option.some_inj] at h2
        rw [← h2]
        exact ⟨g1, fun _ k => mul_zero _⟩

/-! ### The slab -/

/-- C132: if `solve` returns for a square pulse in a finite slab, the edges it returns are those of the
uniform mesh of the domain. -/
theorem c132_slab_edges {P : Problem} (h : FiniteSquare P.mesh) (hT : 0 < P.mesh.tfinal)
    {leg : ℕ → List ℝ} {τ : Tableau} {D : Interpolant} (hD : EndsRight τ D) {es : List Event}
    (hes : Arrives P es) {estimate : Bool} {choose : Option (List ℝ)} {R : Results}
    (hR : P.slabSolve leg τ D es estimate choose = some R) : R.edges = domainGrid P.mesh := by
  obtain ⟨y0, m0, ts, m, unc, -, h2, h3, h4⟩ := slabSolve_report hT hD hes hR
  have hm := c132_mesh h h2 h3
  unfold slabReport at h4
  rw [Option.bind_eq_some_iff] at h4
  obtain ⟨u, -, h4⟩ := h4
  obtain ⟨out, -, rfl⟩ := Option.map_eq_some_iff.1 h4
  exact hm

theorem slabMeshField_cell {M N : ℕ} {edges : ℕ → ℝ} (he : ∀ i < N, edges i < edges (i + 1))
    (U : ℕ → ℕ → ℝ) {x : ℝ} {k : ℕ} (hk : k < N) (h0 : edges k < x) (h1 : x ≤ edges (k + 1)) :
    slabMeshField M N edges U x = slabField M (U k) (edges k) (edges (k + 1)) x := by
  unfold slabMeshField
  rw [Finset.sum_eq_single_of_mem k (Finset.mem_range.2 hk), if_pos (Or.inl ⟨h0, h1⟩)]
  intro j hj hjk
  have hj := Finset.mem_range.1 hj
  rw [if_neg]
  rintro (⟨a, b⟩ | ⟨rfl, a⟩)
  · rcases lt_or_gt_of_ne hjk with h | h
    · have := edges_mono he (show j + 1 ≤ k by omega) (by omega); linarith
    · have := edges_mono he (show k + 1 ≤ j by omega) (by omega); linarith
  · have := edges_mono he (Nat.zero_le k) (by omega); linarith

/-- A constant projected onto one cell and read on another. -/
theorem constCoeff_stretched (v : ℝ) {a b a' b' : ℝ} (h : a < b) (h' : a' < b') (j : ℕ) :
    constCoeff v a b j = constCoeff (v * √((b - a) / (b' - a'))) a' b' j := by
  unfold constCoeff
  split_ifs
  · have h1 : 0 < b' - a' := by linarith
    rw [mul_assoc, ← Real.sqrt_mul (div_nonneg (by linarith) h1.le), div_mul_cancel₀ _ h1.ne']
  · rfl

/-- The edges of the constructed square mesh. -/
theorem square_edges {c : MeshConfig} (h : IsSquare c) (hm : c.moving = true) (hg : c.geometry = .slab)
    (hq : QuadsGiven c) {m0 : MeshState} (h0 : meshInit c = some m0) (k : ℕ) :
    m0.edges k = slabSquareAt c (1 / 100) k := by
  have h1 := legendreState_moved (Or.inl h) hm hg hq h0 k 0
  rw [mul_zero, mul_zero, add_zero, add_zero] at h1
  rw [← h1, (square_constructed (Or.inl h) hm hg hq h0).1]
  rfl

/-- The edges inside the pulse. -/
theorem square_inside {c : MeshConfig} (h : IsSquare c) (hm : c.moving = true) (hg : c.geometry = .slab)
    (hq : QuadsGiven c) {m0 : MeshState} (h0 : meshInit c = some m0) {k : ℕ} (h1 : c.N / 4 ≤ k)
    (h2 : k ≤ 3 * (c.N / 4)) : m0.edges k = c.x0 * c.thickQuad.get (k - c.N / 4) := by
  obtain ⟨-, hN, -, -, q1, q2⟩ := square_constructed (Or.inl h) hm hg hq h0
  rw [square_edges h hm hg hq h0]
  unfold slabSquareAt
  rcases lt_or_eq_of_le h2 with h2 | h2
  · exact squareGrid_mid h1 h2
  · rw [squareGrid_right h2.ge q2.pos, h2, Nat.sub_self, q2.first,
      show 3 * (c.N / 4) - c.N / 4 = 2 * (c.N / 4) by omega, q1.last]
    ring

theorem squareMoment_const {P : Problem} (hq : QuadExact P.quad (2 * P.M))
    (hn : ∀ r ∈ P.quad, -1 < r.1 ∧ r.1 < 1) {f : ℝ → ℝ} {v a b : ℝ} (hab : a < b)
    (hf : ∀ x, a < x → x < b → f x = v) {i : ℕ} (hi : i ≤ P.M) :
    slabMoment P.quad f a b i = constCoeff v a b i := by
  refine slabMoment_field hq hab _ _ (fun r hr => ?_) hi
  obtain ⟨h1, h2⟩ := quadPoint_inside hab (hn r hr).1 (hn r hr).2
  rw [hf _ h1 h2, constCoeff_field _ _ hab]

/-- The coefficients of the initial square pulse: the middle half of the cells holds the constant
`strength / 2`, the others hold nothing. -/
theorem square_coefficients {P : Problem} (h : IsSquare P.mesh) (hm : P.mesh.moving = true)
    (hg : P.mesh.geometry = .slab) (hQ : QuadsGiven P.mesh) (hx : 0 < P.mesh.x0)
    (hq : QuadExact P.quad (2 * P.M)) (hn : ∀ r ∈ P.quad, -1 < r.1 ∧ r.1 < 1) {m0 : MeshState}
    (h0 : meshInit P.mesh = some m0) {k : ℕ} (hk : k < P.mesh.N) {i : ℕ} (hi : i ≤ P.M) :
    slabMoment P.quad (squarePulse P.mesh.x0 P.strength) (m0.edges k) (m0.edges (k + 1)) i =
      constCoeff (if P.mesh.N / 4 ≤ k ∧ k < 3 * (P.mesh.N / 4) then P.strength / 2 else 0)
        (m0.edges k) (m0.edges (k + 1)) i := by
  obtain ⟨-, hN, -, -, q1, q2⟩ := square_constructed (Or.inl h) hm hg hQ h0
  have he := square_edges h hm hg hQ h0
  have ho : Ordered P.mesh.N m0.edges := by
    have := squareGrid_ordered (x0 := P.mesh.x0) q1 q2 hx (D := 1 / 100) (by norm_num)
    rw [← hN] at this
    intro i j hij hj
    rw [he, he]
    exact this i j hij hj
  have hL : m0.edges (P.mesh.N / 4) = -P.mesh.x0 := by
    rw [square_inside h hm hg hQ h0 le_rfl (by omega), Nat.sub_self, q1.first]
    ring
  have hR : m0.edges (3 * (P.mesh.N / 4)) = P.mesh.x0 := by
    rw [square_inside h hm hg hQ h0 (by omega) le_rfl,
      show 3 * (P.mesh.N / 4) - P.mesh.N / 4 = 2 * (P.mesh.N / 4) by omega, q1.last]
    ring
  have hmono : ∀ a b, a ≤ b → b ≤ P.mesh.N → m0.edges a ≤ m0.edges b := fun a b hab hb => by
    rcases eq_or_lt_of_le hab with rfl | hab
    · exact le_rfl
    · exact (ho a b hab hb).le
  refine squareMoment_const hq hn (ho k (k + 1) k.lt_succ_self hk) (fun x h1 h2 => ?_) hi
  unfold squarePulse
  by_cases hin : P.mesh.N / 4 ≤ k ∧ k < 3 * (P.mesh.N / 4)
  · rw [if_pos hin, if_pos]
    have e1 := hmono _ _ hin.1 hk.le
    have e2 := hmono (k + 1) (3 * (P.mesh.N / 4)) hin.2 (by omega)
    constructor <;> linarith
  · rw [if_neg hin, if_neg]
    rintro ⟨e1, e2⟩
    rcases not_and_or.1 hin with hin | hin
    · have := hmono (k + 1) (P.mesh.N / 4) (by omega) (by omega)
      linarith
    · have := hmono (3 * (P.mesh.N / 4)) k (by omega) hk.le
      linarith

/-- C132: a square pulse of half width `x0` in a finite slab.  `solve` returns; what it reports is zero
where `|x| > D/4`, and in each of the middle cells of the uniform mesh it is the constant of the pulse,
times the growth of C129, times the root of the ratio of the widths of the cell at the start and at
the end.  So the pulse fills the middle half of the domain at once, whatever `x0`, the final time, the
speed of the mesh and the cross sections. -/
theorem c132_slab_pulse {P : Problem} (h : IsSquare P.mesh) (hf : P.mesh.finiteDomain = true)
    (hm : P.mesh.moving = true) (hg : P.mesh.geometry = .slab) (hQ : QuadsGiven P.mesh)
    (hop : P.sigmaFunc ≠ .other) (hdir : centreChecks P.Nang P.mus) (hu : P.uncollided = false)
    (hx : 0 < P.mesh.x0) (hw : 0 < P.mesh.domainWidth) (hT : 0 < P.mesh.tfinal)
    (hq : QuadExact P.quad (2 * P.M)) (hn : ∀ r ∈ P.quad, -1 < r.1 ∧ r.1 < 1)
    {m0 : MeshState} (h0 : meshInit P.mesh = some m0)
    (leg : ℕ → List ℝ) {τ : Tableau} {D : Interpolant} (hD : EndsRight τ D) {es : List Event}
    (hes : Arrives P es) (estimate : Bool) (choose : Option (List ℝ)) :
    ∃ R φ, P.slabSolve leg τ D es estimate choose = some R ∧ R.edges = domainGrid P.mesh ∧
      R.xs = P.slabPoints leg choose (domainGrid P.mesh) ∧ R.phi = R.xs.map φ ∧
      (∀ x, P.mesh.domainWidth / 4 < |x| → φ x = 0) ∧
      ∀ k, P.mesh.N / 4 ≤ k → k < 3 * (P.mesh.N / 4) → ∀ x, domainGrid P.mesh k < x →
        x ≤ domainGrid P.mesh (k + 1) → φ x = totalGrowth τ es *
          (∑ l ∈ Finset.range P.Nang, P.rawWs l) * (P.strength / 2) *
          √(P.mesh.x0 * (P.mesh.thickQuad.get (k + 1 - P.mesh.N / 4) -
            P.mesh.thickQuad.get (k - P.mesh.N / 4)) / (P.mesh.domainWidth / P.mesh.N)) := by
  obtain ⟨-, hN, -, -, q1, q2⟩ := square_constructed (Or.inl h) hm hg hQ h0
  have hpos := q2.pos
  have hN1 : 1 ≤ P.mesh.N := by omega
  have hF : FiniteSquare P.mesh := ⟨hf, by rw [h.s0]; decide, by rw [h.s0]; decide, h.s1, hN1⟩
  have hmove := finite_move_total hF
  have hV := starts_square hg hu hF.notPlane hF.notShifted hF.square hx.le h0
  set V : StateVec := fun _ k i =>
    slabMoment P.quad (squarePulse P.mesh.x0 P.strength) (m0.edges k) (m0.edges (k + 1)) i with hVdef
  obtain ⟨y0, hy1, -, -⟩ := startVector_of hV
  have hy2 := startVector_unique hy1 hV
  obtain ⟨ts, m, unc, h1, h2⟩ := slabSolve_total_of (slabCall_total_of hg hop hdir hmove) hmove hT leg hD
    hes estimate choose hy1 h0
  have hme := c132_mesh hF h0 h1
  have hord := domainGrid_ordered hN1 hw
  obtain ⟨R, g1, g2, g3, g4⟩ := slabReport_reported (leg := leg) (choose := choose) (m := m) hg hN1 hu
    (by rw [hme]; exact hord) (unc := unc) (W := scaled (totalGrowth τ es) y0) (V := V)
    (g := totalGrowth τ es) fun l hl k hk i hi => by rw [scaled, hy2 l hl k hk i hi]
  rw [hme] at g2 g3 g4
  refine ⟨R, _, h2.trans g1, g2, g3, g4.phi, ?_⟩
  have ho : ∀ k < P.mesh.N, m0.edges k < m0.edges (k + 1) := by
    intro k hk
    rw [square_edges h hm hg hQ h0, square_edges h hm hg hQ h0]
    have := squareGrid_ordered (x0 := P.mesh.x0) q1 q2 hx (D := 1 / 100) (by norm_num)
    exact this k (k + 1) k.lt_succ_self (by omega)
  have hNr : (0 : ℝ) < P.mesh.N := by exact_mod_cast hN1
  have hstep : ∀ k, domainGrid P.mesh (k + 1) - domainGrid P.mesh k = P.mesh.domainWidth / P.mesh.N := by
    intro k
    unfold domainGrid uniformGrid
    push_cast
    field_simp
    ring
  -- the field of any direction in one cell
  have hcell : ∀ l, ∀ k < P.mesh.N, ∀ x, slabField P.M (V l k) (domainGrid P.mesh k)
      (domainGrid P.mesh (k + 1)) x =
      (if P.mesh.N / 4 ≤ k ∧ k < 3 * (P.mesh.N / 4) then P.strength / 2 else 0) *
        √((m0.edges (k + 1) - m0.edges k) / (P.mesh.domainWidth / P.mesh.N)) := by
    intro l k hk x
    rw [← hstep k]
    refine Eq.trans ?_ (constCoeff_field P.M _ (hord k hk) x)
    unfold slabField
    refine Finset.sum_congr rfl fun i hi => ?_
    have hi : i ≤ P.M := by have := Finset.mem_range.1 hi; omega
    rw [← constCoeff_stretched _ (ho k hk) (hord k hk)]
    exact congrArg (· * _) (square_coefficients h hm hg hQ hx hq hn h0 hk hi)
  constructor
  · intro x hxx
    have hz : ∀ l, slabMeshField P.M P.mesh.N (domainGrid P.mesh) (V l) x = 0 := by
      intro l
      unfold slabMeshField
      refine Finset.sum_eq_zero fun k hk => ?_
      have hk := Finset.mem_range.1 hk
      split_ifs with hin
      · rw [hcell l k hk x, if_neg, zero_mul]
        rintro ⟨a, b⟩
        have a' : ((P.mesh.N / 4 : ℕ) : ℝ) ≤ k := by exact_mod_cast a
        have b' : (k : ℝ) + 1 ≤ 3 * ((P.mesh.N / 4 : ℕ) : ℝ) := by exact_mod_cast b
        have hN4 : (P.mesh.N : ℝ) = 4 * ((P.mesh.N / 4 : ℕ) : ℝ) := by exact_mod_cast hN
        have e1 : -(P.mesh.domainWidth / 4) ≤ domainGrid P.mesh k := by
          unfold domainGrid uniformGrid
          have : (1 : ℝ) / 4 ≤ k / P.mesh.N := by
            rw [div_le_div_iff₀ (by norm_num) hNr]; linarith
          nlinarith
        have e2 : domainGrid P.mesh (k + 1) ≤ P.mesh.domainWidth / 4 := by
          unfold domainGrid uniformGrid
          have : ((k + 1 : ℕ) : ℝ) / P.mesh.N ≤ 3 / 4 := by
            push_cast
            rw [div_le_div_iff₀ hNr (by norm_num)]; linarith
          nlinarith
        rcases hin with ⟨c1, c2⟩ | ⟨rfl, -⟩
        · rcases lt_abs.1 hxx with c | c <;> linarith
        · omega
      · rfl
    unfold slabMeshFlux
    rw [Finset.sum_eq_zero fun l _ => by rw [hz l, mul_zero], mul_zero]
  · intro k hk1 hk2 x hx1 hx2
    have hk : k < P.mesh.N := by omega
    unfold slabMeshFlux
    simp only [slabMeshField_cell hord _ hk hx1 hx2, hcell _ k hk x]
    rw [if_pos ⟨hk1, hk2⟩, ← Finset.sum_mul, square_inside h hm hg hQ h0 (k := k + 1) (by omega) hk2,
      square_inside h hm hg hQ h0 (k := k) hk1 (by omega), mul_sub]
    ring

/-! ### The sphere -/

/-- A square pulse in a finite sphere: order, tables, opacity and directions that `call` accepts. -/
structure FiniteSphere (P : Problem) : Prop where
  sphere : P.mesh.geometry = .sphere
  square : FiniteSquare P.mesh
  width : 0 < P.mesh.domainWidth
  tables : TablesUsable P.tables P.M
  order : P.M ≤ 12
  opacity : SteadyOpacity P
  checks : centreChecks P.Nang P.mus
  collided : P.uncollided = false

/-- What every call on a finite sphere keeps. -/
def FiniteReached (P : Problem) (m0 : MeshState) (o : Objects) : Prop :=
  Ready P o ∧ ∃ ts, meshRun P.mesh m0 ts = some o.mesh

theorem finite_call {P : Problem} (h : FiniteSphere P) {m0 : MeshState} {o : Objects}
    (ho : FiniteReached P m0 o) (t : ℝ) (V : StateVec) :
    ∃ r, P.call o t V = some r ∧ FiniteReached P m0 r.1 := by
  obtain ⟨m, hm⟩ := finite_move_total h.square o.mesh t
  obtain ⟨h1, h2⟩ := call_eq h.sphere h.tables h.opacity ho.1 t V hm
  rw [if_neg fun hc => hc.2 h.checks] at h1
  obtain ⟨r, hr, -⟩ := Option.map_eq_some_iff.1 h1
  obtain ⟨ts, hts⟩ := ho.2
  obtain ⟨h3, h4⟩ := h2 r hr
  exact ⟨r, hr, h3, ts ++ [t], by rw [meshRun_snoc, hts, Option.bind_some, hm, h4]⟩

theorem finite_stageLoop {P : Problem} (h : FiniteSphere P) {m0 : MeshState} (τ : Tableau) (t s : ℝ)
    (y : StateVec) (i : ℕ) {x : Objects × (ℕ → StateVec)} (hx : FiniteReached P m0 x.1) :
    ∃ z, P.stageLoop τ t s y i x = some z ∧ FiniteReached P m0 z.1 := by
  induction i with
  | zero => exact ⟨x, rfl, hx⟩
  | succ i ih =>
    obtain ⟨w, hw, hI⟩ := ih
    obtain ⟨r, h1, h2⟩ := finite_call h hI (t + τ.node (i + 1) * s) (combine y s (τ.row (i + 1)) w.2 (i + 1))
    rw [Problem.stageLoop, hw, Option.bind_some, h1]
    exact ⟨_, rfl, h2⟩

theorem finite_events {P : Problem} (h : FiniteSphere P) {m0 : MeshState} (τ : Tableau) (D : Interpolant)
    (es : List Event) (x : StepState) (hx : FiniteReached P m0 x.objects) (ts : List ℝ)
    (hpos : ∀ s ∈ acceptedSteps es, 0 ≤ s) :
    ∃ p, P.solveEvents τ D es x ts = some p ∧ FiniteReached P m0 p.1.objects ∧
      p.2.map Prod.fst = answered x.t (acceptedSteps es) ts := by
  classical
  induction es generalizing x ts with
  | nil => exact ⟨_, rfl, hx, rfl⟩
  | cons ev es ih =>
    cases ev with
    | step s acc =>
      obtain ⟨r, h1, h2⟩ := finite_stageLoop h τ x.t s x.y τ.n (x := (x.objects, fun _ => x.f)) hx
      have h3 : P.rkStep τ x s = some r := h1
      cases acc with
      | true =>
        have hs0 : 0 ≤ s := hpos s List.mem_cons_self
        obtain ⟨p, h4, h5, h6⟩ := ih ⟨r.1, x.t + s, combine x.y s τ.b r.2 τ.n, r.2 τ.n⟩ h2
          (ts.dropWhile (· ≤ x.t + s)) fun s' hs' => hpos s' (List.mem_cons_of_mem _ hs')
        rw [Problem.solveEvents, h3, Option.bind_some]
        dsimp only at h4 h6 ⊢
        rw [h4, Option.map_some]
        refine ⟨_, rfl, h5, ?_⟩
        dsimp only [acceptedSteps]
        rw [List.map_append, h6, List.map_map]
        have e0 : (Prod.fst ∘ fun t => (t, D x.t x.y s r.2 ((t - x.t) / s))) = id := rfl
        rw [e0, List.map_id]
        unfold answered
        rw [if_neg (List.cons_ne_nil _ _)]
        split_ifs with hemp
        · rw [hemp, List.sum_singleton, List.append_nil]
        · rw [List.sum_cons, ← add_assoc]
          refine (takeWhile_split (fun a ha => ?_) ts).symm
          have h7 : 0 ≤ (acceptedSteps es).sum := List.sum_nonneg fun s' hs' =>
            hpos s' (List.mem_cons_of_mem _ hs')
          have ha : a ≤ x.t + s := by simpa using ha
          simpa using ha.trans (by linarith)
      | false =>
        rw [Problem.solveEvents, Problem.event, h3, Option.map_some, Option.bind_some]
        exact ih { x with objects := r.1 } h2 ts hpos
    | probe s V =>
      obtain ⟨r, h1, h2⟩ := finite_call h hx s V
      rw [Problem.solveEvents, Problem.event, h1, Option.map_some, Option.bind_some]
      exact ih { x with objects := r.1 } h2 ts hpos

theorem finite_ivp {P : Problem} (h : FiniteSphere P) {m0 : MeshState} (hm0 : meshInit P.mesh = some m0)
    (τ : Tableau) (D : Interpolant) {es : List Event} (hes : Arrives P es) (hT : 0 < P.mesh.tfinal)
    {V : StateVec} (hV : StartsFrom P V) {ts : List ℝ} (hts : ts.Pairwise (· < ·))
    (hts0 : ∀ t ∈ ts, 0 ≤ t ∧ t ≤ P.mesh.tfinal) :
    ∃ o cols, P.solveIvp τ D es ts = some (o, cols) ∧ FiniteReached P m0 o ∧ cols.map Prod.fst = ts ∧
      ∀ c ∈ cols, ∃ W, c.2 = flatten3 P.Nang P.mesh.N (P.M + 1) W := by
  obtain ⟨y0, hy, -, -⟩ := startVector_of hV
  have hex : ∃ o, P.objects = some o ∧ o.mesh = m0 := by
    unfold Problem.objects
    rw [hm0]
    exact ⟨_, rfl, rfl⟩
  obtain ⟨o, ho, hom⟩ := hex
  obtain ⟨r, h1, h2⟩ := finite_call h (m0 := m0) ⟨ready_objects ho, [], by rw [hom]; rfl⟩ 0 y0
  obtain ⟨p, h3, h4, h5⟩ := finite_events h τ D es ⟨r.1, 0, y0, r.2⟩ h2 ts fun s hs => (hes.1 s hs).le
  dsimp only at h5
  rw [answered_all (hes.ne hT) fun t ht => by rw [zero_add, hes.2]; exact (hts0 t ht).2] at h5
  refine ⟨p.1.objects, p.2.map fun c => (c.1, flatten3 P.Nang P.mesh.N (P.M + 1) c.2), ?_, h4, ?_, ?_⟩
  · unfold Problem.solveIvp Problem.integratorStart
    rw [if_pos ⟨hts0, hts⟩, hy, Option.bind_some, ho, Option.bind_some, h1, Option.map_some,
      Option.bind_some, h3, Option.map_some]
  · rw [List.map_map]
    exact h5
  · intro c hc
    obtain ⟨c', -, rfl⟩ := List.mem_map.1 hc
    exact ⟨c'.2, rfl⟩

/-- C132: `solve` for a square pulse in a finite sphere returns, with the edges of the uniform mesh from
`-D/2` to `D/2`.  The coefficients of the shells are read on these cells, the inner half of the shells
on cells of negative radius. -/
theorem c132_sphere {P : Problem} (h : FiniteSphere P) {m0 : MeshState} (hm0 : meshInit P.mesh = some m0)
    (τ : Tableau) (D : Interpolant) {es : List Event} (hes : Arrives P es) (hT : 0 < P.mesh.tfinal)
    {V : StateVec} (hV : StartsFrom P V) (estimate : Bool) (choose : Option (List ℝ)) :
    ∃ R, P.solve τ D es estimate choose = some R ∧ R.edges = domainGrid P.mesh ∧
      R.xs = P.outputPoints choose (domainGrid P.mesh) ∧
      R.phi = R.xs.map (meshFlux P.Nang P.rawWs P.M P.mesh.N (domainGrid P.mesh) R.solLast) ∧
      (∀ l, R.psi l = R.xs.map (meshField P.M P.mesh.N (domainGrid P.mesh) (R.solLast l))) ∧
      ∀ k, 2 * k < P.mesh.N → R.edges k < 0 := by
  obtain ⟨hr1, hr2⟩ := outputTimes_range hT estimate
  obtain ⟨o, cols, h1, ⟨h2, ts, hts⟩, h3, h4⟩ := finite_ivp h hm0 τ D hes hT hV hr2 hr1
  have hlast : cols.getLast?.map Prod.fst = some P.mesh.tfinal := by
    rw [← List.getLast?_map, h3, outputTimes_last]
  obtain ⟨c, hc, -⟩ := Option.map_eq_some_iff.1 hlast
  obtain ⟨W, hW⟩ := h4 c (List.mem_of_getLast? hc)
  obtain ⟨u, hu, -⟩ := (holds_flatten P W).state
  obtain ⟨m, hm⟩ := finite_move_total h.square o.mesh P.mesh.tfinal
  have hme : m.edges = domainGrid P.mesh :=
    c132_mesh h.square hm0 (ts := ts) (by rw [meshRun_snoc, hts, Option.bind_some, hm])
  unfold Problem.solve
  rw [h1, Option.bind_some]
  dsimp only
  rw [hc, Option.bind_some]
  unfold Problem.finish
  rw [hW, hu, Option.bind_some, hm, Option.bind_some]
  dsimp only
  rw [hme, makeOutput_eq h.sphere h.order h.square.cells h.collided
    (domainGrid_ordered h.square.cells h.width), Option.map_some]
  refine ⟨_, rfl, rfl, rfl, rfl, fun l => rfl, fun k hk => ?_⟩
  have hk' : (2 * k : ℝ) < P.mesh.N := by exact_mod_cast hk
  have hN : (0 : ℝ) < P.mesh.N := by exact_mod_cast h.square.cells
  have hw := h.width
  show domainGrid P.mesh k < 0
  unfold domainGrid uniformGrid
  have : (k : ℝ) / P.mesh.N < 1 / 2 := by rw [div_lt_div_iff₀ hN (by norm_num)]; linarith
  nlinarith

/-- C132: at positive radii only the outer half of the shells is seen. -/
theorem c132_outer_half {c : MeshConfig} (hN : 1 ≤ c.N) (hw : 0 < c.domainWidth) {Nang M : ℕ} {w : ℕ → ℝ}
    {V W : StateVec} (hVW : ∀ l < Nang, ∀ k < c.N, c.N ≤ 2 * k + 1 → ∀ i ≤ M, V l k i = W l k i) {x : ℝ}
    (hx : 0 < x) :
    meshFlux Nang w M c.N (domainGrid c) V x = meshFlux Nang w M c.N (domainGrid c) W x := by
  have hN' : (0 : ℝ) < c.N := by exact_mod_cast hN
  unfold meshFlux
  refine Finset.sum_congr rfl fun l hl => ?_
  congr 1
  unfold meshField
  refine Finset.sum_congr rfl fun k hk => ?_
  have hk := Finset.mem_range.1 hk
  by_cases hin : c.N ≤ 2 * k + 1
  · have : sphereField M (V l k) (domainGrid c k) (domainGrid c (k + 1)) x =
        sphereField M (W l k) (domainGrid c k) (domainGrid c (k + 1)) x := by
      unfold sphereField
      exact Finset.sum_congr rfl fun i hi => by
        rw [hVW l (Finset.mem_range.1 hl) k hk hin i (by have := Finset.mem_range.1 hi; omega)]
    rw [this]
  · have hle : domainGrid c (k + 1) ≤ 0 := by
      have hk' : 2 * ((k : ℝ) + 1) ≤ c.N := by exact_mod_cast (by omega : 2 * (k + 1) ≤ c.N)
      unfold domainGrid uniformGrid
      have : ((k + 1 : ℕ) : ℝ) / c.N ≤ 1 / 2 := by
        push_cast
        rw [div_le_div_iff₀ hN' (by norm_num)]
        linarith
      nlinarith
    have hlt := domainGrid_ordered hN hw k hk
    have h0 : ¬ ((domainGrid c k < x ∧ x ≤ domainGrid c (k + 1)) ∨ (k = 0 ∧ x = domainGrid c 0)) := by
      rintro (⟨-, h2⟩ | ⟨rfl, h2⟩)
      · linarith
      · linarith
    rw [if_neg h0, if_neg h0]

theorem finite_evalLoop {P : Problem} (h : FiniteSphere P) {m0 : MeshState} (hm0 : meshInit P.mesh = some m0)
    (xs : List ℝ) (cols : List (ℝ × FlatArr)) (unc : List ℝ) {s : MeshState} {ts us : List ℝ}
    (hs : meshRun P.mesh m0 (ts ++ P.mesh.tfinal :: us) = some s)
    (hc : ∀ c ∈ cols, ∃ W, c.2 = flatten3 P.Nang P.mesh.N (P.M + 1) W) :
    ∃ outs, P.evalLoop (some xs) s unc cols = some outs ∧ List.Forall₂ (fun c out => ∃ u,
      outputState true P.Nang P.mesh.N P.M c.2 = some u ∧
      out.phi = xs.map (meshFlux P.Nang P.rawWs P.M P.mesh.N (domainGrid P.mesh) u) ∧
      ∀ l, out.psi l = xs.map (meshField P.M P.mesh.N (domainGrid P.mesh) (u l))) cols outs := by
  induction cols generalizing s unc us with
  | nil => exact ⟨[], rfl, .nil⟩
  | cons c cols ih =>
    obtain ⟨t, v⟩ := c
    obtain ⟨W, hW⟩ := hc (t, v) (by simp)
    obtain ⟨u, hu, -⟩ := (holds_flatten P W).state
    obtain ⟨m, hm⟩ := finite_move_total h.square s t
    have hrun : meshRun P.mesh m0 (ts ++ P.mesh.tfinal :: (us ++ [t])) = some m := by
      rw [← List.cons_append, ← List.append_assoc, meshRun_snoc, hs, Option.bind_some, hm]
    have hme := (c132_frozen h.square hm0 hrun).1
    obtain ⟨outs, h1, h2⟩ := ih unc hrun fun c hc' => hc c (by simp [hc'])
    dsimp only at hW
    rw [Problem.evalLoop, hm, Option.bind_some]
    dsimp only
    rw [hW, hu, Option.bind_some, hme, makeOutput_eq h.sphere h.order h.square.cells h.collided
      (domainGrid_ordered h.square.cells h.width), Option.bind_some]
    dsimp only
    rw [h1, Option.map_some]
    exact ⟨_, rfl, .cons ⟨u, hu, rfl, fun l => rfl⟩ h2⟩

/-- C132: with `eval_times` every output time is reported on the uniform mesh, also those before the
mesh would have reached the end of the domain. -/
theorem c132_sphere_times {P : Problem} (h : FiniteSphere P) {m0 : MeshState}
    (hm0 : meshInit P.mesh = some m0) (τ : Tableau) (D : Interpolant) {es : List Event} (hes : Arrives P es)
    (hT : 0 < P.mesh.tfinal) {V : StateVec} (hV : StartsFrom P V) {ts : List ℝ} (hne : ts ≠ [])
    (hts : ts.Pairwise (· < ·)) (hts0 : ∀ t ∈ ts, 0 ≤ t ∧ t ≤ P.mesh.tfinal) (xs : List ℝ) :
    ∃ o cols outs, P.solveIvp τ D es ts = some (o, cols) ∧ cols.map Prod.fst = ts ∧
      P.solveTimes τ D es (some xs) ts = some outs ∧ List.Forall₂ (fun c out => ∃ u,
        outputState true P.Nang P.mesh.N P.M c.2 = some u ∧
        out.phi = xs.map (meshFlux P.Nang P.rawWs P.M P.mesh.N (domainGrid P.mesh) u) ∧
        ∀ l, out.psi l = xs.map (meshField P.M P.mesh.N (domainGrid P.mesh) (u l))) cols outs := by
  obtain ⟨o, cols, h1, ⟨h2, us, hus⟩, h3, h4⟩ := finite_ivp h hm0 τ D hes hT hV hts hts0
  obtain ⟨m, hm⟩ := finite_move_total h.square o.mesh P.mesh.tfinal
  obtain ⟨outs, g1, g2⟩ := finite_evalLoop h hm0 xs cols o.unc (s := m) (ts := us) (us := [])
    (by rw [meshRun_snoc, hus, Option.bind_some, hm]) h4
  refine ⟨o, cols, outs, h1, h3, ?_, g2⟩
  have hlen : cols.length = ts.length := by rw [← h3, List.length_map]
  unfold Problem.solveTimes Problem.finishEval
  rw [h1, Option.bind_some]
  dsimp only
  rw [if_pos hlen, if_neg fun hc => hne (by rw [← h3, hc]; rfl), hm, Option.bind_some, g1]

/-! ### Examples -/

/-- The mesh of the examples: four cells, a square pulse of half width one half, a domain of width
ten. -/
noncomputable def exampleDomainMesh (g : Geometry) : MeshConfig :=
  { exampleSquareMesh with finiteDomain := true, geometry := g }

theorem exampleDomain_class (g : Geometry) : IsSquare (exampleDomainMesh g) :=
  ⟨rfl, rfl, rfl, exampleSquare_class.s3, exampleSquare_class.s5⟩

theorem exampleDomain_square (g : Geometry) : FiniteSquare (exampleDomainMesh g) :=
  ⟨rfl, (exampleDomain_class g).s0 ▸ by decide, (exampleDomain_class g).s0 ▸ by decide, rfl,
    Nat.le_of_ble_eq_true rfl⟩

theorem exampleDomain_quads (g : Geometry) : QuadsGiven (exampleDomainMesh g) :=
  ⟨exampleSquare_quads.size, exampleSquare_quads.sizeEdge, exampleSquare_quads.nodes,
    exampleSquare_quads.nodesEdge⟩

theorem exampleDomain_slab :
    meshInit (exampleDomainMesh .slab) = some (legendreState (exampleDomainMesh .slab)) := by
  rw [legendre_init (Or.inl (exampleDomain_class _)) rfl rfl]
  rfl

theorem exampleDomain_sphere :
    meshInit (exampleDomainMesh .sphere) = some (shellState (exampleDomainMesh .sphere)) := by
  rw [shell_init (Or.inl (exampleDomain_class _)) rfl rfl, if_pos (shell_size _ (by decide))]

/-- Requests out of order: on the mesh of the domain at the final time, at rest afterwards. -/
example (g : Geometry) {m0 m : MeshState} (h0 : meshInit (exampleDomainMesh g) = some m0)
    (hr : meshRun (exampleDomainMesh g) m0 [1, 1 / 2, 2, 1] = some m) :
    m.edges 0 = -5 ∧ m.edges 3 = 5 / 2 ∧ m.Dedges 4 = 0 := by
  obtain ⟨h1, h2⟩ := c132_frozen (exampleDomain_square g) h0 (ts := [1, 1 / 2]) (us := [1]) hr
  refine ⟨?_, ?_, h2 ⟨1, by simp, by norm_num [exampleDomainMesh, exampleSquareMesh]⟩ 4⟩ <;> rw [h1] <;>
    norm_num [domainGrid, uniformGrid, exampleDomainMesh, exampleSquareMesh]

/-- A square pulse in a finite slab. -/
noncomputable def exampleDomainSlab (inv : (ℕ → ℕ → ℝ) → ℕ → ℕ → ℝ) : Problem :=
  { exampleAbsorber inv with
    mesh := exampleDomainMesh .slab, quad := [(-(√3)⁻¹, 1), ((√3)⁻¹, 1)] }

/-- Four steps of RK45 up to time two: the pulse of half width one half is reported as a constant on
`[-5/2, 5/2]`, ten times as wide as the slab that the pulse fills. -/
example (inv : (ℕ → ℕ → ℝ) → ℕ → ℕ → ℝ) (leg : ℕ → List ℝ) : ∃ R φ,
    (exampleDomainSlab inv).slabSolve leg rk45 (rkInterpolant rk45 rk45Dense 4)
      (List.replicate 4 (.step (1 / 2) true)) false none = some R ∧ R.edges 4 = 5 ∧
    R.phi = R.xs.map φ ∧ φ 3 = 0 ∧
    φ 2 = totalGrowth rk45 (List.replicate 4 (.step (1 / 2) true)) * (3 + 3) * (1 / 2) * √(1 / 5) := by
  have h3 : (1 : ℝ) < √3 := by rw [Real.lt_sqrt zero_le_one]; norm_num
  have h3' : (√3)⁻¹ < 1 := inv_lt_one_of_one_lt₀ h3
  have h3p : 0 < (√3)⁻¹ := inv_pos.2 (by linarith)
  obtain ⟨R, φ, h1, h2, -, h4, h5, h6⟩ := c132_slab_pulse (P := exampleDomainSlab inv)
    (exampleDomain_class _) rfl rfl rfl (exampleDomain_quads _)
    (by simp [exampleDomainSlab, exampleAbsorber, exampleShell]) exampleShell_checks rfl
    (by norm_num [exampleDomainSlab, exampleDomainMesh, exampleSquareMesh])
    (by norm_num [exampleDomainSlab, exampleDomainMesh, exampleSquareMesh]) zero_lt_two
    (quadExact_mono two_point_exact (by norm_num [exampleDomainSlab, exampleAbsorber, exampleShell]))
    (by
      intro r hr
      simp only [exampleDomainSlab, List.mem_cons, List.not_mem_nil, or_false] at hr
      rcases hr with rfl | rfl
      · exact ⟨by simpa using h3', by simp only; linarith⟩
      · exact ⟨by simp only; linarith, h3'⟩)
    exampleDomain_slab leg rk45_endsRight (exampleHalves_arrive rfl [] rfl) false none
  refine ⟨R, φ, h1, ?_, h4, h5 3 ?_, ?_⟩
  · rw [h2]
    norm_num [domainGrid, uniformGrid, exampleDomainSlab, exampleDomainMesh, exampleSquareMesh]
  · norm_num [exampleDomainSlab, exampleDomainMesh, exampleSquareMesh]
  · have := h6 2 (show 4 / 4 ≤ 2 by decide) (show 2 < 3 * (4 / 4) by decide) 2
      (by norm_num [domainGrid, uniformGrid, exampleDomainSlab, exampleDomainMesh, exampleSquareMesh])
      (by norm_num [domainGrid, uniformGrid, exampleDomainSlab, exampleDomainMesh, exampleSquareMesh])
    rw [this]
    norm_num [exampleDomainSlab, exampleAbsorber, exampleShell, exampleDomainMesh, exampleSquareMesh,
      Finset.sum_range_succ]

/-- A square pulse in a finite sphere. -/
noncomputable def exampleDomainSphere (inv : (ℕ → ℕ → ℝ) → ℕ → ℕ → ℝ) : Problem :=
  { exampleShell inv with mesh := exampleDomainMesh .sphere, uncollided := false }

theorem exampleDomainSphere_class (inv : (ℕ → ℕ → ℝ) → ℕ → ℕ → ℝ) :
    FiniteSphere (exampleDomainSphere inv) where
  sphere := rfl
  square := exampleDomain_square _
  width := by norm_num [exampleDomainSphere, exampleDomainMesh, exampleSquareMesh]
  tables := exampleShell_tables inv
  order := by norm_num [exampleDomainSphere, exampleShell]
  opacity := steady_of_constant rfl
  checks := exampleShell_checks
  collided := rfl

/-- Four steps of RK45 up to time two: the innermost shells are reported at the radii `-5` and `-5/2`;
and the output at time one half is on the same mesh. -/
example (inv : (ℕ → ℕ → ℝ) → ℕ → ℕ → ℝ) : ∃ R,
    (exampleDomainSphere inv).solve rk45 (rkInterpolant rk45 rk45Dense 4)
      (List.replicate 4 (.step (1 / 2) true)) false none = some R ∧
    R.edges 0 = -5 ∧ R.edges 1 = -(5 / 2) ∧ R.edges 2 = 0 ∧
    ∃ outs, (exampleDomainSphere inv).solveTimes rk45 (rkInterpolant rk45 rk45Dense 4)
      (List.replicate 4 (.step (1 / 2) true)) (some [1, 3]) [1 / 2, 2] = some outs ∧ outs.length = 2 := by
  obtain ⟨V, hV⟩ := initial_exists (P := exampleDomainSphere inv) exampleDomain_sphere rfl
    (exampleDomain_square _).notShifted (Or.inr (Or.inr rfl)) (exampleDomainSphere_class inv).order
  obtain ⟨R, h1, h2, -⟩ := c132_sphere (exampleDomainSphere_class inv) exampleDomain_sphere rk45
    (rkInterpolant rk45 rk45Dense 4) (exampleHalves_arrive rfl [] rfl) zero_lt_two hV false none
  obtain ⟨o, cols, outs, g1, g2, g3, g4⟩ := c132_sphere_times (exampleDomainSphere_class inv)
    exampleDomain_sphere rk45 (rkInterpolant rk45 rk45Dense 4) (exampleHalves_arrive rfl [] rfl)
    zero_lt_two hV (ts := [1 / 2, 2]) (by simp) (by norm_num)
    (by
      intro t ht
      have : (exampleDomainSphere inv).mesh.tfinal = 2 := rfl
      rw [this]
      simp only [List.mem_cons, List.not_mem_nil, or_false] at ht
      rcases ht with rfl | rfl <;> norm_num) [1, 3]
  refine ⟨R, h1, ?_, ?_, ?_, outs, g3, ?_⟩
  · rw [h2]
    norm_num [domainGrid, uniformGrid, exampleDomainSphere, exampleDomainMesh, exampleSquareMesh]
  · rw [h2]
    norm_num [domainGrid, uniformGrid, exampleDomainSphere, exampleDomainMesh, exampleSquareMesh]
  · rw [h2]
    norm_num [domainGrid, uniformGrid, exampleDomainSphere, exampleDomainMesh, exampleSquareMesh]
  · rw [← g4.length_eq, ← List.length_map (f := Prod.fst), g2]
    rfl

end Verif.Props
