import Verif.Props.MeshMotion

/-!
C23-C30, continued: velocities, symmetry, light cone, the accelerating mesh, and histories on which
the claims fail.
-/

namespace Verif.Props

open Verif.Model Verif.Lemmas Verif.Spec

/-! ### C25 -/

/-- The position of edge `k` a mesh in state `s` reports when asked for time `t`. -/
noncomputable def reported (c : MeshConfig) (s : MeshState) (k : ℕ) (t : ℝ) : ℝ :=
  (meshMove c s t).elim 0 fun s' => s'.edges k

theorem linear_hasDeriv (a b t : ℝ) : HasDerivAt (fun τ : ℝ => a + b * τ) b t := by
  have := ((hasDerivAt_id t).const_mul b).const_add a
  simpa using this

/-- C25 (partial: plane pulse, square pulse without finite domain, boundary source): the velocity
after a request for time `t`, whatever was requested before, is the derivative of the reported
position. -/
theorem c25_velocity_is_derivative_partial {c : MeshConfig} {s s' : MeshState}
    (h : IsPlane c ∨ (IsSquare c ∧ c.finiteDomain = false) ∨ IsBoundary c) (hm : c.moving = true)
    (hs : meshInit c = some s) {ts : List ℝ} {t : ℝ}
    (hr : meshRun c s (ts ++ [t]) = some s') (k : ℕ) :
    HasDerivAt (reported c s k) (s'.Dedges k) t := by
  have hv := constructed_velocity hm hs
  rcases h with h | ⟨h, hf⟩ | h
  · have h1 := run_snoc (plane_noHistory h) hr
    rw [plane_init h hm] at hs
    injection hs with hs
    have hsm : s.moving = true := by rw [← hs]; exact hm
    have e : reported c s k = fun τ => s.edges0 k + s.DedgesConst k * τ := by
      funext τ; rw [reported, move_plane h hsm]; rfl
    rw [move_plane h hsm] at h1
    injection h1 with h1
    subst h1
    rw [e, ← hv]
    exact linear_hasDeriv _ _ _
  · have h1 := run_snoc (Or.inl hf) hr
    have hsm : s.moving = true := by
      cases hg : c.geometry
      · rw [legendre_init (Or.inl h) hm hg] at hs
        split_ifs at hs
        injection hs with hs; rw [← hs]; exact hm
      · rw [shell_init (Or.inl h) hm hg] at hs
        split_ifs at hs
        injection hs with hs; rw [← hs]; exact hm
    have mv : ∀ τ, meshMove c s τ = some { s with
          edges := fun k => s.edges0 k + s.DedgesConst k * τ
          Dedges := s.DedgesConst } := by
      intro τ
      rw [move_square h hsm, if_neg (by rw [hf]; simp), if_neg (by simp [reachedEnd, hf])]
    have e : reported c s k = fun τ => s.edges0 k + s.DedgesConst k * τ := by
      funext τ; rw [reported, mv]; rfl
    rw [mv] at h1
    injection h1 with h1
    subst h1
    rw [e]
    exact linear_hasDeriv _ _ _
  · have h1 := run_snoc (boundary_noHistory h) hr
    have hsm : s.moving = true := by
      rw [boundary_init h hm] at hs
      split_ifs at hs
      injection hs with hs; rw [← hs]; exact hm
    have e : reported c s k = fun τ => s.edges0 k + s.Dedges k * τ := by
      funext τ; rw [reported, move_boundary h hsm]; rfl
    rw [move_boundary h hsm] at h1
    injection h1 with h1
    subst h1
    rw [e]
    exact linear_hasDeriv _ _ _

/-- C25 fails for every moving Gaussian mesh: the edges never move, but the outermost edge is
reported to have the mesh speed. -/
theorem c25_gaussian_wrong {c : MeshConfig} {s s' : MeshState} (h : IsGaussian c)
    (hm : c.moving = true) (hN : 1 ≤ c.N) (hx : 0 < c.x0) (hs : meshInit c = some s)
    {ts : List ℝ} (hr : meshRun c s ts = some s') :
    (∀ k t, HasDerivAt (reported c s' k) 0 t) ∧ s'.Dedges c.N = c.edgeV := by
  rw [← h.speed]
  have hrun : ∀ ts, meshRun c s ts = some s := by
    intro ts
    induction ts with
    | nil => rfl
    | cons t ts ih => simp [meshRun, move_gaussian h, ih]
  rw [hrun] at hr
  injection hr with hr
  subst hr
  constructor
  · intro k t
    have e : reported c s k = fun _ => s.edges k := by
      funext τ; rw [reported, move_gaussian h]; rfl
    rw [e]
    exact hasDerivAt_const t _
  · rw [gaussian_init h hm] at hs
    injection hs with hs
    subst hs
    cases hg : c.geometry
    · simp [simpleMovingInit, hg, linspace_last _ _ hN, hx.ne']
    · simp [simpleMovingInit, hg, linspace_last _ _ hN, hx.ne']

/-- Gaussian pulse in a slab. -/
noncomputable def exampleGaussianMesh : MeshConfig :=
  { exampleSquareMesh with sourceType := [0, 0, 0, 1, 0, 0] }

example : ∃ s, meshInit exampleGaussianMesh = some s ∧
    ¬ HasDerivAt (reported exampleGaussianMesh s 4) (s.Dedges 4) 1 := by
  have hc : IsGaussian exampleGaussianMesh := ⟨rfl, rfl, rfl, rfl, Or.inl rfl⟩
  refine ⟨_, gaussian_init hc rfl, fun hd => ?_⟩
  obtain ⟨h0, h1⟩ := c25_gaussian_wrong hc rfl (by decide)
    (by norm_num [exampleGaussianMesh, exampleSquareMesh]) (gaussian_init hc rfl) (ts := []) rfl
  have e := hd.unique (h0 4 1)
  have hsp : exampleGaussianMesh.edgeV = 1 := rfl
  have h1' : (simpleMovingInit exampleGaussianMesh (meshBlank exampleGaussianMesh)).Dedges 4 = 1 :=
    h1.trans hsp
  rw [h1'] at e
  norm_num at e

/-- C25 and C30 fail for the slab square source without finite domain: the edges never move
although the outermost edge is reported to move with the mesh speed, and the mesh ends at
`x0 + 1/100` for all times. -/
theorem c25_open_source_wrong {c : MeshConfig} {s s' : MeshState} (h : IsSquareSource c)
    (hm : c.moving = true) (hg : c.geometry = .slab) (hq : QuadsGiven c)
    (hf : c.finiteDomain = false) (hs : meshInit c = some s) {ts : List ℝ}
    (hr : meshRun c s ts = some s') :
    (∀ k t, HasDerivAt (reported c s' k) 0 t) ∧ s'.Dedges c.N = c.edgeV ∧
      s'.edges c.N = c.x0 + 1 / 100 := by
  rw [← h.speed]
  have hrun : ∀ ts, meshRun c s ts = some s := by
    intro ts
    induction ts with
    | nil => rfl
    | cons t ts ih => simp [meshRun, move_source_open h hf, ih]
  rw [hrun] at hr
  injection hr with hr
  subst hr
  refine ⟨?_, ?_⟩
  · intro k t
    have e : reported c s k = fun _ => s.edges k := by
      funext τ; rw [reported, move_source_open h hf]; rfl
    rw [e]
    exact hasDerivAt_const t _
  · have h0 := legendreState_moved (Or.inr h) hm hg hq hs c.N 0
    have h1 := legendreState_moved (Or.inr h) hm hg hq hs c.N 1
    obtain ⟨hs', hN, e1, e2, q1, q2⟩ := square_constructed (Or.inr h) hm hg hq hs
    have el : ∀ D, slabSquareAt c D c.N = c.x0 + D := by
      intro D
      have := squareGrid_last (q := c.thickQuad.get) (x0 := c.x0) (D := D) q2
      rw [← hN] at this
      exact this
    rw [el] at h0 h1
    have hv : s.DedgesConst = s.Dedges := constructed_velocity hm hs
    have he : s.edges = s.edges0 := by rw [hs']; rfl
    rw [hv] at h0 h1
    rw [he]
    constructor <;> linarith

/-! ### C27 -/

/-- C27: the slab plane mesh is symmetric at every time, and so are its velocities. -/
theorem c27_plane_symmetric {c : MeshConfig} {s s' : MeshState} (h : IsPlane c)
    (hm : c.moving = true) (hg : c.geometry = .slab) (hN : 1 ≤ c.N) (hx : 0 < c.x0)
    (hs : meshInit c = some s) {ts : List ℝ} {t : ℝ}
    (hr : meshRun c s (ts ++ [t]) = some s') :
    Antisymmetric c.N s'.edges ∧ Antisymmetric c.N s'.Dedges := by
  constructor
  · intro k hk
    rw [plane_slab_at h hm hg hN hx hs hr, plane_slab_at h hm hg hN hx hs hr]
    exact uniformGrid_symm _ hN k hk
  · have h1 := run_snoc (plane_noHistory h) hr
    rw [plane_init h hm] at hs
    injection hs with hs
    have hsm : s.moving = true := by rw [← hs]; exact hm
    rw [move_plane h hsm] at h1
    injection h1 with h1
    subst h1 hs
    intro k hk
    simp only [simpleMovingInit, hg]
    rw [linspace_symm _ hN hk]
    ring

theorem legendre_velocity_symm {c : MeshConfig} {s : MeshState} (h : IsSquare c ∨ IsSquareSource c)
    (hm : c.moving = true) (hg : c.geometry = .slab) (hq : QuadsGiven c)
    (hs : meshInit c = some s) : Antisymmetric c.N s.DedgesConst := by
  obtain ⟨hs', hN, e1, e2, q1, q2⟩ := square_constructed h hm hg hq hs
  intro k hk
  have a := squareGrid_symm (x0 := c.x0) (D := 1 / 100 + c.speed * 1) q1 q2
  have b := squareGrid_symm (x0 := c.x0) (D := 1 / 100 + c.speed * 0) q1 q2
  rw [← hN] at a b
  have a1 := a k hk
  have b1 := b k hk
  have m1 := fun k => legendreState_moved h hm hg hq hs k 1
  have m0 := fun k => legendreState_moved h hm hg hq hs k 0
  unfold slabSquareAt at m1 m0
  rw [← m1, ← m1] at a1
  rw [← m0, ← m0] at b1
  linarith

/-- C27: the slab square-pulse mesh is symmetric after every history, with or without finite
domain. -/
theorem c27_square_symmetric {c : MeshConfig} {s s' : MeshState} (h : IsSquare c)
    (hm : c.moving = true) (hg : c.geometry = .slab) (hq : QuadsGiven c)
    (hs : meshInit c = some s) {ts : List ℝ} (hr : meshRun c s ts = some s') :
    Antisymmetric c.N s'.edges ∧ Antisymmetric c.N s'.Dedges := by
  obtain ⟨hs', hN, e1, e2, q1, q2⟩ := square_constructed (Or.inl h) hm hg hq hs
  have hv := legendre_velocity_symm (Or.inl h) hm hg hq hs
  constructor
  · rcases square_reachable h (by rw [hs']; rfl) hr with ⟨t, ht, he⟩ | ⟨-, he⟩
    · intro k hk
      have a := squareGrid_symm (x0 := c.x0) (D := 1 / 100 + c.speed * t) q1 q2
      rw [← hN] at a
      rw [he, he, legendreState_moved (Or.inl h) hm hg hq hs,
        legendreState_moved (Or.inl h) hm hg hq hs]
      exact a k hk
    · intro k hk
      have hp := q2.pos
      rw [he, he, neg_div]
      exact uniformGrid_symm _ (by omega) k hk
  · have hd : Antisymmetric c.N s.Dedges := by rw [← constructed_velocity hm hs]; exact hv
    clear hs hs'
    induction ts generalizing s with
    | nil => injection hr with hr; rw [← hr]; exact hd
    | cons t ts ih =>
      simp only [meshRun, Option.bind_eq_some_iff] at hr
      obtain ⟨s1, h1, h2⟩ := hr
      have k1 := move_keeps h1
      refine ih h2 (by rw [k1.2.2]; exact hv) ?_
      cases hsm : s.moving
      · rw [move_static hsm] at h1
        injection h1 with h1; rw [← h1]; exact hd
      · rw [move_square h hsm] at h1
        split_ifs at h1
        all_goals (injection h1 with h1; rw [← h1])
        · exact hd
        · intro k _; simp
        · exact hv

/-! ### C30 -/

theorem slabSquare_outer {c : MeshConfig} {s : MeshState} (h : IsSquare c ∨ IsSquareSource c)
    (hm : c.moving = true) (hg : c.geometry = .slab) (hq : QuadsGiven c)
    (hs : meshInit c = some s) (D : ℝ) :
    slabSquareAt c D 0 = -(c.x0 + D) ∧ slabSquareAt c D c.N = c.x0 + D := by
  obtain ⟨hs', hN, e1, e2, q1, q2⟩ := square_constructed h hm hg hq hs
  have l := squareGrid_last (q := c.thickQuad.get) (x0 := c.x0) (D := D) q2
  have a := squareGrid_symm (x0 := c.x0) (D := D) q1 q2 (4 * (c.N / 4)) le_rfl
  rw [Nat.sub_self] at a
  rw [l] at a
  rw [← hN] at l
  exact ⟨a, l⟩

/-- C30 (partial: square pulse in an unbounded slab): with mesh speed at least one every particle
that started in `[-x0, x0]` is inside the mesh. -/
theorem c30_square_light_cone_partial {c : MeshConfig} {s s' : MeshState} (h : IsSquare c)
    (hm : c.moving = true) (hg : c.geometry = .slab) (hq : QuadsGiven c)
    (hf : c.finiteDomain = false) (hv : 1 ≤ c.edgeV) (hs : meshInit c = some s) {ts : List ℝ}
    {t : ℝ} (ht : 0 ≤ t) (hr : meshRun c s (ts ++ [t]) = some s') {x μ : ℝ} (hx : |x| ≤ c.x0)
    (hμ : |μ| ≤ 1) : s'.edges 0 < x + μ * t ∧ x + μ * t < s'.edges c.N := by
  rw [← h.speed] at hv
  have h1 := run_snoc (Or.inl hf) hr
  obtain ⟨hs', -⟩ := square_constructed (Or.inl h) hm hg hq hs
  have hsm : s.moving = true := by rw [hs']; exact hm
  rw [move_square h hsm, if_neg (by rw [hf]; simp), if_neg (by simp [reachedEnd, hf])] at h1
  injection h1 with h1
  subst h1
  simp only [legendreState_moved (Or.inl h) hm hg hq hs]
  obtain ⟨o0, oN⟩ := slabSquare_outer (Or.inl h) hm hg hq hs (1 / 100 + c.speed * t)
  rw [o0, oN]
  obtain ⟨x1, x2⟩ := abs_le.mp hx
  obtain ⟨m1, m2⟩ := abs_le.mp hμ
  constructor <;> nlinarith

/-- C30 (partial: plane pulse in a slab). -/
theorem c30_plane_light_cone_partial {c : MeshConfig} {s s' : MeshState} (h : IsPlane c)
    (hm : c.moving = true) (hg : c.geometry = .slab) (hN : 1 ≤ c.N) (hx : 0 < c.x0)
    (hv : 1 ≤ c.edgeV) (hs : meshInit c = some s) {ts : List ℝ} {t : ℝ} (ht : 0 ≤ t)
    (hr : meshRun c s (ts ++ [t]) = some s') {μ : ℝ} (hμ : |μ| ≤ 1) :
    s'.edges 0 ≤ μ * t ∧ μ * t ≤ s'.edges c.N := by
  rw [← h.speed] at hv
  rw [plane_slab_at h hm hg hN hx hs hr, plane_slab_at h hm hg hN hx hs hr]
  have hN' : (c.N : ℝ) ≠ 0 := by positivity
  simp only [uniformGrid, div_self hN', Nat.cast_zero, zero_div]
  obtain ⟨m1, m2⟩ := abs_le.mp hμ
  constructor <;> nlinarith

theorem shell_outer {c : MeshConfig} (hN : 1 ≤ c.N) (D : ℝ) :
    shellGrid c.x0 D c.N (c.N / 2 + 1) c.N = if 3 ≤ c.N then c.x0 + D else c.x0 := by
  unfold shellGrid
  by_cases h : 3 ≤ c.N
  · have hn : ((c.N - (c.N / 2 + 1) : ℕ) : ℝ) ≠ 0 := by
      have : c.N - (c.N / 2 + 1) ≠ 0 := by omega
      exact_mod_cast this
    rw [if_neg (by omega), if_pos h, div_self hn, one_mul]
  · have e : c.N = c.N / 2 + 1 := by omega
    have hn : ((c.N / 2 + 1 : ℕ) : ℝ) ≠ 0 := by positivity
    rw [if_pos (by omega), if_neg h, ← e, div_self (by rw [e]; exact hn), one_mul]

/-- C30 (partial: spherical square pulse with at least three cells): every particle that started
within radius `x0` is inside the mesh. -/
theorem c30_shell_light_cone_partial {c : MeshConfig} {s s' : MeshState} (h : IsSquare c)
    (hm : c.moving = true) (hg : c.geometry = .sphere) (hN : 3 ≤ c.N)
    (hf : c.finiteDomain = false) (hv : 1 ≤ c.edgeV) (hs : meshInit c = some s) {ts : List ℝ}
    {t : ℝ} (ht : 0 ≤ t) (hr : meshRun c s (ts ++ [t]) = some s') {r : ℝ} (hrr : r ≤ c.x0 + t) :
    r < s'.edges c.N := by
  rw [← h.speed] at hv
  have h1 := run_snoc (Or.inl hf) hr
  rw [shell_init (Or.inl h) hm hg, if_pos (shell_size c (by omega))] at hs
  injection hs with hs
  subst hs
  rw [move_square h hm, if_neg (by rw [hf]; simp), if_neg (by simp [reachedEnd, hf])] at h1
  injection h1 with h1
  subst h1
  have e := shell_moved (c := c) le_rfl t
  rw [shell_outer (by omega), if_pos hN] at e
  refine lt_of_lt_of_eq ?_ e.symm
  nlinarith [show (0 : ℝ) < 1 / 10 ^ 5 by norm_num]

/-- C30 fails for a spherical square pulse with one or two cells: the mesh ends at `x0` for all
times. -/
theorem c30_small_shell_stays {c : MeshConfig} {s s' : MeshState} (h : IsSquare c)
    (hm : c.moving = true) (hg : c.geometry = .sphere) (hN : 1 ≤ c.N) (hN' : c.N ≤ 2)
    (hf : c.finiteDomain = false) (hs : meshInit c = some s) {ts : List ℝ}
    {t : ℝ} (hr : meshRun c s (ts ++ [t]) = some s') : s'.edges c.N = c.x0 := by
  have h1 := run_snoc (Or.inl hf) hr
  rw [shell_init (Or.inl h) hm hg, if_pos (shell_size c (by omega))] at hs
  injection hs with hs
  subst hs
  rw [move_square h hm, if_neg (by rw [hf]; simp), if_neg (by simp [reachedEnd, hf])] at h1
  injection h1 with h1
  subst h1
  have e := shell_moved (c := c) le_rfl t
  have e2 := shell_outer (c := c) hN (1 / 10 ^ 5 + c.speed * t)
  rw [if_neg (show ¬ 3 ≤ c.N by omega)] at e2
  exact e.trans e2

/-! ### The accelerating mesh of the square source -/

/-- Square source in a finite slab with constant acceleration after `t0`, as constructed. -/
structure AccelMesh (c : MeshConfig) (s : MeshState) : Prop where
  cls : IsSquareSource c
  moving : c.moving = true
  slab : c.geometry = .slab
  quads : QuadsGiven c
  finite : c.finiteDomain = true
  func : c.moveFunc = 0
  constructed : meshInit c = some s

/-- Kept by moves: the constants of the accelerated motion are set, or will be set by the next
request after `t0`. -/
def AccelReady (c : MeshConfig) (s : MeshState) : Prop :=
  s.Dedges (c.N / 2 / 2) = 0 ∨ s.accel = some (edges02 c s, c1sOf c s)

theorem accel_late {c : MeshConfig} {s : MeshState} (h : AccelReady c s) {t : ℝ} (ht : c.t0 ≤ t) :
    ∃ s', accelMove c s t = some s' ∧ AccelReady c s' ∧ s'.moving = s.moving ∧
      s'.edges0 = s.edges0 ∧ s'.DedgesConst = s.DedgesConst ∧
      (∀ k, s'.edges k = 1 / 2 * c1sOf c s k * (t - c.t0) ^ 2 + s.DedgesConst k * (t - c.t0)
        + edges02 c s k) ∧
      ∀ k, s'.Dedges k = c1sOf c s k * (t - c.t0) + s.DedgesConst k := by
  unfold accelMove moveMiddleEdges
  rw [if_pos ht]
  by_cases h0 : s.Dedges (c.N / 2 / 2) = 0
  · rw [if_pos h0]
    exact ⟨_, rfl, Or.inr rfl, rfl, rfl, rfl, fun _ => rfl, fun _ => rfl⟩
  · rw [if_neg h0]
    have ha := h.resolve_left h0
    dsimp only
    rw [ha]
    exact ⟨_, rfl, Or.inr rfl, rfl, rfl, rfl, fun _ => rfl, fun _ => rfl⟩

theorem accel_ready_init {c : MeshConfig} {s : MeshState} (h : AccelMesh c s) :
    AccelReady c s ∧ s.moving = true ∧ s.edges = s.edges0 ∧ s.Dedges = s.DedgesConst := by
  obtain ⟨hs', hN, e1, e2, q1, q2⟩ :=
    square_constructed (Or.inr h.cls) h.moving h.slab h.quads h.constructed
  have hp := q2.pos
  refine ⟨Or.inl ?_, by rw [hs']; exact h.moving, by rw [hs']; rfl, by rw [hs']; rfl⟩
  rw [hs']
  have e : c.N / 2 / 2 = c.N / 4 := by omega
  simp only [legendreState, squareVelocity]
  rw [e, if_neg (lt_irrefl _), if_neg (by omega), if_neg (by omega), zero_mul]

/-- Every request keeps the invariants of the accelerating mesh. -/
theorem accel_step {c : MeshConfig} {s s' : MeshState} (hc : IsSquareSource c)
    (hf : c.finiteDomain = true) (h0 : c.moveFunc = 0) (hm : s.moving = true)
    (hr : AccelReady c s) {t : ℝ} (h : meshMove c s t = some s') :
    AccelReady c s' ∧ s'.moving = true ∧ s'.edges0 = s.edges0 ∧ s'.DedgesConst = s.DedgesConst := by
  have k := move_keeps h
  refine ⟨?_, k.1.trans hm, k.2.1, k.2.2⟩
  rw [move_source_finite hc hf h0 hm] at h
  split_ifs at h with hend
  · injection h with h; subst h
    exact Or.inl (mul_zero _)
  · by_cases ht : c.t0 ≤ t
    · obtain ⟨s1, h1, h2, -⟩ := accel_late hr ht
      rw [h1] at h
      injection h with h; subst h
      exact h2
    · rw [accelMove, if_neg ht] at h
      injection h with h; subst h
      exact hr

theorem accel_run {c : MeshConfig} {s s' : MeshState} (hc : IsSquareSource c)
    (hf : c.finiteDomain = true) (h0 : c.moveFunc = 0) {ts : List ℝ} (hm : s.moving = true)
    (hr : AccelReady c s) (h : meshRun c s ts = some s') :
    AccelReady c s' ∧ s'.moving = true ∧ s'.edges0 = s.edges0 ∧ s'.DedgesConst = s.DedgesConst := by
  induction ts generalizing s with
  | nil => injection h with h; subst h; exact ⟨hr, hm, rfl, rfl⟩
  | cons t ts ih =>
    simp only [meshRun, Option.bind_eq_some_iff] at h
    obtain ⟨s1, h1, h2⟩ := h
    obtain ⟨a, b, d, e⟩ := accel_step hc hf h0 hm hr h1
    obtain ⟨a', b', d', e'⟩ := ih b a h2
    exact ⟨a', b', d'.trans d, e'.trans e⟩

/-- Where the accelerating mesh is at a time after `t0`, whatever the history, provided that it has
not stopped at the end of the domain. -/
theorem accel_at {c : MeshConfig} {s s1 s' : MeshState} (h : AccelMesh c s) {ts : List ℝ}
    (hr : meshRun c s ts = some s1) (hend : ¬ reachedEnd c s1) {t : ℝ} (ht : c.t0 ≤ t)
    (hmv : meshMove c s1 t = some s') :
    (∀ k, s'.edges k = 1 / 2 * c1sOf c s k * (t - c.t0) ^ 2 + s.DedgesConst k * (t - c.t0)
        + edges02 c s k) ∧
      ∀ k, s'.Dedges k = c1sOf c s k * (t - c.t0) + s.DedgesConst k := by
  obtain ⟨r, m, -, -⟩ := accel_ready_init h
  obtain ⟨r1, m1, e0, ec⟩ := accel_run h.cls h.finite h.func m r hr
  rw [move_source_finite h.cls h.finite h.func m1, if_neg hend] at hmv
  obtain ⟨s2, h2, -, -, -, -, pe, pd⟩ := accel_late r1 ht
  rw [h2] at hmv
  injection hmv with hmv
  subst hmv
  have e02 : edges02 c s1 = edges02 c s := by funext k; simp only [edges02, e0, ec]
  have ec1 : c1sOf c s1 = c1sOf c s := by funext k; simp only [c1sOf, e02, ec]
  rw [e02, ec1, ec] at pe
  rw [ec1, ec] at pd
  exact ⟨pe, pd⟩

/-- C28: at `t0` the accelerated motion starts where the constant-velocity motion is at `t0`, with
the same velocity. -/
theorem c28_switch_over {c : MeshConfig} {s s1 s' : MeshState} (h : AccelMesh c s) {ts : List ℝ}
    (hr : meshRun c s ts = some s1) (hend : ¬ reachedEnd c s1)
    (hmv : meshMove c s1 c.t0 = some s') :
    s'.edges = slabSquareAt c (1 / 100 + c.edgeV * c.t0) ∧ s'.Dedges = s.Dedges := by
  rw [← h.cls.speed]
  obtain ⟨pe, pd⟩ := accel_at h hr hend le_rfl hmv
  obtain ⟨-, -, -, hd⟩ := accel_ready_init h
  constructor
  · funext k
    rw [pe, ← legendreState_moved (Or.inr h.cls) h.moving h.slab h.quads h.constructed]
    simp [edges02]
  · funext k
    rw [pd, hd]
    simp

/-- C28 (partial: not for a mesh that stopped at the end of the domain before): a mesh that has not stopped at the end of the domain is the uniform grid on `[-pad, pad]`
at `tfinal`. -/
theorem c28_reaches_target_partial {c : MeshConfig} {s s1 s' : MeshState} (h : AccelMesh c s)
    (hT : c.t0 < c.tfinal) {ts : List ℝ} (hr : meshRun c s ts = some s1)
    (hend : ¬ reachedEnd c s1) (hmv : meshMove c s1 c.tfinal = some s') (k : ℕ) :
    s'.edges k = uniformGrid (-c.pad) c.pad c.N k := by
  obtain ⟨pe, -⟩ := accel_at h hr hend hT.le hmv
  have hne : c.t0 - c.tfinal ≠ 0 := by linarith [hT]
  rw [pe, c1sOf, linspace_uniform]
  have e : (c.tfinal - c.t0) ^ 2 = (c.t0 - c.tfinal) ^ 2 := by ring
  rw [e]
  field_simp
  ring

/-- C28 and C25: after `t0` the motion has constant acceleration and the reported velocity is the
derivative of the reported position. -/
theorem c28_velocity_is_derivative {c : MeshConfig} {s s1 s' : MeshState} (h : AccelMesh c s)
    {ts : List ℝ} (hr : meshRun c s ts = some s1) (hend : ¬ reachedEnd c s1) {t : ℝ}
    (ht : c.t0 < t) (hmv : meshMove c s1 t = some s') (k : ℕ) :
    HasDerivAt (reported c s1 k) (s'.Dedges k) t := by
  obtain ⟨-, pd⟩ := accel_at h hr hend ht.le hmv
  obtain ⟨r, m, -, -⟩ := accel_ready_init h
  obtain ⟨r1, m1, e0, ec⟩ := accel_run h.cls h.finite h.func m r hr
  have e : reported c s1 k =ᶠ[nhds t] fun τ =>
      1 / 2 * c1sOf c s k * (τ - c.t0) ^ 2 + s.DedgesConst k * (τ - c.t0) + edges02 c s k := by
    filter_upwards [lt_mem_nhds ht] with τ hτ
    obtain ⟨s2, h2, -⟩ := accel_late r1 (le_of_lt hτ)
    have h3 : meshMove c s1 τ = some s2 := by
      rw [move_source_finite h.cls h.finite h.func m1, if_neg hend, h2]
    rw [reported, h3]
    exact (accel_at h hr hend (le_of_lt hτ) h3).1 k
  refine HasDerivAt.congr_of_eventuallyEq ?_ e
  rw [pd]
  have d1 : HasDerivAt (fun τ : ℝ => τ - c.t0) 1 t := (hasDerivAt_id t).sub_const _
  refine (((d1.pow 2).const_mul (1 / 2 * c1sOf c s k)).add
    (d1.const_mul (s.DedgesConst k))).add_const (edges02 c s k) |>.congr_deriv ?_
  simp
  ring

/-- What a history of the accelerating mesh can lead to when all requests before `t0` come
first. -/
theorem accel_reachable {c : MeshConfig} {s s' : MeshState} (h : AccelMesh c s)
    {early late : List ℝ} (he : ∀ t ∈ early, 0 ≤ t ∧ t < c.t0)
    (hl : ∀ t ∈ late, c.t0 ≤ t ∧ t ≤ c.tfinal) (hr : meshRun c s (early ++ late) = some s') :
    (∃ t, 0 ≤ t ∧ ∀ k, s'.edges k = s.edges0 k + s.DedgesConst k * t) ∨
      ∃ t, c.t0 ≤ t ∧ t ≤ c.tfinal ∧ ∀ k, s'.edges k = 1 / 2 * c1sOf c s k * (t - c.t0) ^ 2
        + s.DedgesConst k * (t - c.t0) + edges02 c s k := by
  obtain ⟨r, m, ee, ed⟩ := accel_ready_init h
  rw [meshRun_append, Option.bind_eq_some_iff] at hr
  obtain ⟨s1, h1, h2⟩ := hr
  -- first phase
  have p1 : ∀ (ts : List ℝ) (u u' : MeshState), (∀ t ∈ ts, 0 ≤ t ∧ t < c.t0) →
      AccelReady c u → u.moving = true → u.edges0 = s.edges0 → u.DedgesConst = s.DedgesConst →
      (∃ t, 0 ≤ t ∧ ∀ k, u.edges k = s.edges0 k + s.DedgesConst k * t) →
      (u.Dedges = s.DedgesConst ∨ reachedEnd c u) → meshRun c u ts = some u' →
      ∃ t, 0 ≤ t ∧ ∀ k, u'.edges k = s.edges0 k + s.DedgesConst k * t := by
    intro ts
    induction ts with
    | nil => intro u u' _ _ _ _ _ hp _ hrun; injection hrun with hrun; subst hrun; exact hp
    | cons t ts ih =>
      intro u u' hts hru hmu h0u hcu hp hd hrun
      simp only [meshRun, Option.bind_eq_some_iff] at hrun
      obtain ⟨v, hv, hrun⟩ := hrun
      obtain ⟨a, b, d, e⟩ := accel_step h.cls h.finite h.func hmu hru hv
      obtain ⟨ht0, ht1⟩ := hts t List.mem_cons_self
      rw [move_source_finite h.cls h.finite h.func hmu] at hv
      refine ih v u' (fun t ht => hts t (List.mem_cons_of_mem _ ht)) a b (d.trans h0u)
        (e.trans hcu) ?_ ?_ hrun
      · split_ifs at hv with hend
        · injection hv with hv; subst hv; exact hp
        · rw [accelMove, if_neg (by linarith)] at hv
          injection hv with hv; subst hv
          exact ⟨t, ht0, fun k => by rw [hd.resolve_right hend, h0u]⟩
      · split_ifs at hv with hend
        · injection hv with hv; subst hv; exact Or.inr hend
        · rw [accelMove, if_neg (by linarith)] at hv
          injection hv with hv; subst hv
          exact Or.inl (hd.resolve_right hend)
  have q1 := p1 early s s1 he r m rfl rfl ⟨0, le_rfl, fun k => by rw [ee]; ring⟩ (Or.inl ed) h1
  obtain ⟨r1, m1, e0, ec⟩ := accel_run h.cls h.finite h.func m r h1
  -- second phase
  have p2 : ∀ (ts pre : List ℝ) (u : MeshState), (∀ t ∈ ts, c.t0 ≤ t ∧ t ≤ c.tfinal) →
      meshRun c s pre = some u →
      ((∃ t, 0 ≤ t ∧ ∀ k, u.edges k = s.edges0 k + s.DedgesConst k * t) ∨
      ∃ t, c.t0 ≤ t ∧ t ≤ c.tfinal ∧ ∀ k, u.edges k = 1 / 2 * c1sOf c s k * (t - c.t0) ^ 2
        + s.DedgesConst k * (t - c.t0) + edges02 c s k) → meshRun c u ts = some s' →
      ((∃ t, 0 ≤ t ∧ ∀ k, s'.edges k = s.edges0 k + s.DedgesConst k * t) ∨
      ∃ t, c.t0 ≤ t ∧ t ≤ c.tfinal ∧ ∀ k, s'.edges k = 1 / 2 * c1sOf c s k * (t - c.t0) ^ 2
        + s.DedgesConst k * (t - c.t0) + edges02 c s k) := by
    intro ts
    induction ts with
    | nil => intro pre u _ _ hp hrun; injection hrun with hrun; subst hrun; exact hp
    | cons t ts ih =>
      intro pre u hts hpre hp hrun
      simp only [meshRun, Option.bind_eq_some_iff] at hrun
      obtain ⟨v, hv, hrun⟩ := hrun
      obtain ⟨ht0, ht1⟩ := hts t List.mem_cons_self
      refine ih (pre ++ [t]) v (fun t ht => hts t (List.mem_cons_of_mem _ ht))
        (by rw [meshRun_append, hpre]; simp [meshRun, hv]) ?_ hrun
      by_cases hend : reachedEnd c u
      · obtain ⟨-, mu, -, -⟩ := accel_run h.cls h.finite h.func m r hpre
        rw [move_source_finite h.cls h.finite h.func mu, if_pos hend] at hv
        injection hv with hv; subst hv
        exact hp
      · exact Or.inr ⟨t, ht0, ht1, (accel_at h hpre hend ht0 hv).1⟩
  exact p2 late early s1 hl h1 (Or.inl q1) h2

/-- C24 (partial: accelerating mesh, all requests before `t0` made before those after): ordered
edges. -/
theorem c24_accelerating_ordered_partial {c : MeshConfig} {s s' : MeshState} (h : AccelMesh c s)
    (hx : 0 < c.x0) (hv : 0 ≤ c.edgeV) (ht0 : 0 ≤ c.t0) (hT : c.t0 < c.tfinal) (hpad : 0 < c.pad)
    {early late : List ℝ} (he : ∀ t ∈ early, 0 ≤ t ∧ t < c.t0)
    (hl : ∀ t ∈ late, c.t0 ≤ t ∧ t ≤ c.tfinal) (hr : meshRun c s (early ++ late) = some s') :
    Ordered c.N s'.edges := by
  rw [← h.cls.speed] at hv
  obtain ⟨hs', hN, e1, e2, q1, q2⟩ :=
    square_constructed (Or.inr h.cls) h.moving h.slab h.quads h.constructed
  have hpos := q2.pos
  have hN1 : 1 ≤ c.N := by omega
  have mv := fun k t => legendreState_moved (Or.inr h.cls) h.moving h.slab h.quads h.constructed k t
  have ord : ∀ t, 0 ≤ t → Ordered c.N fun k => s.edges0 k + s.DedgesConst k * t := by
    intro t ht i j hij hj
    have hD : 0 < 1 / 100 + c.speed * t := by positivity
    have := squareGrid_ordered (x0 := c.x0) q1 q2 hx hD
    rw [← hN] at this
    dsimp only
    rw [mv, mv]
    exact this i j hij hj
  rcases accel_reachable h he hl hr with ⟨t, ht, hp⟩ | ⟨t, ht, ht', hp⟩
  · intro i j hij hj
    rw [hp, hp]
    exact ord t ht i j hij hj
  · intro i j hij hj
    rw [hp, hp]
    have ot := ord c.t0 ht0 i j hij hj
    have og := uniformGrid_ordered (a := -c.pad) (b := c.pad) (by linarith) hN1 i j hij hj
    -- velocities increase with the edge number
    have od : s.DedgesConst i ≤ s.DedgesConst j := by
      by_contra hcon
      push Not at hcon
      have hd : 0 < s.DedgesConst i - s.DedgesConst j := by linarith
      have h0 := ord 0 le_rfl i j hij hj
      dsimp only at h0
      have hb : 0 ≤ (s.edges0 j - s.edges0 i) / (s.DedgesConst i - s.DedgesConst j) :=
        div_nonneg (by linarith) hd.le
      have h1 := ord _ hb i j hij hj
      dsimp only at h1
      have : (s.DedgesConst i - s.DedgesConst j) *
          ((s.edges0 j - s.edges0 i) / (s.DedgesConst i - s.DedgesConst j)) =
          s.edges0 j - s.edges0 i := mul_div_cancel₀ _ hd.ne'
      nlinarith
    have hW : 0 < c.tfinal - c.t0 := by linarith
    have hr1 : 0 ≤ (t - c.t0) / (c.tfinal - c.t0) := div_nonneg (by linarith) hW.le
    have hr2 : (t - c.t0) / (c.tfinal - c.t0) ≤ 1 := (div_le_one hW).mpr (by linarith)
    have form : ∀ k, 1 / 2 * c1sOf c s k * (t - c.t0) ^ 2 + s.DedgesConst k * (t - c.t0)
        + edges02 c s k =
        edges02 c s k * (1 - ((t - c.t0) / (c.tfinal - c.t0)) ^ 2)
        + uniformGrid (-c.pad) c.pad c.N k * ((t - c.t0) / (c.tfinal - c.t0)) ^ 2
        + s.DedgesConst k * ((c.tfinal - c.t0) * ((t - c.t0) / (c.tfinal - c.t0)
          * (1 - (t - c.t0) / (c.tfinal - c.t0)))) := by
      intro k
      have hne : c.t0 - c.tfinal ≠ 0 := by linarith
      have hne' := hW.ne'
      have eq : (c.t0 - c.tfinal) ^ 2 = (c.tfinal - c.t0) ^ 2 := by ring
      rw [c1sOf, linspace_uniform, eq]
      field_simp
      ring
    rw [form, form]
    have ot' : edges02 c s i < edges02 c s j := ot
    generalize (t - c.t0) / (c.tfinal - c.t0) = r at *
    have hA : 0 ≤ 1 - r ^ 2 := by nlinarith
    have hB : 0 ≤ r ^ 2 := sq_nonneg r
    have hC : 0 ≤ (c.tfinal - c.t0) * (r * (1 - r)) :=
      mul_nonneg hW.le (mul_nonneg hr1 (by linarith))
    have m1 := mul_le_mul_of_nonneg_right od hC
    rcases eq_or_lt_of_le hB with hz | hz
    · have hr0 : r ^ 2 = 0 := hz.symm
      rw [hr0]
      linarith
    · have m2 := mul_lt_mul_of_pos_right og hz
      have m3 := mul_le_mul_of_nonneg_right ot'.le hA
      linarith

/-! ### Histories on which the claims fail -/

/-- Square source in a finite slab with given mesh speed and domain width. -/
noncomputable def exampleAccelWith (v w : ℝ) : MeshConfig :=
  { exampleSourceMesh with finiteDomain := true, edgeV := v, domainWidth := w }

theorem exampleWith_class (v w : ℝ) : IsSquareSource (exampleAccelWith v w) :=
  ⟨rfl, rfl, rfl, rfl, by simp [exampleAccelWith, MeshConfig.st, exampleSourceMesh],
    by simp [exampleAccelWith, MeshConfig.st, exampleSourceMesh]⟩

theorem exampleWith (v w : ℝ) :
    AccelMesh (exampleAccelWith v w) (legendreState (exampleAccelWith v w)) where
  cls := exampleWith_class v w
  moving := rfl
  slab := rfl
  quads := ⟨by simp [exampleAccelWith, exampleSourceMesh, exampleSquareMesh],
    by simp [exampleAccelWith, exampleSourceMesh, exampleSquareMesh],
    exampleSquare_quads.nodes, exampleSquare_quads.nodesEdge⟩
  finite := rfl
  func := rfl
  constructed := by rw [legendre_init (Or.inr (exampleWith_class v w)) rfl rfl]; rfl

theorem exampleWith_data (v w : ℝ) (k : ℕ) (hk : k = 3 ∨ k = 4) :
    (legendreState (exampleAccelWith v w)).edges0 k = (if k = 4 then 51 / 100 else 1 / 2) ∧
      (legendreState (exampleAccelWith v w)).DedgesConst k = if k = 4 then v else 0 := by
  have hsp : (exampleAccelWith v w).speed = v := by
    rw [speed_of_not_allZero (not_allZero (i := 2) (by rw [(exampleWith_class v w).s2]; decide))]
    rfl
  have m := fun t => legendreState_moved (Or.inr (exampleWith v w).cls) (exampleWith v w).moving
    (exampleWith v w).slab (exampleWith v w).quads (exampleWith v w).constructed k t
  have m0 := m 0
  have m1 := m 1
  rw [hsp] at m0 m1
  have hN : (exampleAccelWith v w).N / 4 = 1 := by
    simp [exampleAccelWith, exampleSourceMesh, exampleSquareMesh]
  have hx : (exampleAccelWith v w).x0 = 1 / 2 := rfl
  have hqe : (exampleAccelWith v w).thickQuadEdge.get = fun i : ℕ => 2 * (i : ℝ) - 1 := rfl
  rw [slabSquareAt, hN, hx, squareGrid_right (by omega) le_rfl, hqe] at m0 m1
  rcases hk with rfl | rfl
  · norm_num at m0 m1 ⊢
    constructor <;> linarith
  · norm_num at m0 m1 ⊢
    constructor <;> linarith

theorem exampleWith_const (v w : ℝ) (k : ℕ) (hk : k = 3 ∨ k = 4) :
    c1sOf (exampleAccelWith v w) (legendreState (exampleAccelWith v w)) k =
      if k = 4 then 98 / 100 - 4 * v else 0 := by
  obtain ⟨h0, h1⟩ := exampleWith_data v w k hk
  rw [c1sOf, edges02, h0, h1]
  have hp : (exampleAccelWith v w).pad = 1 := rfl
  have ht : (exampleAccelWith v w).t0 = 1 := rfl
  have hT : (exampleAccelWith v w).tfinal = 2 := rfl
  have hN : (exampleAccelWith v w).N = 4 := rfl
  rw [hp, ht, hT, hN, linspace_uniform, uniformGrid]
  rcases hk with rfl | rfl
  · norm_num
  · norm_num
    ring

/-- Square source in a finite slab. -/
noncomputable def exampleAccelMesh : MeshConfig := exampleAccelWith 1 10

theorem exampleAccel_class : IsSquareSource exampleAccelMesh := exampleWith_class 1 10

theorem exampleAccel : AccelMesh exampleAccelMesh (legendreState exampleAccelMesh) :=
  exampleWith 1 10

theorem exampleAccel_data (k : ℕ) (hk : k = 3 ∨ k = 4) :
    (legendreState exampleAccelMesh).edges0 k = (if k = 4 then 51 / 100 else 1 / 2) ∧
      (legendreState exampleAccelMesh).DedgesConst k = if k = 4 then 1 else 0 :=
  exampleWith_data 1 10 k hk

theorem exampleAccel_const (k : ℕ) (hk : k = 3 ∨ k = 4) :
    c1sOf exampleAccelMesh (legendreState exampleAccelMesh) k =
      if k = 4 then 98 / 100 - 4 * 1 else 0 := exampleWith_const 1 10 k hk

/-- A history of the accelerating mesh that crosses the switch-over time backwards. -/
theorem exampleAccel_back : ∃ s', meshRun exampleAccelMesh (legendreState exampleAccelMesh)
    [2, 9 / 10] = some s' ∧ s'.edges 3 = 1 / 2 ∧ s'.edges 4 = -(1308 / 1000) := by
  obtain ⟨r, m, ee, ed⟩ := accel_ready_init exampleAccel
  have n0 : ¬ reachedEnd exampleAccelMesh (legendreState exampleAccelMesh) := by
    rintro ⟨-, h⟩
    rw [ee] at h
    have : exampleAccelMesh.N = 4 := rfl
    rw [this, (exampleAccel_data 4 (Or.inr rfl)).1] at h
    norm_num [exampleAccelMesh, exampleAccelWith, exampleSourceMesh, exampleSquareMesh, abs_le] at h
  have ht : exampleAccelMesh.t0 = 1 := rfl
  obtain ⟨s1, h1, -, m1, e0, ec, pe, pd⟩ := accel_late r (t := 2) (by rw [ht]; norm_num)
  have hm1 : meshMove exampleAccelMesh (legendreState exampleAccelMesh) 2 = some s1 := by
    rw [move_source_finite exampleAccel_class rfl rfl m, if_neg n0, h1]
  have n1 : ¬ reachedEnd exampleAccelMesh s1 := by
    rintro ⟨-, h⟩
    have hN : exampleAccelMesh.N = 4 := rfl
    rw [hN, pe, exampleAccel_const 4 (Or.inr rfl), edges02, (exampleAccel_data 4 (Or.inr rfl)).1,
      (exampleAccel_data 4 (Or.inr rfl)).2, ht] at h
    norm_num [exampleAccelMesh, exampleAccelWith, exampleSourceMesh, exampleSquareMesh, abs_le] at h
  have hm2 := move_source_finite exampleAccel_class rfl rfl (m1.trans m) (9 / 10)
  rw [if_neg n1, accelMove, if_neg (by rw [ht]; norm_num)] at hm2
  refine ⟨{ s1 with edges := fun k => s1.edges0 k + s1.Dedges k * (9 / 10) }, ?_, ?_, ?_⟩
  · simp only [meshRun, hm1, hm2, Option.bind_some]
  · dsimp only
    rw [e0, pd, exampleAccel_const 3 (Or.inl rfl), (exampleAccel_data 3 (Or.inl rfl)).1,
      (exampleAccel_data 3 (Or.inl rfl)).2, ht]
    norm_num
  · dsimp only
    rw [e0, pd, exampleAccel_const 4 (Or.inr rfl), (exampleAccel_data 4 (Or.inr rfl)).1,
      (exampleAccel_data 4 (Or.inr rfl)).2, ht]
    norm_num

/-- C24 fails: requests at times 2 and then 9/10, both in `[0, tfinal]`, leave crossed edges. -/
theorem c24_crossed_edges : ∃ s s', meshInit exampleAccelMesh = some s ∧
    Ordered exampleAccelMesh.N s.edges ∧
    meshRun exampleAccelMesh s [2, 9 / 10] = some s' ∧ ¬ Ordered exampleAccelMesh.N s'.edges := by
  obtain ⟨s', hr, h3, h4⟩ := exampleAccel_back
  refine ⟨_, s', exampleAccel.constructed, ?_, hr, fun h => ?_⟩
  · exact c24_accelerating_ordered_partial exampleAccel
      (by norm_num [exampleAccelMesh, exampleAccelWith, exampleSourceMesh, exampleSquareMesh])
      (by norm_num [exampleAccelMesh, exampleAccelWith, exampleSourceMesh, exampleSquareMesh])
      (by norm_num [exampleAccelMesh, exampleAccelWith, exampleSourceMesh, exampleSquareMesh])
      (by norm_num [exampleAccelMesh, exampleAccelWith, exampleSourceMesh, exampleSquareMesh])
      (by norm_num [exampleAccelMesh, exampleAccelWith, exampleSourceMesh, exampleSquareMesh])
      (early := []) (late := []) (by simp) (by simp) rfl
  · have := h 3 4 (by norm_num) (le_refl 4)
    rw [h3, h4] at this
    norm_num at this

/-- C23 fails: the position for time 9/10 depends on whether time 2 was requested before. -/
theorem c23_depends_on_history : ∃ s s1 s2, meshInit exampleAccelMesh = some s ∧
    meshRun exampleAccelMesh s [9 / 10] = some s1 ∧
    meshRun exampleAccelMesh s [2, 9 / 10] = some s2 ∧ s1.edges 4 ≠ s2.edges 4 := by
  obtain ⟨s', hr, h3, h4⟩ := exampleAccel_back
  obtain ⟨r, m, ee, ed⟩ := accel_ready_init exampleAccel
  have n0 : ¬ reachedEnd exampleAccelMesh (legendreState exampleAccelMesh) := by
    rintro ⟨-, h⟩
    rw [ee] at h
    have : exampleAccelMesh.N = 4 := rfl
    rw [this, (exampleAccel_data 4 (Or.inr rfl)).1] at h
    norm_num [exampleAccelMesh, exampleAccelWith, exampleSourceMesh, exampleSquareMesh, abs_le] at h
  have ht : exampleAccelMesh.t0 = 1 := rfl
  have hm2 := move_source_finite exampleAccel_class rfl rfl m (9 / 10)
  rw [if_neg n0, accelMove, if_neg (by rw [ht]; norm_num)] at hm2
  refine ⟨_, { legendreState exampleAccelMesh with
      edges := fun k => (legendreState exampleAccelMesh).edges0 k
        + (legendreState exampleAccelMesh).Dedges k * (9 / 10) },
    s', exampleAccel.constructed, ?_, hr, ?_⟩
  · simp only [meshRun, hm2, Option.bind_some]
  · rw [h4]
    dsimp only
    rw [ed, (exampleAccel_data 4 (Or.inr rfl)).1, (exampleAccel_data 4 (Or.inr rfl)).2]
    norm_num

/-- C23 fails for every square pulse in a finite slab: a mesh asked for a time `t2` at which its
outermost edge has passed the end of the domain stays there for every other time but `tfinal`. -/
theorem c23_finite_square_stuck {c : MeshConfig} {s : MeshState} (h : IsSquare c)
    (hm : c.moving = true) (hg : c.geometry = .slab) (hq : QuadsGiven c)
    (hf : c.finiteDomain = true) (hs : meshInit c = some s)
    (hstart : ¬ reachedEnd c s) {t1 t2 : ℝ} (h1 : t1 ≠ c.tfinal) (h2 : t2 ≠ c.tfinal)
    (hpass : c.domainWidth / 2 ≤ c.x0 + (1 / 100 + c.edgeV * t2)) :
    ∃ s1 s2, meshRun c s [t1] = some s1 ∧ meshRun c s [t2, t1] = some s2 ∧
      s1.edges = slabSquareAt c (1 / 100 + c.edgeV * t1) ∧
      s2.edges = slabSquareAt c (1 / 100 + c.edgeV * t2) := by
  rw [← h.speed] at hpass ⊢
  obtain ⟨hs', -⟩ := square_constructed (Or.inl h) hm hg hq hs
  have hsm : s.moving = true := by rw [hs']; exact hm
  have mv := fun k t => legendreState_moved (Or.inl h) hm hg hq hs k t
  have one : ∀ t, t ≠ c.tfinal → meshMove c s t = some { s with
          edges := fun k => s.edges0 k + s.DedgesConst k * t
          Dedges := s.DedgesConst } := by
    intro t ht
    rw [move_square h hsm, if_neg (by tauto), if_neg hstart]
  have hend : reachedEnd c { s with
          edges := fun k => s.edges0 k + s.DedgesConst k * t2
          Dedges := s.DedgesConst } := by
    refine ⟨hf, Or.inl ?_⟩
    dsimp only
    rw [mv, (slabSquare_outer (Or.inl h) hm hg hq hs _).2]
    exact hpass
  refine ⟨{ s with
          edges := fun k => s.edges0 k + s.DedgesConst k * t1
          Dedges := s.DedgesConst }, { s with
          edges := fun k => s.edges0 k + s.DedgesConst k * t2
          Dedges := fun k => s.DedgesConst k * 0 }, ?_, ?_, ?_, ?_⟩
  · simp only [meshRun, one t1 h1, Option.bind_some]
  · have hstop := move_square h (s := { s with
          edges := fun k => s.edges0 k + s.DedgesConst k * t2
          Dedges := s.DedgesConst }) hsm t1
    rw [if_neg (by tauto), if_pos hend] at hstop
    simp only [meshRun, one t2 h2, Option.bind_some, hstop]
  · funext k; exact mv k t1
  · funext k; exact mv k t2

/-- C28 fails: a mesh whose target is the end of the domain stops one hundredth before it.  Here
the request at 1.99 stops the mesh, and at `tfinal` it is not the target grid. -/
theorem c28_stops_short : ∃ (c : MeshConfig) (s : MeshState), AccelMesh c s ∧ c.t0 < c.tfinal ∧
    c.pad = c.domainWidth / 2 ∧ ∃ s', meshRun c s [199 / 100, c.tfinal] = some s' ∧
      s'.edges c.N ≠ uniformGrid (-c.pad) c.pad c.N c.N := by
  have ht : (exampleAccelWith (1 / 10) 2).t0 = 1 := rfl
  have hN : (exampleAccelWith (1 / 10) 2).N = 4 := rfl
  have hx := exampleWith (1 / 10) 2
  have hd := exampleWith_data (1 / 10) 2 4 (Or.inr rfl)
  have hc := exampleWith_const (1 / 10) 2 4 (Or.inr rfl)
  obtain ⟨r, m, ee, ed⟩ := accel_ready_init hx
  have n0 : ¬ reachedEnd (exampleAccelWith (1 / 10) 2)
      (legendreState (exampleAccelWith (1 / 10) 2)) := by
    rintro ⟨-, h⟩
    rw [ee, hN, hd.1] at h
    norm_num [exampleAccelWith, exampleSourceMesh, exampleSquareMesh, abs_le] at h
  obtain ⟨s1, h1, -, m1, e0, ec, pe, pd⟩ := accel_late r (t := 199 / 100) (by rw [ht]; norm_num)
  have hm1 : meshMove (exampleAccelWith (1 / 10) 2)
      (legendreState (exampleAccelWith (1 / 10) 2)) (199 / 100) = some s1 := by
    rw [move_source_finite hx.cls rfl rfl m, if_neg n0, h1]
  have p4 : s1.edges 4 = 1 / 2 * (98 / 100 - 4 * (1 / 10)) * (199 / 100 - 1) ^ 2
      + 1 / 10 * (199 / 100 - 1) + (51 / 100 + 1 / 10) := by
    rw [pe, hc, edges02, hd.1, hd.2, ht]
    norm_num
  have n1 : reachedEnd (exampleAccelWith (1 / 10) 2) s1 := by
    refine ⟨rfl, Or.inr ?_⟩
    rw [hN, p4]
    norm_num [exampleAccelWith, exampleSourceMesh, exampleSquareMesh, abs_le]
  have hm2 := move_source_finite hx.cls rfl rfl (m1.trans m) (exampleAccelWith (1 / 10) 2).tfinal
  rw [if_pos n1] at hm2
  refine ⟨_, _, hx, ?_, ?_, { s1 with Dedges := fun k => s1.DedgesConst k * 0 }, ?_, ?_⟩
  · norm_num [exampleAccelWith, exampleSourceMesh, exampleSquareMesh]
  · norm_num [exampleAccelWith, exampleSourceMesh, exampleSquareMesh]
  · simp only [meshRun, hm1, hm2, Option.bind_some]
  · dsimp only
    rw [hN, p4]
    norm_num [exampleAccelWith, exampleSourceMesh, exampleSquareMesh, uniformGrid]

/-! ### Optically thick static square pulse -/

/-- C24 fails: the static mesh of an optically thick square pulse built from the wave position
(`move_func = 1`) has all edges at the origin, because `edges0` was never set. -/
theorem c24_thick_static_collapses {c : MeshConfig} (ht : c.thick = true) (hm : c.moving = false)
    (h0 : c.st 0 = 0) (h1 : c.st 1 = 1) (h3 : c.st 3 ≠ 1) (h5 : c.st 5 ≠ 1)
    (hf : c.finiteDomain = false) (hmf : c.moveFunc = 1) (hN : c.N ≠ 2) (h4 : 4 ∣ c.N) :
    ∃ s, meshInit c = some s ∧ ∀ k, s.edges k = 0 := by
  have hsz : (squareEdges c (c.waveLastR + c.pad)).size = c.N + 1 :=
    (c26_thin_square_edge_count_partial c _).mpr h4
  refine ⟨{ meshBlank c with edges := fun _ => 0, moving := false }, ?_, fun _ => rfl⟩
  have hz : ¬ c.allZero := not_allZero (i := 1) (by rw [h1]; decide)
  simp [meshInit, chooseInit, simpleThickSquareInit, finishInit, meshMove, meshBlank, ht, hm, h0,
    h1, h3, h5, hf, hmf, hN, hsz, reachedEnd]

/-- Two optically thick configurations that collapse. -/
example : ∃ s, meshInit { exampleSquareMesh with thick := true, moving := false, moveFunc := 1 }
    = some s ∧ ∀ k, s.edges k = 0 :=
  c24_thick_static_collapses rfl rfl rfl rfl (by decide) (by decide) rfl rfl (by decide)
    (by decide)

end Verif.Props
