import Verif.Lemmas.SlabBalance

/-!
Properties C06 - C09, C59, C60: numerical flux and slab streaming operator.
-/

namespace Verif.Props

open Polynomial Verif.Spec Verif.Model Verif.Lemmas

/-! ### C08: upwinding -/

/-- C08, slab, cells away from the outer boundary: the flux vector is the edge value of the test
function times the upwind flux built from the two one-sided values of the discrete field, with the
particle velocity taken relative to the moving edge.  It does not depend on what the shared flux
object computed before (`fs` is arbitrary). -/
theorem c08_slab_upwind (c : FluxConfig) (hg : c.geometry = .slab) (t : ℝ) (m : MeshView)
    (hm : ∀ k < c.Nspace, m.edges k < m.edges (k + 1)) (u : ℕ → ℕ → ℝ) (space : ℕ)
    (h0 : 0 < space) (h1 : space + 1 < c.Nspace) (mul : ℝ) (uRefl : ℕ → ℝ) (fs : FluxState)
    (i : ℕ) (hi : i ≤ c.M) :
    fluxLU c t m u space mul uRefl fs i =
      slabBasis i (m.edges (space + 1)) (m.edges space) (m.edges (space + 1)) *
        upwind (mul - m.Dedges (space + 1))
          (slabField c.M (u space) (m.edges space) (m.edges (space + 1)) (m.edges (space + 1)))
          (slabField c.M (u (space + 1)) (m.edges (space + 1)) (m.edges (space + 2))
            (m.edges (space + 1)))
      - slabBasis i (m.edges space) (m.edges space) (m.edges (space + 1)) *
        upwind (mul - m.Dedges space)
          (slabField c.M (u (space - 1)) (m.edges (space - 1)) (m.edges space) (m.edges space))
          (slabField c.M (u space) (m.edges space) (m.edges (space + 1)) (m.edges space)) := by
  rw [fluxLU_eq c t m u space mul uRefl fs (by omega) hm hi]
  unfold leftOuter rightOuter
  rw [if_pos (by omega), if_pos (by omega), hg]
  simp only [geomArea, geomBasis, geomField, one_mul]

/-- C08, sphere: same with the Chebyshev basis and the area factor `r²`. -/
theorem c08_sphere_upwind (c : FluxConfig) (hg : c.geometry = .sphere) (t : ℝ) (m : MeshView)
    (hm : ∀ k < c.Nspace, m.edges k < m.edges (k + 1)) (u : ℕ → ℕ → ℝ) (space : ℕ)
    (h0 : 0 < space) (h1 : space + 1 < c.Nspace) (mul : ℝ) (uRefl : ℕ → ℝ) (fs : FluxState)
    (i : ℕ) (hi : i ≤ c.M) :
    fluxLU c t m u space mul uRefl fs i =
      m.edges (space + 1) ^ 2 *
        sphereBasis i (m.edges (space + 1)) (m.edges space) (m.edges (space + 1)) *
        upwind (mul - m.Dedges (space + 1))
          (sphereField c.M (u space) (m.edges space) (m.edges (space + 1)) (m.edges (space + 1)))
          (sphereField c.M (u (space + 1)) (m.edges (space + 1)) (m.edges (space + 2))
            (m.edges (space + 1)))
      - m.edges space ^ 2 *
        sphereBasis i (m.edges space) (m.edges space) (m.edges (space + 1)) *
        upwind (mul - m.Dedges space)
          (sphereField c.M (u (space - 1)) (m.edges (space - 1)) (m.edges space) (m.edges space))
          (sphereField c.M (u space) (m.edges space) (m.edges (space + 1)) (m.edges space)) := by
  rw [fluxLU_eq c t m u space mul uRefl fs (by omega) hm hi]
  unfold leftOuter rightOuter
  rw [if_pos (by omega), if_pos (by omega), hg]
  simp only [geomArea, geomBasis, geomField]

/-- The meaning of the upwind flux: left state for positive, right state for negative relative
velocity, nothing at zero. -/
theorem c08_upwind_meaning (v l r : ℝ) :
    (0 < v → upwind v l r = v * l) ∧ (v < 0 → upwind v l r = v * r) ∧
      (v = 0 → upwind v l r = 0) := by
  unfold upwind
  refine ⟨fun h => ?_, fun h => ?_, fun h => ?_⟩
  · rw [max_eq_left h.le, min_eq_right h.le]; ring
  · rw [max_eq_right h.le, min_eq_left h.le]; ring
  · subst h; simp

/-! ### C09: vacuum boundaries -/

/-- When the boundary source counts as active at cell `space`: manufactured solution, or a
boundary source that is not treated as uncollided, is switched on at that side and has not
ended. -/
def BoundaryActive (c : FluxConfig) (left : Bool) (t : ℝ) : Prop :=
  c.mms = true ∨ c.thermalIsOne = true ∨
    (c.boundarySource = true ∧ c.uncollided = false ∧ t ≤ c.t0 ∧
      (if left then c.boundaryOnLeft else c.boundaryOnRight) = true)

theorem isBoundarySourceOn_left (c : FluxConfig) (t : ℝ) :
    isBoundarySourceOn c 0 t = true ↔ BoundaryActive c true t := by
  unfold isBoundarySourceOn BoundaryActive
  cases c.mms <;> cases c.thermalIsOne <;> cases c.boundarySource <;> cases c.uncollided <;> simp

theorem isBoundarySourceOn_right (c : FluxConfig) (t : ℝ) (h : 2 ≤ c.Nspace) :
    isBoundarySourceOn c (c.Nspace - 1) t = true ↔ BoundaryActive c false t := by
  unfold isBoundarySourceOn BoundaryActive
  have h1 : c.Nspace - 1 ≠ 0 := by omega
  have h2 : c.Nspace - 1 + 1 = c.Nspace := by omega
  cases c.mms <;> cases c.thermalIsOne <;> cases c.boundarySource <;> cases c.uncollided <;>
    simp [h1, h2]

/-- C09, left edge of the slab: without an active source the state coming from outside is zero. -/
theorem c09_slab_left_vacuum (c : FluxConfig) (hg : c.geometry = .slab) (t : ℝ) (m : MeshView)
    (hN : 2 ≤ c.Nspace) (hm : ∀ k < c.Nspace, m.edges k < m.edges (k + 1)) (u : ℕ → ℕ → ℝ)
    (mul : ℝ) (uRefl : ℕ → ℝ) (fs : FluxState) (hoff : ¬ BoundaryActive c true t)
    (i : ℕ) (hi : i ≤ c.M) :
    fluxLU c t m u 0 mul uRefl fs i =
      slabBasis i (m.edges 1) (m.edges 0) (m.edges 1) *
        upwind (mul - m.Dedges 1)
          (slabField c.M (u 0) (m.edges 0) (m.edges 1) (m.edges 1))
          (slabField c.M (u 1) (m.edges 1) (m.edges 2) (m.edges 1))
      - slabBasis i (m.edges 0) (m.edges 0) (m.edges 1) *
        upwind (mul - m.Dedges 0) 0
          (slabField c.M (u 0) (m.edges 0) (m.edges 1) (m.edges 0)) := by
  rw [fluxLU_eq c t m u 0 mul uRefl fs (by omega) hm hi]
  rw [← isBoundarySourceOn_left] at hoff
  have e1 : leftOuter c t m u 0 uRefl = 0 := by
    unfold leftOuter
    rw [if_neg (by omega), if_neg hoff, if_neg (by rw [hg]; decide)]
  have e2 : rightOuter c t m u 0 = slabField c.M (u 1) (m.edges 1) (m.edges 2) (m.edges 1) := by
    unfold rightOuter; rw [if_pos (by omega), hg]; rfl
  rw [e1, e2, hg]
  simp only [geomArea, geomBasis, geomField, one_mul, zero_add]

/-- C09, right edge, both geometries: without an active source the state coming from outside is
zero. -/
theorem c09_right_vacuum (c : FluxConfig) (t : ℝ) (m : MeshView) (hN : 2 ≤ c.Nspace)
    (hm : ∀ k < c.Nspace, m.edges k < m.edges (k + 1)) (u : ℕ → ℕ → ℝ)
    (mul : ℝ) (uRefl : ℕ → ℝ) (fs : FluxState) (hoff : ¬ BoundaryActive c false t)
    (hin : mul < m.Dedges c.Nspace) (i : ℕ) (hi : i ≤ c.M) :
    fluxLU c t m u (c.Nspace - 1) mul uRefl fs i =
      - geomArea c.geometry (m.edges (c.Nspace - 1)) *
        geomBasis c.geometry i (m.edges (c.Nspace - 1)) (m.edges (c.Nspace - 1))
          (m.edges c.Nspace) *
        upwind (mul - m.Dedges (c.Nspace - 1))
          (geomField c.geometry c.M (u (c.Nspace - 2)) (m.edges (c.Nspace - 2))
            (m.edges (c.Nspace - 1)) (m.edges (c.Nspace - 1)))
          (geomField c.geometry c.M (u (c.Nspace - 1)) (m.edges (c.Nspace - 1))
            (m.edges c.Nspace) (m.edges (c.Nspace - 1))) := by
  rw [fluxLU_eq c t m u _ mul uRefl fs (by omega) hm hi]
  rw [← isBoundarySourceOn_right c t hN] at hoff
  have h1 : c.Nspace - 1 + 1 = c.Nspace := by omega
  unfold leftOuter rightOuter
  rw [if_neg (by omega), if_neg hoff, if_pos (by omega), h1, Nat.sub_sub]
  rw [(c08_upwind_meaning (mul - m.Dedges c.Nspace) _ _).2.1 (by linarith)]
  ring

/-! ### C60: boundary sources -/

/-- C60, slab: an active boundary source of strength `s` puts the state `s` on the outer side of
the left edge, for every cell width and every quadrature rule that is exact up to order `M`. -/
theorem c60_slab_left_source_partial (c : FluxConfig) (hg : c.geometry = .slab) (hmms : c.mms = false)
    (hth : c.thermalIsOne = false) (hb : c.boundarySource = true) (hu : c.uncollided = false)
    (hon : c.boundaryOnLeft = true) (t : ℝ) (ht : t ≤ c.t0) (hq : QuadExact c.quad c.M)
    (m : MeshView) (hN : 2 ≤ c.Nspace) (hm : ∀ k < c.Nspace, m.edges k < m.edges (k + 1))
    (u : ℕ → ℕ → ℝ) (mul : ℝ) (uRefl : ℕ → ℝ) (fs : FluxState) (i : ℕ) (hi : i ≤ c.M) :
    fluxLU c t m u 0 mul uRefl fs i =
      slabBasis i (m.edges 1) (m.edges 0) (m.edges 1) *
        upwind (mul - m.Dedges 1)
          (slabField c.M (u 0) (m.edges 0) (m.edges 1) (m.edges 1))
          (slabField c.M (u 1) (m.edges 1) (m.edges 2) (m.edges 1))
      - slabBasis i (m.edges 0) (m.edges 0) (m.edges 1) *
        upwind (mul - m.Dedges 0) c.boundaryStrength
          (slabField c.M (u 0) (m.edges 0) (m.edges 1) (m.edges 0)) := by
  have hc := hm 0 (by omega)
  rw [fluxLU_eq c t m u 0 mul uRefl fs (by omega) hm hi]
  have hact : isBoundarySourceOn c 0 t = true :=
    (isBoundarySourceOn_left c t).2 (Or.inr (Or.inr ⟨hb, hu, ht, by simpa using hon⟩))
  have hv : ∀ x, bcFunc c x t = c.boundaryStrength := by
    intro x; unfold bcFunc; simp [hmms, hth, hb]
  rw [leftOuter_source c hg t _ m u uRefl hq hc hact hv]
  unfold rightOuter
  rw [if_pos (by omega), hg]
  simp only [geomArea, geomBasis, geomField, one_mul, zero_add]

/-- C60, slab, right edge. -/
theorem c60_slab_right_source_partial (c : FluxConfig) (hg : c.geometry = .slab) (hmms : c.mms = false)
    (hth : c.thermalIsOne = false) (hb : c.boundarySource = true) (hu : c.uncollided = false)
    (hon : c.boundaryOnRight = true) (t : ℝ) (ht : t ≤ c.t0) (hq : QuadExact c.quad c.M)
    (m : MeshView) (n : ℕ) (hN : c.Nspace = n + 2)
    (hm : ∀ k < c.Nspace, m.edges k < m.edges (k + 1))
    (u : ℕ → ℕ → ℝ) (mul : ℝ) (uRefl : ℕ → ℝ) (fs : FluxState) (i : ℕ) (hi : i ≤ c.M) :
    fluxLU c t m u (n + 1) mul uRefl fs i =
      slabBasis i (m.edges (n + 2)) (m.edges (n + 1)) (m.edges (n + 2)) *
        upwind (mul - m.Dedges (n + 2))
          (slabField c.M (u (n + 1)) (m.edges (n + 1)) (m.edges (n + 2)) (m.edges (n + 2)))
          c.boundaryStrength
      - slabBasis i (m.edges (n + 1)) (m.edges (n + 1)) (m.edges (n + 2)) *
        upwind (mul - m.Dedges (n + 1))
          (slabField c.M (u n) (m.edges n) (m.edges (n + 1)) (m.edges (n + 1)))
          (slabField c.M (u (n + 1)) (m.edges (n + 1)) (m.edges (n + 2)) (m.edges (n + 1))) := by
  have hc := hm (n + 1) (by omega)
  rw [fluxLU_eq c t m u (n + 1) mul uRefl fs (by omega) hm hi]
  have hact : isBoundarySourceOn c (n + 1) t = true := by
    have := (isBoundarySourceOn_right c t (by omega)).2
      (Or.inr (Or.inr ⟨hb, hu, ht, by simpa using hon⟩))
    rwa [hN] at this
  have hv : ∀ x, bcFunc c x t = c.boundaryStrength := by
    intro x; unfold bcFunc; simp [hmms, hth, hb]
  rw [rightOuter_source c hg t _ m u (n + 1) (by omega) hq hc hact hv]
  unfold leftOuter
  rw [if_pos (by omega), hg]
  simp only [geomArea, geomBasis, geomField, one_mul, Nat.add_sub_cancel]

/-! ### C06 and C59: uniform and polynomial fields on a moving mesh -/

/-- C59: if on a cell and its two neighbours the discrete field is one polynomial `p`, the
streaming, mesh-motion and flux terms give exactly the rate of change of the coefficients of the
polynomial advected with speed `mul`, for every motion of the cell edges. -/
theorem c59_polynomials_advected_exactly (c : FluxConfig) (hg : c.geometry = .slab) (t : ℝ)
    (m : MeshView) (hm : ∀ k < c.Nspace, m.edges k < m.edges (k + 1)) (u : ℕ → ℕ → ℝ)
    (space : ℕ) (h0 : 0 < space) (h1 : space + 1 < c.Nspace) (mul : ℝ) (uRefl : ℕ → ℝ)
    (fs : FluxState) (p : ℝ[X])
    (hp : ∀ k, space - 1 ≤ k → k ≤ space + 1 →
      ∀ x, slabField c.M (u k) (m.edges k) (m.edges (k + 1)) x = p.eval x)
    (a b : ℝ → ℝ) (ha : HasDerivAt a (m.Dedges space) t)
    (hb : HasDerivAt b (m.Dedges (space + 1)) t) (ha0 : a t = m.edges space)
    (hb0 : b t = m.edges (space + 1)) (i : ℕ) (hi : i ≤ c.M) :
    HasDerivAt (fun s => ∫ x in (a s)..(b s), p.eval (x - mul * (s - t)) *
        slabBasis i x (a s) (b s))
      (streamPart c t m u space mul uRefl fs i) t := by
  refine stream_of_outer c hg t m hm u space (by omega) mul uRefl fs p
    (hp space (by omega) (by omega)) ?_ ?_ a b ha hb ha0 hb0 i hi
  · have := hp (space - 1) (by omega) (by omega) (m.edges space)
    rw [Nat.sub_add_cancel (by omega)] at this
    unfold leftOuter
    rw [if_pos (by omega), hg]
    exact this
  · unfold rightOuter
    rw [if_pos (by omega), hg]
    exact hp (space + 1) (by omega) (by omega) _

/-- Coefficients of the constant field `v` on every cell of the mesh. -/
noncomputable def constantCoeffs (m : MeshView) (v : ℝ) (k j : ℕ) : ℝ :=
  if j = 0 then v * Real.sqrt (m.edges (k + 1) - m.edges k) else 0

/-- Sanity of the definition above: these coefficients expand to the constant `v`. -/
theorem constantCoeffs_field (M : ℕ) (m : MeshView) (v : ℝ) (k : ℕ)
    (h : m.edges k < m.edges (k + 1)) (x : ℝ) :
    slabField M (constantCoeffs m v k) (m.edges k) (m.edges (k + 1)) x = v :=
  constant_field M v h x

/-- C06: if the field is the constant `v` on the mesh, the streaming, mesh-motion and flux terms
change the coefficients of an interior cell exactly so that the field stays `v` while the cell
moves: coefficient `i` of the constant field `v` on the moving cell has this derivative. -/
theorem c06_uniform_field_preserved (c : FluxConfig) (hg : c.geometry = .slab) (t : ℝ)
    (m : MeshView) (hm : ∀ k < c.Nspace, m.edges k < m.edges (k + 1)) (v : ℝ)
    (space : ℕ) (h0 : 0 < space) (h1 : space + 1 < c.Nspace) (mul : ℝ) (uRefl : ℕ → ℝ)
    (fs : FluxState) (mesh : ℝ → MeshView) (hmesh : mesh t = m)
    (ha : HasDerivAt (fun s => (mesh s).edges space) (m.Dedges space) t)
    (hb : HasDerivAt (fun s => (mesh s).edges (space + 1)) (m.Dedges (space + 1)) t)
    (i : ℕ) (hi : i ≤ c.M) :
    HasDerivAt (fun s => constantCoeffs (mesh s) v space i)
      (streamPart c t m (constantCoeffs m v) space mul uRefl fs i) t := by
  have := c59_polynomials_advected_exactly c hg t m hm (constantCoeffs m v) space h0 h1 mul
    uRefl fs (C v) (fun k hk1 hk2 x => by
      rw [eval_C]; exact constantCoeffs_field c.M m v k (hm k (by omega)) x) _ _ ha hb
      (by rw [hmesh]) (by rw [hmesh]) i hi
  have hlt : ∀ᶠ s in nhds t, (mesh s).edges space < (mesh s).edges (space + 1) :=
    ha.continuousAt.eventually_lt hb.continuousAt (by rw [hmesh]; exact hm space (by omega))
  refine this.congr_of_eventuallyEq (hlt.mono fun s hs => ?_)
  simp only [eval_C]
  rw [constant_projection v i hs]
  rfl

/-- C06, all cells: with boundary sources of strength `v` on both sides the uniform field `v` is
preserved on the whole moving mesh. -/
theorem c06_uniform_field_preserved_whole_mesh (c : FluxConfig) (hg : c.geometry = .slab)
    (hmms : c.mms = false) (hth : c.thermalIsOne = false) (hbs : c.boundarySource = true)
    (hu : c.uncollided = false) (honl : c.boundaryOnLeft = true) (honr : c.boundaryOnRight = true)
    (hq : QuadExact c.quad c.M) (hN : 2 ≤ c.Nspace) (t : ℝ) (ht : t ≤ c.t0)
    (m : MeshView) (hm : ∀ k < c.Nspace, m.edges k < m.edges (k + 1))
    (space : ℕ) (h1 : space < c.Nspace) (mul : ℝ) (uRefl : ℕ → ℝ)
    (fs : FluxState) (mesh : ℝ → MeshView) (hmesh : mesh t = m)
    (ha : HasDerivAt (fun s => (mesh s).edges space) (m.Dedges space) t)
    (hb : HasDerivAt (fun s => (mesh s).edges (space + 1)) (m.Dedges (space + 1)) t)
    (i : ℕ) (hi : i ≤ c.M) :
    HasDerivAt (fun s => constantCoeffs (mesh s) c.boundaryStrength space i)
      (streamPart c t m (constantCoeffs m c.boundaryStrength) space mul uRefl fs i) t := by
  have hv : ∀ x, bcFunc c x t = c.boundaryStrength := by
    intro x; unfold bcFunc; simp [hmms, hth, hbs]
  have hcell : ∀ k < c.Nspace, ∀ x, slabField c.M (constantCoeffs m c.boundaryStrength k)
      (m.edges k) (m.edges (k + 1)) x = c.boundaryStrength := fun k hk x =>
    constantCoeffs_field c.M m _ k (hm k hk) x
  have := stream_of_outer c hg t m hm (constantCoeffs m c.boundaryStrength) space h1 mul uRefl fs
    (C c.boundaryStrength) (fun x => by rw [eval_C, hcell space h1]) (by
      rw [eval_C]
      rcases Nat.eq_zero_or_pos space with h0 | h0
      · subst h0
        exact leftOuter_source c hg t _ m _ uRefl hq (hm 0 h1)
          ((isBoundarySourceOn_left c t).2 (Or.inr (Or.inr ⟨hbs, hu, ht, by simpa using honl⟩))) hv
      · have := hcell (space - 1) (by omega) (m.edges space)
        rw [Nat.sub_add_cancel (by omega)] at this
        unfold leftOuter
        rw [if_pos (by omega), hg]
        exact this) (by
      rw [eval_C]
      by_cases h0 : space + 1 = c.Nspace
      · have hact := (isBoundarySourceOn_right c t hN).2
          (Or.inr (Or.inr ⟨hbs, hu, ht, by simpa using honr⟩))
        rw [← h0, Nat.add_sub_cancel] at hact
        exact rightOuter_source c hg t _ m _ space h0 hq (hm space h1) hact hv
      · unfold rightOuter
        rw [if_pos h0, hg]
        exact hcell (space + 1) (by omega) _) _ _ ha hb (by rw [hmesh]) (by rw [hmesh]) i hi
  have hlt : ∀ᶠ s in nhds t, (mesh s).edges space < (mesh s).edges (space + 1) :=
    ha.continuousAt.eventually_lt hb.continuousAt (by rw [hmesh]; exact hm space h1)
  refine this.congr_of_eventuallyEq (hlt.mono fun s hs => ?_)
  simp only [eval_C]
  rw [constant_projection _ i hs]
  rfl

/-! ### C07: conservation -/

/-- General form of C07, outer states as the code computes them: let mesh edges and coefficients evolve in time, the coefficients at time `t` with the
rates given by the streaming, mesh-motion and flux terms.  Then the total particle content of the
mesh changes only by the flux through the two outer edges. -/
theorem transport_balance (c : FluxConfig) (hg : c.geometry = .slab) (t : ℝ)
    (hN : 1 ≤ c.Nspace) (mesh : ℝ → MeshView) (u : ℝ → ℕ → ℕ → ℝ) (mul : ℝ) (uRefl : ℕ → ℝ)
    (fs : FluxState)
    (hm : ∀ k < c.Nspace, (mesh t).edges k < (mesh t).edges (k + 1))
    (hedge : ∀ k ≤ c.Nspace, HasDerivAt (fun s => (mesh s).edges k) ((mesh t).Dedges k) t)
    (hrate : ∀ k < c.Nspace,
      HasDerivAt (fun s => u s k 0) (streamPart c t (mesh t) (u t) k mul uRefl fs 0) t) :
    HasDerivAt
      (fun s => ∑ k ∈ Finset.range c.Nspace,
        slabContent c.M (u s k) ((mesh s).edges k) ((mesh s).edges (k + 1)))
      (inflowLeft c t (mesh t) (u t) mul uRefl - outflowRight c t (mesh t) (u t) mul) t := by
  rw [← balance_sum c hg t (mesh t) hN (u t) mul uRefl]
  refine HasDerivAt.fun_sum fun k hk => ?_
  have hk' : k < c.Nspace := by simpa using hk
  have hpos : 0 < (mesh t).edges (k + 1) - (mesh t).edges k := by linarith [hm k hk']
  have h1 := (hedge (k + 1) (by omega)).sub (hedge k (by omega))
  have h2 := (h1.sqrt hpos.ne').mul (hrate k hk')
  have hlt : ∀ᶠ s in nhds t, (mesh s).edges k < (mesh s).edges (k + 1) :=
    (hedge k (by omega)).continuousAt.eventually_lt (hedge (k + 1) (by omega)).continuousAt
      (hm k hk')
  have h3 := h2.congr_of_eventuallyEq (f₁ := fun s =>
      slabContent c.M (u s k) ((mesh s).edges k) ((mesh s).edges (k + 1)))
    (hlt.mono fun s hs => slabContent_eq c.M (u s k) hs)
  refine h3.congr_deriv ?_
  rw [← cell_balance c hg t (mesh t) hm (u t) k hk' mul uRefl fs]
  simp only [Pi.sub_apply]
  ring

/-- C07: let mesh edges and coefficients evolve in time, the coefficients at time `t` with the
rates given by the streaming, mesh-motion and flux terms, and let no boundary source be active.
Then the total particle content of the mesh changes only by what leaves through the two outer
edges, whatever the state, the edge motion and the order. -/
theorem c07_transport_conserves (c : FluxConfig) (hg : c.geometry = .slab) (t : ℝ)
    (hN : 2 ≤ c.Nspace) (hl : ¬ BoundaryActive c true t) (hr : ¬ BoundaryActive c false t)
    (mesh : ℝ → MeshView) (u : ℝ → ℕ → ℕ → ℝ) (mul : ℝ) (uRefl : ℕ → ℝ) (fs : FluxState)
    (hm : ∀ k < c.Nspace, (mesh t).edges k < (mesh t).edges (k + 1))
    (hedge : ∀ k ≤ c.Nspace, HasDerivAt (fun s => (mesh s).edges k) ((mesh t).Dedges k) t)
    (hrate : ∀ k < c.Nspace,
      HasDerivAt (fun s => u s k 0) (streamPart c t (mesh t) (u t) k mul uRefl fs 0) t) :
    HasDerivAt
      (fun s => ∑ k ∈ Finset.range c.Nspace,
        slabContent c.M (u s k) ((mesh s).edges k) ((mesh s).edges (k + 1)))
      (upwind (mul - (mesh t).Dedges 0) 0
          (slabField c.M (u t 0) ((mesh t).edges 0) ((mesh t).edges 1) ((mesh t).edges 0))
        - upwind (mul - (mesh t).Dedges c.Nspace)
          (slabField c.M (u t (c.Nspace - 1)) ((mesh t).edges (c.Nspace - 1))
            ((mesh t).edges c.Nspace) ((mesh t).edges c.Nspace)) 0) t := by
  have := transport_balance c hg t (by omega) mesh u mul uRefl fs hm hedge hrate
  rw [← isBoundarySourceOn_left] at hl
  rw [← isBoundarySourceOn_right c t hN] at hr
  have e1 : leftOuter c t (mesh t) (u t) 0 uRefl = 0 := by
    unfold leftOuter
    rw [if_neg (by omega), if_neg hl, if_neg (by rw [hg]; decide)]
  have e2 : rightOuter c t (mesh t) (u t) (c.Nspace - 1) = 0 := by
    unfold rightOuter
    rw [if_neg (by omega), if_neg hr]
  unfold inflowLeft outflowRight at this
  rwa [e1, e2] at this

/-- The reflected state is not read in slab geometry (the older right-hand side does not pass
it). -/
theorem slab_flux_ignores_reflection (c : FluxConfig) (hg : c.geometry = .slab) (t : ℝ)
    (m : MeshView) (u : ℕ → ℕ → ℝ) (space : ℕ) (mul : ℝ) (r r' : ℕ → ℝ) (fs : FluxState) :
    fluxLU c t m u space mul r fs = fluxLU c t m u space mul r' fs := by
  have h : ∀ s : FluxState, v0Term c m s space u t r = v0Term c m s space u t r' := by
    intro s; funext j; unfold v0Term
    have : ¬ c.geometry = Geometry.sphere := by rw [hg]; decide
    rw [if_neg this, if_neg this]
  unfold fluxLU makeLU makeSol
  simp only [h]

/-! ### Concrete instances -/

/-- A slab configuration with three cells, order one, vacuum boundaries. -/
noncomputable def exampleConfig : FluxConfig where
  M := 1
  Nspace := 3
  mms := false
  thermalIsOne := false
  moving := true
  eInit := 0
  boundarySource := false
  boundaryOnLeft := false
  boundaryOnRight := false
  boundaryStrength := 0
  uncollided := false
  t0 := 1
  geometry := .slab
  quad := [(0, 2)]

/-- Same with a boundary source of strength 5 on both sides. -/
noncomputable def exampleSourceConfig : FluxConfig :=
  { exampleConfig with
    boundarySource := true, boundaryOnLeft := true, boundaryOnRight := true, boundaryStrength := 5 }

/-- Edges `-3/2 + k`, all moving apart: velocity `k - 3/2`. -/
noncomputable def exampleMesh (t : ℝ) : MeshView where
  edges := fun k => (1 + t) * ((k : ℝ) - 3 / 2)
  Dedges := fun k => (k : ℝ) - 3 / 2

theorem exampleMesh_ordered (k : ℕ) : (exampleMesh 0).edges k < (exampleMesh 0).edges (k + 1) := by
  simp only [exampleMesh]; push_cast; linarith

theorem exampleMesh_deriv (k : ℕ) :
    HasDerivAt (fun s => (exampleMesh s).edges k) ((exampleMesh 0).Dedges k) 0 := by
  simp only [exampleMesh]
  simpa using ((hasDerivAt_id (0 : ℝ)).const_add 1).mul_const ((k : ℝ) - 3 / 2)

theorem example_not_active (left : Bool) : ¬ BoundaryActive exampleConfig left 0 := by
  unfold BoundaryActive; simp [exampleConfig]

/-- The midpoint rule is exact up to degree one. -/
theorem example_quad : QuadExact [((0 : ℝ), (2 : ℝ))] 1 := by
  intro p hp
  rw [Polynomial.eq_X_add_C_of_natDegree_le_one hp]
  have : ∫ x in (-1 : ℝ)..1, (C (p.coeff 1) * X + C (p.coeff 0)).eval x = 2 * p.coeff 0 := by
    have h := I_add (C (p.coeff 1) * X) (C (p.coeff 0))
    have h1 : I (C (p.coeff 1) * X) = 0 := by
      rw [I_C_mul]; unfold I; simp
    have h2 : I (C (p.coeff 0)) = 2 * p.coeff 0 := by
      unfold I; simp only [eval_C, intervalIntegral.integral_const, smul_eq_mul]; ring
    rw [h1, h2, zero_add] at h
    exact h
  rw [this]; simp

example (u : ℕ → ℕ → ℝ) (fs : FluxState) :=
  c08_slab_upwind exampleConfig rfl 0 (exampleMesh 0) (fun k _ => exampleMesh_ordered k) u 1
    (by decide) (by decide) (1 / 2) (fun _ => 0) fs 1 le_rfl

example (u : ℕ → ℕ → ℝ) (fs : FluxState) :=
  c08_sphere_upwind { exampleConfig with geometry := .sphere } rfl 0 (exampleMesh 0)
    (fun k _ => exampleMesh_ordered k) u 1 (by show 0 < 1; decide) (by show 1 + 1 < 3; decide)
    (1 / 2) (fun _ => 0) fs 1 le_rfl

example (u : ℕ → ℕ → ℝ) (fs : FluxState) :=
  c09_slab_left_vacuum exampleConfig rfl 0 (exampleMesh 0) (by decide)
    (fun k _ => exampleMesh_ordered k) u (1 / 2) (fun _ => 0) fs (example_not_active true) 1 le_rfl

example (u : ℕ → ℕ → ℝ) (fs : FluxState) :=
  c09_right_vacuum exampleConfig 0 (exampleMesh 0) (by decide)
    (fun k _ => exampleMesh_ordered k) u (-1 / 2) (fun _ => 0) fs (example_not_active false)
    (by simp only [exampleMesh, exampleConfig]; norm_num) 1 le_rfl

example (u : ℕ → ℕ → ℝ) (fs : FluxState) :=
  c60_slab_left_source_partial exampleSourceConfig rfl rfl rfl rfl rfl rfl 0
    (by show (0 : ℝ) ≤ 1; norm_num) example_quad (exampleMesh 0) (by show 2 ≤ 3; decide)
    (fun k _ => exampleMesh_ordered k) u (1 / 2) (fun _ => 0) fs 1 le_rfl

example (u : ℕ → ℕ → ℝ) (fs : FluxState) :=
  c60_slab_right_source_partial exampleSourceConfig rfl rfl rfl rfl rfl rfl 0
    (by show (0 : ℝ) ≤ 1; norm_num) example_quad (exampleMesh 0) 1 rfl
    (fun k _ => exampleMesh_ordered k) u (1 / 2) (fun _ => 0) fs 1 le_rfl

/-- Instance of C59 with a field that is the linear function `x` on the whole mesh (cells of
width one). -/
example (fs : FluxState) :
    HasDerivAt (fun s => ∫ x in ((exampleMesh s).edges 1)..((exampleMesh s).edges 2),
        (X : ℝ[X]).eval (x - 1 / 2 * (s - 0)) *
          slabBasis 1 x ((exampleMesh s).edges 1) ((exampleMesh s).edges 2))
      (streamPart exampleConfig 0 (exampleMesh 0)
        (fun k j => if j = 0 then (k : ℝ) - 1 else 1 / (2 * Real.sqrt 3)) 1 (1 / 2) (fun _ => 0)
        fs 1) 0 := by
  refine c59_polynomials_advected_exactly exampleConfig rfl 0 (exampleMesh 0)
    (fun k _ => exampleMesh_ordered k) _ 1 (by decide) (by decide) (1 / 2) (fun _ => 0) fs X ?_ _ _
    (exampleMesh_deriv 1) (exampleMesh_deriv 2) rfl rfl 1 le_rfl
  intro k _ _ x
  have h3 : Real.sqrt 3 ≠ 0 := by positivity
  simp only [slabField, exampleConfig, exampleMesh, slabBasis, ref, Finset.sum_range_succ,
    Finset.sum_range_zero, legendre_zero, legendre_one, eval_one, eval_X]
  have e : (1 + (0 : ℝ)) * (((k + 1 : ℕ) : ℝ) - 3 / 2) - (1 + 0) * ((k : ℝ) - 3 / 2) = 1 := by
    push_cast; ring
  rw [e]
  norm_num
  field_simp
  ring

example (v : ℝ) (fs : FluxState) :=
  c06_uniform_field_preserved exampleConfig rfl 0 (exampleMesh 0)
    (fun k _ => exampleMesh_ordered k) v 1 (by decide) (by decide) (1 / 2) (fun _ => 0) fs
    exampleMesh rfl (exampleMesh_deriv 1) (exampleMesh_deriv 2) 1 le_rfl

example (fs : FluxState) :=
  c06_uniform_field_preserved_whole_mesh exampleSourceConfig rfl rfl rfl rfl rfl rfl rfl
    example_quad (by show 2 ≤ 3; decide) 0 (by show (0 : ℝ) ≤ 1; norm_num) (exampleMesh 0)
    (fun k _ => exampleMesh_ordered k) 0 (by show 0 < 3; decide) (1 / 2) (fun _ => 0) fs
    exampleMesh rfl (exampleMesh_deriv 0) (exampleMesh_deriv 1) 1 le_rfl

/-- Instance of C07: coefficients that start anywhere and move with the computed rates. -/
example (u0 : ℕ → ℕ → ℝ) (fs : FluxState) :=
  c07_transport_conserves exampleConfig rfl 0 (by decide) (example_not_active true)
    (example_not_active false) exampleMesh
    (fun s k j => u0 k j +
      s * streamPart exampleConfig 0 (exampleMesh 0) u0 k (1 / 2) (fun _ => 0) fs j)
    (1 / 2) (fun _ => 0) fs (fun k _ => exampleMesh_ordered k) (fun k _ => exampleMesh_deriv k)
    (fun k _ => by
      simp only [zero_mul, add_zero]
      simpa using ((hasDerivAt_id (0 : ℝ)).mul_const
        (streamPart exampleConfig 0 (exampleMesh 0) u0 k (1 / 2) (fun _ => 0) fs 0)).const_add
          (u0 k 0))

end Verif.Props
