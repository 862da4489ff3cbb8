import Verif.Props.SlabTransport
import Verif.Props.SlabCollision
import Verif.Props.Angular
import Verif.Lemmas.ActiveRhs
import Mathlib.Analysis.SpecialFunctions.ExpDeriv

/-!
Properties C13, C19, C60 (sphere) and C62: the right-hand side that `solve` integrates.
-/

namespace Verif.Props

open Polynomial Verif.Spec Verif.Model Verif.Lemmas

/-! ### C13: the slab branch -/

/-- C13 is false: in slab geometry, whatever the source, mesh and cross sections, the value handed
to the integrator is the state itself (or the evaluation fails because the direction set is not
accepted). -/
theorem c13_slab_returns_input (p : RhsParams) (c : FluxConfig) (hg : c.geometry = .slab) (t : ℝ)
    (m : MeshView) (mats : ℕ → CellMats) (S : ℕ → ℕ → ℝ) (fs : FluxState)
    (V R : ℕ → ℕ → ℕ → ℝ) (h : activeCall p c t m mats S fs V = some R) : R = V := by
  unfold activeCall at h
  split_ifs at h
  rw [hg] at h
  exact (Option.some_inj.1 h).symm

/-- Two opposite directions pass the checks. -/
theorem centreChecks_pair (x : ℝ) (hx : 0 < x) :
    centreChecks 2 (fun k => if k = 0 then -x else x) := by
  intro angle h1 h2
  have : angle = 1 := by omega
  subst this
  norm_num [hx]

/-- C13 is false, witness: slab, order 1, three cells, two directions, zero state, unit source.
The transport operator gives a growing flux, the active right-hand side gives zero. -/
theorem c13_slab_not_transport :
    ∃ (p : RhsParams) (c : FluxConfig) (m : MeshView) (S : ℕ → ℕ → ℝ)
      (V R : ℕ → ℕ → ℕ → ℝ), c.geometry = .slab ∧
      (∀ k < c.Nspace, m.edges k < m.edges (k + 1)) ∧
      (∀ (mats : ℕ → CellMats) (fs : FluxState),
        activeCall p c 0 m mats S fs V = some R) ∧
      ∀ (uRefl : ℕ → ℝ) (fs : FluxState), ∃ angle < p.Nang, ∃ space < c.Nspace, ∃ i ≤ c.M,
        R angle space i ≠ slabConstantRhs p c 0 m S uRefl fs V angle space i := by
  refine ⟨{ Nang := 2, mus := fun k => if k = 0 then -(1 / 2) else 1 / 2, ws := fun _ => 1 / 2,
            c := 1, ca := 0, l := 1 }, exampleConfig, exampleMesh 0, fun _ _ => 1,
    fun _ _ _ => 0, fun _ _ _ => 0, rfl, fun k _ => exampleMesh_ordered k, ?_, ?_⟩
  · intro mats fs
    unfold activeCall
    rw [if_neg (fun h => h.2 (centreChecks_pair (1 / 2) (by norm_num)))]
    rfl
  · intro uRefl fs
    refine ⟨0, by decide, 1, by decide, 1, by decide, ?_⟩
    unfold slabConstantRhs streamPart
    rw [fluxLU_eq exampleConfig 0 (exampleMesh 0) _ 1 _ uRefl fs (by decide)
      (fun k _ => exampleMesh_ordered k) (by decide)]
    have e1 : leftOuter exampleConfig 0 (exampleMesh 0) (fun _ _ => 0) 1 uRefl = 0 := by
      unfold leftOuter; rw [if_pos (by decide), geomField_eq]; simp
    have e2 : rightOuter exampleConfig 0 (exampleMesh 0) (fun _ _ => 0) 1 = 0 := by
      unfold rightOuter; rw [if_pos (by decide), geomField_eq]; simp
    simp only [e1, e2, geomField_eq, matVec, makeP, upwind]
    norm_num

/-- Consequence of C13 for users: a slab computation makes every coefficient grow like `exp t`,
independently of the physics. -/
theorem c13_slab_solution_grows (p : RhsParams) (c : FluxConfig) (hg : c.geometry = .slab)
    (m : ℝ → MeshView) (mats : ℝ → ℕ → CellMats) (S : ℝ → ℕ → ℕ → ℝ) (fs : ℝ → FluxState)
    (V R : ℝ → ℕ → ℕ → ℕ → ℝ)
    (hR : ∀ t, activeCall p c t (m t) (mats t) (S t) (fs t) (V t) = some (R t))
    (hV : ∀ t angle space i, HasDerivAt (fun s => V s angle space i) (R t angle space i) t)
    (t : ℝ) (angle space i : ℕ) :
    V t angle space i = V 0 angle space i * Real.exp t := by
  have hd : ∀ s, HasDerivAt (fun s => V s angle space i * Real.exp (-s)) 0 s := by
    intro s
    have h1 := hV s angle space i
    rw [c13_slab_returns_input p c hg s (m s) (mats s) (S s) (fs s) (V s) (R s) (hR s)] at h1
    have h2 : HasDerivAt (fun s : ℝ => Real.exp (-s)) (-Real.exp (-s)) s := by
      simpa using (hasDerivAt_id s).neg.exp
    refine (h1.mul h2).congr_deriv ?_
    ring
  have hc := is_const_of_deriv_eq_zero (fun s => (hd s).differentiableAt)
    (fun s => (hd s).deriv) t 0
  simp only [neg_zero, Real.exp_zero, mul_one] at hc
  rw [← hc, mul_assoc, ← Real.exp_add]
  simp

/-! ### C19: reflecting centre -/

/-- C19: in sphere geometry without an active source at the centre, the flux of the innermost cell
for a direction in the upper half of the set takes its inflow from the mirrored row of the state. -/
theorem c19_centre_inflow (p : RhsParams) (c : FluxConfig) (hg : c.geometry = .sphere) (t : ℝ)
    (m : MeshView) (hN : 2 ≤ c.Nspace) (hm : ∀ k < c.Nspace, m.edges k < m.edges (k + 1))
    (hoff : ¬ BoundaryActive c true t) (V : ℕ → ℕ → ℕ → ℝ) (fs : FluxState) (angle : ℕ)
    (hang : p.Nang ≤ 2 * angle) (i : ℕ) (hi : i ≤ c.M) :
    fluxLU c t m (V angle) 0 (p.mus angle) (V (reflIndex p.Nang angle 0) 0) fs i =
      m.edges 1 ^ 2 * sphereBasis i (m.edges 1) (m.edges 0) (m.edges 1) *
        upwind (p.mus angle - m.Dedges 1)
          (sphereField c.M (V angle 0) (m.edges 0) (m.edges 1) (m.edges 1))
          (sphereField c.M (V angle 1) (m.edges 1) (m.edges 2) (m.edges 1))
      - m.edges 0 ^ 2 * sphereBasis i (m.edges 0) (m.edges 0) (m.edges 1) *
        upwind (p.mus angle - m.Dedges 0)
          (sphereField c.M (V (p.Nang - angle - 1) 0) (m.edges 0) (m.edges 1) (m.edges 0))
          (sphereField c.M (V angle 0) (m.edges 0) (m.edges 1) (m.edges 0)) := by
  rw [fluxLU_eq c t m (V angle) 0 (p.mus angle) _ fs (by omega) hm hi]
  rw [← isBoundarySourceOn_left] at hoff
  have er : reflIndex p.Nang angle 0 = p.Nang - angle - 1 := if_pos ⟨rfl, hang⟩
  have e1 : leftOuter c t m (V angle) 0 (V (reflIndex p.Nang angle 0) 0) =
      sphereField c.M (V (p.Nang - angle - 1) 0) (m.edges 0) (m.edges 1) (m.edges 0) := by
    unfold leftOuter
    rw [if_neg (by omega), if_neg hoff, if_pos hg, er, hg]
    rfl
  have e2 : rightOuter c t m (V angle) 0 =
      sphereField c.M (V angle 1) (m.edges 1) (m.edges 2) (m.edges 1) := by
    unfold rightOuter; rw [if_pos (by omega), hg]; rfl
  rw [e1, e2, hg]
  simp only [geomArea, geomBasis, geomField, zero_add]

/-- C19: if an evaluation succeeds, the row used for an upper half direction exists and belongs to
the opposite cosine up to `1e-10`, and that direction is outgoing. -/
theorem c19_mirrored_direction (p : RhsParams) (c : FluxConfig) (t : ℝ) (m : MeshView)
    (mats : ℕ → CellMats) (S : ℕ → ℕ → ℝ) (fs : FluxState) (V R : ℕ → ℕ → ℕ → ℝ)
    (hN : 0 < c.Nspace) (h : activeCall p c t m mats S fs V = some R) (angle : ℕ)
    (h1 : angle < p.Nang) (h2 : p.Nang ≤ 2 * angle) :
    reflIndex p.Nang angle 0 < p.Nang ∧ 0 < p.mus angle ∧
      |p.mus (reflIndex p.Nang angle 0) + p.mus angle| ≤ 1 / 10 ^ 10 := by
  unfold activeCall at h
  split_ifs at h with hc
  have hc' : centreChecks p.Nang p.mus := by
    by_contra hn; exact hc ⟨hN, hn⟩
  have er : reflIndex p.Nang angle 0 = p.Nang - angle - 1 := if_pos ⟨rfl, h2⟩
  rw [er]
  obtain ⟨h3, h4⟩ := hc' angle h1 h2
  refine ⟨by omega, h3, ?_⟩
  rwa [sub_neg_eq_add] at h4

/-- C19: for an even number of directions, a set with a direction that has no mirror image (up to
`1e-10`) is rejected, in both geometries. -/
theorem c19_even_asymmetric_rejected_partial (p : RhsParams) (c : FluxConfig) (t : ℝ) (m : MeshView)
    (mats : ℕ → CellMats) (S : ℕ → ℕ → ℝ) (fs : FluxState) (V : ℕ → ℕ → ℕ → ℝ)
    (hN : 0 < c.Nspace) (heven : p.Nang % 2 = 0) (angle : ℕ) (h1 : angle < p.Nang)
    (h2 : 1 / 10 ^ 10 < |p.mus (p.Nang - angle - 1) + p.mus angle|) :
    activeCall p c t m mats S fs V = none := by
  have hn : ¬ centreChecks p.Nang p.mus := by
    intro hc
    by_cases h : p.Nang ≤ 2 * angle
    · have := (hc angle h1 h).2
      rw [sub_neg_eq_add] at this
      linarith
    · have := (hc (p.Nang - angle - 1) (by omega) (by omega)).2
      rw [sub_neg_eq_add, show p.Nang - (p.Nang - angle - 1) - 1 = angle by omega,
        add_comm] at this
      linarith
  unfold activeCall
  rw [if_pos ⟨hN, hn⟩]

/-- C19 is false for odd sets: the middle direction is not checked.  With the cosines
`-1/2, 3/10, 1/2` the evaluation succeeds, and the outgoing direction `3/10` is reflected from the
direction `-1/2`. -/
theorem c19_odd_asymmetric_accepted :
    ∃ p : RhsParams, p.Nang = 3 ∧ centreChecks p.Nang p.mus ∧ 0 < p.mus 1 ∧
      1 / 10 < |p.mus (reflIndex p.Nang 1 0) + p.mus 1| := by
  refine ⟨{ Nang := 3, mus := fun k => if k = 0 then -(1 / 2) else if k = 1 then 3 / 10 else 1 / 2,
            ws := fun _ => 1 / 3, c := 1, ca := 0, l := 1 }, rfl, ?_, ?_, ?_⟩
  · intro angle h1 h2
    have h1' : angle < 3 := h1
    have h2' : 3 ≤ 2 * angle := h2
    have : angle = 2 := by omega
    subst this
    norm_num
  · norm_num
  · have : reflIndex 3 1 0 = 0 := by decide
    show 1 / 10 < |(fun k : ℕ => if k = 0 then -(1 / 2 : ℝ) else if k = 1 then 3 / 10 else 1 / 2)
      (reflIndex 3 1 0) + 3 / 10|
    rw [this]
    norm_num

/-! ### C60, sphere: a boundary source is not injected with its strength -/

/-- C60 is false in sphere geometry: the state used for the inflow through the outer surface is the
strength divided by `√π`. -/
theorem c60_sphere_right_source (c : FluxConfig) (hg : c.geometry = .sphere) (hmms : c.mms = false)
    (hth : c.thermalIsOne = false) (hb : c.boundarySource = true) (hu : c.uncollided = false)
    (hon : c.boundaryOnRight = true) (t : ℝ) (ht : t ≤ c.t0) (hq : QuadExact c.quad c.M)
    (m : MeshView) (n : ℕ) (hN : c.Nspace = n + 2)
    (hm : ∀ k < c.Nspace, m.edges k < m.edges (k + 1))
    (u : ℕ → ℕ → ℝ) (mul : ℝ) (uRefl : ℕ → ℝ) (fs : FluxState) (i : ℕ) (hi : i ≤ c.M) :
    fluxLU c t m u (n + 1) mul uRefl fs i =
      m.edges (n + 2) ^ 2 * sphereBasis i (m.edges (n + 2)) (m.edges (n + 1)) (m.edges (n + 2)) *
        upwind (mul - m.Dedges (n + 2))
          (sphereField c.M (u (n + 1)) (m.edges (n + 1)) (m.edges (n + 2)) (m.edges (n + 2)))
          (c.boundaryStrength / Real.sqrt Real.pi)
      - m.edges (n + 1) ^ 2 *
        sphereBasis i (m.edges (n + 1)) (m.edges (n + 1)) (m.edges (n + 2)) *
        upwind (mul - m.Dedges (n + 1))
          (sphereField c.M (u n) (m.edges n) (m.edges (n + 1)) (m.edges (n + 1)))
          (sphereField c.M (u (n + 1)) (m.edges (n + 1)) (m.edges (n + 2))
            (m.edges (n + 1))) := by
  have hc := hm (n + 1) (by omega)
  rw [fluxLU_eq c t m u (n + 1) mul uRefl fs (by omega) hm hi]
  have hact : isBoundarySourceOn c (n + 1) t = true := by
    have := (isBoundarySourceOn_right c t (by omega)).2
      (Or.inr (Or.inr ⟨hb, hu, ht, by simpa using hon⟩))
    rwa [hN] at this
  have hv : ∀ x, bcFunc c x t = c.boundaryStrength := by
    intro x; unfold bcFunc; simp [hmms, hth, hb]
  have er : rightOuter c t m u (n + 1) = c.boundaryStrength / Real.sqrt Real.pi := by
    have hpos : 0 < m.edges (n + 2) - m.edges (n + 1) := by
      have : m.edges (n + 1) < m.edges (n + 2) := hc
      linarith
    unfold rightOuter
    rw [if_neg (by omega), if_pos hact, hg, hN]
    have e : ∀ j ∈ Finset.range (c.M + 1),
        fluxIntegrateQuad c t (m.edges (n + 2))
          (m.edges (n + 2) + (m.edges (n + 2) - m.edges (n + 1))) j *
        geomBasis Geometry.sphere j (m.edges (n + 1)) (m.edges (n + 1)) (m.edges (n + 2)) =
        if j = 0 then c.boundaryStrength / Real.sqrt Real.pi else 0 := by
      intro j hj
      rw [fluxIntegrateQuad_const c hq t (by linarith) hv (by simpa [Nat.lt_succ_iff] using hj)]
      split_ifs with h0
      · subst h0
        have e1 : m.edges (n + 2) + (m.edges (n + 2) - m.edges (n + 1)) - m.edges (n + 2) =
          m.edges (n + 2) - m.edges (n + 1) := by ring
        have h4 : Real.sqrt (m.edges (n + 2) - m.edges (n + 1)) ≠ 0 := (Real.sqrt_pos.2 hpos).ne'
        have h5 : Real.sqrt Real.pi ≠ 0 := (Real.sqrt_pos.2 Real.pi_pos).ne'
        rw [e1]
        simp only [geomBasis, sphereBasis_zero]
        rw [Real.sqrt_mul Real.pi_pos.le]
        field_simp
      · ring
    rw [Finset.sum_congr rfl e, Finset.sum_ite_eq']
    simp
  have el : leftOuter c t m u (n + 1) uRefl =
      sphereField c.M (u n) (m.edges n) (m.edges (n + 1)) (m.edges (n + 1)) := by
    unfold leftOuter; rw [if_pos (by omega), hg]; rfl
  rw [er, el, hg]
  simp only [geomArea, geomBasis, geomField]

/-- The value `strength / √π` is wrong for every non-zero strength. -/
theorem c60_sphere_source_wrong {v : ℝ} (hv : v ≠ 0) : v / Real.sqrt Real.pi ≠ v := by
  have h1 : 1 < Real.sqrt Real.pi := by
    rw [Real.lt_sqrt (by norm_num)]
    have := Real.pi_gt_three
    linarith
  intro h
  rw [div_eq_iff (by linarith)] at h
  have : v * (Real.sqrt Real.pi - 1) = 0 := by linarith
  rcases mul_eq_zero.1 this with h2 | h2
  · exact hv h2
  · linarith

end Verif.Props
