import Verif.Props.MeshAccel
import Mathlib.Analysis.SpecialFunctions.Sqrt

/-!
C25 for the square-root mesh, and configurations that meet the hypotheses of the mesh theorems.
-/

namespace Verif.Props

open Verif.Model Verif.Lemmas Verif.Spec

/-- C25 (partial: mesh moving with the square root of time, `move_func = 2`). -/
theorem c25_sqrt_velocity_partial {c : MeshConfig} {s s' : MeshState} (h : IsSquareSource c)
    (hf : c.finiteDomain = true) (h2 : c.moveFunc = 2) (hm : s.moving = true)
    (hend : ¬ reachedEnd c s) {t : ℝ} (ht : 1 / 10 ^ 10 < t) (hr : meshMove c s t = some s')
    (k : ℕ) : HasDerivAt (reported c s k) (s'.Dedges k) t := by
  have h0' : ¬ (c.st 0 = 1 ∨ c.st 0 = 2) := by rw [h.s0]; decide
  have h1 : ¬ c.st 1 = 1 := by rw [h.s1]; decide
  have mv : ∀ τ, meshMove c s τ = some (sqrtMove c s τ) := by
    intro τ
    simp [meshMove, hm, h0', h1, h.s2, hf, h2, hend]
  rw [mv] at hr
  injection hr with hr
  subst hr
  have e : reported c s k =ᶠ[nhds t] fun τ =>
      s.edges0 k + s.DedgesConst k * c.moveFactor * Real.sqrt τ := by
    filter_upwards [lt_mem_nhds ht] with τ hτ
    rw [reported, mv]
    simp only [Option.elim_some, sqrtMove, if_pos hτ]
  refine HasDerivAt.congr_of_eventuallyEq ?_ e
  have ht0 : t ≠ 0 := by
    have : (0 : ℝ) < 1 / 10 ^ 10 := by norm_num
    linarith
  have d := ((Real.hasDerivAt_sqrt ht0).const_mul (s.DedgesConst k * c.moveFactor)).const_add
    (s.edges0 k)
  refine d.congr_deriv ?_
  simp only [sqrtMove, if_pos ht]
  have : Real.sqrt t ≠ 0 := by
    have h0 : 0 < t := by
      have : (0 : ℝ) < 1 / 10 ^ 10 := by norm_num
      linarith
    exact (Real.sqrt_pos.mpr h0).ne'
  field_simp

/-! ### Configurations that meet the hypotheses -/

theorem exampleSquare_speed : exampleSquareMesh.edgeV = 1 := rfl

/-- Square pulse, slab: constructed, moved out of order, ordered, symmetric, outside the light
cone, and the velocities are the derivatives. -/
example : ∃ s s', meshInit exampleSquareMesh = some s ∧
    meshRun exampleSquareMesh s [2, 0, 1] = some s' ∧ Ordered 4 s'.edges ∧
    Antisymmetric 4 s'.edges ∧ HasDerivAt (reported exampleSquareMesh s 4) (s'.Dedges 4) 1 ∧
    1 / 2 + 1 < s'.edges 4 := by
  have hn : NoHistory exampleSquareMesh := Or.inl rfl
  obtain ⟨s', hs'⟩ := move_total hn (legendreState exampleSquareMesh) 1
  have hr : meshRun exampleSquareMesh (legendreState exampleSquareMesh) ([2, 0] ++ [1]) =
      some s' := by
    rw [c23_history_irrelevant_partial hn]
    simp [meshRun, hs']
  have hx : exampleSquareMesh.x0 = 1 / 2 := rfl
  refine ⟨_, s', exampleSquare_init, hr, ?_, ?_, ?_, ?_⟩
  · exact c24_square_ordered_partial exampleSquare_class rfl rfl exampleSquare_quads
      (by rw [hx]; norm_num) (by rw [exampleSquare_speed]; norm_num)
      (by norm_num [exampleSquareMesh]) exampleSquare_init
      (by
        intro t ht
        fin_cases ht <;> norm_num) hr
  · exact (c27_square_symmetric exampleSquare_class rfl rfl exampleSquare_quads exampleSquare_init
      hr).1
  · exact c25_velocity_is_derivative_partial (Or.inr (Or.inl ⟨exampleSquare_class, rfl⟩)) rfl
      exampleSquare_init hr 4
  · have := (c30_square_light_cone_partial exampleSquare_class rfl rfl exampleSquare_quads rfl
      (by rw [exampleSquare_speed]) exampleSquare_init (by norm_num) hr (x := 1 / 2) (μ := 1)
      (by rw [hx, abs_of_pos (by norm_num)]) (by norm_num)).2
    have hN : exampleSquareMesh.N = 4 := rfl
    rw [hN] at this
    linarith

/-- Square pulse in a sphere, four cells. -/
noncomputable def exampleShellMesh : MeshConfig :=
  { exampleSquareMesh with geometry := .sphere }

example : ∃ s s', meshInit exampleShellMesh = some s ∧
    meshRun exampleShellMesh s [2, 1] = some s' ∧ Ordered 4 s'.edges ∧
    1 / 2 + 1 < s'.edges 4 := by
  have hc : IsSquare exampleShellMesh := ⟨rfl, rfl, rfl, by decide, by decide⟩
  have hsp : exampleShellMesh.edgeV = 1 := rfl
  have hi : meshInit exampleShellMesh = some (shellState exampleShellMesh) := by
    rw [shell_init (Or.inl hc) rfl rfl, if_pos (shell_size _ (by decide))]
  have hn : NoHistory exampleShellMesh := Or.inl rfl
  obtain ⟨s', hs'⟩ := move_total hn (shellState exampleShellMesh) 1
  have hr : meshRun exampleShellMesh (shellState exampleShellMesh) ([2] ++ [1]) =
      some s' := by
    rw [c23_history_irrelevant_partial hn]
    simp [meshRun, hs']
  have hx : exampleShellMesh.x0 = 1 / 2 := rfl
  refine ⟨_, s', hi, hr, ?_, ?_⟩
  · exact c24_shell_ordered_partial hc rfl rfl (by rw [hx]; norm_num) (by decide)
      (by rw [hsp]; norm_num) (by norm_num [exampleShellMesh, exampleSquareMesh]) hi
      (by
        intro t ht
        fin_cases ht <;> norm_num) hr
  · exact c30_shell_light_cone_partial hc rfl rfl (by decide) rfl (by rw [hsp]) hi (by norm_num) hr
      (by rw [hx])

/-- Plane pulse, slab: ordered after time zero, symmetric, and reaches the light cone. -/
example : ∃ s s', meshInit examplePlaneMesh = some s ∧
    meshRun examplePlaneMesh s [2, 1] = some s' ∧ Ordered 4 s'.edges ∧
    Antisymmetric 4 s'.Dedges ∧ 1 ≤ s'.edges 4 := by
  have hsp : examplePlaneMesh.edgeV = 1 := rfl
  have hi := plane_init examplePlane_class rfl
  have hn := plane_noHistory examplePlane_class
  obtain ⟨s', hs'⟩ := move_total hn (simpleMovingInit examplePlaneMesh (meshBlank examplePlaneMesh)) 1
  have hr : meshRun examplePlaneMesh (simpleMovingInit examplePlaneMesh (meshBlank examplePlaneMesh))
      ([2] ++ [1]) = some s' := by
    rw [c23_history_irrelevant_partial hn]
    simp [meshRun, hs']
  have hx : 0 < examplePlaneMesh.x0 := by norm_num [examplePlaneMesh, exampleSquareMesh]
  refine ⟨_, s', hi, hr, ?_, ?_, ?_⟩
  · exact c24_plane_slab_ordered_partial examplePlane_class rfl rfl (by decide) hx
      (by rw [hsp]; norm_num) hi (by norm_num) hr
  · exact (c27_plane_symmetric examplePlane_class rfl rfl (by decide) hx hi hr).2
  · have := (c30_plane_light_cone_partial examplePlane_class rfl rfl (by decide) hx
      (by rw [hsp]) hi (by norm_num) hr (μ := 1) (by norm_num)).2
    have hN : examplePlaneMesh.N = 4 := rfl
    rw [hN] at this
    linarith

/-- Square source in a finite slab, asked for the switch-over time and the final time. -/
example : ∃ s', meshRun exampleAccelMesh (legendreState exampleAccelMesh) [2] = some s' ∧
    ∀ k, s'.edges k = uniformGrid (-1) 1 4 k := by
  obtain ⟨r, m, ee, ed⟩ := accel_ready_init exampleAccel
  have n0 : ¬ reachedEnd exampleAccelMesh (legendreState exampleAccelMesh) := by
    rintro ⟨-, h⟩
    rw [ee] at h
    have : exampleAccelMesh.N = 4 := rfl
    rw [this, (exampleAccel_data 4 (Or.inr rfl)).1] at h
    norm_num [exampleAccelMesh, exampleAccelWith, exampleSourceMesh, exampleSquareMesh, abs_le] at h
  have ht : exampleAccelMesh.t0 = 1 := rfl
  obtain ⟨s1, h1, -⟩ := accel_late r (t := 2) (by rw [ht]; norm_num)
  have hm1 : meshMove exampleAccelMesh (legendreState exampleAccelMesh) 2 = some s1 := by
    rw [move_source_finite exampleAccel_class rfl rfl m, if_neg n0, h1]
  refine ⟨s1, by simp [meshRun, hm1], fun k => ?_⟩
  exact c28_reaches_target_partial exampleAccel
    (by norm_num [exampleAccelMesh, exampleAccelWith, exampleSourceMesh, exampleSquareMesh])
    (ts := []) rfl n0 hm1 k

end Verif.Props
