import Verif.Props.SphereUniform
import Mathlib.Analysis.SpecialFunctions.Integrals.Basic

/-!
C101: a pure scatterer conserves particles, whatever the unit of length.
-/

namespace Verif.Props

open Verif.Model Verif.Spec Verif.Lemmas

/-- The parameters the active right-hand side works with: rhs_class_1.py 118-123, with
build_problem.py 98-100.  (`self.c` is the scattering opacity, not the ratio.) -/
noncomputable def activeParams (Nang : ℕ) (mus ws : ℕ → ℝ) (sigmaT sigmaS l : ℝ) : RhsParams where
  Nang := Nang
  mus := mus
  ws := ws
  c := sigmaS
  ca := (sigmaT - sigmaS) / sigmaT
  l := l

/-- C101 for unit opacity: without absorption (`sigma_s = sigma_t = 1`), source and boundary source,
the number of particles in the sphere changes only by outflow. -/
theorem c101_unit_partial (Nang : ℕ) (mus ws : ℕ → ℝ) (l : ℝ) (hd : DirectionSet Nang mus)
    (hs : SymmetricSet Nang mus) (hw : ∀ l < Nang, ws l = angularWidth Nang mus l / 2)
    (c : FluxConfig) (hg : c.geometry = .sphere) (hM : c.M ≤ 10) (hN : 2 ≤ c.Nspace) (t : ℝ)
    (hofl : ¬ BoundaryActive c true t) (hofr : ¬ BoundaryActive c false t)
    (mesh : ℝ → MeshView) (mats : ℕ → CellMats) (fs : FluxState)
    (V : ℝ → ℕ → ℕ → ℕ → ℝ) (R : ℕ → ℕ → ℕ → ℝ)
    (hcentre : (mesh t).Dedges 0 = 0)
    (hm : ∀ k < c.Nspace, (mesh t).edges k < (mesh t).edges (k + 1))
    (hedge : ∀ k ≤ c.Nspace, HasDerivAt (fun s => (mesh s).edges k) ((mesh t).Dedges k) t)
    (hmats : ∀ k < c.Nspace, MatsExact c.M ((mesh t).edges k) ((mesh t).edges (k + 1))
      ((mesh t).Dedges k) ((mesh t).Dedges (k + 1)) (mats k))
    (hR : activeCall (activeParams Nang mus ws 1 1 l) c t (mesh t) mats (fun _ _ => 0) fs (V t) =
      some R)
    (hrate : ∀ l < Nang, ∀ k < c.Nspace, ∀ i ≤ c.M, HasDerivAt (fun s => V s l k i) (R l k i) t) :
    HasDerivAt (fun s => sphereTotal (activeParams Nang mus ws 1 1 l) c (mesh s) (V s))
      (-(mesh t).edges c.Nspace ^ 2 * angularSum Nang ws (fun l =>
          max (mus l - (mesh t).Dedges c.Nspace) 0 *
            sphereField c.M (V t l (c.Nspace - 1)) ((mesh t).edges (c.Nspace - 1))
              ((mesh t).edges c.Nspace) ((mesh t).edges c.Nspace))) t := by
  refine (c62_sphere_conserves (activeParams Nang mus ws 1 1 l) hd hs hw c hg hM hN t hofl hofr mesh
    mats (fun _ _ => 0) fs V R hcentre hm hedge hmats hR hrate).congr_deriv ?_
  simp only [activeParams]
  simp

/-- C101 fails for every other opacity: a pure scatterer with `sigma_s = sigma_t = sigma ≠ 1`, no
source, and radiation only in the first of three cells, so that nothing flows out; the number of
particles changes at the rate `sigma - 1` per particle. -/
theorem c101_other_opacity {σ : ℝ} (hσ : σ ≠ 1) (fs : FluxState) :
    ∃ (mats : ℕ → CellMats) (V : ℝ → ℕ → ℕ → ℕ → ℝ) (R : ℕ → ℕ → ℕ → ℝ) (d : ℝ),
      (∀ k, MatsExact 1 ((exampleSphereMesh 0).edges k) ((exampleSphereMesh 0).edges (k + 1))
        ((exampleSphereMesh 0).Dedges k) ((exampleSphereMesh 0).Dedges (k + 1)) (mats k)) ∧
      (∀ l i, ∀ k ≥ exampleSphereConfig.Nspace - 1, V 0 l k i = 0) ∧
      activeCall (activeParams 2 exampleSphereParams.mus exampleSphereParams.ws σ σ 1)
        exampleSphereConfig 0 (exampleSphereMesh 0) mats (fun _ _ => 0) fs (V 0) = some R ∧
      (∀ l k i, HasDerivAt (fun s => V s l k i) (R l k i) 0) ∧
      HasDerivAt (fun s => sphereTotal
        (activeParams 2 exampleSphereParams.mus exampleSphereParams.ws σ σ 1)
        exampleSphereConfig (exampleSphereMesh s) (V s)) d 0 ∧ d ≠ 0 := by
  obtain ⟨mats, hmats⟩ := exampleSphere_mats
  set V0 : ℕ → ℕ → ℕ → ℝ := fun _ k i =>
    if k = 0 then uniformCoeffs (exampleSphereMesh 0) 1 0 i else 0 with hV0
  obtain ⟨R, hR⟩ : ∃ R, activeCall
      (activeParams 2 exampleSphereParams.mus exampleSphereParams.ws σ σ 1) exampleSphereConfig 0
      (exampleSphereMesh 0) mats (fun _ _ => 0) fs V0 = some R := by
    unfold activeCall
    rw [if_neg (fun h => h.2 (centreChecks_pair (1 / 2) (by norm_num)))]
    exact ⟨_, rfl⟩
  have hR' : activeCall (activeParams 2 exampleSphereParams.mus exampleSphereParams.ws σ σ 1)
      exampleSphereConfig 0 (exampleSphereMesh 0) mats
      (fun _ _ => 0) fs ((fun s l k i => V0 l k i + s * R l k i : ℝ → ℕ → ℕ → ℕ → ℝ) 0) =
      some R := by
    rw [← hR]; congr 1; funext l k i; simp
  have hrate : ∀ l k i, HasDerivAt (fun s : ℝ => V0 l k i + s * R l k i) (R l k i) 0 := by
    intro l k i
    simpa using ((hasDerivAt_id (0 : ℝ)).mul_const (R l k i)).const_add (V0 l k i)
  have hN : exampleSphereConfig.Nspace - 1 ≠ 0 := by simp [exampleSphereConfig, exampleConfig]
  have hlast : ∀ l i, ∀ k ≥ exampleSphereConfig.Nspace - 1, V0 l k i = 0 := by
    intro l i k hk
    rw [hV0]
    exact if_neg (by omega)
  have h := c62_sphere_conserves
    (activeParams 2 exampleSphereParams.mus exampleSphereParams.ws σ σ 1)
      exampleSphere_directions exampleSphere_symmetric
      exampleSphere_weights exampleSphereConfig rfl (by simp [exampleSphereConfig, exampleConfig])
      (by simp [exampleSphereConfig, exampleConfig]) 0 (exampleSphere_not_active true)
      (exampleSphere_not_active false) exampleSphereMesh mats (fun _ _ => 0) fs
      (fun s l k i => V0 l k i + s * R l k i) R
      (by simp [exampleSphereMesh]) (fun k _ => exampleSphereMesh_ordered k)
      (fun k _ => exampleSphereMesh_deriv k) (fun k _ => hmats k) hR' (fun l _ k _ i _ => hrate l k i)
  refine ⟨mats, fun s l k i => V0 l k i + s * R l k i, R, _, hmats, ?_, hR', hrate, h, ?_⟩
  · intro l i k hk
    simp only [zero_mul, add_zero]
    exact hlast l i k hk
  simp only [zero_mul, add_zero]
  have e1 : ∀ l, sphereField exampleSphereConfig.M (fun i => V0 l (exampleSphereConfig.Nspace - 1) i)
      ((exampleSphereMesh 0).edges (exampleSphereConfig.Nspace - 1))
      ((exampleSphereMesh 0).edges exampleSphereConfig.Nspace)
      ((exampleSphereMesh 0).edges exampleSphereConfig.Nspace) = 0 := by
    intro l
    unfold sphereField
    exact Finset.sum_eq_zero fun j _ => by simp only [hlast l j _ le_rfl, zero_mul]
  have e2 : ∀ l k, sphereContent exampleSphereConfig.M (fun i => V0 l k i)
      ((exampleSphereMesh 0).edges k) ((exampleSphereMesh 0).edges (k + 1)) =
      if k = 0 then 1 / 3 else 0 := by
    intro l k
    split_ifs with hk
    · subst hk
      unfold sphereContent
      have : ∀ r, sphereField exampleSphereConfig.M (fun i => V0 l 0 i) ((exampleSphereMesh 0).edges 0)
          ((exampleSphereMesh 0).edges (0 + 1)) r = 1 := by
        intro r
        exact uniformCoeffs_field _ (exampleSphereMesh 0) 1 0 (exampleSphereMesh_ordered 0) r
      simp only [this, mul_one]
      rw [integral_pow]
      norm_num [exampleSphereMesh]
    · unfold sphereContent
      have : ∀ r, sphereField exampleSphereConfig.M (fun i => V0 l k i) ((exampleSphereMesh 0).edges k)
          ((exampleSphereMesh 0).edges (k + 1)) r = 0 := by
        intro r
        unfold sphereField
        exact Finset.sum_eq_zero fun j _ => by
          simp only [show V0 l k j = 0 from if_neg hk, zero_mul]
      simp only [this, mul_zero, intervalIntegral.integral_zero]
  have e3 : sphereTotal (activeParams 2 exampleSphereParams.mus exampleSphereParams.ws σ σ 1)
      exampleSphereConfig (exampleSphereMesh 0) (fun l k i => V0 l k i) = 1 / 3 := by
    unfold sphereTotal angularSum
    simp only [e2]
    norm_num [activeParams, exampleSphereParams, Finset.sum_range_succ, exampleSphereConfig,
      exampleConfig]
  simp only [e1, e3]
  simp only [activeParams, angularSum]
  simp only [mul_zero, Finset.sum_const_zero, add_zero, zero_add]
  exact mul_ne_zero (sub_ne_zero.mpr hσ) (by norm_num)

/-- The hypotheses of `c101_unit_partial` hold for a state with coefficients `1 + l + k + i` on an
expanding mesh. -/
example (fs : FluxState) : ∃ (V : ℝ → ℕ → ℕ → ℕ → ℝ) (d : ℝ), V 0 1 1 1 = 4 ∧
    HasDerivAt (fun s => sphereTotal
      (activeParams 2 exampleSphereParams.mus exampleSphereParams.ws 1 1 1) exampleSphereConfig
      (exampleSphereMesh s) (V s)) d 0 := by
  obtain ⟨mats, hmats⟩ := exampleSphere_mats
  set V0 : ℕ → ℕ → ℕ → ℝ := fun l k i => 1 + l + k + i with hV0
  obtain ⟨R, hR⟩ : ∃ R, activeCall
      (activeParams 2 exampleSphereParams.mus exampleSphereParams.ws 1 1 1) exampleSphereConfig 0
      (exampleSphereMesh 0) mats (fun _ _ => 0) fs V0 = some R := by
    unfold activeCall
    rw [if_neg (fun h => h.2 (centreChecks_pair (1 / 2) (by norm_num)))]
    exact ⟨_, rfl⟩
  have hR' : activeCall (activeParams 2 exampleSphereParams.mus exampleSphereParams.ws 1 1 1)
      exampleSphereConfig 0 (exampleSphereMesh 0) mats
      (fun _ _ => 0) fs ((fun s l k i => V0 l k i + s * R l k i : ℝ → ℕ → ℕ → ℕ → ℝ) 0) =
      some R := by
    rw [← hR]; congr 1; funext l k i; simp
  refine ⟨fun s l k i => V0 l k i + s * R l k i, _, by simp [hV0]; norm_num,
    c101_unit_partial 2 exampleSphereParams.mus exampleSphereParams.ws 1 exampleSphere_directions
      exampleSphere_symmetric exampleSphere_weights exampleSphereConfig rfl
      (by simp [exampleSphereConfig, exampleConfig])
      (by simp [exampleSphereConfig, exampleConfig]) 0 (exampleSphere_not_active true)
      (exampleSphere_not_active false) exampleSphereMesh mats fs _ R
      (by simp [exampleSphereMesh]) (fun k _ => exampleSphereMesh_ordered k)
      (fun k _ => exampleSphereMesh_deriv k) (fun k _ => hmats k) hR' ?_⟩
  intro l _ k _ i _
  simpa using ((hasDerivAt_id (0 : ℝ)).mul_const (R l k i)).const_add (V0 l k i)

end Verif.Props
