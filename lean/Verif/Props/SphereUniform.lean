import Verif.Props.SphereTransport
import Verif.Props.SphereMatrices
import Verif.Lemmas.SphereInverse

/-!
Properties C63, C64, C65: uniform radiation on a moving spherical mesh, consistency of the
matrices with each other, invertibility of the mass matrix.
-/

namespace Verif.Props

open Polynomial Verif.Spec Verif.Model Verif.Lemmas

/-! ### C65: the mass matrix -/

/-- C65: on every cell the mass matrix is positive definite. -/
theorem c65_sphere_mass_positive {M : ℕ} {x : ℕ → ℝ} {a b : ℝ} (h : a < b)
    (hx : ∃ j ≤ M, x j ≠ 0) :
    0 < ∑ i ∈ Finset.range (M + 1), ∑ j ∈ Finset.range (M + 1),
      x i * sphereMass i j a b * x j := by
  have := mass_pos (M := M) h hx
  refine this.trans_eq (Finset.sum_congr rfl fun i _ => ?_)
  unfold matVec
  rw [Finset.mul_sum]
  exact Finset.sum_congr rfl fun j _ => by ring

/-- The mass matrix determines the coefficients. -/
theorem mass_injective {M : ℕ} {a b : ℝ} (h : a < b) {x y : ℕ → ℝ}
    (hxy : ∀ i ≤ M, matVec M (fun i j => sphereMass i j a b) x i =
      matVec M (fun i j => sphereMass i j a b) y i) (j : ℕ) (hj : j ≤ M) : x j = y j := by
  by_contra hne
  have hpos := mass_pos (M := M) (x := fun j => x j + (-1) * y j) h
    ⟨j, hj, fun h0 => hne (by linarith)⟩
  refine hpos.ne' (Finset.sum_eq_zero fun i hi => ?_)
  rw [matVec_add, matVec_smul, hxy i (by simpa [Nat.lt_succ_iff] using hi)]
  ring

/-- C65: matrices with the assumed properties exist for every cell, every order up to 10 and all
edge velocities; in particular the inverse taken at rhs_class_1.py 264 exists. -/
theorem c65_matrices_exist {M : ℕ} (hM : M ≤ 10) {a b : ℝ} (h : a < b) (ap bp : ℝ) :
    ∃ mats, MatsExact M a b ap bp mats := by
  obtain ⟨Minv, hinv⟩ := exists_mass_inverse M h
  obtain ⟨s, hs, -, -⟩ := makeAll_of_le (SphereMatrices.init M) hM a b ap bp
  exact ⟨{ L := fun i j => sphereL i j a b, G := s.G, MPRIME := s.MPRIME,
           Mass := fun i j => sphereMass i j a b, J := fun i j => sphereJ i j a b,
           Minv := Minv },
    { L := fun _ _ _ _ => rfl, J := fun _ _ _ _ => rfl, Mass := fun _ _ _ _ => rfl
      inv := hinv, tables := ⟨_, s, rfl, hs, rfl, rfl⟩ }⟩

/-! ### C64: the tables fit together -/

/-- C64: Reynolds' transport theorem for the two tables: the mesh-motion matrix, its transpose and
the edge terms add up to the mass-derivative matrix, for every cell and every edge velocity. -/
theorem c64_tables_consistent {i j : ℕ} (hi : i ≤ 10) (hj : j ≤ 10) {a b : ℝ} (h : a < b)
    (ap bp : ℝ) :
    ∃ gij gji mij, gMatrix i j a b ap bp = some gij ∧ gMatrix j i a b ap bp = some gji ∧
      mPrime i j a b ap bp = some mij ∧
      gij / Real.pi + gji / Real.pi
        + (bp * b ^ 2 * (sphereBasis i b a b * sphereBasis j b a b)
          - ap * a ^ 2 * (sphereBasis i a a b * sphereBasis j a a b)) = mij / Real.pi :=
  ⟨_, _, _, gMatrix_eq hi hj a b ap bp h, gMatrix_eq hj hi a b ap bp h,
    mPrime_eq hi hj a b ap bp, reynolds_tables h i j ap bp⟩

example := c64_tables_consistent (i := 3) (j := 7) (by norm_num) (by norm_num)
  (a := 1) (b := 2) (by norm_num) (-1) 4

/-! ### C63: uniform isotropic radiation -/

/-- Coefficients of the field that is `v` everywhere on the mesh. -/
noncomputable def uniformCoeffs (m : MeshView) (v : ℝ) (k j : ℕ) : ℝ :=
  if j = 0 then v * Real.sqrt (Real.pi * (m.edges (k + 1) - m.edges k)) else 0

theorem sphereField_uniform (M : ℕ) {a b : ℝ} (h : a < b) (v x : ℝ) :
    sphereField M (fun j => if j = 0 then v * Real.sqrt (Real.pi * (b - a)) else 0) a b x = v := by
  obtain ⟨-, hw⟩ := sqrt_pi_mul h
  unfold sphereField
  rw [Finset.sum_eq_single 0]
  · simp only [if_true]
    rw [sphereBasis_zero, mul_assoc, mul_one_div_cancel hw.ne', mul_one]
  · intro j _ hj; simp only [if_neg hj, zero_mul]
  · intro h0; simp at h0

/-- Sanity of the definition above. -/
theorem uniformCoeffs_field (M : ℕ) (m : MeshView) (v : ℝ) (k : ℕ)
    (h : m.edges k < m.edges (k + 1)) (x : ℝ) :
    sphereField M (uniformCoeffs m v k) (m.edges k) (m.edges (k + 1)) x = v :=
  sphereField_uniform M h v x

theorem matVec_single (M : ℕ) (A : ℕ → ℕ → ℝ) (w : ℝ) (i : ℕ) :
    matVec M A (fun j => if j = 0 then w else 0) i = A i 0 * w := by
  unfold matVec
  rw [Finset.sum_eq_single 0]
  · simp only [if_true]
  · intro j _ hj; simp only [if_neg hj, mul_zero]
  · intro h0; simp at h0

/-- The redistribution term is linear in the angular flux. -/
theorem angularTerm_const {n : ℕ} {mus : ℕ → ℝ} (hn : 2 ≤ n) (w : ℝ) {k : ℕ} (hk : k < n) :
    angularTerm n mus (fun _ => w) k = w * angularTerm n mus (fun _ => 1) k := by
  rw [angularTerm_eq hn _ hk, angularTerm_eq hn _ hk]
  unfold angularFlux
  ring

/-- Mass matrix times rate of change for uniform isotropic radiation, scattering ratio one, no
source: exact rate of the uniform field minus the angular defect. -/
theorem uniform_weak (p : RhsParams) (hn : 2 ≤ p.Nang)
    (hw : ∑ l ∈ Finset.range p.Nang, p.ws l = 1) (hc : p.c = 1)
    (c : FluxConfig) (hg : c.geometry = .sphere) (hM : c.M ≤ 10) (t : ℝ)
    (hoff : ¬ BoundaryActive c true t) (m : MeshView) (mats : ℕ → CellMats) (fs : FluxState)
    (hm : ∀ k < c.Nspace, m.edges k < m.edges (k + 1)) (space : ℕ) (hs : space + 1 < c.Nspace)
    (hmats : MatsExact c.M (m.edges space) (m.edges (space + 1)) (m.Dedges space)
      (m.Dedges (space + 1)) (mats space))
    (v : ℝ) (l : ℕ) (hl : l < p.Nang) (i : ℕ) (hi : i ≤ c.M) :
    matVec c.M (mats space).Mass
        (sphereRhs p c t m mats (fun _ _ => 0) fs (fun _ => uniformCoeffs m v) l space) i =
      sphereMass i 0 (m.edges space) (m.edges (space + 1)) *
        (v * (Real.pi * (m.Dedges (space + 1) - m.Dedges space) /
          (2 * Real.sqrt (Real.pi * (m.edges (space + 1) - m.edges space)))))
      - (2 * p.mus l + angularTerm p.Nang p.mus (fun _ => 1) l) *
        (sphereJ i 0 (m.edges space) (m.edges (space + 1)) *
          (v * Real.sqrt (Real.pi * (m.edges (space + 1) - m.edges space)))) := by
  have hab := hm space (by omega)
  have hPV : activePV p (fun _ => uniformCoeffs m v) space = uniformCoeffs m v space := by
    funext j
    unfold activePV
    rw [if_pos (by rw [hc]; norm_num), makeP_eq, angularSum_const _ _ _ hw]
  rw [mass_sphereRhs p c t m mats _ fs _ l space hmats hi, hPV, hc]
  unfold sphereWeak
  rw [fluxLU_eq c t m _ space (p.mus l) _ fs (by omega) hm hi]
  have er : rightOuter c t m (uniformCoeffs m v) space = v := by
    unfold rightOuter; rw [if_pos (by omega), hg]
    exact uniformCoeffs_field c.M m v (space + 1) (hm (space + 1) hs) _
  have el : leftOuter c t m (uniformCoeffs m v) space (uniformCoeffs m v 0) = v := by
    unfold leftOuter
    by_cases h0 : 0 < space
    · rw [if_pos (by omega), hg]
      have := uniformCoeffs_field c.M m v (space - 1) (hm (space - 1) (by omega)) (m.edges space)
      rw [Nat.sub_add_cancel (by omega)] at this
      exact this
    · have h1 : space = 0 := by omega
      subst h1
      rw [← isBoundarySourceOn_left] at hoff
      rw [if_neg (by omega), if_neg hoff, if_pos hg, hg]
      exact uniformCoeffs_field c.M m v 0 hab _
  rw [er, el, hg]
  simp only [geomArea, geomBasis, geomField, uniformCoeffs_field c.M m v space hab]
  have eu : ∀ x, upwind x v v = x * v := by
    intro x; unfold upwind; rw [← add_mul, max_add_min, add_zero]
  have ed : dterm p (fun _ => uniformCoeffs m v) l space = fun j => if j = 0 then
      angularTerm p.Nang p.mus (fun _ => 1) l *
        (v * Real.sqrt (Real.pi * (m.edges (space + 1) - m.edges space))) else 0 := by
    funext j
    unfold dterm
    rw [angularTerm_const hn _ hl]
    unfold uniformCoeffs
    split_ifs
    · ring
    · ring
  rw [eu, eu, ed]
  have eV : uniformCoeffs m v space = fun j => if j = 0 then
    v * Real.sqrt (Real.pi * (m.edges (space + 1) - m.edges space)) else 0 := rfl
  rw [eV]
  simp only [matVec_single]
  rw [hmats.L i hi 0 (Nat.zero_le _), hmats.J i hi 0 (Nat.zero_le _),
    hmats.Mass i hi 0 (Nat.zero_le _), matsExact_G hM hab hmats hi (Nat.zero_le _),
    matsExact_MPRIME hM hab hmats hi (Nat.zero_le _)]
  have h1 := sphereL_parts hab i 0
  rw [sphereL_zero hab, sphereBasis_zero, sphereBasis_zero] at h1
  have h2 := reynolds_tables hab i 0 (m.Dedges space) (m.Dedges (space + 1))
  rw [gExact_zero hab, sphereBasis_zero, sphereBasis_zero] at h2
  have hsymm : sphereMass 0 i (m.edges space) (m.edges (space + 1)) =
      sphereMass i 0 (m.edges space) (m.edges (space + 1)) := by
    unfold sphereMass
    refine intervalIntegral.integral_congr fun r _ => ?_
    show r ^ 2 * (_ * _) = r ^ 2 * (_ * _)
    ring
  rw [hsymm] at h2
  obtain ⟨h3, h4⟩ := sqrt_pi_mul hab
  set a := m.edges space
  set b := m.edges (space + 1)
  have hba : b - a ≠ 0 := by linarith
  have hpi := Real.pi_ne_zero
  have hk : Real.pi * (m.Dedges (space + 1) - m.Dedges space) /
      (2 * Real.sqrt (Real.pi * (b - a))) =
      (m.Dedges (space + 1) - m.Dedges space) / (2 * (b - a)) * Real.sqrt (Real.pi * (b - a)) := by
    generalize Real.sqrt (Real.pi * (b - a)) = w at h3 h4 ⊢
    field_simp
    linear_combination -(m.Dedges (space + 1) - m.Dedges space) * h3
  rw [hk]
  generalize Real.sqrt (Real.pi * (b - a)) = w at h1 h2 h3 h4 ⊢
  generalize gExact i 0 a b (m.Dedges space) (m.Dedges (space + 1)) / Real.pi = g at h2 ⊢
  generalize mpExact i 0 a b (m.Dedges space) (m.Dedges (space + 1)) / Real.pi = mp at h2 ⊢
  generalize (m.Dedges (space + 1) - m.Dedges space) / (2 * (b - a)) = q at h2 ⊢
  have hw1 : w * (1 / w) = 1 := mul_one_div_cancel h4.ne'
  generalize 1 / w = y at *
  linear_combination (v * w) * p.mus l * h1 + (v * w) * h2
    + (p.mus l * v * (b ^ 2 * sphereBasis i b a b - a ^ 2 * sphereBasis i a a b)
      - v * (m.Dedges (space + 1) * b ^ 2 * sphereBasis i b a b
        - m.Dedges space * a ^ 2 * sphereBasis i a a b)) * hw1

theorem sphereJ_zero {a b : ℝ} (h : a < b) : sphereJ 0 0 a b = (a + b) / (2 * Real.pi) := by
  obtain ⟨h3, h4⟩ := sqrt_pi_mul h
  have hpi := Real.pi_ne_zero
  have hba : b - a ≠ 0 := by linarith
  unfold sphereJ
  simp only [sphereBasis_zero]
  rw [intervalIntegral.integral_mul_const, integral_id, div_mul_div_comm, h3]
  field_simp
  ring

/-- C63: uniform isotropic radiation, scattering ratio one, no source, any motion of the mesh.
The rate of change of the coefficients of a cell that does not touch the outer surface is the rate
that keeps the field uniform (the derivative of `v √(π h)` in the lowest coefficient, zero in the
others) exactly when the discrete redistribution of a uniform flux equals `-2μ` in that
direction. -/
theorem c63_uniform_equilibrium_iff (p : RhsParams) (hn : 2 ≤ p.Nang)
    (hw : ∑ l ∈ Finset.range p.Nang, p.ws l = 1) (hc : p.c = 1)
    (c : FluxConfig) (hg : c.geometry = .sphere) (hM : c.M ≤ 10) (t : ℝ)
    (hoff : ¬ BoundaryActive c true t) (m : MeshView) (mats : ℕ → CellMats) (fs : FluxState)
    (hm : ∀ k < c.Nspace, m.edges k < m.edges (k + 1)) (h0 : 0 ≤ m.edges 0) (space : ℕ)
    (hs : space + 1 < c.Nspace)
    (hmats : MatsExact c.M (m.edges space) (m.edges (space + 1)) (m.Dedges space)
      (m.Dedges (space + 1)) (mats space))
    (v : ℝ) (hv : v ≠ 0) (R : ℕ → ℕ → ℕ → ℝ)
    (hR : activeCall p c t m mats (fun _ _ => 0) fs (fun _ => uniformCoeffs m v) = some R)
    (l : ℕ) (hl : l < p.Nang) (mesh : ℝ → MeshView) (hmesh : mesh t = m)
    (hedge : ∀ k ≤ c.Nspace, HasDerivAt (fun s => (mesh s).edges k) (m.Dedges k) t) :
    (∀ i ≤ c.M, HasDerivAt (fun s => uniformCoeffs (mesh s) v space i) (R l space i) t) ↔
      angularTerm p.Nang p.mus (fun _ => 1) l = -2 * p.mus l := by
  have hab := hm space (by omega)
  have hge : ∀ k ≤ space, 0 ≤ m.edges k := by
    intro k
    induction k with
    | zero => intro _; exact h0
    | succ k ih => intro hk; exact (ih (by omega)).trans (hm k (by omega)).le
  obtain ⟨h3, h4⟩ := sqrt_pi_mul hab
  have hRin : ∀ i ≤ c.M, R l space i =
      sphereRhs p c t m mats (fun _ _ => 0) fs (fun _ => uniformCoeffs m v) l space i := by
    intro i hi
    unfold activeCall at hR
    split_ifs at hR
    rw [hg] at hR
    rw [← Option.some_inj.1 hR]
    exact if_pos ⟨hl, by omega, hi⟩
  -- exact rate of the uniform field
  set rate : ℕ → ℝ := fun i => if i = 0 then
    v * (Real.pi * (m.Dedges (space + 1) - m.Dedges space) /
      (2 * Real.sqrt (Real.pi * (m.edges (space + 1) - m.edges space)))) else 0 with hrate
  have hder : ∀ i, HasDerivAt (fun s => uniformCoeffs (mesh s) v space i) (rate i) t := by
    intro i
    unfold uniformCoeffs
    simp only [hrate]
    by_cases hi : i = 0
    · simp only [if_pos hi]
      have hq : HasDerivAt (fun s => Real.pi * ((mesh s).edges (space + 1) - (mesh s).edges space))
          (Real.pi * (m.Dedges (space + 1) - m.Dedges space)) t :=
        ((hedge (space + 1) (by omega)).sub (hedge space (by omega))).const_mul _
      have hq0 : Real.pi * ((mesh t).edges (space + 1) - (mesh t).edges space) ≠ 0 := by
        rw [hmesh]
        exact mul_ne_zero Real.pi_ne_zero (by linarith)
      have := (hq.sqrt hq0).const_mul v
      rwa [hmesh] at this
    · simp only [if_neg hi]
      exact hasDerivAt_const t 0
  have hweak := fun i hi => uniform_weak p hn hw hc c hg hM t hoff m mats fs hm space hs hmats v
    l hl i hi
  have hMass : ∀ x : ℕ → ℝ, ∀ i ≤ c.M, matVec c.M (mats space).Mass x i =
      matVec c.M (fun i j => sphereMass i j (m.edges space) (m.edges (space + 1))) x i := by
    intro x i hi
    exact matVec_congr (fun j hj => hmats.Mass i hi j hj) x
  have hMrate : ∀ i, matVec c.M
      (fun i j => sphereMass i j (m.edges space) (m.edges (space + 1))) rate i =
      sphereMass i 0 (m.edges space) (m.edges (space + 1)) *
        (v * (Real.pi * (m.Dedges (space + 1) - m.Dedges space) /
          (2 * Real.sqrt (Real.pi * (m.edges (space + 1) - m.edges space))))) :=
    fun i => matVec_single c.M _ _ i
  constructor
  · intro h
    have heq : ∀ i ≤ c.M, sphereRhs p c t m mats (fun _ _ => 0) fs
        (fun _ => uniformCoeffs m v) l space i = rate i := fun i hi => by
      rw [← hRin i hi]; exact (h i hi).unique (hder i)
    have h5 := hweak 0 (Nat.zero_le _)
    rw [hMass _ 0 (Nat.zero_le _)] at h5
    have h6 : matVec c.M (fun i j => sphereMass i j (m.edges space) (m.edges (space + 1)))
        (sphereRhs p c t m mats (fun _ _ => 0) fs (fun _ => uniformCoeffs m v) l space) 0 =
        matVec c.M (fun i j => sphereMass i j (m.edges space) (m.edges (space + 1))) rate 0 := by
      unfold matVec
      exact Finset.sum_congr rfl fun j hj => by
        rw [heq j (by simpa [Nat.lt_succ_iff] using hj)]
    rw [h6, hMrate, sphereJ_zero hab] at h5
    have h7 : (2 * p.mus l + angularTerm p.Nang p.mus (fun _ => 1) l) *
        ((m.edges space + m.edges (space + 1)) / (2 * Real.pi) *
          (v * Real.sqrt (Real.pi * (m.edges (space + 1) - m.edges space)))) = 0 := by linarith
    rcases mul_eq_zero.1 h7 with h8 | h8
    · linarith
    · exfalso
      have h9 := hge space le_rfl
      have : 0 < (m.edges space + m.edges (space + 1)) / (2 * Real.pi) :=
        div_pos (by linarith) (by have := Real.pi_pos; linarith)
      exact absurd h8 (mul_ne_zero this.ne' (mul_ne_zero hv h4.ne'))
  · intro h i hi
    rw [hRin i hi]
    have : sphereRhs p c t m mats (fun _ _ => 0) fs (fun _ => uniformCoeffs m v) l space i =
        rate i := by
      refine mass_injective hab (fun k hk => ?_) i hi
      rw [← hMass _ k hk, hweak k hk, hMrate, h]
      ring
    rw [this]
    exact hder i

/-! ### A concrete spherical problem meeting the hypotheses -/

/-- Edges `k (1 + t)`, velocity `k`: the centre stays at the origin. -/
noncomputable def exampleSphereMesh (t : ℝ) : MeshView where
  edges := fun k => (1 + t) * (k : ℝ)
  Dedges := fun k => (k : ℝ)

noncomputable def exampleSphereConfig : FluxConfig := { exampleConfig with geometry := .sphere }

theorem exampleSphereMesh_ordered (k : ℕ) :
    (exampleSphereMesh 0).edges k < (exampleSphereMesh 0).edges (k + 1) := by
  simp only [exampleSphereMesh]; push_cast; linarith

theorem exampleSphereMesh_deriv (k : ℕ) :
    HasDerivAt (fun s => (exampleSphereMesh s).edges k) ((exampleSphereMesh 0).Dedges k) 0 := by
  simp only [exampleSphereMesh]
  simpa using ((hasDerivAt_id (0 : ℝ)).const_add 1).mul_const (k : ℝ)

theorem exampleSphere_not_active (left : Bool) : ¬ BoundaryActive exampleSphereConfig left 0 := by
  unfold BoundaryActive; simp [exampleSphereConfig, exampleConfig]

/-- Two directions `±1/2`, equal weights, scattering ratio one. -/
noncomputable def exampleSphereParams : RhsParams where
  Nang := 2
  mus := fun k => if k = 0 then -(1 / 2) else 1 / 2
  ws := fun _ => 1 / 2
  c := 1
  ca := 0
  l := 1

theorem exampleSphere_directions : DirectionSet 2 exampleSphereParams.mus where
  two := le_rfl
  lower := by simp [exampleSphereParams]; norm_num
  upper := by simp [exampleSphereParams]; norm_num
  mono := by
    intro k hk
    have : k = 0 := by omega
    subst this
    norm_num [exampleSphereParams]

theorem exampleSphere_symmetric : SymmetricSet 2 exampleSphereParams.mus := by
  intro k hk
  interval_cases k <;> norm_num [exampleSphereParams]

theorem exampleSphere_weights (l : ℕ) (hl : l < 2) :
    exampleSphereParams.ws l = angularWidth 2 exampleSphereParams.mus l / 2 := by
  interval_cases l <;> norm_num [exampleSphereParams, angularWidth, angularEdge]

/-- The matrices of the cells of the example exist. -/
theorem exampleSphere_mats : ∃ mats : ℕ → CellMats, ∀ k,
    MatsExact 1 ((exampleSphereMesh 0).edges k) ((exampleSphereMesh 0).edges (k + 1))
      ((exampleSphereMesh 0).Dedges k) ((exampleSphereMesh 0).Dedges (k + 1)) (mats k) := by
  choose f hf using fun k => c65_matrices_exist (M := 1) (by norm_num)
    (exampleSphereMesh_ordered k) ((exampleSphereMesh 0).Dedges k)
    ((exampleSphereMesh 0).Dedges (k + 1))
  exact ⟨f, hf⟩

theorem exampleSphere_call (mats : ℕ → CellMats) (S : ℕ → ℕ → ℝ) (fs : FluxState)
    (V : ℕ → ℕ → ℕ → ℝ) :
    ∃ R, activeCall exampleSphereParams exampleSphereConfig 0 (exampleSphereMesh 0) mats S fs V =
      some R := by
  unfold activeCall
  rw [if_neg (fun h => h.2 (centreChecks_pair (1 / 2) (by norm_num)))]
  exact ⟨_, rfl⟩

/-- All hypotheses of `c62_sphere_conserves` hold for a state with coefficients `1 + l + k + i`
and a non-zero source on an expanding mesh. -/
example (fs : FluxState) : ∃ (V : ℝ → ℕ → ℕ → ℕ → ℝ) (d : ℝ), V 0 1 1 1 = 4 ∧
    HasDerivAt (fun s => sphereTotal exampleSphereParams exampleSphereConfig (exampleSphereMesh s)
      (V s)) d 0 := by
  obtain ⟨mats, hmats⟩ := exampleSphere_mats
  set V0 : ℕ → ℕ → ℕ → ℝ := fun l k i => 1 + l + k + i with hV0
  obtain ⟨R, hR⟩ := exampleSphere_call mats (fun _ _ => 1) fs V0
  have hR' : activeCall exampleSphereParams exampleSphereConfig 0 (exampleSphereMesh 0) mats
      (fun _ _ => 1) fs ((fun s l k i => V0 l k i + s * R l k i : ℝ → ℕ → ℕ → ℕ → ℝ) 0) =
      some R := by
    rw [← hR]; congr 1; funext l k i; simp
  refine ⟨fun s l k i => V0 l k i + s * R l k i, _, by simp [hV0]; norm_num,
    c62_sphere_conserves exampleSphereParams exampleSphere_directions exampleSphere_symmetric
      exampleSphere_weights exampleSphereConfig rfl (by simp [exampleSphereConfig, exampleConfig])
      (by simp [exampleSphereConfig, exampleConfig]) 0 (exampleSphere_not_active true)
      (exampleSphere_not_active false) exampleSphereMesh mats (fun _ _ => 1) fs _ R
      (by simp [exampleSphereMesh]) (fun k _ => exampleSphereMesh_ordered k)
      (fun k _ => exampleSphereMesh_deriv k) (fun k _ => hmats k) hR' ?_⟩
  intro l _ k _ i _
  simpa using ((hasDerivAt_id (0 : ℝ)).mul_const (R l k i)).const_add (V0 l k i)

/-- Instance of C63: with the directions `±1/2` uniform radiation is kept on the expanding mesh. -/
example (mats : ℕ → CellMats) (fs : FluxState)
    (hmats : ∀ k, MatsExact 1 ((exampleSphereMesh 0).edges k) ((exampleSphereMesh 0).edges (k + 1))
      ((exampleSphereMesh 0).Dedges k) ((exampleSphereMesh 0).Dedges (k + 1)) (mats k))
    (R : ℕ → ℕ → ℕ → ℝ)
    (hR : activeCall exampleSphereParams exampleSphereConfig 0 (exampleSphereMesh 0) mats
      (fun _ _ => 0) fs (fun _ => uniformCoeffs (exampleSphereMesh 0) 3) = some R) :
    HasDerivAt (fun s => uniformCoeffs (exampleSphereMesh s) 3 0 0) (R 1 0 0) 0 := by
  refine (c63_uniform_equilibrium_iff exampleSphereParams le_rfl
    (by norm_num [exampleSphereParams]) rfl exampleSphereConfig rfl
    (by simp [exampleSphereConfig, exampleConfig]) 0 (exampleSphere_not_active true)
    (exampleSphereMesh 0) mats fs (fun k _ => exampleSphereMesh_ordered k)
    (by simp [exampleSphereMesh]) 0 (by simp [exampleSphereConfig, exampleConfig]) (hmats 0) 3
    (by norm_num) R hR 1 (by decide) exampleSphereMesh rfl
    (fun k _ => exampleSphereMesh_deriv k)).2 ?_ 0 (Nat.zero_le _)
  show angularTerm 2 exampleSphereParams.mus (fun _ => 1) 1 = _
  rw [angularTerm_eq le_rfl _ (by norm_num)]
  norm_num [angularFlux, angularEdge, angularWidth, exampleSphereParams]

example (V : ℕ → ℕ → ℕ → ℝ) (fs : FluxState) := c19_centre_inflow exampleSphereParams
  exampleSphereConfig rfl 0 (exampleSphereMesh 0) (by simp [exampleSphereConfig, exampleConfig])
  (fun k _ => exampleSphereMesh_ordered k) (exampleSphere_not_active true) V fs 1
  (by simp [exampleSphereParams]) 1 (by simp [exampleSphereConfig, exampleConfig])

example (u : ℕ → ℕ → ℝ) (fs : FluxState) := c60_sphere_right_source
  { exampleSourceConfig with geometry := .sphere } rfl rfl rfl rfl rfl rfl 0 (by norm_num [exampleSourceConfig, exampleConfig])
  example_quad (exampleSphereMesh 0) 1 rfl (fun k _ => exampleSphereMesh_ordered k) u (-(1 / 2))
  (fun _ => 0) fs 1 le_rfl

/-- An asymmetric even set is rejected. -/
example (mats : ℕ → CellMats) (S : ℕ → ℕ → ℝ) (fs : FluxState) (V : ℕ → ℕ → ℕ → ℝ) :
    activeCall { exampleSphereParams with mus := fun k => if k = 0 then -(1 / 2) else 3 / 4 }
      exampleSphereConfig 0 (exampleSphereMesh 0) mats S fs V = none :=
  c19_even_asymmetric_rejected_partial _ _ _ _ _ _ _ _
    (by simp [exampleSphereConfig, exampleConfig]) rfl 1 (by simp [exampleSphereParams])
    (by norm_num [exampleSphereParams])

end Verif.Props
