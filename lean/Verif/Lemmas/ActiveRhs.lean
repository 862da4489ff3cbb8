import Verif.Lemmas.SphereBalance
import Verif.Lemmas.GmatEntries
import Verif.Lemmas.Angular

/-! Helper facts: particle balance of one cell of the active sphere right-hand side. -/

namespace Verif.Lemmas

open Polynomial Verif.Spec Verif.Model

/-- What the theorems assume about the matrices of a cell.  `G` and `MPRIME` are those computed
by the modelled code from the tables in `GMAT_sphere.py`.  `L`, `J` and `Mass` are read from
coefficient files that are not in the repository; they are assumed to be the integrals they stand
for.  `Minv` is assumed to invert `Mass`. -/
structure MatsExact (M : ℕ) (a b ap bp : ℝ) (mats : CellMats) : Prop where
  L : ∀ i ≤ M, ∀ j ≤ M, mats.L i j = sphereL i j a b
  J : ∀ i ≤ M, ∀ j ≤ M, mats.J i j = sphereJ i j a b
  Mass : ∀ i ≤ M, ∀ j ≤ M, mats.Mass i j = sphereMass i j a b
  inv : ∀ x : ℕ → ℝ, ∀ i ≤ M, matVec M mats.Mass (matVec M mats.Minv x) i = x i
  tables : ∃ s0 s : SphereMatrices, s0.M = M ∧ s0.makeAll a b ap bp = some s ∧
    mats.G = s.G ∧ mats.MPRIME = s.MPRIME

theorem makeAll_entries {s0 s : SphereMatrices} {a b ap bp : ℝ}
    (h : s0.makeAll a b ap bp = some s) (hM : s0.M ≤ 10) (hab : a < b) {i j : ℕ} (hi : i ≤ s0.M)
    (hj : j ≤ s0.M) :
    s.G i j = gExact i j a b ap bp / Real.pi ∧ s.MPRIME i j = mpExact i j a b ap bp / Real.pi := by
  unfold SphereMatrices.makeAll SphereMatrices.makeG SphereMatrices.makeMPRIME fillFromTable at h
  split_ifs at h with h1
  · simp only [Option.map_some, Option.bind_some] at h
    split_ifs at h with h2
    · simp only [Option.map_some, Option.some_inj] at h
      subst h
      have eg := gMatrix_eq (hi.trans hM) (hj.trans hM) a b ap bp hab
      have em := mPrime_eq (hi.trans hM) (hj.trans hM) a b ap bp
      constructor
      · show (if i ≤ s0.M ∧ j ≤ s0.M then _ else _) = _
        rw [if_pos ⟨hi, hj⟩, eg]; rfl
      · show (if i ≤ s0.M ∧ j ≤ s0.M then _ else _) = _
        rw [if_pos ⟨hi, hj⟩, em]; rfl
    · simp at h
  · simp at h

theorem matsExact_G {M : ℕ} (hM : M ≤ 10) {a b ap bp : ℝ} (hab : a < b) {mats : CellMats}
    (h : MatsExact M a b ap bp mats) {i j : ℕ} (hi : i ≤ M) (hj : j ≤ M) :
    mats.G i j = gExact i j a b ap bp / Real.pi := by
  obtain ⟨s0, s, h0, h1, h2, -⟩ := h.tables
  subst h0
  rw [h2, (makeAll_entries h1 hM hab hi hj).1]

theorem matsExact_MPRIME {M : ℕ} (hM : M ≤ 10) {a b ap bp : ℝ} (hab : a < b) {mats : CellMats}
    (h : MatsExact M a b ap bp mats) {i j : ℕ} (hi : i ≤ M) (hj : j ≤ M) :
    mats.MPRIME i j = mpExact i j a b ap bp / Real.pi := by
  obtain ⟨s0, s, h0, h1, -, h2⟩ := h.tables
  subst h0
  rw [h2, (makeAll_entries h1 hM hab hi hj).2]

theorem matVec_congr {M : ℕ} {A : ℕ → ℕ → ℝ} {B : ℕ → ℝ} {i : ℕ} (h : ∀ j ≤ M, A i j = B j)
    (U : ℕ → ℝ) : matVec M A U i = ∑ j ∈ Finset.range (M + 1), B j * U j := by
  unfold matVec
  refine Finset.sum_congr rfl fun j hj => ?_
  rw [h j (by simpa [Nat.lt_succ_iff] using hj)]

theorem matVec_add (M : ℕ) (A : ℕ → ℕ → ℝ) (U W : ℕ → ℝ) (i : ℕ) :
    matVec M A (fun j => U j + W j) i = matVec M A U i + matVec M A W i := by
  unfold matVec; rw [← Finset.sum_add_distrib]
  exact Finset.sum_congr rfl fun _ _ => by ring

theorem matVec_smul (M : ℕ) (A : ℕ → ℕ → ℝ) (U : ℕ → ℝ) (x : ℝ) (i : ℕ) :
    matVec M A (fun j => x * U j) i = x * matVec M A U i := by
  unfold matVec; rw [Finset.mul_sum]
  exact Finset.sum_congr rfl fun _ _ => by ring

/-- The mass matrix applied to the rate of change. -/
theorem mass_sphereRhs (p : RhsParams) (c : FluxConfig) (t : ℝ) (m : MeshView)
    (mats : ℕ → CellMats) (S : ℕ → ℕ → ℝ) (fs : FluxState) (V : ℕ → ℕ → ℕ → ℝ)
    (angle space : ℕ) {a b ap bp : ℝ} (h : MatsExact c.M a b ap bp (mats space)) {i : ℕ}
    (hi : i ≤ c.M) :
    matVec c.M (mats space).Mass (sphereRhs p c t m mats S fs V angle space) i =
      sphereWeak p c t m (mats space) S fs V angle space i
        + p.c * matVec c.M (mats space).Mass (activePV p V space) i
        - matVec c.M (mats space).Mass (V angle space) i := by
  have e : sphereRhs p c t m mats S fs V angle space = fun j =>
      matVec c.M (mats space).Minv (sphereWeak p c t m (mats space) S fs V angle space) j
        + (p.c * activePV p V space j + (-1) * V angle space j) := by
    funext j; unfold sphereRhs; ring
  rw [e, matVec_add, matVec_add, matVec_smul, matVec_smul, h.inv _ _ hi]
  ring

/-- Balance of one cell and one direction. -/
theorem sphere_cell_balance (p : RhsParams) (c : FluxConfig) (hg : c.geometry = .sphere)
    (hM : c.M ≤ 10) (t : ℝ) (mesh : ℝ → MeshView) (mats : ℕ → CellMats) (S : ℕ → ℕ → ℝ)
    (fs : FluxState) (V : ℝ → ℕ → ℕ → ℕ → ℝ) (angle space : ℕ) (hs : space < c.Nspace)
    (hm : ∀ k < c.Nspace, (mesh t).edges k < (mesh t).edges (k + 1))
    (hedge : ∀ k ≤ c.Nspace, HasDerivAt (fun s => (mesh s).edges k) ((mesh t).Dedges k) t)
    (hmats : MatsExact c.M ((mesh t).edges space) ((mesh t).edges (space + 1))
      ((mesh t).Dedges space) ((mesh t).Dedges (space + 1)) (mats space))
    (hrate : ∀ i ≤ c.M, HasDerivAt (fun s => V s angle space i)
      (sphereRhs p c t (mesh t) mats S fs (V t) angle space i) t) :
    HasDerivAt
      (fun s => sphereContent c.M (V s angle space) ((mesh s).edges space)
        ((mesh s).edges (space + 1)))
      ((mesh t).edges space ^ 2 * upwind (p.mus angle - (mesh t).Dedges space)
          (leftOuter c t (mesh t) (V t angle) space (V t (reflIndex p.Nang angle space) 0))
          (sphereField c.M (V t angle space) ((mesh t).edges space) ((mesh t).edges (space + 1))
            ((mesh t).edges space))
        - (mesh t).edges (space + 1) ^ 2 * upwind (p.mus angle - (mesh t).Dedges (space + 1))
          (sphereField c.M (V t angle space) ((mesh t).edges space) ((mesh t).edges (space + 1))
            ((mesh t).edges (space + 1)))
          (rightOuter c t (mesh t) (V t angle) space)
        - (∫ r in ((mesh t).edges space)..((mesh t).edges (space + 1)),
            r * sphereField c.M (dterm p (V t) angle space) ((mesh t).edges space)
              ((mesh t).edges (space + 1)) r)
        + 1 / 2 * p.c *
          (Real.sqrt (Real.pi * ((mesh t).edges (space + 1) - (mesh t).edges space)) * S space 0)
        + p.c * sphereContent c.M (activePV p (V t) space) ((mesh t).edges space)
          ((mesh t).edges (space + 1))
        - sphereContent c.M (V t angle space) ((mesh t).edges space)
          ((mesh t).edges (space + 1))) t := by
  have hab := hm space hs
  have hda := hedge space hs.le
  have hdb := hedge (space + 1) hs
  set a := fun s => (mesh s).edges space with ha
  set b := fun s => (mesh s).edges (space + 1) with hb
  set a' := (mesh t).Dedges space
  set b' := (mesh t).Dedges (space + 1)
  have hab' : a t < b t := hab
  have hev : ∀ᶠ s in nhds t, a s < b s := hda.continuousAt.eventually_lt hdb.continuousAt hab'
  have hqp : 0 < Real.pi * (b t - a t) := mul_pos Real.pi_pos (by linarith)
  have hq : HasDerivAt (fun s => Real.pi * (b s - a s)) (Real.pi * (b' - a')) t :=
    (hdb.sub hda).const_mul _
  have hsq := hq.sqrt hqp.ne'
  have hsum : HasDerivAt (fun s => ∑ j ∈ Finset.range (c.M + 1),
      sphereMass 0 j (a s) (b s) * V s angle space j)
      (∑ j ∈ Finset.range (c.M + 1), (mpExact 0 j (a t) (b t) a' b' / Real.pi * V t angle space j +
        sphereMass 0 j (a t) (b t) * sphereRhs p c t (mesh t) mats S fs (V t) angle space j)) t := by
    refine HasDerivAt.fun_sum fun j hj => ?_
    exact (hasDerivAt_sphereMass hda hdb hab' 0 j).mul
      (hrate j (by simpa [Nat.lt_succ_iff] using hj))
  have key := (hsq.mul hsum).congr_of_eventuallyEq
    (f₁ := fun s => sphereContent c.M (V s angle space) (a s) (b s))
    (hev.mono fun s hs' => by simp only [Pi.mul_apply, sphereContent_eq _ _ hs'])
  refine key.congr_deriv ?_
  -- the algebra
  have eMass : ∀ W : ℕ → ℝ, ∑ j ∈ Finset.range (c.M + 1), sphereMass 0 j (a t) (b t) * W j =
      matVec c.M (mats space).Mass W 0 := fun W =>
    (matVec_congr (fun j hj => hmats.Mass 0 (Nat.zero_le _) j hj) W).symm
  have eMP : ∑ j ∈ Finset.range (c.M + 1), mpExact 0 j (a t) (b t) a' b' / Real.pi *
      V t angle space j = matVec c.M (mats space).MPRIME (V t angle space) 0 :=
    (matVec_congr (fun j hj => matsExact_MPRIME hM hab' hmats (Nat.zero_le _) hj) _).symm
  have eG : matVec c.M (mats space).G (V t angle space) 0 =
      -((b' - a') / (2 * (b t - a t))) * matVec c.M (mats space).Mass (V t angle space) 0 := by
    rw [← eMass, matVec_congr (fun j hj => matsExact_G hM hab' hmats (Nat.zero_le _) hj),
      Finset.mul_sum]
    refine Finset.sum_congr rfl fun j _ => ?_
    rw [gExact_zero hab']; ring
  have eL : matVec c.M (mats space).L (V t angle space) 0 = 0 := by
    rw [matVec_congr (fun j hj => hmats.L 0 (Nat.zero_le _) j hj)]
    exact Finset.sum_eq_zero fun j _ => by rw [sphereL_zero hab', zero_mul]
  have eJ : ∫ r in (a t)..(b t), r * sphereField c.M (dterm p (V t) angle space) (a t) (b t) r =
      Real.sqrt (Real.pi * (b t - a t)) *
        matVec c.M (mats space).J (dterm p (V t) angle space) 0 := by
    rw [sphereJ_field _ _ hab', matVec_congr (fun j hj => hmats.J 0 (Nat.zero_le _) j hj)]
  have eflux := fluxLU_eq c t (mesh t) (V t angle) space (p.mus angle)
    (V t (reflIndex p.Nang angle space) 0) fs hs hm (Nat.zero_le c.M)
  rw [hg] at eflux
  simp only [geomArea, geomBasis, geomField, sphereBasis_zero] at eflux
  rw [Finset.sum_add_distrib, eMP, eMass, eMass, eJ, sphereContent_eq _ _ hab',
    sphereContent_eq _ _ hab', eMass, eMass,
    mass_sphereRhs p c t (mesh t) mats S fs (V t) angle space hmats (Nat.zero_le _)]
  unfold sphereWeak
  rw [eflux, eG, eL]
  change _ = a t ^ 2 * _ - b t ^ 2 * _ - _ + _ * (Real.sqrt (Real.pi * (b t - a t)) * _) + _ - _
  change _ * _ + Real.sqrt (Real.pi * (b t - a t)) * (_ + (0 -
    (b t ^ 2 * (1 / Real.sqrt (Real.pi * (b t - a t))) * _ -
      a t ^ 2 * (1 / Real.sqrt (Real.pi * (b t - a t))) * _) + _ - _ + _ + _ - _ + _ - _)) = _
  obtain ⟨h1, h2⟩ := sqrt_pi_mul hab'
  have hba : b t - a t ≠ 0 := by linarith
  have hpi := Real.pi_ne_zero
  have hk : Real.pi * (b' - a') / (2 * Real.sqrt (Real.pi * (b t - a t))) =
      (b' - a') / (2 * (b t - a t)) * Real.sqrt (Real.pi * (b t - a t)) := by
    generalize Real.sqrt (Real.pi * (b t - a t)) = w at h1 h2 ⊢
    field_simp
    linear_combination -(b' - a') * h1
  rw [hk]
  generalize Real.sqrt (Real.pi * (b t - a t)) = w at h1 h2 ⊢
  field_simp
  ring

end Verif.Lemmas
