import Verif.Lemmas.SphereStability
import Verif.Lemmas.GronwallExcept
import Verif.Props.Stability
import Verif.Props.SphereUniform
import Mathlib.Analysis.Normed.Module.FiniteDimension

/-!
Properties C103, C104: the square norm in sphere geometry.
-/

namespace Verif.Props

open Polynomial Verif.Spec Verif.Model Verif.Lemmas Set

/-! ### Differences of states -/

theorem sphereField_sub (M : ℕ) (U W : ℕ → ℝ) (a b x : ℝ) :
    sphereField M (fun j => U j - W j) a b x = sphereField M U a b x - sphereField M W a b x := by
  unfold sphereField
  rw [← Finset.sum_sub_distrib]
  exact Finset.sum_congr rfl fun _ _ => by ring

theorem angularTerm_sub (n : ℕ) (mus x y : ℕ → ℝ) (l : ℕ) :
    angularTerm n mus (fun l => x l - y l) l = angularTerm n mus x l - angularTerm n mus y l := by
  unfold angularTerm finiteDiffUneven
  split_ifs <;> ring

/-- The difference of two states evolves like a state with vacuum outside. -/
theorem sphereWeak_sub (p : RhsParams) (c : FluxConfig) (hg : c.geometry = .sphere) (t : ℝ)
    (m : MeshView) (h0 : m.edges 0 = 0) (hm : ∀ k < c.Nspace, m.edges k < m.edges (k + 1))
    (mats : CellMats) (S S' : ℕ → ℕ → ℝ) (fs fs' fs'' : FluxState) (V W : ℕ → ℕ → ℕ → ℝ)
    (l k i : ℕ) (hk : k < c.Nspace) (hi : i ≤ c.M) :
    sphereWeak p c t m mats S fs V l k i - sphereWeak p c t m mats S' fs' W l k i =
      sphereWeak p (vacuumConfig c) t m mats (fun k i => S k i - S' k i) fs''
        (fun l k i => V l k i - W l k i) l k i := by
  have e2 : rightOuter (vacuumConfig c) t m (fun k j => V l k j - W l k j) k =
      rightOuter c t m (V l) k - rightOuter c t m (W l) k := by
    unfold rightOuter
    rw [vacuumConfig_off]
    simp only [hg, show (vacuumConfig c).geometry = .sphere from hg,
      show (vacuumConfig c).M = c.M from rfl, show (vacuumConfig c).Nspace = c.Nspace from rfl,
      geomField]
    split_ifs <;> simp_all [sphereField_sub]
  have e1 : m.edges k ^ 2 * upwind (p.mus l - m.Dedges k)
        (leftOuter (vacuumConfig c) t m (fun k j => V l k j - W l k j) k
          (fun j => V (reflIndex p.Nang l k) 0 j - W (reflIndex p.Nang l k) 0 j))
        (sphereField c.M (V l k) (m.edges k) (m.edges (k + 1)) (m.edges k) -
          sphereField c.M (W l k) (m.edges k) (m.edges (k + 1)) (m.edges k)) =
      m.edges k ^ 2 * (upwind (p.mus l - m.Dedges k)
          (leftOuter c t m (V l) k (V (reflIndex p.Nang l k) 0))
          (sphereField c.M (V l k) (m.edges k) (m.edges (k + 1)) (m.edges k))
        - upwind (p.mus l - m.Dedges k)
          (leftOuter c t m (W l) k (W (reflIndex p.Nang l k) 0))
          (sphereField c.M (W l k) (m.edges k) (m.edges (k + 1)) (m.edges k))) := by
    rcases Nat.eq_zero_or_pos k with hk0 | hk0
    · subst hk0
      rw [h0]
      simp
    · unfold leftOuter
      rw [if_pos (by omega), if_pos (by omega), if_pos (by omega), hg,
        show (vacuumConfig c).geometry = .sphere from hg]
      simp only [geomField, sphereField_sub, show (vacuumConfig c).M = c.M from rfl]
      unfold upwind
      ring
  have ed : dterm p (fun l k i => V l k i - W l k i) l k =
      fun j => dterm p V l k j - dterm p W l k j := by
    funext j
    exact angularTerm_sub _ _ _ _ _
  unfold sphereWeak
  rw [fluxLU_eq c t m _ k _ _ fs hk hm hi, fluxLU_eq c t m _ k _ _ fs' hk hm hi,
    fluxLU_eq (vacuumConfig c) t m _ k _ _ fs'' hk hm hi, e2, ed, hg,
    show (vacuumConfig c).geometry = .sphere from hg, show (vacuumConfig c).M = c.M from rfl]
  simp only [geomArea, geomBasis, geomField, sphereField_sub, matVec_sub]
  unfold upwind at e1 ⊢
  linear_combination (-(sphereBasis i (m.edges k) (m.edges k) (m.edges (k + 1)))) * e1

/-- `c` times the scalar flux coefficients. -/
theorem c_activePV (p : RhsParams) (V : ℕ → ℕ → ℕ → ℝ) (k i : ℕ) :
    p.c * activePV p V k i = p.c * scalarCoef p V k i := by
  unfold activePV
  split_ifs with h
  · rw [makeP_eq]; rfl
  · have : p.c = 0 := by simpa using h
    rw [this]; ring

theorem c_mass_activePV (p : RhsParams) (V : ℕ → ℕ → ℕ → ℝ) (M : ℕ) (A : ℕ → ℕ → ℝ) (k i : ℕ) :
    p.c * matVec M A (activePV p V k) i = p.c * matVec M A (scalarCoef p V k) i := by
  rw [← matVec_smul, ← matVec_smul]
  simp only [c_activePV]

/-- The values of the call that the solver uses. -/
theorem activeCall_sphere {p : RhsParams} {c : FluxConfig} (hg : c.geometry = .sphere) {t : ℝ}
    {m : MeshView} {mats : ℕ → CellMats} {S : ℕ → ℕ → ℝ} {fs : FluxState} {V : ℕ → ℕ → ℕ → ℝ}
    {R : ℕ → ℕ → ℕ → ℝ} (hR : activeCall p c t m mats S fs V = some R) {l k i : ℕ}
    (hl : l < p.Nang) (hk : k < c.Nspace) (hi : i ≤ c.M) :
    R l k i = sphereRhs p c t m mats S fs V l k i := by
  unfold activeCall at hR
  split_ifs at hR
  rw [hg] at hR
  simp only [Option.some_inj] at hR
  subst hR
  exact if_pos ⟨hl, hk, hi⟩

/-- Weighted sum over directions of the square norms. -/
noncomputable def sphereAngularSq (p : RhsParams) (N M : ℕ) (e : ℕ → ℝ) (V : ℕ → ℕ → ℕ → ℝ) : ℝ :=
  angularSum p.Nang p.ws fun l => sphereSqNorm N M e (V l)

/-- Sum over the cells of one direction: only jumps remain. -/
theorem sphere_mesh_form (c : FluxConfig) (hg : c.geometry = .sphere) (t : ℝ) (m : MeshView)
    (h0 : m.edges 0 = 0) (u : ℕ → ℕ → ℝ) (mul : ℝ) (uRefl : ℕ → ℕ → ℝ)
    (hright : isBoundarySourceOn c (c.Nspace - 1) t = false) :
    ∑ k ∈ Finset.range c.Nspace,
      (m.edges (k + 1) ^ 2 * (1 / 2 * (mul - m.Dedges (k + 1)) *
          sphereField c.M (u k) (m.edges k) (m.edges (k + 1)) (m.edges (k + 1)) ^ 2
        - sphereField c.M (u k) (m.edges k) (m.edges (k + 1)) (m.edges (k + 1)) *
          upwind (mul - m.Dedges (k + 1))
            (sphereField c.M (u k) (m.edges k) (m.edges (k + 1)) (m.edges (k + 1)))
            (rightOuter c t m u k))
      - m.edges k ^ 2 * (1 / 2 * (mul - m.Dedges k) *
          sphereField c.M (u k) (m.edges k) (m.edges (k + 1)) (m.edges k) ^ 2
        - sphereField c.M (u k) (m.edges k) (m.edges (k + 1)) (m.edges k) *
          upwind (mul - m.Dedges k) (leftOuter c t m u k (uRefl k))
            (sphereField c.M (u k) (m.edges k) (m.edges (k + 1)) (m.edges k)))) =
      -(1 / 2) * ∑ k ∈ Finset.range (c.Nspace + 1), m.edges k ^ 2 *
        (|mul - m.Dedges k| * sphereJump c.Nspace c.M m.edges u k ^ 2) := by
  set TL := sphereTraceLeft c.M m.edges u with hTL
  set TR := sphereTraceRight c.Nspace c.M m.edges u with hTR
  set A : ℕ → ℝ := fun k => m.edges k ^ 2 * (1 / 2 * (mul - m.Dedges k) * TL k ^ 2
    - TL k * upwind (mul - m.Dedges k) (TL k) (TR k)) with hA
  set B : ℕ → ℝ := fun k => m.edges k ^ 2 * (1 / 2 * (mul - m.Dedges k) * TR k ^ 2
    - TR k * upwind (mul - m.Dedges k) (TL k) (TR k)) with hB
  have hcell : ∀ k ∈ Finset.range c.Nspace,
      (m.edges (k + 1) ^ 2 * (1 / 2 * (mul - m.Dedges (k + 1)) *
          sphereField c.M (u k) (m.edges k) (m.edges (k + 1)) (m.edges (k + 1)) ^ 2
        - sphereField c.M (u k) (m.edges k) (m.edges (k + 1)) (m.edges (k + 1)) *
          upwind (mul - m.Dedges (k + 1))
            (sphereField c.M (u k) (m.edges k) (m.edges (k + 1)) (m.edges (k + 1)))
            (rightOuter c t m u k))
      - m.edges k ^ 2 * (1 / 2 * (mul - m.Dedges k) *
          sphereField c.M (u k) (m.edges k) (m.edges (k + 1)) (m.edges k) ^ 2
        - sphereField c.M (u k) (m.edges k) (m.edges (k + 1)) (m.edges k) *
          upwind (mul - m.Dedges k) (leftOuter c t m u k (uRefl k))
            (sphereField c.M (u k) (m.edges k) (m.edges (k + 1)) (m.edges k)))) =
      A (k + 1) - B k := by
    intro k hk
    have hk : k < c.Nspace := Finset.mem_range.1 hk
    have hr : rightOuter c t m u k = TR (k + 1) := by
      rw [hTR]
      unfold rightOuter sphereTraceRight
      by_cases hl : k + 1 = c.Nspace
      · have hk' : k = c.Nspace - 1 := by omega
        rw [if_neg (by omega), if_neg (by rw [hk', hright]; simp), if_neg (by omega)]
      · rw [if_pos hl, if_pos (by omega), hg]; rfl
    have e1 : sphereField c.M (u k) (m.edges k) (m.edges (k + 1)) (m.edges (k + 1)) =
        TL (k + 1) := rfl
    have e2 : sphereField c.M (u k) (m.edges k) (m.edges (k + 1)) (m.edges k) = TR k := by
      rw [hTR]; unfold sphereTraceRight; rw [if_pos hk]
    rw [hr, e1, e2]
    cases k with
    | zero => simp only [hA, hB, h0]; ring
    | succ k =>
      have hl : leftOuter c t m u (k + 1) (uRefl (k + 1)) = TL (k + 1) := by
        unfold leftOuter
        rw [if_pos (by omega), hg]; rfl
      rw [hl]
  rw [Finset.sum_congr rfl hcell, Finset.mul_sum]
  have hedge : ∀ k, -(1 / 2) * (m.edges k ^ 2 * (|mul - m.Dedges k| *
      sphereJump c.Nspace c.M m.edges u k ^ 2)) = A k - B k := by
    intro k
    have := upwind_dissipates (mul - m.Dedges k) (TL k) (TR k)
    simp only [hA, hB, sphereJump]
    linear_combination -(m.edges k ^ 2) * this
  have hA0 : A 0 = 0 := by simp [hA, h0]
  have hB0 : B c.Nspace = 0 := by simp [hB, hTR, sphereTraceRight]
  rw [Finset.sum_congr rfl fun k _ => hedge k]
  clear_value A B
  rw [Finset.sum_sub_distrib, Finset.sum_sub_distrib]
  have h1 := Finset.sum_range_succ' A c.Nspace
  have h2 := Finset.sum_range_succ B c.Nspace
  rw [h1, h2, hA0, hB0]
  ring

/-- Scattering term tested with the state and summed over directions. -/
theorem scatter_form (p : RhsParams) (D : ℕ → ℕ → ℕ → ℝ) (M k : ℕ) {a b : ℝ} (h : a < b) :
    ∑ l ∈ Finset.range p.Nang, p.ws l * ∑ i ∈ Finset.range (M + 1),
      D l k i * matVec M (fun i j => sphereMass i j a b) (scalarCoef p D k) i =
      ∫ r in a..b, r ^ 2 * sphereField M (scalarCoef p D k) a b r ^ 2 := by
  rw [← mass_form M _ h]
  simp only [Finset.mul_sum]
  rw [Finset.sum_comm]
  refine Finset.sum_congr rfl fun i _ => ?_
  unfold scalarCoef angularSum
  rw [Finset.sum_mul]
  exact Finset.sum_congr rfl fun l _ => by ring

/-! ### Rate of the square norm -/

/-- The square norm of a state `D` whose rate satisfies the equations with vacuum outside up to
a residual `Q`. -/
theorem sphere_residual_rate (p : RhsParams) (hd : DirectionSet p.Nang p.mus)
    (hw : ∀ l < p.Nang, p.ws l = angularWidth p.Nang p.mus l / 2)
    (c : FluxConfig) (hg : c.geometry = .sphere) (hM : c.M ≤ 10) (t : ℝ) (mesh : ℝ → MeshView)
    (h0 : (mesh t).edges 0 = 0)
    (hm : ∀ k < c.Nspace, (mesh t).edges k < (mesh t).edges (k + 1))
    (hedge : ∀ k ≤ c.Nspace,
      HasDerivWithinAt (fun s => (mesh s).edges k) ((mesh t).Dedges k) (Ici t) t)
    (mats : ℕ → CellMats)
    (hmats : ∀ k < c.Nspace, MatsExact c.M ((mesh t).edges k) ((mesh t).edges (k + 1))
      ((mesh t).Dedges k) ((mesh t).Dedges (k + 1)) (mats k))
    (fs : FluxState) (D : ℝ → ℕ → ℕ → ℕ → ℝ) (Rd Q : ℕ → ℕ → ℕ → ℝ)
    (hDer : ∀ l < p.Nang, ∀ k < c.Nspace, ∀ i ≤ c.M,
      HasDerivWithinAt (fun s => D s l k i) (Rd l k i) (Ici t) t)
    (hmass : ∀ l < p.Nang, ∀ k < c.Nspace, ∀ i ≤ c.M,
      matVec c.M (mats k).Mass (Rd l k) i =
        sphereWeak p (vacuumConfig c) t (mesh t) (mats k) (fun _ _ => 0) fs (D t) l k i
          + p.c * matVec c.M (mats k).Mass (scalarCoef p (D t) k) i
          - matVec c.M (mats k).Mass (D t l k) i + Q l k i) :
    HasDerivWithinAt (fun s => sphereAngularSq p c.Nspace c.M (mesh s).edges (D s))
      (-(angularSum p.Nang p.ws (fun l => ∑ k ∈ Finset.range (c.Nspace + 1),
          (mesh t).edges k ^ 2 * (|p.mus l - (mesh t).Dedges k| *
            sphereJump c.Nspace c.M (mesh t).edges (D t l) k ^ 2))
        + 2 * (sphereAngularSq p c.Nspace c.M (mesh t).edges (D t)
          - p.c * sphereSqNorm c.Nspace c.M (mesh t).edges (scalarCoef p (D t))))
        + 2 * angularSum p.Nang p.ws (fun l => (angularMid p.Nang p.mus l - p.mus l) *
            sphereSqMoment c.Nspace c.M (mesh t).edges (D t l))
        + 2 * angularSum p.Nang p.ws (fun l => ∑ k ∈ Finset.range c.Nspace,
            ∑ i ∈ Finset.range (c.M + 1), D t l k i * Q l k i))
      (Ici t) t := by
  have hrate : HasDerivWithinAt
      (fun s => sphereAngularSq p c.Nspace c.M (mesh s).edges (D s))
      (∑ l ∈ Finset.range p.Nang, p.ws l * ∑ k ∈ Finset.range c.Nspace,
        (∑ i ∈ Finset.range (c.M + 1), D t l k i * matVec c.M (mats k).MPRIME (D t l k) i
          + 2 * ∑ i ∈ Finset.range (c.M + 1), D t l k i *
            matVec c.M (mats k).Mass (Rd l k) i)) (Ici t) t := by
    unfold sphereAngularSq angularSum sphereSqNorm
    refine HasDerivWithinAt.fun_sum fun l hl => HasDerivWithinAt.const_mul _ ?_
    refine HasDerivWithinAt.fun_sum fun k hk => ?_
    have hl := Finset.mem_range.1 hl
    have hk := Finset.mem_range.1 hk
    exact sphere_sq_rate c.M hM (hedge k hk.le) (hedge (k + 1) hk) (hm k hk) (mats k) (hmats k hk)
      (fun s => D s l k) _ fun i hi => hDer l hl k hk i hi
  refine hrate.congr_deriv ?_
  -- one cell
  set E : ℕ → ℕ → ℝ := fun l k =>
      (mesh t).edges (k + 1) ^ 2 * (1 / 2 * (p.mus l - (mesh t).Dedges (k + 1)) *
          sphereField c.M (D t l k) ((mesh t).edges k) ((mesh t).edges (k + 1))
            ((mesh t).edges (k + 1)) ^ 2
        - sphereField c.M (D t l k) ((mesh t).edges k) ((mesh t).edges (k + 1))
            ((mesh t).edges (k + 1)) *
          upwind (p.mus l - (mesh t).Dedges (k + 1))
            (sphereField c.M (D t l k) ((mesh t).edges k) ((mesh t).edges (k + 1))
              ((mesh t).edges (k + 1)))
            (rightOuter (vacuumConfig c) t (mesh t) (D t l) k))
      - (mesh t).edges k ^ 2 * (1 / 2 * (p.mus l - (mesh t).Dedges k) *
          sphereField c.M (D t l k) ((mesh t).edges k) ((mesh t).edges (k + 1))
            ((mesh t).edges k) ^ 2
        - sphereField c.M (D t l k) ((mesh t).edges k) ((mesh t).edges (k + 1))
            ((mesh t).edges k) *
          upwind (p.mus l - (mesh t).Dedges k)
            (leftOuter (vacuumConfig c) t (mesh t) (D t l) k
              (D t (reflIndex p.Nang l k) 0))
            (sphereField c.M (D t l k) ((mesh t).edges k) ((mesh t).edges (k + 1))
              ((mesh t).edges k))) with hE
  set Y : ℕ → ℕ → ℝ := fun l k => ∫ r in ((mesh t).edges k)..((mesh t).edges (k + 1)),
    r * sphereField c.M (D t l k) ((mesh t).edges k) ((mesh t).edges (k + 1)) r ^ 2 with hY
  set T : ℕ → ℕ → ℝ := fun l k => ∫ r in ((mesh t).edges k)..((mesh t).edges (k + 1)),
    r * (sphereField c.M (D t l k) ((mesh t).edges k) ((mesh t).edges (k + 1)) r *
      sphereField c.M (dterm p (D t) l k) ((mesh t).edges k) ((mesh t).edges (k + 1)) r) with hT
  set N2 : ℕ → ℕ → ℝ := fun l k => ∫ r in ((mesh t).edges k)..((mesh t).edges (k + 1)),
    r ^ 2 * sphereField c.M (D t l k) ((mesh t).edges k) ((mesh t).edges (k + 1)) r ^ 2 with hN2
  set P : ℕ → ℕ → ℝ := fun l k => ∑ i ∈ Finset.range (c.M + 1), D t l k i *
    matVec c.M (fun i j => sphereMass i j ((mesh t).edges k) ((mesh t).edges (k + 1)))
      (scalarCoef p (D t) k) i with hP
  set Z : ℕ → ℕ → ℝ := fun l k => ∑ i ∈ Finset.range (c.M + 1), D t l k i * Q l k i
    with hZ
  have hcell : ∀ l ∈ Finset.range p.Nang, ∀ k ∈ Finset.range c.Nspace,
      ∑ i ∈ Finset.range (c.M + 1), D t l k i * matVec c.M (mats k).MPRIME (D t l k) i
          + 2 * ∑ i ∈ Finset.range (c.M + 1), D t l k i *
            matVec c.M (mats k).Mass (Rd l k) i =
        2 * E l k - 2 * p.mus l * Y l k - 2 * T l k + 2 * Z l k + 2 * p.c * P l k
          - 2 * N2 l k := by
    intro l hl k hk
    have hl := Finset.mem_range.1 hl
    have hk := Finset.mem_range.1 hk
    have e : ∑ i ∈ Finset.range (c.M + 1), D t l k i *
        matVec c.M (mats k).Mass (Rd l k) i =
        ∑ i ∈ Finset.range (c.M + 1), D t l k i *
          sphereWeak p (vacuumConfig c) t (mesh t) (mats k) (fun _ _ => 0) fs (D t)
            l k i
        + p.c * ∑ i ∈ Finset.range (c.M + 1),
          D t l k i * matVec c.M (mats k).Mass (scalarCoef p (D t) k) i
        - ∑ i ∈ Finset.range (c.M + 1), D t l k i * matVec c.M (mats k).Mass (D t l k) i
        + ∑ i ∈ Finset.range (c.M + 1), D t l k i * Q l k i := by
      rw [Finset.mul_sum, ← Finset.sum_add_distrib, ← Finset.sum_sub_distrib,
        ← Finset.sum_add_distrib]
      refine Finset.sum_congr rfl fun i hi => ?_
      rw [hmass l hl k hk i (by simpa [Nat.lt_succ_iff] using hi)]
      ring
    have hf := sphere_cell_form p (vacuumConfig c) hg hM t (mesh t) (mats k)
      (fun _ _ => 0) fs (D t) l k hk hm (hmats k hk) _ _ rfl rfl
    simp only [show (vacuumConfig c).M = c.M from rfl, mul_zero, Finset.sum_const_zero,
      add_zero] at hf
    rw [e, hf, quad_congr (hmats k hk).Mass, quad_congr (hmats k hk).Mass,
      mass_form c.M _ (hm k hk)]
    simp only [hE, hY, hT, hZ, hP, hN2]
    ring
  rw [Finset.sum_congr rfl fun l hl => by
    rw [Finset.sum_congr rfl fun k hk => hcell l hl k hk]]
  -- sums
  have sE : ∀ l, ∑ k ∈ Finset.range c.Nspace, E l k =
      -(1 / 2) * ∑ k ∈ Finset.range (c.Nspace + 1), (mesh t).edges k ^ 2 *
        (|p.mus l - (mesh t).Dedges k| * sphereJump c.Nspace c.M (mesh t).edges (D t l) k ^ 2) :=
    fun l => sphere_mesh_form (vacuumConfig c) hg t (mesh t) h0 (D t l) (p.mus l)
      (fun k => D t (reflIndex p.Nang l k) 0) (vacuumConfig_off c _ t)
  have sT : ∑ l ∈ Finset.range p.Nang, p.ws l * ∑ k ∈ Finset.range c.Nspace, T l k =
      -∑ l ∈ Finset.range p.Nang, p.ws l * (angularMid p.Nang p.mus l *
        ∑ k ∈ Finset.range c.Nspace, Y l k) := by
    simp only [Finset.mul_sum]
    rw [Finset.sum_comm, Finset.sum_comm (s := Finset.range p.Nang), ← Finset.sum_neg_distrib]
    exact Finset.sum_congr rfl fun k hk =>
      redistribution_cell p hd hw (D t) c.M k (hm k (Finset.mem_range.1 hk))
  have sP : ∑ l ∈ Finset.range p.Nang, p.ws l * ∑ k ∈ Finset.range c.Nspace, P l k =
      sphereSqNorm c.Nspace c.M (mesh t).edges (scalarCoef p (D t)) := by
    simp only [Finset.mul_sum]
    rw [Finset.sum_comm]
    unfold sphereSqNorm
    refine Finset.sum_congr rfl fun k hk => ?_
    exact scatter_form p (D t) c.M k (hm k (Finset.mem_range.1 hk))
  have e : ∀ l ∈ Finset.range p.Nang, p.ws l * ∑ k ∈ Finset.range c.Nspace,
      (2 * E l k - 2 * p.mus l * Y l k - 2 * T l k + 2 * Z l k + 2 * p.c * P l k
        - 2 * N2 l k) =
      -(p.ws l * ∑ k ∈ Finset.range (c.Nspace + 1), (mesh t).edges k ^ 2 *
        (|p.mus l - (mesh t).Dedges k| * sphereJump c.Nspace c.M (mesh t).edges (D t l) k ^ 2))
      - 2 * (p.ws l * (p.mus l * ∑ k ∈ Finset.range c.Nspace, Y l k))
      - 2 * (p.ws l * ∑ k ∈ Finset.range c.Nspace, T l k)
      + 2 * (p.ws l * ∑ k ∈ Finset.range c.Nspace, Z l k)
      + 2 * p.c * (p.ws l * ∑ k ∈ Finset.range c.Nspace, P l k)
      - 2 * (p.ws l * ∑ k ∈ Finset.range c.Nspace, N2 l k) := by
    intro l _
    simp only [Finset.sum_add_distrib, Finset.sum_sub_distrib, ← Finset.mul_sum]
    rw [sE l]
    ring
  rw [Finset.sum_congr rfl e]
  simp only [Finset.sum_add_distrib, Finset.sum_sub_distrib, ← Finset.mul_sum,
    Finset.sum_neg_distrib]
  rw [sT, sP]
  unfold sphereAngularSq angularSum
  have eM : ∑ l ∈ Finset.range p.Nang, p.ws l * ((angularMid p.Nang p.mus l - p.mus l) *
      sphereSqMoment c.Nspace c.M (mesh t).edges (D t l)) =
      ∑ l ∈ Finset.range p.Nang, p.ws l * (angularMid p.Nang p.mus l *
        ∑ k ∈ Finset.range c.Nspace, Y l k) -
      ∑ l ∈ Finset.range p.Nang, p.ws l * (p.mus l * ∑ k ∈ Finset.range c.Nspace, Y l k) := by
    rw [← Finset.sum_sub_distrib]
    refine Finset.sum_congr rfl fun l _ => ?_
    unfold sphereSqMoment
    ring
  rw [eM]
  simp only [sphereSqNorm]
  ring

/-! ### C103 -/

/-- Mass matrix times the difference of two right hand sides. -/
theorem sphere_difference_mass (p : RhsParams) (c : FluxConfig) (hg : c.geometry = .sphere) (t : ℝ)
    (mesh : MeshView) (h0 : mesh.edges 0 = 0)
    (hm : ∀ k < c.Nspace, mesh.edges k < mesh.edges (k + 1)) (mats : ℕ → CellMats)
    (hmats : ∀ k < c.Nspace, MatsExact c.M (mesh.edges k) (mesh.edges (k + 1))
      (mesh.Dedges k) (mesh.Dedges (k + 1)) (mats k))
    (S S' : ℕ → ℕ → ℝ) (fs fs' : FluxState) (V W : ℕ → ℕ → ℕ → ℝ) (R R' : ℕ → ℕ → ℕ → ℝ)
    (hR : activeCall p c t mesh mats S fs V = some R)
    (hR' : activeCall p c t mesh mats S' fs' W = some R') :
    ∀ l < p.Nang, ∀ k < c.Nspace, ∀ i ≤ c.M,
      matVec c.M (mats k).Mass (fun i => R l k i - R' l k i) i =
        sphereWeak p (vacuumConfig c) t mesh (mats k) (fun _ _ => 0) fs
            (fun l k i => V l k i - W l k i) l k i
          + p.c * matVec c.M (mats k).Mass (scalarCoef p (fun l k i => V l k i - W l k i) k) i
          - matVec c.M (mats k).Mass (fun i => V l k i - W l k i) i
          + 1 / 2 * p.c * (S k i - S' k i) := by
  set D : ℕ → ℕ → ℕ → ℝ := fun l k i => V l k i - W l k i with hD
  intro l hl k hk i hi
  have ecg : ∀ (Q T : ℕ → ℝ), (∀ j ≤ c.M, Q j = T j) →
      matVec c.M (mats k).Mass Q i = matVec c.M (mats k).Mass T i := by
    intro Q T h
    unfold matVec
    exact Finset.sum_congr rfl fun j hj => by rw [h j (by simpa [Nat.lt_succ_iff] using hj)]
  have e1 := mass_sphereRhs p c t mesh mats S fs V l k (hmats k hk) hi
  have e2 := mass_sphereRhs p c t mesh mats S' fs' W l k (hmats k hk) hi
  rw [c_mass_activePV] at e1 e2
  rw [matVec_sub, ecg _ _ fun j hj => activeCall_sphere hg hR hl hk hj,
    ecg _ _ fun j hj => activeCall_sphere hg hR' hl hk hj, e1, e2]
  have e0 := sphereWeak_sub p c hg t mesh h0 hm (mats k) S S' fs fs' fs V W l k i hk hi
  have e3 : scalarCoef p D k = fun j => scalarCoef p V k j - scalarCoef p W k j := by
    funext j
    unfold scalarCoef angularSum
    rw [← Finset.sum_sub_distrib]
    exact Finset.sum_congr rfl fun _ _ => by simp only [hD]; ring
  have e5 : sphereWeak p (vacuumConfig c) t mesh (mats k) (fun k i => S k i - S' k i) fs
      D l k i = sphereWeak p (vacuumConfig c) t mesh (mats k) (fun _ _ => 0) fs D l k i
      + 1 / 2 * p.c * (S k i - S' k i) := by
    unfold sphereWeak
    ring
  rw [e3, matVec_sub, matVec_sub]
  have e6 : (fun l k i => V l k i - W l k i) = D := rfl
  rw [e6, e5] at e0
  linear_combination e0

/-- C103, for two solutions on a mesh from the centre outwards, moving in any way, with the same
boundary data and sources `S`, `S'`: with weights equal to half the angular cells, the square norm
of the difference `D` changes at the rate
`- Σ_l w_l (Σ_k r_k² |μ_l - v_k| [D_l]_k² + 2 ‖D_l‖²) + 2 c ‖Σ_l w_l D_l‖²
 + 2 Σ_l w_l (m_l - μ_l) ∫ r D_l² dr + c Σ_l w_l (D_l, S - S')`,
where `m_l` is the middle of the angular cell of direction `μ_l`.  The jump terms are losses; the
term with `m_l - μ_l` is an error of the angular differencing and has either sign. -/
theorem c103_sphere_difference_rate (p : RhsParams) (hd : DirectionSet p.Nang p.mus)
    (hw : ∀ l < p.Nang, p.ws l = angularWidth p.Nang p.mus l / 2)
    (c : FluxConfig) (hg : c.geometry = .sphere) (hM : c.M ≤ 10) (t : ℝ) (mesh : ℝ → MeshView)
    (h0 : (mesh t).edges 0 = 0)
    (hm : ∀ k < c.Nspace, (mesh t).edges k < (mesh t).edges (k + 1))
    (hedge : ∀ k ≤ c.Nspace,
      HasDerivWithinAt (fun s => (mesh s).edges k) ((mesh t).Dedges k) (Ici t) t)
    (mats : ℕ → CellMats)
    (hmats : ∀ k < c.Nspace, MatsExact c.M ((mesh t).edges k) ((mesh t).edges (k + 1))
      ((mesh t).Dedges k) ((mesh t).Dedges (k + 1)) (mats k))
    (S S' : ℕ → ℕ → ℝ) (fs fs' : FluxState) (V W : ℝ → ℕ → ℕ → ℕ → ℝ) (R R' : ℕ → ℕ → ℕ → ℝ)
    (hR : activeCall p c t (mesh t) mats S fs (V t) = some R)
    (hR' : activeCall p c t (mesh t) mats S' fs' (W t) = some R')
    (hV : ∀ l < p.Nang, ∀ k < c.Nspace, ∀ i ≤ c.M,
      HasDerivWithinAt (fun s => V s l k i) (R l k i) (Ici t) t)
    (hW : ∀ l < p.Nang, ∀ k < c.Nspace, ∀ i ≤ c.M,
      HasDerivWithinAt (fun s => W s l k i) (R' l k i) (Ici t) t) :
    HasDerivWithinAt
      (fun s => sphereAngularSq p c.Nspace c.M (mesh s).edges fun l k i => V s l k i - W s l k i)
      (-(angularSum p.Nang p.ws (fun l => ∑ k ∈ Finset.range (c.Nspace + 1),
          (mesh t).edges k ^ 2 * (|p.mus l - (mesh t).Dedges k| *
            sphereJump c.Nspace c.M (mesh t).edges (fun k i => V t l k i - W t l k i) k ^ 2))
        + 2 * (sphereAngularSq p c.Nspace c.M (mesh t).edges (fun l k i => V t l k i - W t l k i)
          - p.c * sphereSqNorm c.Nspace c.M (mesh t).edges
            (scalarCoef p fun l k i => V t l k i - W t l k i)))
        + 2 * angularSum p.Nang p.ws (fun l => (angularMid p.Nang p.mus l - p.mus l) *
            sphereSqMoment c.Nspace c.M (mesh t).edges (fun k i => V t l k i - W t l k i))
        + p.c * angularSum p.Nang p.ws (fun l => ∑ k ∈ Finset.range c.Nspace,
            ∑ i ∈ Finset.range (c.M + 1), (V t l k i - W t l k i) * (S k i - S' k i)))
      (Ici t) t := by
  set D : ℝ → ℕ → ℕ → ℕ → ℝ := fun s l k i => V s l k i - W s l k i with hD
  have hmass := sphere_difference_mass p c hg t (mesh t) h0 hm mats hmats S S' fs fs' (V t) (W t) R R'
    hR hR'
  refine (sphere_residual_rate p hd hw c hg hM t mesh h0 hm hedge mats hmats fs D _ _
    (fun l hl k hk i hi => (hV l hl k hk i hi).sub (hW l hl k hk i hi)) hmass).congr_deriv ?_
  have e : ∀ l, ∑ k ∈ Finset.range c.Nspace, ∑ i ∈ Finset.range (c.M + 1),
      D t l k i * (1 / 2 * p.c * (S k i - S' k i)) =
      1 / 2 * p.c * ∑ k ∈ Finset.range c.Nspace, ∑ i ∈ Finset.range (c.M + 1),
        D t l k i * (S k i - S' k i) := by
    intro l
    simp only [Finset.mul_sum]
    exact Finset.sum_congr rfl fun _ _ => Finset.sum_congr rfl fun _ _ => by ring
  have e2 : (angularSum p.Nang p.ws fun l => ∑ k ∈ Finset.range c.Nspace,
      ∑ i ∈ Finset.range (c.M + 1), D t l k i * (1 / 2 * p.c * (S k i - S' k i))) =
      1 / 2 * p.c * angularSum p.Nang p.ws fun l => ∑ k ∈ Finset.range c.Nspace,
        ∑ i ∈ Finset.range (c.M + 1), D t l k i * (S k i - S' k i) := by
    unfold angularSum
    rw [Finset.mul_sum]
    exact Finset.sum_congr rfl fun l _ => by simp only [e l]; ring
  rw [e2]
  simp only [hD]
  ring

/-! ### Bounds for the terms of the rate -/

theorem sphereSqNorm_eq (N M : ℕ) (e : ℕ → ℝ) (u : ℕ → ℕ → ℝ) (h : ∀ k < N, e k < e (k + 1)) :
    sphereSqNorm N M e u = ∑ k ∈ Finset.range N, ∑ i ∈ Finset.range (M + 1),
      u k i * matVec M (fun i j => sphereMass i j (e k) (e (k + 1))) (u k) i :=
  Finset.sum_congr rfl fun k hk => (mass_form M (u k) (h k (Finset.mem_range.1 hk))).symm

theorem cell_sq_nonneg (M : ℕ) (x : ℕ → ℝ) {a b : ℝ} (h : a < b) :
    0 ≤ ∫ r in a..b, r ^ 2 * sphereField M x a b r ^ 2 :=
  intervalIntegral.integral_nonneg h.le fun _ _ => mul_nonneg (sq_nonneg _) (sq_nonneg _)

theorem sphereSqNorm_nonneg (N M : ℕ) (e : ℕ → ℝ) (u : ℕ → ℕ → ℝ) (h : ∀ k < N, e k < e (k + 1)) :
    0 ≤ sphereSqNorm N M e u :=
  Finset.sum_nonneg fun k hk => cell_sq_nonneg M _ (h k (Finset.mem_range.1 hk))

/-- The scalar flux has at most the norm of the angular flux. -/
theorem sphere_scalar_le_angular (p : RhsParams) (hp : ∀ l < p.Nang, 0 ≤ p.ws l)
    (hw : ∑ l ∈ Finset.range p.Nang, p.ws l = 1) (N M : ℕ) (e : ℕ → ℝ)
    (h : ∀ k < N, e k < e (k + 1)) (V : ℕ → ℕ → ℕ → ℝ) :
    sphereSqNorm N M e (scalarCoef p V) ≤ sphereAngularSq p N M e V := by
  unfold sphereAngularSq sphereSqNorm
  rw [angularSum_sum]
  refine Finset.sum_le_sum fun k hk => ?_
  have hk := h k (Finset.mem_range.1 hk)
  have hc := fun l => continuous_sphereField M (V l k) hk
  have hc' := continuous_sphereField M (scalarCoef p V k) hk
  have e1 : (angularSum p.Nang p.ws fun l => ∫ r in (e k)..(e (k + 1)),
      r ^ 2 * sphereField M (V l k) (e k) (e (k + 1)) r ^ 2) =
      ∫ r in (e k)..(e (k + 1)), r ^ 2 * angularSum p.Nang p.ws fun l =>
        sphereField M (V l k) (e k) (e (k + 1)) r ^ 2 := by
    unfold angularSum
    simp only [← intervalIntegral.integral_const_mul]
    rw [← intervalIntegral.integral_finsetSum]
    · refine intervalIntegral.integral_congr fun r _ => ?_
      simp only [Finset.mul_sum]
      exact Finset.sum_congr rfl fun l _ => by ring
    · intro l _
      have := hc l
      exact Continuous.intervalIntegrable (by fun_prop) _ _
  rw [e1]
  refine intervalIntegral.integral_mono_on hk.le ?_ ?_ fun r _ => ?_
  · exact Continuous.intervalIntegrable (by fun_prop) _ _
  · unfold angularSum
    have : Continuous fun r => ∑ l ∈ Finset.range p.Nang,
        p.ws l * sphereField M (V l k) (e k) (e (k + 1)) r ^ 2 :=
      continuous_finsetSum _ fun l _ => continuous_const.mul ((hc l).pow 2)
    exact Continuous.intervalIntegrable (by fun_prop) _ _
  · refine mul_le_mul_of_nonneg_left ?_ (sq_nonneg _)
    have e2 : sphereField M (scalarCoef p V k) (e k) (e (k + 1)) r =
        angularSum p.Nang p.ws fun l => sphereField M (V l k) (e k) (e (k + 1)) r := by
      unfold sphereField scalarCoef angularSum
      simp only [Finset.mul_sum, Finset.sum_mul]
      rw [Finset.sum_comm]
      exact Finset.sum_congr rfl fun l _ => Finset.sum_congr rfl fun j _ => by ring
    rw [e2]
    exact angularSum_sq_le p.Nang p.ws _ hp hw

theorem sphereJ_scale {b : ℝ} (h : 0 < b) (i j : ℕ) :
    sphereJ i j 0 b = b * sphereJ i j 0 1 := by
  rw [sphereJ_eq_I h, sphereJ_eq_I one_pos]
  have : radius 0 b = C b * radius 0 1 := by
    unfold radius
    simp only [zero_add, sub_zero, mul_add, ← mul_assoc, ← C_mul]
    congr 2 <;> ring_nf
  rw [this, mul_assoc (C b), I_C_mul]
  ring

theorem sphereMass_scale {b : ℝ} (h : 0 < b) (i j : ℕ) :
    sphereMass i j 0 b = b ^ 2 * sphereMass i j 0 1 := by
  rw [sphereMass_eq_I h, sphereMass_eq_I one_pos]
  have : radius 0 b = C b * radius 0 1 := by
    unfold radius
    simp only [zero_add, sub_zero, mul_add, ← mul_assoc, ← C_mul]
    congr 2 <;> ring_nf
  rw [this, mul_pow, ← C_pow, mul_assoc (C (b ^ 2)), I_C_mul]
  ring

/-- Inverse inequality on the innermost cell of width one. -/
theorem inverse_unit (M : ℕ) : ∃ C : ℝ, 1 ≤ C ∧ ∀ x : ℕ → ℝ,
    ∑ i ∈ Finset.range (M + 1), x i * matVec M (fun i j => sphereJ i j 0 1) x i ≤
      C * ∑ i ∈ Finset.range (M + 1), x i * matVec M (fun i j => sphereMass i j 0 1) x i := by
  set up : (Fin (M + 1) → ℝ) → ℕ → ℝ := fun y i => if h : i < M + 1 then y ⟨i, h⟩ else 0 with hup
  have hupc : ∀ i, Continuous fun y => up y i := by
    intro i
    simp only [hup]
    split_ifs
    · exact continuous_apply _
    · exact continuous_const
  have hcont : ∀ A : ℕ → ℕ → ℝ, Continuous fun y : Fin (M + 1) → ℝ =>
      ∑ i ∈ Finset.range (M + 1), up y i * matVec M A (up y) i := by
    intro A
    unfold matVec
    exact continuous_finsetSum _ fun i _ => (hupc i).mul
      (continuous_finsetSum _ fun j _ => continuous_const.mul (hupc j))
  have hK := isCompact_sphere (0 : Fin (M + 1) → ℝ) 1
  obtain ⟨B, hB⟩ := hK.exists_bound_of_continuousOn
    (hcont fun i j => sphereJ i j 0 1).continuousOn
  have hne : (Metric.sphere (0 : Fin (M + 1) → ℝ) 1).Nonempty :=
    NormedSpace.sphere_nonempty.2 zero_le_one
  obtain ⟨y0, hy0, hmin⟩ := hK.exists_isMinOn hne
    (hcont fun i j => sphereMass i j 0 1).continuousOn
  set μ := ∑ i ∈ Finset.range (M + 1), up y0 i * matVec M (fun i j => sphereMass i j 0 1) (up y0) i
    with hμ
  have hμ0 : 0 < μ := by
    refine mass_pos one_pos ?_
    have hn : y0 ≠ 0 := by
      intro h
      rw [h] at hy0
      simp at hy0
    obtain ⟨i, hi⟩ := Function.ne_iff.1 hn
    refine ⟨i, Nat.lt_succ_iff.1 i.2, ?_⟩
    simp only [hup, dif_pos i.2]
    exact hi
  refine ⟨max 1 (B / μ), le_max_left _ _, fun x => ?_⟩
  -- homogeneity
  set y : Fin (M + 1) → ℝ := fun i => x i with hy
  have hxy : ∀ A : ℕ → ℕ → ℝ, ∑ i ∈ Finset.range (M + 1), x i * matVec M A x i =
      ∑ i ∈ Finset.range (M + 1), up y i * matVec M A (up y) i := by
    intro A
    have e : ∀ i ∈ Finset.range (M + 1), x i = up y i := by
      intro i hi
      simp only [hup, hy, dif_pos (Finset.mem_range.1 hi)]
    refine Finset.sum_congr rfl fun i hi => ?_
    rw [← e i hi]
    congr 1
    exact Finset.sum_congr rfl fun j hj => by rw [← e j hj]
  rw [hxy, hxy]
  by_cases h0 : y = 0
  · have : ∀ i, up y i = 0 := by intro i; simp [hup, h0]
    simp [this]
  · have hn : 0 < ‖y‖ := norm_pos_iff.2 h0
    set z := ‖y‖⁻¹ • y with hz
    have hzs : z ∈ Metric.sphere (0 : Fin (M + 1) → ℝ) 1 := by
      rw [mem_sphere_zero_iff_norm, hz, norm_smul, norm_inv, norm_norm, inv_mul_cancel₀ hn.ne']
    have hsc : ∀ A : ℕ → ℕ → ℝ, ∑ i ∈ Finset.range (M + 1), up y i * matVec M A (up y) i =
        ‖y‖ ^ 2 * ∑ i ∈ Finset.range (M + 1), up z i * matVec M A (up z) i := by
      intro A
      have e : ∀ i, up y i = ‖y‖ * up z i := by
        intro i
        simp only [hup, hz, Pi.smul_apply, smul_eq_mul]
        split_ifs
        · field_simp
        · ring
      have e2 : up y = fun i => ‖y‖ * up z i := funext e
      rw [Finset.mul_sum]
      refine Finset.sum_congr rfl fun i _ => ?_
      rw [e2, matVec_smul]
      ring
    rw [hsc, hsc]
    have h1 := le_of_abs_le (hB z hzs)
    have h2 : μ ≤ _ := hmin hzs
    have h3 : B ≤ max 1 (B / μ) * μ := by
      have := mul_le_mul_of_nonneg_right (le_max_right 1 (B / μ)) hμ0.le
      rwa [div_mul_cancel₀ _ hμ0.ne'] at this
    have h4 : max 1 (B / μ) * μ ≤ max 1 (B / μ) * ∑ i ∈ Finset.range (M + 1),
        up z i * matVec M (fun i j => sphereMass i j 0 1) (up z) i :=
      mul_le_mul_of_nonneg_left h2 (zero_le_one.trans (le_max_left _ _))
    have h5 := mul_le_mul_of_nonneg_left (h1.trans (h3.trans h4)) (sq_nonneg ‖y‖)
    refine h5.trans_eq (by ring)

/-- The weight `r` costs at most a multiple of the inverse width of the innermost cell. -/
theorem moment_le (M : ℕ) : ∃ C : ℝ, 1 ≤ C ∧ ∀ (N : ℕ) (e : ℕ → ℝ) (u : ℕ → ℕ → ℝ), e 0 = 0 →
    (∀ k < N, e k < e (k + 1)) → sphereSqMoment N M e u ≤ C / e 1 * sphereSqNorm N M e u := by
  obtain ⟨C, hC, hCx⟩ := inverse_unit M
  refine ⟨C, hC, fun N e u h0 h => ?_⟩
  unfold sphereSqMoment sphereSqNorm
  rw [Finset.mul_sum]
  refine Finset.sum_le_sum fun k hk => ?_
  have hkN := Finset.mem_range.1 hk
  have hk := h k hkN
  have h1 : 0 < e 1 := by
    have := h 0 (by omega)
    rwa [h0, zero_add] at this
  rcases Nat.eq_zero_or_pos k with hk0 | hk0
  · subst hk0
    rw [h0, zero_add, ← mass_form M (u 0) h1]
    have hJ := j_bilinear M (u 0) (u 0) h1
    simp only [← pow_two] at hJ
    rw [← hJ]
    have eJ : ∑ i ∈ Finset.range (M + 1), u 0 i * matVec M (fun i j => sphereJ i j 0 (e 1)) (u 0) i =
        e 1 * ∑ i ∈ Finset.range (M + 1), u 0 i * matVec M (fun i j => sphereJ i j 0 1) (u 0) i := by
      rw [Finset.mul_sum]
      refine Finset.sum_congr rfl fun i _ => ?_
      unfold matVec
      simp only [sphereJ_scale h1, Finset.mul_sum]
      exact Finset.sum_congr rfl fun j _ => by ring
    have eM : ∑ i ∈ Finset.range (M + 1), u 0 i *
        matVec M (fun i j => sphereMass i j 0 (e 1)) (u 0) i =
        e 1 ^ 2 * ∑ i ∈ Finset.range (M + 1),
          u 0 i * matVec M (fun i j => sphereMass i j 0 1) (u 0) i := by
      rw [Finset.mul_sum]
      refine Finset.sum_congr rfl fun i _ => ?_
      unfold matVec
      simp only [sphereMass_scale h1, Finset.mul_sum]
      exact Finset.sum_congr rfl fun j _ => by ring
    rw [eJ, eM]
    have := mul_le_mul_of_nonneg_left (hCx (u 0)) h1.le
    refine this.trans_eq ?_
    field_simp
  · have hek : e 1 ≤ e k := by
      have : ∀ j, 1 ≤ j → j < N → e 1 ≤ e j := by
        intro j hj
        induction j, hj using Nat.le_induction with
        | base => exact fun _ => le_rfl
        | succ j _ ih => exact fun hjN => (ih (by omega)).trans (h j (by omega)).le
      exact this k hk0 hkN
    have hc := continuous_sphereField M (u k) hk
    rw [← intervalIntegral.integral_const_mul]
    refine intervalIntegral.integral_mono_on hk.le ?_ ?_ fun r hr => ?_
    · exact Continuous.intervalIntegrable (by fun_prop) _ _
    · exact Continuous.intervalIntegrable (by fun_prop) _ _
    · have hr1 : e 1 ≤ r := hek.trans hr.1
      have hr0 : 0 < r := h1.trans_le hr1
      rw [← mul_assoc]
      refine mul_le_mul_of_nonneg_right ?_ (sq_nonneg _)
      rw [div_mul_eq_mul_div, le_div_iff₀ h1]
      nlinarith [mul_le_mul_of_nonneg_left hr1 hr0.le, sq_nonneg r]

/-! ### Solutions over an interval -/

/-- `V` solves the equations that the active right-hand side defines on `[a, b]`, except at the
times in `F`. -/
def SphereSolutionOn (p : RhsParams) (c : FluxConfig) (mesh : ℝ → MeshView)
    (mats : ℝ → ℕ → CellMats) (S : ℝ → ℕ → ℕ → ℝ) (a b : ℝ) (F : Set ℝ)
    (V : ℝ → ℕ → ℕ → ℕ → ℝ) : Prop :=
  (∀ l < p.Nang, ∀ k < c.Nspace, ∀ i ≤ c.M, ContinuousOn (fun s => V s l k i) (Icc a b)) ∧
  ∀ t ∈ Ico a b \ F, ∀ fs, ∃ R, activeCall p c t (mesh t) (mats t) (S t) fs (V t) = some R ∧
    ∀ l < p.Nang, ∀ k < c.Nspace, ∀ i ≤ c.M,
      HasDerivWithinAt (fun s => V s l k i) (R l k i) (Ici t) t

/-- A mesh of shells from the centre outwards over `[a, b]`, with its velocities and matrices. -/
structure SphereMeshOn (c : FluxConfig) (mesh : ℝ → MeshView) (mats : ℝ → ℕ → CellMats)
    (a b : ℝ) (F : Set ℝ) : Prop where
  centre : ∀ s ∈ Icc a b, (mesh s).edges 0 = 0
  ordered : ∀ s ∈ Icc a b, ∀ k < c.Nspace, (mesh s).edges k < (mesh s).edges (k + 1)
  cont : ∀ k ≤ c.Nspace, ContinuousOn (fun s => (mesh s).edges k) (Icc a b)
  velocity : ∀ t ∈ Ico a b \ F, ∀ k ≤ c.Nspace,
    HasDerivWithinAt (fun s => (mesh s).edges k) ((mesh t).Dedges k) (Ici t) t
  mats : ∀ t ∈ Ico a b \ F, ∀ k < c.Nspace, MatsExact c.M ((mesh t).edges k)
    ((mesh t).edges (k + 1)) ((mesh t).Dedges k) ((mesh t).Dedges (k + 1)) (mats t k)

theorem SphereMeshOn.mono {c : FluxConfig} {mesh : ℝ → MeshView} {mats : ℝ → ℕ → CellMats}
    {a b a' b' : ℝ} {F : Set ℝ} (h : SphereMeshOn c mesh mats a b F) (ha : a ≤ a') (hb : b' ≤ b) :
    SphereMeshOn c mesh mats a' b' F where
  centre s hs := h.centre s ⟨ha.trans hs.1, hs.2.trans hb⟩
  ordered s hs := h.ordered s ⟨ha.trans hs.1, hs.2.trans hb⟩
  cont k hk := (h.cont k hk).mono (Icc_subset_Icc ha hb)
  velocity t ht := h.velocity t ⟨⟨ha.trans ht.1.1, ht.1.2.trans_le hb⟩, ht.2⟩
  mats t ht := h.mats t ⟨⟨ha.trans ht.1.1, ht.1.2.trans_le hb⟩, ht.2⟩

theorem SphereSolutionOn.mono {p : RhsParams} {c : FluxConfig} {mesh : ℝ → MeshView}
    {mats : ℝ → ℕ → CellMats} {S : ℝ → ℕ → ℕ → ℝ} {a b a' b' : ℝ} {F : Set ℝ}
    {V : ℝ → ℕ → ℕ → ℕ → ℝ} (h : SphereSolutionOn p c mesh mats S a b F V) (ha : a ≤ a')
    (hb : b' ≤ b) : SphereSolutionOn p c mesh mats S a' b' F V :=
  ⟨fun l hl k hk i hi => (h.1 l hl k hk i hi).mono (Icc_subset_Icc ha hb),
    fun t ht => h.2 t ⟨⟨ha.trans ht.1.1, ht.1.2.trans_le hb⟩, ht.2⟩⟩

theorem continuousOn_sphereMass {a b : ℝ → ℝ} {s : Set ℝ} (ha : ContinuousOn a s)
    (hb : ContinuousOn b s) (h : ∀ x ∈ s, a x < b x) (i j : ℕ) :
    ContinuousOn (fun x => sphereMass i j (a x) (b x)) s := by
  refine ContinuousOn.congr (f := fun x => bb i * bb j / (2 * Real.pi) *
      rho2 ((a x + b x) / 2) ((b x - a x) / 2) (fun k => ttMom k i j) 0) ?_
    fun x hx => sphereMass_eq (h x hx) i j
  unfold rho2
  fun_prop

theorem continuousOn_sphereSqNorm {N M : ℕ} {e : ℝ → ℕ → ℝ} {s : Set ℝ} {u : ℝ → ℕ → ℕ → ℝ}
    (he : ∀ k ≤ N, ContinuousOn (fun x => e x k) s) (ho : ∀ x ∈ s, ∀ k < N, e x k < e x (k + 1))
    (hu : ∀ k < N, ∀ i ≤ M, ContinuousOn (fun x => u x k i) s) :
    ContinuousOn (fun x => sphereSqNorm N M (e x) (u x)) s := by
  refine ContinuousOn.congr (f := fun x => ∑ k ∈ Finset.range N, ∑ i ∈ Finset.range (M + 1),
      u x k i * matVec M (fun i j => sphereMass i j (e x k) (e x (k + 1))) (u x k) i) ?_
    fun x hx => sphereSqNorm_eq N M (e x) (u x) (ho x hx)
  unfold matVec
  refine continuousOn_finsetSum _ fun k hk => continuousOn_finsetSum _ fun i hi => ?_
  have hk := Finset.mem_range.1 hk
  refine (hu k hk i (by simpa [Nat.lt_succ_iff] using hi)).mul
    (continuousOn_finsetSum _ fun j hj => ?_)
  exact (continuousOn_sphereMass (he k hk.le) (he (k + 1) hk) (fun x hx => ho x hx k hk) i j).mul
    (hu k hk j (by simpa [Nat.lt_succ_iff] using hj))

/-- Weights equal to half the angular cells are positive and sum to one. -/
theorem cell_weights {p : RhsParams} (hd : DirectionSet p.Nang p.mus)
    (hw : ∀ l < p.Nang, p.ws l = angularWidth p.Nang p.mus l / 2) :
    (∀ l < p.Nang, 0 < p.ws l) ∧ ∑ l ∈ Finset.range p.Nang, p.ws l = 1 := by
  constructor
  · intro l hl
    rw [hw l hl]
    have := angularWidth_pos hd hl
    linarith
  · rw [Finset.sum_congr rfl fun l hl => hw l (Finset.mem_range.1 hl), ← Finset.sum_div,
      c15_widths_sum p.Nang (by have := hd.two; omega)]
    norm_num

/-- The angular error term is at most a multiple of the square norm. -/
theorem angular_moment_le {M : ℕ} {C : ℝ} (hC : 1 ≤ C)
    (hmom : ∀ (N : ℕ) (e : ℕ → ℝ) (u : ℕ → ℕ → ℝ), e 0 = 0 →
      (∀ k < N, e k < e (k + 1)) → sphereSqMoment N M e u ≤ C / e 1 * sphereSqNorm N M e u)
    {p : RhsParams} (hd : DirectionSet p.Nang p.mus)
    (hw : ∀ l < p.Nang, p.ws l = angularWidth p.Nang p.mus l / 2) (N : ℕ) (e : ℕ → ℝ)
    (h0 : e 0 = 0) (ho : ∀ k < N, e k < e (k + 1)) {δ h : ℝ} (hδ : 0 ≤ δ)
    (hmid : ∀ l < p.Nang, angularMid p.Nang p.mus l - p.mus l ≤ δ) (hh : 0 < h) (hh1 : h ≤ e 1)
    (D : ℕ → ℕ → ℕ → ℝ) :
    angularSum p.Nang p.ws (fun l => (angularMid p.Nang p.mus l - p.mus l) *
      sphereSqMoment N M e (D l)) ≤ δ * C / h * sphereAngularSq p N M e D := by
  have hp := (cell_weights hd hw).1
  unfold sphereAngularSq angularSum
  rw [Finset.mul_sum]
  refine Finset.sum_le_sum fun l hl => ?_
  have hl := Finset.mem_range.1 hl
  have hq : 0 ≤ sphereSqMoment N M e (D l) := by
    refine Finset.sum_nonneg fun k hk => ?_
    have hk := Finset.mem_range.1 hk
    have h0k : ∀ k ≤ N, 0 ≤ e k := by
      intro k
      induction k with
      | zero => exact fun _ => h0.ge
      | succ k ih => exact fun hk => (ih (by omega)).trans (ho k (by omega)).le
    exact intervalIntegral.integral_nonneg (ho k hk).le fun r hr =>
      mul_nonneg ((h0k k hk.le).trans hr.1) (sq_nonneg _)
  have hn := sphereSqNorm_nonneg N M e (D l) ho
  have h4 := hmom N e (D l) h0 ho
  have h5 : C / e 1 ≤ C / h := div_le_div_of_nonneg_left (by linarith) hh hh1
  have h6 : (angularMid p.Nang p.mus l - p.mus l) * sphereSqMoment N M e (D l) ≤
      δ * (C / h * sphereSqNorm N M e (D l)) :=
    (mul_le_mul_of_nonneg_right (hmid l hl) hq).trans
      (mul_le_mul_of_nonneg_left (h4.trans (mul_le_mul_of_nonneg_right h5 hn)) hδ)
  refine (mul_le_mul_of_nonneg_left h6 (hp l hl).le).trans_eq ?_
  ring

/-! ### Any quadrature weights -/

/-- The same parameters with the angular cells as weights. -/
noncomputable def cellParams (p : RhsParams) : RhsParams :=
  { p with ws := fun l => angularWidth p.Nang p.mus l / 2 }

theorem cauchy_weights {n : ℕ} {w v x : ℕ → ℝ} (hv : ∀ l < n, 0 < v l) {κ : ℝ}
    (hκ : ∑ l ∈ Finset.range n, w l ^ 2 / v l ≤ κ) :
    (∑ l ∈ Finset.range n, w l * x l) ^ 2 ≤ κ * ∑ l ∈ Finset.range n, v l * x l ^ 2 := by
  have h1 := Finset.sum_mul_sq_le_sq_mul_sq (Finset.range n) (fun l => w l / Real.sqrt (v l))
    (fun l => Real.sqrt (v l) * x l)
  have e1 : ∀ l ∈ Finset.range n, w l / Real.sqrt (v l) * (Real.sqrt (v l) * x l) = w l * x l := by
    intro l hl
    have : Real.sqrt (v l) ≠ 0 := (Real.sqrt_pos.2 (hv l (Finset.mem_range.1 hl))).ne'
    field_simp
  have e2 : ∀ l ∈ Finset.range n, (w l / Real.sqrt (v l)) ^ 2 = w l ^ 2 / v l := by
    intro l hl
    rw [div_pow, Real.sq_sqrt (hv l (Finset.mem_range.1 hl)).le]
  have e3 : ∀ l ∈ Finset.range n, (Real.sqrt (v l) * x l) ^ 2 = v l * x l ^ 2 := by
    intro l hl
    rw [mul_pow, Real.sq_sqrt (hv l (Finset.mem_range.1 hl)).le]
  rw [Finset.sum_congr rfl e1, Finset.sum_congr rfl e2, Finset.sum_congr rfl e3] at h1
  exact h1.trans (mul_le_mul_of_nonneg_right hκ (Finset.sum_nonneg fun l hl =>
    mul_nonneg (hv l (Finset.mem_range.1 hl)).le (sq_nonneg _)))

/-- The scalar flux of any weights in the norm of the angular cells. -/
theorem scalar_le_cells (p : RhsParams) (hd : DirectionSet p.Nang p.mus) {κ : ℝ}
    (hκ : ∑ l ∈ Finset.range p.Nang, p.ws l ^ 2 / (angularWidth p.Nang p.mus l / 2) ≤ κ)
    (M k : ℕ) {a b : ℝ} (h : a < b) (D : ℕ → ℕ → ℕ → ℝ) :
    ∫ r in a..b, r ^ 2 * sphereField M (scalarCoef p D k) a b r ^ 2 ≤
      κ * ∑ l ∈ Finset.range p.Nang, angularWidth p.Nang p.mus l / 2 *
        ∫ r in a..b, r ^ 2 * sphereField M (D l k) a b r ^ 2 := by
  have hv : ∀ l < p.Nang, 0 < angularWidth p.Nang p.mus l / 2 := fun l hl =>
    half_pos (angularWidth_pos hd hl)
  have hc := fun l => continuous_sphereField M (D l k) h
  have hc' := continuous_sphereField M (scalarCoef p D k) h
  have e1 : κ * ∑ l ∈ Finset.range p.Nang, angularWidth p.Nang p.mus l / 2 *
        ∫ r in a..b, r ^ 2 * sphereField M (D l k) a b r ^ 2 =
      ∫ r in a..b, r ^ 2 * (κ * ∑ l ∈ Finset.range p.Nang, angularWidth p.Nang p.mus l / 2 *
        sphereField M (D l k) a b r ^ 2) := by
    simp only [← intervalIntegral.integral_const_mul]
    rw [← intervalIntegral.integral_finsetSum, ← intervalIntegral.integral_const_mul]
    · refine intervalIntegral.integral_congr fun r _ => ?_
      simp only [Finset.mul_sum]
      exact Finset.sum_congr rfl fun l _ => by ring
    · intro l _
      have := hc l
      exact Continuous.intervalIntegrable (by fun_prop) _ _
  rw [e1]
  refine intervalIntegral.integral_mono_on h.le ?_ ?_ fun r _ => ?_
  · exact Continuous.intervalIntegrable (by fun_prop) _ _
  · have : Continuous fun r => ∑ l ∈ Finset.range p.Nang,
        angularWidth p.Nang p.mus l / 2 * sphereField M (D l k) a b r ^ 2 :=
      continuous_finsetSum _ fun l _ => continuous_const.mul ((hc l).pow 2)
    exact Continuous.intervalIntegrable (by fun_prop) _ _
  · refine mul_le_mul_of_nonneg_left ?_ (sq_nonneg _)
    have e2 : sphereField M (scalarCoef p D k) a b r =
        ∑ l ∈ Finset.range p.Nang, p.ws l * sphereField M (D l k) a b r := by
      unfold sphereField scalarCoef angularSum
      simp only [Finset.mul_sum, Finset.sum_mul]
      rw [Finset.sum_comm]
      exact Finset.sum_congr rfl fun l _ => Finset.sum_congr rfl fun j _ => by ring
    rw [e2]
    exact cauchy_weights hv hκ

/-- Rate of the square norm in the weights of the angular cells, for a scheme with any weights. -/
theorem sphere_residual_rate_le {C : ℝ} (hC : 1 ≤ C) (c : FluxConfig)
    (hmom : ∀ (N : ℕ) (e : ℕ → ℝ) (u : ℕ → ℕ → ℝ), e 0 = 0 →
      (∀ k < N, e k < e (k + 1)) → sphereSqMoment N c.M e u ≤ C / e 1 * sphereSqNorm N c.M e u)
    (p : RhsParams) (hd : DirectionSet p.Nang p.mus) {κ : ℝ}
    (hκ : ∑ l ∈ Finset.range p.Nang, p.ws l ^ 2 / (angularWidth p.Nang p.mus l / 2) ≤ κ)
    (hc : 0 ≤ p.c) (hg : c.geometry = .sphere) (hM : c.M ≤ 10) (t : ℝ) (mesh : ℝ → MeshView)
    (h0 : (mesh t).edges 0 = 0)
    (hm : ∀ k < c.Nspace, (mesh t).edges k < (mesh t).edges (k + 1))
    (hedge : ∀ k ≤ c.Nspace,
      HasDerivWithinAt (fun s => (mesh s).edges k) ((mesh t).Dedges k) (Ici t) t)
    (mats : ℕ → CellMats)
    (hmats : ∀ k < c.Nspace, MatsExact c.M ((mesh t).edges k) ((mesh t).edges (k + 1))
      ((mesh t).Dedges k) ((mesh t).Dedges (k + 1)) (mats k))
    (fs : FluxState) (D : ℝ → ℕ → ℕ → ℕ → ℝ) (Rd Q : ℕ → ℕ → ℕ → ℝ)
    (hDer : ∀ l < p.Nang, ∀ k < c.Nspace, ∀ i ≤ c.M,
      HasDerivWithinAt (fun s => D s l k i) (Rd l k i) (Ici t) t)
    (hmass : ∀ l < p.Nang, ∀ k < c.Nspace, ∀ i ≤ c.M,
      matVec c.M (mats k).Mass (Rd l k) i =
        sphereWeak p (vacuumConfig c) t (mesh t) (mats k) (fun _ _ => 0) fs (D t) l k i
          + p.c * matVec c.M (mats k).Mass (scalarCoef p (D t) k) i
          - matVec c.M (mats k).Mass (D t l k) i + Q l k i)
    {d h : ℝ} (hd0 : 0 ≤ d) (hmid : ∀ l < p.Nang, angularMid p.Nang p.mus l - p.mus l ≤ d)
    (hh : 0 < h) (hh1 : h ≤ (mesh t).edges 1) :
    ∃ Z, HasDerivWithinAt
        (fun s => sphereAngularSq (cellParams p) c.Nspace c.M (mesh s).edges (D s)) Z (Ici t) t ∧
      Z ≤ -(angularSum p.Nang (cellParams p).ws (fun l => ∑ k ∈ Finset.range (c.Nspace + 1),
          (mesh t).edges k ^ 2 * (|p.mus l - (mesh t).Dedges k| *
            sphereJump c.Nspace c.M (mesh t).edges (D t l) k ^ 2)))
        + (p.c * (1 + κ) - 2 + 2 * d * C / h) *
          sphereAngularSq (cellParams p) c.Nspace c.M (mesh t).edges (D t)
        + 2 * angularSum p.Nang (cellParams p).ws (fun l => ∑ k ∈ Finset.range c.Nspace,
            ∑ i ∈ Finset.range (c.M + 1), D t l k i * Q l k i) := by
  set p' := cellParams p with hp'
  have hw : ∀ l < p'.Nang, p'.ws l = angularWidth p'.Nang p'.mus l / 2 := fun _ _ => rfl
  have hd' : DirectionSet p'.Nang p'.mus := hd
  obtain ⟨hpos, hsum⟩ := cell_weights hd' hw
  set X : ℕ → ℕ → ℝ := fun k i => p.c * (matVec c.M (mats k).Mass (scalarCoef p (D t) k) i
    - matVec c.M (mats k).Mass (scalarCoef p' (D t) k) i) with hX
  have hder := sphere_residual_rate p' hd' hw c hg hM t mesh h0 hm hedge mats hmats fs D Rd
    (fun l k i => Q l k i + X k i) hDer (fun l hl k hk i hi => by
      rw [hmass l hl k hk i hi]
      have e : sphereWeak p (vacuumConfig c) t (mesh t) (mats k) (fun _ _ => 0) fs (D t) l k i =
        sphereWeak p' (vacuumConfig c) t (mesh t) (mats k) (fun _ _ => 0) fs (D t) l k i := rfl
      have e2 : p.c = p'.c := rfl
      rw [e]
      simp only [hX, e2]
      ring)
  refine ⟨_, hder, ?_⟩
  have h3 := angular_moment_le hC hmom hd' hw c.Nspace (mesh t).edges h0 hm hd0 hmid hh hh1 (D t)
  have h4 := sphere_scalar_le_angular p' (fun l hl => (hpos l hl).le) hsum c.Nspace c.M
    (mesh t).edges hm (D t)
  -- scattering with the weights of the scheme
  have h5 : angularSum p'.Nang p'.ws (fun l => ∑ k ∈ Finset.range c.Nspace,
      ∑ i ∈ Finset.range (c.M + 1), D t l k i * (Q l k i + X k i)) =
      angularSum p.Nang p'.ws (fun l => ∑ k ∈ Finset.range c.Nspace,
        ∑ i ∈ Finset.range (c.M + 1), D t l k i * Q l k i)
      + ∑ k ∈ Finset.range c.Nspace, ∑ i ∈ Finset.range (c.M + 1),
        scalarCoef p' (D t) k i * X k i := by
    unfold angularSum scalarCoef angularSum
    simp only [mul_add, Finset.sum_add_distrib]
    congr 1
    simp only [Finset.mul_sum, Finset.sum_mul]
    rw [Finset.sum_comm]
    refine Finset.sum_congr rfl fun k _ => ?_
    rw [Finset.sum_comm]
    exact Finset.sum_congr rfl fun i _ => Finset.sum_congr rfl fun l _ => by ring
  have h6 : ∀ k ∈ Finset.range c.Nspace, 2 * ∑ i ∈ Finset.range (c.M + 1),
      scalarCoef p' (D t) k i * X k i ≤
      p.c * (κ * ∑ l ∈ Finset.range p.Nang, angularWidth p.Nang p.mus l / 2 *
        (∫ r in ((mesh t).edges k)..((mesh t).edges (k + 1)),
          r ^ 2 * sphereField c.M (D t l k) ((mesh t).edges k) ((mesh t).edges (k + 1)) r ^ 2)
      - ∫ r in ((mesh t).edges k)..((mesh t).edges (k + 1)), r ^ 2 *
          sphereField c.M (scalarCoef p' (D t) k) ((mesh t).edges k) ((mesh t).edges (k + 1)) r ^ 2) := by
    intro k hk
    have hk := Finset.mem_range.1 hk
    have hab := hm k hk
    have h7 := scalar_le_cells p hd hκ c.M k hab (D t)
    have e1 : ∑ i ∈ Finset.range (c.M + 1), scalarCoef p' (D t) k i * X k i =
        p.c * (∑ i ∈ Finset.range (c.M + 1), scalarCoef p' (D t) k i *
            matVec c.M (mats k).Mass (scalarCoef p (D t) k) i
          - ∑ i ∈ Finset.range (c.M + 1), scalarCoef p' (D t) k i *
            matVec c.M (mats k).Mass (scalarCoef p' (D t) k) i) := by
      rw [← Finset.sum_sub_distrib, Finset.mul_sum]
      exact Finset.sum_congr rfl fun i _ => by simp only [hX]; ring
    have hf1 := continuous_sphereField c.M (scalarCoef p' (D t) k) hab
    have hf2 := continuous_sphereField c.M (scalarCoef p (D t) k) hab
    have e2 : 2 * ∫ r in ((mesh t).edges k)..((mesh t).edges (k + 1)), r ^ 2 *
        (sphereField c.M (scalarCoef p' (D t) k) ((mesh t).edges k) ((mesh t).edges (k + 1)) r *
          sphereField c.M (scalarCoef p (D t) k) ((mesh t).edges k) ((mesh t).edges (k + 1)) r) ≤
        (∫ r in ((mesh t).edges k)..((mesh t).edges (k + 1)), r ^ 2 *
          sphereField c.M (scalarCoef p' (D t) k) ((mesh t).edges k) ((mesh t).edges (k + 1)) r ^ 2)
        + ∫ r in ((mesh t).edges k)..((mesh t).edges (k + 1)), r ^ 2 *
          sphereField c.M (scalarCoef p (D t) k) ((mesh t).edges k) ((mesh t).edges (k + 1)) r ^ 2 := by
      rw [← intervalIntegral.integral_const_mul, ← intervalIntegral.integral_add]
      · refine intervalIntegral.integral_mono_on hab.le ?_ ?_ fun r _ => ?_
        · exact Continuous.intervalIntegrable (by fun_prop) _ _
        · exact Continuous.intervalIntegrable (by fun_prop) _ _
        · nlinarith [mul_nonneg (sq_nonneg r) (sq_nonneg
            (sphereField c.M (scalarCoef p' (D t) k) ((mesh t).edges k) ((mesh t).edges (k + 1)) r -
            sphereField c.M (scalarCoef p (D t) k) ((mesh t).edges k) ((mesh t).edges (k + 1)) r))]
      · exact Continuous.intervalIntegrable (by fun_prop) _ _
      · exact Continuous.intervalIntegrable (by fun_prop) _ _
    rw [e1, quad_congr (hmats k hk).Mass, quad_congr (hmats k hk).Mass, mass_bilinear c.M _ _ hab,
      mass_form c.M _ hab]
    rw [mul_left_comm]
    refine mul_le_mul_of_nonneg_left ?_ hc
    linarith
  have h7 : 2 * ∑ k ∈ Finset.range c.Nspace, ∑ i ∈ Finset.range (c.M + 1),
      scalarCoef p' (D t) k i * X k i ≤
      p.c * (κ * sphereAngularSq p' c.Nspace c.M (mesh t).edges (D t)
        - sphereSqNorm c.Nspace c.M (mesh t).edges (scalarCoef p' (D t))) := by
    rw [Finset.mul_sum]
    refine (Finset.sum_le_sum h6).trans_eq ?_
    rw [← Finset.mul_sum, Finset.sum_sub_distrib, ← Finset.mul_sum]
    unfold sphereAngularSq angularSum sphereSqNorm
    congr 3
    simp only [Finset.mul_sum]
    rw [Finset.sum_comm]
    rfl
  have h8 := mul_le_mul_of_nonneg_left h4 hc
  rw [h5]
  have e : (p.c * (1 + κ) - 2 + 2 * d * C / h) = p.c + p.c * κ - 2 + 2 * (d * C / h) := by ring
  rw [e]
  have e2 : p'.c = p.c := rfl
  have e3 : p'.mus = p.mus := rfl
  have e4 : p'.Nang = p.Nang := rfl
  simp only [e2, e3, e4] at h3 h8 ⊢
  linarith

/-- C103, bound for every set of directions: two solutions with the same source and boundary data
separate at most like `exp ((2 (c - 1) + 2 δ C / h) t)` in the square norm.  `δ` bounds how far a
direction lies left of the middle of its angular cell, `h` is a lower bound of the radius of the
innermost cell, and `C` depends only on the order `M`. -/
theorem c103_sphere_difference_bound (M : ℕ) (hM : M ≤ 10) : ∃ C : ℝ, 1 ≤ C ∧
    ∀ (p : RhsParams) (c : FluxConfig) (mesh : ℝ → MeshView) (mats : ℝ → ℕ → CellMats)
      (S : ℝ → ℕ → ℕ → ℝ) (a b δ h : ℝ) (F : Set ℝ) (V W : ℝ → ℕ → ℕ → ℕ → ℝ),
      DirectionSet p.Nang p.mus → (∀ l < p.Nang, p.ws l = angularWidth p.Nang p.mus l / 2) →
      0 ≤ p.c → c.geometry = .sphere → c.M = M → F.Finite → SphereMeshOn c mesh mats a b F →
      0 ≤ δ → (∀ l < p.Nang, angularMid p.Nang p.mus l - p.mus l ≤ δ) →
      0 < h → (∀ s ∈ Icc a b, h ≤ (mesh s).edges 1) →
      SphereSolutionOn p c mesh mats S a b F V → SphereSolutionOn p c mesh mats S a b F W →
      ∀ t ∈ Icc a b,
        sphereAngularSq p c.Nspace c.M (mesh t).edges (fun l k i => V t l k i - W t l k i) ≤
          sphereAngularSq p c.Nspace c.M (mesh a).edges (fun l k i => V a l k i - W a l k i) *
            Real.exp ((2 * (p.c - 1) + 2 * δ * C / h) * (t - a)) := by
  obtain ⟨C, hC, hmom⟩ := moment_le M
  refine ⟨C, hC, ?_⟩
  intro p c mesh mats S a b δ h F V W hd hw hc hg hcM hF hmesh hδ hmid hh hh1 hV hW t ht
  subst hcM
  obtain ⟨hp, hw1⟩ := cell_weights hd hw
  set D : ℝ → ℕ → ℕ → ℕ → ℝ := fun s l k i => V s l k i - W s l k i with hD
  set fs : FluxState := ⟨0, 0, 0, 0, 0, 0, 0, 0, 0, fun _ => 0⟩
  have hcont : ContinuousOn (fun s => sphereAngularSq p c.Nspace c.M (mesh s).edges (D s))
      (Icc a b) := by
    unfold sphereAngularSq angularSum
    refine continuousOn_finsetSum _ fun l hl => continuousOn_const.mul ?_
    have hl := Finset.mem_range.1 hl
    exact continuousOn_sphereSqNorm hmesh.cont hmesh.ordered
      fun k hk i hi => (hV.1 l hl k hk i hi).sub (hW.1 l hl k hk i hi)
  choose! R hR hRd using fun x hx => hV.2 x hx fs
  choose! R' hR' hRd' using fun x hx => hW.2 x hx fs
  have hder := fun x (hx : x ∈ Ico a b \ F) => c103_sphere_difference_rate p hd hw c hg hM x mesh
    (hmesh.centre x ⟨hx.1.1, hx.1.2.le⟩) (hmesh.ordered x ⟨hx.1.1, hx.1.2.le⟩)
    (hmesh.velocity x hx) (mats x) (hmesh.mats x hx) (S x) (S x) fs fs V W (R x) (R' x)
    (hR x hx) (hR' x hx) (hRd x hx) (hRd' x hx)
  have := gronwall_except hF _ _ (2 * (p.c - 1) + 2 * δ * C / h) 0 a b _ hcont hder le_rfl
    (fun x hx => ?_) t ht
  · rwa [gronwallBound_ε0] at this
  · have hx' : x ∈ Icc a b := ⟨hx.1.1, hx.1.2.le⟩
    have ho := hmesh.ordered x hx'
    have h1 : 0 ≤ angularSum p.Nang p.ws (fun l => ∑ k ∈ Finset.range (c.Nspace + 1),
        (mesh x).edges k ^ 2 * (|p.mus l - (mesh x).Dedges k| *
          sphereJump c.Nspace c.M (mesh x).edges (fun k i => V x l k i - W x l k i) k ^ 2)) := by
      unfold angularSum
      exact Finset.sum_nonneg fun l hl => mul_nonneg (hp l (Finset.mem_range.1 hl)).le
        (Finset.sum_nonneg fun _ _ => mul_nonneg (sq_nonneg _)
          (mul_nonneg (abs_nonneg _) (sq_nonneg _)))
    have h2 := mul_le_mul_of_nonneg_left (sphere_scalar_le_angular p (fun l hl => (hp l hl).le) hw1
      c.Nspace c.M (mesh x).edges ho (D x)) hc
    have h3 := angular_moment_le hC hmom hd hw c.Nspace (mesh x).edges (hmesh.centre x hx') ho hδ hmid
      hh (hh1 x hx') (D x)
    simp only [hD] at h1 h2 h3 ⊢
    simp only [sub_self, mul_zero, Finset.sum_const_zero, angularSum] at h1 h2 h3 ⊢
    have e : (2 * (p.c - 1) + 2 * δ * C / h) = 2 * (p.c - 1) + 2 * (δ * C / h) := by ring
    rw [e]
    linarith

/-- C103, bound for every set of directions and every set of weights.  The norm uses the angular
cells as weights; the weights of the scheme enter through `κ ≥ Σ w_l² / (width_l / 2)`, which is `1`
if they are half the angular widths. -/
theorem c103_sphere_difference_bound_weights (M : ℕ) (hM : M ≤ 10) : ∃ C : ℝ, 1 ≤ C ∧
    ∀ (p : RhsParams) (c : FluxConfig) (mesh : ℝ → MeshView) (mats : ℝ → ℕ → CellMats)
      (S : ℝ → ℕ → ℕ → ℝ) (a b δ h κ : ℝ) (F : Set ℝ) (V W : ℝ → ℕ → ℕ → ℕ → ℝ),
      DirectionSet p.Nang p.mus →
      ∑ l ∈ Finset.range p.Nang, p.ws l ^ 2 / (angularWidth p.Nang p.mus l / 2) ≤ κ →
      0 ≤ p.c → c.geometry = .sphere → c.M = M → F.Finite → SphereMeshOn c mesh mats a b F →
      0 ≤ δ → (∀ l < p.Nang, angularMid p.Nang p.mus l - p.mus l ≤ δ) →
      0 < h → (∀ s ∈ Icc a b, h ≤ (mesh s).edges 1) →
      SphereSolutionOn p c mesh mats S a b F V → SphereSolutionOn p c mesh mats S a b F W →
      ∀ t ∈ Icc a b,
        sphereAngularSq (cellParams p) c.Nspace c.M (mesh t).edges
            (fun l k i => V t l k i - W t l k i) ≤
          sphereAngularSq (cellParams p) c.Nspace c.M (mesh a).edges
              (fun l k i => V a l k i - W a l k i) *
            Real.exp ((p.c * (1 + κ) - 2 + 2 * δ * C / h) * (t - a)) := by
  obtain ⟨C, hC, hmom⟩ := moment_le M
  refine ⟨C, hC, ?_⟩
  intro p c mesh mats S a b δ h κ F V W hd hκ hc hg hcM hF hmesh hδ hmid hh hh1 hV hW t ht
  subst hcM
  set D : ℝ → ℕ → ℕ → ℕ → ℝ := fun s l k i => V s l k i - W s l k i with hD
  set fs : FluxState := ⟨0, 0, 0, 0, 0, 0, 0, 0, 0, fun _ => 0⟩
  have hcont : ContinuousOn (fun s => sphereAngularSq (cellParams p) c.Nspace c.M (mesh s).edges (D s))
      (Icc a b) := by
    unfold sphereAngularSq angularSum
    refine continuousOn_finsetSum _ fun l hl => continuousOn_const.mul ?_
    have hl := Finset.mem_range.1 hl
    exact continuousOn_sphereSqNorm hmesh.cont hmesh.ordered
      fun k hk i hi => (hV.1 l hl k hk i hi).sub (hW.1 l hl k hk i hi)
  choose! R hR hRd using fun x hx => hV.2 x hx fs
  choose! R' hR' hRd' using fun x hx => hW.2 x hx fs
  have hder := fun x (hx : x ∈ Ico a b \ F) => sphere_residual_rate_le hC c hmom p hd hκ hc hg hM x
    mesh (hmesh.centre x ⟨hx.1.1, hx.1.2.le⟩) (hmesh.ordered x ⟨hx.1.1, hx.1.2.le⟩)
    (hmesh.velocity x hx) (mats x) (hmesh.mats x hx) fs D _ _
    (fun l hl k hk i hi => (hRd x hx l hl k hk i hi).sub (hRd' x hx l hl k hk i hi))
    (sphere_difference_mass p c hg x (mesh x) (hmesh.centre x ⟨hx.1.1, hx.1.2.le⟩)
      (hmesh.ordered x ⟨hx.1.1, hx.1.2.le⟩) (mats x) (hmesh.mats x hx) (S x) (S x) fs fs (V x) (W x)
      (R x) (R' x) (hR x hx) (hR' x hx)) hδ hmid hh (hh1 x ⟨hx.1.1, hx.1.2.le⟩)
  choose! Z hZ hZle using hder
  have := gronwall_except hF _ Z (p.c * (1 + κ) - 2 + 2 * δ * C / h) 0 a b _ hcont hZ le_rfl
    (fun x hx => ?_) t ht
  · rwa [gronwallBound_ε0] at this
  · have h1 : 0 ≤ angularSum p.Nang (cellParams p).ws (fun l => ∑ k ∈ Finset.range (c.Nspace + 1),
        (mesh x).edges k ^ 2 * (|p.mus l - (mesh x).Dedges k| *
          sphereJump c.Nspace c.M (mesh x).edges (D x l) k ^ 2)) := by
      unfold angularSum
      exact Finset.sum_nonneg fun l hl => mul_nonneg
        (half_pos (angularWidth_pos hd (Finset.mem_range.1 hl))).le
        (Finset.sum_nonneg fun _ _ => mul_nonneg (sq_nonneg _)
          (mul_nonneg (abs_nonneg _) (sq_nonneg _)))
    have h2 := hZle x hx
    have h3 : angularSum p.Nang (cellParams p).ws (fun l => ∑ k ∈ Finset.range c.Nspace,
        ∑ i ∈ Finset.range (c.M + 1), D x l k i * (1 / 2 * p.c * (S x k i - S x k i))) = 0 := by
      simp [angularSum]
    rw [h3] at h2
    linarith

/-- C103: if every direction is the middle of its angular cell (equally spaced directions), the
distance of two solutions never increases for a scattering ratio at most one.  For other
directions this fails, see `c103_sphere_norm_can_grow`. -/
theorem c103_sphere_never_grows_partial (p : RhsParams) (hd : DirectionSet p.Nang p.mus)
    (hw : ∀ l < p.Nang, p.ws l = angularWidth p.Nang p.mus l / 2) (hc : 0 ≤ p.c) (hc1 : p.c ≤ 1)
    (hmid : ∀ l < p.Nang, angularMid p.Nang p.mus l ≤ p.mus l)
    (c : FluxConfig) (hg : c.geometry = .sphere) (hM : c.M ≤ 10) (hN : 1 ≤ c.Nspace) (a b : ℝ)
    (F : Set ℝ) (hF : F.Finite) (mesh : ℝ → MeshView) (mats : ℝ → ℕ → CellMats)
    (hmesh : SphereMeshOn c mesh mats a b F) (S : ℝ → ℕ → ℕ → ℝ) (V W : ℝ → ℕ → ℕ → ℕ → ℝ)
    (hV : SphereSolutionOn p c mesh mats S a b F V)
    (hW : SphereSolutionOn p c mesh mats S a b F W) :
    AntitoneOn (fun t => sphereAngularSq p c.Nspace c.M (mesh t).edges
      fun l k i => V t l k i - W t l k i) (Icc a b) := by
  intro s hs t ht hst
  obtain ⟨C, hC, hb⟩ := c103_sphere_difference_bound c.M hM
  obtain ⟨x, hx, hmin⟩ := isCompact_Icc.exists_isMinOn (nonempty_Icc.2 (hs.1.trans hs.2))
    (hmesh.cont 1 hN)
  have hx1 : 0 < (mesh x).edges 1 := by
    have := hmesh.ordered x hx 0 (by omega)
    rwa [hmesh.centre x hx, zero_add] at this
  have := hb p c mesh mats S s t 0 ((mesh x).edges 1) F V W hd hw hc hg rfl hF
    (hmesh.mono hs.1 ht.2) le_rfl (fun l hl => by linarith [hmid l hl]) hx1
    (fun y hy => hmin ⟨hs.1.trans hy.1, hy.2.trans ht.2⟩) (hV.mono hs.1 ht.2) (hW.mono hs.1 ht.2)
    t ⟨hst, le_rfl⟩
  refine this.trans ?_
  have h0 : 0 ≤ sphereAngularSq p c.Nspace c.M (mesh s).edges
      (fun l k i => V s l k i - W s l k i) := by
    unfold sphereAngularSq angularSum
    exact Finset.sum_nonneg fun l hl => mul_nonneg
      ((cell_weights hd hw).1 l (Finset.mem_range.1 hl)).le
      (sphereSqNorm_nonneg _ _ _ _ (hmesh.ordered s hs))
  have h1 : Real.exp ((2 * (p.c - 1) + 2 * 0 * C / (mesh x).edges 1) * (t - s)) ≤ 1 := by
    rw [Real.exp_le_one_iff]
    have : (2 * (p.c - 1) + 2 * 0 * C / (mesh x).edges 1) = 2 * (p.c - 1) := by ring
    rw [this]
    nlinarith
  nlinarith

/-! ### The norm can grow -/

/-- Coefficients of the field `R - r` on the mesh `e`. -/
noncomputable def rampCoeffs (R : ℝ) (e : ℕ → ℝ) (k j : ℕ) : ℝ :=
  if j = 0 then (R - (e k + e (k + 1)) / 2) * Real.sqrt (Real.pi * (e (k + 1) - e k))
  else if j = 1 then
    -((e (k + 1) - e k) / 2) * (Real.sqrt (Real.pi * (e (k + 1) - e k)) / bb 1)
  else 0

theorem sphereField_ramp {M : ℕ} (hM : 1 ≤ M) (R : ℝ) (e : ℕ → ℝ) (k : ℕ)
    (h : e k < e (k + 1)) (x : ℝ) :
    sphereField M (rampCoeffs R e k) (e k) (e (k + 1)) x = R - x := by
  obtain ⟨-, hw⟩ := sqrt_pi_mul h
  have hb : bb 1 ≠ 0 := by simp [bb]
  unfold sphereField
  rw [← Finset.sum_subset (s₁ := Finset.range 2)
    (fun j hj => by simp only [Finset.mem_range] at hj ⊢; omega)
    (fun j _ hj => by
      have : ¬ j = 0 ∧ ¬ j = 1 := by simp only [Finset.mem_range] at hj; omega
      unfold rampCoeffs
      rw [if_neg this.1, if_neg this.2, zero_mul])]
  have hba : e (k + 1) - e k ≠ 0 := by linarith
  rw [Finset.sum_range_succ, Finset.sum_range_one, sphereBasis_zero, sphereBasis_eq]
  simp only [rampCoeffs, if_true, one_ne_zero, if_false, Nat.cast_one, Chebyshev.T_one,
    Polynomial.eval_X, ref]
  field_simp
  ring

theorem ramp_integral {N M : ℕ} (hM : 1 ≤ M) (R : ℝ) (e : ℕ → ℝ)
    (h : ∀ k < N, e k < e (k + 1)) (n : ℕ) :
    ∑ k ∈ Finset.range N, ∫ r in (e k)..(e (k + 1)),
      r ^ n * sphereField M (rampCoeffs R e k) (e k) (e (k + 1)) r ^ 2 =
    ∫ r in (e 0)..(e N), r ^ n * (R - r) ^ 2 := by
  rw [← intervalIntegral.sum_integral_adjacent_intervals
    (fun k _ => Continuous.intervalIntegrable (by fun_prop) _ _)]
  refine Finset.sum_congr rfl fun k hk => intervalIntegral.integral_congr fun r _ => ?_
  simp only [sphereField_ramp hM R e k (h k (Finset.mem_range.1 hk))]

theorem ramp_norm {N M : ℕ} (hM : 1 ≤ M) (e : ℕ → ℝ) (h0 : e 0 = 0)
    (h : ∀ k < N, e k < e (k + 1)) :
    sphereSqNorm N M e (rampCoeffs (e N) e) = e N ^ 5 / 30 ∧
      sphereSqMoment N M e (rampCoeffs (e N) e) = e N ^ 4 / 12 := by
  have p2 : ∀ R : ℝ, ∫ r in (0 : ℝ)..R, r ^ 2 * (R - r) ^ 2 = R ^ 5 / 30 := by
    intro R
    rw [intervalIntegral.integral_eq_sub_of_hasDerivAt
      (f := fun r => R ^ 2 * r ^ 3 / 3 - R * r ^ 4 / 2 + r ^ 5 / 5) (fun r _ => ?_)
      (Continuous.intervalIntegrable (by fun_prop) _ _)]
    · ring
    · refine HasDerivAt.congr_deriv ((((hasDerivAt_pow 3 r).const_mul (R ^ 2)).div_const 3 |>.sub
        (((hasDerivAt_pow 4 r).const_mul R).div_const 2)).add ((hasDerivAt_pow 5 r).div_const 5)) ?_
      push_cast
      ring
  have p1 : ∀ R : ℝ, ∫ r in (0 : ℝ)..R, r ^ 1 * (R - r) ^ 2 = R ^ 4 / 12 := by
    intro R
    rw [intervalIntegral.integral_eq_sub_of_hasDerivAt
      (f := fun r => R ^ 2 * r ^ 2 / 2 - 2 * R * r ^ 3 / 3 + r ^ 4 / 4) (fun r _ => ?_)
      (Continuous.intervalIntegrable (by fun_prop) _ _)]
    · ring
    · refine HasDerivAt.congr_deriv ((((hasDerivAt_pow 2 r).const_mul (R ^ 2)).div_const 2 |>.sub
        (((hasDerivAt_pow 3 r).const_mul (2 * R)).div_const 3)).add
        ((hasDerivAt_pow 4 r).div_const 4)) ?_
      push_cast
      ring
  constructor
  · have := ramp_integral hM (e N) e h 2
    rw [h0, p2] at this
    exact this
  · have := ramp_integral hM (e N) e h 1
    rw [h0, p1] at this
    simp only [pow_one] at this
    exact this

/-- Two opposite directions with equal weights. -/
noncomputable def oppositeParams (mu c : ℝ) : RhsParams where
  Nang := 2
  mus := fun k => if k = 0 then -mu else mu
  ws := fun _ => 1 / 2
  c := c
  ca := 0
  l := 1

theorem opposite_directions {mu : ℝ} (h : 0 < mu) (h1 : mu ≤ 1) (c : ℝ) :
    DirectionSet (oppositeParams mu c).Nang (oppositeParams mu c).mus where
  two := le_rfl
  lower := by simpa [oppositeParams] using h1
  upper := by simpa [oppositeParams] using h1
  mono := by
    intro k hk
    have : k = 0 := by simp only [oppositeParams] at hk; omega
    subst this
    norm_num [oppositeParams]
    linarith

theorem opposite_weights (mu c : ℝ) : ∀ l < (oppositeParams mu c).Nang,
    (oppositeParams mu c).ws l = angularWidth (oppositeParams mu c).Nang (oppositeParams mu c).mus l / 2 := by
  intro l hl
  have hl : l < 2 := hl
  interval_cases l <;> norm_num [oppositeParams, angularWidth, angularEdge]

/-- C103 is false for directions outside the middle of their cells.  With the two directions `±mu`,
`mu > 1/2` (which covers the Gauss-Lobatto and the Gauss-Legendre set of order two), on every mesh
of every size at most `5/2 (mu - 1/2) / (1 - c/2)` and every motion, next to every state there is
another one such that the distance of the two solutions grows, although the scattering ratio is at
most one and both have the same source and boundary data. -/
theorem c103_sphere_norm_can_grow (mu pc : ℝ) (h1 : mu ≤ 1) (hpc1 : pc ≤ 1)
    (c : FluxConfig) (hg : c.geometry = .sphere) (hM1 : 1 ≤ c.M) (hM : c.M ≤ 10)
    (hN : 1 ≤ c.Nspace) (t : ℝ) (mesh : ℝ → MeshView) (h0 : (mesh t).edges 0 = 0)
    (hm : ∀ k < c.Nspace, (mesh t).edges k < (mesh t).edges (k + 1))
    (hsize : (mesh t).edges c.Nspace * (1 - pc / 2) < 5 / 2 * (mu - 1 / 2))
    (hedge : ∀ k ≤ c.Nspace,
      HasDerivWithinAt (fun s => (mesh s).edges k) ((mesh t).Dedges k) (Ici t) t)
    (mats : ℕ → CellMats)
    (hmats : ∀ k < c.Nspace, MatsExact c.M ((mesh t).edges k) ((mesh t).edges (k + 1))
      ((mesh t).Dedges k) ((mesh t).Dedges (k + 1)) (mats k))
    (S : ℕ → ℕ → ℝ) (fs : FluxState) (W0 : ℕ → ℕ → ℕ → ℝ) :
    ∃ (V W : ℝ → ℕ → ℕ → ℕ → ℝ) (R R' : ℕ → ℕ → ℕ → ℝ) (d : ℝ),
      W t = W0 ∧
      activeCall (oppositeParams mu pc) c t (mesh t) mats S fs (V t) = some R ∧
      activeCall (oppositeParams mu pc) c t (mesh t) mats S fs (W t) = some R' ∧
      (∀ l k i, HasDerivAt (fun s => V s l k i) (R l k i) t) ∧
      (∀ l k i, HasDerivAt (fun s => W s l k i) (R' l k i) t) ∧
      HasDerivWithinAt (fun s => sphereAngularSq (oppositeParams mu pc) c.Nspace c.M (mesh s).edges
        fun l k i => V s l k i - W s l k i) d (Ici t) t ∧ 0 < d := by
  set e := (mesh t).edges with he
  have hpos : 0 < e c.Nspace := by
    have : ∀ k ≤ c.Nspace, 0 ≤ e k := by
      intro k
      induction k with
      | zero => exact fun _ => h0.ge
      | succ k ih => exact fun hk => (ih (by omega)).trans (hm k (by omega)).le
    have h2 := hm (c.Nspace - 1) (by omega)
    rw [Nat.sub_add_cancel hN] at h2
    exact (this _ (by omega)).trans_lt h2
  have hmu : 1 / 2 < mu := by
    have : 0 ≤ e c.Nspace * (1 - pc / 2) := mul_nonneg hpos.le (by linarith)
    linarith
  have hcall : ∀ V : ℕ → ℕ → ℕ → ℝ, ∃ R,
      activeCall (oppositeParams mu pc) c t (mesh t) mats S fs V = some R := by
    intro V
    unfold activeCall
    rw [if_neg (fun h => h.2 (centreChecks_pair mu (by linarith))), hg]
    exact ⟨_, rfl⟩
  set P : ℕ → ℕ → ℕ → ℝ := fun l k i => if l = 0 then rampCoeffs (e c.Nspace) e k i else 0 with hP
  obtain ⟨R, hR⟩ := hcall (fun l k i => W0 l k i + P l k i)
  obtain ⟨R', hR'⟩ := hcall W0
  set V : ℝ → ℕ → ℕ → ℕ → ℝ := fun s l k i => (W0 l k i + P l k i) + (s - t) * R l k i with hV
  set W : ℝ → ℕ → ℕ → ℕ → ℝ := fun s l k i => W0 l k i + (s - t) * R' l k i with hW
  have eV : V t = fun l k i => W0 l k i + P l k i := by funext l k i; simp [hV]
  have eW : W t = W0 := by funext l k i; simp [hW]
  have dV : ∀ l k i, HasDerivAt (fun s => V s l k i) (R l k i) t := by
    intro l k i
    exact ((((hasDerivAt_id t).sub_const t).mul_const (R l k i)).const_add
      (W0 l k i + P l k i)).congr_deriv (one_mul _)
  have dW : ∀ l k i, HasDerivAt (fun s => W s l k i) (R' l k i) t := by
    intro l k i
    exact ((((hasDerivAt_id t).sub_const t).mul_const (R' l k i)).const_add
      (W0 l k i)).congr_deriv (one_mul _)
  have hrate := c103_sphere_difference_rate (oppositeParams mu pc)
    (opposite_directions (by linarith) h1 pc) (opposite_weights mu pc) c hg hM t mesh h0 hm hedge mats hmats
    S S fs fs V W R R' (by rw [eV]; exact hR) (by rw [eW]; exact hR')
    (fun l _ k _ i _ => (dV l k i).hasDerivWithinAt) (fun l _ k _ i _ => (dW l k i).hasDerivWithinAt)
  refine ⟨V, W, R, R', _, eW, by rw [eV]; exact hR, by rw [eW]; exact hR', dV, dW, hrate, ?_⟩
  have eD : ∀ l k i, V t l k i - W t l k i = P l k i := by
    intro l k i; rw [eV, eW]; ring
  simp only [eD, ← he]
  obtain ⟨hA, hB⟩ := ramp_norm hM1 e h0 hm
  have z : ∀ a b x : ℝ, sphereField c.M (fun _ => 0) a b x = 0 := by
    intro a b x; simp [sphereField]
  have P0 : (fun k i => P 0 k i) = rampCoeffs (e c.Nspace) e := by
    funext k i; exact if_pos rfl
  have P1 : (fun k i => P 1 k i) = fun _ _ => 0 := by
    funext k i; exact if_neg one_ne_zero
  have PA : sphereSqNorm c.Nspace c.M e (fun _ _ => 0) = 0 := by
    simp [sphereSqNorm, z]
  have PB : sphereSqMoment c.Nspace c.M e (fun _ _ => 0) = 0 := by
    simp [sphereSqMoment, z]
  have hs : scalarCoef (oppositeParams mu pc) (fun l k i => P l k i) =
      fun k i => 1 / 2 * rampCoeffs (e c.Nspace) e k i := by
    funext k i
    simp [scalarCoef, angularSum, oppositeParams, hP]
  have hS : sphereSqNorm c.Nspace c.M e (fun k i => 1 / 2 * rampCoeffs (e c.Nspace) e k i) =
      1 / 4 * (e c.Nspace ^ 5 / 30) := by
    rw [← hA]
    unfold sphereSqNorm
    rw [Finset.mul_sum]
    refine Finset.sum_congr rfl fun k _ => ?_
    rw [← intervalIntegral.integral_const_mul]
    refine intervalIntegral.integral_congr fun r _ => ?_
    have : sphereField c.M (fun i => 1 / 2 * rampCoeffs (e c.Nspace) e k i) (e k) (e (k + 1)) r =
        1 / 2 * sphereField c.M (rampCoeffs (e c.Nspace) e k) (e k) (e (k + 1)) r := by
      unfold sphereField
      rw [Finset.mul_sum]
      exact Finset.sum_congr rfl fun i _ => by ring
    simp only [this]
    ring
  have hj0 : ∀ k ≤ c.Nspace, e k ^ 2 *
      (|(oppositeParams mu pc).mus 0 - (mesh t).Dedges k| *
        sphereJump c.Nspace c.M e (rampCoeffs (e c.Nspace) e) k ^ 2) = 0 := by
    intro k hk
    rcases Nat.eq_zero_or_pos k with h | h
    · subst h; rw [h0]; ring
    · have : sphereJump c.Nspace c.M e (rampCoeffs (e c.Nspace) e) k = 0 := by
        obtain ⟨n, rfl⟩ : ∃ n, k = n + 1 := ⟨k - 1, by omega⟩
        unfold sphereJump sphereTraceRight sphereTraceLeft
        simp only
        rw [sphereField_ramp hM1 _ e n (hm n (by omega))]
        split_ifs with hlt
        · rw [sphereField_ramp hM1 _ e (n + 1) (hm (n + 1) hlt)]; ring
        · have : n + 1 = c.Nspace := by omega
          rw [this]; ring
      rw [this]; ring
  have hj1 : ∀ k, sphereJump c.Nspace c.M e (fun _ _ => 0) k = 0 := by
    intro k
    unfold sphereJump sphereTraceRight
    cases k with
    | zero => simp [sphereTraceLeft, z]
    | succ n => simp [sphereTraceLeft, z]
  have a0 : angularMid 2 (oppositeParams mu pc).mus 0 - (oppositeParams mu pc).mus 0 = mu - 1 / 2 := by
    norm_num [angularMid, angularEdge, oppositeParams]; ring
  have hNang : (oppositeParams mu pc).Nang = 2 := rfl
  have hws : ∀ l, (oppositeParams mu pc).ws l = 1 / 2 := fun _ => rfl
  have hcc : (oppositeParams mu pc).c = pc := rfl
  rw [hs, hS]
  unfold sphereAngularSq angularSum
  have s2 : ∀ f : ℕ → ℝ, ∑ x ∈ Finset.range 2, f x = f 0 + f 1 := fun f => by
    rw [Finset.sum_range_succ, Finset.sum_range_one]
  simp only [hNang, s2, hws, hcc, P0, P1, hA, hB, PA, PB, a0, hj1, sub_self,
    ne_eq, OfNat.ofNat_ne_zero, not_false_eq_true, zero_pow, mul_zero, Finset.sum_const_zero]
  rw [Finset.sum_eq_zero fun k hk => hj0 k (by simpa [Nat.lt_succ_iff] using hk)]
  have h4 : 0 < e c.Nspace ^ 4 := pow_pos hpos 4
  have h5 := mul_lt_mul_of_pos_left hsize h4
  have h6 : e c.Nspace ^ 5 = e c.Nspace ^ 4 * e c.Nspace := by ring
  rw [h6]
  nlinarith

/-! ### Examples -/

theorem exampleSphere_midpoints (l : ℕ) (hl : l < exampleSphereParams.Nang) :
    angularMid exampleSphereParams.Nang exampleSphereParams.mus l ≤ exampleSphereParams.mus l := by
  have hl : l < 2 := hl
  interval_cases l <;> norm_num [exampleSphereParams, angularMid, angularEdge]

/-- The growing mesh of the example over `[0, 1]`. -/
theorem exampleSphere_meshOn : ∃ mats, SphereMeshOn exampleSphereConfig exampleSphereMesh mats 0 1 ∅ := by
  have ho : ∀ s ∈ Icc (0 : ℝ) 1, ∀ k < exampleSphereConfig.Nspace,
      (exampleSphereMesh s).edges k < (exampleSphereMesh s).edges (k + 1) := by
    intro s hs k _
    simp only [exampleSphereMesh]
    push_cast
    linarith [hs.1]
  have hex : ∀ (s : ℝ) (k : ℕ), ∃ m : CellMats, s ∈ Icc (0 : ℝ) 1 → k < exampleSphereConfig.Nspace →
      MatsExact exampleSphereConfig.M ((exampleSphereMesh s).edges k)
        ((exampleSphereMesh s).edges (k + 1)) ((exampleSphereMesh s).Dedges k)
        ((exampleSphereMesh s).Dedges (k + 1)) m := by
    intro s k
    by_cases hs : s ∈ Icc (0 : ℝ) 1 ∧ k < exampleSphereConfig.Nspace
    · obtain ⟨m, hm⟩ := c65_matrices_exist (M := exampleSphereConfig.M)
        (by simp [exampleSphereConfig, exampleConfig]) (ho s hs.1 k hs.2)
        ((exampleSphereMesh s).Dedges k) ((exampleSphereMesh s).Dedges (k + 1))
      exact ⟨m, fun _ _ => hm⟩
    · exact ⟨⟨0, 0, 0, 0, 0, 0⟩, fun h1 h2 => absurd ⟨h1, h2⟩ hs⟩
  choose mats hmats using hex
  exact ⟨mats, {
    centre := fun s _ => by simp [exampleSphereMesh]
    ordered := ho
    cont := fun k _ => by simp only [exampleSphereMesh]; fun_prop
    velocity := fun t _ k _ => by
      simp only [exampleSphereMesh]
      exact ((((hasDerivAt_id t).const_add 1).mul_const (k : ℝ)).congr_deriv
        (one_mul _)).hasDerivWithinAt
    mats := fun t ht k hk => hmats t k ⟨ht.1.1, ht.1.2.le⟩ hk }⟩

/-- Two directions of the Gauss-Lobatto set, one cell of radius one, no scattering. -/
example : ∃ (mats : ℕ → CellMats) (V W : ℝ → ℕ → ℕ → ℕ → ℝ) (d : ℝ),
    HasDerivWithinAt (fun s => sphereAngularSq (oppositeParams 1 0) 1 1
      ({ edges := fun k => (k : ℝ), Dedges := fun _ => 0 } : MeshView).edges
        fun l k i => V s l k i - W s l k i) d (Ici 0) 0 ∧ 0 < d ∧
    ∀ k < 1, MatsExact 1 ((k : ℕ) : ℝ) ((k + 1 : ℕ) : ℝ) 0 0 (mats k) := by
  obtain ⟨m, hm⟩ := c65_matrices_exist (M := 1) (by norm_num)
    (show ((0 : ℕ) : ℝ) < ((0 + 1 : ℕ) : ℝ) by norm_num) 0 0
  have hmats : ∀ k < 1, MatsExact 1 ((k : ℕ) : ℝ) ((k + 1 : ℕ) : ℝ) 0 0 m := by
    intro k hk
    have : k = 0 := by omega
    subst this
    exact hm
  obtain ⟨V, W, -, -, d, -, -, -, -, -, h, hd⟩ := c103_sphere_norm_can_grow 1 0 le_rfl
    zero_le_one { exampleSphereConfig with Nspace := 1, M := 1 } rfl le_rfl (by norm_num) le_rfl 0
    (fun _ => { edges := fun k => (k : ℝ), Dedges := fun _ => 0 }) (by simp) (by simp)
    (by norm_num) (fun k _ => (hasDerivAt_const _ _).hasDerivWithinAt) (fun _ => m) hmats
    (fun _ _ => 0) ⟨0, 0, 0, 0, 0, 0, 0, 0, 0, fun _ => 0⟩ (fun _ _ _ => 0)
  exact ⟨fun _ => m, V, W, d, h, hd, hmats⟩

end Verif.Props
