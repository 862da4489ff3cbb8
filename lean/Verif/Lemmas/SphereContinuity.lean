import Verif.Lemmas.StreamContinuity
import Verif.Lemmas.SphereInverse
import Verif.Lemmas.ActiveRhs
import Mathlib.Topology.Instances.Matrix

/-! The right-hand side of the sphere scheme in closed form, and its continuous dependence on edges,
velocities, time and coefficients. -/

namespace Verif.Lemmas

open Polynomial Verif.Spec Verif.Model Set

variable {Y : Type*} [TopologicalSpace Y] {s : Set Y}

theorem continuousOn_sphereBasis {x a b : Y → ℝ} (hx : ContinuousOn x s) (ha : ContinuousOn a s)
    (hb : ContinuousOn b s) (h : ∀ q ∈ s, a q < b q) (n : ℕ) :
    ContinuousOn (fun q => sphereBasis n (x q) (a q) (b q)) s := by
  have hd : ∀ q ∈ s, b q - a q ≠ 0 := fun q hq => (sub_pos.2 (h q hq)).ne'
  unfold sphereBasis ref
  refine ContinuousOn.mul (ContinuousOn.sqrt (continuousOn_const.div
    (continuousOn_const.mul (hb.sub ha)) fun q hq => mul_ne_zero Real.pi_ne_zero (hd q hq))) ?_
  exact (Chebyshev.T ℝ n).continuous.comp_continuousOn
    ((((continuousOn_const.mul hx).sub ha).sub hb).div (hb.sub ha) hd)

theorem continuousOn_sphereField {U : ℕ → Y → ℝ} {x a b : Y → ℝ} (M : ℕ)
    (hU : ∀ j ≤ M, ContinuousOn (U j) s) (hx : ContinuousOn x s) (ha : ContinuousOn a s)
    (hb : ContinuousOn b s) (h : ∀ q ∈ s, a q < b q) :
    ContinuousOn (fun q => sphereField M (fun j => U j q) (a q) (b q) (x q)) s := by
  unfold sphereField
  exact continuousOn_finsetSum _ fun j hj =>
    (hU j (Nat.lt_succ_iff.1 (Finset.mem_range.1 hj))).mul (continuousOn_sphereBasis hx ha hb h j)

theorem continuousOn_rho2 {m d : Y → ℝ} (hm : ContinuousOn m s) (hd : ContinuousOn d s)
    (f : ℕ → ℝ) (k : ℕ) : ContinuousOn (fun q => rho2 (m q) (d q) f k) s := by
  unfold rho2
  fun_prop

theorem continuousOn_sphereMass' {a b : Y → ℝ} (ha : ContinuousOn a s) (hb : ContinuousOn b s)
    (h : ∀ q ∈ s, a q < b q) (i j : ℕ) : ContinuousOn (fun q => sphereMass i j (a q) (b q)) s :=
  ContinuousOn.congr (continuousOn_const.mul (continuousOn_rho2 ((ha.add hb).div_const 2)
    ((hb.sub ha).div_const 2) _ _)) fun q hq => sphereMass_eq (h q hq) i j

theorem sphereJ_closed {a b : ℝ} (h : a < b) (i j : ℕ) :
    sphereJ i j a b = bb i * bb j / (2 * Real.pi) *
      ((a + b) / 2 * I (X ^ 0 * (Chebyshev.T ℝ i * Chebyshev.T ℝ j)) +
        (b - a) / 2 * I (X ^ 1 * (Chebyshev.T ℝ i * Chebyshev.T ℝ j))) := by
  rw [sphereJ_eq_I h, ← I_radius, pow_zero, one_mul]

theorem continuousOn_sphereJ {a b : Y → ℝ} (ha : ContinuousOn a s) (hb : ContinuousOn b s)
    (h : ∀ q ∈ s, a q < b q) (i j : ℕ) : ContinuousOn (fun q => sphereJ i j (a q) (b q)) s :=
  ContinuousOn.congr (continuousOn_const.mul ((((ha.add hb).div_const 2).mul continuousOn_const).add
    (((hb.sub ha).div_const 2).mul continuousOn_const))) fun q hq => sphereJ_closed (h q hq) i j

theorem sphereL_closed {a b : ℝ} (h : a < b) (i j : ℕ) :
    sphereL i j a b = bb i * bb j / (Real.pi * (b - a)) *
      rho2 ((a + b) / 2) ((b - a) / 2)
        (fun k => I (X ^ k * (derivative (Chebyshev.T ℝ i) * Chebyshev.T ℝ j))) 0 := by
  rw [sphereL_eq_I h, ← I_radius_sq, pow_zero, one_mul]

theorem continuousOn_sphereL {a b : Y → ℝ} (ha : ContinuousOn a s) (hb : ContinuousOn b s)
    (h : ∀ q ∈ s, a q < b q) (i j : ℕ) : ContinuousOn (fun q => sphereL i j (a q) (b q)) s :=
  ContinuousOn.congr ((continuousOn_const.div (continuousOn_const.mul (hb.sub ha)) fun q hq =>
    mul_ne_zero Real.pi_ne_zero (sub_pos.2 (h q hq)).ne').mul
      (continuousOn_rho2 ((ha.add hb).div_const 2) ((hb.sub ha).div_const 2) _ _))
    fun q hq => sphereL_closed (h q hq) i j

theorem continuousOn_gExact {a b ap bp : Y → ℝ} (ha : ContinuousOn a s) (hb : ContinuousOn b s)
    (hap : ContinuousOn ap s) (hbp : ContinuousOn bp s) (h : ∀ q ∈ s, a q < b q) (i j : ℕ) :
    ContinuousOn (fun q => gExact i j (a q) (b q) (ap q) (bp q)) s := by
  have hr := fun f k => continuousOn_rho2 ((ha.add hb).div_const 2) ((hb.sub ha).div_const 2) f k
  unfold gExact
  refine (continuousOn_const.div (continuousOn_const.mul (hb.sub ha)) fun q hq =>
    mul_ne_zero two_ne_zero (sub_pos.2 (h q hq)).ne').mul ?_
  exact ((((hbp.sub hap).neg.div_const 2).mul (hr _ _)).sub ((hap.add hbp).mul (hr _ _))).sub
    ((hbp.sub hap).mul (hr _ _))

theorem continuousOn_mpExact {a b ap bp : Y → ℝ} (ha : ContinuousOn a s) (hb : ContinuousOn b s)
    (hap : ContinuousOn ap s) (hbp : ContinuousOn bp s) (i j : ℕ) :
    ContinuousOn (fun q => mpExact i j (a q) (b q) (ap q) (bp q)) s := by
  unfold mpExact
  fun_prop

theorem continuousOn_angularTerm (n : ℕ) (mus : ℕ → ℝ) {psi : Y → ℕ → ℝ}
    (h : ∀ l, ContinuousOn (fun q => psi q l) s) (l : ℕ) :
    ContinuousOn (fun q => angularTerm n mus (psi q) l) s := by
  have h0 := h (l - 1)
  have h1 := h l
  have h2 := h (l + 1)
  unfold angularTerm finiteDiffUneven
  split_ifs
  · exact (((continuousOn_const.mul (continuousOn_const.mul (h2.add h1))).sub
      (continuousOn_const.mul (continuousOn_const.mul (h1.add h0)))).div_const _)
  · exact (continuousOn_const.mul (continuousOn_const.mul (h2.add h1))).div_const _
  · exact (continuousOn_const.mul (continuousOn_const.mul (h1.add h0))).div_const _

/-! ### The inverse of the mass matrix -/

/-- The mass matrix of a cell. -/
noncomputable def massMatrix (M : ℕ) (a b : ℝ) : Matrix (Fin (M + 1)) (Fin (M + 1)) ℝ :=
  Matrix.of fun i j => sphereMass i j a b

theorem massMatrix_det_ne {M : ℕ} {a b : ℝ} (h : a < b) : (massMatrix M a b).det ≠ 0 := by
  intro hd
  obtain ⟨v, hv, hv0⟩ := Matrix.exists_mulVec_eq_zero_iff.2 hd
  obtain ⟨j, hj⟩ := Function.ne_iff.1 hv
  set x : ℕ → ℝ := fun i => if hi : i < M + 1 then v ⟨i, hi⟩ else 0 with hx
  have hxv : ∀ i : Fin (M + 1), x i = v i := fun i => dif_pos i.2
  have hpos := mass_pos (M := M) (x := x) h ⟨j, by have := j.2; omega, by rw [hxv]; exact hj⟩
  refine hpos.ne' (Finset.sum_eq_zero fun i hi => ?_)
  have hi' : i < M + 1 := by simpa using hi
  have h0 := congrFun hv0 ⟨i, hi'⟩
  have : matVec M (fun i j => sphereMass i j a b) x i = 0 := by
    unfold matVec
    rw [Finset.sum_range]
    rw [Matrix.mulVec, dotProduct] at h0
    simp only [hxv]
    exact h0
  rw [this, mul_zero]

theorem continuousOn_massInv {a b : Y → ℝ} (ha : ContinuousOn a s) (hb : ContinuousOn b s)
    (h : ∀ q ∈ s, a q < b q) (M : ℕ) (i j : Fin (M + 1)) :
    ContinuousOn (fun q => (massMatrix M (a q) (b q))⁻¹ i j) s := by
  rw [continuousOn_iff_continuous_domRestrict]
  have hA : Continuous fun q : s => massMatrix M (a q) (b q) := by
    refine continuous_matrix fun i j => ?_
    have := continuousOn_sphereMass' ha hb h (i : ℕ) (j : ℕ)
    rw [continuousOn_iff_continuous_domRestrict] at this
    exact this
  have hdet : Continuous fun q : s => (massMatrix M (a q) (b q)).det := hA.matrix_det
  have hadj : Continuous fun q : s => (massMatrix M (a q) (b q)).adjugate i j :=
    hA.matrix_adjugate.matrix_elem i j
  refine ((hdet.inv₀ fun q => massMatrix_det_ne (h q q.2)).mul hadj).congr fun q => ?_
  rw [Set.domRestrict_apply, Matrix.inv_def, Matrix.smul_apply, smul_eq_mul,
    Ring.inverse_eq_inv']
  rfl

/-- Any right inverse of the mass matrix that the program may compute has these values. -/
theorem matVec_minv {M : ℕ} {a b ap bp : ℝ} (h : a < b) {mats : CellMats}
    (hm : MatsExact M a b ap bp mats) (x : ℕ → ℝ) (i : Fin (M + 1)) :
    matVec M mats.Minv x i = ∑ j : Fin (M + 1), (massMatrix M a b)⁻¹ i j * x j := by
  have hu : IsUnit (massMatrix M a b).det := isUnit_iff_ne_zero.2 (massMatrix_det_ne h)
  set y : Fin (M + 1) → ℝ := fun i => matVec M mats.Minv x i with hy
  set z : Fin (M + 1) → ℝ := fun i => x i with hz
  have h1 : (massMatrix M a b).mulVec y = z := by
    funext i
    have hi : (i : ℕ) ≤ M := Nat.lt_succ_iff.1 i.2
    have := hm.inv x i hi
    rw [hz]
    simp only
    rw [← this]
    rw [matVec_congr (fun j hj => hm.Mass i hi j hj), Finset.sum_range]
    rfl
  have h2 : y = (massMatrix M a b)⁻¹.mulVec z := by
    rw [← h1, Matrix.mulVec_mulVec, Matrix.nonsing_inv_mul _ hu, Matrix.one_mulVec]
  exact congrFun h2 i

/-! ### Closed form -/

/-- The vector in front of which the inverse mass matrix stands, for a mesh that starts at the
centre. -/
noncomputable def sphereFlow (p : RhsParams) (c : FluxConfig) (t : ℝ) (m : MeshView)
    (S : ℕ → ℕ → ℝ) (V : ℕ → ℕ → ℕ → ℝ) (l k i : ℕ) : ℝ :=
  -(m.edges (k + 1) ^ 2 * sphereBasis i (m.edges (k + 1)) (m.edges k) (m.edges (k + 1)) *
      upwind (p.mus l - m.Dedges (k + 1))
        (sphereField c.M (V l k) (m.edges k) (m.edges (k + 1)) (m.edges (k + 1)))
        (rightOuter c t m (V l) k)
    - (if k = 0 then 0 else m.edges k ^ 2 * sphereBasis i (m.edges k) (m.edges k) (m.edges (k + 1)) *
      upwind (p.mus l - m.Dedges k)
        (sphereField c.M (V l (k - 1)) (m.edges (k - 1)) (m.edges k) (m.edges k))
        (sphereField c.M (V l k) (m.edges k) (m.edges (k + 1)) (m.edges k))))
    + p.mus l * ∑ j ∈ Finset.range (c.M + 1), sphereL i j (m.edges k) (m.edges (k + 1)) * V l k j
    - ∑ j ∈ Finset.range (c.M + 1), sphereJ i j (m.edges k) (m.edges (k + 1)) *
        angularTerm p.Nang p.mus (fun l => V l k j) l
    + ∑ j ∈ Finset.range (c.M + 1), gExact i j (m.edges k) (m.edges (k + 1)) (m.Dedges k)
        (m.Dedges (k + 1)) / Real.pi * V l k j
    + 1 / 2 * S k i * p.c
    - ∑ j ∈ Finset.range (c.M + 1), mpExact i j (m.edges k) (m.edges (k + 1)) (m.Dedges k)
        (m.Dedges (k + 1)) / Real.pi * V l k j

theorem sphereWeak_eq_flow (p : RhsParams) (c : FluxConfig) (hg : c.geometry = .sphere)
    (hM : c.M ≤ 10) (t : ℝ) (m : MeshView) (h0 : m.edges 0 = 0)
    (hm : ∀ k < c.Nspace, m.edges k < m.edges (k + 1)) (mats : CellMats) (S : ℕ → ℕ → ℝ)
    (fs : FluxState) (V : ℕ → ℕ → ℕ → ℝ) (l k i : ℕ) (hk : k < c.Nspace) (hi : i ≤ c.M)
    (hmats : MatsExact c.M (m.edges k) (m.edges (k + 1)) (m.Dedges k) (m.Dedges (k + 1)) mats) :
    sphereWeak p c t m mats S fs V l k i = sphereFlow p c t m S V l k i := by
  have hab := hm k hk
  unfold sphereWeak sphereFlow
  rw [fluxLU_eq c t m _ k _ _ fs hk hm hi, hg, matVec_congr (fun j hj => hmats.L i hi j hj),
    matVec_congr (fun j hj => hmats.J i hi j hj),
    matVec_congr (fun j hj => matsExact_G hM hab hmats hi hj),
    matVec_congr (fun j hj => matsExact_MPRIME hM hab hmats hi hj)]
  have e : geomArea .sphere (m.edges k) *
      geomBasis .sphere i (m.edges k) (m.edges k) (m.edges (k + 1)) *
      upwind (p.mus l - m.Dedges k) (leftOuter c t m (V l) k (V (reflIndex p.Nang l k) 0))
        (geomField .sphere c.M (V l k) (m.edges k) (m.edges (k + 1)) (m.edges k)) =
      (if k = 0 then 0 else m.edges k ^ 2 * sphereBasis i (m.edges k) (m.edges k) (m.edges (k + 1)) *
      upwind (p.mus l - m.Dedges k)
        (sphereField c.M (V l (k - 1)) (m.edges (k - 1)) (m.edges k) (m.edges k))
        (sphereField c.M (V l k) (m.edges k) (m.edges (k + 1)) (m.edges k))) := by
    by_cases hk0 : k = 0
    · rw [if_pos hk0, hk0, geomArea, h0]
      ring
    · rw [if_neg hk0]
      unfold leftOuter
      rw [if_pos hk0, hg]
      rfl
  rw [e]
  simp only [geomArea, geomBasis, geomField, dterm]
  ring

/-- Continuity of the closed form while no boundary source is switched. -/
theorem continuousOn_sphereFlow (p : RhsParams) (c : FluxConfig) (hg : c.geometry = .sphere)
    {t : Y → ℝ} (ht : ContinuousOn t s) (hmms : c.mms = false ∨ ∀ q ∈ s, t q ≠ -1)
    (sw : ℕ → Bool) (hsw : ∀ q ∈ s, ∀ k, isBoundarySourceOn c k (t q) = sw k)
    {m : Y → MeshView} (hm : ∀ q ∈ s, ∀ k < c.Nspace, (m q).edges k < (m q).edges (k + 1))
    (he : ∀ k ≤ c.Nspace, ContinuousOn (fun q => (m q).edges k) s)
    (hv : ∀ k ≤ c.Nspace, ContinuousOn (fun q => (m q).Dedges k) s)
    {S : Y → ℕ → ℕ → ℝ} (hS : ∀ k < c.Nspace, ∀ i ≤ c.M, ContinuousOn (fun q => S q k i) s)
    {u : Y → ℕ → ℕ → ℕ → ℝ} (hu : ∀ l k j, ContinuousOn (fun q => u q l k j) s)
    (l : ℕ) {k i : ℕ} (hk : k < c.Nspace) (hi : i ≤ c.M) :
    ContinuousOn (fun q => sphereFlow p c (t q) (m q) (S q) (u q) l k i) s := by
  have e0 := he k hk.le
  have e1 := he (k + 1) hk
  have hord : ∀ q ∈ s, (m q).edges k < (m q).edges (k + 1) := fun q hq => hm q hq k hk
  have hv0 := hv k hk.le
  have hv1 := hv (k + 1) hk
  have hright : ContinuousOn (fun q => rightOuter c (t q) (m q) (u q l) k) s := by
    unfold rightOuter
    by_cases h0 : k + 1 ≠ c.Nspace
    · simp only [if_pos h0, hg, geomField]
      exact continuousOn_sphereField (U := fun j q => u q l (k + 1) j) c.M
        (fun j _ => hu l (k + 1) j) e1 e1 (he (k + 2) (by omega)) fun q hq =>
          hm q hq (k + 1) (by omega)
    · simp only [if_neg h0, hg]
      have h00 := he c.Nspace le_rfl
      cases hs0 : sw k
      · exact continuousOn_const.congr fun q hq => by
          show (if isBoundarySourceOn c k (t q) = true then _ else _) = (0 : ℝ)
          rw [hsw q hq, hs0]; simp
      · refine ContinuousOn.congr (f := fun q => ∑ j ∈ Finset.range (c.M + 1),
          fluxIntegrateQuad c (t q) ((m q).edges (k + 1))
            ((m q).edges c.Nspace + ((m q).edges (k + 1) - (m q).edges k)) j *
              sphereBasis j ((m q).edges k) ((m q).edges k) ((m q).edges (k + 1))) ?_ fun q hq => by
            show (if isBoundarySourceOn c k (t q) = true then _ else _) = _
            rw [hsw q hq, hs0, if_pos rfl]; rfl
        refine continuousOn_finsetSum _ fun j _ => ?_
        refine (continuousOn_fluxIntegrateQuad c ht e1 (h00.add (e1.sub e0)) (fun q hq => ?_)
          hmms j).mul (continuousOn_sphereBasis e0 e0 e1 hord j)
        have := hm q hq k hk
        have hk0 : k + 1 = c.Nspace := not_not.1 h0
        simp only [Pi.add_apply, Pi.sub_apply]
        rw [← hk0]
        linarith
  have hown : ∀ x : Y → ℝ, ContinuousOn x s → ContinuousOn (fun q =>
      sphereField c.M (u q l k) ((m q).edges k) ((m q).edges (k + 1)) (x q)) s := fun x hx =>
    continuousOn_sphereField (U := fun j q => u q l k j) c.M (fun j _ => hu l k j) hx e0 e1 hord
  unfold sphereFlow
  refine ContinuousOn.sub (ContinuousOn.add (ContinuousOn.add (ContinuousOn.sub (ContinuousOn.add
    (ContinuousOn.neg (ContinuousOn.sub ?_ ?_)) ?_) ?_) ?_) ?_) ?_
  · exact ((e1.pow 2).mul (continuousOn_sphereBasis e1 e0 e1 hord i)).mul
      (continuousOn_upwind (continuousOn_const.sub hv1) (hown _ e1) hright)
  · by_cases hk0 : k = 0
    · simp only [if_pos hk0]
      exact continuousOn_const
    · simp only [if_neg hk0]
      refine ((e0.pow 2).mul (continuousOn_sphereBasis e0 e0 e1 hord i)).mul
        (continuousOn_upwind (continuousOn_const.sub hv0) ?_ (hown _ e0))
      refine continuousOn_sphereField (U := fun j q => u q l (k - 1) j) c.M
        (fun j _ => hu l (k - 1) j) e0 (he (k - 1) (by omega)) e0 fun q hq => ?_
      have := hm q hq (k - 1) (by omega)
      rwa [Nat.sub_add_cancel (by omega)] at this
  · exact continuousOn_const.mul (continuousOn_finsetSum _ fun j _ =>
      (continuousOn_sphereL e0 e1 hord i j).mul (hu l k j))
  · exact continuousOn_finsetSum _ fun j _ => (continuousOn_sphereJ e0 e1 hord i j).mul
      (continuousOn_angularTerm _ _ (fun l => hu l k j) l)
  · exact continuousOn_finsetSum _ fun j _ =>
      ((continuousOn_gExact e0 e1 hv0 hv1 hord i j).div_const _).mul (hu l k j)
  · exact (continuousOn_const.mul (hS k hk i hi)).mul continuousOn_const
  · exact continuousOn_finsetSum _ fun j _ =>
      ((continuousOn_mpExact e0 e1 hv0 hv1 i j).div_const _).mul (hu l k j)

end Verif.Lemmas
