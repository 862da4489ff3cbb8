import Verif.Spec.SphereStability
import Verif.Lemmas.ActiveRhs
import Verif.Lemmas.SphereInverse
import Verif.Lemmas.Stability
import Mathlib.Algebra.BigOperators.Intervals

/-! Helper facts: the quadratic form of the active spherical right-hand side. -/

namespace Verif.Lemmas

open Polynomial Verif.Spec Verif.Model Set

/-! ### Forms of the matrices -/

theorem continuous_sphereField (M : ℕ) (x : ℕ → ℝ) {a b : ℝ} (h : a < b) :
    Continuous fun r => sphereField M x a b r := by
  unfold sphereField
  exact continuous_finsetSum _ fun j _ => continuous_const.mul (continuous_sphereBasis h j)

/-- A table of integrals `∫ f B_i B_j` as a bilinear form. -/
theorem basis_form (M : ℕ) (f : ℝ → ℝ) (hf : Continuous f) (x y : ℕ → ℝ) {a b : ℝ} (h : a < b) :
    ∑ i ∈ Finset.range (M + 1), x i *
      matVec M (fun i j => ∫ r in a..b, f r * (sphereBasis i r a b * sphereBasis j r a b)) y i =
      ∫ r in a..b, f r * (sphereField M x a b r * sphereField M y a b r) := by
  have e : ∀ r, f r * (sphereField M x a b r * sphereField M y a b r) =
      ∑ i ∈ Finset.range (M + 1), ∑ j ∈ Finset.range (M + 1),
        x i * y j * (f r * (sphereBasis i r a b * sphereBasis j r a b)) := by
    intro r
    unfold sphereField
    rw [Finset.sum_mul_sum, Finset.mul_sum]
    refine Finset.sum_congr rfl fun i _ => ?_
    rw [Finset.mul_sum]
    exact Finset.sum_congr rfl fun j _ => by ring
  have hc : ∀ i j, Continuous fun r =>
      x i * y j * (f r * (sphereBasis i r a b * sphereBasis j r a b)) := fun i j =>
    continuous_const.mul (hf.mul
      ((continuous_sphereBasis h i).mul (continuous_sphereBasis h j)))
  simp only [e]
  rw [intervalIntegral.integral_finsetSum
    (fun i _ => (continuous_finsetSum _ fun j _ => hc i j).intervalIntegrable _ _)]
  refine Finset.sum_congr rfl fun i _ => ?_
  rw [intervalIntegral.integral_finsetSum (fun j _ => (hc i j).intervalIntegrable _ _)]
  unfold matVec
  rw [Finset.mul_sum]
  refine Finset.sum_congr rfl fun j _ => ?_
  rw [intervalIntegral.integral_const_mul]
  ring

theorem mass_bilinear (M : ℕ) (x y : ℕ → ℝ) {a b : ℝ} (h : a < b) :
    ∑ i ∈ Finset.range (M + 1), x i * matVec M (fun i j => sphereMass i j a b) y i =
      ∫ r in a..b, r ^ 2 * (sphereField M x a b r * sphereField M y a b r) :=
  basis_form M (fun r => r ^ 2) (continuous_id.pow 2) x y h

theorem j_bilinear (M : ℕ) (x y : ℕ → ℝ) {a b : ℝ} (h : a < b) :
    ∑ i ∈ Finset.range (M + 1), x i * matVec M (fun i j => sphereJ i j a b) y i =
      ∫ r in a..b, r * (sphereField M x a b r * sphereField M y a b r) :=
  basis_form M (fun r => r) continuous_id x y h

/-- A quadratic form through the symmetric part of its matrix. -/
theorem quad_symm (M : ℕ) (A : ℕ → ℕ → ℝ) (x : ℕ → ℝ) :
    2 * ∑ i ∈ Finset.range (M + 1), x i * matVec M A x i =
      ∑ i ∈ Finset.range (M + 1), ∑ j ∈ Finset.range (M + 1), x i * x j * (A i j + A j i) := by
  have h1 : ∑ i ∈ Finset.range (M + 1), x i * matVec M A x i =
      ∑ i ∈ Finset.range (M + 1), ∑ j ∈ Finset.range (M + 1), x i * x j * A i j := by
    unfold matVec
    refine Finset.sum_congr rfl fun i _ => ?_
    rw [Finset.mul_sum]
    exact Finset.sum_congr rfl fun j _ => by ring
  have h2 : ∑ i ∈ Finset.range (M + 1), ∑ j ∈ Finset.range (M + 1), x i * x j * A i j =
      ∑ i ∈ Finset.range (M + 1), ∑ j ∈ Finset.range (M + 1), x i * x j * A j i := by
    rw [Finset.sum_comm]
    exact Finset.sum_congr rfl fun i _ => Finset.sum_congr rfl fun j _ => by ring
  rw [two_mul]
  nth_rw 1 [h1]
  rw [h1, h2]
  nth_rw 1 [← h2]
  rw [← Finset.sum_add_distrib]
  refine Finset.sum_congr rfl fun i _ => ?_
  rw [← Finset.sum_add_distrib]
  exact Finset.sum_congr rfl fun j _ => by ring

theorem edge_square (M : ℕ) (x : ℕ → ℝ) (a b r : ℝ) :
    ∑ i ∈ Finset.range (M + 1), ∑ j ∈ Finset.range (M + 1),
      x i * x j * (sphereBasis i r a b * sphereBasis j r a b) = sphereField M x a b r ^ 2 := by
  unfold sphereField
  rw [pow_two (∑ j ∈ Finset.range (M + 1), x j * sphereBasis j r a b), Finset.sum_mul_sum]
  exact Finset.sum_congr rfl fun i _ => Finset.sum_congr rfl fun j _ => by ring

theorem quad_congr {M : ℕ} {A B : ℕ → ℕ → ℝ} (h : ∀ i ≤ M, ∀ j ≤ M, A i j = B i j) (x y : ℕ → ℝ) :
    ∑ i ∈ Finset.range (M + 1), x i * matVec M A y i =
      ∑ i ∈ Finset.range (M + 1), x i * matVec M B y i := by
  refine Finset.sum_congr rfl fun i hi => ?_
  rw [matVec_congr (B := B i) fun j hj => h i (by simpa [Nat.lt_succ_iff] using hi) j hj]
  rfl

/-- Quadratic form of the streaming matrix. -/
theorem l_form (M : ℕ) (x : ℕ → ℝ) {a b : ℝ} (h : a < b) :
    ∑ i ∈ Finset.range (M + 1), x i * matVec M (fun i j => sphereL i j a b) x i =
      1 / 2 * (b ^ 2 * sphereField M x a b b ^ 2 - a ^ 2 * sphereField M x a b a ^ 2)
        - ∫ r in a..b, r * sphereField M x a b r ^ 2 := by
  have hJ := j_bilinear M x x h
  have e : ∀ i j, x i * x j * (sphereL i j a b + sphereL j i a b) =
      b ^ 2 * (x i * x j * (sphereBasis i b a b * sphereBasis j b a b))
        - a ^ 2 * (x i * x j * (sphereBasis i a a b * sphereBasis j a a b))
        - 2 * (x i * (sphereJ i j a b * x j)) := by
    intro i j
    have := sphereL_parts h i j
    linear_combination x i * x j * this
  have hq := quad_symm M (fun i j => sphereL i j a b) x
  simp only [e, Finset.sum_sub_distrib, ← Finset.mul_sum, edge_square] at hq
  have : ∑ i ∈ Finset.range (M + 1), x i * ∑ j ∈ Finset.range (M + 1), sphereJ i j a b * x j =
      ∫ r in a..b, r * sphereField M x a b r ^ 2 := by
    simp only [pow_two]
    exact hJ
  rw [this] at hq
  linarith

/-- Quadratic form of the mesh-motion matrix. -/
theorem g_form (M : ℕ) (x : ℕ → ℝ) {a b : ℝ} (h : a < b) (ap bp : ℝ) :
    ∑ i ∈ Finset.range (M + 1), x i * matVec M (fun i j => gExact i j a b ap bp / Real.pi) x i =
      1 / 2 * (∑ i ∈ Finset.range (M + 1),
          x i * matVec M (fun i j => mpExact i j a b ap bp / Real.pi) x i
        - (bp * b ^ 2 * sphereField M x a b b ^ 2 - ap * a ^ 2 * sphereField M x a b a ^ 2)) := by
  have e : ∀ i j, x i * x j * (gExact i j a b ap bp / Real.pi + gExact j i a b ap bp / Real.pi) =
      x i * (mpExact i j a b ap bp / Real.pi * x j)
        - (bp * b ^ 2 * (x i * x j * (sphereBasis i b a b * sphereBasis j b a b))
        - ap * a ^ 2 * (x i * x j * (sphereBasis i a a b * sphereBasis j a a b))) := by
    intro i j
    have := reynolds_tables h i j ap bp
    linear_combination x i * x j * this
  have hq := quad_symm M (fun i j => gExact i j a b ap bp / Real.pi) x
  simp only [e, Finset.sum_sub_distrib, ← Finset.mul_sum, edge_square] at hq
  have : ∑ i ∈ Finset.range (M + 1), x i *
      matVec M (fun i j => mpExact i j a b ap bp / Real.pi) x i =
      ∑ i ∈ Finset.range (M + 1), x i * ∑ j ∈ Finset.range (M + 1),
        mpExact i j a b ap bp / Real.pi * x j := rfl
  rw [this]
  linarith

/-- Streaming, mesh motion, fluxes, redistribution and source of one cell tested with the state. -/
theorem sphere_cell_form (p : RhsParams) (c : FluxConfig) (hg : c.geometry = .sphere)
    (hM : c.M ≤ 10) (t : ℝ) (m : MeshView) (mats : CellMats) (S : ℕ → ℕ → ℝ)
    (fs : FluxState) (V : ℕ → ℕ → ℕ → ℝ) (angle space : ℕ) (hs : space < c.Nspace)
    (hm : ∀ k < c.Nspace, m.edges k < m.edges (k + 1))
    (hmats : MatsExact c.M (m.edges space) (m.edges (space + 1))
      (m.Dedges space) (m.Dedges (space + 1)) mats) (L R : ℝ)
    (hL : sphereField c.M (V angle space) (m.edges space) (m.edges (space + 1)) (m.edges space) = L)
    (hR : sphereField c.M (V angle space) (m.edges space) (m.edges (space + 1))
      (m.edges (space + 1)) = R) :
    ∑ i ∈ Finset.range (c.M + 1), V angle space i * sphereWeak p c t m mats S fs V angle space i =
      m.edges (space + 1) ^ 2 * (1 / 2 * (p.mus angle - m.Dedges (space + 1)) * R ^ 2
        - R * upwind (p.mus angle - m.Dedges (space + 1)) R (rightOuter c t m (V angle) space))
      - m.edges space ^ 2 * (1 / 2 * (p.mus angle - m.Dedges space) * L ^ 2
        - L * upwind (p.mus angle - m.Dedges space)
          (leftOuter c t m (V angle) space (V (reflIndex p.Nang angle space) 0)) L)
      - p.mus angle * (∫ r in (m.edges space)..(m.edges (space + 1)),
          r * sphereField c.M (V angle space) (m.edges space) (m.edges (space + 1)) r ^ 2)
      - (∫ r in (m.edges space)..(m.edges (space + 1)),
          r * (sphereField c.M (V angle space) (m.edges space) (m.edges (space + 1)) r *
            sphereField c.M (dterm p V angle space) (m.edges space) (m.edges (space + 1)) r))
      + 1 / 2 * p.c * ∑ i ∈ Finset.range (c.M + 1), V angle space i * S space i
      - 1 / 2 * ∑ i ∈ Finset.range (c.M + 1),
          V angle space i * matVec c.M mats.MPRIME (V angle space) i := by
  have hab := hm space hs
  have e : ∀ i ∈ Finset.range (c.M + 1),
      V angle space i * sphereWeak p c t m mats S fs V angle space i =
      - m.edges (space + 1) ^ 2 *
          upwind (p.mus angle - m.Dedges (space + 1)) R (rightOuter c t m (V angle) space) *
          (V angle space i * sphereBasis i (m.edges (space + 1)) (m.edges space)
            (m.edges (space + 1)))
      + m.edges space ^ 2 * upwind (p.mus angle - m.Dedges space)
          (leftOuter c t m (V angle) space (V (reflIndex p.Nang angle space) 0)) L *
          (V angle space i * sphereBasis i (m.edges space) (m.edges space) (m.edges (space + 1)))
      + p.mus angle * (V angle space i * matVec c.M mats.L (V angle space) i)
      - V angle space i * matVec c.M mats.J (dterm p V angle space) i
      + V angle space i * matVec c.M mats.G (V angle space) i
      + 1 / 2 * p.c * (V angle space i * S space i)
      - V angle space i * matVec c.M mats.MPRIME (V angle space) i := by
    intro i hi
    unfold sphereWeak
    rw [fluxLU_eq c t m (V angle) space _ _ fs hs hm (by simpa [Nat.lt_succ_iff] using hi), hg]
    simp only [geomArea, geomBasis, geomField, hL, hR]
    ring
  rw [Finset.sum_congr rfl e]
  simp only [Finset.sum_add_distrib, Finset.sum_sub_distrib, ← Finset.mul_sum]
  have fR : ∑ i ∈ Finset.range (c.M + 1), V angle space i *
      sphereBasis i (m.edges (space + 1)) (m.edges space) (m.edges (space + 1)) = R := hR
  have fL : ∑ i ∈ Finset.range (c.M + 1), V angle space i *
      sphereBasis i (m.edges space) (m.edges space) (m.edges (space + 1)) = L := hL
  rw [fR, fL, quad_congr hmats.L, quad_congr hmats.J,
    quad_congr (fun i hi j hj => matsExact_G hM hab hmats hi hj),
    quad_congr (fun i hi j hj => matsExact_MPRIME hM hab hmats hi hj),
    l_form c.M _ hab, j_bilinear c.M _ _ hab, g_form c.M _ hab, hL, hR]
  ring

/-! ### The redistribution term -/

/-- Summation by parts in angle: the central redistribution term is skew up to the slope of
`1 - μ²`. -/
theorem redistribution_form {n : ℕ} {mus : ℕ → ℝ} (hd : DirectionSet n mus) (x : ℕ → ℝ) :
    ∑ l ∈ Finset.range n, angularWidth n mus l * (x l * angularTerm n mus x l) =
      -∑ l ∈ Finset.range n, angularWidth n mus l * (angularMid n mus l * x l ^ 2) := by
  set A : ℕ → ℝ := fun k => 1 - angularEdge n mus k ^ 2 with hA
  set G : ℕ → ℝ := fun k => A k * (x (k - 1) * x k) / 2 with hG
  have e : ∀ l ∈ Finset.range n, angularWidth n mus l * (x l * angularTerm n mus x l) =
      (G (l + 1) - G l) - angularWidth n mus l * (angularMid n mus l * x l ^ 2) := by
    intro l hl
    have hl' := Finset.mem_range.1 hl
    have hw := (angularWidth_pos hd hl').ne'
    rw [angularTerm_eq hd.two x hl']
    have : angularWidth n mus l * (x l * ((angularFlux n mus x (l + 1) - angularFlux n mus x l) /
        angularWidth n mus l)) = x l * (angularFlux n mus x (l + 1) - angularFlux n mus x l) := by
      field_simp
    rw [this]
    unfold angularFlux
    simp only [hG, hA, angularWidth, angularMid, Nat.add_sub_cancel]
    ring
  rw [Finset.sum_congr rfl e, Finset.sum_sub_distrib, Finset.sum_range_sub]
  have h0 : G 0 = 0 := by simp [hG, hA, angularEdge]
  have hn : G n = 0 := by
    have : n ≠ 0 := by have := hd.two; omega
    simp [hG, hA, angularEdge, this]
  rw [h0, hn]
  ring

/-- The redistribution term is taken coefficient by coefficient, so it acts on the fields. -/
theorem dterm_field (p : RhsParams) (V : ℕ → ℕ → ℕ → ℝ) (M l k : ℕ) (a b r : ℝ) :
    sphereField M (dterm p V l k) a b r =
      angularTerm p.Nang p.mus (fun l => sphereField M (V l k) a b r) l := by
  unfold sphereField dterm angularTerm finiteDiffUneven
  split_ifs <;>
  · simp only [Finset.mul_sum, ← Finset.sum_add_distrib, ← Finset.sum_sub_distrib, Finset.sum_div]
    exact Finset.sum_congr rfl fun j _ => by ring

/-- The redistribution term tested with the state. -/
theorem redistribution_cell (p : RhsParams) (hd : DirectionSet p.Nang p.mus)
    (hw : ∀ l < p.Nang, p.ws l = angularWidth p.Nang p.mus l / 2)
    (V : ℕ → ℕ → ℕ → ℝ) (M k : ℕ) {a b : ℝ} (h : a < b) :
    ∑ l ∈ Finset.range p.Nang, p.ws l * (∫ r in a..b,
      r * (sphereField M (V l k) a b r * sphereField M (dterm p V l k) a b r)) =
    -∑ l ∈ Finset.range p.Nang, p.ws l * (angularMid p.Nang p.mus l * (∫ r in a..b,
      r * sphereField M (V l k) a b r ^ 2)) := by
  have hc := fun l => continuous_sphereField M (V l k) h
  have hcd := fun l => continuous_sphereField M (dterm p V l k) h
  rw [← Finset.sum_neg_distrib]
  simp only [← intervalIntegral.integral_const_mul, ← intervalIntegral.integral_neg]
  rw [← intervalIntegral.integral_finsetSum, ← intervalIntegral.integral_finsetSum]
  · refine intervalIntegral.integral_congr fun r _ => ?_
    simp only [dterm_field]
    have := redistribution_form hd fun l => sphereField M (V l k) a b r
    have e : ∀ l ∈ Finset.range p.Nang, p.ws l * (r * (sphereField M (V l k) a b r *
        angularTerm p.Nang p.mus (fun l => sphereField M (V l k) a b r) l)) =
        (r / 2) * (angularWidth p.Nang p.mus l * (sphereField M (V l k) a b r *
        angularTerm p.Nang p.mus (fun l => sphereField M (V l k) a b r) l)) := by
      intro l hl
      rw [hw l (Finset.mem_range.1 hl)]
      ring
    rw [Finset.sum_congr rfl e, ← Finset.mul_sum, this, mul_neg, Finset.mul_sum,
      ← Finset.sum_neg_distrib]
    refine Finset.sum_congr rfl fun l hl => ?_
    rw [hw l (Finset.mem_range.1 hl)]
    ring
  · intro l _
    have := hc l
    exact Continuous.intervalIntegrable (by fun_prop) _ _
  · intro l _
    have := hc l
    have := hcd l
    exact Continuous.intervalIntegrable (by fun_prop) _ _

/-! ### Right derivative of the mass matrix -/

theorem hasDerivWithinAt_sphereMass {a b : ℝ → ℝ} {a' b' t : ℝ}
    (ha : HasDerivWithinAt a a' (Ici t) t) (hb : HasDerivWithinAt b b' (Ici t) t)
    (h : a t < b t) (i j : ℕ) :
    HasDerivWithinAt (fun s => sphereMass i j (a s) (b s))
      (mpExact i j (a t) (b t) a' b' / Real.pi) (Ici t) t := by
  have hev : ∀ᶠ s in nhdsWithin t (Ici t), a s < b s :=
    Filter.Tendsto.eventually_lt ha.continuousWithinAt hb.continuousWithinAt h
  have hm := ((ha.add hb).div_const 2)
  have hd := ((hb.sub ha).div_const 2)
  have key := (((hm.pow 2).mul_const (ttMom 0 i j)).add
    (((hm.const_mul 2).mul hd).mul_const (ttMom 1 i j))).add
    ((hd.pow 2).mul_const (ttMom 2 i j))
  have key2 := key.const_mul (bb i * bb j / (2 * Real.pi))
  have hcong := key2.congr_of_eventuallyEq (f₁ := fun s => sphereMass i j (a s) (b s))
    (hev.mono fun s hs => by
      simp only [Pi.add_apply, Pi.sub_apply, Pi.pow_apply, Pi.mul_apply, sphereMass_eq hs, rho2])
    (by simp only [Pi.add_apply, Pi.sub_apply, Pi.pow_apply, Pi.mul_apply, sphereMass_eq h, rho2])
  refine hcong.congr_deriv ?_
  have hpi := Real.pi_pos
  simp only [Pi.add_apply, Pi.sub_apply]
  unfold mpExact
  field_simp
  ring

/-- Rate of the square integral over one moving shell. -/
theorem sphere_sq_rate (M : ℕ) (hM : M ≤ 10) {a b : ℝ → ℝ} {a' b' t : ℝ}
    (ha : HasDerivWithinAt a a' (Ici t) t) (hb : HasDerivWithinAt b b' (Ici t) t)
    (h : a t < b t) (mats : CellMats) (hmats : MatsExact M (a t) (b t) a' b' mats)
    (U : ℝ → ℕ → ℝ) (R : ℕ → ℝ)
    (hU : ∀ i ≤ M, HasDerivWithinAt (fun s => U s i) (R i) (Ici t) t) :
    HasDerivWithinAt (fun s => ∫ r in (a s)..(b s), r ^ 2 * sphereField M (U s) (a s) (b s) r ^ 2)
      (∑ i ∈ Finset.range (M + 1), U t i * matVec M mats.MPRIME (U t) i
        + 2 * ∑ i ∈ Finset.range (M + 1), U t i * matVec M mats.Mass R i) (Ici t) t := by
  have hev : ∀ᶠ s in nhdsWithin t (Ici t), a s < b s :=
    Filter.Tendsto.eventually_lt ha.continuousWithinAt hb.continuousWithinAt h
  have hsum : HasDerivWithinAt (fun s => ∑ i ∈ Finset.range (M + 1),
      U s i * ∑ j ∈ Finset.range (M + 1), sphereMass i j (a s) (b s) * U s j)
      (∑ i ∈ Finset.range (M + 1), (R i * ∑ j ∈ Finset.range (M + 1),
          sphereMass i j (a t) (b t) * U t j + U t i * ∑ j ∈ Finset.range (M + 1),
        (mpExact i j (a t) (b t) a' b' / Real.pi * U t j + sphereMass i j (a t) (b t) * R j)))
      (Ici t) t := by
    refine HasDerivWithinAt.fun_sum fun i hi => (hU i (by simpa [Nat.lt_succ_iff] using hi)).mul ?_
    refine HasDerivWithinAt.fun_sum fun j hj => ?_
    exact (hasDerivWithinAt_sphereMass ha hb h i j).mul (hU j (by simpa [Nat.lt_succ_iff] using hj))
  refine (hsum.congr_of_eventuallyEq (hev.mono fun s hs => (mass_form M (U s) hs).symm)
    (mass_form M (U t) h).symm).congr_deriv ?_
  have hsymm : ∑ i ∈ Finset.range (M + 1), R i * ∑ j ∈ Finset.range (M + 1),
      sphereMass i j (a t) (b t) * U t j =
      ∑ i ∈ Finset.range (M + 1), U t i * ∑ j ∈ Finset.range (M + 1),
        sphereMass i j (a t) (b t) * R j := by
    have h1 := mass_bilinear M R (U t) h
    have h2 := mass_bilinear M (U t) R h
    unfold matVec at h1 h2
    rw [h1, h2]
    exact intervalIntegral.integral_congr fun r _ => by ring
  rw [quad_congr hmats.Mass, quad_congr (fun i hi j hj => matsExact_MPRIME hM h hmats hi hj),
    Finset.sum_add_distrib, hsymm]
  simp only [Finset.sum_add_distrib, mul_add]
  unfold matVec
  ring

end Verif.Lemmas
