import Verif.Spec.Stability
import Verif.Lemmas.SlabBalance

/-! Helper facts: the quadratic form of the slab streaming operator. -/

namespace Verif.Lemmas

open Polynomial Verif.Spec Verif.Model

/-- Upwinding at an edge never adds to the square norm: with `l`, `r` the states left and right. -/
theorem upwind_dissipates (v l r : ℝ) :
    1 / 2 * v * l ^ 2 - 1 / 2 * v * r ^ 2 - l * upwind v l r + r * upwind v l r =
      -(1 / 2) * |v| * (r - l) ^ 2 := by
  unfold upwind
  rcases le_total 0 v with h | h
  · rw [max_eq_left h, min_eq_right h, abs_of_nonneg h]; ring
  · rw [max_eq_right h, min_eq_left h, abs_of_nonpos h]; ring

/-- Sum of coefficients times test integrals. -/
theorem sum_coef_I (M : ℕ) (U : ℕ → ℝ) (h : ℝ) (f : ℝ[X] →ₗ[ℝ] ℝ[X]) (q : ℝ[X]) :
    ∑ i ∈ Finset.range (M + 1), U i * (Real.sqrt ((2 * (i : ℝ) + 1) / h) *
      I (f (legendre i) * q)) = I (f (refPoly M U h) * q) := by
  unfold refPoly
  rw [map_sum, Finset.sum_mul, I_sum]
  refine Finset.sum_congr rfl fun i _ => ?_
  rw [← smul_eq_C_mul, map_smul, smul_eq_C_mul, mul_assoc, I_C_mul]
  ring

theorem I_derivative_mul_self (p : ℝ[X]) :
    I (derivative p * p) = 1 / 2 * (p.eval 1 ^ 2 - p.eval (-1) ^ 2) := by
  have h := I_derivative (p * p)
  rw [derivative_mul, mul_comm p (derivative p), I_add] at h
  simp only [eval_mul] at h
  linear_combination h / 2

theorem I_X_derivative_mul_self (p : ℝ[X]) :
    I (X * derivative p * p) =
      1 / 2 * (p.eval 1 ^ 2 + p.eval (-1) ^ 2) - 1 / 2 * I (p * p) := by
  have h := I_derivative (X * (p * p))
  have e : derivative (X * (p * p)) = p * p + (X * derivative p * p + X * derivative p * p) := by
    simp only [derivative_mul, derivative_X]; ring
  rw [e, I_add, I_add] at h
  simp only [eval_mul, eval_X] at h
  linear_combination h / 2

/-- The volume part of the streaming operator only sees the traces at the edges. -/
theorem volume_form (c : FluxConfig) (m : MeshView) (space : ℕ)
    (h : m.edges space < m.edges (space + 1)) (U : ℕ → ℝ) (mul : ℝ) :
    ∑ i ∈ Finset.range (c.M + 1), U i * (matVec c.M (cellMatrices c.M m space).G U i
      + mul * matVec c.M (cellMatrices c.M m space).L U i) =
    1 / 2 * (mul - m.Dedges (space + 1)) *
        slabField c.M U (m.edges space) (m.edges (space + 1)) (m.edges (space + 1)) ^ 2
      - 1 / 2 * (mul - m.Dedges space) *
        slabField c.M U (m.edges space) (m.edges (space + 1)) (m.edges space) ^ 2 := by
  rw [slabField_eq_refPoly, slabField_eq_refPoly, ref_left h, ref_right h]
  set w := m.edges (space + 1) - m.edges space with hw
  set P := refPoly c.M U w with hP
  set a' := m.Dedges space with ha
  set b' := m.Dedges (space + 1) with hb
  have eL : ∑ i ∈ Finset.range (c.M + 1), U i * matVec c.M (cellMatrices c.M m space).L U i =
      I (derivative P * P) := by
    have := sum_coef_I c.M U w Polynomial.derivative P
    rw [← hP] at this
    rw [← this]
    refine Finset.sum_congr rfl fun i hi => ?_
    rw [matVec_L c.M m space h U (by simpa [Nat.lt_succ_iff] using hi)]
  have eG : ∑ i ∈ Finset.range (c.M + 1), U i * matVec c.M (cellMatrices c.M m space).G U i =
      1 / 2 * I ((C (-(1 / 2) * (b' - a')) * P + C (-(a' + b')) * derivative P +
          C (-(b' - a')) * (X * derivative P)) * P) := by
    let f : ℝ[X] →ₗ[ℝ] ℝ[X] := (-(1 / 2) * (b' - a')) • LinearMap.id
      + (-(a' + b')) • Polynomial.derivative
      + (-(b' - a')) • ((LinearMap.mulLeft ℝ (X : ℝ[X])).comp Polynomial.derivative)
    have hf : ∀ p, f p = C (-(1 / 2) * (b' - a')) * p + C (-(a' + b')) * derivative p +
        C (-(b' - a')) * (X * derivative p) := by
      intro p
      simp only [f, LinearMap.add_apply, LinearMap.smul_apply, LinearMap.id_apply,
        LinearMap.comp_apply, LinearMap.mulLeft_apply, smul_eq_C_mul]
    have := sum_coef_I c.M U w f P
    rw [← hP] at this
    rw [← hf, ← this, Finset.mul_sum]
    refine Finset.sum_congr rfl fun i hi => ?_
    rw [matVec_G c.M m space h U (by simpa [Nat.lt_succ_iff] using hi), hf]
    ring
  have e : ∑ i ∈ Finset.range (c.M + 1), U i * (matVec c.M (cellMatrices c.M m space).G U i
      + mul * matVec c.M (cellMatrices c.M m space).L U i) =
      ∑ i ∈ Finset.range (c.M + 1), U i * matVec c.M (cellMatrices c.M m space).G U i +
      mul * ∑ i ∈ Finset.range (c.M + 1), U i * matVec c.M (cellMatrices c.M m space).L U i := by
    rw [Finset.mul_sum, ← Finset.sum_add_distrib]
    exact Finset.sum_congr rfl fun _ _ => by ring
  rw [e, eG, eL]
  have e3 : (C (-(1 / 2) * (b' - a')) * P + C (-(a' + b')) * derivative P +
          C (-(b' - a')) * (X * derivative P)) * P =
      C (-(1 / 2) * (b' - a')) * (P * P) + C (-(a' + b')) * (derivative P * P) +
          C (-(b' - a')) * (X * derivative P * P) := by ring
  rw [e3, I_add, I_add, I_C_mul, I_C_mul, I_C_mul, I_derivative_mul_self, I_X_derivative_mul_self]
  ring

/-- The quadratic form of the streaming operator on one cell. -/
theorem cell_form (c : FluxConfig) (hg : c.geometry = .slab) (t : ℝ) (m : MeshView)
    (hm : ∀ k < c.Nspace, m.edges k < m.edges (k + 1)) (u : ℕ → ℕ → ℝ) (space : ℕ)
    (hs : space < c.Nspace) (mul : ℝ) (uRefl : ℕ → ℝ) (fs : FluxState) (L R : ℝ)
    (hL : slabField c.M (u space) (m.edges space) (m.edges (space + 1)) (m.edges space) = L)
    (hR : slabField c.M (u space) (m.edges space) (m.edges (space + 1)) (m.edges (space + 1)) = R) :
    ∑ i ∈ Finset.range (c.M + 1), u space i * streamPart c t m u space mul uRefl fs i =
      (1 / 2 * (mul - m.Dedges (space + 1)) * R ^ 2
        - R * upwind (mul - m.Dedges (space + 1)) R (rightOuter c t m u space))
      - (1 / 2 * (mul - m.Dedges space) * L ^ 2
        - L * upwind (mul - m.Dedges space) (leftOuter c t m u space uRefl) L) := by
  have hv := volume_form c m space (hm space hs) (u space) mul
  have e : ∀ i ∈ Finset.range (c.M + 1), u space i * streamPart c t m u space mul uRefl fs i =
      u space i * (matVec c.M (cellMatrices c.M m space).G (u space) i
        + mul * matVec c.M (cellMatrices c.M m space).L (u space) i)
      - ((u space i * slabBasis i (m.edges (space + 1)) (m.edges space) (m.edges (space + 1))) *
          upwind (mul - m.Dedges (space + 1)) R (rightOuter c t m u space)
        - (u space i * slabBasis i (m.edges space) (m.edges space) (m.edges (space + 1))) *
          upwind (mul - m.Dedges space) (leftOuter c t m u space uRefl) L) := by
    intro i hi
    unfold streamPart
    rw [fluxLU_eq c t m u space mul uRefl fs hs hm (by simpa [Nat.lt_succ_iff] using hi), hg]
    simp only [geomArea, geomBasis, geomField, hL, hR]
    ring
  rw [Finset.sum_congr rfl e, Finset.sum_sub_distrib, Finset.sum_sub_distrib, ← Finset.sum_mul,
    ← Finset.sum_mul, hv]
  have fR : ∑ i ∈ Finset.range (c.M + 1),
      u space i * slabBasis i (m.edges (space + 1)) (m.edges space) (m.edges (space + 1)) = R := hR
  have fL : ∑ i ∈ Finset.range (c.M + 1),
      u space i * slabBasis i (m.edges space) (m.edges space) (m.edges (space + 1)) = L := hL
  rw [fR, fL, hL, hR]
  ring

/-- The quadratic form of the streaming operator on the whole mesh with vacuum outside. -/
theorem mesh_form (c : FluxConfig) (hg : c.geometry = .slab) (t : ℝ) (m : MeshView)
    (hm : ∀ k < c.Nspace, m.edges k < m.edges (k + 1)) (u : ℕ → ℕ → ℝ)
    (mul : ℝ) (uRefl : ℕ → ℝ) (fs : ℕ → FluxState)
    (hleft : isBoundarySourceOn c 0 t = false)
    (hright : isBoundarySourceOn c (c.Nspace - 1) t = false) :
    ∑ k ∈ Finset.range c.Nspace, ∑ i ∈ Finset.range (c.M + 1),
      u k i * streamPart c t m u k mul uRefl (fs k) i =
      -(1 / 2) * ∑ k ∈ Finset.range (c.Nspace + 1),
        |mul - m.Dedges k| * edgeJump c.Nspace c.M m.edges u k ^ 2 := by
  set A : ℕ → ℝ := fun k => 1 / 2 * (mul - m.Dedges k) * traceLeft c.M m.edges u k ^ 2
    - traceLeft c.M m.edges u k * upwind (mul - m.Dedges k) (traceLeft c.M m.edges u k) (traceRight c.Nspace c.M m.edges u k) with hA
  set B : ℕ → ℝ := fun k => 1 / 2 * (mul - m.Dedges k) * traceRight c.Nspace c.M m.edges u k ^ 2
    - traceRight c.Nspace c.M m.edges u k * upwind (mul - m.Dedges k) (traceLeft c.M m.edges u k) (traceRight c.Nspace c.M m.edges u k)
    with hB
  have hcell : ∀ k ∈ Finset.range c.Nspace, ∑ i ∈ Finset.range (c.M + 1),
      u k i * streamPart c t m u k mul uRefl (fs k) i = A (k + 1) - B k := by
    intro k hk
    have hk : k < c.Nspace := Finset.mem_range.1 hk
    have hr : rightOuter c t m u k = traceRight c.Nspace c.M m.edges u (k + 1) := by
      unfold rightOuter traceRight
      by_cases hl : k + 1 = c.Nspace
      · have hk' : k = c.Nspace - 1 := by omega
        rw [if_neg (by omega), if_neg (by rw [hk', hright]; simp), if_neg (by omega)]
      · rw [if_pos hl, if_pos (by omega), hg]; rfl
    have hl : leftOuter c t m u k uRefl = traceLeft c.M m.edges u k := by
      unfold leftOuter
      cases k with
      | zero =>
        rw [if_neg (by omega), if_neg (by rw [hleft]; simp), if_neg (by rw [hg]; decide)]; rfl
      | succ k => rw [if_pos (by omega), hg]; rfl
    rw [cell_form c hg t m hm u k hk mul uRefl (fs k) (traceRight c.Nspace c.M m.edges u k) (traceLeft c.M m.edges u (k + 1))
      (by unfold traceRight; rw [if_pos hk]) rfl, hr, hl]
  rw [Finset.sum_congr rfl hcell, Finset.mul_sum]
  have hedge : ∀ k, -(1 / 2) * (|mul - m.Dedges k| * edgeJump c.Nspace c.M m.edges u k ^ 2) =
      A k - B k := by
    intro k
    have := upwind_dissipates (mul - m.Dedges k) (traceLeft c.M m.edges u k) (traceRight c.Nspace c.M m.edges u k)
    simp only [hA, hB, edgeJump]
    linear_combination -this
  have hA0 : A 0 = 0 := by simp [hA, traceLeft]
  have hB0 : B c.Nspace = 0 := by simp [hB, traceRight]
  rw [Finset.sum_congr rfl fun k _ => hedge k]
  clear_value A B
  rw [Finset.sum_sub_distrib, Finset.sum_sub_distrib]
  have h1 := Finset.sum_range_succ' A c.Nspace
  have h2 := Finset.sum_range_succ B c.Nspace
  rw [h1, h2, hA0, hB0]
  ring

/-- Parseval: the square norm of the field on a cell. -/
theorem integral_slabField_sq (M : ℕ) (U : ℕ → ℝ) {a b : ℝ} (h : a < b) :
    ∫ x in a..b, slabField M U a b x ^ 2 = ∑ i ∈ Finset.range (M + 1), U i ^ 2 := by
  have hpos : 0 < b - a := by linarith
  have e : ∀ x, slabField M U a b x ^ 2 =
      1 * (refPoly M U (b - a) * refPoly M U (b - a)).eval (zSlab x a b) := by
    intro x; rw [slabField_eq_refPoly, zSlab_eq_ref x h, eval_mul, one_mul, pow_two]
  simp_rw [e]
  rw [integral_zSlab_poly h, one_mul, I_mul_refPoly, Finset.mul_sum]
  refine Finset.sum_congr rfl fun j hj => ?_
  rw [mul_comm (refPoly M U (b - a)), I_mul_refPoly, Finset.sum_eq_single j]
  · rw [I_sq]
    have h3 : Real.sqrt ((2 * (j : ℝ) + 1) / (b - a)) * Real.sqrt ((2 * (j : ℝ) + 1) / (b - a)) =
        (2 * (j : ℝ) + 1) / (b - a) := Real.mul_self_sqrt (by positivity)
    have h5 : (2 * (j : ℝ) + 1) ≠ 0 := by positivity
    have : (b - a) / 2 * (U j * Real.sqrt ((2 * (j : ℝ) + 1) / (b - a)) *
        (U j * Real.sqrt ((2 * (j : ℝ) + 1) / (b - a)) * (2 / (2 * (j : ℝ) + 1)))) =
        (b - a) * U j ^ 2 / (2 * (j : ℝ) + 1) * (Real.sqrt ((2 * (j : ℝ) + 1) / (b - a)) *
          Real.sqrt ((2 * (j : ℝ) + 1) / (b - a))) := by ring
    rw [this, h3]
    field_simp
  · intro k _ hk
    rw [I_orthogonal (Ne.symm hk)]; ring
  · intro hn; exact absurd hj hn

end Verif.Lemmas
