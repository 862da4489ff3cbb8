import Verif.Lemmas.ActiveRhs
import Mathlib.LinearAlgebra.Matrix.NonsingularInverse
import Mathlib.LinearAlgebra.Matrix.ToLinearEquiv
import Mathlib.Algebra.Polynomial.Sequence

/-! Helper facts: the sphere mass matrix can be inverted on every cell. -/

namespace Verif.Lemmas

open Polynomial Verif.Spec Verif.Model

/-- The Chebyshev polynomials as a polynomial sequence. -/
noncomputable def chebSeq : Polynomial.Sequence ℝ where
  elems' n := Chebyshev.T ℝ n
  degree_eq' n := by rw [Chebyshev.degree_T]; simp

theorem cheb_independent {n : ℕ} {y : ℕ → ℝ}
    (h : ∑ j ∈ Finset.range n, C (y j) * Chebyshev.T ℝ (j : ℕ) = 0) (j : ℕ) (hj : j < n) :
    y j = 0 := by
  have := linearIndependent_iff'.1 (Polynomial.Sequence.linearIndependent chebSeq)
    (Finset.range n) y
  refine this ?_ j (Finset.mem_range.2 hj)
  rw [← h]
  exact Finset.sum_congr rfl fun i _ => by
    rw [← smul_eq_C_mul]; rfl

/-- The quadratic form of the mass matrix is the weighted norm of the field. -/
theorem mass_form (M : ℕ) (x : ℕ → ℝ) {a b : ℝ} (h : a < b) :
    ∑ i ∈ Finset.range (M + 1), x i * matVec M (fun i j => sphereMass i j a b) x i =
      ∫ r in a..b, r ^ 2 * sphereField M x a b r ^ 2 := by
  have e : ∀ r, r ^ 2 * sphereField M x a b r ^ 2 = ∑ i ∈ Finset.range (M + 1),
      ∑ j ∈ Finset.range (M + 1),
        x i * x j * (r ^ 2 * (sphereBasis i r a b * sphereBasis j r a b)) := by
    intro r
    unfold sphereField
    rw [pow_two (∑ j ∈ Finset.range (M + 1), x j * sphereBasis j r a b), Finset.sum_mul_sum,
      Finset.mul_sum]
    refine Finset.sum_congr rfl fun i _ => ?_
    rw [Finset.mul_sum]
    exact Finset.sum_congr rfl fun j _ => by ring
  have hc : ∀ i j, Continuous fun r =>
      x i * x j * (r ^ 2 * (sphereBasis i r a b * sphereBasis j r a b)) := fun i j =>
    continuous_const.mul ((continuous_id.pow 2).mul
      ((continuous_sphereBasis h i).mul (continuous_sphereBasis h j)))
  simp only [e]
  rw [intervalIntegral.integral_finsetSum
    (fun i _ => (continuous_finsetSum _ fun j _ => hc i j).intervalIntegrable _ _)]
  refine Finset.sum_congr rfl fun i _ => ?_
  rw [intervalIntegral.integral_finsetSum (fun j _ => (hc i j).intervalIntegrable _ _)]
  unfold matVec
  rw [Finset.mul_sum]
  refine Finset.sum_congr rfl fun j _ => ?_
  rw [intervalIntegral.integral_const_mul]
  unfold sphereMass
  ring

/-- A field that vanishes on the cell (except possibly at the origin) has zero coefficients. -/
theorem field_zero {M : ℕ} {x : ℕ → ℝ} {a b : ℝ} (h : a < b)
    (h0 : ∀ r ∈ Set.Ioc a b, r ^ 2 * sphereField M x a b r ^ 2 = 0) (j : ℕ) (hj : j ≤ M) :
    x j = 0 := by
  obtain ⟨-, hw⟩ := sqrt_pi_mul h
  have hb : b - a ≠ 0 := by linarith
  set P : ℝ[X] := ∑ j ∈ Finset.range (M + 1), C (x j * bb j) * Chebyshev.T ℝ (j : ℕ) with hP
  have hev : ∀ r, sphereField M x a b r = P.eval (ref r a b) / Real.sqrt (Real.pi * (b - a)) := by
    intro r
    unfold sphereField
    rw [hP, eval_finsetSum, Finset.sum_div]
    refine Finset.sum_congr rfl fun j _ => ?_
    rw [sphereBasis_eq, eval_mul, eval_C]
    ring
  have hzero : P = 0 := by
    refine Polynomial.eq_zero_of_infinite_isRoot P ?_
    refine Set.Infinite.mono (s := (fun r => ref r a b) '' (Set.Ioc a b \ {0})) ?_ ?_
    · rintro _ ⟨r, ⟨hr, hr0⟩, rfl⟩
      have h1 := h0 r hr
      have hr0' : r ≠ 0 := hr0
      have h2 : sphereField M x a b r = 0 := by
        rcases mul_eq_zero.1 h1 with h | h
        · exact absurd (pow_eq_zero_iff (by norm_num) |>.1 h) hr0'
        · exact pow_eq_zero_iff (by norm_num) |>.1 h
      rw [hev] at h2
      rcases div_eq_zero_iff.1 h2 with h3 | h3
      · exact h3
      · exact absurd h3 hw.ne'
    · refine Set.Infinite.image ?_ ((Set.Ioc_infinite h).sdiff (Set.finite_singleton 0))
      intro r _ s _ hrs
      have : (2 * r - a - b) / (b - a) = (2 * s - a - b) / (b - a) := hrs
      rw [div_left_inj' hb] at this
      linarith
  have h1 := cheb_independent hzero j (by omega)
  rcases mul_eq_zero.1 h1 with h | h
  · exact h
  · exfalso
    unfold bb at h
    split_ifs at h
    · norm_num at h
    · exact absurd h (Real.sqrt_pos.2 (by norm_num)).ne'

/-- The mass matrix is positive definite on every cell. -/
theorem mass_pos {M : ℕ} {x : ℕ → ℝ} {a b : ℝ} (h : a < b) (hx : ∃ j ≤ M, x j ≠ 0) :
    0 < ∑ i ∈ Finset.range (M + 1), x i * matVec M (fun i j => sphereMass i j a b) x i := by
  rw [mass_form M x h]
  have hcont : Continuous fun r => r ^ 2 * sphereField M x a b r ^ 2 := by
    unfold sphereField
    exact (continuous_id.pow 2).mul ((continuous_finsetSum _ fun j _ =>
      continuous_const.mul (continuous_sphereBasis h j)).pow 2)
  refine intervalIntegral.integral_pos h hcont.continuousOn
    (fun r _ => by positivity) ?_
  by_contra hn
  push Not at hn
  obtain ⟨j, hj, hne⟩ := hx
  refine hne (field_zero h (fun r hr => ?_) j hj)
  exact le_antisymm (hn r (Set.Ioc_subset_Icc_self hr)) (by positivity)

/-- A right inverse exists. -/
theorem exists_mass_inverse (M : ℕ) {a b : ℝ} (h : a < b) :
    ∃ Minv : ℕ → ℕ → ℝ, ∀ x : ℕ → ℝ, ∀ i ≤ M,
      matVec M (fun i j => sphereMass i j a b) (matVec M Minv x) i = x i := by
  set A : Matrix (Fin (M + 1)) (Fin (M + 1)) ℝ := fun i j => sphereMass i j a b with hA
  have hdet : A.det ≠ 0 := by
    intro hd
    obtain ⟨v, hv, hv0⟩ := Matrix.exists_mulVec_eq_zero_iff.2 hd
    obtain ⟨j, hj⟩ := Function.ne_iff.1 hv
    set x : ℕ → ℝ := fun i => if hi : i < M + 1 then v ⟨i, hi⟩ else 0 with hx
    have hxv : ∀ i : Fin (M + 1), x i = v i := fun i => dif_pos i.2
    have hpos := mass_pos (M := M) (x := x) h ⟨j, by have := j.2; omega, by rw [hxv]; exact hj⟩
    refine hpos.ne' (Finset.sum_eq_zero fun i hi => ?_)
    have hi' : i < M + 1 := by simpa using hi
    have h0 := congrFun hv0 ⟨i, hi'⟩
    have : matVec M (fun i j => sphereMass i j a b) x i = 0 := by
      unfold matVec
      rw [Finset.sum_range]
      rw [Matrix.mulVec, dotProduct] at h0
      simp only [hxv]
      exact h0
    rw [this, mul_zero]
  refine ⟨fun i j => if hi : i < M + 1 then (if hj : j < M + 1 then A⁻¹ ⟨i, hi⟩ ⟨j, hj⟩ else 0)
    else 0, fun x i hi => ?_⟩
  have hu : IsUnit A.det := isUnit_iff_ne_zero.2 hdet
  set v : Fin (M + 1) → ℝ := fun i => x i with hv
  have h1 : A.mulVec (A⁻¹.mulVec v) = v := by
    rw [Matrix.mulVec_mulVec, Matrix.mul_nonsing_inv A hu, Matrix.one_mulVec]
  have h2 := congrFun h1 ⟨i, by omega⟩
  rw [Matrix.mulVec, dotProduct] at h2
  unfold matVec
  rw [Finset.sum_range]
  refine Eq.trans (Finset.sum_congr rfl fun j _ => ?_) h2
  rw [Finset.sum_range]
  simp only [hA]
  congr 1
  rw [Matrix.mulVec, dotProduct]
  refine Finset.sum_congr rfl fun k _ => ?_
  rw [dif_pos j.2, dif_pos k.2]

end Verif.Lemmas
