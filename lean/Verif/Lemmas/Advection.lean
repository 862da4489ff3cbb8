import Verif.Lemmas.Flux
import Verif.Lemmas.SlabMatrices

/-! Helper facts: projections of polynomial fields on moving cells, discrete streaming operator. -/

namespace Verif.Lemmas

open Polynomial Verif.Spec Verif.Model

/-- Derivative in a parameter of the integral of a polynomial composed with an affine map. -/
theorem hasDerivAt_I_comp (p : ℝ[X]) {α β : ℝ → ℝ} {α' β' t : ℝ} (hα : HasDerivAt α α' t)
    (hβ : HasDerivAt β β' t) (q : ℝ[X]) :
    HasDerivAt (fun s => I (p.comp (C (α s) + C (β s) * X) * q))
      (I ((derivative p).comp (C (α t) + C (β t) * X) * (C α' + C β' * X) * q)) t := by
  induction p using Polynomial.induction_on generalizing q with
  | C a =>
    simp only [C_comp, derivative_C, zero_comp, zero_mul, I_zero]
    exact hasDerivAt_const _ _
  | add p1 p2 h1 h2 =>
    have e : ∀ s, I ((p1 + p2).comp (C (α s) + C (β s) * X) * q) =
        I (p1.comp (C (α s) + C (β s) * X) * q) + I (p2.comp (C (α s) + C (β s) * X) * q) := by
      intro s; rw [add_comp, add_mul, I_add]
    simp_rw [e]
    refine ((h1 q).add (h2 q)).congr_deriv ?_
    rw [derivative_add, add_comp, add_mul, add_mul, I_add]
  | monomial n a ih =>
    have e : ∀ s, I ((C a * X ^ (n + 1)).comp (C (α s) + C (β s) * X) * q) =
        α s * I ((C a * X ^ n).comp (C (α s) + C (β s) * X) * q) +
          β s * I ((C a * X ^ n).comp (C (α s) + C (β s) * X) * (X * q)) := by
      intro s
      rw [← I_C_mul, ← I_C_mul, ← I_add]
      congr 1
      simp only [mul_comp, C_comp, pow_comp, X_comp]
      ring
    have d := (hα.mul (ih q)).add (hβ.mul (ih (X * q)))
    simp_rw [e]
    refine d.congr_deriv ?_
    rw [← I_C_mul, ← I_C_mul, ← I_C_mul, ← I_C_mul, ← I_add, ← I_add, ← I_add]
    congr 1
    simp only [derivative_mul, derivative_C, derivative_X_pow, mul_comp, C_comp, pow_comp, X_comp,
      zero_mul, zero_add]
    rcases n with _ | n
    · simp; ring
    · simp only [Nat.add_sub_cancel, Nat.cast_add, Nat.cast_one, C_add, C_1]
      ring

/-- Integral of a polynomial times a basis function in reference coordinates. -/
theorem integral_mul_slabBasis (p : ℝ[X]) (i : ℕ) {a b : ℝ} (h : a < b) :
    ∫ x in a..b, p.eval x * slabBasis i x a b =
      Real.sqrt ((2 * (i : ℝ) + 1) / (b - a)) * ((b - a) / 2) *
        I (p.comp (C ((a + b) / 2) + C ((b - a) / 2) * X) * legendre i) := by
  have hb : b - a ≠ 0 := by linarith
  have e : ∀ x, p.eval x * slabBasis i x a b = Real.sqrt ((2 * (i : ℝ) + 1) / (b - a)) *
      (p.comp (C ((a + b) / 2) + C ((b - a) / 2) * X) * legendre i).eval (zSlab x a b) := by
    intro x
    unfold slabBasis
    rw [zSlab_eq_ref x h, eval_mul, eval_comp]
    simp only [eval_add, eval_mul, eval_C, eval_X]
    have : (a + b) / 2 + (b - a) / 2 * ref x a b = x := by unfold ref; field_simp; ring
    rw [this]; ring
  simp_rw [e]
  rw [integral_zSlab_poly h]; ring

/-- The polynomial in reference coordinates of a discrete field. -/
noncomputable def refPoly (M : ℕ) (U : ℕ → ℝ) (h : ℝ) : ℝ[X] :=
  ∑ j ∈ Finset.range (M + 1), C (U j * Real.sqrt ((2 * (j : ℝ) + 1) / h)) * legendre j

theorem slabField_eq_refPoly (M : ℕ) (U : ℕ → ℝ) (a b x : ℝ) :
    slabField M U a b x = (refPoly M U (b - a)).eval (ref x a b) := by
  unfold slabField refPoly slabBasis
  rw [eval_finsetSum]
  refine Finset.sum_congr rfl fun j _ => ?_
  simp only [eval_mul, eval_C]; ring

theorem I_sum {ι : Type*} (s : Finset ι) (f : ι → ℝ[X]) : I (∑ i ∈ s, f i) = ∑ i ∈ s, I (f i) := by
  classical
  induction s using Finset.induction_on with
  | empty => simp [I_zero]
  | insert a s ha ih => rw [Finset.sum_insert ha, Finset.sum_insert ha, I_add, ih]

theorem I_mul_refPoly (M : ℕ) (U : ℕ → ℝ) (h : ℝ) (q : ℝ[X]) :
    I (q * refPoly M U h) =
      ∑ j ∈ Finset.range (M + 1), U j * Real.sqrt ((2 * (j : ℝ) + 1) / h) *
        I (q * legendre j) := by
  unfold refPoly
  rw [Finset.mul_sum, I_sum]
  refine Finset.sum_congr rfl fun j _ => ?_
  rw [← I_C_mul]; congr 1; ring

theorem matVec_L (M : ℕ) (m : MeshView) (space : ℕ) (h : m.edges space < m.edges (space + 1))
    (U : ℕ → ℝ) {i : ℕ} (hi : i ≤ M) :
    matVec M (cellMatrices M m space).L U i =
      Real.sqrt ((2 * (i : ℝ) + 1) / (m.edges (space + 1) - m.edges space)) *
        I (derivative (legendre i) * refPoly M U (m.edges (space + 1) - m.edges space)) := by
  rw [I_mul_refPoly, Finset.mul_sum]
  unfold matVec
  refine Finset.sum_congr rfl fun j hj => ?_
  rw [cellL_eq_I M m space hi (by simpa [Nat.lt_succ_iff] using hj), ← sqrt_mul_sqrt h]
  ring

theorem matVec_G (M : ℕ) (m : MeshView) (space : ℕ) (h : m.edges space < m.edges (space + 1))
    (U : ℕ → ℝ) {i : ℕ} (hi : i ≤ M) :
    matVec M (cellMatrices M m space).G U i =
      Real.sqrt ((2 * (i : ℝ) + 1) / (m.edges (space + 1) - m.edges space)) / 2 *
        I ((C (-(1 / 2) * (m.Dedges (space + 1) - m.Dedges space)) * legendre i +
          C (-(m.Dedges space + m.Dedges (space + 1))) * derivative (legendre i) +
          C (-(m.Dedges (space + 1) - m.Dedges space)) *
            (X * derivative (legendre i))) *
          refPoly M U (m.edges (space + 1) - m.edges space)) := by
  rw [I_mul_refPoly, Finset.mul_sum]
  unfold matVec
  refine Finset.sum_congr rfl fun j hj => ?_
  rw [cellG_eq_I M m space h hi (by simpa [Nat.lt_succ_iff] using hj), ← sqrt_mul_sqrt h]
  have : (C (-(1 / 2) * (m.Dedges (space + 1) - m.Dedges space)) * (legendre i * legendre j) +
          C (-(m.Dedges space + m.Dedges (space + 1))) * (derivative (legendre i) * legendre j) +
          C (-(m.Dedges (space + 1) - m.Dedges space)) *
            (X * derivative (legendre i) * legendre j)) =
      (C (-(1 / 2) * (m.Dedges (space + 1) - m.Dedges space)) * legendre i +
          C (-(m.Dedges space + m.Dedges (space + 1))) * derivative (legendre i) +
          C (-(m.Dedges (space + 1) - m.Dedges space)) *
            (X * derivative (legendre i))) * legendre j := by ring
  rw [this]
  ring

theorem upwind_same (v s : ℝ) : upwind v s s = v * s := by
  unfold upwind
  rw [← add_mul, max_add_min, add_zero]

/-- A field equal to the polynomial `p` has `p` composed with the affine map as reference
polynomial. -/
theorem refPoly_of_field {M : ℕ} {U : ℕ → ℝ} {a b : ℝ} (h : a < b) {p : ℝ[X]}
    (hp : ∀ x, slabField M U a b x = p.eval x) :
    refPoly M U (b - a) = p.comp (C ((a + b) / 2) + C ((b - a) / 2) * X) := by
  have hb : b - a ≠ 0 := by linarith
  apply Polynomial.funext
  intro z
  have := hp ((a + b) / 2 + (b - a) / 2 * z)
  rw [slabField_eq_refPoly] at this
  have e : ref ((a + b) / 2 + (b - a) / 2 * z) a b = z := by unfold ref; field_simp; ring
  rw [e] at this
  rw [this, eval_comp]
  simp

/-- Core of the advection property: the discrete streaming operator equals the rate of change of
the projection of the exactly advected polynomial, when both outer states equal the polynomial. -/
theorem streaming_core (p : ℝ[X]) {a b : ℝ → ℝ} {a' b' t mul : ℝ} (ha : HasDerivAt a a' t)
    (hb : HasDerivAt b b' t) (h : a t < b t) (i : ℕ) :
    HasDerivAt (fun s => ∫ x in (a s)..(b s), p.eval (x - mul * (s - t)) *
        slabBasis i x (a s) (b s))
      (Real.sqrt ((2 * (i : ℝ) + 1) / (b t - a t)) / 2 *
        I ((C (-(1 / 2) * (b' - a')) * legendre i + C (-(a' + b')) * derivative (legendre i) +
          C (-(b' - a')) * (X * derivative (legendre i))) *
          p.comp (C ((a t + b t) / 2) + C ((b t - a t) / 2) * X))
      - (slabBasis i (b t) (a t) (b t) * ((mul - b') * p.eval (b t)) -
          slabBasis i (a t) (a t) (b t) * ((mul - a') * p.eval (a t)))
      + mul * (Real.sqrt ((2 * (i : ℝ) + 1) / (b t - a t)) *
        I (derivative (legendre i) *
          p.comp (C ((a t + b t) / 2) + C ((b t - a t) / 2) * X)))) t := by
  have hpos : 0 < b t - a t := by linarith
  have hne : b t - a t ≠ 0 := hpos.ne'
  have hlt : ∀ᶠ s in nhds t, a s < b s :=
    ha.continuousAt.eventually_lt hb.continuousAt h
  have hα : HasDerivAt (fun s => (a s + b s) / 2 - mul * (s - t)) ((a' + b') / 2 - mul) t := by
    have h1 := (ha.add hb).div_const 2
    have h2 := ((hasDerivAt_id t).sub_const t).const_mul mul
    refine (h1.sub h2).congr_deriv ?_
    simp
  have hβ : HasDerivAt (fun s => (b s - a s) / 2) ((b' - a') / 2) t := (hb.sub ha).div_const 2
  have hF := hasDerivAt_I_comp p hα hβ (legendre i)
  have hq : HasDerivAt (fun s => Real.sqrt ((2 * (i : ℝ) + 1) / (b s - a s)) * ((b s - a s) / 2))
      (Real.sqrt ((2 * (i : ℝ) + 1) / (b t - a t)) * ((b' - a') / 4)) t := by
    have h1 : HasDerivAt (fun s => Real.sqrt ((2 * (i : ℝ) + 1) * (b s - a s)) / 2)
        (((2 * (i : ℝ) + 1) * (b' - a')) / (2 * Real.sqrt ((2 * (i : ℝ) + 1) * (b t - a t))) / 2)
        t := by
      have := ((hb.sub ha).const_mul (2 * (i : ℝ) + 1)).sqrt (by simp; constructor <;> positivity)
      exact this.div_const 2
    have e1 : ∀ s, a s < b s →
        Real.sqrt ((2 * (i : ℝ) + 1) / (b s - a s)) * ((b s - a s) / 2) =
          Real.sqrt ((2 * (i : ℝ) + 1) * (b s - a s)) / 2 := by
      intro s hs
      have hs' : 0 < b s - a s := by linarith
      rw [Real.sqrt_div (by positivity), Real.sqrt_mul (by positivity)]
      have h3 : Real.sqrt (b s - a s) * Real.sqrt (b s - a s) = b s - a s :=
        Real.mul_self_sqrt hs'.le
      have h4 : Real.sqrt (b s - a s) ≠ 0 := (Real.sqrt_pos.2 hs').ne'
      field_simp
      rw [pow_two, h3]
    have h2 := h1.congr_of_eventuallyEq (hlt.mono fun s hs => e1 s hs)
    refine h2.congr_deriv ?_
    rw [Real.sqrt_div (by positivity), Real.sqrt_mul (by positivity)]
    have h3 : Real.sqrt (2 * (i : ℝ) + 1) * Real.sqrt (2 * (i : ℝ) + 1) = 2 * (i : ℝ) + 1 :=
      Real.mul_self_sqrt (by positivity)
    have h4 : Real.sqrt (b t - a t) ≠ 0 := (Real.sqrt_pos.2 hpos).ne'
    have h5 : Real.sqrt (2 * (i : ℝ) + 1) ≠ 0 := (Real.sqrt_pos.2 (by positivity)).ne'
    field_simp
    linear_combination (-4 * (b' - a')) * h3
  have hprod := hq.mul hF
  have hev : (fun s => ∫ x in (a s)..(b s), p.eval (x - mul * (s - t)) *
        slabBasis i x (a s) (b s)) =ᶠ[nhds t]
      (fun s => Real.sqrt ((2 * (i : ℝ) + 1) / (b s - a s)) * ((b s - a s) / 2)) *
        fun s => I (p.comp (C ((a s + b s) / 2 - mul * (s - t)) + C ((b s - a s) / 2) * X) *
          legendre i) := by
    filter_upwards [hlt] with s hs
    have := integral_mul_slabBasis (p.comp (X - C (mul * (s - t)))) i hs
    simp only [eval_comp, eval_sub, eval_X, eval_C] at this
    rw [this, Pi.mul_apply]
    congr 3
    rw [comp_assoc]
    congr 1
    simp only [sub_comp, X_comp, C_comp, C_sub]
    ring
  have hfin := hprod.congr_of_eventuallyEq hev
  refine hfin.congr_deriv ?_
  simp only [sub_self, mul_zero, sub_zero]
  set q := p.comp (C ((a t + b t) / 2) + C ((b t - a t) / 2) * X) with hqd
  have hqderiv : derivative q = C ((b t - a t) / 2) *
      (derivative p).comp (C ((a t + b t) / 2) + C ((b t - a t) / 2) * X) := by
    rw [hqd, derivative_comp]
    simp
  have q1 : q.eval 1 = p.eval (b t) := by
    rw [hqd, eval_comp]; simp only [eval_add, eval_mul, eval_C, eval_X]; congr 1; ring
  have qm1 : q.eval (-1) = p.eval (a t) := by
    rw [hqd, eval_comp]; simp only [eval_add, eval_mul, eval_C, eval_X]; congr 1; ring
  have parts : I (derivative q * ((C ((a' + b') / 2 - mul) + C ((b' - a') / 2) * X) *
      legendre i)) = (b' - mul) * p.eval (b t) - (a' - mul) * (-1) ^ i * p.eval (a t)
      - I (q * (C ((b' - a') / 2) * legendre i +
          (C ((a' + b') / 2 - mul) + C ((b' - a') / 2) * X) * derivative (legendre i))) := by
    have hd := I_derivative (q * ((C ((a' + b') / 2 - mul) + C ((b' - a') / 2) * X) * legendre i))
    have e1 : derivative (q * ((C ((a' + b') / 2 - mul) + C ((b' - a') / 2) * X) * legendre i)) =
        derivative q * ((C ((a' + b') / 2 - mul) + C ((b' - a') / 2) * X) * legendre i) +
        q * (C ((b' - a') / 2) * legendre i +
          (C ((a' + b') / 2 - mul) + C ((b' - a') / 2) * X) * derivative (legendre i)) := by
      simp only [derivative_mul, derivative_add, derivative_C, derivative_X]
      ring
    rw [e1, I_add] at hd
    simp only [eval_mul, eval_add, eval_C, eval_X, q1, qm1, legendre_eval_one,
      legendre_eval_neg_one] at hd
    linear_combination hd
  have hI1 : (b t - a t) / 2 * I ((derivative p).comp (C ((a t + b t) / 2) +
      C ((b t - a t) / 2) * X) * (C ((a' + b') / 2 - mul) + C ((b' - a') / 2) * X) *
        legendre i) =
      I (derivative q * ((C ((a' + b') / 2 - mul) + C ((b' - a') / 2) * X) * legendre i)) := by
    rw [← I_C_mul, hqderiv]; congr 1; ring
  have hI2 : I (q * (C ((b' - a') / 2) * legendre i +
          (C ((a' + b') / 2 - mul) + C ((b' - a') / 2) * X) * derivative (legendre i))) =
      (b' - a') / 2 * I (q * legendre i) +
        ((a' + b') / 2 - mul) * I (derivative (legendre i) * q) +
        (b' - a') / 2 * I (X * derivative (legendre i) * q) := by
    rw [← I_C_mul, ← I_C_mul, ← I_C_mul, ← I_add, ← I_add]; congr 1; ring
  have hI3 : I ((C (-(1 / 2) * (b' - a')) * legendre i + C (-(a' + b')) * derivative (legendre i) +
          C (-(b' - a')) * (X * derivative (legendre i))) * q) =
      -(1 / 2) * (b' - a') * I (q * legendre i) - (a' + b') * I (derivative (legendre i) * q)
        - (b' - a') * I (X * derivative (legendre i) * q) := by
    rw [← I_C_mul, ← I_C_mul, ← I_C_mul, ← I_sub, ← I_sub]; congr 1
    simp only [C_neg]; ring
  have sR : slabBasis i (b t) (a t) (b t) = Real.sqrt ((2 * (i : ℝ) + 1) / (b t - a t)) := by
    unfold slabBasis; rw [ref_right h, legendre_eval_one, mul_one]
  have sL : slabBasis i (a t) (a t) (b t) =
      Real.sqrt ((2 * (i : ℝ) + 1) / (b t - a t)) * (-1) ^ i := by
    unfold slabBasis; rw [ref_left h, legendre_eval_neg_one]
  rw [hI3, sR, sL]
  rw [parts, hI2] at hI1
  linear_combination Real.sqrt ((2 * (i : ℝ) + 1) / (b t - a t)) * hI1

end Verif.Lemmas
