import Verif.Lemmas.SphereBalance
import Verif.Model.SphereTables

/-! Helper facts: the sphere matrices as quadratic and linear forms in the two radii of the cell,
with rational coefficients. -/

namespace Verif.Lemmas

open Polynomial Verif.Spec Verif.Model

/-- Integrals over `[-1, 1]` of polynomials with integer coefficients are rational. -/
theorem I_rational (q : ℤ[X]) : ∃ r : ℚ, I (q.map (Int.castRingHom ℝ)) = (r : ℝ) := by
  induction q using Polynomial.induction_on' with
  | add p q hp hq =>
    obtain ⟨r, hr⟩ := hp
    obtain ⟨s, hs⟩ := hq
    exact ⟨r + s, by rw [Polynomial.map_add, I_add, hr, hs]; push_cast; ring⟩
  | monomial n c =>
    refine ⟨c * ((1 - (-1) ^ (n + 1)) / (n + 1)), ?_⟩
    have e : ∀ x : ℝ, ((monomial n c).map (Int.castRingHom ℝ)).eval x = (c : ℝ) * x ^ n := by
      intro x; simp
    unfold I
    simp_rw [e]
    rw [intervalIntegral.integral_const_mul, integral_pow]
    push_cast
    ring

/-- Integrals of odd polynomials vanish. -/
theorem I_odd {p : ℝ[X]} (h : ∀ x, p.eval (-x) = -p.eval x) : I p = 0 := by
  have h1 : I p = ∫ x in (-1 : ℝ)..1, p.eval (-x) := by
    have := intervalIntegral.integral_comp_neg (a := (-1 : ℝ)) (b := 1) fun x => p.eval x
    rw [this, neg_neg]
    rfl
  have h2 : (∫ x in (-1 : ℝ)..1, p.eval (-x)) = -I p := by
    unfold I
    simp_rw [h]
    exact intervalIntegral.integral_neg
  linarith

/-- Moments of products of two Chebyshev polynomials. -/
noncomputable def tt (k i j : ℕ) : ℝ := I (X ^ k * (Chebyshev.T ℝ i * Chebyshev.T ℝ j))

/-- Moments with the derivative of the first factor. -/
noncomputable def dt (k i j : ℕ) : ℝ :=
  I (X ^ k * (derivative (Chebyshev.T ℝ i) * Chebyshev.T ℝ j))

theorem tt_rational (k i j : ℕ) : ∃ r : ℚ, tt k i j = (r : ℝ) := by
  obtain ⟨r, hr⟩ := I_rational (X ^ k * (Chebyshev.T ℤ i * Chebyshev.T ℤ j))
  refine ⟨r, ?_⟩
  rw [← hr, tt, Polynomial.map_mul, Polynomial.map_mul, Polynomial.map_pow, Polynomial.map_X,
    Chebyshev.map_T, Chebyshev.map_T]

theorem dt_rational (k i j : ℕ) : ∃ r : ℚ, dt k i j = (r : ℝ) := by
  obtain ⟨r, hr⟩ := I_rational (X ^ k * (derivative (Chebyshev.T ℤ i) * Chebyshev.T ℤ j))
  refine ⟨r, ?_⟩
  rw [← hr, dt, Polynomial.map_mul, Polynomial.map_mul, Polynomial.map_pow, Polynomial.map_X,
    ← Polynomial.derivative_map, Chebyshev.map_T, Chebyshev.map_T]

theorem negOnePow_cast (n : ℕ) : (((n : ℤ).negOnePow : ℤˣ) : ℝ) = (-1) ^ n := by
  simp [Int.negOnePow]

theorem tt_odd {k i j : ℕ} (h : (k + i + j) % 2 = 1) : tt k i j = 0 := by
  refine I_odd fun x => ?_
  have hodd : Odd (k + i + j) := Nat.odd_iff.2 h
  have := hodd.neg_one_pow (α := ℝ)
  simp only [eval_mul, eval_pow, eval_X, Chebyshev.T_eval_neg, negOnePow_cast, neg_pow x]
  rw [pow_add, pow_add] at this
  linear_combination x ^ k * eval x (Chebyshev.T ℝ i) * eval x (Chebyshev.T ℝ j) * this

theorem dt_odd {k i j : ℕ} (h : (k + i + j) % 2 = 0) : dt k i j = 0 := by
  rcases Nat.eq_zero_or_pos i with rfl | hi
  · simp [dt, I_zero]
  obtain ⟨i, rfl⟩ : ∃ m, i = m + 1 := ⟨i - 1, by omega⟩
  refine I_odd fun x => ?_
  have hodd : Odd (k + i + j) := Nat.odd_iff.2 (by omega)
  have := hodd.neg_one_pow (α := ℝ)
  have e : ((i + 1 : ℕ) : ℤ) - 1 = i := by push_cast; ring
  simp only [eval_mul, eval_pow, eval_X, Chebyshev.T_eval_neg, negOnePow_cast, neg_pow x,
    Chebyshev.T_derivative_eq_U, e, Chebyshev.U_eval_neg]
  rw [pow_add, pow_add] at this
  have e2 : ∀ y : ℝ, eval y (((i + 1 : ℕ) : ℤ) : ℝ[X]) = (i : ℝ) + 1 := by intro y; simp
  rw [e2, e2]
  linear_combination x ^ k * ((i : ℝ) + 1) * eval x (Chebyshev.U ℝ i) *
    eval x (Chebyshev.T ℝ j) * this

/-- The rational part of the product of the two normalisation factors, mass matrix. -/
def massRat (i j : ℕ) : ℚ :=
  if i = 0 ∧ j = 0 then 1
  else if i ≠ 0 ∧ j ≠ 0 then 2
  else if (i + j) % 2 = 0 then 1 else 2

theorem bb_mass (i j : ℕ) : bb i * bb j = sqrtTwoMass i j * massRat i j := by
  have h2 : Real.sqrt 2 * Real.sqrt 2 = 2 := Real.mul_self_sqrt zero_le_two
  have h0 : Real.sqrt 2 ≠ 0 := by positivity
  unfold bb sqrtTwoMass massRat
  rcases Nat.eq_zero_or_pos i with rfl | hi <;> rcases Nat.eq_zero_or_pos j with rfl | hj
  · simp
  · rcases Nat.mod_two_eq_zero_or_one j with hp | hp
    · simp [hj.ne', hp]
    · simp [hj.ne', hp]; field_simp; linarith
  · rcases Nat.mod_two_eq_zero_or_one i with hp | hp
    · simp [hi.ne', hp]
    · simp [hi.ne', hp]; field_simp; linarith
  · simp [hi.ne', hj.ne']

theorem mass_even {a b : ℝ} (h : a < b) {i j : ℕ} (hp : (i + j) % 2 = 0) :
    sphereMass i j a b =
      (massRat i j / 8 * (tt 0 i j + tt 2 i j) * a ^ 2 +
        massRat i j / 4 * (tt 0 i j - tt 2 i j) * (a * b) +
        massRat i j / 8 * (tt 0 i j + tt 2 i j) * b ^ 2) * sqrtTwoMass i j / Real.pi := by
  have h0 := I_radius_sq a b 0 (Chebyshev.T ℝ i * Chebyshev.T ℝ j)
  have h1 : tt 1 i j = 0 := tt_odd (by omega)
  rw [pow_zero, one_mul] at h0
  rw [sphereMass_eq_I h, h0, bb_mass, rho2]
  change _ / _ * (_ * tt 0 i j + _ * tt 1 i j + _ * tt 2 i j) = _
  rw [h1]
  field_simp
  ring

theorem mass_odd {a b : ℝ} (h : a < b) {i j : ℕ} (hp : (i + j) % 2 = 1) :
    sphereMass i j a b =
      (-(massRat i j / 4 * tt 1 i j) * a ^ 2 + massRat i j / 4 * tt 1 i j * b ^ 2) *
        sqrtTwoMass i j / Real.pi := by
  have h0 := I_radius_sq a b 0 (Chebyshev.T ℝ i * Chebyshev.T ℝ j)
  have h1 : tt 0 i j = 0 := tt_odd (by omega)
  have h2 : tt 2 i j = 0 := tt_odd (by omega)
  rw [pow_zero, one_mul] at h0
  rw [sphereMass_eq_I h, h0, bb_mass, rho2]
  change _ / _ * (_ * tt 0 i j + _ * tt 1 i j + _ * tt 2 i j) = _
  rw [h1, h2]
  field_simp
  ring

/-- The same for `J`, where one factor `1 / √2` is applied in the first row and column. -/
def jRat (i j : ℕ) : ℚ := if i = 0 ∧ j = 0 then 1 else 2

/-- The factor applied at matrices.py 199-200. -/
noncomputable def jScale (i j : ℕ) : ℝ :=
  if (1 ≤ i ∧ j = 0) ∨ (i = 0 ∧ 1 ≤ j) then 1 / Real.sqrt 2 else 1

theorem bb_j (i j : ℕ) : bb i * bb j = jScale i j * jRat i j := by
  have h2 : Real.sqrt 2 * Real.sqrt 2 = 2 := Real.mul_self_sqrt zero_le_two
  have h0 : Real.sqrt 2 ≠ 0 := by positivity
  unfold bb jScale jRat
  rcases Nat.eq_zero_or_pos i with rfl | hi <;> rcases Nat.eq_zero_or_pos j with rfl | hj
  · simp
  · simp [hj.ne', Nat.one_le_iff_ne_zero]; field_simp; linarith
  · simp [hi.ne', Nat.one_le_iff_ne_zero]; field_simp; linarith
  · simp [hi.ne', hj.ne']

theorem j_form {a b : ℝ} (h : a < b) (i j : ℕ) :
    sphereJ i j a b =
      (jRat i j / 4 * (tt 0 i j - tt 1 i j) * a + jRat i j / 4 * (tt 0 i j + tt 1 i j) * b) *
        jScale i j / Real.pi := by
  have h0 := I_radius a b 0 (Chebyshev.T ℝ i * Chebyshev.T ℝ j)
  rw [pow_zero, one_mul] at h0
  rw [sphereJ_eq_I h, h0, bb_j]
  rw [show I (1 * (Chebyshev.T ℝ (i : ℤ) * Chebyshev.T ℝ (j : ℤ))) = tt 0 i j by
    rw [tt, pow_zero]]
  change _ / _ * (_ * _ + _ * tt 1 i j) = _
  field_simp
  ring

/-- The same for `L`, where the factor `√2` is applied in the first column. -/
def lRat (j : ℕ) : ℚ := if j = 0 then 1 else 2

/-- The factor applied at matrices.py 277. -/
noncomputable def lScale (j : ℕ) : ℝ := if j = 0 then Real.sqrt 2 else 1

theorem bb_l {i : ℕ} (hi : 1 ≤ i) (j : ℕ) : bb i * bb j = lScale j * lRat j := by
  have h2 : Real.sqrt 2 * Real.sqrt 2 = 2 := Real.mul_self_sqrt zero_le_two
  unfold bb lScale lRat
  rcases Nat.eq_zero_or_pos j with rfl | hj
  · simp [Nat.one_le_iff_ne_zero.1 hi]
  · simp [Nat.one_le_iff_ne_zero.1 hi, hj.ne']

theorem l_odd {a b : ℝ} (h : a < b) {i : ℕ} (hi : 1 ≤ i) {j : ℕ} (hp : (i + j) % 2 = 1) :
    sphereL i j a b =
      (-(lRat j / 4 * (dt 0 i j + dt 2 i j)) * a ^ 2 +
        -(lRat j / 2 * (dt 0 i j - dt 2 i j)) * (a * b) +
        -(lRat j / 4 * (dt 0 i j + dt 2 i j)) * b ^ 2) / (a - b) / Real.pi * lScale j := by
  have h0 := I_radius_sq a b 0 (derivative (Chebyshev.T ℝ i) * Chebyshev.T ℝ j)
  have h1 : dt 1 i j = 0 := dt_odd (by omega)
  have hba : b - a ≠ 0 := by linarith
  have hab : a - b ≠ 0 := by linarith
  rw [pow_zero, one_mul] at h0
  rw [sphereL_eq_I h, h0, bb_l hi, rho2]
  change _ / _ * (_ * dt 0 i j + _ * dt 1 i j + _ * dt 2 i j) = _
  rw [h1]
  field_simp
  ring

theorem l_even {a b : ℝ} (h : a < b) {i : ℕ} (hi : 1 ≤ i) {j : ℕ} (hp : (i + j) % 2 = 0) :
    sphereL i j a b =
      (lRat j / 2 * dt 1 i j * a + lRat j / 2 * dt 1 i j * b) / Real.pi * lScale j := by
  have h0 := I_radius_sq a b 0 (derivative (Chebyshev.T ℝ i) * Chebyshev.T ℝ j)
  have h1 : dt 0 i j = 0 := dt_odd (by omega)
  have h2 : dt 2 i j = 0 := dt_odd (by omega)
  have hba : b - a ≠ 0 := by linarith
  rw [pow_zero, one_mul] at h0
  rw [sphereL_eq_I h, h0, bb_l hi, rho2]
  change _ / _ * (_ * dt 0 i j + _ * dt 1 i j + _ * dt 2 i j) = _
  rw [h1, h2]
  field_simp
  ring

/-- Finitely many rational numbers with a common denominator. -/
theorem common_denominator (x : ℕ → ℚ) :
    ∃ (d : ℤ) (n : ℕ → ℤ), d ≠ 0 ∧ ∀ k < 3, (x k : ℝ) = (n k : ℝ) * (1 / (d : ℝ)) := by
  have h : ∀ k, ((x k).den : ℝ) ≠ 0 := fun k => by exact_mod_cast (x k).den_nz
  have hx : ∀ k, (x k : ℝ) = ((x k).num : ℝ) / ((x k).den : ℝ) := fun k => Rat.cast_def (x k)
  refine ⟨(x 0).den * (x 1).den * (x 2).den, fun k =>
    if k = 0 then (x 0).num * (x 1).den * (x 2).den
    else if k = 1 then (x 1).num * (x 0).den * (x 2).den
    else (x 2).num * (x 0).den * (x 1).den, ?_, ?_⟩
  · have := (x 0).den_nz
    have := (x 1).den_nz
    have := (x 2).den_nz
    positivity
  · intro k hk
    have h0 := h 0
    have h1 := h 1
    have h2 := h 2
    interval_cases k
    · rw [hx 0]; push_cast; simp; field_simp
    · rw [hx 1]; push_cast; simp; field_simp
    · rw [hx 2]; push_cast; simp; field_simp

end Verif.Lemmas
