import Verif.Lemmas.Legendre
import Mathlib.RingTheory.Polynomial.Chebyshev
import Mathlib.Tactic.Ring

/-! Helper facts: integrals over `[-1,1]` of products of Chebyshev polynomials. -/

namespace Verif.Lemmas

open Polynomial Polynomial.Chebyshev

theorem two_X_mul_U (n : ℤ) : 2 * (X * U ℝ n) = U ℝ (n + 1) + U ℝ (n - 1) := by
  rw [U_add_one]; ring

theorem two_T_mul_U (m : ℕ) (k : ℤ) :
    2 * (T ℝ m * U ℝ k) = U ℝ (k + m) + U ℝ (k - m) := by
  induction m using Nat.twoStepInduction generalizing k with
  | zero => simp; ring
  | one => simpa using two_X_mul_U k
  | more m h0 h1 =>
    have e : T ℝ ((m + 2 : ℕ) : ℤ) = 2 * X * T ℝ ((m + 1 : ℕ) : ℤ) - T ℝ (m : ℤ) := by
      push_cast; exact T_add_two ℝ m
    have ha := two_X_mul_U (k + ((m + 1 : ℕ) : ℤ))
    have hb := two_X_mul_U (k - ((m + 1 : ℕ) : ℤ))
    have e1 : k + ((m + 1 : ℕ) : ℤ) + 1 = k + ((m + 2 : ℕ) : ℤ) := by push_cast; ring
    have e2 : k + ((m + 1 : ℕ) : ℤ) - 1 = k + (m : ℤ) := by push_cast; ring
    have e3 : k - ((m + 1 : ℕ) : ℤ) + 1 = k - (m : ℤ) := by push_cast; ring
    have e4 : k - ((m + 1 : ℕ) : ℤ) - 1 = k - ((m + 2 : ℕ) : ℤ) := by push_cast; ring
    rw [e1, e2] at ha
    rw [e3, e4] at hb
    rw [e]
    linear_combination 2 * X * h1 k - h0 k + ha + hb

/-- `∫_{-1}^{1} U_n`. -/
noncomputable def uMom (n : ℤ) : ℝ := if n % 2 = 0 then 2 / ((n : ℝ) + 1) else 0

theorem I_U (n : ℤ) : I (U ℝ n) = uMom n := by
  by_cases hn : n = -1
  · subst hn; simp [I_zero, uMom]
  have h1 : ((n : ℝ) + 1) ≠ 0 := by
    intro h; apply hn
    have : ((n + 1 : ℤ) : ℝ) = 0 := by push_cast; exact h
    have := Int.cast_eq_zero.1 this
    omega
  have hd := T_derivative_eq_U (R := ℝ) (n + 1)
  have e : ((n + 1 : ℤ) : ℝ[X]) = C ((n : ℝ) + 1) := by simp
  rw [add_sub_cancel_right, e] at hd
  have hI := congrArg I hd
  rw [I_derivative, I_C_mul, T_eval_one, T_eval_neg_one] at hI
  unfold uMom
  split_ifs with hp
  · have hodd : Odd (n + 1) := by rw [Int.odd_iff]; omega
    rw [Int.negOnePow_odd _ hodd] at hI
    rw [eq_div_iff h1]; push_cast at hI; linarith
  · have hev : Even (n + 1) := by rw [Int.even_iff]; omega
    rw [Int.negOnePow_even _ hev] at hI
    push_cast at hI
    have : ((n : ℝ) + 1) * I (U ℝ n) = 0 := by linarith
    exact (mul_eq_zero.1 this).resolve_left h1

/-- `∫ X^k U_n`. -/
noncomputable def xuMom : ℕ → ℤ → ℝ
  | 0, n => uMom n
  | k + 1, n => (xuMom k (n + 1) + xuMom k (n - 1)) / 2

theorem I_X_pow_mul_U (k : ℕ) (n : ℤ) : I (X ^ k * U ℝ n) = xuMom k n := by
  induction k generalizing n with
  | zero => simpa [xuMom] using I_U n
  | succ k ih =>
    have h : X ^ (k + 1) * U ℝ n = C (1 / 2 : ℝ) * (X ^ k * U ℝ (n + 1) + X ^ k * U ℝ (n - 1)) := by
      have h2 : (C (1 / 2 : ℝ)) * 2 = (1 : ℝ[X]) := by
        have : (2 : ℝ[X]) = C 2 := rfl
        rw [this, ← Polynomial.C_mul]; norm_num
      linear_combination (-(X ^ (k + 1) * U ℝ n)) * h2 + C (1 / 2 : ℝ) * X ^ k * two_X_mul_U n
    rw [h, I_C_mul, I_add, ih, ih, xuMom]; ring

/-- `∫ X^k T_i' T_j`. -/
noncomputable def dtMom (k i j : ℕ) : ℝ :=
  (i : ℝ) / 2 * (xuMom k ((i : ℤ) - 1 + j) + xuMom k ((i : ℤ) - 1 - j))

theorem C_half_two : (C (1 / 2 : ℝ)) * 2 = (1 : ℝ[X]) := by
  have : (2 : ℝ[X]) = C 2 := rfl
  rw [this, ← Polynomial.C_mul]; norm_num

theorem I_X_pow_mul_dT_T (k i j : ℕ) :
    I (X ^ k * (derivative (T ℝ i) * T ℝ j)) = dtMom k i j := by
  have e : ((i : ℤ) : ℝ[X]) = C (i : ℝ) := by simp
  have h : X ^ k * (derivative (T ℝ i) * T ℝ j) =
      C ((i : ℝ)) * (C (1 / 2 : ℝ) * (X ^ k * U ℝ ((i : ℤ) - 1 + j) +
        X ^ k * U ℝ ((i : ℤ) - 1 - j))) := by
    rw [T_derivative_eq_U, e]
    linear_combination (-(X ^ k * C (i : ℝ) * U ℝ ((i : ℤ) - 1) * T ℝ j)) * C_half_two +
      C (i : ℝ) * C (1 / 2 : ℝ) * X ^ k * two_T_mul_U j ((i : ℤ) - 1)
  rw [h, I_C_mul, I_C_mul, I_add, I_X_pow_mul_U, I_X_pow_mul_U, dtMom]; ring

/-- `∫ X^k T_n`. -/
noncomputable def xtMom (k : ℕ) (n : ℤ) : ℝ := (xuMom k n - xuMom k (n - 2)) / 2

theorem I_X_pow_mul_T (k : ℕ) (n : ℤ) : I (X ^ k * T ℝ n) = xtMom k n := by
  have h2 := two_mul_T_eq_U_sub_U ℝ (n - 2)
  rw [sub_add_cancel] at h2
  have h : X ^ k * T ℝ n = C (1 / 2 : ℝ) * (X ^ k * U ℝ n - X ^ k * U ℝ (n - 2)) := by
    linear_combination (-(X ^ k * T ℝ n)) * C_half_two + C (1 / 2 : ℝ) * X ^ k * h2
  rw [h, I_C_mul, I_sub, I_X_pow_mul_U, I_X_pow_mul_U, xtMom]; ring

/-- `∫ X^k T_i T_j`. -/
noncomputable def ttMom (k i j : ℕ) : ℝ := (xtMom k ((i : ℤ) + j) + xtMom k ((i : ℤ) - j)) / 2

theorem I_X_pow_mul_T_T (k i j : ℕ) : I (X ^ k * (T ℝ i * T ℝ j)) = ttMom k i j := by
  have h2 := T_mul_T ℝ (i : ℤ) (j : ℤ)
  have h : X ^ k * (T ℝ i * T ℝ j) =
      C (1 / 2 : ℝ) * (X ^ k * T ℝ ((i : ℤ) + j) + X ^ k * T ℝ ((i : ℤ) - j)) := by
    linear_combination (-(X ^ k * (T ℝ i * T ℝ j))) * C_half_two + C (1 / 2 : ℝ) * X ^ k * h2
  rw [h, I_C_mul, I_add, I_X_pow_mul_T, I_X_pow_mul_T, ttMom]; ring

end Verif.Lemmas
