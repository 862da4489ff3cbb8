import Verif.Spec.Legendre
import Mathlib.MeasureTheory.Integral.IntervalIntegral.FundThmCalculus
import Mathlib.Analysis.Calculus.Deriv.Polynomial
import Mathlib.Topology.Algebra.Polynomial
import Mathlib.Tactic.LinearCombination
import Mathlib.Tactic.FieldSimp

/-! Helper facts about Legendre polynomials: recurrences, orthogonality, derivative moments. -/

namespace Verif.Lemmas

open Polynomial Verif.Spec

theorem legendre_zero : legendre 0 = 1 := rfl
theorem legendre_one : legendre 1 = X := rfl

/-- Bonnet's recurrence, cleared of division. -/
theorem bonnet (n : ℕ) :
    (C ((n : ℝ) + 2)) * legendre (n + 2) =
      C (2 * (n : ℝ) + 3) * X * legendre (n + 1) - C ((n : ℝ) + 1) * legendre n := by
  have h : ((n : ℝ) + 2) ≠ 0 := by positivity
  show C ((n : ℝ) + 2) * (C (1 / ((n : ℝ) + 2)) * _) = _
  rw [← mul_assoc, ← C_mul, mul_one_div_cancel h, C_1, one_mul]

theorem deriv_pair (n : ℕ) :
    derivative (legendre (n + 1)) =
        X * derivative (legendre n) + C ((n : ℝ) + 1) * legendre n ∧
      X * derivative (legendre (n + 1)) =
        derivative (legendre n) + C ((n : ℝ) + 1) * legendre (n + 1) := by
  induction n with
  | zero => simp [legendre_zero, legendre_one]
  | succ n ih =>
    obtain ⟨hB, hC⟩ := ih
    have hb := bonnet n
    have hd := congrArg derivative hb
    simp only [derivative_mul, derivative_C, zero_mul, zero_add, derivative_sub, derivative_X,
      mul_one] at hd
    have hne : (C ((n : ℝ) + 2) : ℝ[X]) ≠ 0 := by
      rw [Ne, C_eq_zero]; positivity
    have c2 : (C ((n : ℝ) + 2) : ℝ[X]) = C (n : ℝ) + 2 := by
      rw [C_add]; rfl
    have c3 : (C (2 * (n : ℝ) + 3) : ℝ[X]) = 2 * C (n : ℝ) + 3 := by
      rw [C_add, C_mul]; rfl
    have c1 : (C ((n : ℝ) + 1) : ℝ[X]) = C (n : ℝ) + 1 := by simp
    have c4 : (C (((n + 1 : ℕ) : ℝ) + 1) : ℝ[X]) = C (n : ℝ) + 2 := by
      simp only [Nat.cast_add, Nat.cast_one, C_add, C_1]; ring
    rw [c2] at hne
    rw [c1] at hB hC
    rw [c2, c3, c1] at hb hd
    rw [c4]
    have hB' : derivative (legendre (n + 2)) =
        X * derivative (legendre (n + 1)) + (C (n : ℝ) + 2) * legendre (n + 1) := by
      apply mul_left_cancel₀ hne
      linear_combination hd + (C (n : ℝ) + 1) * hC
    refine ⟨hB', ?_⟩
    linear_combination X * hB' + X * hC - hb - hB

theorem deriv_step (n : ℕ) :
    derivative (legendre (n + 1)) =
      X * derivative (legendre n) + C ((n : ℝ) + 1) * legendre n := (deriv_pair n).1

theorem x_deriv_step (n : ℕ) :
    X * derivative (legendre (n + 1)) =
      derivative (legendre n) + C ((n : ℝ) + 1) * legendre (n + 1) := (deriv_pair n).2

theorem deriv_two_step (n : ℕ) :
    derivative (legendre (n + 2)) =
      derivative (legendre n) + C (2 * (n : ℝ) + 3) * legendre (n + 1) := by
  have h1 := deriv_step (n + 1)
  have h2 := x_deriv_step n
  have c : (C (2 * (n : ℝ) + 3) : ℝ[X]) =
      C (((n + 1 : ℕ) : ℝ) + 1) + C ((n : ℝ) + 1) := by
    rw [← C_add]; congr 1; push_cast; ring
  rw [c]; linear_combination h1 + h2

theorem legendre_eval_one (n : ℕ) : (legendre n).eval 1 = 1 := by
  induction n using Nat.twoStepInduction with
  | zero => simp [legendre_zero]
  | one => simp [legendre_one]
  | more n h0 h1 =>
    have hb := congrArg (eval (1 : ℝ)) (bonnet n)
    simp only [eval_mul, eval_C, eval_sub, eval_X, h0, h1] at hb
    have h : ((n : ℝ) + 2) ≠ 0 := by positivity
    apply mul_left_cancel₀ h
    linear_combination hb

theorem legendre_eval_neg (n : ℕ) (x : ℝ) :
    (legendre n).eval (-x) = (-1) ^ n * (legendre n).eval x := by
  induction n using Nat.twoStepInduction with
  | zero => simp [legendre_zero]
  | one => simp [legendre_one]
  | more n h0 h1 =>
    have hb := congrArg (eval (-x)) (bonnet n)
    have hb' := congrArg (eval x) (bonnet n)
    simp only [eval_mul, eval_C, eval_sub, eval_X, h0, h1] at hb hb'
    have h : ((n : ℝ) + 2) ≠ 0 := by positivity
    apply mul_left_cancel₀ h
    rw [hb]
    linear_combination (-(-1) ^ n) * hb'

theorem legendre_eval_neg_one (n : ℕ) : (legendre n).eval (-1) = (-1) ^ n := by
  rw [legendre_eval_neg, legendre_eval_one, mul_one]

/-- `(X² - 1) Pₙ₊₁' = (n+1) (X Pₙ₊₁ - Pₙ)`. -/
theorem sq_sub_one_deriv (n : ℕ) :
    (X ^ 2 - 1) * derivative (legendre (n + 1)) =
      C ((n : ℝ) + 1) * (X * legendre (n + 1) - legendre n) := by
  linear_combination X * x_deriv_step n - deriv_step n

/-- Legendre's differential equation. -/
theorem legendre_ode (n : ℕ) :
    derivative ((1 - X ^ 2) * derivative (legendre n)) =
      -(C ((n : ℝ) * (n + 1)) * legendre n) := by
  cases n with
  | zero => simp [legendre_zero]
  | succ n =>
    have h : (1 - X ^ 2) * derivative (legendre (n + 1)) =
        -(C ((n : ℝ) + 1) * (X * legendre (n + 1) - legendre n)) := by
      linear_combination -sq_sub_one_deriv n
    rw [h]
    simp only [derivative_neg, derivative_mul, derivative_C, zero_mul, zero_add, derivative_sub,
      derivative_X, one_mul]
    have c : (C (((n + 1 : ℕ) : ℝ) * (((n + 1 : ℕ) : ℝ) + 1)) : ℝ[X]) =
        C ((n : ℝ) + 1) * (1 + C ((n : ℝ) + 1)) := by
      rw [← C_1, ← C_add, ← C_mul]; congr 1; push_cast; ring
    rw [c]
    linear_combination (-C ((n : ℝ) + 1)) * x_deriv_step n

/-- Integral of a polynomial over `[-1,1]`. -/
noncomputable def I (p : ℝ[X]) : ℝ := ∫ x in (-1 : ℝ)..1, p.eval x

theorem intervalIntegrable_eval (p : ℝ[X]) (a b : ℝ) :
    IntervalIntegrable (fun x => p.eval x) MeasureTheory.volume a b :=
  p.continuous.intervalIntegrable a b

theorem I_add (p q : ℝ[X]) : I (p + q) = I p + I q := by
  simp only [I, eval_add]
  exact intervalIntegral.integral_add (intervalIntegrable_eval p _ _)
    (intervalIntegrable_eval q _ _)

theorem I_C_mul (c : ℝ) (p : ℝ[X]) : I (C c * p) = c * I p := by
  simp only [I, eval_mul, eval_C]
  exact intervalIntegral.integral_const_mul _ _

theorem I_neg (p : ℝ[X]) : I (-p) = -I p := by
  simp only [I, eval_neg]; exact intervalIntegral.integral_neg

theorem I_sub (p q : ℝ[X]) : I (p - q) = I p - I q := by
  rw [sub_eq_add_neg, I_add, I_neg, ← sub_eq_add_neg]

theorem I_zero : I 0 = 0 := by simp [I]

theorem integral_derivative (p : ℝ[X]) (a b : ℝ) :
    ∫ x in a..b, (derivative p).eval x = p.eval b - p.eval a :=
  intervalIntegral.integral_eq_sub_of_hasDerivAt (fun x _ => p.hasDerivAt x)
    (intervalIntegrable_eval _ _ _)

theorem I_derivative (p : ℝ[X]) : I (derivative p) = p.eval 1 - p.eval (-1) :=
  integral_derivative p _ _

theorem I_orthogonal {n m : ℕ} (h : n ≠ m) : I (legendre n * legendre m) = 0 := by
  have key : derivative ((1 - X ^ 2) * derivative (legendre m) * legendre n -
      (1 - X ^ 2) * derivative (legendre n) * legendre m) =
      C ((n : ℝ) * (n + 1) - (m : ℝ) * (m + 1)) * (legendre n * legendre m) := by
    rw [derivative_sub, derivative_mul, legendre_ode, derivative_mul (f := (1 - X ^ 2) * _),
      legendre_ode, C_sub]
    ring
  have h2 := congrArg I key
  rw [I_derivative, I_C_mul] at h2
  simp only [eval_sub, eval_mul, eval_one, eval_pow, eval_X] at h2
  have hne : ((n : ℝ) * (n + 1) - (m : ℝ) * (m + 1)) ≠ 0 := by
    have : ((n : ℝ) * (n + 1) - (m : ℝ) * (m + 1)) = ((n : ℝ) - m) * (n + m + 1) := by ring
    rw [this]
    refine mul_ne_zero (sub_ne_zero.2 (by exact_mod_cast h)) (by positivity)
  apply mul_left_cancel₀ hne
  rw [← h2]; ring

/-- `∫ Pₙ' P_m = 0` for `m ≥ n`. -/
theorem I_deriv_mul_of_le {n m : ℕ} (h : n ≤ m) :
    I (derivative (legendre n) * legendre m) = 0 := by
  induction n using Nat.twoStepInduction with
  | zero => simp [legendre_zero, I_zero]
  | one =>
    rw [legendre_one, derivative_X, ← legendre_zero]
    exact I_orthogonal (by omega)
  | more n h0 _ =>
    rw [deriv_two_step, add_mul, I_add, mul_assoc, I_C_mul, h0 (by omega),
      I_orthogonal (by omega)]
    ring

theorem I_sq (n : ℕ) : I (legendre n * legendre n) = 2 / (2 * (n : ℝ) + 1) := by
  cases n with
  | zero =>
    have : (legendre 0 * legendre 0) = derivative (X : ℝ[X]) := by simp [legendre_zero]
    rw [this, I_derivative]; norm_num
  | succ n =>
    have key : derivative (X * (legendre (n + 1) * legendre (n + 1))) =
        C (2 * (n : ℝ) + 3) * (legendre (n + 1) * legendre (n + 1)) +
          C 2 * (derivative (legendre n) * legendre (n + 1)) := by
      rw [derivative_mul, derivative_mul, derivative_X]
      have c : (C (2 * (n : ℝ) + 3) : ℝ[X]) = 2 * C ((n : ℝ) + 1) + 1 := by
        rw [show (2 : ℝ[X]) = C 2 from rfl, ← C_1, ← C_mul, ← C_add]; congr 1; ring
      rw [c, show (C 2 : ℝ[X]) = 2 from rfl]
      linear_combination (2 * legendre (n + 1)) * x_deriv_step n
    have h2 := congrArg I key
    rw [I_derivative, I_add, I_C_mul, I_C_mul, I_deriv_mul_of_le (by omega)] at h2
    simp only [eval_mul, eval_X, legendre_eval_one, legendre_eval_neg_one] at h2
    have hs : ((-1 : ℝ) ^ (n + 1) * (-1) ^ (n + 1)) = 1 := by
      rw [← mul_pow]; norm_num
    rw [hs] at h2
    have hne : (2 * (n : ℝ) + 3) ≠ 0 := by positivity
    push_cast
    rw [show (2 * ((n : ℝ) + 1) + 1) = 2 * n + 3 by ring, eq_div_iff hne]
    linarith

theorem I_mul (n m : ℕ) :
    I (legendre n * legendre m) = delta n m * (2 / (2 * (n : ℝ) + 1)) := by
  unfold delta
  split_ifs with h
  · subst h; rw [I_sq, one_mul]
  · rw [I_orthogonal h, zero_mul]

/-- `∫ P_i' P_j` is 2 when `j < i` and `i + j` is odd, else 0. -/
theorem I_deriv_mul (i j : ℕ) :
    I (derivative (legendre i) * legendre j) = if j < i ∧ (i + j) % 2 ≠ 0 then 2 else 0 := by
  induction i using Nat.twoStepInduction with
  | zero => simp [legendre_zero, I_zero]
  | one =>
    rw [legendre_one, derivative_X, ← legendre_zero, I_mul]
    unfold delta
    rcases j with _ | j
    · simp
    · simp
  | more n h0 _ =>
    rw [deriv_two_step, add_mul, I_add, mul_assoc, I_C_mul, h0, I_mul]
    unfold delta
    have hne : (2 * ((n : ℝ) + 1) + 1) ≠ 0 := by positivity
    by_cases e : n + 1 = j
    · subst e
      simp only [if_true]
      rw [if_neg (by omega), if_pos (by omega)]
      push_cast
      field_simp
      ring
    · rw [if_neg e]
      by_cases c : j < n ∧ (n + j) % 2 ≠ 0
      · rw [if_pos c, if_pos (by omega)]; ring
      · rw [if_neg c, if_neg (by omega)]; ring

/-- `∫ x P_i' P_j`. -/
theorem I_X_deriv_mul (i j : ℕ) :
    I (X * derivative (legendre i) * legendre j) =
      if i = j then 2 * (i : ℝ) / (2 * (i : ℝ) + 1)
      else if j < i ∧ (i + j) % 2 = 0 then 2 else 0 := by
  cases i with
  | zero =>
    simp only [legendre_zero, derivative_one, mul_zero, zero_mul, I_zero]
    split_ifs with h1 h2
    · simp
    · omega
    · rfl
  | succ n =>
    rw [x_deriv_step, add_mul, I_add, mul_assoc, I_C_mul, I_deriv_mul, I_mul]
    unfold delta
    by_cases e : n + 1 = j
    · subst e
      rw [if_neg (by omega)]
      simp only [if_true]
      push_cast
      ring
    · simp only [if_neg e]
      by_cases c : j < n ∧ (n + j) % 2 ≠ 0
      · rw [if_pos c, if_pos (by omega)]; ring
      · rw [if_neg c, if_neg (by omega)]; ring

end Verif.Lemmas
