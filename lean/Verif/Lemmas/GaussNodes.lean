import Verif.Lemmas.LobattoRule
import Mathlib.Algebra.Order.Chebyshev
import Mathlib.Analysis.MeanInequalitiesPow

/-! The roots of a Legendre polynomial: sums of reciprocal distances from one. -/

namespace Verif.Lemmas

open Polynomial Verif.Spec

theorem legendre_deriv_one (n : ℕ) : (derivative (legendre n)).eval 1 = (n : ℝ) * (n + 1) / 2 := by
  have h := congrArg (fun p => p.eval 1) (legendre_ode n)
  simp only [derivative_mul, derivative_sub, derivative_one, derivative_X_pow, eval_add, eval_mul,
    eval_sub, eval_one, eval_pow, eval_X, eval_neg, eval_C, legendre_eval_one, eval_zero] at h
  norm_num at h
  linarith

theorem legendre_deriv2_one (n : ℕ) : (derivative (derivative (legendre n))).eval 1 =
    ((n : ℝ) * (n + 1) - 2) * (n * (n + 1)) / 8 := by
  have h := congrArg (fun p => (derivative p).eval 1) (legendre_ode n)
  simp only [derivative_mul, derivative_sub, derivative_one, derivative_X_pow, derivative_add,
    derivative_neg, derivative_C, eval_add, eval_mul,
    eval_sub, eval_one, eval_pow, eval_X, eval_neg, eval_C, eval_zero, legendre_deriv_one] at h
  norm_num at h
  linarith

theorem prod_deriv2 {n : ℕ} {z : ℕ → ℝ} {x : ℝ} (h : ∀ i < n, x ≠ z i) :
    (derivative (derivative (∏ i ∈ Finset.range n, (X - C (z i))))).eval x =
      (∏ i ∈ Finset.range n, (x - z i)) * ((∑ i ∈ Finset.range n, 1 / (x - z i)) ^ 2
        - ∑ i ∈ Finset.range n, (1 / (x - z i)) ^ 2) := by
  induction n with
  | zero => simp
  | succ n ih =>
    have h1 : x - z n ≠ 0 := sub_ne_zero.2 (h n (Nat.lt_succ_self n))
    have h2 := prod_deriv (n := n) (z := z) (x := x) fun i hi => h i (by omega)
    rw [Finset.prod_range_succ, derivative_mul, derivative_add, derivative_mul, derivative_mul]
    simp only [derivative_sub, derivative_X, derivative_C, sub_zero, derivative_one, mul_zero, add_zero,
      mul_one, eval_add, eval_mul, eval_sub, eval_X, eval_C]
    rw [ih fun i hi => h i (by omega), h2, Finset.sum_range_succ, Finset.sum_range_succ,
      Finset.prod_range_succ]
    field_simp
    ring

/-- Reciprocal distances of the Gauss points from one. -/
theorem gauss_inverse_sum {n : ℕ} {x : ℕ → ℝ} (h : RootList (legendre n) n x) (h1 : ∀ i < n, x i < 1) :
    ∑ i ∈ Finset.range n, 1 / (1 - x i) = (n : ℝ) * (n + 1) / 2 ∧
      ∑ i ∈ Finset.range n, (1 / (1 - x i)) ^ 2 = (n : ℝ) * (n + 1) * (n ^ 2 + n + 2) / 8 := by
  have hp := h.prod (legendre_natDegree_eq n)
  have hne : ∀ i < n, (1 : ℝ) ≠ x i := fun i hi => (h1 i hi).ne'
  have e0 := legendre_eval_one n
  have e1 := legendre_deriv_one n
  have e2 := legendre_deriv2_one n
  rw [hp] at e0 e1 e2
  simp only [derivative_mul, derivative_C, zero_mul, zero_add, eval_mul, eval_C, eval_prod, eval_sub,
    eval_X] at e0 e1 e2
  rw [prod_deriv hne, ← mul_assoc, e0, one_mul] at e1
  rw [prod_deriv2 hne, ← mul_assoc, e0, one_mul, e1] at e2
  refine ⟨e1, ?_⟩
  linear_combination -e2

/-- The largest Gauss point is near one. -/
theorem gauss_last {n : ℕ} (hn : 1 ≤ n) {x : ℕ → ℝ} (h : RootList (legendre n) n x)
    (h1 : ∀ i < n, x i < 1) : 1 - x (n - 1) ≤ 4 / ((n : ℝ) ^ 2 + n + 2) := by
  obtain ⟨e1, e2⟩ := gauss_inverse_sum h h1
  have hm : 0 < 1 - x (n - 1) := by linarith [h1 (n - 1) (by omega)]
  have hle : ∀ i < n, x i ≤ x (n - 1) := fun i hi => by
    rcases Nat.lt_or_ge i (n - 1) with h2 | h2
    · exact (inc_lt h.inc h2 (by omega)).le
    · rw [show i = n - 1 by omega]
  have h3 : ∑ i ∈ Finset.range n, (1 / (1 - x i)) ^ 2 ≤
      1 / (1 - x (n - 1)) * ∑ i ∈ Finset.range n, 1 / (1 - x i) := by
    rw [Finset.mul_sum]
    refine Finset.sum_le_sum fun i hi => ?_
    have hi := Finset.mem_range.1 hi
    have h4 : 0 < 1 - x i := by linarith [h1 i hi]
    rw [sq]
    refine mul_le_mul_of_nonneg_right ?_ (by positivity)
    exact one_div_le_one_div_of_le hm (by linarith [hle i hi])
  rw [e1, e2] at h3
  have hn0 : (0 : ℝ) < n := by exact_mod_cast hn
  have h5 : 0 < (n : ℝ) * (n + 1) / 2 := by positivity
  have h6 : ((n : ℝ) ^ 2 + n + 2) / 4 ≤ 1 / (1 - x (n - 1)) := by
    have : (n : ℝ) * (n + 1) * (n ^ 2 + n + 2) / 8 = ((n : ℝ) ^ 2 + n + 2) / 4 * ((n : ℝ) * (n + 1) / 2) := by ring
    rw [this] at h3
    exact le_of_mul_le_mul_right h3 h5
  have h7 : (0 : ℝ) < (n : ℝ) ^ 2 + n + 2 := by positivity
  rw [le_div_iff₀ h7]
  rw [div_le_div_iff₀ (by norm_num) hm] at h6
  linarith

theorem odd_reciprocals_lt (n : ℕ) : ∑ l ∈ Finset.range (n + 2), 1 / (2 * (l : ℝ) + 1) <
    ((n + 2 : ℕ) + 1 : ℝ) / 2 := by
  induction n with
  | zero => norm_num [Finset.sum_range_succ]
  | succ n ih =>
    rw [Finset.sum_range_succ]
    have : 1 / (2 * ((n + 2 : ℕ) : ℝ) + 1) ≤ 1 / 2 := by
      refine one_div_le_one_div_of_le (by norm_num) ?_
      push_cast
      have := Nat.cast_nonneg (α := ℝ) n
      linarith
    push_cast at *
    linarith

end Verif.Lemmas
