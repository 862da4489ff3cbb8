import Verif.Model.Layout
import Mathlib.Tactic.Linarith
import Mathlib.Tactic.NormNum

/-!
C102: the state vector keeps angles, cells and orders apart.
-/

namespace Verif.Props

open Verif.Model

theorem flat_index {N m l k i : ℕ} (hk : k < N) (hi : i < m) :
    ((l * N + k) * m + i) / (N * m) = l ∧ ((l * N + k) * m + i) / m % N = k ∧
      ((l * N + k) * m + i) % m = i := by
  have h1 : ((l * N + k) * m + i) / m = l * N + k := by
    rw [Nat.add_comm, Nat.add_mul_div_right _ _ (by omega), Nat.div_eq_of_lt hi, Nat.zero_add]
  refine ⟨?_, ?_, ?_⟩
  · rw [Nat.mul_comm N m, ← Nat.div_div_eq_div_mul, h1, Nat.add_comm,
      Nat.add_mul_div_right _ _ (by omega), Nat.div_eq_of_lt hk, Nat.zero_add]
  · rw [h1, Nat.add_comm, Nat.add_mul_mod_self_right, Nat.mod_eq_of_lt hk]
  · rw [Nat.add_comm, Nat.add_mul_mod_self_right, Nat.mod_eq_of_lt hi]

/-- C102: reshaping a flattened array gives it back. -/
theorem c102_round_trip (n N m : ℕ) (A : ℕ → ℕ → ℕ → ℝ) :
    ∃ B, reshape3 n N m (flatten3 n N m A) = some B ∧
      ∀ l k i, k < N → i < m → B l k i = A l k i := by
  refine ⟨_, if_pos rfl, ?_⟩
  intro l k i hk hi
  obtain ⟨h1, h2, h3⟩ := flat_index (l := l) hk hi
  simp only [flatten3]
  rw [h1, h2, h3]

/-- C102: flattening a reshaped vector gives it back, so every entry of the vector belongs to exactly
one angle, cell and order. -/
theorem c102_vector_round_trip {n N m : ℕ} {v : FlatArr} {A : ℕ → ℕ → ℕ → ℝ}
    (h : reshape3 n N m v = some A) :
    (flatten3 n N m A).size = v.size ∧ ∀ p < v.size, (flatten3 n N m A).get p = v.get p := by
  unfold reshape3 at h
  split_ifs at h with hs
  rw [Option.some.injEq] at h
  refine ⟨hs.symm, fun p hp => ?_⟩
  rw [← h]
  simp only [flatten3]
  have e : (p / (N * m) * N + p / m % N) * m + p % m = p := by
    rw [Nat.mul_comm N m, ← Nat.div_div_eq_div_mul, Nat.mul_comm (p / m / N) N,
      Nat.div_add_mod, Nat.mul_comm, Nat.div_add_mod]
  rw [e]

/-- C102 without material: the active right-hand side receives the entries of the initial condition
at their angle, cell and order; the entries of its result are found there again by the output. -/
theorem c102_uncoupled_partial (Nang N M : ℕ)
    {f : (ℕ → ℕ → ℕ → ℝ) → Option (ℕ → ℕ → ℕ → ℝ)} (IC : ℕ → ℕ → ℕ → ℝ) :
    (initialVector true Nang N M IC).size = degFreedom true Nang N M ∧
    ∃ B, (∀ l k i, k < N → i ≤ M → B l k i = IC l k i) ∧
      ∀ C, f B = some C → ∃ w D, activeFlat Nang N M f (initialVector true Nang N M IC) = some w ∧
        outputState true Nang N M w = some D ∧ ∀ l k i, k < N → i ≤ M → D l k i = C l k i := by
  refine ⟨rfl, ?_⟩
  obtain ⟨B, hB, hB'⟩ := c102_round_trip Nang N (M + 1) IC
  refine ⟨B, fun l k i hk hi => hB' l k i hk (by omega), fun C hC => ?_⟩
  obtain ⟨D, hD, hD'⟩ := c102_round_trip Nang N (M + 1) C
  refine ⟨flatten3 Nang N (M + 1) C, D, ?_, hD, fun l k i hk hi => hD' l k i hk (by omega)⟩
  unfold activeFlat initialVector
  rw [if_pos rfl, hB, Option.bind_some, hC, Option.map_some]

/-- C102 fails with material coupling: the vector has one row more than the active right-hand side
reshapes it to, so the first evaluation fails. -/
theorem c102_coupled_fails {Nang N M : ℕ} (hN : 0 < N)
    (f : (ℕ → ℕ → ℕ → ℝ) → Option (ℕ → ℕ → ℕ → ℝ)) (IC : ℕ → ℕ → ℕ → ℝ) :
    (initialVector false Nang N M IC).size = degFreedom false Nang N M ∧
    activeFlat Nang N M f (initialVector false Nang N M IC) = none := by
  refine ⟨rfl, ?_⟩
  unfold activeFlat initialVector reshape3 flatten3
  rw [if_neg (by simpa using hN.ne')]
  rfl

/-- C102 fails for the array of all output times: its entries are not the states at those times. -/
theorem c102_times_mixed : ∃ (dof nt : ℕ) (y : ℕ → ℕ → ℝ) (it p : ℕ), it < nt ∧ p < dof ∧
    (solArray dof nt y it).get p ≠ y p it :=
  ⟨2, 3, fun p it => p + 10 * it, 0, 1, by norm_num, by norm_num, by norm_num [solArray]⟩

example (V : ℕ → ℕ → ℕ → ℝ) : ∃ B, reshape3 2 3 4 (flatten3 2 3 4 V) = some B ∧
    ∀ l k i, k < 3 → i < 4 → B l k i = V l k i := c102_round_trip 2 3 4 V

example : activeFlat 2 3 1 some (initialVector false 2 3 1 fun l k i => l + k + i) = none :=
  (c102_coupled_fails (by norm_num) _ _).2

end Verif.Props
