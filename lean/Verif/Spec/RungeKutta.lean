import Mathlib.Algebra.BigOperators.Group.Finset.Basic
import Mathlib.Data.Real.Basic

/-!
Spec: order conditions of Runge-Kutta methods on linear equations `y' = A(t) y + g(t)`.

Row `i` of `row` gives the weights of stage `i`, `node i` its time as a fraction of the step.  A word
`[k₁, …, k_m]` stands for the term in which the `k₁`-th, …, `k_m`-th time derivatives of the equation
are met one inside the other; its order is `∑ (k_j + 1)`.
-/

namespace Verif.Spec

/-- Order of the term of a word. -/
def wordOrder : List ℕ → ℕ
  | [] => 0
  | k :: ks => k + 1 + wordOrder ks

/-- The weight of a word in stage `i`: `∑_j a_ij c_j^{k₁} ∑_l a_jl c_l^{k₂} …`. -/
noncomputable def wordWeight (row : ℕ → ℕ → ℝ) (node : ℕ → ℝ) : List ℕ → ℕ → ℝ
  | [], _ => 1
  | k :: ks, i => ∑ j ∈ Finset.range i, row i j * node j ^ k * wordWeight row node ks j

/-- What it is in the exact solution: `∫₀¹ s^{k₁} ∫₀^s r^{k₂} …`. -/
noncomputable def wordValue : List ℕ → ℝ
  | [] => 1
  | k :: ks => wordValue ks / ((k + 1 + wordOrder ks : ℕ) : ℝ)

/-- The conditions for order `p` on linear equations hold up to `ε` in stage `n`. -/
def LinearOrder (n : ℕ) (row : ℕ → ℕ → ℝ) (node : ℕ → ℝ) (p : ℕ) (ε : ℝ) : Prop :=
  ∀ ks, wordOrder ks ≤ p → |wordWeight row node ks n - node n ^ wordOrder ks * wordValue ks| ≤ ε

end Verif.Spec
