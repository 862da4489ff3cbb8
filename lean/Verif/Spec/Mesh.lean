import Mathlib.Analysis.Calculus.Deriv.Basic

/-!
What the mesh properties speak about, without reference to the model.
-/

namespace Verif.Spec

/-- Strictly increasing edges `0 … N`. -/
def Ordered (N : ℕ) (e : ℕ → ℝ) : Prop := ∀ i j, i < j → j ≤ N → e i < e j

/-- Edges (or velocities) antisymmetric under reflection of the index. -/
def Antisymmetric (N : ℕ) (e : ℕ → ℝ) : Prop := ∀ k, k ≤ N → e (N - k) = -e k

/-- `N` equal cells on `[a, b]`. -/
noncomputable def uniformGrid (a b : ℝ) (N k : ℕ) : ℝ := a + (k : ℝ) / N * (b - a)

/-- Increasing nodes on `[-1, 1]`, symmetric, including both ends; `n + 1` of them. -/
structure ClosedNodes (q : ℕ → ℝ) (n : ℕ) : Prop where
  pos : 1 ≤ n
  first : q 0 = -1
  last : q n = 1
  strict : Ordered n q
  symm : Antisymmetric n q

/-- Grid of the square problems: `m` cells on each side of the source region `[-x0, x0]` reaching
`D` beyond it, `2m` cells inside; cells distributed like the nodes `qe` (outside), `q` (inside). -/
noncomputable def squareGrid (q qe : ℕ → ℝ) (x0 D : ℝ) (m k : ℕ) : ℝ :=
  if k < m then -x0 - D * ((1 - qe k) / 2)
  else if k < 3 * m then x0 * q (k - m)
  else x0 + D * ((1 + qe (k - 3 * m)) / 2)

/-- Grid of the spherical shell problem: `p` equal cells on `[0, x0]` and the others on
`[x0, x0 + D]`. -/
noncomputable def shellGrid (x0 D : ℝ) (N p k : ℕ) : ℝ :=
  if k ≤ p then (k : ℝ) / p * x0 else x0 + ((k - p : ℕ) : ℝ) / ((N - p : ℕ) : ℝ) * D

end Verif.Spec
