import Verif.Lemmas.Mesh
import Verif.Spec.Mesh

/-!
Closed forms of the meshes, and order and symmetry of the grids.
-/

namespace Verif.Lemmas

open Verif.Model Verif.Spec

/-! ### Grids -/

theorem nodes_bounds {q : ℕ → ℝ} {n : ℕ} (h : ClosedNodes q n) {k : ℕ} (hk : k ≤ n) :
    -1 ≤ q k ∧ q k ≤ 1 := by
  constructor
  · rcases Nat.eq_zero_or_pos k with rfl | hp
    · exact h.first.ge
    · rw [← h.first]; exact (h.strict 0 k hp hk).le
  · rcases lt_or_eq_of_le hk with hp | rfl
    · rw [← h.last]; exact (h.strict k n hp le_rfl).le
    · exact h.last.le

theorem nodes_lt_one {q : ℕ → ℝ} {n : ℕ} (h : ClosedNodes q n) {k : ℕ} (hk : k < n) : q k < 1 := by
  rw [← h.last]; exact h.strict k n hk le_rfl

theorem nodes_gt {q : ℕ → ℝ} {n : ℕ} (h : ClosedNodes q n) {k : ℕ} (hk : 0 < k) (hn : k ≤ n) :
    -1 < q k := by
  rw [← h.first]; exact h.strict 0 k hk hn

theorem squareGrid_ordered {q qe : ℕ → ℝ} {x0 D : ℝ} {m : ℕ} (hq : ClosedNodes q (2 * m))
    (he : ClosedNodes qe m) (hx : 0 < x0) (hD : 0 < D) :
    Ordered (4 * m) (squareGrid q qe x0 D m) := by
  intro i j hij hj
  have hm := he.pos
  unfold squareGrid
  by_cases hi1 : i < m
  · rw [if_pos hi1]
    have bi := nodes_lt_one he hi1
    by_cases hj1 : j < m
    · rw [if_pos hj1]
      have := he.strict i j hij hj1.le
      nlinarith
    · rw [if_neg hj1]
      by_cases hj2 : j < 3 * m
      · rw [if_pos hj2]
        have := (nodes_bounds hq (k := j - m) (by omega)).1
        nlinarith
      · rw [if_neg hj2]
        have := (nodes_bounds he (k := j - 3 * m) (by omega)).1
        nlinarith
  · have hj1 : ¬ j < m := by omega
    rw [if_neg hi1, if_neg hj1]
    by_cases hi2 : i < 3 * m
    · rw [if_pos hi2]
      by_cases hj2 : j < 3 * m
      · rw [if_pos hj2]
        have := hq.strict (i - m) (j - m) (by omega) (by omega)
        nlinarith
      · rw [if_neg hj2]
        have h1 := nodes_lt_one hq (k := i - m) (by omega)
        have := (nodes_bounds he (k := j - 3 * m) (by omega)).1
        nlinarith
    · have hj2 : ¬ j < 3 * m := by omega
      rw [if_neg hi2, if_neg hj2]
      have := he.strict (i - 3 * m) (j - 3 * m) (by omega) (by omega)
      nlinarith

theorem squareGrid_left {q qe : ℕ → ℝ} {x0 D : ℝ} {m k : ℕ} (h : k < m) :
    squareGrid q qe x0 D m k = -x0 - D * ((1 - qe k) / 2) := if_pos h

theorem squareGrid_mid {q qe : ℕ → ℝ} {x0 D : ℝ} {m k : ℕ} (h : m ≤ k) (h' : k < 3 * m) :
    squareGrid q qe x0 D m k = x0 * q (k - m) := by
  rw [squareGrid, if_neg (by omega), if_pos h']

theorem squareGrid_right {q qe : ℕ → ℝ} {x0 D : ℝ} {m k : ℕ} (h' : 3 * m ≤ k) (hm : 1 ≤ m) :
    squareGrid q qe x0 D m k = x0 + D * ((1 + qe (k - 3 * m)) / 2) := by
  rw [squareGrid, if_neg (by omega), if_neg (by omega)]

theorem squareGrid_symm {q qe : ℕ → ℝ} {x0 D : ℝ} {m : ℕ} (hq : ClosedNodes q (2 * m))
    (he : ClosedNodes qe m) : Antisymmetric (4 * m) (squareGrid q qe x0 D m) := by
  intro k hk
  have hm := he.pos
  rcases lt_trichotomy k m with h | h | h
  · rw [squareGrid_left h, squareGrid_right (by omega) hm]
    have : 4 * m - k - 3 * m = m - k := by omega
    rw [this, he.symm k h.le]
    ring
  · subst h
    rw [squareGrid_mid le_rfl (by omega), squareGrid_right (by omega) hm]
    have : 4 * k - k - 3 * k = 0 := by omega
    rw [this, Nat.sub_self, he.first, hq.first]
    ring
  · rcases lt_trichotomy k (3 * m) with h' | h' | h'
    · rw [squareGrid_mid (k := k) h.le h', squareGrid_mid (by omega) (by omega)]
      have : 4 * m - k - m = 2 * m - (k - m) := by omega
      rw [this, hq.symm (k - m) (by omega)]
      ring
    · subst h'
      rw [squareGrid_right (k := 3 * m) le_rfl hm, squareGrid_mid (by omega) (by omega)]
      have h1 : 4 * m - 3 * m - m = 0 := by omega
      rw [h1, Nat.sub_self, he.first, hq.first]
      ring
    · rw [squareGrid_right (k := k) h'.le hm, squareGrid_left (by omega)]
      have h1 : 4 * m - k = m - (k - 3 * m) := by omega
      rw [h1, he.symm (k - 3 * m) (by omega)]
      ring

theorem squareGrid_last {q qe : ℕ → ℝ} {x0 D : ℝ} {m : ℕ} (he : ClosedNodes qe m) :
    squareGrid q qe x0 D m (4 * m) = x0 + D := by
  have hm := he.pos
  unfold squareGrid
  rw [if_neg (by omega), if_neg (by omega)]
  have : 4 * m - 3 * m = m := by omega
  rw [this, he.last]
  ring

theorem shellGrid_ordered {x0 D : ℝ} {N p : ℕ} (hp : 1 ≤ p) (hx : 0 < x0) (hD : 0 < D) :
    Ordered N (shellGrid x0 D N p) := by
  intro i j hij hj
  have hp' : (0 : ℝ) < p := by positivity
  have hij' : (i : ℝ) < j := by exact_mod_cast hij
  unfold shellGrid
  by_cases hj1 : j ≤ p
  · rw [if_pos hj1, if_pos (by omega)]
    exact mul_lt_mul_of_pos_right (div_lt_div_of_pos_right hij' hp') hx
  · have hn : (0 : ℝ) < ((N - p : ℕ) : ℝ) := by
      have : 0 < N - p := by omega
      exact_mod_cast this
    rw [if_neg hj1]
    have hjp : (0 : ℝ) < ((j - p : ℕ) : ℝ) := by
      have : 0 < j - p := by omega
      exact_mod_cast this
    by_cases hi : i ≤ p
    · rw [if_pos hi]
      have h1 : (i : ℝ) / p ≤ 1 := by
        rw [div_le_one hp']; exact_mod_cast hi
      have h2 : 0 < ((j - p : ℕ) : ℝ) / ((N - p : ℕ) : ℝ) * D := by positivity
      nlinarith
    · rw [if_neg hi]
      have h3 : ((i - p : ℕ) : ℝ) < ((j - p : ℕ) : ℝ) := by
        have : i - p < j - p := by omega
        exact_mod_cast this
      have := mul_lt_mul_of_pos_right (div_lt_div_of_pos_right h3 hn) hD
      linarith

theorem uniformGrid_ordered {a b : ℝ} (h : a < b) {N : ℕ} (hN : 1 ≤ N) :
    Ordered N (uniformGrid a b N) := by
  intro i j hij _
  have hN' : (0 : ℝ) < N := by positivity
  have hij' : (i : ℝ) < j := by exact_mod_cast hij
  unfold uniformGrid
  have := mul_lt_mul_of_pos_right (div_lt_div_of_pos_right hij' hN') (sub_pos.mpr h)
  linarith

theorem linspace_uniform (a b : ℝ) (N k : ℕ) :
    (linspace a b (N + 1)).get k = uniformGrid a b N k := by
  rw [linspace_get, uniformGrid]
  ring

theorem uniformGrid_symm (a : ℝ) {N : ℕ} (hN : 1 ≤ N) :
    Antisymmetric N (uniformGrid (-a) a N) := by
  intro k hk
  rw [← linspace_uniform, ← linspace_uniform, linspace_symm a hN hk]

/-! ### The square mesh of the code -/

theorem legendreRight_eq (c : MeshConfig) (r : ℝ) :
    legendreRight c r = c.x0 + 1 / 100 * ((1 + r) / 2) := by
  unfold legendreRight; ring

theorem legendreLeft_eq (c : MeshConfig) (l : ℝ) :
    legendreLeft c l = -c.x0 - 1 / 100 * ((1 - l) / 2) := by
  unfold legendreLeft; ring

theorem legendre_size (c : MeshConfig) : (legendreEdges c).size =
    (c.thickQuadEdge.size - 1) + (c.thickQuad.size - 1) + c.thickQuadEdge.size := rfl

theorem legendre_get {c : MeshConfig} {m : ℕ} (hq : c.thickQuad.size = 2 * m + 1)
    (he : c.thickQuadEdge.size = m + 1) (k : ℕ) :
    (legendreEdges c).get k =
      squareGrid c.thickQuad.get c.thickQuadEdge.get c.x0 (1 / 100) m k := by
  simp only [legendreEdges, Arr.append, Arr.dropLast, Arr.map, hq, he, squareGrid,
    legendreLeft_eq, legendreRight_eq]
  have e1 : m + 1 - 1 + (2 * m + 1 - 1) = 3 * m := by omega
  have e2 : m + 1 - 1 = m := by omega
  rw [e1, e2]
  by_cases h1 : k < m
  · rw [if_pos (by omega), if_pos h1, if_pos h1]
  · by_cases h2 : k < 3 * m
    · rw [if_pos h2, if_neg h1, if_neg h1, if_pos h2]
    · rw [if_neg h2, if_neg h1, if_neg h2]

/-- Position at constant speed of an edge of the square mesh. -/
theorem legendre_moved {c : MeshConfig} {m : ℕ} (hN : c.N = 4 * m)
    (hq : c.thickQuad.size = 2 * m + 1) (he : c.thickQuadEdge.size = m + 1)
    (hen : ClosedNodes c.thickQuadEdge.get m) {k : ℕ} (t : ℝ) :
    (legendreEdges c).get k
      + squareVelocity c (fun _ => 0) (legendreEdges c).get k * c.speed * t =
      squareGrid c.thickQuad.get c.thickQuadEdge.get c.x0 (1 / 100 + c.speed * t) m k := by
  have hm := hen.pos
  have hlast : (legendreEdges c).get c.N - c.x0 = 1 / 100 := by
    rw [legendre_get hq he, hN, squareGrid_last hen]; ring
  have e1 : c.N / 2 = 2 * m := by omega
  have e2 : 2 * m / 2 = m := by omega
  unfold squareVelocity
  rw [hlast, legendre_get hq he]
  simp only [e1, e2]
  unfold squareGrid
  by_cases h1 : k < m
  · simp only [if_pos h1]
    ring
  · simp only [if_neg h1]
    by_cases h2 : k < 3 * m
    · rw [if_pos h2, if_neg (by omega), if_neg (by omega), if_pos h2]
      ring
    · simp only [if_neg h2]
      by_cases h3 : 2 * m + m + 1 ≤ k
      · rw [if_pos h3]
        ring
      · have : k - 3 * m = 0 := by omega
        rw [if_neg h3, if_pos (by omega), this, hen.first]
        ring

/-- Velocities of the square mesh. -/
theorem legendre_velocity {c : MeshConfig} {m : ℕ} (hN : c.N = 4 * m)
    (hq : c.thickQuad.size = 2 * m + 1) (he : c.thickQuadEdge.size = m + 1)
    (hen : ClosedNodes c.thickQuadEdge.get m) {k : ℕ} :
    squareVelocity c (fun _ => 0) (legendreEdges c).get k * c.speed =
      squareGrid c.thickQuad.get c.thickQuadEdge.get c.x0 (1 + c.speed) m k -
      squareGrid c.thickQuad.get c.thickQuadEdge.get c.x0 1 m k := by
  have h1 := legendre_moved hN hq he hen (k := k) 1
  have h0 := legendre_get hq he k
  have h2 : squareGrid c.thickQuad.get c.thickQuadEdge.get c.x0 (1 + c.speed) m k -
      squareGrid c.thickQuad.get c.thickQuadEdge.get c.x0 1 m k =
      squareGrid c.thickQuad.get c.thickQuadEdge.get c.x0 (1 / 100 + c.speed * 1) m k -
      squareGrid c.thickQuad.get c.thickQuadEdge.get c.x0 (1 / 100) m k := by
    unfold squareGrid
    split_ifs <;> ring
  rw [h2, ← h1, ← h0]
  ring

/-! ### The shell mesh of the code -/

theorem shell_size (c : MeshConfig) (hN : 1 ≤ c.N) : (shellEdges c).size = c.N + 1 := by
  simp only [shellEdges, Arr.append, Arr.tail, linspace]
  omega

theorem shell_get {c : MeshConfig} {k : ℕ} (hk : k ≤ c.N) :
    (shellEdges c).get k = shellGrid c.x0 (1 / 10 ^ 5) c.N (c.N / 2 + 1) k := by
  simp only [shellEdges, Arr.append, Arr.tail, shellGrid]
  have hsz : (linspace 0 c.x0 (c.N / 2 + 1 + 1)).size = c.N / 2 + 1 + 1 := rfl
  rw [hsz]
  by_cases h : k ≤ c.N / 2 + 1
  · rw [if_pos (by omega), if_pos h, linspace_get]
    ring
  · rw [if_neg (by omega), if_neg h]
    have e1 : k - (c.N / 2 + 1 + 1) + 1 = k - (c.N / 2 + 1) := by omega
    rw [e1]
    simp only [linspace]
    have e2 : ((c.N + 1 - (c.N / 2 + 1) : ℕ) : ℝ) - 1 = ((c.N - (c.N / 2 + 1) : ℕ) : ℝ) ∨
        c.N = 0 := by
      rcases Nat.eq_zero_or_pos c.N with h0 | h0
      · exact Or.inr h0
      · left
        have : c.N + 1 - (c.N / 2 + 1) = c.N - (c.N / 2 + 1) + 1 := by omega
        rw [this]; push_cast; ring
    rcases e2 with e2 | e2
    · rw [e2]; ring
    · omega

/-- Position at constant speed of an edge of the shell mesh. -/
theorem shell_moved {c : MeshConfig} {k : ℕ} (hk : k ≤ c.N) (t : ℝ) :
    (shellEdges c).get k + (if c.N / 2 + 1 + 1 ≤ k then
      ((shellEdges c).get k - c.x0) / ((shellEdges c).get c.N - c.x0) * c.speed else 0) * t =
      shellGrid c.x0 (1 / 10 ^ 5 + c.speed * t) c.N (c.N / 2 + 1) k := by
  rw [shell_get hk, shell_get le_rfl]
  unfold shellGrid
  by_cases h : c.N / 2 + 1 + 1 ≤ k
  · have hn : ((c.N - (c.N / 2 + 1) : ℕ) : ℝ) ≠ 0 := by
      have : c.N - (c.N / 2 + 1) ≠ 0 := by omega
      exact_mod_cast this
    rw [if_pos h, if_neg (by omega), if_neg (by omega), if_neg (by omega), div_self hn]
    field_simp
    ring
  · rw [if_neg h, if_pos (by omega), if_pos (by omega)]
    ring

end Verif.Lemmas
