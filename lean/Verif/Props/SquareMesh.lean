import Verif.Props.Mesh
import Mathlib.Tactic.FieldSimp
import Mathlib.Tactic.Linarith

/-!
C150: the first edges and velocities of the two meshes for square sources that share their layout
(`mesh.py` 440-461 and 556-576).
-/

namespace Verif.Props

open Verif.Model

/-- Edges of the layout: a quarter of the cells on each side of the source. -/
theorem squareEdges_values (c : MeshConfig) (outer : ℝ) {q : ℕ} (hN : c.N = 4 * q) (hq : 1 ≤ q) :
    (squareEdges c outer).size = c.N + 1 ∧ (squareEdges c outer).get 0 = -outer ∧
      (squareEdges c outer).get q = -c.x0 ∧ (squareEdges c outer).get (2 * q) = 0 ∧
      (squareEdges c outer).get (3 * q) = c.x0 ∧ (squareEdges c outer).get c.N = outer := by
  have e0 : 4 * q / 2 = 2 * q := by omega
  have e1 : 2 * q / 2 = q := by omega
  have hq0 : (q : ℝ) ≠ 0 := by exact_mod_cast (by omega : q ≠ 0)
  simp only [squareEdges, Arr.append, Arr.dropLast, linspace, hN, e0, e1, Nat.add_sub_cancel]
  refine ⟨by omega, ?_, ?_, ?_, ?_, ?_⟩
  · rw [if_pos (by omega), if_pos (by omega)]
    simp
  · rw [if_pos (by omega), if_neg (by omega), Nat.sub_self]
    simp
  · rw [if_pos (by omega), if_neg (by omega), show 2 * q - q = q by omega]
    push_cast
    rw [add_sub_cancel_right]
    field_simp
    ring
  · rw [if_neg (by omega), show 3 * q - (q + 2 * q) = 0 by omega]
    simp
  · rw [if_neg (by omega), show 4 * q - (q + 2 * q) = q by omega]
    push_cast
    rw [add_sub_cancel_right]
    field_simp
    ring

/-- C150: the mesh for thin square sources (`thin_square_init_func`) begins with its ends `1e-12` outside of the source,
its edges at a quarter and three quarters on the edges of the source; the ends move outward with the speed of the mesh
and the edges of the source and the origin stand still, the right one if its velocity was zero. -/
theorem c150_thin_square {c : MeshConfig} {q : ℕ} (hN : c.N = 4 * q) (hq : 1 ≤ q) (s : MeshState) :
    ∃ m, thinSquareInit c s = some m ∧ m.edges0 = m.edges ∧ m.edges 0 = -(c.x0 + 1 / 10 ^ 12) ∧ m.edges q = -c.x0 ∧
      m.edges (2 * q) = 0 ∧ m.edges (3 * q) = c.x0 ∧ m.edges c.N = c.x0 + 1 / 10 ^ 12 ∧
      m.Dedges 0 = -c.speed ∧ m.Dedges q = 0 ∧ m.Dedges (2 * q) = 0 ∧ m.Dedges (3 * q) = s.Dedges (3 * q) * c.speed ∧
      m.Dedges c.N = c.speed := by
  obtain ⟨h0, h1, h2, h3, h4, h5⟩ := squareEdges_values c (c.x0 + 1 / 10 ^ 12) hN hq
  refine ⟨_, by unfold thinSquareInit; rw [if_neg (by omega)]; exact if_pos h0, rfl, h1, h2, h3, h4, h5, ?_⟩
  have e0 : c.N / 2 = 2 * q := by omega
  have e1 : 2 * q / 2 = q := by omega
  have hd : (c.x0 + 1 / 10 ^ 12 - c.x0) ≠ 0 := by norm_num
  simp only [squareVelocity, e0, e1, h1, h5]
  refine ⟨?_, ?_, ?_, ?_, ?_⟩
  · rw [if_pos (by omega), show -(c.x0 + 1 / 10 ^ 12) + c.x0 = -(c.x0 + 1 / 10 ^ 12 - c.x0) by ring, neg_div,
      div_self hd]
    ring
  · rw [if_neg (by omega), if_neg (by omega), if_neg (by omega), zero_mul]
  · rw [if_neg (by omega), if_neg (by omega), if_neg (by omega), zero_mul]
  · rw [if_neg (by omega), if_neg (by omega), if_pos (by omega)]
  · rw [if_neg (by omega), if_pos (by omega), div_self hd, one_mul]

example : ∃ m, thinSquareInit { exampleSquareMesh with N := 8 } (meshBlank exampleSquareMesh) = some m ∧ m.edges 4 = 0 := by
  obtain ⟨m, h, -, -, -, h4, -⟩ := c150_thin_square (c := { exampleSquareMesh with N := 8 }) (q := 2) rfl (by norm_num)
    (meshBlank exampleSquareMesh)
  exact ⟨m, h, h4⟩

/-- C150: the simple mesh for thick square sources begins where the table has the front, plus the extra distance, with
the edges of the source at a quarter and at three quarters, and no edge moves. -/
theorem c150_simple_thick_square {c : MeshConfig} {q : ℕ} (hN : c.N = 4 * q) (hq : 1 ≤ q) (s : MeshState) :
    ∃ m, simpleThickSquareInit c s = some m ∧ m.edges 0 = -(c.waveLastR + c.pad) ∧ m.edges q = -c.x0 ∧
      m.edges (2 * q) = 0 ∧ m.edges (3 * q) = c.x0 ∧ m.edges c.N = c.waveLastR + c.pad ∧ ∀ k, m.Dedges k = 0 := by
  obtain ⟨h0, h1, h2, h3, h4, h5⟩ := squareEdges_values c (c.waveLastR + c.pad) hN hq
  exact ⟨_, by unfold simpleThickSquareInit; rw [if_neg (by omega)]; exact if_pos h0, h1, h2, h3, h4, h5,
    fun k => mul_zero _⟩

example : ∃ m, simpleThickSquareInit { exampleSquareMesh with N := 8 } (meshBlank exampleSquareMesh) = some m ∧ m.edges 4 = 0 := by
  obtain ⟨m, h, -, -, h4, -⟩ := c150_simple_thick_square (c := { exampleSquareMesh with N := 8 }) (q := 2) rfl
    (by norm_num) (meshBlank exampleSquareMesh)
  exact ⟨m, h, h4⟩

/-- C150: both fail for two cells and for numbers of cells that four does not divide. -/
theorem c150_square_fails {c : MeshConfig} (h : ¬ 4 ∣ c.N) (s : MeshState) :
    thinSquareInit c s = none ∧ simpleThickSquareInit c s = none := by
  have hs : ∀ outer, (squareEdges c outer).size ≠ c.N + 1 := by
    intro outer
    simp only [squareEdges, Arr.append, Arr.dropLast, linspace]
    omega
  constructor
  · unfold thinSquareInit
    by_cases h1 : c.N = 2
    · rw [if_pos h1]
    · rw [if_neg h1]
      exact if_neg (hs _)
  · unfold simpleThickSquareInit
    by_cases h1 : c.N = 2
    · rw [if_pos h1]
    · rw [if_neg h1]
      exact if_neg (hs _)

example : thinSquareInit { exampleSquareMesh with N := 10 } (meshBlank exampleSquareMesh) = none :=
  (c150_square_fails (by norm_num) _).1

end Verif.Props
