import Verif.Lemmas.Sources
import Verif.Props.Output
import Verif.Model.Numerics
import Mathlib.Analysis.SpecialFunctions.Integrals.Basic

/-!
C148: the unit tests of the basis functions and of the nodes (`tests/test_functions.py` 31-176), for all cells and
orders.  The value of a basis function of the sphere is `(normTn n x a b).getD 0`; orders up to 12 have one.
-/

namespace Verif.Props

open Polynomial MeasureTheory Verif.Spec Verif.Model Verif.Lemmas

/-- C148: `test_ortho_Tn_gauss_quad` (104-133), which sets the cell to `[0, 1]`: for all cells, orders and numbers of
nodes that are enough, the sum is one on the diagonal and zero elsewhere. -/
theorem c148_gauss_quad {n i j : ℕ} (hi : i ≤ 12) (hj : j ≤ 12) (hn : i + j < 2 * n) {a b : ℝ} (h : a < b) :
    0.5 * (b - a) * ∑ l ∈ Finset.range n, chebWeight n l *
      ((normTn i (0.5 * (b - a) * chebNode n l + (a + b) * 0.5) a b).getD 0 * 2 *
        (normTn j (0.5 * (b - a) * chebNode n l + (a + b) * 0.5) a b).getD 0) = if i = j then 1 else 0 := by
  rw [← quad_sphereBasis hn h, chebRule, List.map_map, Finset.mul_sum, ← list_sum_mul_left, Finset.sum_range,
    ← List.sum_ofFn]
  congr 1
  apply List.ext_getElem
  · simp
  intro l h1 h2
  simp only [List.getElem_ofFn, List.getElem_map, List.getElem_range, Function.comp_apply]
  rw [normTn_eq_sphereBasis hi h, normTn_eq_sphereBasis hj h,
    show 0.5 * (b - a) * chebNode n l + (a + b) * 0.5 = quadPoint a b (chebNode n l) by unfold quadPoint; ring]
  ring

example : 0.5 * ((1 : ℝ) - 0) * ∑ l ∈ Finset.range 9, chebWeight 9 l *
    ((normTn 4 (0.5 * (1 - 0) * chebNode 9 l + (0 + 1) * 0.5) 0 1).getD 0 * 2 *
      (normTn 4 (0.5 * (1 - 0) * chebNode 9 l + (0 + 1) * 0.5) 0 1).getD 0) = 1 :=
  (c148_gauss_quad (by norm_num) (by norm_num) (by norm_num) one_pos).trans (if_pos rfl)

/-- At the image of `z` in the cell the weight is `2 / √(1 - z²)`. -/
theorem weightTn_quadPoint {a b : ℝ} (h : a < b) (z : ℝ) :
    weightTn (quadPoint a b z) a b = 2 * (√(1 - z ^ 2))⁻¹ := by
  have hb : 0 < b - a := by linarith
  have e : (a - quadPoint a b z) * (quadPoint a b z - b) = ((b - a) / 2) ^ 2 * (1 - z ^ 2) := by
    unfold quadPoint; ring
  unfold weightTn
  rw [e, Real.sqrt_mul (by positivity), Real.sqrt_sq (by positivity)]
  field_simp

/-- C148: `test_ortho_Tn` (87-102): with the weight of the code, integrated over the cell, the functions are
orthonormal. -/
theorem c148_weighted {i j : ℕ} (hi : i ≤ 12) (hj : j ≤ 12) {a b : ℝ} (h : a < b) :
    ∫ x in a..b, (normTn i x a b).getD 0 * weightTn x a b * (normTn j x a b).getD 0 = if i = j then 1 else 0 := by
  have hb : 0 < b - a := by linarith
  have hn : i + j < 2 * (i + j + 1) := by omega
  have hd : (Chebyshev.T ℝ i * Chebyshev.T ℝ j).natDegree < 2 * (i + j + 1) := by
    refine lt_of_le_of_lt natDegree_mul_le ?_
    rw [Chebyshev.natDegree_T, Chebyshev.natDegree_T]
    simpa using hn
  have q := quad_sphereBasis hn h
  have e2 : ((chebRule (i + j + 1)).map fun r => r.2 * sphereBasis i (quadPoint a b r.1) a b *
      sphereBasis j (quadPoint a b r.1) a b).sum =
      (√((if i = 0 then 1 else 2) / (Real.pi * (b - a))) * √((if j = 0 then 1 else 2) / (Real.pi * (b - a)))) *
        ((chebRule (i + j + 1)).map fun r => r.2 * (Chebyshev.T ℝ i * Chebyshev.T ℝ j).eval r.1).sum := by
    rw [← list_sum_mul_left]
    congr 1
    apply List.map_congr_left
    intro r _
    simp only [sphereBasis, ref_quadPoint h, eval_mul]
    ring
  rw [e2, chebRule_sum (by omega) _ hd, Chebyshev.integral_measureT] at q
  simp only [Real.sqrt_inv] at q
  rw [← q]
  have hs := intervalIntegral.integral_comp_mul_add (a := -1) (b := 1)
    (fun x => (normTn i x a b).getD 0 * weightTn x a b * (normTn j x a b).getD 0)
    (c := (b - a) / 2) (by positivity) ((a + b) / 2)
  rw [show (b - a) / 2 * -1 + (a + b) / 2 = a by ring, show (b - a) / 2 * 1 + (a + b) / 2 = b by ring,
    smul_eq_mul, eq_comm, inv_mul_eq_iff_eq_mul₀ (by positivity)] at hs
  rw [hs, ← intervalIntegral.integral_const_mul, ← intervalIntegral.integral_const_mul,
    ← intervalIntegral.integral_const_mul]
  congr 1
  funext z
  have w := weightTn_quadPoint h z
  have n1 := normTn_quadPoint hi h z
  have n2 := normTn_quadPoint hj h z
  rw [show (b - a) / 2 * z + (a + b) / 2 = quadPoint a b z from rfl, w, n1, n2]
  simp only [sphereBasis, ref_quadPoint h, eval_mul]
  ring

example : ∫ x in (1 : ℝ)..3, (normTn 3 x 1 3).getD 0 * weightTn x 1 3 * (normTn 4 x 1 3).getD 0 = 0 :=
  (c148_weighted (by norm_num) (by norm_num) (by norm_num)).trans (if_neg (by norm_num))

/-- C148: `test_node_finder_sphere` (71-81): at every node found in cell `k` the basis function of order `M` of that
cell vanishes. -/
theorem c148_node_sphere {M : ℕ} (h1 : 1 ≤ M) (hM : M ≤ 12) (leg : ℕ → List ℝ) (edges : ℕ → ℝ) (k : ℕ)
    (h : edges k < edges (k + 1)) {x : ℝ} (hx : x ∈ cellSlice .sphere leg M edges k) :
    normTn M x (edges k) (edges (k + 1)) = some 0 := by
  simp only [cellSlice, List.mem_insertionSort, cellNodes, nodePoints, nodeOrder, show M ≠ 0 by omega, if_false,
    chebNodes, List.map_map, List.mem_map, List.mem_range, Function.comp_apply] at hx
  obtain ⟨l, hl, rfl⟩ := hx
  have e : edges k + (chebNode M l + 1) * (edges (k + 1) - edges k) / 2 =
      quadPoint (edges k) (edges (k + 1)) (chebNode M l) := by unfold quadPoint; ring
  have hM0 : (M : ℝ) ≠ 0 := by exact_mod_cast (by omega : M ≠ 0)
  rw [e, normTn, zSphere_quadPoint h, Verif.Props.c03_chebyshev_table M hM, chebNode, Chebyshev.T_real_cos]
  have z : Real.cos (((M : ℤ) : ℝ) * ((2 * ((l : ℝ) + 1) - 1) / 2 / M * Real.pi)) = 0 := by
    rw [Real.cos_eq_zero_iff]
    refine ⟨l, ?_⟩
    push_cast
    field_simp
    ring
  rw [z]
  simp

example : ∃ x ∈ cellSlice .sphere (fun _ => []) 3 (fun n => (n : ℝ)) 0, normTn 3 x 0 1 = some 0 := by
  have hx : (chebNode 3 0 + 1) * (1 - 0) / 2 ∈ cellSlice .sphere (fun _ => []) 3 (fun n => (n : ℝ)) 0 := by
    simp [cellSlice, cellNodes, nodePoints, nodeOrder, chebNodes, List.range_succ]
  have := c148_node_sphere (by norm_num) (by norm_num) _ _ 0 (by norm_num) hx
  exact ⟨_, hx, by simpa using this⟩

/-- C148: `test_node_finder_slab_2` (59-69): if the library gives zeros of the Legendre polynomial of order `M`, the
basis function of order `M` vanishes at every node found in the cell. -/
theorem c148_node_slab {M : ℕ} (h1 : 1 ≤ M) (leg : ℕ → List ℝ) (hleg : ∀ z ∈ leg M, (legendre M).eval z = 0)
    (edges : ℕ → ℝ) (k : ℕ) (h : edges k < edges (k + 1)) {x : ℝ} (hx : x ∈ cellSlice .slab leg M edges k) :
    normPn M x (edges k) (edges (k + 1)) = 0 := by
  simp only [cellSlice, cellNodes, nodePoints, nodeOrder, show M ≠ 0 by omega, if_false, List.mem_map] at hx
  obtain ⟨z, hz, rfl⟩ := hx
  have hb : edges k - edges (k + 1) ≠ 0 := by linarith
  have e : zSlab (edges k + (z + 1) * (edges (k + 1) - edges k) / 2) (edges k) (edges (k + 1)) = z := by
    unfold zSlab; field_simp; ring
  rw [normPn, e, hleg z hz, zero_mul]

example : normPn 1 (1 / 2) 0 1 = 0 := by
  have := c148_node_slab (M := 1) le_rfl (fun _ => [0]) (by simp [legendre]) (fun n => (n : ℝ)) 0 (by norm_num)
    (x := 1 / 2) (by norm_num [cellSlice, cellNodes, nodePoints, nodeOrder])
  simpa using this

/-- C148: `test_normPns`, `test_ortho_Pn` and `test_ortho_Pn_gauss_quad` (31-40, 135-176): a rule exact up to degree
`i + j` gives one on the diagonal and zero elsewhere; the tests use rules with at least `(i + j + 1) / 2` nodes. -/
theorem c148_normPns {q : List (ℝ × ℝ)} {i j : ℕ} (hq : QuadExact q (i + j)) {a b : ℝ} (h : a < b) :
    0.5 * (b - a) * (q.map fun r => r.2 * (normPn i (0.5 * (b - a) * r.1 + (a + b) * 0.5) a b *
      normPn j (0.5 * (b - a) * r.1 + (a + b) * 0.5) a b)).sum = if i = j then 1 else 0 := by
  rw [← quad_normPn hq le_rfl h]
  congr 1
  · ring
  congr 1
  apply List.map_congr_left
  intro r _
  rw [show 0.5 * (b - a) * r.1 + (a + b) * 0.5 = quadPoint a b r.1 by unfold quadPoint; ring]
  ring

example : 0.5 * ((2 : ℝ) - 0) * (([(0, 2)] : List (ℝ × ℝ)).map fun r =>
    r.2 * (normPn 0 (0.5 * (2 - 0) * r.1 + (0 + 2) * 0.5) 0 2 *
      normPn 1 (0.5 * (2 - 0) * r.1 + (0 + 2) * 0.5) 0 2)).sum = 0 := by
  refine (c148_normPns (i := 0) (j := 1) ?_ (by norm_num)).trans (if_neg (by norm_num))
  intro p hp
  obtain ⟨c, d, rfl⟩ := Polynomial.exists_eq_X_add_C_of_natDegree_le_one hp
  simp only [eval_add, eval_mul, eval_C, eval_X, List.map_cons, List.map_nil, List.sum_cons, List.sum_nil]
  rw [intervalIntegral.integral_add (by apply Continuous.intervalIntegrable; fun_prop) (by simp),
    intervalIntegral.integral_const_mul, integral_id]
  norm_num

end Verif.Props
