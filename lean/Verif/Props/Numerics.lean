import Verif.Model.Numerics
import Mathlib.Analysis.SpecialFunctions.Trigonometric.Chebyshev.ChebyshevGauss
import Mathlib.Analysis.SpecialFunctions.Pow.Real
import Mathlib.Topology.Order.IntermediateValue
import Mathlib.Topology.Algebra.Order.Field
import Mathlib.Data.List.Chain
import Mathlib.Tactic.LinearCombination
import Mathlib.Tactic.NormNum

/-!
C32-C37: quadrature, evaluation nodes, root finders, convergence order, time steps.
-/

namespace Verif.Props

open Verif.Model Real

/-! ### C32 -/

/-- C32: the Chebyshev rule is exact for polynomials of degree below `2n`. -/
theorem c32_chebyshev_exact {n : ℕ} (hn : 1 ≤ n) (P : Polynomial ℝ) (hP : P.degree < 2 * n) :
    ∑ i ∈ Finset.range n, chebWeight n i * P.eval (chebNode n i) =
      ∫ x in (-1 : ℝ)..1, P.eval x * (√(1 - x ^ 2))⁻¹ := by
  have h := Polynomial.Chebyshev.integral_eq_sumZeroes (n := n) (by omega) hP
  rw [Polynomial.Chebyshev.integral_measureT] at h
  have e : ∀ x : ℝ, √(1 - x ^ 2)⁻¹ = (√(1 - x ^ 2))⁻¹ := fun x => Real.sqrt_inv _
  simp only [e] at h
  rw [h, Polynomial.Chebyshev.sumZeroes, Finset.mul_sum]
  refine Finset.sum_congr rfl fun i _ => ?_
  unfold chebWeight chebNode
  congr 3
  field_simp
  ring

/-- The angle of a Chebyshev node. -/
theorem cheb_angle {n i : ℕ} (hi : i < n) :
    0 < (2 * ((i : ℝ) + 1) - 1) / 2 / n * π ∧ (2 * ((i : ℝ) + 1) - 1) / 2 / n * π < π := by
  have hn : (0 : ℝ) < n := by
    have : 0 < n := by omega
    exact_mod_cast this
  have hi' : (i : ℝ) + 1 ≤ n := by exact_mod_cast hi
  have h0 : (0 : ℝ) ≤ i := Nat.cast_nonneg i
  have hp := Real.pi_pos
  have h1 : 0 < (2 * ((i : ℝ) + 1) - 1) / 2 / n := by
    apply div_pos _ hn
    linarith
  have h2 : (2 * ((i : ℝ) + 1) - 1) / 2 / n < 1 := by
    rw [div_lt_one hn]
    linarith
  constructor <;> nlinarith

/-- C32: nodes strictly decreasing, in `(-1, 1)`, symmetric; weights positive with sum `π`. -/
theorem c32_chebyshev_nodes {n : ℕ} (hn : 1 ≤ n) :
    (∀ i j, i < j → j < n → chebNode n j < chebNode n i) ∧
    (∀ i, i < n → -1 < chebNode n i ∧ chebNode n i < 1) ∧
    (∀ i, i < n → chebNode n (n - 1 - i) = -chebNode n i) ∧
    (∀ i, 0 < chebWeight n i) ∧ ∑ i ∈ Finset.range n, chebWeight n i = π := by
  have hn' : (0 : ℝ) < n := by positivity
  have dec : ∀ i j, i < j → j < n → chebNode n j < chebNode n i := by
    intro i j hij hj
    have hi : i < n := by omega
    refine Real.cos_lt_cos_of_nonneg_of_le_pi (cheb_angle hi).1.le (cheb_angle hj).2.le ?_
    have : (i : ℝ) < j := by exact_mod_cast hij
    refine mul_lt_mul_of_pos_right (div_lt_div_of_pos_right ?_ hn') Real.pi_pos
    linarith
  refine ⟨dec, ?_, ?_, ?_, ?_⟩
  · intro i hi
    obtain ⟨h1, h2⟩ := cheb_angle hi
    constructor
    · rw [← Real.cos_pi]
      exact Real.cos_lt_cos_of_nonneg_of_le_pi h1.le le_rfl h2
    · rw [← Real.cos_zero]
      exact Real.cos_lt_cos_of_nonneg_of_le_pi le_rfl h2.le h1
  · intro i hi
    unfold chebNode
    rw [← Real.cos_pi_sub]
    congr 1
    have : ((n - 1 - i : ℕ) : ℝ) = n - 1 - i := by
      rw [Nat.cast_sub (by omega), Nat.cast_sub hn]; simp
    rw [this]
    field_simp
    ring
  · intro i
    exact div_pos Real.pi_pos hn'
  · simp only [chebWeight, Finset.sum_const, Finset.card_range, nsmul_eq_mul]
    field_simp

/-- C32 used: the integral of `x²/√(1-x²)` with two points. -/
example : ∫ x in (-1 : ℝ)..1, x ^ 2 * (√(1 - x ^ 2))⁻¹ =
    ∑ i ∈ Finset.range 2, chebWeight 2 i * chebNode 2 i ^ 2 := by
  have := c32_chebyshev_exact (n := 2) (by norm_num) (Polynomial.X ^ 2)
    (by rw [Polynomial.degree_X_pow]; norm_num)
  simpa using this.symm

/-! ### C33 -/

theorem cellNode_inside {x xL xR : ℝ} (hx : -1 < x) (hx' : x < 1) (h : xL < xR) :
    xL < xL + (x + 1) * (xR - xL) / 2 ∧ xL + (x + 1) * (xR - xL) / 2 < xR := by
  constructor <;> nlinarith

theorem block_of_flatMap {β : Type*} (f : ℕ → List β) (L n : ℕ)
    (hf : ∀ k, k < n → (f k).length = L) (k : ℕ) (hk : k < n) :
    (((List.range n).flatMap f).drop (k * L)).take L = f k := by
  induction n with
  | zero => omega
  | succ n ih =>
    have len : ((List.range n).flatMap f).length = n * L := by
      rw [List.length_flatMap, List.map_congr_left (g := fun _ => L)
        (fun k hk => hf k (by have := List.mem_range.mp hk; omega))]
      simp
    rw [List.range_succ, List.flatMap_append]
    rcases Nat.lt_or_ge k n with h | h
    · have h1 : k * L + L ≤ n * L := by
        have : (k + 1) * L ≤ n * L := Nat.mul_le_mul_right L h
        linarith
      rw [List.drop_append_of_le_length (by omega), List.take_append_of_le_length (by
        rw [List.length_drop, len]; omega)]
      exact ih (fun k hk => hf k (by omega)) h
    · have : k = n := by omega
      subst this
      have e : List.drop (k * L) ((List.range k).flatMap f ++ List.flatMap f [k]) = f k := by
        rw [← len, List.drop_left]
        simp
      rw [e, ← hf k (by omega), List.take_length]

/-- What `numpy` documents about `leggauss`: `n` points, all strictly between `-1` and `1`,
in increasing order. -/
structure LegPoints (leg : ℕ → List ℝ) : Prop where
  len : ∀ n, 1 ≤ n → (leg n).length = n
  inside : ∀ n, 1 ≤ n → ∀ x ∈ leg n, -1 < x ∧ x < 1
  inc : ∀ n, 1 ≤ n → (leg n).Pairwise (· < ·)

theorem nodeOrder_pos (M : ℕ) : 1 ≤ nodeOrder M := by
  unfold nodeOrder; split_ifs <;> omega

theorem nodePoints_len (g : Geometry) {leg : ℕ → List ℝ} (hl : LegPoints leg) (M : ℕ) :
    (nodePoints g leg M).length = nodeOrder M := by
  cases g
  · exact hl.len _ (nodeOrder_pos M)
  · simp [nodePoints, chebNodes]

theorem nodePoints_inside (g : Geometry) {leg : ℕ → List ℝ} (hl : LegPoints leg) (M : ℕ) :
    ∀ x ∈ nodePoints g leg M, -1 < x ∧ x < 1 := by
  cases g
  · exact hl.inside _ (nodeOrder_pos M)
  · intro x hx
    simp only [nodePoints, chebNodes, List.mem_map, List.mem_range] at hx
    obtain ⟨i, hi, rfl⟩ := hx
    exact (c32_chebyshev_nodes (nodeOrder_pos M)).2.1 i hi

theorem cellSlice_len (g : Geometry) {leg : ℕ → List ℝ} (hl : LegPoints leg) (M : ℕ)
    (edges : ℕ → ℝ) (k : ℕ) : (cellSlice g leg M edges k).length = nodeOrder M := by
  rw [← nodePoints_len g hl M]
  cases g <;> simp [cellSlice, cellNodes]

theorem cellSlice_inside (g : Geometry) {leg : ℕ → List ℝ} (hl : LegPoints leg) (M : ℕ)
    (edges : ℕ → ℝ) (k : ℕ) (h : edges k < edges (k + 1)) :
    ∀ x ∈ cellSlice g leg M edges k, edges k < x ∧ x < edges (k + 1) := by
  have hcell : ∀ x ∈ cellNodes (nodePoints g leg M) (edges k) (edges (k + 1)),
      edges k < x ∧ x < edges (k + 1) := by
    intro x hx
    simp only [cellNodes, List.mem_map] at hx
    obtain ⟨y, hy, rfl⟩ := hx
    exact cellNode_inside (nodePoints_inside g hl M y hy).1 (nodePoints_inside g hl M y hy).2 h
  cases g
  · exact hcell
  · intro x hx
    exact hcell x ((List.mem_insertionSort _).mp hx)

theorem cellSlice_inc (g : Geometry) {leg : ℕ → List ℝ} (hl : LegPoints leg) (M : ℕ)
    (edges : ℕ → ℝ) (k : ℕ) (h : edges k < edges (k + 1)) :
    (cellSlice g leg M edges k).Pairwise (· < ·) := by
  have mono : ∀ x y : ℝ, x < y → edges k + (x + 1) * (edges (k + 1) - edges k) / 2 <
      edges k + (y + 1) * (edges (k + 1) - edges k) / 2 := by
    intro x y hxy
    nlinarith
  cases g
  · simp only [cellSlice, cellNodes, List.pairwise_map]
    exact (hl.inc _ (nodeOrder_pos M)).imp (fun {x y} hxy => mono x y hxy)
  · have hn : (cellNodes (nodePoints .sphere leg M) (edges k) (edges (k + 1))).Nodup := by
      unfold cellNodes nodePoints chebNodes
      rw [List.Nodup, List.pairwise_map, List.pairwise_map]
      refine (List.pairwise_lt_range (n := nodeOrder M)).imp_of_mem ?_
      intro i j _ hj hij
      exact (mono _ _ ((c32_chebyshev_nodes (nodeOrder_pos M)).1 i j hij
        (List.mem_range.mp hj))).ne'
    have hs := List.pairwise_insertionSort (fun a b : ℝ => a ≤ b)
      (cellNodes (nodePoints .sphere leg M) (edges k) (edges (k + 1)))
    have hn' := ((List.perm_insertionSort (fun a b : ℝ => a ≤ b)
      (cellNodes (nodePoints .sphere leg M) (edges k) (edges (k + 1)))).nodup_iff).mpr hn
    exact (hs.and hn').imp (fun {x y} h => lt_of_le_of_ne h.1 h.2)

/-- C33: there are `cells` times `points` nodes, they come cell by cell, every node is strictly
inside its cell. -/
theorem c33_nodes_inside (g : Geometry) {leg : ℕ → List ℝ} (hl : LegPoints leg) (M : ℕ)
    (edges : ℕ → ℝ) (cells : ℕ) (he : ∀ k, k < cells → edges k < edges (k + 1)) :
    (findNodes g leg M edges cells).length = cells * max M 1 ∧
      ∀ k, k < cells → ∀ i, i < max M 1 → ∃ x, (findNodes g leg M edges cells)[k * max M 1 + i]? =
        some x ∧ edges k < x ∧ x < edges (k + 1) := by
  have ho : nodeOrder M = max M 1 := by unfold nodeOrder; split_ifs <;> omega
  refine ⟨?_, ?_⟩
  · unfold findNodes
    rw [List.length_flatMap, List.map_congr_left (g := fun _ => nodeOrder M)
      (fun k _ => cellSlice_len g hl M edges k), ← ho]
    simp
  · intro k hk i hi
    have hb := block_of_flatMap (cellSlice g leg M edges) (nodeOrder M) cells
      (fun k _ => cellSlice_len g hl M edges k) k hk
    rw [← ho] at hi ⊢
    have hlen := cellSlice_len g hl M edges k
    refine ⟨(cellSlice g leg M edges k)[i]'(by omega), ?_, ?_⟩
    · rw [← List.getElem?_drop, ← List.getElem?_take_of_lt hi]
      change ((((List.range cells).flatMap (cellSlice g leg M edges)).drop _).take _)[i]? = _
      rw [hb, List.getElem?_eq_getElem (by omega)]
    · exact cellSlice_inside g hl M edges k (he k hk) _ (List.getElem_mem _)

/-- C33: the whole list of nodes is strictly increasing. -/
theorem c33_nodes_increase (g : Geometry) {leg : ℕ → List ℝ} (hl : LegPoints leg) (M : ℕ)
    (edges : ℕ → ℝ) (cells : ℕ) (he : ∀ k, k < cells → edges k < edges (k + 1)) :
    (findNodes g leg M edges cells).Pairwise (· < ·) := by
  induction cells with
  | zero => simp [findNodes]
  | succ n ih =>
    have ih := ih (fun k hk => he k (by omega))
    have mono : ∀ j, j ≤ n → edges j ≤ edges n := by
      have aux : ∀ d j, j + d ≤ n → edges j ≤ edges (j + d) := by
        intro d
        induction d with
        | zero => intro j _; exact le_rfl
        | succ d ihd =>
          intro j hj
          exact (ihd j (by omega)).trans (he (j + d) (by omega)).le
      intro j hj
      have := aux (n - j) j (by omega)
      rwa [Nat.add_sub_cancel' hj] at this
    unfold findNodes at ih ⊢
    rw [List.range_succ, List.flatMap_append, List.pairwise_append]
    refine ⟨ih, by simpa using cellSlice_inc g hl M edges n (he n (by omega)), ?_⟩
    intro x hx y hy
    simp only [List.flatMap_cons, List.flatMap_nil, List.append_nil] at hy
    obtain ⟨k, hk, hxk⟩ := List.mem_flatMap.mp hx
    have hk' := List.mem_range.mp hk
    have h1 := (cellSlice_inside g hl M edges k (he k (by omega)) x hxk).2
    have h2 := (cellSlice_inside g hl M edges n (he n (by omega)) y hy).1
    exact (h1.trans_le (mono (k + 1) hk')).trans h2

/-- Points meeting the contract, to use the theorems above. -/
noncomputable def evenPoints (n : ℕ) : List ℝ :=
  (List.range n).map fun i : ℕ => -1 + 2 * ((i : ℝ) + 1) / (n + 1)

theorem legPoints_example : LegPoints evenPoints := by
  unfold evenPoints
  refine ⟨fun n _ => by simp, ?_, ?_⟩
  · intro n hn x hx
    simp only [List.mem_map, List.mem_range] at hx
    obtain ⟨i, hi, rfl⟩ := hx
    have hi' : (i : ℝ) + 1 ≤ n := by exact_mod_cast hi
    have hp : (0 : ℝ) < n + 1 := by positivity
    constructor
    · have : 0 < 2 * ((i : ℝ) + 1) / (n + 1) := by positivity
      linarith
    · have : 2 * ((i : ℝ) + 1) / (n + 1) < 2 := by
        rw [div_lt_iff₀ hp]; linarith
      linarith
  · intro n _
    rw [List.pairwise_map]
    refine (List.pairwise_lt_range (n := n)).imp ?_
    intro i j hij
    have : (i : ℝ) < j := by exact_mod_cast hij
    have hp : (0 : ℝ) < n + 1 := by positivity
    gcongr

example (g : Geometry) : (findNodes g evenPoints 2 (fun k => (k : ℝ) ^ 2) 3).length = 6 :=
  (c33_nodes_inside g legPoints_example 2 _ 3 (by
    intro k _
    have : (0 : ℝ) ≤ k := Nat.cast_nonneg k
    push_cast
    nlinarith)).1

/-! ### C34 -/

/-- C34: one pass keeps the change of sign and halves the interval. -/
theorem c34_step (f : ℝ → ℝ) (ab : ℝ × ℝ)
    (h : SignType.sign (f ab.1) ≠ SignType.sign (f ab.2)) :
    SignType.sign (f (bisectStep f ab).1) ≠ SignType.sign (f (bisectStep f ab).2) ∧
      (bisectStep f ab).2 - (bisectStep f ab).1 = (ab.2 - ab.1) / 2 := by
  unfold bisectStep
  split_ifs with hs
  · exact ⟨hs, by ring⟩
  · have e : SignType.sign (f ab.1) = SignType.sign (f (ab.1 + (ab.2 - ab.1) / 2)) := by
      simpa using hs
    exact ⟨by simpa only [← e] using h, by ring⟩

theorem bisect_iterate_width (f : ℝ → ℝ) (n : ℕ) (ab : ℝ × ℝ) :
    ((bisectStep f)^[n] ab).2 - ((bisectStep f)^[n] ab).1 = (ab.2 - ab.1) / 2 ^ n := by
  induction n generalizing ab with
  | zero => simp
  | succ n ih =>
    rw [Function.iterate_succ_apply, ih]
    have : (bisectStep f ab).2 - (bisectStep f ab).1 = (ab.2 - ab.1) / 2 := by
      unfold bisectStep
      split_ifs <;> (simp only; ring)
    rw [this, pow_succ]
    field_simp

theorem bisect_iterate_sign (f : ℝ → ℝ) (n : ℕ) (ab : ℝ × ℝ)
    (h : SignType.sign (f ab.1) ≠ SignType.sign (f ab.2)) :
    SignType.sign (f ((bisectStep f)^[n] ab).1) ≠ SignType.sign (f ((bisectStep f)^[n] ab).2) := by
  induction n generalizing ab with
  | zero => exact h
  | succ n ih => exact ih _ (c34_step f ab h).1

/-- C34: every visited interval brackets a change of sign, the width halving each time. -/
theorem c34_intervals (f : ℝ → ℝ) (a b : ℝ) (h : SignType.sign (f a) ≠ SignType.sign (f b))
    (n : ℕ) :
    SignType.sign (f ((bisectStep f)^[n] (a, b)).1) ≠
        SignType.sign (f ((bisectStep f)^[n] (a, b)).2) ∧
      ((bisectStep f)^[n] (a, b)).2 - ((bisectStep f)^[n] (a, b)).1 = (b - a) / 2 ^ n :=
  ⟨bisect_iterate_sign f n (a, b) h, bisect_iterate_width f n (a, b)⟩

theorem bisect_terminates (f : ℝ → ℝ) {tol : ℝ} (n : ℕ) (ab : ℝ × ℝ)
    (hn : (ab.2 - ab.1) / 2 ^ n ≤ tol) (m : Option ℝ) : ∃ r, BisectLoop f tol ab m r := by
  induction n generalizing ab m with
  | zero => exact ⟨m, .stop (by simpa using hn)⟩
  | succ n ih =>
    by_cases h : tol < ab.2 - ab.1
    · have hw := bisect_iterate_width f 1 ab
      simp only [Function.iterate_one, pow_one] at hw
      obtain ⟨r, hr⟩ := ih (bisectStep f ab) (by
        rw [hw]
        rw [pow_succ] at hn
        calc (ab.2 - ab.1) / 2 / 2 ^ n = (ab.2 - ab.1) / (2 ^ n * 2) := by field_simp
          _ ≤ tol := hn) (some _)
      exact ⟨r, .step h hr⟩
    · exact ⟨m, .stop h⟩

/-- C34: for every positive tolerance the loop ends. -/
theorem c34_terminates (f : ℝ → ℝ) {tol : ℝ} (ht : 0 < tol) (a b : ℝ)
    (h : SignType.sign (f a) ≠ SignType.sign (f b)) : ∃ r, Bisection f a b tol r := by
  obtain ⟨n, hn⟩ := exists_nat_gt ((b - a) / tol)
  have h2 : (n : ℝ) ≤ 2 ^ n := by exact_mod_cast (Nat.lt_two_pow_self (n := n)).le
  obtain ⟨r, hr⟩ := bisect_terminates f n (a, b) (tol := tol) (by
    rw [div_le_iff₀ (by positivity)]
    rw [div_lt_iff₀ ht] at hn
    nlinarith) none
  exact ⟨r, h, hr⟩

/-- C34: the result is unique. -/
theorem c34_deterministic {f : ℝ → ℝ} {tol : ℝ} {ab : ℝ × ℝ} {m r r' : Option ℝ}
    (h : BisectLoop f tol ab m r) (h' : BisectLoop f tol ab m r') : r = r' := by
  induction h with
  | stop h =>
    cases h' with
    | stop _ => rfl
    | step h2 _ => exact absurd h2 h
  | step h _ ih =>
    cases h' with
    | stop h2 => exact absurd h h2
    | step _ h2 => exact ih h2

theorem bisect_result {f : ℝ → ℝ} {tol : ℝ} {ab : ℝ × ℝ} {m r : Option ℝ}
    (h : BisectLoop f tol ab m r) (hab : ab.1 ≤ ab.2)
    (hs : SignType.sign (f ab.1) ≠ SignType.sign (f ab.2))
    (hm : ∀ x, m = some x → x = ab.1 ∨ x = ab.2) :
    ∃ u v, ab.1 ≤ u ∧ u ≤ v ∧ v ≤ ab.2 ∧ v - u ≤ tol ∧
      SignType.sign (f u) ≠ SignType.sign (f v) ∧ ∀ x, r = some x → x = u ∨ x = v := by
  induction h with
  | @stop ab m h => exact ⟨ab.1, ab.2, le_rfl, hab, le_rfl, not_lt.mp h, hs, hm⟩
  | @step ab m r h _ ih =>
    obtain ⟨u, v, h1, h2, h3, h4, h5, h6⟩ := ih (by
      have := (c34_step f ab hs).2
      linarith) (c34_step f ab hs).1 (by
      intro x hx
      have hx : ab.1 + (ab.2 - ab.1) / 2 = x := by simpa using hx
      unfold bisectStep
      split_ifs
      · exact Or.inr hx.symm
      · exact Or.inl hx.symm)
    have hin : ab.1 ≤ (bisectStep f ab).1 ∧ (bisectStep f ab).2 ≤ ab.2 := by
      unfold bisectStep
      split_ifs
      · exact ⟨le_rfl, by simp only; linarith⟩
      · exact ⟨by simp only; linarith, le_rfl⟩
    exact ⟨u, v, hin.1.trans h1, h2, h3.trans hin.2, h4, h5, h6⟩

/-- C34: the point returned is an end of an interval inside the first one, no wider than the
tolerance, across which the sign changes. -/
theorem c34_result {f : ℝ → ℝ} {tol a b x : ℝ} (hab : a ≤ b)
    (h : Bisection f a b tol (some x)) :
    ∃ u v, a ≤ u ∧ u ≤ v ∧ v ≤ b ∧ v - u ≤ tol ∧
      SignType.sign (f u) ≠ SignType.sign (f v) ∧ (x = u ∨ x = v) := by
  obtain ⟨u, v, h1, h2, h3, h4, h5, h6⟩ := bisect_result h.2 hab h.1 (by simp)
  exact ⟨u, v, h1, h2, h3, h4, h5, h6 x rfl⟩

theorem root_of_sign_change {f : ℝ → ℝ} {u v : ℝ} (huv : u ≤ v) (hf : ContinuousOn f (Set.Icc u v))
    (h : SignType.sign (f u) ≠ SignType.sign (f v)) : ∃ z, u ≤ z ∧ z ≤ v ∧ f z = 0 := by
  rcases lt_trichotomy (f u) 0 with hu | hu | hu
  · rcases lt_or_ge (f v) 0 with hv | hv
    · exact absurd (by rw [sign_neg hu, sign_neg hv]) h
    · obtain ⟨z, hz, e⟩ := intermediate_value_Icc huv hf ⟨hu.le, hv⟩
      exact ⟨z, hz.1, hz.2, e⟩
  · exact ⟨u, le_rfl, huv, hu⟩
  · rcases lt_or_ge 0 (f v) with hv | hv
    · exact absurd (by rw [sign_pos hu, sign_pos hv]) h
    · obtain ⟨z, hz, e⟩ := intermediate_value_Icc' huv hf ⟨hv, hu.le⟩
      exact ⟨z, hz.1, hz.2, e⟩

/-- C34: for a continuous function the point returned is within the tolerance of a root. -/
theorem c34_root {f : ℝ → ℝ} {tol a b x : ℝ} (hab : a ≤ b) (hf : ContinuousOn f (Set.Icc a b))
    (h : Bisection f a b tol (some x)) :
    ∃ z, a ≤ z ∧ z ≤ b ∧ f z = 0 ∧ |x - z| ≤ tol := by
  obtain ⟨u, v, h1, h2, h3, h4, h5, h6⟩ := c34_result hab h
  obtain ⟨z, hz1, hz2, hz⟩ := root_of_sign_change h2
    (hf.mono (Set.Icc_subset_Icc h1 h3)) h5
  refine ⟨z, h1.trans hz1, hz2.trans h3, hz, ?_⟩
  rcases h6 with rfl | rfl <;> rw [abs_le] <;> constructor <;> linarith

/-- C34: a bracket already no wider than the tolerance gives an error instead of a point; a wider
one gives a point. -/
theorem c34_error_iff {f : ℝ → ℝ} {tol a b : ℝ} {r : Option ℝ} (h : Bisection f a b tol r) :
    r = none ↔ b - a ≤ tol := by
  have key : ∀ {ab m r}, BisectLoop f tol ab m r → m ≠ none → r ≠ none := by
    intro ab m r h
    induction h with
    | stop _ => exact id
    | step _ _ ih => exact fun _ => ih (by simp)
  obtain ⟨_, h⟩ := h
  cases h with
  | stop h => simpa using h
  | step h h' =>
    have h : tol < b - a := h
    exact ⟨fun e => absurd e (key h' (by simp)), fun e => absurd h (not_lt.mpr e)⟩

/-- C34 used: the root of `x² - 2` between one and two. -/
example : ∃ x, Bisection (fun x => x ^ 2 - 2) 1 2 (1 / 1000) (some x) ∧
    ∃ z, 1 ≤ z ∧ z ≤ 2 ∧ z ^ 2 - 2 = 0 ∧ |x - z| ≤ 1 / 1000 := by
  obtain ⟨r, hr⟩ := c34_terminates (fun x : ℝ => x ^ 2 - 2) (tol := 1 / 1000) (by norm_num) 1 2
    (by rw [sign_neg (by norm_num), sign_pos (by norm_num)]; decide)
  cases r with
  | none => exact absurd ((c34_error_iff hr).mp rfl) (by norm_num)
  | some x => exact ⟨x, hr, c34_root (by norm_num) (by fun_prop) hr⟩

/-! ### C35 -/

/-- C35: when `newtons` returns, the last correction is within the tolerance, so the function value
it was computed from is at most the tolerance times the slope. -/
theorem c35_newtons_stops {f f' : ℝ → ℝ} {tol x r : ℝ} (h : Newtons f f' tol x r) :
    ∃ y, f' y ≠ 0 ∧ r = y - f y / f' y ∧ |r - y| ≤ tol ∧ |f y| ≤ tol * |f' y| := by
  induction h with
  | @stop x h0 h =>
    refine ⟨x, h0, rfl, h, ?_⟩
    have e : newtonIterate f f' x - x = -(f x / f' x) := by unfold newtonIterate; ring
    rwa [e, abs_neg, abs_div, div_le_iff₀ (abs_pos.mpr h0)] at h
  | step _ _ _ ih => exact ih

/-- C35: a root with nonzero slope is returned unchanged, and only it. -/
theorem c35_newtons_root {f f' : ℝ → ℝ} {tol x : ℝ} (ht : 0 ≤ tol) (hx : f x = 0)
    (h0 : f' x ≠ 0) (r : ℝ) : Newtons f f' tol x r ↔ r = x := by
  have e : newtonIterate f f' x = x := by simp [newtonIterate, hx]
  constructor
  · intro h
    cases h with
    | stop _ _ => exact e
    | step _ h _ => exact absurd (by simpa [e] using ht) h
  · rintro rfl
    have := Newtons.stop (f := f) (tol := tol) h0 (by simpa [e] using ht)
    rwa [e] at this

/-- C35: the result of `newtons` is unique. -/
theorem c35_newtons_deterministic {f f' : ℝ → ℝ} {tol x r r' : ℝ} (h : Newtons f f' tol x r)
    (h' : Newtons f f' tol x r') : r = r' := by
  induction h with
  | stop _ h =>
    cases h' with
    | stop _ _ => rfl
    | step _ h2 _ => exact absurd h h2
  | step _ h _ ih =>
    cases h' with
    | stop _ h2 => exact absurd h2 h
    | step _ _ h2 => exact ih h2

/-- C35: `newtons2` makes exactly one correction, whatever the tolerance, unless it starts within
the tolerance of its sentinel value 1000, when it makes none. -/
theorem c35_newtons2_partial {f f' : ℝ → ℝ} {tol x0 : ℝ} (ht : 0 ≤ tol) (h0 : f' x0 ≠ 0) (r : ℝ) :
    Newtons2 f f' tol x0 r ↔
      r = if tol < |x0 - 1000| then x0 - f x0 / f' x0 else x0 := by
  unfold Newtons2
  split_ifs with hc
  · constructor
    · intro h
      cases h with
      | stop h => exact absurd hc h
      | step _ _ h' =>
        cases h' with
        | stop _ => rfl
        | step h _ _ => simp at h; exact absurd ht (not_le.mpr h)
    · rintro rfl
      exact .step hc h0 (.stop (by simpa using ht))
  · constructor
    · intro h
      cases h with
      | stop _ => rfl
      | step h _ _ => exact absurd h hc
    · rintro rfl
      exact .stop hc

/-- C35 fails for `newtons2`: from the starting point 1000 no correction is made, although the
function is far from zero. -/
theorem c35_newtons2_sentinel : Newtons2 (fun x => x) (fun _ => 1) (1 / 10 ^ 14) 1000 1000 :=
  (c35_newtons2_partial (by norm_num) (by norm_num) _).mpr (by norm_num)

/-- C35 fails for `newtons2`: the correction it returns after may be arbitrarily large. -/
theorem c35_newtons2_not_converged :
    Newtons2 (fun x => x ^ 2 - 2) (fun x => 2 * x) (1 / 10 ^ 14) 1 (3 / 2) :=
  (c35_newtons2_partial (by norm_num) (by norm_num) _).mpr (by norm_num)

example : Newtons (fun x => 2 * x - 3) (fun _ => 2) 0 0 (3 / 2) := by
  have e : newtonIterate (fun x => 2 * x - 3) (fun _ => 2) 0 = 3 / 2 := by
    norm_num [newtonIterate]
  refine .step (by norm_num) (by rw [e]; norm_num) ?_
  rw [e]
  exact (c35_newtons_root le_rfl (by norm_num) (by norm_num) _).mpr rfl

/-! ### C36 -/

/-- C36: errors `C x^(-p)` have convergence order `p`. -/
theorem c36_convergence_order {C x1 x2 : ℝ} (p : ℝ) (hC : 0 < C) (h1 : 0 < x1) (h2 : 0 < x2)
    (hne : x1 ≠ x2) : convergence (C * x1 ^ (-p)) x1 (C * x2 ^ (-p)) x2 = p := by
  unfold convergence
  have e : C * x2 ^ (-p) / (C * x1 ^ (-p)) = (x2 / x1) ^ (-p) := by
    rw [Real.div_rpow h2.le h1.le]
    field_simp
  have hl : log (x2 / x1) ≠ 0 := by
    refine Real.log_ne_zero_of_pos_of_ne_one (div_pos h2 h1) ?_
    intro h
    exact hne ((div_eq_one_iff_eq h1.ne').mp h).symm
  rw [e, Real.log_rpow (div_pos h2 h1)]
  field_simp

/-- C36: the order does not change when both errors, or both sizes, are scaled. -/
theorem c36_scaling {e1 e2 x1 x2 a b : ℝ} (ha : a ≠ 0) (hb : b ≠ 0) :
    convergence (a * e1) (b * x1) (a * e2) (b * x2) = convergence e1 x1 e2 x2 := by
  unfold convergence
  rw [mul_div_mul_left _ _ ha, mul_div_mul_left _ _ hb]

example : convergence (3 * (2 : ℝ) ^ (-(4 : ℝ))) 2 (3 * (8 : ℝ) ^ (-(4 : ℝ))) 8 = 4 :=
  c36_convergence_order 4 (by norm_num) (by norm_num) (by norm_num) (by norm_num)

/-! ### C37 -/

/-- C37: one step fewer than times; the steps add up to the whole interval; they are positive when
the times increase. -/
theorem c37_time_steps {ts ds : List ℝ} (h : timeSteps ts = some ds) :
    ds.length + 1 = ts.length ∧ ds.sum = ts.getLastD 0 - ts.headD 0 ∧
      (ts.Pairwise (· < ·) → ∀ d ∈ ds, 0 < d) := by
  unfold timeSteps at h
  split_ifs at h with h0
  simp only [Option.some.injEq] at h
  subst h
  refine ⟨by simp; omega, ?_, ?_⟩
  · have tel : ∀ n, ((List.range n).map fun i => ts.getD (i + 1) 0 - ts.getD i 0).sum =
        ts.getD n 0 - ts.getD 0 0 := by
      intro n
      induction n with
      | zero => simp
      | succ n ih => rw [List.range_succ, List.map_append, List.sum_append, ih]; simp
    rw [tel]
    cases ts with
    | nil => simp at h0
    | cons a l =>
      congr 1
      rw [List.getLastD_eq_getLast?, List.getLast?_eq_getElem?]
      rfl
  · intro hp d hd
    simp only [List.mem_map, List.mem_range] at hd
    obtain ⟨i, hi, rfl⟩ := hd
    have h1 : i < ts.length := by omega
    have h2 : i + 1 < ts.length := by omega
    have := List.pairwise_iff_getElem.mp hp i (i + 1) h1 h2 (by omega)
    simp only [List.getD, List.getElem?_eq_getElem h1, List.getElem?_eq_getElem h2,
      Option.getD_some]
    linarith

/-- C37: the steps fail to exist only when there are no times. -/
theorem c37_defined (ts : List ℝ) : timeSteps ts = none ↔ ts = [] := by
  unfold timeSteps
  split_ifs with h
  · simpa using h
  · simpa using h

example : timeSteps [1, 4, 6] = some [3, 2] := by
  norm_num [timeSteps, List.range_succ]

end Verif.Props
