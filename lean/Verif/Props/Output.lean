import Verif.Model.Output
import Verif.Lemmas.Sources
import Mathlib.Tactic.IntervalCases

/-!
Properties C50, C51, C78, C79: evaluation of the solution at output points.
-/

namespace Verif.Props

open Polynomial Verif.Spec Verif.Model Verif.Lemmas

/-- The expansion with coefficients `U` on the cell `[a,b]`, in the basis of the geometry. -/
noncomputable def cellField (g : Geometry) (M : ℕ) (U : ℕ → ℝ) (a b x : ℝ) : ℝ :=
  match g with
  | .slab => slabField M U a b x
  | .sphere => sphereField M U a b x

/-- The orders for which the basis is implemented. -/
def OrderOk (g : Geometry) (M : ℕ) : Prop := g = .sphere → M ≤ 12

theorem normTn_eq_sphereBasis {j : ℕ} (hj : j ≤ 12) {a b : ℝ} (h : a < b) (x : ℝ) :
    (normTn j x a b).getD 0 = sphereBasis j x a b := by
  have hb : b - a ≠ 0 := by linarith
  have e : quadPoint a b (ref x a b) = x := by unfold quadPoint ref; field_simp; ring
  have := normTn_quadPoint hj h (ref x a b)
  rwa [e] at this

theorem outExpansion_eq (g : Geometry) (M : ℕ) (hM : OrderOk g M) (U : ℕ → ℝ) {a b : ℝ}
    (h : a < b) (x : ℝ) : outExpansion g M U x a b = some (cellField g M U a b x) := by
  cases g with
  | slab =>
    simp only [outExpansion, cellField, slabField]
    congr 1
    exact Finset.sum_congr rfl fun i _ => by rw [normPn_eq_slabBasis i x h]
  | sphere =>
    have hM := hM rfl
    simp only [outExpansion, cellField, sphereField, if_pos hM]
    congr 1
    refine Finset.sum_congr rfl fun i hi => ?_
    rw [normTn_eq_sphereBasis (by have := Finset.mem_range.1 hi; omega) h]

/-! ### The index search -/

theorem mem_iff_lt_card (S : Finset ℕ) (h : ∀ i ∈ S, ∀ j ≤ i, j ∈ S) (i : ℕ) :
    i ∈ S ↔ i < S.card := by
  constructor
  · intro hi
    have hs : Finset.range (i + 1) ⊆ S := fun j hj => h i hi j (by
      have := Finset.mem_range.1 hj; omega)
    have := Finset.card_le_card hs
    rw [Finset.card_range] at this
    omega
  · intro hi
    by_contra hn
    have hs : S ⊆ Finset.range i := fun j hj => by
      by_contra hc
      exact hn (h j hj i (by simpa using hc))
    have := Finset.card_le_card hs
    rw [Finset.card_range] at this
    omega

theorem edges_mono {N : ℕ} {edges : ℕ → ℝ} (he : ∀ i < N, edges i < edges (i + 1)) {i j : ℕ}
    (hij : i ≤ j) (hj : j ≤ N) : edges i ≤ edges j := by
  induction j, hij using Nat.le_induction with
  | base => exact le_rfl
  | succ j hij ih => exact (ih (by omega)).trans (he j (by omega)).le

theorem edges_strict {N : ℕ} {edges : ℕ → ℝ} (he : ∀ i < N, edges i < edges (i + 1)) {i j : ℕ}
    (hij : i < j) (hj : j ≤ N) : edges i < edges j :=
  lt_of_lt_of_le (he i (by omega)) (edges_mono he (by omega : i + 1 ≤ j) hj)

/-- The search returns the number of edges to the left of the point. -/
theorem lt_searchsorted {N : ℕ} {edges : ℕ → ℝ} (he : ∀ i < N, edges i < edges (i + 1)) {x : ℝ}
    {i : ℕ} (hi : i ≤ N) : i < searchsorted N edges x ↔ edges i < x := by
  unfold searchsorted
  rw [← mem_iff_lt_card]
  · simp [Nat.lt_succ_of_le hi]
  · intro i hi j hj
    rw [Finset.mem_filter, Finset.mem_range] at hi ⊢
    exact ⟨by omega, lt_of_le_of_lt (edges_mono he hj (by omega)) hi.2⟩

theorem outIndex_spec {N : ℕ} (hN : 1 ≤ N) {edges : ℕ → ℝ}
    (he : ∀ i < N, edges i < edges (i + 1)) {x : ℝ} (h0 : edges 0 ≤ x) (h1 : x ≤ edges N) :
    1 ≤ outIndex N edges x ∧ outIndex N edges x ≤ N ∧
      edges (outIndex N edges x - 1) ≤ x ∧ x ≤ edges (outIndex N edges x) ∧
      (edges 0 < x → edges (outIndex N edges x - 1) < x) := by
  have hk : ¬ N < searchsorted N edges x := by rw [lt_searchsorted he le_rfl]; exact not_lt.2 h1
  obtain ⟨k, hkd⟩ : ∃ k, k = searchsorted N edges x := ⟨_, rfl⟩
  unfold outIndex
  simp only
  rw [← hkd] at hk ⊢
  by_cases hz : k = 0
  · rw [if_pos hz]
    have hx : ¬ edges 0 < x := by
      rw [← lt_searchsorted he (Nat.zero_le _), ← hkd, hz]; omega
    have hx0 : x = edges 0 := le_antisymm (not_lt.1 hx) h0
    have h01 := he 0 (by omega)
    by_cases h2 : 1 ≥ N + 1
    · omega
    · rw [if_neg h2]
      exact ⟨le_rfl, hN, h0, by rw [hx0]; exact h01.le, fun h => absurd h hx⟩
  · rw [if_neg hz, if_neg (by omega)]
    have h2 : edges (k - 1) < x := (lt_searchsorted he (by omega)).1 (by rw [← hkd]; omega)
    have h3 : ¬ edges k < x := by rw [← lt_searchsorted he (by omega), ← hkd]; omega
    exact ⟨by omega, by omega, h2.le, not_lt.1 h3, fun _ => h2⟩

/-! ### C50 -/

/-- C50: at a point of the mesh the reported angular flux is the expansion of a cell whose closed
interval contains the point. -/
theorem c50_cell_contains_point (g : Geometry) (M : ℕ) (hM : OrderOk g M) {N : ℕ} (hN : 1 ≤ N)
    (edges : ℕ → ℝ) (he : ∀ i < N, edges i < edges (i + 1)) (U : ℕ → ℕ → ℝ) {x : ℝ}
    (h0 : edges 0 ≤ x) (h1 : x ≤ edges N) :
    ∃ k < N, edges k ≤ x ∧ x ≤ edges (k + 1) ∧
      psiOut g M N edges U x = some (cellField g M (U k) (edges k) (edges (k + 1)) x) := by
  obtain ⟨h2, h3, h4, h5, _⟩ := outIndex_spec hN he h0 h1
  obtain ⟨k, hk⟩ : ∃ k, outIndex N edges x = k + 1 := ⟨outIndex N edges x - 1, by omega⟩
  unfold psiOut
  simp only
  rw [hk] at h3 h4 h5 ⊢
  rw [Nat.add_sub_cancel] at h4 ⊢
  exact ⟨k, by omega, h4, h5, by rw [if_pos ⟨h0, h1⟩, outExpansion_eq g M hM _ (he k (by omega))]⟩

/-- C50: inside a cell it is the expansion of that cell; at an edge between two cells, of the cell
to the left. -/
theorem c50_cell_of_point (g : Geometry) (M : ℕ) (hM : OrderOk g M) {N : ℕ}
    (edges : ℕ → ℝ) (he : ∀ i < N, edges i < edges (i + 1)) (U : ℕ → ℕ → ℝ) {x : ℝ} {k : ℕ}
    (hk : k < N) (h0 : edges k < x) (h1 : x ≤ edges (k + 1)) :
    psiOut g M N edges U x = some (cellField g M (U k) (edges k) (edges (k + 1)) x) := by
  have ha : edges 0 < x := lt_of_le_of_lt (edges_mono he (Nat.zero_le k) (by omega)) h0
  have hb : x ≤ edges N := h1.trans (edges_mono he (by omega : k + 1 ≤ N) le_rfl)
  obtain ⟨h2, h3, _, h5, h6⟩ := outIndex_spec (by omega) he ha.le hb
  have h4 := h6 ha
  obtain ⟨m, hm⟩ : ∃ m, outIndex N edges x = m + 1 := ⟨outIndex N edges x - 1, by omega⟩
  rw [hm, Nat.add_sub_cancel] at h4
  rw [hm] at h3 h5
  have hmk : m = k := by
    rcases lt_trichotomy m k with h | h | h
    · have := edges_mono he (by omega : m + 1 ≤ k) (by omega); linarith
    · exact h
    · have := edges_mono he (by omega : k + 1 ≤ m) (by omega); linarith
  subst hmk
  unfold psiOut
  simp only
  rw [hm, Nat.add_sub_cancel, if_pos ⟨ha.le, hb⟩, outExpansion_eq g M hM _ (he m hk)]

/-- C50: outside the mesh the reported angular flux is zero and the scalar flux is the uncollided
part alone. -/
theorem c50_outside (g : Geometry) (M N Nang : ℕ) (ws edges : ℕ → ℝ) (u : ℕ → ℕ → ℕ → ℝ)
    (uncollided : Bool) (unc : ℝ → ℝ → ℝ) (t : ℝ) {x : ℝ} (hx : x < edges 0 ∨ edges N < x) :
    (∀ ang, psiOut g M N edges (u ang) x = some 0) ∧
      phiOut g M N Nang ws edges u uncollided unc t x =
        some (if uncollided then unc x t else 0) := by
  have h : ∀ ang, psiOut g M N edges (u ang) x = some 0 := by
    intro ang
    unfold psiOut
    simp only
    rw [if_neg]
    rintro ⟨h1, h2⟩
    rcases hx with h | h <;> linarith
  refine ⟨h, ?_⟩
  unfold phiOut
  simp only [h]
  simp

/-- Three cells with edges `0, 1, 3, 4`. -/
def exampleEdges (i : ℕ) : ℝ := if i ≤ 1 then i else i + 1

theorem exampleEdges_increasing : ∀ i < 3, exampleEdges i < exampleEdges (i + 1) := by
  intro i hi
  interval_cases i <;> norm_num [exampleEdges]

example := c50_cell_contains_point .sphere 2 (fun _ => by norm_num) (by norm_num) exampleEdges
  exampleEdges_increasing (fun k j => k + j) (x := 1) (by norm_num [exampleEdges])
  (by norm_num [exampleEdges])

example : psiOut .slab 2 3 exampleEdges (fun k j => k + j) 3 =
    some (slabField 2 (fun j => (1 : ℕ) + j) (exampleEdges 1) (exampleEdges 2) 3) :=
  c50_cell_of_point .slab 2 (fun h => by cases h) exampleEdges exampleEdges_increasing
    (fun k j => k + j) (k := 1) (by norm_num) (by norm_num [exampleEdges])
    (by norm_num [exampleEdges])

example := c50_outside .slab 2 3 2 (fun _ => 1) exampleEdges (fun a k j => a + k + j) true
  (fun x t => x * t) 1 (x := 5) (Or.inr (by norm_num [exampleEdges]))

/-! ### C51 -/

/-- C51: the scalar flux, whenever it is reported, is the sum over the directions of weight times
reported angular flux, plus the uncollided part. -/
theorem c51_scalar_flux_weighted_sum (g : Geometry) (M N Nang : ℕ) (ws edges : ℕ → ℝ)
    (u : ℕ → ℕ → ℕ → ℝ) (uncollided : Bool) (unc : ℝ → ℝ → ℝ) (t x : ℝ) {phi : ℝ} {psi : ℕ → ℝ}
    (hphi : phiOut g M N Nang ws edges u uncollided unc t x = some phi)
    (hpsi : ∀ ang < Nang, psiOut g M N edges (u ang) x = some (psi ang)) :
    phi - (if uncollided then unc x t else 0) = ∑ ang ∈ Finset.range Nang, ws ang * psi ang := by
  unfold phiOut at hphi
  rw [if_pos (fun ang ha => by rw [hpsi ang ha]; rfl), Option.some.injEq] at hphi
  rw [← hphi, add_sub_cancel_right]
  refine Finset.sum_congr rfl fun ang ha => ?_
  rw [hpsi ang (Finset.mem_range.1 ha), Option.getD_some, mul_comm]

/-- C51 with C50: inside a cell the reported scalar flux is the angular quadrature of the
expansions of that cell, plus the uncollided part. -/
theorem c51_scalar_flux_in_cell (g : Geometry) (M : ℕ) (hM : OrderOk g M) {N : ℕ} (Nang : ℕ)
    (ws edges : ℕ → ℝ) (he : ∀ i < N, edges i < edges (i + 1)) (u : ℕ → ℕ → ℕ → ℝ)
    (uncollided : Bool) (unc : ℝ → ℝ → ℝ) (t : ℝ) {x : ℝ} {k : ℕ} (hk : k < N)
    (h0 : edges k < x) (h1 : x ≤ edges (k + 1)) :
    phiOut g M N Nang ws edges u uncollided unc t x =
      some ((∑ ang ∈ Finset.range Nang,
        ws ang * cellField g M (u ang k) (edges k) (edges (k + 1)) x) +
        if uncollided then unc x t else 0) := by
  have h : ∀ ang, psiOut g M N edges (u ang) x =
      some (cellField g M (u ang k) (edges k) (edges (k + 1)) x) := fun ang =>
    c50_cell_of_point g M hM edges he (u ang) hk h0 h1
  unfold phiOut
  simp only [h, Option.isSome_some, implies_true, if_true, Option.getD_some]
  congr 2
  exact Finset.sum_congr rfl fun ang _ => mul_comm _ _

example := c51_scalar_flux_in_cell .slab 2 (fun h => by cases h) 2 (fun _ => 1) exampleEdges
  exampleEdges_increasing (fun a k j => a + k + j) true (fun x t => x * t) 1 (x := 2) (k := 1)
  (by norm_num) (by norm_num [exampleEdges]) (by norm_num [exampleEdges])

example := c51_scalar_flux_weighted_sum .slab 0 3 2 (fun _ => 1) exampleEdges
  (fun _ _ _ => 1) false (fun _ _ => 0) 1 5 (phi := 0) (psi := fun _ => 0)
  (c50_outside .slab 0 3 2 (fun _ => 1) exampleEdges (fun _ _ _ => 1) false (fun _ _ => 0) 1
    (Or.inr (by norm_num [exampleEdges]))).2
  (fun ang _ => (c50_outside .slab 0 3 2 (fun _ => 1) exampleEdges (fun _ _ _ => 1) false
    (fun _ _ => 0) 1 (Or.inr (by norm_num [exampleEdges]))).1 ang)

/-! ### C78 -/

/-- C78: the exit distribution holds, for every direction, the expansion of the first cell at the
left end of the mesh and that of the last cell at the right end. -/
theorem c78_exit_distribution (g : Geometry) (M : ℕ) (hM : OrderOk g M) {N : ℕ} (hN : 1 ≤ N)
    (edges : ℕ → ℝ) (he : ∀ i < N, edges i < edges (i + 1)) (U : ℕ → ℕ → ℝ) :
    exitDist g M N edges U 0 = some (cellField g M (U 0) (edges 0) (edges 1) (edges 0)) ∧
      exitDist g M N edges U 1 =
        some (cellField g M (U (N - 1)) (edges (N - 1)) (edges N) (edges N)) := by
  constructor
  · show psiOut g M N edges U (edges 0) = _
    obtain ⟨k, hk, h1, h2, h3⟩ := c50_cell_contains_point g M hM hN edges he U
      (le_refl (edges 0)) (edges_mono he (Nat.zero_le N) le_rfl)
    have hk0 : k = 0 := by
      by_contra hne
      have := edges_strict he (Nat.pos_of_ne_zero hne) hk.le
      linarith
    subst hk0
    exact h3
  · show psiOut g M N edges U (edges N) = _
    obtain ⟨m, rfl⟩ : ∃ m, N = m + 1 := ⟨N - 1, by omega⟩
    exact c50_cell_of_point g M hM edges he U (k := m) (by omega) (he m (by omega)) le_rfl

/-- C78 without the uncollided treatment: the exit scalar flux is the angular quadrature of the exit
distribution.

Missing from the full claim: the same plus the uncollided flux at the two ends when the uncollided
treatment is on, which is false, `c78_exit_flux_fails` and `c78_exit_flux_wrong_points`. -/
theorem c78_exit_flux_partial (g : Geometry) (M : ℕ) (hM : OrderOk g M) {N : ℕ} (hN : 1 ≤ N)
    (Nang : ℕ) (ws edges : ℕ → ℝ) (he : ∀ i < N, edges i < edges (i + 1)) (u : ℕ → ℕ → ℕ → ℝ)
    (unc : ℝ → ℝ → ℝ) (t : ℝ) (xs : List ℝ) :
    exitPhi g M N Nang ws edges u false unc t xs 0 = some (∑ ang ∈ Finset.range Nang,
        ws ang * cellField g M (u ang 0) (edges 0) (edges 1) (edges 0)) ∧
      exitPhi g M N Nang ws edges u false unc t xs 1 = some (∑ ang ∈ Finset.range Nang,
        ws ang * cellField g M (u ang (N - 1)) (edges (N - 1)) (edges N) (edges N)) := by
  have h := fun ang => c78_exit_distribution g M hM hN edges he (u ang)
  constructor <;>
  · unfold exitPhi
    simp only [(h _).1, (h _).2, Option.isSome_some, implies_true, if_true, Option.getD_some]
    simp [mul_comm]

/-- With the uncollided treatment the call fails for every state unless the number of output points
is one or two. -/
theorem c78_exit_flux_fails (g : Geometry) (M N Nang : ℕ) (ws edges : ℕ → ℝ)
    (u : ℕ → ℕ → ℕ → ℝ) (unc : ℝ → ℝ → ℝ) (t : ℝ) (xs : List ℝ) (h1 : xs.length ≠ 1)
    (h2 : xs.length ≠ 2) (count : Fin 2) :
    exitPhi g M N Nang ws edges u true unc t xs count = none := by
  unfold exitPhi
  by_cases h : ∀ ang < Nang, (exitDist g M N edges (u ang) count).isSome
  · rw [if_pos h]
    match xs with
    | [] => rfl
    | [x] => simp at h1
    | [x, y] => simp at h2
    | x :: y :: z :: l => rfl
  · rw [if_neg h]

/-- With two output points the call succeeds and adds the uncollided flux at the output points, not
at the ends of the mesh. -/
theorem c78_exit_flux_wrong_points :
    ∃ (edges : ℕ → ℝ) (u : ℕ → ℕ → ℕ → ℝ) (unc : ℝ → ℝ → ℝ) (xs : List ℝ),
      edges 0 < edges 1 ∧ (∀ x ∈ xs, edges 0 ≤ x ∧ x ≤ edges 1) ∧
      exitPhi .slab 0 1 2 (fun _ => 1) edges u true unc 0 xs 0 ≠
        some ((∑ ang ∈ Finset.range 2,
          1 * slabField 0 (u ang 0) (edges 0) (edges 1) (edges 0)) + unc (edges 0) 0) := by
  refine ⟨fun i => i, fun _ _ _ => 0, fun x _ => x, [1 / 2, 1], by norm_num, ?_, ?_⟩
  · intro x hx
    simp only [List.mem_cons, List.not_mem_nil, or_false] at hx
    rcases hx with h | h <;> rw [h] <;> norm_num
  · have h := fun ang : ℕ => (c78_exit_distribution .slab 0 (fun h => by cases h) (le_refl 1)
      (fun i => (i : ℝ)) (fun i hi => by norm_num) (fun _ _ => (0 : ℝ))).1
    unfold exitPhi
    simp only [h 0, Option.isSome_some, implies_true, if_true, Option.getD_some]
    norm_num [cellField, slabField]

example := c78_exit_distribution .sphere 3 (fun _ => by norm_num) (by norm_num) exampleEdges
  exampleEdges_increasing (fun k j => k + j)

example := c78_exit_flux_partial .slab 3 (fun h => by cases h) (by norm_num) 4 (fun _ => 1 / 2)
  exampleEdges exampleEdges_increasing (fun a k j => a + k + j) (fun _ _ => 0) 1 [0, 1, 2]

example := c78_exit_flux_fails .slab 3 3 4 (fun _ => 1 / 2) exampleEdges (fun a k j => a + k + j)
  (fun _ _ => 0) 1 [0, 1, 2] (by norm_num) (by norm_num) 0

/-! ### C79 -/

theorem legendre_eval_step (n : ℕ) (z p q : ℝ) (h0 : (legendre n).eval z = p)
    (h1 : (legendre (n + 1)).eval z = q) :
    (legendre (n + 2)).eval z = ((2 * n + 3) * z * q - (n + 1) * p) / (n + 2) := by
  have hb := congrArg (eval z) (bonnet n)
  simp only [eval_mul, eval_C, eval_sub, eval_X, h0, h1] at hb
  have h : ((n : ℝ) + 2) ≠ 0 := by positivity
  rw [eq_div_iff h]
  linarith

theorem derivative_eval_step (n : ℕ) (z p q : ℝ) (h0 : (derivative (legendre n)).eval z = p)
    (h1 : (legendre (n + 1)).eval z = q) :
    (derivative (legendre (n + 2))).eval z = p + (2 * n + 3) * q := by
  rw [deriv_two_step]
  simp [h0, h1]

/-- The table in `dx_normPn` holds the derivatives of the Legendre polynomials up to order 11. -/
theorem c79_derivative_table (n : ℕ) (hn : n ≤ 11) (z : ℝ) :
    dLegendreTable n z = (derivative (legendre n)).eval z := by
  have p0 : (legendre 0).eval z = 1 := by simp [legendre_zero]
  have p1 : (legendre 1).eval z = z := by simp [legendre_one]
  have p2 := legendre_eval_step 0 z _ _ p0 p1
  have p3 := legendre_eval_step 1 z _ _ p1 p2
  have p4 := legendre_eval_step 2 z _ _ p2 p3
  have p5 := legendre_eval_step 3 z _ _ p3 p4
  have p6 := legendre_eval_step 4 z _ _ p4 p5
  have p7 := legendre_eval_step 5 z _ _ p5 p6
  have p8 := legendre_eval_step 6 z _ _ p6 p7
  have p9 := legendre_eval_step 7 z _ _ p7 p8
  have p10 := legendre_eval_step 8 z _ _ p8 p9
  have d0 : (derivative (legendre 0)).eval z = 0 := by simp [legendre_zero]
  have d1 : (derivative (legendre 1)).eval z = 1 := by simp [legendre_one]
  have d2 := derivative_eval_step 0 z _ _ d0 p1
  have d3 := derivative_eval_step 1 z _ _ d1 p2
  have d4 := derivative_eval_step 2 z _ _ d2 p3
  have d5 := derivative_eval_step 3 z _ _ d3 p4
  have d6 := derivative_eval_step 4 z _ _ d4 p5
  have d7 := derivative_eval_step 5 z _ _ d5 p6
  have d8 := derivative_eval_step 6 z _ _ d6 p7
  have d9 := derivative_eval_step 7 z _ _ d7 p8
  have d10 := derivative_eval_step 8 z _ _ d8 p9
  have d11 := derivative_eval_step 9 z _ _ d9 p10
  interval_cases n
  · exact d0.symm
  · exact d1.symm
  · rw [d2]; simp only [dLegendreTable]; push_cast; ring
  · rw [d3]; simp only [dLegendreTable]; push_cast; ring
  · rw [d4]; simp only [dLegendreTable]; push_cast; ring
  · rw [d5]; simp only [dLegendreTable]; push_cast; ring
  · rw [d6]; simp only [dLegendreTable]; push_cast; ring
  · rw [d7]; simp only [dLegendreTable]; push_cast; ring
  · rw [d8]; simp only [dLegendreTable]; push_cast; ring
  · rw [d9]; simp only [dLegendreTable]; push_cast; ring
  · rw [d10]; simp only [dLegendreTable]; push_cast; ring
  · rw [d11]; simp only [dLegendreTable]; push_cast; ring

example := c79_derivative_table 11 le_rfl (1 / 3)

/-- C79, slab, orders up to 11: the number reported as the derivative of the energy is the
derivative of the expansion of the cell times half the width of the cell.

The full claim, without the factor, is false unless the width is 2: `c79_missing_factor`. -/
theorem c79_energy_derivative_partial (M : ℕ) (hM : M ≤ 11) {N : ℕ} (edges : ℕ → ℝ)
    (he : ∀ i < N, edges i < edges (i + 1)) (U : ℕ → ℕ → ℝ) {x : ℝ} {k : ℕ} (hk : k < N)
    (h0 : edges k < x) (h1 : x ≤ edges (k + 1)) :
    dxeOut M N edges U x = (edges (k + 1) - edges k) / 2 *
      deriv (slabField M (U k) (edges k) (edges (k + 1))) x := by
  have hab := he k hk
  have ha : edges 0 < x := lt_of_le_of_lt (edges_mono he (Nat.zero_le k) (by omega)) h0
  have hb : x ≤ edges N := h1.trans (edges_mono he (by omega : k + 1 ≤ N) le_rfl)
  obtain ⟨h2, h3, _, h5, h6⟩ := outIndex_spec (by omega) he ha.le hb
  have h4 := h6 ha
  obtain ⟨m, hm⟩ : ∃ m, outIndex N edges x = m + 1 := ⟨outIndex N edges x - 1, by omega⟩
  rw [hm, Nat.add_sub_cancel] at h4
  rw [hm] at h3 h5
  have hmk : m = k := by
    rcases lt_trichotomy m k with h | h | h
    · have := edges_mono he (by omega : m + 1 ≤ k) (by omega); linarith
    · exact h
    · have := edges_mono he (by omega : k + 1 ≤ m) (by omega); linarith
  subst hmk
  unfold dxeOut
  simp only
  rw [hm, Nat.add_sub_cancel, if_pos ⟨ha.le, hb⟩, if_pos hM]
  generalize edges m = a at *
  generalize edges (m + 1) = b at *
  have hne : b - a ≠ 0 := by linarith
  have hd : HasDerivAt (slabField M (U m) a b) (∑ j ∈ Finset.range (M + 1), U m j *
      ((derivative (legendre j)).eval (zSlab x a b) * (2 / (b - a)) *
        Real.sqrt ((2 * (j : ℝ) + 1) / (b - a)))) x := by
    have e : slabField M (U m) a b =
        fun y => ∑ j ∈ Finset.range (M + 1), U m j * normPn j y a b := by
      funext y
      unfold slabField
      exact Finset.sum_congr rfl fun j _ => by rw [normPn_eq_slabBasis j y hab]
    rw [e]
    exact HasDerivAt.fun_sum fun j _ => (hasDerivAt_normPn hab j x).const_mul _
  rw [hd.deriv, Finset.mul_sum]
  refine Finset.sum_congr rfl fun j hj => ?_
  unfold dxNormPn
  rw [c79_derivative_table j (by have := Finset.mem_range.1 hj; omega)]
  field_simp

/-- C79 is false: on a cell of width 1 the reported derivative of a linear energy is half of the
derivative. -/
theorem c79_missing_factor :
    ∃ (M N k : ℕ) (edges : ℕ → ℝ) (U : ℕ → ℕ → ℝ) (x : ℝ), M ≤ 11 ∧ k < N ∧
      (∀ i < N, edges i < edges (i + 1)) ∧ edges k < x ∧ x < edges (k + 1) ∧
      dxeOut M N edges U x ≠ deriv (slabField M (U k) (edges k) (edges (k + 1))) x := by
  refine ⟨1, 1, 0, fun i => i, fun _ j => j, 1 / 2, by norm_num, by norm_num,
    fun i hi => by norm_num, by norm_num, by norm_num, ?_⟩
  have h := c79_energy_derivative_partial 1 (by norm_num) (N := 1) (fun i => (i : ℝ))
    (fun i hi => by norm_num) (fun _ j => (j : ℝ)) (x := 1 / 2) (k := 0) (by norm_num)
    (by norm_num) (by norm_num)
  have hz : outIndex 1 (fun i => (i : ℝ)) (1 / 2) = 1 := by
    have := outIndex_spec (le_refl 1) (edges := fun i => (i : ℝ)) (fun i hi => by norm_num)
      (x := 1 / 2) (by norm_num) (by norm_num)
    omega
  have hv : dxeOut 1 1 (fun i => (i : ℝ)) (fun _ j => (j : ℝ)) (1 / 2) = √3 := by
    unfold dxeOut
    simp only [hz]
    norm_num [Finset.sum_range_succ, dxNormPn, dLegendreTable]
  intro hc
  rw [← hc, hv] at h
  have h3 : (0 : ℝ) < √3 := by positivity
  norm_num at h

example := c79_energy_derivative_partial 2 (by norm_num) exampleEdges exampleEdges_increasing
  (fun k j => k + j) (x := 2) (k := 1) (by norm_num) (by norm_num [exampleEdges])
  (by norm_num [exampleEdges])

end Verif.Props
