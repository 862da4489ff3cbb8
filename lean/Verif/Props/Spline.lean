import Verif.Props.GaussElim
import Mathlib.Analysis.Calculus.Deriv.Polynomial
import Mathlib.Analysis.Calculus.Deriv.Pow
import Mathlib.Tactic.Positivity
import Mathlib.Tactic.IntervalCases

/-!
Property C53: the cubic spline.
-/

namespace Verif.Props

open Verif.Model

/-! ### Specification -/

/-- The cubic of interval `k`, as a function. -/
noncomputable def piece (z : ℕ → ℝ) (k : ℕ) (p : ℝ) : ℝ :=
  z (4 * k) + z (4 * k + 1) * p + z (4 * k + 2) * p ^ 2 + z (4 * k + 3) * p ^ 3

/-- The coefficients `z` describe the natural cubic spline through the points `(x k, y k)`,
`k = 0 … n`. -/
structure IsNaturalSpline (n : ℕ) (x y z : ℕ → ℝ) : Prop where
  left : ∀ k < n, piece z k (x k) = y k
  right : ∀ k < n, piece z k (x (k + 1)) = y (k + 1)
  first : ∀ k, k + 1 < n → deriv (piece z k) (x (k + 1)) = deriv (piece z (k + 1)) (x (k + 1))
  second : ∀ k, k + 1 < n →
    deriv (deriv (piece z k)) (x (k + 1)) = deriv (deriv (piece z (k + 1))) (x (k + 1))
  natural_left : deriv (deriv (piece z 0)) (x 0) = 0
  natural_right : deriv (deriv (piece z (n - 1))) (x n) = 0

/-- First derivative of a piece. -/
theorem deriv_piece (z : ℕ → ℝ) (k : ℕ) :
    deriv (piece z k) = fun p => z (4 * k + 1) + 2 * z (4 * k + 2) * p + 3 * z (4 * k + 3) * p ^ 2 := by
  funext p
  have h : HasDerivAt (piece z k) (0 + z (4 * k + 1) * 1 + z (4 * k + 2) * ((2 : ℕ) * p ^ (2 - 1)) +
      z (4 * k + 3) * ((3 : ℕ) * p ^ (3 - 1))) p := by
    unfold piece
    exact (((hasDerivAt_const p _).add ((hasDerivAt_id p).const_mul _)).add
      ((hasDerivAt_pow 2 p).const_mul _)).add ((hasDerivAt_pow 3 p).const_mul _)
  rw [h.deriv]
  norm_num
  ring

/-- Second derivative of a piece. -/
theorem deriv2_piece (z : ℕ → ℝ) (k : ℕ) :
    deriv (deriv (piece z k)) = fun p => 2 * z (4 * k + 2) + 6 * z (4 * k + 3) * p := by
  rw [deriv_piece]
  funext p
  have h : HasDerivAt (fun p => z (4 * k + 1) + 2 * z (4 * k + 2) * p + 3 * z (4 * k + 3) * p ^ 2)
      (0 + 2 * z (4 * k + 2) * 1 + 3 * z (4 * k + 3) * ((2 : ℕ) * p ^ (2 - 1))) p :=
    ((hasDerivAt_const p _).add ((hasDerivAt_id p).const_mul _)).add
      ((hasDerivAt_pow 2 p).const_mul _)
  rw [h.deriv]
  norm_num
  ring

/-! ### The assembled rows -/

/-- A row with four entries starting at `left`. -/
def row4 (left : ℕ) (v0 v1 v2 v3 : ℝ) (c : ℕ) : ℝ :=
  (if c = left then v0 else 0) + (if c = left + 1 then v1 else 0) +
    (if c = left + 2 then v2 else 0) + (if c = left + 3 then v3 else 0)

theorem write4_ne (A : Mat) {row r : ℕ} (h : r ≠ row) (left : ℕ) (v0 v1 v2 v3 : ℝ) :
    write4 A row left v0 v1 v2 v3 r = A r := by
  funext c; unfold write4; rw [if_neg h]

theorem write4_add (A : Mat) (row left : ℕ) (v0 v1 v2 v3 : ℝ)
    (h : ∀ c, left ≤ c → c < left + 4 → A row c = 0) :
    write4 A row left v0 v1 v2 v3 row = fun c => A row c + row4 left v0 v1 v2 v3 c := by
  funext c
  unfold write4 row4
  rw [if_pos rfl]
  by_cases h0 : c = left
  · subst h0; rw [h c le_rfl (by omega)]; simp
  by_cases h1 : c = left + 1
  · subst h1; rw [h _ (by omega) (by omega)]; simp
  by_cases h2 : c = left + 2
  · subst h2; rw [h _ (by omega) (by omega)]; simp
  by_cases h3 : c = left + 3
  · subst h3; rw [h _ (by omega) (by omega)]; simp
  simp [h0, h1, h2, h3]

theorem row4_outside {left c : ℕ} (h : c < left ∨ left + 4 ≤ c) (v0 v1 v2 v3 : ℝ) :
    row4 left v0 v1 v2 v3 c = 0 := by
  unfold row4
  rw [if_neg (by omega), if_neg (by omega), if_neg (by omega), if_neg (by omega)]
  ring

theorem sum_row4 {K left : ℕ} (h : left + 4 ≤ K) (v0 v1 v2 v3 : ℝ) (z : ℕ → ℝ) :
    ∑ c ∈ Finset.range K, row4 left v0 v1 v2 v3 c * z c =
      v0 * z left + v1 * z (left + 1) + v2 * z (left + 2) + v3 * z (left + 3) := by
  unfold row4
  simp only [add_mul, Finset.sum_add_distrib, ite_mul, zero_mul]
  simp only [Finset.sum_ite_eq', Finset.mem_range]
  rw [if_pos (by omega), if_pos (by omega), if_pos (by omega), if_pos (by omega)]

/-- Row of an interpolation condition. -/
noncomputable def pointRow (x : ℕ → ℝ) (r : ℕ) : ℕ → ℝ :=
  row4 (4 * (r / 2)) 1 (x ((r + 1) / 2)) (x ((r + 1) / 2) ^ 2) (x ((r + 1) / 2) ^ 3)

/-- Row of a first derivative condition. -/
noncomputable def firstRow (x : ℕ → ℝ) (i c : ℕ) : ℝ :=
  row4 (4 * i) 0 1 (2 * x (i + 1)) (3 * x (i + 1) ^ 2) c +
    row4 (4 * i + 4) 0 (-1) (-2 * x (i + 1)) (-3 * x (i + 1) ^ 2) c

/-- Row of a second derivative condition. -/
noncomputable def secondRow (x : ℕ → ℝ) (i c : ℕ) : ℝ :=
  row4 (4 * i) 0 0 2 (6 * x (i + 1)) c + row4 (4 * i + 4) 0 0 (-2) (-6 * x (i + 1)) c

/-- State of the loop in `points` after rows `0 … m`. -/
theorem points_loop (x y : ℕ → ℝ) (m : ℕ) :
    let s := (List.range' 1 m).foldl (fun st ix => pointsStep x y ix st)
      ⟨⟨write4 (fun _ _ => 0) 0 0 1 (x 0) (x 0 ^ 2) (x 0 ^ 3),
        Function.update (fun _ => 0) 0 (y 0)⟩, 1, 0, 1, 0⟩
    s.count1 = (m + 2) / 2 ∧ s.count2 = m % 2 ∧ s.count3 = (m + 1) % 2 ∧
      s.left = 4 * ((m + 1) / 2) ∧
      (∀ r ≤ m, s.sys.A r = pointRow x r ∧ s.sys.rhs r = y ((r + 1) / 2)) ∧
      (∀ r, m < r → (s.sys.A r = fun _ => 0) ∧ s.sys.rhs r = 0) := by
  induction m with
  | zero =>
    refine ⟨rfl, rfl, rfl, rfl, ?_, ?_⟩
    · intro r hr
      have : r = 0 := by omega
      subst this
      refine ⟨?_, by simp⟩
      show write4 (fun _ _ => 0) 0 0 1 (x 0) (x 0 ^ 2) (x 0 ^ 3) 0 = _
      rw [write4_add _ _ _ _ _ _ _ (fun _ _ _ => rfl)]
      funext c
      rw [zero_add]
      rfl
    · intro r hr
      refine ⟨?_, ?_⟩
      · show write4 (fun _ _ => 0) 0 0 1 (x 0) (x 0 ^ 2) (x 0 ^ 3) r = _
        rw [write4_ne _ (by omega)]
      · show Function.update (fun _ : ℕ => (0 : ℝ)) 0 (y 0) r = 0
        rw [Function.update_of_ne (by omega)]
  | succ m ih =>
    obtain ⟨h1, h2, h3, h4, h5, h6⟩ := ih
    rw [List.range'_concat, List.foldl_append]
    simp only [List.foldl_cons, List.foldl_nil, one_mul]
    generalize (List.range' 1 m).foldl (fun st ix => pointsStep x y ix st)
      ⟨⟨write4 (fun _ _ => 0) 0 0 1 (x 0) (x 0 ^ 2) (x 0 ^ 3),
        Function.update (fun _ => 0) 0 (y 0)⟩, 1, 0, 1, 0⟩ = s at *
    have hc1 : s.count1 = (1 + m + 1) / 2 := by omega
    have hl : s.left = 4 * ((1 + m) / 2) := by omega
    refine ⟨?_, ?_, ?_, ?_, ?_, ?_⟩
    · simp only [pointsStep]; split_ifs <;> omega
    · simp only [pointsStep]; split_ifs <;> omega
    · simp only [pointsStep]; split_ifs <;> omega
    · simp only [pointsStep]; split_ifs <;> omega
    · intro r hr
      simp only [pointsStep]
      by_cases hrm : r = 1 + m
      · subst hrm
        refine ⟨?_, by rw [Function.update_self, hc1]⟩
        rw [write4_add _ _ _ _ _ _ _ (fun c _ _ => by rw [(h6 _ (by omega)).1]),
          (h6 _ (by omega)).1, hl, hc1]
        funext c
        rw [zero_add]
        rfl
      · rw [write4_ne _ hrm, Function.update_of_ne hrm]
        exact h5 r (by omega)
    · intro r hr
      simp only [pointsStep]
      rw [write4_ne _ (by omega), Function.update_of_ne (by omega)]
      exact h6 r (by omega)

/-- State of the loop in `first_deriv` after `m` passes. -/
theorem first_loop (x : ℕ → ℝ) (s : SplineSystem) (n m : ℕ)
    (h0 : ∀ r, 2 * n ≤ r → (s.A r = fun _ => 0) ∧ s.rhs r = 0) :
    let t := (List.range' 1 m).foldl (fun st ix => firstDerivStep x ix st) (s, 2 * n, 0)
    t.2.1 = 2 * n + m ∧ t.2.2 = 4 * m ∧
      (∀ r < 2 * n, t.1.A r = s.A r ∧ t.1.rhs r = s.rhs r) ∧
      (∀ i < m, t.1.A (2 * n + i) = firstRow x i ∧ t.1.rhs (2 * n + i) = 0) ∧
      (∀ r, 2 * n + m ≤ r → (t.1.A r = fun _ => 0) ∧ t.1.rhs r = 0) := by
  induction m with
  | zero => exact ⟨rfl, rfl, fun _ _ => ⟨rfl, rfl⟩, fun i hi => by omega, h0⟩
  | succ m ih =>
    obtain ⟨h1, h2, h3, h4, h5⟩ := ih
    rw [List.range'_concat, List.foldl_append]
    simp only [List.foldl_cons, List.foldl_nil, one_mul]
    generalize (List.range' 1 m).foldl (fun st ix => firstDerivStep x ix st) (s, 2 * n, 0) = t at *
    refine ⟨by simp only [firstDerivStep]; omega, by simp only [firstDerivStep]; omega,
      ?_, ?_, ?_⟩
    · intro r hr
      simp only [firstDerivStep]
      rw [write4_ne _ (by omega), write4_ne _ (by omega), Function.update_of_ne (by omega)]
      exact h3 r hr
    · intro i hi
      simp only [firstDerivStep]
      by_cases him : i = m
      · subst him
        rw [← h1, Function.update_self]
        refine ⟨?_, rfl⟩
        have hz := (h5 t.2.1 (by omega)).1
        have e1 := write4_add t.1.A t.2.1 t.2.2 0 1 (2 * x (1 + i)) (3 * x (1 + i) ^ 2)
          (fun c _ _ => by rw [hz])
        rw [write4_add _ _ _ _ _ _ _ (fun c hc hc' => by
          rw [e1, hz]
          simp only
          rw [row4_outside (by omega), zero_add]), e1, hz, h2]
        funext c
        simp only [zero_add, firstRow, add_comm 1 i]
      · rw [write4_ne _ (by omega), write4_ne _ (by omega), Function.update_of_ne (by omega)]
        exact h4 i (by omega)
    · intro r hr
      simp only [firstDerivStep]
      rw [write4_ne _ (by omega), write4_ne _ (by omega), Function.update_of_ne (by omega)]
      exact h5 r (by omega)

/-- State of the loop in `second_deriv` after `m` passes. -/
theorem second_loop (x : ℕ → ℝ) (s : SplineSystem) (b m : ℕ)
    (h0 : ∀ r, b ≤ r → (s.A r = fun _ => 0) ∧ s.rhs r = 0) :
    let t := (List.range' 1 m).foldl (fun st ix => secondDerivStep x ix st) (s, b, 0)
    t.2.1 = b + m ∧ t.2.2 = 4 * m ∧
      (∀ r < b, t.1.A r = s.A r ∧ t.1.rhs r = s.rhs r) ∧
      (∀ i < m, t.1.A (b + i) = secondRow x i ∧ t.1.rhs (b + i) = 0) ∧
      (∀ r, b + m ≤ r → (t.1.A r = fun _ => 0) ∧ t.1.rhs r = 0) := by
  induction m with
  | zero => exact ⟨rfl, rfl, fun _ _ => ⟨rfl, rfl⟩, fun i hi => by omega, h0⟩
  | succ m ih =>
    obtain ⟨h1, h2, h3, h4, h5⟩ := ih
    rw [List.range'_concat, List.foldl_append]
    simp only [List.foldl_cons, List.foldl_nil, one_mul]
    generalize (List.range' 1 m).foldl (fun st ix => secondDerivStep x ix st) (s, b, 0) = t at *
    refine ⟨by simp only [secondDerivStep]; omega, by simp only [secondDerivStep]; omega,
      ?_, ?_, ?_⟩
    · intro r hr
      simp only [secondDerivStep]
      rw [write4_ne _ (by omega), write4_ne _ (by omega), Function.update_of_ne (by omega)]
      exact h3 r hr
    · intro i hi
      simp only [secondDerivStep]
      by_cases him : i = m
      · subst him
        rw [← h1, Function.update_self]
        refine ⟨?_, rfl⟩
        have hz := (h5 t.2.1 (by omega)).1
        have e1 := write4_add t.1.A t.2.1 t.2.2 0 0 2 (6 * x (1 + i))
          (fun c _ _ => by rw [hz])
        rw [write4_add _ _ _ _ _ _ _ (fun c hc hc' => by
          rw [e1, hz]
          simp only
          rw [row4_outside (by omega), zero_add]), e1, hz, h2]
        funext c
        simp only [zero_add, secondRow, add_comm 1 i]
      · rw [write4_ne _ (by omega), write4_ne _ (by omega), Function.update_of_ne (by omega)]
        exact h4 i (by omega)
    · intro r hr
      simp only [secondDerivStep]
      rw [write4_ne _ (by omega), write4_ne _ (by omega), Function.update_of_ne (by omega)]
      exact h5 r (by omega)

/-- All rows of the assembled system. -/
theorem splineSystem_rows (n : ℕ) (hn : 1 ≤ n) (x y : ℕ → ℝ) :
    (∀ r < 2 * n, (splineSystem n x y).A r = pointRow x r ∧
      (splineSystem n x y).rhs r = y ((r + 1) / 2)) ∧
    (∀ i, i + 1 < n → (splineSystem n x y).A (2 * n + i) = firstRow x i ∧
      (splineSystem n x y).rhs (2 * n + i) = 0) ∧
    (∀ i, i + 1 < n → (splineSystem n x y).A (3 * n - 1 + i) = secondRow x i ∧
      (splineSystem n x y).rhs (3 * n - 1 + i) = 0) ∧
    ((splineSystem n x y).A (4 * n - 2) = row4 0 0 0 2 (6 * x 0) ∧
      (splineSystem n x y).rhs (4 * n - 2) = 0) ∧
    ((splineSystem n x y).A (4 * n - 1) = row4 (4 * n - 4) 0 0 2 (6 * x n) ∧
      (splineSystem n x y).rhs (4 * n - 1) = 0) := by
  obtain ⟨-, -, -, -, hp1, hp2⟩ := points_loop x y (2 * n - 1)
  obtain ⟨P, hP⟩ : ∃ P, P = splinePoints n x y ⟨fun _ _ => 0, fun _ => 0⟩ := ⟨_, rfl⟩
  have hp1 : ∀ r < 2 * n, P.A r = pointRow x r ∧ P.rhs r = y ((r + 1) / 2) := fun r hr => by
    rw [hP]; exact hp1 r (by omega)
  have hp2 : ∀ r, 2 * n ≤ r → (P.A r = fun _ => 0) ∧ P.rhs r = 0 := fun r hr => by
    rw [hP]; exact hp2 r (by omega)
  obtain ⟨-, -, hf1, hf2, hf3⟩ := first_loop x P n (n - 1) hp2
  obtain ⟨F, hF⟩ : ∃ F, F = splineFirst n x P := ⟨_, rfl⟩
  have hf1 : ∀ r < 2 * n, F.A r = P.A r ∧ F.rhs r = P.rhs r := fun r hr => by
    rw [hF]; exact hf1 r hr
  have hf2 : ∀ i < n - 1, F.A (2 * n + i) = firstRow x i ∧ F.rhs (2 * n + i) = 0 := fun i hi => by
    rw [hF]; exact hf2 i hi
  have hf3 : ∀ r, 3 * n - 1 ≤ r → (F.A r = fun _ => 0) ∧ F.rhs r = 0 := fun r hr => by
    rw [hF]; exact hf3 r (by omega)
  obtain ⟨-, -, hs1, hs2, hs3⟩ := second_loop x F (3 * n - 1) (n - 1) hf3
  have hS : splineSystem n x y = splineSecond n x F := by rw [hF, hP]; rfl
  rw [hS]
  unfold splineSecond
  simp only
  generalize ((List.range' 1 (n - 1)).foldl (fun st ix => secondDerivStep x ix st)
    (F, 3 * n - 1, 0)).1 = T at *
  refine ⟨?_, ?_, ?_, ?_, ?_⟩
  · intro r hr
    rw [write4_ne _ (by omega), write4_ne _ (by omega), Function.update_of_ne (by omega),
      Function.update_of_ne (by omega), (hs1 r (by omega)).1, (hs1 r (by omega)).2,
      (hf1 r hr).1, (hf1 r hr).2]
    exact hp1 r hr
  · intro i hi
    rw [write4_ne _ (by omega), write4_ne _ (by omega), Function.update_of_ne (by omega),
      Function.update_of_ne (by omega), (hs1 _ (by omega)).1, (hs1 _ (by omega)).2]
    exact hf2 i (by omega)
  · intro i hi
    rw [write4_ne _ (by omega), write4_ne _ (by omega), Function.update_of_ne (by omega),
      Function.update_of_ne (by omega)]
    exact hs2 i (by omega)
  · rw [write4_ne _ (by omega), Function.update_of_ne (by omega), Function.update_self]
    refine ⟨?_, rfl⟩
    have hz := (hs3 (4 * n - 2) (by omega)).1
    rw [write4_add _ _ _ _ _ _ _ (fun c _ _ => by rw [hz]), hz]
    funext c
    rw [zero_add]
  · rw [Function.update_self]
    refine ⟨?_, rfl⟩
    have hz := (hs3 (4 * n - 1) (by omega)).1
    have hz2 : write4 T.A (4 * n - 2) 0 0 0 2 (6 * x 0) (4 * n - 1) = fun _ => 0 := by
      rw [write4_ne _ (by omega), hz]
    rw [write4_add _ _ _ _ _ _ _ (fun c _ _ => by rw [hz2]), hz2, mul_comm n 4]
    funext c
    rw [zero_add]

/-- The equations of the assembled system, written out. -/
theorem splineSystem_equations (n : ℕ) (hn : 1 ≤ n) (x y z : ℕ → ℝ) :
    (∀ r < 4 * n, ∑ c ∈ Finset.range (4 * n), (splineSystem n x y).A r c * z c =
      (splineSystem n x y).rhs r) ↔ IsNaturalSpline n x y z := by
  obtain ⟨h1, h2, h3, h4, h5⟩ := splineSystem_rows n hn x y
  have e1 : ∀ k < n, ∑ c ∈ Finset.range (4 * n), (splineSystem n x y).A (2 * k) c * z c =
      piece z k (x k) := by
    intro k hk
    rw [(h1 (2 * k) (by omega)).1, pointRow, sum_row4 (by omega), piece,
      show (2 * k + 1) / 2 = k by omega, show 2 * k / 2 = k by omega]
    ring
  have e2 : ∀ k < n, ∑ c ∈ Finset.range (4 * n), (splineSystem n x y).A (2 * k + 1) c * z c =
      piece z k (x (k + 1)) := by
    intro k hk
    rw [(h1 (2 * k + 1) (by omega)).1, pointRow, sum_row4 (by omega), piece,
      show (2 * k + 1 + 1) / 2 = k + 1 by omega, show (2 * k + 1) / 2 = k by omega]
    ring
  have r1 : ∀ k < n, (splineSystem n x y).rhs (2 * k) = y k := by
    intro k hk
    rw [(h1 (2 * k) (by omega)).2, show (2 * k + 1) / 2 = k by omega]
  have r2 : ∀ k < n, (splineSystem n x y).rhs (2 * k + 1) = y (k + 1) := by
    intro k hk
    rw [(h1 (2 * k + 1) (by omega)).2, show (2 * k + 1 + 1) / 2 = k + 1 by omega]
  have e3 : ∀ i, i + 1 < n → ∑ c ∈ Finset.range (4 * n),
      (splineSystem n x y).A (2 * n + i) c * z c =
      deriv (piece z i) (x (i + 1)) - deriv (piece z (i + 1)) (x (i + 1)) := by
    intro i hi
    rw [(h2 i hi).1, deriv_piece, deriv_piece]
    unfold firstRow
    simp only [add_mul, Finset.sum_add_distrib]
    rw [sum_row4 (by omega), sum_row4 (by omega), show 4 * (i + 1) = 4 * i + 4 by ring]
    ring
  have e4 : ∀ i, i + 1 < n → ∑ c ∈ Finset.range (4 * n),
      (splineSystem n x y).A (3 * n - 1 + i) c * z c =
      deriv (deriv (piece z i)) (x (i + 1)) - deriv (deriv (piece z (i + 1))) (x (i + 1)) := by
    intro i hi
    rw [(h3 i hi).1, deriv2_piece, deriv2_piece]
    unfold secondRow
    simp only [add_mul, Finset.sum_add_distrib]
    rw [sum_row4 (by omega), sum_row4 (by omega), show 4 * (i + 1) = 4 * i + 4 by ring]
    ring
  have e5 : ∑ c ∈ Finset.range (4 * n), (splineSystem n x y).A (4 * n - 2) c * z c =
      deriv (deriv (piece z 0)) (x 0) := by
    rw [h4.1, deriv2_piece, sum_row4 (by omega)]
    simp only [mul_zero]
    ring
  have e6 : ∑ c ∈ Finset.range (4 * n), (splineSystem n x y).A (4 * n - 1) c * z c =
      deriv (deriv (piece z (n - 1))) (x n) := by
    rw [h5.1, deriv2_piece, sum_row4 (by omega), show 4 * (n - 1) = 4 * n - 4 by omega]
    ring
  constructor
  · intro h
    refine ⟨?_, ?_, ?_, ?_, ?_, ?_⟩
    · intro k hk; rw [← e1 k hk, h _ (by omega), r1 k hk]
    · intro k hk; rw [← e2 k hk, h _ (by omega), r2 k hk]
    · intro k hk
      have := h (2 * n + k) (by omega)
      rw [e3 k hk, (h2 k hk).2] at this
      linarith
    · intro k hk
      have := h (3 * n - 1 + k) (by omega)
      rw [e4 k hk, (h3 k hk).2] at this
      linarith
    · rw [← e5, h _ (by omega), h4.2]
    · rw [← e6, h _ (by omega), h5.2]
  · intro h r hr
    by_cases hr1 : r < 2 * n
    · obtain ⟨k, hk | hk⟩ : ∃ k, r = 2 * k ∨ r = 2 * k + 1 := ⟨r / 2, by omega⟩
      · subst hk; rw [e1 k (by omega), r1 k (by omega)]; exact h.left k (by omega)
      · subst hk; rw [e2 k (by omega), r2 k (by omega)]; exact h.right k (by omega)
    · by_cases hr2 : r < 3 * n - 1
      · obtain ⟨i, rfl⟩ : ∃ i, r = 2 * n + i := ⟨r - 2 * n, by omega⟩
        rw [e3 i (by omega), (h2 i (by omega)).2, h.first i (by omega), sub_self]
      · by_cases hr3 : r < 4 * n - 2
        · obtain ⟨i, rfl⟩ : ∃ i, r = 3 * n - 1 + i := ⟨r - (3 * n - 1), by omega⟩
          rw [e4 i (by omega), (h3 i (by omega)).2, h.second i (by omega), sub_self]
        · by_cases hr4 : r = 4 * n - 2
          · rw [hr4, e5, h4.2]; exact h.natural_left
          · have : r = 4 * n - 1 := by omega
            rw [this, e6, h5.2]; exact h.natural_right

/-! ### Uniqueness -/

/-- A natural spline through zeros is zero. -/
theorem zero_spline {n : ℕ} (hn : 1 ≤ n) {x z : ℕ → ℝ} (hx : ∀ k < n, x k < x (k + 1))
    (h : IsNaturalSpline n x (fun _ => 0) z) : ∀ c < 4 * n, z c = 0 := by
  obtain ⟨hl, hr, h1, h2, hn0, hn1⟩ := h
  simp only [deriv2_piece] at h2 hn0 hn1
  simp only [deriv_piece] at h1
  -- second derivative, first derivative
  obtain ⟨S, hS⟩ : ∃ S : ℕ → ℝ → ℝ, S = fun k p => 2 * z (4 * k + 2) + 6 * z (4 * k + 3) * p :=
    ⟨_, rfl⟩
  obtain ⟨D, hD⟩ : ∃ D : ℕ → ℝ → ℝ, D = fun k p =>
    z (4 * k + 1) + 2 * z (4 * k + 2) * p + 3 * z (4 * k + 3) * p ^ 2 := ⟨_, rfl⟩
  have energy : ∀ k < n, S k (x (k + 1)) * D k (x (k + 1)) - S k (x k) * D k (x k) =
      (x (k + 1) - x k) / 3 *
        (S k (x k) ^ 2 + S k (x k) * S k (x (k + 1)) + S k (x (k + 1)) ^ 2) := by
    intro k hk
    have ha := hl k hk
    have hb := hr k hk
    rw [hS, hD]
    unfold piece at ha hb
    linear_combination (6 * z (4 * k + 3)) * (hb - ha)
  have hq : ∀ k < n, 0 ≤ (x (k + 1) - x k) / 3 *
      (S k (x k) ^ 2 + S k (x k) * S k (x (k + 1)) + S k (x (k + 1)) ^ 2) := by
    intro k hk
    have := hx k hk
    refine mul_nonneg (by linarith) ?_
    nlinarith [sq_nonneg (S k (x k) + S k (x (k + 1))), sq_nonneg (S k (x k)),
      sq_nonneg (S k (x (k + 1)))]
  have tele : ∀ m < n, ∑ k ∈ Finset.range (m + 1), (x (k + 1) - x k) / 3 *
      (S k (x k) ^ 2 + S k (x k) * S k (x (k + 1)) + S k (x (k + 1)) ^ 2) =
      S m (x (m + 1)) * D m (x (m + 1)) := by
    intro m
    induction m with
    | zero =>
      intro hm
      have e0 : S 0 (x 0) = 0 := by rw [hS]; exact hn0
      rw [Finset.sum_range_one, ← energy 0 hm, e0, zero_mul, sub_zero]
    | succ m ih =>
      intro hm
      rw [Finset.sum_range_succ, ih (by omega), ← energy (m + 1) hm]
      have e1 : S m (x (m + 1)) = S (m + 1) (x (m + 1)) := by
        rw [hS]; exact h2 m hm
      have e2 : D m (x (m + 1)) = D (m + 1) (x (m + 1)) := by
        rw [hD]; exact h1 m hm
      rw [e1, e2]
      ring
  have htot : ∑ k ∈ Finset.range n, (x (k + 1) - x k) / 3 *
      (S k (x k) ^ 2 + S k (x k) * S k (x (k + 1)) + S k (x (k + 1)) ^ 2) = 0 := by
    obtain ⟨m, rfl⟩ : ∃ m, n = m + 1 := ⟨n - 1, by omega⟩
    rw [tele m (by omega)]
    have e : S m (x (m + 1)) = 0 := by rw [hS]; exact hn1
    rw [e, zero_mul]
  rw [Finset.sum_eq_zero_iff_of_nonneg (fun k hk => hq k (Finset.mem_range.1 hk))] at htot
  have hz : ∀ k < n, z (4 * k) = 0 ∧ z (4 * k + 1) = 0 ∧ z (4 * k + 2) = 0 ∧
      z (4 * k + 3) = 0 := by
    intro k hk
    have h0 := htot k (Finset.mem_range.2 hk)
    have hlt := hx k hk
    have hQ : S k (x k) ^ 2 + S k (x k) * S k (x (k + 1)) + S k (x (k + 1)) ^ 2 = 0 := by
      rcases mul_eq_zero.1 h0 with h | h
      · exfalso; linarith
      · exact h
    have ha : S k (x k) = 0 := by
      nlinarith [sq_nonneg (S k (x k) + S k (x (k + 1))), sq_nonneg (S k (x k)),
        sq_nonneg (S k (x (k + 1)))]
    have hb : S k (x (k + 1)) = 0 := by
      rw [ha] at hQ
      have : S k (x (k + 1)) ^ 2 = 0 := by linarith
      exact pow_eq_zero_iff (two_ne_zero) |>.1 this
    rw [hS] at ha hb
    simp only at ha hb
    have hne : x (k + 1) - x k ≠ 0 := by linarith
    have z3 : z (4 * k + 3) = 0 := by
      have : (x (k + 1) - x k) * z (4 * k + 3) = 0 := by linear_combination (hb - ha) / 6
      exact (mul_eq_zero.1 this).resolve_left hne
    have z2 : z (4 * k + 2) = 0 := by rw [z3] at ha; linarith
    have p1 := hl k hk
    have p2 := hr k hk
    unfold piece at p1 p2
    rw [z2, z3] at p1 p2
    have z1 : z (4 * k + 1) = 0 := by
      have : (x (k + 1) - x k) * z (4 * k + 1) = 0 := by linear_combination p2 - p1
      exact (mul_eq_zero.1 this).resolve_left hne
    have z0 : z (4 * k) = 0 := by rw [z1] at p1; linarith
    exact ⟨z0, z1, z2, z3⟩
  intro c hc
  obtain ⟨h0, h1, h2, h3⟩ := hz (c / 4) (by omega)
  have : c = 4 * (c / 4) ∨ c = 4 * (c / 4) + 1 ∨ c = 4 * (c / 4) + 2 ∨ c = 4 * (c / 4) + 3 := by
    omega
  rcases this with e | e | e | e <;> rw [e] <;> assumption

theorem splineSystem_matrix_indep (n : ℕ) (hn : 1 ≤ n) (x y y' : ℕ → ℝ) :
    ∀ r < 4 * n, (splineSystem n x y).A r = (splineSystem n x y').A r := by
  obtain ⟨h1, h2, h3, h4, h5⟩ := splineSystem_rows n hn x y
  obtain ⟨g1, g2, g3, g4, g5⟩ := splineSystem_rows n hn x y'
  intro r hr
  by_cases hr1 : r < 2 * n
  · rw [(h1 r hr1).1, (g1 r hr1).1]
  · by_cases hr2 : r < 3 * n - 1
    · obtain ⟨i, rfl⟩ : ∃ i, r = 2 * n + i := ⟨r - 2 * n, by omega⟩
      rw [(h2 i (by omega)).1, (g2 i (by omega)).1]
    · by_cases hr3 : r < 4 * n - 2
      · obtain ⟨i, rfl⟩ : ∃ i, r = 3 * n - 1 + i := ⟨r - (3 * n - 1), by omega⟩
        rw [(h3 i (by omega)).1, (g3 i (by omega)).1]
      · by_cases hr4 : r = 4 * n - 2
        · rw [hr4, h4.1, g4.1]
        · have : r = 4 * n - 1 := by omega
          rw [this, h5.1, g5.1]

/-- C53: for increasing knots the coefficients are always found, and they describe the natural cubic
spline through the data: it passes through every data point, neighbouring pieces agree in value,
first and second derivative, and the second derivative vanishes at both ends. -/
theorem c53_spline_natural (n : ℕ) (hn : 1 ≤ n) (x y : ℕ → ℝ) (hx : ∀ k < n, x k < x (k + 1)) :
    ∃ z, splineCoef n x y = some z ∧ IsNaturalSpline n x y z := by
  have ht : TrivialKer (4 * n) (splineSystem n x y).A := by
    intro w hw
    refine zero_spline hn hx ((splineSystem_equations n hn x (fun _ => 0) w).1 ?_)
    intro r hr
    have hr0 : (splineSystem n x (fun _ => 0)).rhs r = 0 := by
      obtain ⟨h1, h2, h3, h4, h5⟩ := splineSystem_rows n hn x (fun _ => 0)
      by_cases hr1 : r < 2 * n
      · exact (h1 r hr1).2
      · by_cases hr2 : r < 3 * n - 1
        · obtain ⟨i, rfl⟩ : ∃ i, r = 2 * n + i := ⟨r - 2 * n, by omega⟩
          exact (h2 i (by omega)).2
        · by_cases hr3 : r < 4 * n - 2
          · obtain ⟨i, rfl⟩ : ∃ i, r = 3 * n - 1 + i := ⟨r - (3 * n - 1), by omega⟩
            exact (h3 i (by omega)).2
          · by_cases hr4 : r = 4 * n - 2
            · rw [hr4]; exact h4.2
            · have : r = 4 * n - 1 := by omega
              rw [this]; exact h5.2
    rw [hr0, splineSystem_matrix_indep n hn x (fun _ => 0) y r hr]
    exact hw r hr
  obtain ⟨z, hz, hs⟩ := c52_nonsingular_solved (4 * n) (splineSystem n x y).A
    (splineSystem n x y).rhs ((trivialKer_iff_det _ _).1 ht)
  exact ⟨z, hz, (splineSystem_equations n hn x y z).1 hs⟩

/-- C53: any coefficient vector that the elimination returns, increasing knots or not, describes the
natural spline. -/
theorem c53_solution_natural (n : ℕ) (hn : 1 ≤ n) (x y z : ℕ → ℝ)
    (h : splineCoef n x y = some z) : IsNaturalSpline n x y z :=
  (splineSystem_equations n hn x y z).1 (c52_elimination_solves _ _ _ _ h)

theorem knots_mono {n : ℕ} {x : ℕ → ℝ} (hx : ∀ k < n, x k < x (k + 1)) {i j : ℕ}
    (hij : i ≤ j) (hj : j ≤ n) : x i ≤ x j := by
  induction j, hij using Nat.le_induction with
  | base => exact le_rfl
  | succ j hij ih => exact (ih (by omega)).trans (hx j (by omega)).le

/-- C53: evaluation at a point of interval `k`, ends included, gives the value of piece `k`; in
particular at the knots it gives the data. -/
theorem c53_evaluation (n : ℕ) (x y z : ℕ → ℝ) (hx : ∀ k < n, x k < x (k + 1))
    (h : IsNaturalSpline n x y z) {k : ℕ} (hk : k < n) {p : ℝ} (h0 : x k ≤ p)
    (h1 : p ≤ x (k + 1)) : evalSpline n x z p = piece z k p := by
  obtain ⟨m, hm⟩ : ∃ m, ((List.range n).find? fun k =>
      open Classical in decide (x k ≤ p ∧ p ≤ x (k + 1))) = some m := by
    apply Option.isSome_iff_exists.1
    rw [List.find?_isSome]
    exact ⟨k, List.mem_range.2 hk, by simp [h0, h1]⟩
  have hmn : m < n := List.mem_range.1 (List.mem_of_find?_eq_some hm)
  have hp := List.find?_some hm
  simp only [decide_eq_true_eq] at hp
  have hv : evalSpline n x z p = piece z m p := by
    unfold evalSpline
    rw [hm]
    simp only [piece, mul_one]
  rw [hv]
  rcases lt_trichotomy m k with hlt | heq | hgt
  · have hle := knots_mono hx (by omega : m + 1 ≤ k) (by omega)
    have e1 : p = x (m + 1) := le_antisymm hp.2 (hle.trans h0)
    have e2 : x k = x (m + 1) := le_antisymm (h0.trans hp.2) hle
    have e3 : k = m + 1 := by
      by_contra hne
      have h3 : m + 1 < k := by omega
      have h4 := hx (m + 1) (by omega)
      have h5 := knots_mono hx (by omega : m + 2 ≤ k) (by omega)
      linarith
    subst e3
    rw [e1, h.right m hmn, h.left (m + 1) hk]
  · rw [heq]
  · have hle := knots_mono hx (by omega : k + 1 ≤ m) (by omega)
    have e1 : p = x (k + 1) := le_antisymm h1 (hle.trans hp.1)
    have e2 : x m = x (k + 1) := le_antisymm (hp.1.trans h1) hle
    have e3 : m = k + 1 := by
      by_contra hne
      have h3 : k + 1 < m := by omega
      have h4 := hx (k + 1) (by omega)
      have h5 := knots_mono hx (by omega : k + 2 ≤ m) (by omega)
      linarith
    subst e3
    rw [e1, h.right k hk, h.left (k + 1) hmn]

/-- C53: the evaluated spline passes through every data point. -/
theorem c53_interpolates (n : ℕ) (hn : 1 ≤ n) (x y : ℕ → ℝ) (hx : ∀ k < n, x k < x (k + 1)) :
    ∃ z, splineCoef n x y = some z ∧ ∀ k ≤ n, evalSpline n x z (x k) = y k := by
  obtain ⟨z, hz, h⟩ := c53_spline_natural n hn x y hx
  refine ⟨z, hz, fun k hk => ?_⟩
  by_cases hkn : k < n
  · rw [c53_evaluation n x y z hx h hkn le_rfl (hx k hkn).le, h.left k hkn]
  · obtain ⟨m, rfl⟩ : ∃ m, k = m + 1 := ⟨k - 1, by omega⟩
    rw [c53_evaluation n x y z hx h (by omega : m < n) (hx m (by omega)).le le_rfl,
      h.right m (by omega)]

example := c53_spline_natural 3 (by norm_num) (fun k => (k : ℝ) ^ 2) (fun k => 1 - (k : ℝ))
  (fun k hk => by push_cast; nlinarith [(Nat.cast_nonneg k : (0 : ℝ) ≤ k)])

example := c53_interpolates 3 (by norm_num) (fun k => (k : ℝ) ^ 2) (fun k => 1 - (k : ℝ))
  (fun k hk => by push_cast; nlinarith [(Nat.cast_nonneg k : (0 : ℝ) ≤ k)])

example : ∃ z, IsNaturalSpline 3 (fun k => (k : ℝ) ^ 2) (fun k => 1 - (k : ℝ)) z ∧
    evalSpline 3 (fun k => (k : ℝ) ^ 2) z 2 = piece z 1 2 := by
  have hx : ∀ k < 3, (fun k : ℕ => (k : ℝ) ^ 2) k < (fun k : ℕ => (k : ℝ) ^ 2) (k + 1) :=
    fun k hk => by push_cast; nlinarith [(Nat.cast_nonneg k : (0 : ℝ) ≤ k)]
  obtain ⟨z, hz, _⟩ := c53_spline_natural 3 (by norm_num) (fun k => (k : ℝ) ^ 2)
    (fun k => 1 - (k : ℝ)) hx
  have h := c53_solution_natural 3 (by norm_num) _ _ z hz
  exact ⟨z, h, c53_evaluation 3 _ _ z hx h (k := 1) (by norm_num) (by norm_num) (by norm_num)⟩

end Verif.Props
