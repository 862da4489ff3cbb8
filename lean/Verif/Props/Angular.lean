import Verif.Lemmas.Angular
import Mathlib.Analysis.Real.Sqrt
import Mathlib.Algebra.BigOperators.Ring.Finset
import Mathlib.Tactic.IntervalCases

/-!
Properties C15, C16, C20, C21: angular redistribution.
-/

namespace Verif.Props

open Verif.Spec Verif.Model Verif.Lemmas

/-! ### C15 -/

/-- C15: summed with the widths of the angular cells, the redistribution term vanishes for every
angular flux. -/
theorem c15_redistribution_telescopes {n : ℕ} {mus : ℕ → ℝ} (h : DirectionSet n mus)
    (psi : ℕ → ℝ) :
    ∑ k ∈ Finset.range n, angularWidth n mus k * angularTerm n mus psi k = 0 := by
  have e : ∀ k ∈ Finset.range n, angularWidth n mus k * angularTerm n mus psi k =
      angularFlux n mus psi (k + 1) - angularFlux n mus psi k := by
    intro k hk
    have hk' : k < n := by simpa using hk
    rw [angularTerm_eq h.two psi hk', mul_div_cancel₀ _ (angularWidth_pos h hk').ne']
  rw [Finset.sum_congr rfl e, Finset.sum_range_sub, angularFlux_zero,
    angularFlux_last n (by have := h.two; omega), sub_zero]

/-- The widths are a partition of `[-1,1]`. -/
theorem c15_widths_sum (n : ℕ) (hn : n ≠ 0) (mus : ℕ → ℝ) :
    ∑ k ∈ Finset.range n, angularWidth n mus k = 2 := by
  unfold angularWidth
  rw [Finset.sum_range_sub]
  unfold angularEdge
  rw [if_neg hn, if_pos rfl, if_pos rfl]; norm_num

/-! ### C16 -/

/-- C16 (exact condition): the redistribution conserves the sum taken with weights `w` for every
angular flux if and only if the weights are proportional to the widths of the angular cells. -/
theorem c16_conserves_iff_partial {n : ℕ} {mus : ℕ → ℝ} (h : DirectionSet n mus) (w : ℕ → ℝ) :
    (∀ psi : ℕ → ℝ, ∑ k ∈ Finset.range n, w k * angularTerm n mus psi k = 0) ↔
      ∃ r, ∀ k < n, w k = r * angularWidth n mus k := by
  have hn := h.two
  constructor
  · intro hall
    -- ratios of neighbouring cells agree
    have hstep : ∀ k, k + 1 < n → w k / angularWidth n mus k =
        w (k + 1) / angularWidth n mus (k + 1) := by
      intro k
      induction k using Nat.strong_induction_on with
      | _ k ih =>
        intro hk
        -- test with the flux concentrated in the first `k + 1` directions, alternating in sign
        have hpsi := hall (fun j => if j ≤ k then (-1) ^ j else 0)
        set psi : ℕ → ℝ := fun j => if j ≤ k then (-1) ^ j else 0 with hdef
        have hF : ∀ j, j ≠ k + 1 → j < n → angularFlux n mus psi j = 0 := by
          intro j hj hjn
          rcases Nat.eq_zero_or_pos j with h0 | h0
          · subst h0; exact angularFlux_zero _ _ _
          · unfold angularFlux
            have : psi (j - 1) + psi j = 0 := by
              simp only [hdef]
              by_cases h1 : j ≤ k
              · rw [if_pos (by omega), if_pos h1]
                obtain ⟨i, rfl⟩ : ∃ i, j = i + 1 := ⟨j - 1, by omega⟩
                rw [Nat.add_sub_cancel, pow_succ]; ring
              · rw [if_neg (by omega), if_neg h1, add_zero]
            rw [this]; ring
        have hF' : ∀ j, j ≠ k + 1 → j ≤ n → angularFlux n mus psi j = 0 := by
          intro j hj hjn
          rcases Nat.lt_or_ge j n with h1 | h1
          · exact hF j hj h1
          · have : j = n := by omega
            subst this; exact angularFlux_last _ (by omega) _ _
        have hsum : ∑ j ∈ Finset.range n, w j * angularTerm n mus psi j =
            (w k / angularWidth n mus k - w (k + 1) / angularWidth n mus (k + 1)) *
              angularFlux n mus psi (k + 1) := by
          have e : ∀ j ∈ Finset.range n, w j * angularTerm n mus psi j =
              (if j = k then w k / angularWidth n mus k * angularFlux n mus psi (k + 1) else 0) -
              (if j = k + 1 then w (k + 1) / angularWidth n mus (k + 1) *
                angularFlux n mus psi (k + 1) else 0) := by
            intro j hj
            have hj' : j < n := by simpa using hj
            rw [angularTerm_eq hn psi hj']
            by_cases h1 : j = k
            · subst h1
              rw [if_pos rfl, if_neg (by omega), hF' j (by omega) (by omega)]
              ring
            · rw [if_neg h1]
              by_cases h2 : j = k + 1
              · subst h2
                rw [if_pos rfl, hF' (k + 1 + 1) (by omega) (by omega)]
                ring
              · rw [if_neg h2, hF' (j + 1) (by omega) (by omega), hF' j h2 (by omega)]
                ring
          rw [Finset.sum_congr rfl e, Finset.sum_sub_distrib, Finset.sum_ite_eq',
            Finset.sum_ite_eq', if_pos (by simp; omega), if_pos (by simp; omega)]
          ring
        rw [hsum] at hpsi
        have hne : angularFlux n mus psi (k + 1) ≠ 0 := by
          unfold angularFlux
          have hi := angularEdge_inner h (k := k + 1) (by omega) hk
          have h1 : 0 < 1 - angularEdge n mus (k + 1) ^ 2 := by nlinarith [hi.1, hi.2]
          have h2 : psi (k + 1 - 1) + psi (k + 1) = (-1) ^ k := by
            simp only [hdef, Nat.add_sub_cancel]
            rw [if_pos le_rfl, if_neg (by omega), add_zero]
          rw [h2]
          have h3 : ((-1 : ℝ)) ^ k ≠ 0 := pow_ne_zero _ (by norm_num)
          exact mul_ne_zero h1.ne' (div_ne_zero h3 two_ne_zero)
        rcases mul_eq_zero.1 hpsi with h1 | h1
        · linarith
        · exact absurd h1 hne
    refine ⟨w 0 / angularWidth n mus 0, ?_⟩
    intro k hk
    have hq : w k / angularWidth n mus k = w 0 / angularWidth n mus 0 := by
      induction k with
      | zero => rfl
      | succ k ih => rw [← hstep k hk]; exact ih (by omega)
    rw [← hq, div_mul_cancel₀ _ (angularWidth_pos h hk).ne']
  · rintro ⟨r, hr⟩ psi
    have e : ∀ k ∈ Finset.range n, w k * angularTerm n mus psi k =
        r * (angularWidth n mus k * angularTerm n mus psi k) := by
      intro k hk
      rw [hr k (by simpa using hk)]; ring
    rw [Finset.sum_congr rfl e, ← Finset.mul_sum, c15_redistribution_telescopes h, mul_zero]

/-- The two point Gauss-Legendre set. -/
noncomputable def gauss2 (k : ℕ) : ℝ := if k = 0 then -(1 / Real.sqrt 3) else 1 / Real.sqrt 3

theorem inv_sqrt_three : 0 < 1 / Real.sqrt 3 ∧ 1 / Real.sqrt 3 < 1 := by
  have : 1 < Real.sqrt 3 := by
    rw [show (1 : ℝ) = Real.sqrt 1 by simp]; exact Real.sqrt_lt_sqrt (by norm_num) (by norm_num)
  exact ⟨by positivity, by rw [div_lt_one (by linarith)]; exact this⟩

theorem gauss2_directions : DirectionSet 2 gauss2 where
  two := le_rfl
  lower := by have := inv_sqrt_three; simp only [gauss2, if_true]; linarith
  upper := by have := inv_sqrt_three; simp [gauss2]; simpa using this.2.le
  mono := by
    intro k hk
    have : k = 0 := by omega
    subst this
    have := inv_sqrt_three
    simp only [gauss2, if_true, zero_add, if_neg (one_ne_zero)]
    linarith

example (psi : ℕ → ℝ) := c15_redistribution_telescopes gauss2_directions psi

/-- For two directions with equal weights conservation holds. -/
theorem c16_two_directions (psi : ℕ → ℝ) :
    ∑ k ∈ Finset.range 2, (1 / 2 : ℝ) * angularTerm 2 gauss2 psi k = 0 := by
  refine (c16_conserves_iff_partial gauss2_directions (fun _ => 1 / 2)).2 ⟨1 / 2, ?_⟩ psi
  intro k hk
  have : angularWidth 2 gauss2 k = 1 := by
    interval_cases k <;> simp [angularWidth, angularEdge, gauss2]
  rw [this]; norm_num

/-- The three point Gauss-Legendre set, nodes `0, ±√(3/5)`. -/
noncomputable def gauss3 (k : ℕ) : ℝ :=
  if k = 0 then -Real.sqrt (3 / 5) else if k = 1 then 0 else Real.sqrt (3 / 5)

/-- Its weights, normalised to sum one: `5/18, 8/18, 5/18`. -/
noncomputable def gauss3w (k : ℕ) : ℝ := if k = 1 then 8 / 18 else 5 / 18

theorem sqrt_three_fifths : 3 / 4 < Real.sqrt (3 / 5) ∧ Real.sqrt (3 / 5) < 4 / 5 := by
  constructor
  · exact Real.lt_sqrt_of_sq_lt (by norm_num)
  · rw [Real.sqrt_lt' (by norm_num)]; norm_num

theorem gauss3_directions : DirectionSet 3 gauss3 where
  two := by omega
  lower := by have := sqrt_three_fifths; simp only [gauss3, if_true]; linarith
  upper := by have := sqrt_three_fifths; show Real.sqrt (3 / 5) ≤ 1; linarith
  mono := by
    intro k hk
    have := sqrt_three_fifths
    have hk : k = 0 ∨ k = 1 := by omega
    rcases hk with rfl | rfl
    · simp [gauss3]
    · simp [gauss3]

/-- C16 is false in general: with the three point Gauss-Legendre set and its weights there is an
angular flux for which the redistribution term changes the scalar flux the solver counts. -/
theorem c16_fails_three_directions :
    ∃ psi : ℕ → ℝ, ∑ k ∈ Finset.range 3, gauss3w k * angularTerm 3 gauss3 psi k ≠ 0 := by
  by_contra hcon
  push Not at hcon
  obtain ⟨r, hr⟩ := (c16_conserves_iff_partial gauss3_directions gauss3w).1 hcon
  have h0 := hr 0 (by norm_num)
  have h1 := hr 1 (by norm_num)
  have hs := sqrt_three_fifths
  set s := Real.sqrt (3 / 5) with hs'
  have w0 : angularWidth 3 gauss3 0 = 1 - s / 2 := by
    simp [angularWidth, angularEdge, gauss3, ← hs']; ring
  have w1 : angularWidth 3 gauss3 1 = s := by
    simp [angularWidth, angularEdge, gauss3, ← hs']; ring
  rw [w0] at h0
  rw [w1] at h1
  simp only [gauss3w] at h0 h1
  norm_num at h0 h1
  -- cross-multiply
  have : (5 / 18 : ℝ) * s = 4 / 9 * (1 - s / 2) := by
    rw [h0, h1]; ring
  nlinarith

/-- The four point Gauss-Legendre nodes. -/
noncomputable def g4inner : ℝ := Real.sqrt (3 / 7 - 2 / 7 * Real.sqrt (6 / 5))
noncomputable def g4outer : ℝ := Real.sqrt (3 / 7 + 2 / 7 * Real.sqrt (6 / 5))

noncomputable def gauss4 (k : ℕ) : ℝ :=
  if k = 0 then -g4outer else if k = 1 then -g4inner else if k = 2 then g4inner else g4outer

/-- Weights `(18 ± √30)/36`, normalised to sum one. -/
noncomputable def gauss4w (k : ℕ) : ℝ :=
  if k = 1 ∨ k = 2 then (18 + Real.sqrt 30) / 72 else (18 - Real.sqrt 30) / 72

theorem gauss4_bounds : 33 / 100 < g4inner ∧ g4inner < 35 / 100 ∧ 86 / 100 < g4outer ∧
    g4outer < 87 / 100 ∧ 5.47 < Real.sqrt 30 ∧ Real.sqrt 30 < 5.48 := by
  have h1 : 1.095 < Real.sqrt (6 / 5) := Real.lt_sqrt_of_sq_lt (by norm_num)
  have h2 : Real.sqrt (6 / 5) < 1.096 := by rw [Real.sqrt_lt' (by norm_num)]; norm_num
  unfold g4inner g4outer
  generalize Real.sqrt (6 / 5) = q at h1 h2
  refine ⟨?_, ?_, ?_, ?_, ?_, ?_⟩
  · exact Real.lt_sqrt_of_sq_lt (by norm_num; linarith)
  · rw [Real.sqrt_lt' (by norm_num)]; norm_num; linarith
  · exact Real.lt_sqrt_of_sq_lt (by norm_num; linarith)
  · rw [Real.sqrt_lt' (by norm_num)]; norm_num; linarith
  · exact Real.lt_sqrt_of_sq_lt (by norm_num)
  · rw [Real.sqrt_lt' (by norm_num)]; norm_num

theorem gauss4_directions : DirectionSet 4 gauss4 where
  two := by omega
  lower := by have := gauss4_bounds; simp only [gauss4, if_true]; linarith
  upper := by have := gauss4_bounds; simp [gauss4]; linarith
  mono := by
    intro k hk
    have := gauss4_bounds
    have hk : k = 0 ∨ k = 1 ∨ k = 2 := by omega
    rcases hk with rfl | rfl | rfl
    · simp [gauss4]; linarith
    · simp [gauss4]; linarith
    · simp [gauss4]; linarith

/-- C16 also fails for the four point set, which is symmetric with no zero cosine and so passes
the checks made at the centre of the sphere. -/
theorem c16_fails_four_directions :
    ∃ psi : ℕ → ℝ, ∑ k ∈ Finset.range 4, gauss4w k * angularTerm 4 gauss4 psi k ≠ 0 := by
  by_contra hcon
  push Not at hcon
  obtain ⟨r, hr⟩ := (c16_conserves_iff_partial gauss4_directions gauss4w).1 hcon
  have h0 := hr 0 (by norm_num)
  have h1 := hr 1 (by norm_num)
  obtain ⟨b1, b2, b3, b4, b5, b6⟩ := gauss4_bounds
  have w0 : angularWidth 4 gauss4 0 = 1 - (g4inner + g4outer) / 2 := by
    simp [angularWidth, angularEdge, gauss4]; ring
  have w1 : angularWidth 4 gauss4 1 = (g4inner + g4outer) / 2 := by
    simp [angularWidth, angularEdge, gauss4]; ring
  rw [w0] at h0
  rw [w1] at h1
  simp only [gauss4w] at h0 h1
  norm_num at h0 h1
  set S := (g4inner + g4outer) / 2
  have hS : 0.595 < S ∧ S < 0.61 := ⟨by simp only [S]; linarith, by simp only [S]; linarith⟩
  have hx : (18 - Real.sqrt 30) / 72 * S = (18 + Real.sqrt 30) / 72 * (1 - S) := by
    rw [h0, h1]; ring
  nlinarith [hS.1, hS.2]

/-! ### C20 -/

/-- C20 (exact defect): on a uniform isotropic flux `v` the redistribution term is minus the sum of
the two edges of the angular cell times `v`. -/
theorem c20_uniform_redistribution {n : ℕ} {mus : ℕ → ℝ} (h : DirectionSet n mus) (v : ℝ) {k : ℕ}
    (hk : k < n) :
    angularTerm n mus (fun _ => v) k =
      -(angularEdge n mus k + angularEdge n mus (k + 1)) * v := by
  rw [angularTerm_eq h.two _ hk]
  have := (angularWidth_pos h hk).ne'
  unfold angularWidth at this ⊢
  unfold angularFlux
  field_simp
  ring

/-- C20 (exact condition): the term equals `-2 μ v` for a non-zero uniform flux if and only if the
cosine is the midpoint of its angular cell. -/
theorem c20_equilibrium_iff_partial {n : ℕ} {mus : ℕ → ℝ} (h : DirectionSet n mus) {v : ℝ} (hv : v ≠ 0)
    {k : ℕ} (hk : k < n) :
    angularTerm n mus (fun _ => v) k = -2 * mus k * v ↔
      mus k = (angularEdge n mus k + angularEdge n mus (k + 1)) / 2 := by
  rw [c20_uniform_redistribution h v hk]
  constructor
  · intro he
    have := mul_right_cancel₀ hv he
    linarith
  · intro he; rw [he]; ring

/-- C20 is false for the two point Gauss-Legendre set: a uniform isotropic flux is not an
equilibrium. -/
theorem c20_fails_two_directions :
    angularTerm 2 gauss2 (fun _ => 1) 1 ≠ -2 * gauss2 1 * 1 := by
  rw [Ne, c20_equilibrium_iff_partial gauss2_directions one_ne_zero (by norm_num)]
  have e1 : angularEdge 2 gauss2 1 = 0 := by simp [angularEdge, gauss2]
  have e2 : angularEdge 2 gauss2 (1 + 1) = 1 := by simp [angularEdge]
  rw [e1, e2]
  simp only [gauss2, if_neg one_ne_zero]
  intro hc
  have h3 : Real.sqrt 3 = 2 := by
    have h3' : Real.sqrt 3 ≠ 0 := by positivity
    field_simp at hc
    linarith
  have : Real.sqrt 3 * Real.sqrt 3 = 3 := Real.mul_self_sqrt (by norm_num)
  rw [h3] at this; norm_num at this

/-- A direction set for which C20 holds: the midpoints of two equal angular cells. -/
theorem c20_holds_midpoint_set_partial (v : ℝ) {k : ℕ} (hk : k < 2) :
    angularTerm 2 (fun k => if k = 0 then -1 / 2 else 1 / 2) (fun _ => v) k =
      -2 * (if k = 0 then -1 / 2 else 1 / 2) * v := by
  have hd : DirectionSet 2 (fun k => if k = 0 then (-1 / 2 : ℝ) else 1 / 2) :=
    { two := le_rfl
      lower := by norm_num
      upper := by norm_num
      mono := by intro k hk; have : k = 0 := by omega
                 subst this; norm_num }
  rw [c20_uniform_redistribution hd v hk]
  interval_cases k <;> simp [angularEdge] <;> ring

/-! ### C21 -/

/-- C21: the interior formula of `finite_diff_uneven_2` is exact on quadratics. -/
theorem c21_interior_exact_on_quadratics_partial (x : ℕ → ℝ) (ix : ℕ)
    (h1 : x (ix - 1) < x ix) (h2 : x ix < x (ix + 1)) (a b c : ℝ) :
    finiteDiffUneven2 x ix (fun k => a + b * x k + c * x k ^ 2) false false =
      b + 2 * c * x ix := by
  unfold finiteDiffUneven2
  rw [if_pos ⟨rfl, rfl⟩]
  have d1 : x ix - x (ix - 1) ≠ 0 := by linarith
  have d2 : x (ix + 1) - x ix ≠ 0 := by linarith
  have d3 : x ix - x (ix - 1) + (x (ix + 1) - x ix) ≠ 0 := by linarith
  have d4 : 1 + (x (ix + 1) - x ix) / (x ix - x (ix - 1)) ≠ 0 := by
    have : 0 < (x (ix + 1) - x ix) / (x ix - x (ix - 1)) :=
      div_pos (by linarith) (by linarith)
    linarith
  simp only []
  rw [div_div, div_eq_iff (mul_ne_zero d2 d4)]
  field_simp
  ring

/-- C21: the one sided formulas are exact on linear functions. -/
theorem c21_one_sided_exact_on_linear_partial (x : ℕ → ℝ) (ix : ℕ) (a b : ℝ) :
    (x ix < x (ix + 1) → finiteDiffUneven2 x ix (fun k => a + b * x k) true false = b) ∧
    (x (ix - 1) < x ix → finiteDiffUneven2 x ix (fun k => a + b * x k) false true = b) := by
  unfold finiteDiffUneven2
  constructor
  · intro h
    have : x (ix + 1) - x ix ≠ 0 := by linarith
    simp only [Bool.true_eq_false, false_and, if_false, if_true]
    field_simp; ring
  · intro h
    have : x ix - x (ix - 1) ≠ 0 := by linarith
    simp only [Bool.true_eq_false, and_false, if_false, Bool.false_eq_true]
    field_simp; ring

example : finiteDiffUneven2 (fun k => (k : ℝ) ^ 2) 1 (fun k => 1 + 2 * ((k : ℝ) ^ 2) +
    3 * ((k : ℝ) ^ 2) ^ 2) false false = 2 + 2 * 3 * 1 := by
  have := c21_interior_exact_on_quadratics_partial (fun k => (k : ℝ) ^ 2) 1 (by norm_num)
    (by norm_num) 1 2 3
  simpa using this

/-- C21 is false for `angular_deriv` (not used by the active right-hand side): with the
angular flux `μ / (1 - μ²)` the differentiated quantity `(1 - μ²) ψ` is `μ`, whose derivative is 1,
yet the interior formula does not return 1 on a uniform grid. -/
theorem c21_angular_deriv_not_exact :
    ∃ (mus psi : ℕ → ℝ), mus 0 < mus 1 ∧ mus 1 < mus 2 ∧
      (∀ k ≤ 2, (1 - mus k ^ 2) * psi k = mus k) ∧ angularDeriv 3 1 mus psi ≠ 1 := by
  refine ⟨fun k => (k : ℝ) / 4 - 1 / 4, fun k => ((k : ℝ) / 4 - 1 / 4) /
    (1 - ((k : ℝ) / 4 - 1 / 4) ^ 2), by norm_num, by norm_num, ?_, ?_⟩
  · intro k hk
    interval_cases k <;> norm_num
  · unfold angularDeriv
    norm_num

end Verif.Props
