import Mathlib.Analysis.SpecialFunctions.Trigonometric.Bounds
import Verif.Lemmas.AngularConsistency
import Verif.Props.SphereErrorEstimate
import Verif.Model.Angular

/-!
Property C140: the unit test of the angular difference (`tests/test_functions.py` 189-205).

The test hands `(1 - x^2) sin x` to `finite_diff_uneven`, which multiplies by `1 - x^2` itself, and compares
with the derivative of `(1 - x^2) sin x`.
-/

namespace Verif.Props

open Set Verif.Model Verif.Spec Verif.Lemmas

/-- `sol_array` of the test (test_functions.py 193). -/
noncomputable def testArray (x : ℕ → ℝ) (ix : ℕ) : ℝ := Real.sin (x ix) * (1 - x ix ^ 2)

/-- `true_derivative` of the test (test_functions.py 195). -/
noncomputable def testDerivative (x : ℕ → ℝ) (ix : ℕ) : ℝ :=
  (1 - x ix ^ 2) * Real.cos (x ix) - 2 * x ix * Real.sin (x ix)

/-- `numpy.testing.assert_allclose(actual, desired, atol, rtol)` for one entry. -/
def AllClose (actual desired atol rtol : ℝ) : Prop := |actual - desired| ≤ atol + rtol * |desired|

/-- Entry `ix` of `deriv_array` (test_functions.py 197-198), for the list `u` that is handed over. -/
noncomputable def testResult (n : ℕ) (x u : ℕ → ℝ) (ix : ℕ) : ℝ :=
  finiteDiffUneven x ix u (decide (ix = 0)) (decide (ix = n - 1))

theorem testResult_eq {n : ℕ} {x : ℕ → ℝ} (hd : DirectionSet n x) (u : ℕ → ℝ) {ix : ℕ} (h : ix < n) :
    testResult n x u ix = angularDifference n x u ix := by
  rw [angularDifference_eq hd.two u h]
  unfold testResult angularTerm
  congr 1
  have := hd.two
  exact decide_eq_decide.2 (by omega)

/-- **C140.**  The test fails for all increasing points that end with 1, as all Gauss-Lobatto points do: the
last entry is off by more than one half. -/
theorem c140_test_fails {n : ℕ} {x : ℕ → ℝ} (hd : DirectionSet n x) (h1 : x (n - 1) = 1) :
    1 / 2 ≤ |testResult n x (testArray x) (n - 1) - testDerivative x (n - 1)| ∧
    ¬ AllClose (testResult n x (testArray x) (n - 1)) (testDerivative x (n - 1)) (1 / 10 ^ 6) (1 / 10 ^ 6) := by
  have h2 := hd.two
  have hlt : x (n - 1 - 1) < x (n - 1) := by
    have := hd.mono (n - 1 - 1) (by omega)
    rwa [show n - 1 - 1 + 1 = n - 1 by omega] at this
  have hm := directionSet_mem hd (show n - 1 - 1 < n by omega)
  rw [h1] at hlt
  have hs : (3 : ℝ) / 4 < Real.sin 1 := by
    have := Real.sin_gt_sub_cube one_pos
    linarith
  have hs1 := Real.sin_le_one 1
  have hv : testResult n x (testArray x) (n - 1) =
      -((3 + x (n - 1 - 1)) / 4 * (Real.sin (x (n - 1 - 1)) * (1 - x (n - 1 - 1) ^ 2))) := by
    unfold testResult finiteDiffUneven testArray
    have hne : ¬ (n - 1 = 0) := by omega
    simp only [hne, decide_false, decide_true, h1]
    have hx : (1 : ℝ) - x (n - 1 - 1) ≠ 0 := by linarith
    generalize x (n - 1 - 1) = y at hx
    have h' : (1 : ℝ) - ((1 - y) * (1 / 2) + y) = (1 - y) / 2 := by ring
    rw [if_neg (by simp), if_neg (by simp), h', div_eq_iff (by simpa using hx)]
    ring
  have hd' : testDerivative x (n - 1) = -(2 * Real.sin 1) := by
    unfold testDerivative; rw [h1]; ring
  have hb : |testResult n x (testArray x) (n - 1)| ≤ 1 := by
    rw [hv, abs_neg, abs_mul, abs_mul]
    have a1 : |(3 + x (n - 1 - 1)) / 4| ≤ 1 := by
      rw [abs_le]; constructor <;> linarith [hm.1]
    have a2 := Real.abs_sin_le_one (x (n - 1 - 1))
    have a3 : |1 - x (n - 1 - 1) ^ 2| ≤ 1 := by
      rw [abs_le]; constructor <;> nlinarith [hm.1, hlt]
    exact mul_le_one₀ a1 (by positivity) (mul_le_one₀ a2 (abs_nonneg _) a3)
  have hgap : 1 / 2 ≤ |testResult n x (testArray x) (n - 1) - testDerivative x (n - 1)| := by
    refine le_trans ?_ (le_abs_self _)
    rw [hd']
    have := (abs_le.1 hb).1
    linarith
  refine ⟨hgap, fun h => ?_⟩
  unfold AllClose at h
  have : |testDerivative x (n - 1)| ≤ 2 := by
    rw [hd', abs_neg, abs_of_pos (by linarith)]; linarith
  norm_num at h
  linarith

/-- **C140.**  At every point, what the test computes is near the derivative of `(1 - x^2)^2 sin x`. -/
theorem c140_test_computes {n : ℕ} {x : ℕ → ℝ} (hd : DirectionSet n x) {ix : ℕ} (h : ix < n) :
    |testResult n x (testArray x) ix
      - deriv (fun y => (1 - y ^ 2) ^ 2 * Real.sin y) (x ix)| ≤ 63 * angularWidth n x ix := by
  have hp : ∀ y : ℝ, HasDerivAt (fun y : ℝ => 1 - y ^ 2) (-(2 * y)) y := fun y => by
    simpa using (hasDerivAt_pow 2 y).const_sub 1
  have hf : TwiceBounded (fun y => Real.sin y * (1 - y ^ 2))
      (fun y => Real.cos y * (1 - y ^ 2) + Real.sin y * -(2 * y))
      (fun y => -Real.sin y * (1 - y ^ 2) + Real.cos y * -(2 * y)
        + (Real.cos y * -(2 * y) + Real.sin y * -2)) 7 := by
    have hb : ∀ y ∈ Icc (-1 : ℝ) 1, |1 - y ^ 2| ≤ 1 ∧ |-(2 * y)| ≤ 2 := fun y hy => by
      refine ⟨abs_le.2 ⟨by nlinarith [hy.1, hy.2], by nlinarith [sq_nonneg y]⟩,
        abs_le.2 ⟨by linarith [hy.2], by linarith [hy.1]⟩⟩
    have hmul : ∀ {a b A B : ℝ}, |a| ≤ A → |b| ≤ B → |a * b| ≤ A * B := fun {a b A B} ha hb => by
      rw [abs_mul]; exact mul_le_mul ha hb (abs_nonneg _) ((abs_nonneg _).trans ha)
    refine ⟨fun y => (Real.hasDerivAt_sin y).mul (hp y), fun y => ?_, fun y hy => ?_, fun y hy => ?_,
      fun y hy => ?_⟩
    · have h2 : HasDerivAt (fun y : ℝ => -(2 * y)) (-2) y := by
        simpa using ((hasDerivAt_id y).const_mul 2).fun_neg
      exact ((Real.hasDerivAt_cos y).mul (hp y)).add ((Real.hasDerivAt_sin y).mul h2)
    · have := hmul (Real.abs_sin_le_one y) (hb y hy).1
      linarith
    · have c1 := hmul (Real.abs_cos_le_one y) (hb y hy).1
      have c2 := hmul (Real.abs_sin_le_one y) (hb y hy).2
      exact (abs_add_le _ _).trans (by linarith)
    · have c1 := hmul (a := -Real.sin y) (A := 1) (by rw [abs_neg]; exact Real.abs_sin_le_one y) (hb y hy).1
      have c2 := hmul (Real.abs_cos_le_one y) (hb y hy).2
      have c3 := hmul (Real.abs_sin_le_one y) (show |(-2 : ℝ)| ≤ 2 by norm_num)
      refine (abs_add_le _ _).trans ((add_le_add (abs_add_le _ _) (abs_add_le _ _)).trans ?_)
      linarith
  have hc := angularDifference_consistent hd hf h
  have hder : deriv (fun y => (1 - y ^ 2) ^ 2 * Real.sin y) (x ix) =
      -2 * x ix * (Real.sin (x ix) * (1 - x ix ^ 2)) + (1 - x ix ^ 2) *
        (Real.cos (x ix) * (1 - x ix ^ 2) + Real.sin (x ix) * -(2 * x ix)) := by
    have := (((hp (x ix)).pow 2).mul (Real.hasDerivAt_sin (x ix))).deriv
    refine this.trans ?_
    simp only [Pi.pow_apply]
    push_cast
    ring
  rw [testResult_eq hd _ h, hder]
  exact hc.trans_eq (by ring)

/-- **C140.**  Handing over `sin x` instead, every entry is right up to nine widths of the angular cell. -/
theorem c140_right_test {n : ℕ} {x : ℕ → ℝ} (hd : DirectionSet n x) {ix : ℕ} (h : ix < n) :
    |testResult n x (fun ix => Real.sin (x ix)) ix - testDerivative x ix| ≤ 9 * angularWidth n x ix := by
  have hf : TwiceBounded Real.sin Real.cos (fun y => -Real.sin y) 1 :=
    ⟨Real.hasDerivAt_sin, Real.hasDerivAt_cos, fun y _ => Real.abs_sin_le_one y,
      fun y _ => Real.abs_cos_le_one y, fun y _ => by rw [abs_neg]; exact Real.abs_sin_le_one y⟩
  have hc := angularDifference_consistent hd hf h
  rw [testResult_eq hd _ h, mul_one] at *
  have e : testDerivative x ix = -2 * x ix * Real.sin (x ix) + (1 - x ix ^ 2) * Real.cos (x ix) := by
    unfold testDerivative; ring
  rw [e]
  exact hc

/-- Three points, as of a Gauss-Lobatto rule. -/
example : ∃ x : ℕ → ℝ, DirectionSet 3 x ∧ x (3 - 1) = 1 :=
  ⟨fun k => k - 1, ⟨by norm_num, by norm_num, by norm_num, fun k _ => by push_cast; linarith⟩, by norm_num⟩

end Verif.Props
