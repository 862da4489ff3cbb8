import Verif.Props.SourceIntegrals
import Verif.Props.GaussAccuracy

/-! C66, C67: the Gauss points that `solve` takes for the times of emission. -/

namespace Verif.Props

open MeasureTheory Real Verif.Spec Verif.Model Verif.Lemmas Polynomial

/-- The points and weights of `quadrature(n + 2, 'gauss_legendre')` (main_functions.py 123). -/
def gaussTimes (leg w : ℕ → ℕ → ℝ) (n : ℕ) : List (ℝ × ℝ) :=
  (List.range (n + 2)).map fun i => (leg (n + 2) i, w (n + 2) i)

theorem gaussTimes_rule {leg w : ℕ → ℕ → ℝ} (hl : GaussPoints leg)
    (hw : ∀ n, 2 ≤ n → ExactRule n (leg n) (w n) (2 * n - 1)) (n : ℕ) :
    QuadExact (gaussTimes leg w n) n ∧ (∀ r ∈ gaussTimes leg w n, 0 ≤ r.2) ∧
      ∀ r ∈ gaussTimes leg w n, -1 ≤ r.1 ∧ r.1 < 1 := by
  have hr := hw (n + 2) (by omega)
  obtain ⟨-, -, hg⟩ := c141_gauss hl (n := n + 2) (by omega)
  have hG := hg (w (n + 2)) fun p hp => hr p (by omega)
  refine ⟨fun p hp => ?_, ?_, ?_⟩
  · rw [← hr p (by omega), gaussTimes, List.map_map, ← List.sum_toFinset _ List.nodup_range, List.toFinset_range]
    rfl
  · intro r hm
    obtain ⟨i, hi, rfl⟩ := List.mem_map.1 hm
    exact ((c141_separation hG).2 i (List.mem_range.1 hi)).2.2.1
  · intro r hm
    obtain ⟨i, hi, rfl⟩ := List.mem_map.1 hm
    have := gaussPoints_inside hl (List.mem_range.1 hi)
    exact ⟨this.1.le, this.2⟩

/-- C66: the flux of a Gaussian source that `solve` subtracts converges, with the number of Gauss points for the
times, to the flux of all pulses emitted until now. -/
theorem c66_gauss_points {c : UncollidedConfig} (h : GaussianRun c) (hN : c.nAng ≠ 2) (herf : c.erf = erf)
    (hσ : 0 < c.sigma) {leg w : ℕ → ℕ → ℝ} (hl : GaussPoints leg)
    (hw : ∀ n, 2 ≤ n → ExactRule n (leg n) (w n) (2 * n - 1)) {t : ℝ} (ht : 0 < t) (ht0 : 0 < c.t0) (x : ℝ)
    (prev : List ℝ) :
    ∃ v : ℕ → ℝ, (∀ n, uncollidedSolution { c with tQuad := gaussTimes leg w n } prev [x] t = [c.strength * v n]) ∧
      Filter.Tendsto v Filter.atTop (nhds (∫ τ in (0 : ℝ)..min t c.t0, gaussPulse x (t - τ) c.sigma)) :=
  c66_source_limit h hN herf hσ (fun n => (gaussTimes_rule hl hw n).1) (fun n => (gaussTimes_rule hl hw n).2.1)
    (fun n => (gaussTimes_rule hl hw n).2.2) ht ht0 x prev

/-- C67: the same for two directions and a wide source. -/
theorem c67_gauss_points {c : UncollidedConfig} (h : GaussianRun c) (hN : c.nAng = 2) (h5 : 5 < c.sigma)
    {leg w : ℕ → ℕ → ℝ} (hl : GaussPoints leg) (hw : ∀ n, 2 ≤ n → ExactRule n (leg n) (w n) (2 * n - 1)) {t : ℝ}
    (ht : 0 < t) (ht0 : 0 < c.t0) (x : ℝ) (prev : List ℝ) :
    ∃ v : ℕ → ℝ, (∀ n, uncollidedSolution { c with tQuad := gaussTimes leg w n } prev [x] t = [c.strength * v n]) ∧
      Filter.Tendsto v Filter.atTop (nhds (gaussSourceS2 x t c.sigma c.t0)) :=
  c67_wide h hN h5 (fun n => (gaussTimes_rule hl hw n).1) (fun n => (gaussTimes_rule hl hw n).2.1)
    (fun n => (gaussTimes_rule hl hw n).2.2) ht ht0 x prev

theorem gaussWeights_exist : ∃ leg w : ℕ → ℕ → ℝ, GaussPoints leg ∧
    ∀ n, 2 ≤ n → ExactRule n (leg n) (w n) (2 * n - 1) := by
  obtain ⟨leg, hl⟩ := gaussPoints_exists
  have : ∀ n, ∃ w, 2 ≤ n → ExactRule n (leg n) w (2 * n - 1) := fun n => by
    by_cases hn : 2 ≤ n
    · obtain ⟨w, hw, -⟩ := c141_gauss hl hn
      exact ⟨w, fun _ => hw⟩
    · exact ⟨fun _ => 0, fun h => absurd h hn⟩
  choose w hw using this
  exact ⟨leg, w, hl, hw⟩

/-- A Gaussian source of width 1/2, on until time 5, seen at time 7. -/
example : ∃ (q : ℕ → List (ℝ × ℝ)) (v : ℕ → ℝ),
    (∀ n, uncollidedSolution { exampleUncollided [0, 0, 0, 0, 0, 1] with tQuad := q n } [] [3] 7 = [1 * v n]) ∧
      Filter.Tendsto v Filter.atTop (nhds (∫ τ in (0 : ℝ)..min 7 5, gaussPulse 3 (7 - τ) (1 / 2))) := by
  obtain ⟨leg, w, hl, hw⟩ := gaussWeights_exist
  exact ⟨gaussTimes leg w, c66_gauss_points (c := exampleUncollided [0, 0, 0, 0, 0, 1])
    ⟨rfl, rfl, by decide, by decide, by decide, by decide, rfl⟩ (by simp [exampleUncollided]) rfl
    (by norm_num [exampleUncollided]) hl hw (by norm_num) (by norm_num [exampleUncollided]) 3 []⟩

/-- Two directions and a source of width 6. -/
example : ∃ (q : ℕ → List (ℝ × ℝ)) (v : ℕ → ℝ),
    (∀ n, uncollidedSolution { exampleUncollided [0, 0, 0, 0, 0, 1] with nAng := 2, sigma := 6, tQuad := q n } [] [3] 7 =
      [1 * v n]) ∧ Filter.Tendsto v Filter.atTop (nhds (gaussSourceS2 3 7 6 5)) := by
  obtain ⟨leg, w, hl, hw⟩ := gaussWeights_exist
  exact ⟨gaussTimes leg w, c67_gauss_points (c := { exampleUncollided [0, 0, 0, 0, 0, 1] with nAng := 2, sigma := 6 })
    ⟨rfl, rfl, by decide, by decide, by decide, by decide, rfl⟩ rfl (by norm_num) hl hw (by norm_num)
    (by norm_num [exampleUncollided]) 3 []⟩

/-- Two directions and a source of width 1/2. -/
example : uncollidedSolution { exampleUncollided [0, 0, 0, 0, 0, 1] with nAng := 2 } [] [3] 7 =
    [1 * gaussSourceS2 3 7 (1 / 2) 5] :=
  c67_narrow (c := { exampleUncollided [0, 0, 0, 0, 0, 1] with nAng := 2 })
    ⟨rfl, rfl, by decide, by decide, by decide, by decide, rfl⟩ rfl rfl (by norm_num [exampleUncollided])
    (by norm_num [exampleUncollided]) 7 [] [3]

end Verif.Props
