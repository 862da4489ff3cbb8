import Mathlib.Analysis.Calculus.ParametricIntervalIntegral
import Mathlib.Analysis.Calculus.ContDiff.RCLike
import Mathlib.Analysis.Calculus.FDeriv.Prod
import Mathlib.MeasureTheory.Integral.IntervalIntegral.Basic
import Mathlib.MeasureTheory.Integral.IntervalIntegral.ContDiff
import Mathlib.Topology.MetricSpace.ProperSpace.Lemmas

/-! Helper facts: differentiation under the integral for continuously differentiable integrands. -/

namespace Verif.Lemmas

open MeasureTheory Set Filter

/-- Integrals over a fixed interval of a jointly continuously differentiable function. -/
theorem hasFDerivAt_intervalIntegral {H : Type*} [NormedAddCommGroup H] [NormedSpace ℝ H]
    [ProperSpace H] {F : H × ℝ → ℝ} (hF : ContDiff ℝ 1 F) (a b : ℝ) (x : H) :
    HasFDerivAt (fun y => ∫ ξ in a..b, F (y, ξ))
      (∫ ξ in a..b, (fderiv ℝ F (x, ξ)).comp (ContinuousLinearMap.inl ℝ H ℝ)) x := by
  have hcont : Continuous fun p : H × ℝ => (fderiv ℝ F p).comp (ContinuousLinearMap.inl ℝ H ℝ) :=
    (hF.continuous_fderiv (by norm_num)).clm_comp continuous_const
  have hdiff : Differentiable ℝ F := hF.differentiable (by norm_num)
  obtain ⟨B, hB⟩ := ((isCompact_closedBall x 1).prod isCompact_uIcc).exists_bound_of_continuousOn
    (s := Metric.closedBall x 1 ×ˢ uIcc a b) hcont.continuousOn
  refine intervalIntegral.hasFDerivAt_integral_of_dominated_of_fderiv_le
    (𝕜 := ℝ) (bound := fun _ => B)
    (F' := fun y ξ => (fderiv ℝ F (y, ξ)).comp (ContinuousLinearMap.inl ℝ H ℝ)) (Metric.ball_mem_nhds x one_pos) ?_ ?_ ?_ ?_ ?_ ?_
  · exact Eventually.of_forall fun y => (hF.continuous.comp (by fun_prop)).aestronglyMeasurable
  · exact (hF.continuous.comp (by fun_prop)).intervalIntegrable _ _
  · exact (hcont.comp (by fun_prop : Continuous fun ξ : ℝ => (x, ξ))).aestronglyMeasurable
  · refine Eventually.of_forall fun ξ hξ y hy => hB (y, ξ) ⟨?_, uIoc_subset_uIcc hξ⟩
    exact Metric.ball_subset_closedBall hy
  · exact intervalIntegrable_const
  · refine Eventually.of_forall fun ξ _ y _ => ?_
    have h1 := (hdiff (y, ξ)).hasFDerivAt
    have h2 : HasFDerivAt (fun z : H => (z, ξ)) (ContinuousLinearMap.inl ℝ H ℝ) y :=
      hasFDerivAt_prodMk_left y ξ
    exact h1.comp y h2

end Verif.Lemmas
