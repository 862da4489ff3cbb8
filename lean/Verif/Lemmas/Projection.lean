import Verif.Spec.Projection
import Verif.Lemmas.ParamIntegral
import Verif.Lemmas.Triple
import Verif.Lemmas.Advection
import Mathlib.Analysis.Calculus.ContDiff.Polynomial
import Mathlib.MeasureTheory.Integral.IntervalIntegral.IntegrationByParts

/-! Helper facts: projections of smooth functions on moving cells. -/

namespace Verif.Lemmas

open Polynomial Verif.Spec Verif.Model MeasureTheory Set

theorem ref_cellPoint {a b : ℝ} (h : a < b) (ξ : ℝ) : ref (cellPoint a b ξ) a b = ξ := by
  have hb : b - a ≠ 0 := by linarith
  unfold ref cellPoint; field_simp; ring

theorem cellPoint_zSlab {a b : ℝ} (h : a < b) (x : ℝ) : cellPoint a b (zSlab x a b) = x := by
  have hb : b - a ≠ 0 := by linarith
  rw [zSlab_eq_ref x h]; unfold ref cellPoint; field_simp; ring

theorem cellPoint_mem {a b ξ : ℝ} (h : a ≤ b) (hξ : ξ ∈ Icc (-1 : ℝ) 1) :
    cellPoint a b ξ ∈ Icc a b := by
  obtain ⟨h1, h2⟩ := hξ
  unfold cellPoint; constructor <;> nlinarith

/-- Integrals over a cell in the reference coordinate. -/
theorem integral_cell {a b : ℝ} (h : a < b) (g : ℝ → ℝ) :
    ∫ x in a..b, g x = (b - a) / 2 * ∫ ξ in (-1 : ℝ)..1, g (cellPoint a b ξ) := by
  have := integral_zSlab h fun ξ => g (cellPoint a b ξ)
  simpa only [cellPoint_zSlab h] using this

theorem projection_eq {a b : ℝ} (h : a < b) (f : ℝ → ℝ) (i : ℕ) :
    projection f a b i = Real.sqrt ((2 * (i : ℝ) + 1) / (b - a)) * ((b - a) / 2) *
      ∫ ξ in (-1 : ℝ)..1, f (cellPoint a b ξ) * (legendre i).eval ξ := by
  unfold projection
  rw [integral_cell h]
  have e : ∀ ξ, f (cellPoint a b ξ) * slabBasis i (cellPoint a b ξ) a b =
      Real.sqrt ((2 * (i : ℝ) + 1) / (b - a)) * (f (cellPoint a b ξ) * (legendre i).eval ξ) := by
    intro ξ; unfold slabBasis; rw [ref_cellPoint h]; ring
  simp_rw [e]
  rw [intervalIntegral.integral_const_mul]
  ring

/-! ### Legendre expansion -/

theorem X_mul_legendre_mem (n : ℕ) :
    X * legendre n ∈ Submodule.span ℝ (legendre '' {j | j ≤ n + 1}) := by
  rcases n with _ | n
  · rw [legendre_zero, mul_one, ← legendre_one]
    exact Submodule.subset_span ⟨1, by simp, rfl⟩
  · have hb := bonnet n
    have hne : (2 * (n : ℝ) + 3) ≠ 0 := by positivity
    have e : X * legendre (n + 1) = ((2 * (n : ℝ) + 3)⁻¹ * ((n : ℝ) + 2)) • legendre (n + 2) +
        ((2 * (n : ℝ) + 3)⁻¹ * ((n : ℝ) + 1)) • legendre n := by
      have h1 : (2 * (n : ℝ) + 3) • (X * legendre (n + 1)) =
          ((n : ℝ) + 2) • legendre (n + 2) + ((n : ℝ) + 1) • legendre n := by
        simp only [smul_eq_C_mul]
        linear_combination -hb
      rw [mul_smul, mul_smul, ← smul_add, ← h1, smul_smul, inv_mul_cancel₀ hne, one_smul]
    rw [e]
    refine Submodule.add_mem _ (Submodule.smul_mem _ _ (Submodule.subset_span ⟨n + 2, ?_, rfl⟩))
      (Submodule.smul_mem _ _ (Submodule.subset_span ⟨n, ?_, rfl⟩))
    · show n + 2 ≤ n + 1 + 1; omega
    · show n ≤ n + 1 + 1; omega

theorem X_pow_mem (m : ℕ) : (X : ℝ[X]) ^ m ∈ Submodule.span ℝ (legendre '' {j | j ≤ m}) := by
  induction m with
  | zero => exact Submodule.subset_span ⟨0, by simp, by simp [legendre_zero]⟩
  | succ m ih =>
    rw [pow_succ']
    generalize (X : ℝ[X]) ^ m = r at ih
    induction ih using Submodule.span_induction with
    | mem q hq =>
      obtain ⟨j, hj, rfl⟩ := hq
      have hj : j ≤ m := hj
      refine Submodule.span_mono ?_ (X_mul_legendre_mem j)
      exact image_mono fun i (hi : i ≤ j + 1) => show i ≤ m + 1 by omega
    | zero => rw [mul_zero]; exact Submodule.zero_mem _
    | add p q _ _ h1 h2 => rw [mul_add]; exact Submodule.add_mem _ h1 h2
    | smul c p _ h => rw [mul_smul_comm]; exact Submodule.smul_mem _ _ h

/-- Polynomials of degree at most `M` are combinations of the first Legendre polynomials. -/
theorem mem_span_legendre {M : ℕ} {q : ℝ[X]} (hq : q.natDegree ≤ M) :
    q ∈ Submodule.span ℝ (legendre '' {j | j ≤ M}) := by
  rw [q.as_sum_range_C_mul_X_pow]
  refine Submodule.sum_mem _ fun m hm => ?_
  have hm : m ≤ M := by have := Finset.mem_range.1 hm; omega
  rw [← smul_eq_C_mul]
  refine Submodule.smul_mem _ _ (Submodule.span_mono ?_ (X_pow_mem m))
  exact image_mono fun i (hi : i ≤ m) => show i ≤ M from hi.trans hm

/-- The projection has the same moments up to degree `M`. -/
theorem projection_moment {M : ℕ} {f : ℝ → ℝ} (hf : Continuous f) {a b : ℝ} (h : a < b)
    {q : ℝ[X]} (hq : q.natDegree ≤ M) :
    I (q * refPoly M (projection f a b) (b - a)) =
      ∫ ξ in (-1 : ℝ)..1, q.eval ξ * f (cellPoint a b ξ) := by
  have hb : (0 : ℝ) < b - a := by linarith
  have hcell : Continuous fun ξ => f (cellPoint a b ξ) :=
    hf.comp (by unfold cellPoint; fun_prop)
  have hint : ∀ p : ℝ[X], IntervalIntegrable (fun ξ => p.eval ξ * f (cellPoint a b ξ)) volume
      (-1) 1 := fun p => (p.continuous.mul hcell).intervalIntegrable _ _
  have hmem := mem_span_legendre hq
  clear hq
  induction hmem using Submodule.span_induction with
  | mem r hr =>
    obtain ⟨i, hi, rfl⟩ := hr
    have hi : i ≤ M := hi
    rw [I_mul_refPoly, Finset.sum_eq_single i]
    · rw [I_sq, projection_eq h]
      have h3 : Real.sqrt ((2 * (i : ℝ) + 1) / (b - a)) * Real.sqrt ((2 * (i : ℝ) + 1) / (b - a)) =
        (2 * (i : ℝ) + 1) / (b - a) := Real.mul_self_sqrt (by positivity)
      have h5 : (2 * (i : ℝ) + 1) ≠ 0 := by positivity
      have e : ∀ ξ, (legendre i).eval ξ * f (cellPoint a b ξ) =
          f (cellPoint a b ξ) * (legendre i).eval ξ := fun ξ => mul_comm _ _
      simp_rw [e]
      set J := ∫ ξ in (-1 : ℝ)..1, f (cellPoint a b ξ) * (legendre i).eval ξ
      set r := Real.sqrt ((2 * (i : ℝ) + 1) / (b - a))
      have : r * ((b - a) / 2) * J * r * (2 / (2 * (i : ℝ) + 1)) =
          (r * r) * ((b - a) / (2 * (i : ℝ) + 1)) * J := by field_simp
      rw [this, h3]
      field_simp
    · intro k _ hk
      rw [I_orthogonal (Ne.symm hk), mul_zero]
    · intro hn; exact absurd (Finset.mem_range.2 (by omega)) hn
  | zero => simp [I_zero]
  | add p q _ _ h1 h2 =>
    rw [add_mul, I_add, h1, h2, ← intervalIntegral.integral_add (hint p) (hint q)]
    simp only [eval_add]
    congr 1; funext ξ; ring
  | smul c p _ h1 =>
    rw [smul_eq_C_mul, mul_assoc, I_C_mul, h1, ← intervalIntegral.integral_const_mul]
    simp only [eval_mul, eval_C]
    congr 1; funext ξ; ring

/-! ### Rate of the projection on a moving cell -/

theorem hasDerivAt_of_contDiff {u : ℝ → ℝ → ℝ} (hu : ContDiff ℝ 1 fun q : ℝ × ℝ => u q.1 q.2)
    (x t : ℝ) :
    HasDerivAt (fun y => u y t) (deriv (fun y => u y t) x) x ∧
      HasDerivAt (fun s => u x s) (deriv (fun s => u x s) t) t ∧
      HasFDerivAt (fun q : ℝ × ℝ => u q.1 q.2)
        (deriv (fun y => u y t) x • ContinuousLinearMap.fst ℝ ℝ ℝ +
          deriv (fun s => u x s) t • ContinuousLinearMap.snd ℝ ℝ ℝ) (x, t) := by
  have hd := (hu.differentiable (by norm_num) (x, t)).hasFDerivAt
  have h1 : HasDerivAt (fun y => u y t) (fderiv ℝ (fun q : ℝ × ℝ => u q.1 q.2) (x, t) (1, 0)) x :=
    HasFDerivAt.comp_hasDerivAt (f := fun y : ℝ => (y, t)) x hd
      ((hasDerivAt_id' x).prodMk (hasDerivAt_const x t))
  have h2 : HasDerivAt (fun s => u x s) (fderiv ℝ (fun q : ℝ × ℝ => u q.1 q.2) (x, t) (0, 1)) t :=
    HasFDerivAt.comp_hasDerivAt (f := fun s : ℝ => (x, s)) t hd
      ((hasDerivAt_const t x).prodMk (hasDerivAt_id' t))
  refine ⟨h1.differentiableAt.hasDerivAt, h2.differentiableAt.hasDerivAt, ?_⟩
  refine hd.congr_fderiv ?_
  rw [h1.deriv, h2.deriv]
  ext <;> simp

theorem continuous_deriv_of_contDiff {u : ℝ → ℝ → ℝ}
    (hu : ContDiff ℝ 1 fun q : ℝ × ℝ => u q.1 q.2) :
    (Continuous fun q : ℝ × ℝ => deriv (fun y => u y q.2) q.1) ∧
      Continuous fun q : ℝ × ℝ => deriv (fun s => u q.1 s) q.2 := by
  have hc := hu.continuous_fderiv (by norm_num)
  constructor
  · have : (fun q : ℝ × ℝ => deriv (fun y => u y q.2) q.1) =
        fun q => fderiv ℝ (fun q : ℝ × ℝ => u q.1 q.2) q (1, 0) := by
      funext q
      rw [(hasDerivAt_of_contDiff hu q.1 q.2).2.2.fderiv]; simp
    rw [this]; exact hc.clm_apply continuous_const
  · have : (fun q : ℝ × ℝ => deriv (fun s => u q.1 s) q.2) =
        fun q => fderiv ℝ (fun q : ℝ × ℝ => u q.1 q.2) q (0, 1) := by
      funext q
      rw [(hasDerivAt_of_contDiff hu q.1 q.2).2.2.fderiv]; simp
    rw [this]; exact hc.clm_apply continuous_const

/-- Rate of a moment of a smooth function on a moving cell. -/
theorem hasDerivWithinAt_moment {u : ℝ → ℝ → ℝ} (hu : ContDiff ℝ 1 fun q : ℝ × ℝ => u q.1 q.2)
    (p : ℝ[X]) {a b : ℝ → ℝ} {a' b' t : ℝ} {s : Set ℝ} (ha : HasDerivWithinAt a a' s t)
    (hb : HasDerivWithinAt b b' s t) :
    HasDerivWithinAt (fun τ => ∫ ξ in (-1 : ℝ)..1, u (cellPoint (a τ) (b τ) ξ) τ * p.eval ξ)
      (∫ ξ in (-1 : ℝ)..1, (deriv (fun y => u y t) (cellPoint (a t) (b t) ξ) * cellPoint a' b' ξ +
        deriv (fun τ => u (cellPoint (a t) (b t) ξ) τ) t) * p.eval ξ) s t := by
  set F : (ℝ × ℝ × ℝ) × ℝ → ℝ := fun z => u (cellPoint z.1.1 z.1.2.1 z.2) z.1.2.2 * p.eval z.2
    with hFdef
  have hpt : ContDiff ℝ 1 fun z : (ℝ × ℝ × ℝ) × ℝ => (cellPoint z.1.1 z.1.2.1 z.2, z.1.2.2) := by
    unfold cellPoint; fun_prop
  have hp : ContDiff ℝ 1 fun z : ℝ => p.eval z := by
    simpa using p.contDiff_aeval (𝕜 := ℝ) (n := 1)
  have hF : ContDiff ℝ 1 F := (hu.comp hpt).mul (hp.comp contDiff_snd)
  have h1 := hasFDerivAt_intervalIntegral hF (-1) 1 (a t, b t, t)
  have h2 : HasDerivWithinAt (fun τ => (a τ, b τ, τ)) (a', b', 1) s t :=
    ha.prodMk (hb.prodMk (hasDerivWithinAt_id t s))
  refine (h1.comp_hasDerivWithinAt t h2).congr_deriv ?_
  have hcont : Continuous fun ξ : ℝ => (fderiv ℝ F ((a t, b t, t), ξ)).comp
      (ContinuousLinearMap.inl ℝ (ℝ × ℝ × ℝ) ℝ) :=
    ((hF.continuous_fderiv (by norm_num)).comp (by fun_prop)).clm_comp continuous_const
  rw [ContinuousLinearMap.intervalIntegral_apply (hcont.intervalIntegrable _ _)]
  congr 1
  funext ξ
  have hline : HasDerivAt (fun r : ℝ => (((a t, b t, t) : ℝ × ℝ × ℝ) + r • (a', b', (1 : ℝ)), ξ))
      ((a', b', 1), 0) 0 := by
    refine HasDerivAt.prodMk ?_ (hasDerivAt_const _ _)
    have := ((hasDerivAt_id (0 : ℝ)).smul_const ((a', b', 1) : ℝ × ℝ × ℝ)).const_add (a t, b t, t)
    simpa using this
  have hFd := (hF.differentiable (by norm_num) ((a t, b t, t), ξ)).hasFDerivAt
  have e1 : HasDerivAt (fun r : ℝ => F (((a t, b t, t) : ℝ × ℝ × ℝ) + r • (a', b', (1 : ℝ)), ξ))
      (fderiv ℝ F ((a t, b t, t), ξ) ((a', b', 1), 0)) 0 := by
    have := HasFDerivAt.comp_hasDerivAt_of_eq (x := (0 : ℝ)) hFd hline (by simp)
    exact this
  have e2 : HasDerivAt (fun r : ℝ => F (((a t, b t, t) : ℝ × ℝ × ℝ) + r • (a', b', (1 : ℝ)), ξ))
      ((deriv (fun y => u y t) (cellPoint (a t) (b t) ξ) * cellPoint a' b' ξ +
        deriv (fun τ => u (cellPoint (a t) (b t) ξ) τ) t) * p.eval ξ) 0 := by
    have hu' := (hasDerivAt_of_contDiff hu (cellPoint (a t) (b t) ξ) t).2.2
    have hin : HasDerivAt (fun r : ℝ => (cellPoint (a t + r * a') (b t + r * b') ξ, t + r))
        (cellPoint a' b' ξ, 1) 0 := by
      refine HasDerivAt.prodMk ?_ ?_
      · have h3 : HasDerivAt (fun r : ℝ => cellPoint (a t) (b t) ξ + r * cellPoint a' b' ξ)
            (cellPoint a' b' ξ) 0 := by
          simpa using ((hasDerivAt_id (0 : ℝ)).mul_const (cellPoint a' b' ξ)).const_add
            (cellPoint (a t) (b t) ξ)
        refine h3.congr_of_eventuallyEq (Filter.Eventually.of_forall fun r => ?_)
        simp only [cellPoint]; ring
      · simpa using (hasDerivAt_id (0 : ℝ)).const_add t
    have h4 := HasFDerivAt.comp_hasDerivAt_of_eq (x := (0 : ℝ)) hu' hin (by simp)
    have h5 := h4.mul_const (p.eval ξ)
    refine (h5.congr_deriv ?_).congr_of_eventuallyEq (Filter.Eventually.of_forall fun r => ?_)
    · simp
    · simp [hFdef]
  exact e1.unique e2

/-- Rate of a coefficient of the projection of a smooth function on a moving cell, written with the
projection itself and the values at the edges. -/
theorem hasDerivWithinAt_projection {u : ℝ → ℝ → ℝ}
    (hu : ContDiff ℝ 1 fun q : ℝ × ℝ => u q.1 q.2) {a b : ℝ → ℝ} {a' b' t : ℝ} {s : Set ℝ}
    (ha : HasDerivWithinAt a a' s t) (hb : HasDerivWithinAt b b' s t)
    (h : a t < b t) (mul : ℝ) {M i : ℕ} (hi : i ≤ M) :
    HasDerivWithinAt (fun τ => projection (fun x => u x τ) (a τ) (b τ) i)
      (Real.sqrt ((2 * (i : ℝ) + 1) / (b t - a t)) / 2 *
          I ((C (-(1 / 2) * (b' - a')) * legendre i + C (-(a' + b')) * derivative (legendre i) +
            C (-(b' - a')) * (X * derivative (legendre i))) *
              refPoly M (projection (fun x => u x t) (a t) (b t)) (b t - a t))
        + mul * (Real.sqrt ((2 * (i : ℝ) + 1) / (b t - a t)) *
          I (derivative (legendre i) *
            refPoly M (projection (fun x => u x t) (a t) (b t)) (b t - a t)))
        - (slabBasis i (b t) (a t) (b t) * ((mul - b') * u (b t) t)
          - slabBasis i (a t) (a t) (b t) * ((mul - a') * u (a t) t))
        + projection (fun x => deriv (fun τ => u x τ) t + mul * deriv (fun y => u y t) x)
            (a t) (b t) i) s t := by
  have hpos : 0 < b t - a t := by linarith
  have hdeg := legendre_natDegree i
  have hut : Continuous fun x => u x t :=
    hu.continuous.comp (continuous_id.prodMk continuous_const)
  obtain ⟨hcx, hct⟩ := continuous_deriv_of_contDiff hu
  have hcp : Continuous fun ξ => cellPoint (a t) (b t) ξ := by unfold cellPoint; fun_prop
  have hgx : Continuous fun ξ => deriv (fun y => u y t) (cellPoint (a t) (b t) ξ) :=
    hcx.comp (hcp.prodMk continuous_const)
  have hgt : Continuous fun ξ => deriv (fun τ => u (cellPoint (a t) (b t) ξ) τ) t :=
    hct.comp (hcp.prodMk continuous_const)
  -- the coefficient as a product
  have hev : ∀ᶠ τ in nhdsWithin t s, a τ < b τ :=
    ha.continuousWithinAt.eventually_lt hb.continuousWithinAt h
  have hc : HasDerivWithinAt (fun τ => Real.sqrt (2 * (i : ℝ) + 1) / 2 * Real.sqrt (b τ - a τ))
      (Real.sqrt (2 * (i : ℝ) + 1) / 2 * ((b' - a') / (2 * Real.sqrt (b t - a t)))) s t :=
    ((hb.sub ha).sqrt hpos.ne').const_mul _
  have hJ := hasDerivWithinAt_moment hu (legendre i) ha hb
  have hprod := hc.mul hJ
  have heq : ∀ τ, a τ < b τ → projection (fun x => u x τ) (a τ) (b τ) i =
      Real.sqrt (2 * (i : ℝ) + 1) / 2 * Real.sqrt (b τ - a τ) *
        ∫ ξ in (-1 : ℝ)..1, u (cellPoint (a τ) (b τ) ξ) τ * (legendre i).eval ξ := by
    intro τ hτ
    have hw : 0 < b τ - a τ := by linarith
    rw [projection_eq hτ, sqrt_split hτ]
    congr 1
    have h2 : Real.sqrt (b τ - a τ) * Real.sqrt (b τ - a τ) = b τ - a τ :=
      Real.mul_self_sqrt hw.le
    have h3 : Real.sqrt (b τ - a τ) ≠ 0 := (Real.sqrt_pos.2 hw).ne'
    field_simp
    linear_combination -h2
  refine (hprod.congr_of_eventuallyEq (hev.mono fun τ hτ => heq τ hτ) (heq t h)).congr_deriv ?_
  -- integration by parts
  set K : ℝ[X] := (C ((b' - a') / 2) * X + C ((a' + b') / 2 - mul)) * legendre i with hK
  have hKdeg : (derivative K).natDegree ≤ M := by
    refine (natDegree_derivative_le K).trans ?_
    have h1 : K.natDegree ≤ 1 + i := by
      refine natDegree_mul_le.trans (add_le_add ?_ hdeg)
      refine (natDegree_add_le _ _).trans (max_le ((natDegree_C_mul_le _ _).trans natDegree_X_le) ?_)
      simp
    omega
  have hg : ∀ ξ, HasDerivAt (fun ξ => u (cellPoint (a t) (b t) ξ) t)
      (deriv (fun y => u y t) (cellPoint (a t) (b t) ξ) * ((b t - a t) / 2)) ξ := by
    intro ξ
    have h1 := (hasDerivAt_of_contDiff hu (cellPoint (a t) (b t) ξ) t).1
    have h2 : HasDerivAt (fun ξ => cellPoint (a t) (b t) ξ) ((b t - a t) / 2) ξ := by
      unfold cellPoint
      simpa using ((hasDerivAt_id ξ).const_mul ((b t - a t) / 2)).add_const ((a t + b t) / 2)
    exact HasDerivAt.comp ξ h1 h2
  have hparts := intervalIntegral.integral_mul_deriv_eq_deriv_mul (a := -1) (b := 1)
    (u := fun ξ => K.eval ξ) (v := fun ξ => u (cellPoint (a t) (b t) ξ) t)
    (fun ξ _ => K.hasDerivAt ξ) (fun ξ _ => hg ξ)
    ((derivative K).continuous.intervalIntegrable _ _)
    ((hgx.mul continuous_const).intervalIntegrable _ _)
  have hm1 : cellPoint (a t) (b t) 1 = b t := by unfold cellPoint; ring
  have hm2 : cellPoint (a t) (b t) (-1) = a t := by unfold cellPoint; ring
  rw [← projection_moment hut h hKdeg, hm1, hm2] at hparts
  have hK1 : K.eval 1 = b' - mul := by
    simp only [hK, eval_mul, eval_add, eval_C, eval_X, legendre_eval_one]; ring
  have hK2 : K.eval (-1) = (a' - mul) * (-1) ^ i := by
    simp only [hK, eval_mul, eval_add, eval_C, eval_X, legendre_eval_neg_one]; ring
  rw [hK1, hK2] at hparts
  have hJ0 : ∫ ξ in (-1 : ℝ)..1, u (cellPoint (a t) (b t) ξ) t * (legendre i).eval ξ =
      I (legendre i * refPoly M (projection (fun x => u x t) (a t) (b t)) (b t - a t)) := by
    rw [projection_moment hut h (hdeg.trans hi)]
    congr 1; funext ξ; ring
  have hsplit : ∫ ξ in (-1 : ℝ)..1,
      (deriv (fun y => u y t) (cellPoint (a t) (b t) ξ) * cellPoint a' b' ξ +
        deriv (fun τ => u (cellPoint (a t) (b t) ξ) τ) t) * (legendre i).eval ξ =
      (2 / (b t - a t)) * (∫ ξ in (-1 : ℝ)..1, K.eval ξ *
        (deriv (fun y => u y t) (cellPoint (a t) (b t) ξ) * ((b t - a t) / 2))) +
      ∫ ξ in (-1 : ℝ)..1, (deriv (fun τ => u (cellPoint (a t) (b t) ξ) τ) t +
        mul * deriv (fun y => u y t) (cellPoint (a t) (b t) ξ)) * (legendre i).eval ξ := by
    rw [← intervalIntegral.integral_const_mul, ← intervalIntegral.integral_add]
    · congr 1; funext ξ
      simp only [hK, eval_mul, eval_add, eval_C, eval_X, cellPoint]
      field_simp
      ring
    · exact (continuous_const.mul (K.continuous.mul (hgx.mul continuous_const))).intervalIntegrable
        _ _
    · exact ((hgt.add (continuous_const.mul hgx)).mul
        (legendre i).continuous).intervalIntegrable _ _
  have hdK : derivative K = C ((b' - a') / 2) * legendre i +
      (C ((b' - a') / 2) * X + C ((a' + b') / 2 - mul)) * derivative (legendre i) := by
    simp only [hK, derivative_mul, derivative_add, derivative_C, derivative_X]
    ring
  set R := refPoly M (projection (fun x => u x t) (a t) (b t)) (b t - a t) with hR
  have e1 : I (derivative K * R) = (b' - a') / 2 * I (legendre i * R) +
      (b' - a') / 2 * I (X * derivative (legendre i) * R) +
      ((a' + b') / 2 - mul) * I (derivative (legendre i) * R) := by
    rw [← I_C_mul, ← I_C_mul, ← I_C_mul, ← I_add, ← I_add, hdK]
    congr 1; ring
  have e2 : I ((C (-(1 / 2) * (b' - a')) * legendre i + C (-(a' + b')) * derivative (legendre i) +
            C (-(b' - a')) * (X * derivative (legendre i))) * R) =
      -(1 / 2) * (b' - a') * I (legendre i * R) + -(a' + b') * I (derivative (legendre i) * R) +
        -(b' - a') * I (X * derivative (legendre i) * R) := by
    rw [← I_C_mul, ← I_C_mul, ← I_C_mul, ← I_add, ← I_add]
    congr 1; ring
  rw [projection_eq h, hsplit, hparts, hJ0, e1, e2, sqrt_split h]
  unfold slabBasis
  rw [ref_left h, ref_right h, legendre_eval_one, legendre_eval_neg_one, sqrt_split h]
  set Z := ∫ ξ in (-1 : ℝ)..1, (deriv (fun τ => u (cellPoint (a t) (b t) ξ) τ) t +
        mul * deriv (fun y => u y t) (cellPoint (a t) (b t) ξ)) * (legendre i).eval ξ
  have h2 : Real.sqrt (b t - a t) * Real.sqrt (b t - a t) = b t - a t := Real.mul_self_sqrt hpos.le
  have h3 : Real.sqrt (b t - a t) ≠ 0 := (Real.sqrt_pos.2 hpos).ne'
  set w := Real.sqrt (b t - a t) with hw
  rw [← h2]
  field_simp
  ring

end Verif.Lemmas
