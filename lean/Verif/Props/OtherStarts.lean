import Verif.Model.Sources
import Mathlib.Analysis.SpecialFunctions.Gaussian.GaussianIntegral
import Mathlib.Analysis.SpecialFunctions.Integrals.Basic

/-!
C143: the starts of slab runs other than plane and square pulses: Gaussian pulses, the start for the manufactured
solution, the dipole and the self-similar one.
-/

namespace Verif.Props

open Verif.Model Real MeasureTheory

/-- Scalar flux at the start: the integral over all directions. -/
noncomputable def startFlux (c : ICConfig) (x : ℝ) : ℝ := ∫ μ in (-1 : ℝ)..1, (icFunction c x μ).getD 0

/-- Slab runs without uncollided treatment, and without plane pulse, square pulse and square source. -/
structure OtherStart (c : ICConfig) : Prop where
  slab : c.geometry = .slab
  plain : c.uncollided = false
  plane : c.st 0 ≠ 1
  square : c.st 1 ≠ 1
  source : c.st 2 ≠ 1

theorem startFlux_const {c : ICConfig} {x v : ℝ} (h : ∀ μ, icFunction c x μ = some v) : startFlux c x = 2 * v := by
  unfold startFlux
  simp only [h, Option.getD_some, intervalIntegral.integral_const, smul_eq_mul]
  norm_num

/-! ### Gaussian pulses -/

theorem gaussian_total {σ : ℝ} (hσ : 0 < σ) : ∫ x : ℝ, exp (-x * x / σ ^ 2) = σ * √π := by
  have : (fun x : ℝ => exp (-x * x / σ ^ 2)) = fun x => exp (-(1 / σ ^ 2) * x ^ 2) := by
    funext x; congr 1; field_simp
  rw [this, integral_gaussian, div_div_eq_mul_div, div_one, mul_comm, sqrt_mul (by positivity), sqrt_sq hσ.le]

/-- C143: the flux of a Gaussian pulse is the strength in the middle, and falls to 1/e at `sigma`. -/
theorem c143_gaussian {c : ICConfig} (h : OtherStart c) (h3 : c.st 3 = 1) (hl : c.stLast ≠ 1) (x : ℝ) :
    startFlux c x = c.strength * exp (-x * x / c.sigma ^ 2) := by
  rw [startFlux_const (v := exp (-x * x / c.sigma ^ 2) * c.strength / 2)]
  · ring
  · intro μ
    simp [icFunction, h.slab, h.plain, h.plane, h.square, h.source, h3, hl, gaussianInitial]

theorem integral_greater : ∫ μ in (-1 : ℝ)..1, greater μ 0 = 1 := by
  have e1 : ∀ μ ∈ Set.uIoc (-1 : ℝ) 0, (fun _ => (0 : ℝ)) μ = greater μ 0 := by
    intro μ hμ
    rw [Set.uIoc_of_le (by norm_num)] at hμ
    simp [greater, hμ.2.not_gt]
  have e2 : ∀ μ ∈ Set.uIoc (0 : ℝ) 1, (fun _ => (1 : ℝ)) μ = greater μ 0 := by
    intro μ hμ
    rw [Set.uIoc_of_le (by norm_num)] at hμ
    simp [greater, hμ.1]
  have i1 : IntervalIntegrable (fun μ => greater μ 0) volume (-1) 0 :=
    intervalIntegrable_const.congr e1
  have i2 : IntervalIntegrable (fun μ => greater μ 0) volume 0 1 :=
    intervalIntegrable_const.congr e2
  rw [← intervalIntegral.integral_add_adjacent_intervals i1 i2,
    ← intervalIntegral.integral_congr_ae (Filter.Eventually.of_forall e1),
    ← intervalIntegral.integral_congr_ae (Filter.Eventually.of_forall e2)]
  simp

/-- C143: the Gaussian pulse that is not isotropic has the same flux, all of it to the right. -/
theorem c143_one_sided {c : ICConfig} (h : OtherStart c) (h3 : c.st 3 = 1) (hl : c.stLast = 1) (x : ℝ) :
    startFlux c x = c.strength * exp (-x * x / c.sigma ^ 2) ∧ ∀ μ ≤ 0, icFunction c x μ = some 0 := by
  have he : ∀ μ, icFunction c x μ = some (2 * exp (-x * x / c.sigma ^ 2) * c.strength * greater μ 0 / 2) := by
    intro μ
    simp [icFunction, h.slab, h.plain, h.plane, h.square, h.source, h3, hl, gaussianNonIso]
  constructor
  · unfold startFlux
    simp only [he, Option.getD_some]
    rw [show (fun μ => 2 * exp (-x * x / c.sigma ^ 2) * c.strength * greater μ 0 / 2) =
      fun μ => (c.strength * exp (-x * x / c.sigma ^ 2)) * greater μ 0 by funext μ; ring,
      intervalIntegral.integral_const_mul, integral_greater, mul_one]
  · intro μ hμ
    rw [he, greater, if_neg hμ.not_gt]
    simp

/-- C143: both contain `sqrt(pi) sigma` times the strength. -/
theorem c143_gaussian_total {c : ICConfig} (h : OtherStart c) (h3 : c.st 3 = 1) (hσ : 0 < c.sigma) :
    ∫ x, startFlux c x = c.strength * (c.sigma * √π) := by
  have : (fun x => startFlux c x) = fun x => c.strength * exp (-x * x / c.sigma ^ 2) := by
    funext x
    by_cases hl : c.stLast = 1
    · exact (c143_one_sided h h3 hl x).1
    · exact c143_gaussian h h3 hl x
  rw [this, integral_const_mul, gaussian_total hσ]

/-! ### Manufactured solution -/

/-- C143: the start for the manufactured solution is what its boundary condition has at time zero, and does not
depend on the strength. -/
theorem c143_manufactured {c : ICConfig} (h : OtherStart c) (h3 : c.st 3 = 0) (h4 : c.st 4 = 1) {f : FluxConfig}
    (hf : f.mms = true) (x μ : ℝ) :
    icFunction c x μ = some (bcFunc f x 0) ∧ icFunction c x μ = some (exp (-x ^ 2 / 2) / 2) := by
  constructor
  · simp [icFunction, h.slab, h.plain, h.plane, h.square, h.source, h3, h4, mmsIC, bcFunc, hf]
  · simp [icFunction, h.slab, h.plain, h.plane, h.square, h.source, h3, h4, mmsIC]
    ring

/-! ### Dipole -/

/-- C143: the flux of the dipole start, a static mesh with cells of width `|x1|` in the middle. -/
theorem c143_dipole {c : ICConfig} (hs : c.geometry = .slab) (hu : c.uncollided = false) (h0 : c.st 0 = 2)
    (h1 : c.st 1 ≠ 1) (h2 : c.st 2 ≠ 1) (h3 : c.st 3 ≠ 1) (h4 : c.st 4 ≠ 1) {w : ℝ} (hw : 0 < w) (hx : |c.x1| = w) (x : ℝ) :
    startFlux c x = c.strength / w * ((Set.Ioc 0 w).indicator 1 x - (Set.Ioc (-w) 0).indicator 1 x) := by
  rw [startFlux_const (v := dipoleIC c x / |c.x1|)]
  · rw [dipoleIC, hx]
    unfold greater Set.indicator
    simp only [Set.mem_Ioc, Pi.one_apply]
    by_cases a : -w < x <;> by_cases b : 0 < x <;> by_cases d : w < x
    all_goals first
      | (exfalso; linarith)
      | (have b' := not_lt.1 b; have d' := not_lt.1 d
         simp [a, b, d, b', d']; try ring)
      | (have d' := not_lt.1 d
         simp [a, b, d, d', b.not_ge]; try ring)
      | (simp [a, b, d, d.not_ge, b.not_ge]; try ring)
  · intro μ
    simp [icFunction, hs, hu, h0, h1, h2, h3, h4]

theorem integral_pos_part {w : ℝ} (hw : 0 < w) (f : ℝ → ℝ) :
    ∫ x, (Set.Ioc 0 w).indicator f x = ∫ x in (0 : ℝ)..w, f x := by
  rw [integral_indicator measurableSet_Ioc, intervalIntegral.integral_of_le hw.le]

theorem integral_neg_part {w : ℝ} (hw : 0 < w) (f : ℝ → ℝ) :
    ∫ x, (Set.Ioc (-w) 0).indicator f x = ∫ x in (-w)..0, f x := by
  rw [integral_indicator measurableSet_Ioc, intervalIntegral.integral_of_le (by linarith)]

/-- C143: it contains no particles, and its dipole moment is the strength times the width of a cell: on finer
meshes the same run has a weaker dipole. -/
theorem c143_dipole_moment {c : ICConfig} (hs : c.geometry = .slab) (hu : c.uncollided = false) (h0 : c.st 0 = 2)
    (h1 : c.st 1 ≠ 1) (h2 : c.st 2 ≠ 1) (h3 : c.st 3 ≠ 1) (h4 : c.st 4 ≠ 1) {w : ℝ} (hw : 0 < w) (hx : |c.x1| = w) :
    ∫ x, startFlux c x = 0 ∧ ∫ x, x * startFlux c x = c.strength * w := by
  have hf := c143_dipole hs hu h0 h1 h2 h3 h4 hw hx
  have ip : ∀ f : ℝ → ℝ, Continuous f → Integrable ((Set.Ioc 0 w).indicator f) := fun f hf =>
    (integrable_indicator_iff measurableSet_Ioc).2 ((hf.integrableOn_Icc).mono_set Set.Ioc_subset_Icc_self)
  have im : ∀ f : ℝ → ℝ, Continuous f → Integrable ((Set.Ioc (-w) 0).indicator f) := fun f hf =>
    (integrable_indicator_iff measurableSet_Ioc).2 ((hf.integrableOn_Icc).mono_set Set.Ioc_subset_Icc_self)
  constructor
  · simp only [hf]
    rw [integral_const_mul, integral_sub (ip 1 continuous_one) (im 1 continuous_one), integral_pos_part hw,
      integral_neg_part hw]
    simp
  · have e : (fun x => x * startFlux c x) = fun x => c.strength / w *
        ((Set.Ioc 0 w).indicator (fun y => y) x - (Set.Ioc (-w) 0).indicator (fun y => y) x) := by
      funext x
      rw [hf]
      unfold Set.indicator
      split_ifs <;> simp <;> ring
    rw [e, integral_const_mul, integral_sub (ip (fun y => y) continuous_id) (im (fun y => y) continuous_id), integral_pos_part hw,
      integral_neg_part hw, integral_id, integral_id]
    field_simp
    ring

/-- C143: only static meshes with an even number of cells hand the width to the start; for all others it is zero,
and the start divides by it. -/
theorem c143_dipole_width (c : BuildConfig) (hu : c.ic.uncollided = false) (h0 : c.ic.st 0 = 2) {ic : ICConfig}
    (h : c.icObject = some ic) : (c.moving = true ∨ c.Nspace % 2 = 1 → ic.x1 = 0) ∧
      (c.moving = false → c.Nspace % 2 = 0 → |ic.x1| = |c.edges (c.Nspace / 2 + 1) - c.edges (c.Nspace / 2)|) := by
  unfold BuildConfig.icObject at h
  constructor
  · intro hm
    rw [if_neg (by rintro ⟨a, -, -, b⟩; rcases hm with hm | hm <;> simp_all)] at h
    simp only [Option.some.injEq] at h
    rw [← h]
  · intro hm he
    rw [if_pos ⟨hm, h0, hu, he⟩] at h
    split_ifs at h
    simp only [Option.some.injEq] at h
    rw [← h, abs_sub_comm]

/-! ### Self-similar start -/

/-- C143: the self-similar start contains `2 sqrt 2` particles, the benchmark it is compared with one (C93). -/
theorem c143_self_similar {c : ICConfig} (hs : c.geometry = .slab) (hu : c.uncollided = false) (h0 : c.st 0 = 3)
    (h1 : c.st 1 ≠ 1) (h2 : c.st 2 ≠ 1) (h3 : c.st 3 ≠ 1) (h4 : c.st 4 ≠ 1) :
    ∫ x, startFlux c x = 2 * √2 := by
  have e : ∀ x, startFlux c x = 2 * selfSimPlane x := fun x => startFlux_const fun μ => by
    simp [icFunction, hs, hu, h0, h1, h2, h3, h4]
  set K : ℝ := 29.998 / 3 / 800 * 0.01 with hK
  have hK0 : 0 < K := by rw [hK]; norm_num
  have e2 : ∀ x, startFlux c x = 1 / √(π * 0.5) / √K * exp (-(1 / (4 * K)) * x ^ 2) := by
    intro x
    rw [e, selfSimPlane, ← hK]
    have : -x ^ 2 / 4 / (29.998 / 3 / 800) / 0.01 = -(1 / (4 * K)) * x ^ 2 := by rw [hK]; ring
    rw [this]; ring
  simp only [e2]
  rw [integral_const_mul, integral_gaussian]
  have h8 : √(π / (1 / (4 * K))) = √(π * 0.5) * √K * (2 * √2) := by
    rw [← sqrt_mul (by positivity), show (2 : ℝ) * √2 = √8 by
      rw [show (8 : ℝ) = 2 ^ 2 * 2 by norm_num, sqrt_mul (by norm_num), sqrt_sq (by norm_num)],
      ← sqrt_mul (by positivity)]
    congr 1
    field_simp
    norm_num
  rw [h8]
  have : √(π * 0.5) ≠ 0 := (sqrt_pos.2 (by positivity)).ne'
  have : √K ≠ 0 := (sqrt_pos.2 hK0).ne'
  field_simp

/-- Starts of all these kinds. -/
example : OtherStart ⟨[0, 0, 0, 1, 0, 0, 0], false, .slab, 1, 2, 3, 0⟩ ∧
    OtherStart ⟨[0, 0, 0, 1, 0, 0, 1], false, .slab, 1, 2, 3, 0⟩ ∧
    OtherStart ⟨[0, 0, 0, 0, 1, 0, 0], false, .slab, 1, 2, 3, 0⟩ := by
  refine ⟨⟨rfl, rfl, ?_, ?_, ?_⟩, ⟨rfl, rfl, ?_, ?_, ?_⟩, ⟨rfl, rfl, ?_, ?_, ?_⟩⟩ <;> decide

example : ∫ x, startFlux ⟨[0, 0, 0, 1, 0, 0, 0], false, .slab, 1, 2, 3, 0⟩ x = 6 * √π := by
  rw [c143_gaussian_total ⟨rfl, rfl, by decide, by decide, by decide⟩ rfl (by norm_num)]
  norm_num; ring

/-- A dipole on cells of width 1/10. -/
example : ∫ x, x * startFlux ⟨[2, 0, 0, 0, 0, 0, 0], false, .slab, 1, 1, 1, -1 / 10⟩ x = 1 * (1 / 10) :=
  (c143_dipole_moment rfl rfl rfl (by decide) (by decide) (by decide) (by decide) (by norm_num)
    (by norm_num [abs_div])).2

example : ∫ x, startFlux ⟨[3, 0, 0, 0, 0, 0, 0], false, .slab, 1, 1, 1, 0⟩ x = 2 * √2 :=
  c143_self_similar rfl rfl rfl (by decide) (by decide) (by decide) (by decide)

end Verif.Props
