import Verif.Lemmas.Separation
import Verif.Props.AllDirectionsLimit
import Verif.Props.Quadrature

/-! C141: runs in a sphere with the directions and weights of Gauss and Lobatto rules, against the transport
equation in all directions. -/

namespace Verif.Props

open Verif.Spec Verif.Model Verif.Lemmas Polynomial Set Filter Topology
open scoped ContDiff

/-! ### The rules -/

/-- C141: the points separate the weights: the sum of the weights before a point does not pass the point, the
sum including its own weight reaches it.  The weights are not negative and at most twice as large as the angular
cells of the redistribution term are wide. -/
theorem c141_separation {n : ℕ} {x w : ℕ → ℝ} (h : GaussLike n x w) :
    (∑ l ∈ Finset.range n, w l = 2) ∧ ∀ l < n,
      ∑ j ∈ Finset.range l, w j ≤ 1 + x l ∧ 1 + x l ≤ ∑ j ∈ Finset.range (l + 1), w j ∧
      0 ≤ w l ∧ w l ≤ 2 * angularWidth n x l :=
  ⟨h.total, fun _ hl => ⟨h.above hl, h.below hl, h.weight_nonneg hl, h.weight_le hl⟩⟩

/-- C141: with many directions the angular cells are narrow. -/
theorem c141_narrow {n : ℕ} {x w : ℕ → ℝ} (h : GaussLike n x w) (hn : 3 ≤ n) :
    ∀ l < n, angularWidth n x l ≤ 3 * √(Real.pi / (n - 2)) := fun _ hl => h.narrow hn hl

/-- C141: the angular cells of the Gauss rule are not too narrow. -/
theorem c141_cells_below {n : ℕ} {x w : ℕ → ℝ} (hx : DirectionSet n x)
    (h : ExactRule n x w (2 * n - 2)) : ∀ l < n, 1 / (n : ℝ) ^ 2 ≤ angularWidth n x l := by
  intro l hl
  have h1 := gauss_weight_ge hx h hl
  have h2 := (GaussLike.mk hx (Or.inl h)).weight_le hl
  have h3 : 2 / (n : ℝ) ^ 2 = 2 * (1 / (n : ℝ) ^ 2) := by ring
  linarith

/-- C141: sums over the directions are off by at most twice the widest angular cell. -/
theorem c141_rule {n : ℕ} {x w : ℕ → ℝ} (h : GaussLike n x w) {Δ : ℝ}
    (hΔ : ∀ l < n, angularWidth n x l ≤ Δ) : AngularRule n x (fun l => w l / 2) (2 * Δ) := by
  intro f hf D hD
  have ht := twiceBounded_of_contDiff hf hD
  have hD0 := ht.nonneg
  set y : ℕ → ℝ := fun k => ∑ j ∈ Finset.range k, w j - 1 with hy
  have hstep : ∀ l, y (l + 1) = y l + w l := fun l => by
    simp only [hy, Finset.sum_range_succ]; ring
  have hy0 : y 0 = -1 := by simp [hy]
  have hyn : y n = 1 := by simp only [hy, h.total]; norm_num
  have hi : ∀ a b, IntervalIntegrable f MeasureTheory.volume a b := fun a b =>
    hf.continuous.intervalIntegrable a b
  have hsum : ∫ m in (-1 : ℝ)..1, f m = ∑ l ∈ Finset.range n, ∫ m in (y l)..(y (l + 1)), f m := by
    rw [intervalIntegral.sum_integral_adjacent_intervals (fun k _ => hi _ _), hy0, hyn]
  have hcell : ∀ l < n, |(∫ m in (y l)..(y (l + 1)), f m) - w l * f (x l)| ≤ D * (2 * Δ * w l) := by
    intro l hl
    have hw := h.weight_nonneg hl
    have hxm := directionSet_mem h.points hl
    have hlo : y l ≤ x l := by have := h.above hl; simp only [hy]; linarith
    have hhi : x l ≤ y (l + 1) := by have := h.below hl; simp only [hy]; linarith
    have hyl : -1 ≤ y l := by
      have : 0 ≤ ∑ j ∈ Finset.range l, w j := Finset.sum_nonneg fun j hj =>
        h.weight_nonneg (by have := Finset.mem_range.1 hj; omega)
      simp only [hy]; linarith
    have hyr : y (l + 1) ≤ 1 := by
      have : ∑ j ∈ Finset.range (l + 1), w j ≤ ∑ j ∈ Finset.range n, w j :=
        Finset.sum_le_sum_of_subset_of_nonneg (Finset.range_subset_range.2 hl)
          fun j hj _ => h.weight_nonneg (Finset.mem_range.1 hj)
      rw [h.total] at this
      simp only [hy]; linarith
    have e : (∫ m in (y l)..(y (l + 1)), f m) - w l * f (x l) = ∫ m in (y l)..(y (l + 1)), (f m - f (x l)) := by
      rw [intervalIntegral.integral_sub (hi _ _) (by simp), intervalIntegral.integral_const, hstep]
      simp
    rw [e]
    have h1 := intervalIntegral.norm_integral_le_of_norm_le_const (a := y l) (b := y (l + 1))
      (f := fun m => f m - f (x l)) (C := D * w l) fun m hm => ?_
    · rw [Real.norm_eq_abs, hstep, add_sub_cancel_left, abs_of_nonneg hw] at h1
      rw [hstep]
      refine h1.trans ?_
      have h2 := h.weight_le hl
      have h3 := hΔ l hl
      rw [mul_assoc]
      refine mul_le_mul_of_nonneg_left ?_ hD0
      nlinarith
    · rw [uIoc_of_le (by rw [hstep]; linarith)] at hm
      have h2 := ht.lipschitz ⟨hxm.1, hxm.2⟩ (y := m) ⟨by linarith [hm.1], by linarith [hm.2]⟩
      rw [Real.norm_eq_abs]
      refine h2.trans (mul_le_mul_of_nonneg_left ?_ hD0)
      have h3 := hstep l
      exact abs_le.2 ⟨by linarith [hm.1, hm.2], by linarith [hm.1, hm.2]⟩
  have htot : |(∫ m in (-1 : ℝ)..1, f m) - ∑ l ∈ Finset.range n, w l * f (x l)| ≤ D * (2 * Δ * 2) := by
    rw [hsum, ← Finset.sum_sub_distrib]
    refine (Finset.abs_sum_le_sum_abs _ _).trans ((Finset.sum_le_sum fun l hl =>
      hcell l (Finset.mem_range.1 hl)).trans (le_of_eq ?_))
    rw [← Finset.mul_sum, ← Finset.mul_sum, h.total]
  have e2 : ∑ l ∈ Finset.range n, w l / 2 * f (x l) = (∑ l ∈ Finset.range n, w l * f (x l)) / 2 := by
    rw [Finset.sum_div]
    exact Finset.sum_congr rfl fun l _ => by ring
  rw [e2, ← sub_div, abs_div, abs_two, div_le_iff₀ two_pos]
  linarith

/-- C141: the roots of the Legendre polynomials, with their weights. -/
theorem c141_gauss {leg : ℕ → ℕ → ℝ} (hl : GaussPoints leg) {n : ℕ} (hn : 2 ≤ n) :
    ∃ w, ExactRule n (leg n) w (2 * n - 1) ∧ ∀ w, ExactRule n (leg n) w (2 * n - 2) →
      GaussLike n (leg n) w := by
  obtain ⟨w, hw⟩ := gauss_rule (by omega) (hl n (by omega))
  obtain ⟨y, hy, hy'⟩ := legendre_roots n
  have he := (hl n (by omega)).unique hy (legendre_natDegree_eq n)
    (fun e => (legendre_coeff n).ne' (by rw [e, coeff_zero]))
  refine ⟨w, hw, fun w hw => ⟨⟨hn, ?_, ?_, (hl n (by omega)).inc⟩, Or.inl hw⟩⟩
  · rw [he 0 (by omega)]; exact (hy' 0 (by omega)).1.le
  · rw [he (n - 1) (by omega)]; exact (hy' (n - 1) (by omega)).2.le

/-- C141: the points and weights of `quadrature` with `gauss_lobatto`, if the points are the roots. -/
theorem c141_lobatto {leg : ℕ → ℕ → ℝ} (hl : GaussPoints leg) {n : ℕ} (hn : 3 ≤ n) {xs ws : ℕ → ℝ}
    (h : LobattoQuadrature leg n xs ws) (hb : InBrackets leg n xs)
    (hr : ∀ i, i + 2 < n → (derivative (legendre (n - 1))).eval (xs (i + 1)) = 0) : GaussLike n xs ws :=
  ⟨lobatto_mono hl hn h hb, Or.inr ⟨h.first (by omega), h.last, fun p hp => c114_exact hl hn h hb hr p hp⟩⟩

/-- C141: the angular cells of `quadrature` with `gauss_lobatto` are not narrower than `1 / (n (n - 1))`. -/
theorem c141_lobatto_cells_below {leg : ℕ → ℕ → ℝ} (hl : GaussPoints leg) {n : ℕ} (hn : 3 ≤ n) {xs ws : ℕ → ℝ}
    (h : LobattoQuadrature leg n xs ws) (hb : InBrackets leg n xs)
    (hr : ∀ i, i + 2 < n → (derivative (legendre (n - 1))).eval (xs (i + 1)) = 0) {l : ℕ} (hln : l < n) :
    1 / ((n : ℝ) * ((n : ℝ) - 1)) ≤ angularWidth n xs l := by
  have hg := c141_lobatto hl hn h hb hr
  have hw := hg.weight_le hln
  have hnR : (3 : ℝ) ≤ n := by exact_mod_cast hn
  have hk : 0 < (n : ℝ) * ((n : ℝ) - 1) := by nlinarith
  suffices 2 / ((n : ℝ) * ((n : ℝ) - 1)) ≤ ws l by
    have e : 2 / ((n : ℝ) * ((n : ℝ) - 1)) = 2 * (1 / ((n : ℝ) * ((n : ℝ) - 1))) := by ring
    linarith
  rw [h.weights l hln]
  unfold lobattoWeight
  rw [if_neg (by omega)]
  split_ifs with h1
  · exact le_rfl
  · push Not at h1
    obtain ⟨i, rfl⟩ : ∃ i, l = i + 1 := ⟨l - 1, by omega⟩
    have hm := directionSet_mem hg.points hln
    have h0 : (legendre (n - 1)).eval (xs (i + 1)) ≠ 0 := by
      refine legendre_ne_zero_at (by omega) ?_
      unfold lobattoPoly
      rw [eval_mul, hr i (by omega), mul_zero]
    have h2 : (legendre (n - 1)).eval (xs (i + 1)) ^ 2 ≤ 1 :=
      (sq_le_one_iff_abs_le_one _).2 (legendre_abs_le _ hm.1 hm.2)
    rw [le_div_iff₀ (by positivity)]
    exact mul_le_of_le_one_right (by positivity) h2

/-- Gauss directions for all numbers of directions. -/
example : ∃ leg, GaussPoints leg ∧ ∀ n, 3 ≤ n → ∃ w, GaussLike n (leg n) w ∧
    AngularRule n (leg n) (fun l => w l / 2) (2 * (3 * √(Real.pi / (n - 2)))) ∧
    ∀ l < n, 1 / (n : ℝ) ^ 2 ≤ angularWidth n (leg n) l := by
  obtain ⟨leg, hl⟩ := gaussPoints_exists
  refine ⟨leg, hl, fun n hn => ?_⟩
  obtain ⟨w, hw, h⟩ := c141_gauss hl (n := n) (by omega)
  have hw' : ExactRule n (leg n) w (2 * n - 2) := fun p hp => hw p (by omega)
  exact ⟨w, h w hw', c141_rule (h w hw') (c141_narrow (h w hw') hn), c141_cells_below (h w hw').points hw'⟩

/-- Three Lobatto directions: the weight 4/3 of the middle one is larger than its angular cell, of width one. -/
example (leg : ℕ → ℕ → ℝ) (hl : GaussPoints leg) (xs ws : ℕ → ℝ) (h : LobattoQuadrature leg 3 xs ws) :
    GaussLike 3 xs ws ∧ ws 1 = 4 / 3 ∧ angularWidth 3 xs 1 = 1 := by
  have h3 := (c114_three hl).1 h
  refine ⟨c141_lobatto hl le_rfl h (fun i hi => ?_) (fun i hi => ?_), h3.2.2.1, ?_⟩
  · have : i = 0 := by omega
    subst this
    have hsym := (hl 2 (by omega)).symm (legendre_natDegree_eq _)
      (fun e => (legendre_coeff 2).ne' (by rw [e, coeff_zero])) (legendre_eval_neg _) 0 (by omega)
    have hinc := (hl 2 (by omega)).inc 0 (by omega)
    rw [show 2 - 1 - 0 = 0 + 1 from rfl] at hsym
    rw [show 3 - 1 = 2 from rfl, zero_add, h3.1.2.1]
    rw [zero_add] at hsym hinc
    constructor <;> linarith
  · have : i = 0 := by omega
    subst this
    rw [show 3 - 1 = 2 from rfl, zero_add, h3.1.2.1]
    norm_num [legendre, derivative_mul]
  · norm_num [angularWidth, angularEdge, h3.1.1, h3.1.2.1, h3.1.2.2]

/-! ### Runs -/

theorem gauss_ws {P : Problem} (h : GaussLike P.Nang P.mus P.rawWs) : P.ws = fun l => P.rawWs l / 2 := by
  funext l
  show P.rawWs l / ∑ j ∈ Finset.range P.Nang, P.rawWs j = _
  rw [h.total]

/-- Sizes of a run: `h` bounds the widths of the shells at the first and the last time, `ρ` the innermost edge
from below, `R` the radius, `A` the speeds of the directions relative to the edges, `W` and `Δ` the angular cells
from below and above. -/
structure GaussRun (P : Problem) (e d : ℕ → ℝ) (T ρ h A R W Δ : ℝ) : Prop where
  rule : GaussLike P.Nang P.mus P.rawWs
  cell : 0 < W
  cells : ∀ l < P.Nang, W ≤ angularWidth P.Nang P.mus l
  cellsAbove : ∀ l < P.Nang, angularWidth P.Nang P.mus l ≤ Δ
  inner : 0 < ρ
  innerFirst : ρ ≤ e 1
  innerLast : ρ ≤ e 1 + d 1 * T
  first : e P.mesh.N ≤ R
  last : e P.mesh.N + d P.mesh.N * T ≤ R
  widthFirst : ∀ k < P.mesh.N, e (k + 1) - e k ≤ h
  widthLast : ∀ k < P.mesh.N, e (k + 1) + d (k + 1) * T - (e k + d k * T) ≤ h
  speed : 0 ≤ A
  speeds : ∀ l < P.Nang, ∀ k ≤ P.mesh.N, |P.mus l - d k| ≤ A

theorem GaussRun.sizes {P : Problem} {e d : ℕ → ℝ} {T ρ h A R W Δ : ℝ}
    (H : GaussRun P e d T ρ h A R W Δ) : AngularMeshSizes P e d T h A R W Δ (2 * Δ) := by
  refine ⟨H.cell, H.cells, H.cellsAbove, ?_, H.first, H.last, H.widthFirst, H.widthLast, H.speed, H.speeds⟩
  rw [gauss_ws H.rule]
  exact c141_rule H.rule H.cellsAbove

theorem GaussRun.offsets {P : Problem} {e d : ℕ → ℝ} {T ρ h A R W Δ : ℝ}
    (H : GaussRun P e d T ρ h A R W Δ) : Offsets P e d T (Δ / 2) ρ 2 := by
  have hn := H.rule.points.two
  have hΔ : 0 ≤ Δ := H.cell.le.trans ((H.cells 0 (by omega)).trans (H.cellsAbove 0 (by omega)))
  refine ⟨by linarith, fun l hl => ?_, H.inner, H.innerFirst, H.innerLast, ?_⟩
  · have h1 := H.cellsAbove l hl
    have h2 : angularEdge P.Nang P.mus l ≤ P.mus l := by
      unfold angularEdge
      split_ifs with h3 h4
      · exact (directionSet_mem H.rule.points hl).1
      · omega
      · have := directionSet_lt H.rule.points (i := l - 1) (j := l) (by omega) hl
        linarith
    unfold angularWidth at h1
    unfold angularMid
    linarith
  · rw [gauss_ws H.rule]
    calc ∑ l ∈ Finset.range P.Nang, (P.rawWs l / 2) ^ 2 / (angularWidth P.Nang P.mus l / 2)
        ≤ ∑ l ∈ Finset.range P.Nang, P.rawWs l := by
          refine Finset.sum_le_sum fun l hl => ?_
          have hl := Finset.mem_range.1 hl
          have h1 := angularWidth_pos H.rule.points hl
          have h2 := H.rule.weight_nonneg hl
          have h3 := H.rule.weight_le hl
          rw [div_le_iff₀ (by linarith)]
          nlinarith
      _ = 2 := H.rule.total

/-- C141: what `solve` returns with `RK45` for the directions and weights of a Gauss or Lobatto rule. -/
theorem c141_rk45_error (M : ℕ) (hM : M ≤ 10) : ∃ C K : ℝ, 1 ≤ C ∧ 1 ≤ K ∧
    ∀ (P : Problem) (e d : ℕ → ℝ) (ρ h A B D R W Δ : ℝ) (F : Set ℝ) (ψ : ℝ → ℝ → ℝ → ℝ)
      (V0 : StateVec), AnyDirections P e d → GaussRun P e d P.mesh.tfinal ρ h A R W Δ → P.M = M →
      P.uncollided = false → 0 < P.mesh.tfinal →
      SmoothTransport M P.sigmaS (fun t => e P.mesh.N + d P.mesh.N * t) (fun _ => d P.mesh.N)
        P.mesh.tfinal F B D ψ → StartsFrom P V0 →
      ∃ Y, ∃ η₀ > 0, ∀ (es : List Event) (η : ℝ), 0 ≤ η → η ≤ η₀ → Arrives P es →
        (∀ s ∈ acceptedSteps es, s ≤ η) → ∀ estimate choose, ∃ Q,
          P.solve rk45 (rkInterpolant rk45 rk45Dense 4) es estimate choose = some Q ∧
          TransportErrorAtMost P e d choose ψ
            (2 * transportBound P e (Δ / 2) ρ 2 h A B D R W Δ (2 * Δ) C K V0 ψ + Y * η ^ 10)
            (R ^ 3 * (2 * (D * (2 * Δ))) ^ 2) Q := by
  obtain ⟨C, K, hC, hK, hb⟩ := c139_rk45_error M hM
  refine ⟨C, K, hC, hK, fun P e d ρ h A B D R W Δ F ψ V0 hP H hPM hun hT hψ hV0 => ?_⟩
  have h1 := hb P e d _ ρ 2 h A B D R W Δ _ F ψ V0 hP H.offsets hPM hun hT H.sizes hψ
    (by rw [H.rule.total]; norm_num) hV0
  rwa [H.rule.total] at h1

/-- C141: what `solve` returns with `DOP853` for the directions and weights of a Gauss or Lobatto rule. -/
theorem c141_dop853_error (M : ℕ) (hM : M ≤ 10) : ∃ C K : ℝ, 1 ≤ C ∧ 1 ≤ K ∧
    ∀ (P : Problem) (e d : ℕ → ℝ) (ρ h A B D R W Δ : ℝ) (F : Set ℝ) (ψ : ℝ → ℝ → ℝ → ℝ)
      (V0 : StateVec) (α : ℝ), AnyDirections P e d → GaussRun P e d P.mesh.tfinal ρ h A R W Δ → P.M = M →
      P.uncollided = false → 0 < P.mesh.tfinal →
      SmoothTransport M P.sigmaS (fun t => e P.mesh.N + d P.mesh.N * t) (fun _ => d P.mesh.N)
        P.mesh.tfinal F B D ψ → StartsFrom P V0 →
      ∃ Y, 0 ≤ Y ∧ ∃ η₀ > 0, ∀ (c : DopCoefficients) (ε ε' : ℝ), 0 ≤ ε → DopLike c α ε ε' →
        ∀ (es : List Event) (η : ℝ), 0 ≤ η → η ≤ η₀ → Arrives P es →
        (∀ s ∈ acceptedSteps es, s ≤ η) → ∀ estimate choose, ∃ Q,
          P.solve c.tableau (P.dopDenseOutput c) es estimate choose = some Q ∧
          TransportErrorAtMost P e d choose ψ
            (2 * transportBound P e (Δ / 2) ρ 2 h A B D R W Δ (2 * Δ) C K V0 ψ + Y * (ε + η ^ 8) ^ 2)
            (R ^ 3 * (2 * (D * (2 * Δ))) ^ 2) Q := by
  obtain ⟨C, K, hC, hK, hb⟩ := c139_dop853_error M hM
  refine ⟨C, K, hC, hK, fun P e d ρ h A B D R W Δ F ψ V0 α hP H hPM hun hT hψ hV0 => ?_⟩
  have h1 := hb P e d _ ρ 2 h A B D R W Δ _ F ψ V0 α hP H.offsets hPM hun hT H.sizes hψ
    (by rw [H.rule.total]; norm_num) hV0
  rwa [H.rule.total] at h1

/-- C141: the program converges as the numbers of Gauss directions and shells grow, if the directions are many
against the innermost shell and the shells narrow against the narrowest angular cell. -/
theorem c141_convergence (M : ℕ) (hM : M ≤ 10) (P : ℕ → Problem) (e d : ℕ → ℕ → ℝ)
    (scat T A B D R L Z : ℝ) (ρ h W : ℕ → ℝ) (F : Set ℝ) (G : ℕ → Set ℝ)
    (ψ : ℝ → ℝ → ℝ → ℝ) (V : ℕ → ℝ → ℕ → ℕ → ℕ → ℝ)
    (hP : ∀ i, AnyDirections (P i) (e i) (d i)) (hn : ∀ i, 3 ≤ (P i).Nang)
    (hS : ∀ i, GaussRun (P i) (e i) (d i) T (ρ i) (h i) A R (W i) (3 * √(Real.pi / ((P i).Nang - 2))))
    (hPM : ∀ i, (P i).M = M) (hc : ∀ i, (P i).sigmaS = scat)
    (hψ : ∀ i, SmoothTransport M scat (fun t => e i (P i).mesh.N + d i (P i).mesh.N * t)
      (fun _ => d i (P i).mesh.N) T F B D ψ)
    (hL : ∀ i, ((P i).mesh.N + 1) * h i ≤ L) (hZ : ∀ i, 1 ≤ Z * ρ i * √((P i).Nang - 2))
    (hG : ∀ i, (G i).Finite) (hV : ∀ i, ProgramSolutionOn (P i) 0 T (G i) (V i))
    (hh : Tendsto h atTop (𝓝 0)) (hN : Tendsto (fun i => (P i).Nang) atTop atTop)
    (hW : Tendsto (fun i => h i ^ (M + 1) / W i) atTop (𝓝 0))
    (h0 : Tendsto (fun i => sphereSqDistance (P i).Nang (cellWs (P i)) (P i).mesh.N M (e i) (V i 0)
      fun l _ r => ψ r ((P i).mus l) 0) atTop (𝓝 0)) (hT : 0 ≤ T) :
    ∃ β : ℕ → ℝ, Tendsto β atTop (𝓝 0) ∧ ∀ i, ∀ t ∈ Icc 0 T,
      sphereSqDistance (P i).Nang (cellWs (P i)) (P i).mesh.N M (fun k => e i k + d i k * t) (V i t)
        (fun l _ r => ψ r ((P i).mus l) t) ≤ β i := by
  have hΔ : Tendsto (fun i => 3 * √(Real.pi / (((P i).Nang : ℝ) - 2))) atTop (𝓝 0) := by
    have h1 : Tendsto (fun i => ((P i).Nang : ℝ) - 2) atTop atTop :=
      tendsto_atTop_add_const_right _ _ (tendsto_natCast_atTop_atTop.comp hN)
    have h2 : Tendsto (fun i => Real.pi / (((P i).Nang : ℝ) - 2)) atTop (𝓝 0) := h1.const_div_atTop _
    have h3 := (h2.sqrt).const_mul 3
    rwa [Real.sqrt_zero, mul_zero] at h3
  have hω := hΔ.const_mul 2
  rw [mul_zero] at hω
  refine c139_convergence M hM P e d scat T 2 A B D R L (3 / 2 * √Real.pi * Z) _ ρ h W _ _ F G ψ V hP
    (fun i => (hS i).offsets) hPM hc (fun i => (hS i).sizes) hψ hL (fun i => ?_) hG hV hh hΔ hω hW h0 hT
  have h1 : (0 : ℝ) < ((P i).Nang : ℝ) - 2 := by
    have : (3 : ℝ) ≤ (P i).Nang := by exact_mod_cast hn i
    linarith
  have h2 : 0 < √(((P i).Nang : ℝ) - 2) := Real.sqrt_pos.2 h1
  rw [Real.sqrt_div Real.pi_pos.le]
  have h3 : √Real.pi / √(((P i).Nang : ℝ) - 2) ≤ √Real.pi * (Z * ρ i) := by
    rw [div_le_iff₀ h2]
    nlinarith [hZ i, Real.sqrt_nonneg Real.pi]
  linarith

/-! ### Free flight with Gauss directions -/

theorem contDiff_radial (k : ℕ) : ∀ {F : ℝ × ℝ × ℝ → ℝ}, ContDiff ℝ ∞ F →
    ContDiff ℝ ∞ fun z : ℝ × ℝ × ℝ => iteratedDeriv k (fun r => F (r, z.2.1, z.2.2)) z.1 := by
  induction k with
  | zero => exact fun {F} hF => by simpa using hF
  | succ k ih =>
    intro F hF
    have h1 : ContDiff ℝ ∞ fun z => fderiv ℝ F z (1, 0, 0) :=
      (hF.fderiv_right (m := ∞) (by norm_num)).clm_apply contDiff_const
    have h2 := ih h1
    refine (congrArg (ContDiff ℝ ∞) (funext fun z : ℝ × ℝ × ℝ => ?_)).mpr h2
    rw [iteratedDeriv_succ']
    congr 1
    funext r
    have h3 : HasFDerivAt F (fderiv ℝ F (r, z.2.1, z.2.2)) (r, z.2.1, z.2.2) :=
      (hF.differentiable (by norm_num) _).hasFDerivAt
    have h4 : HasDerivAt (fun r : ℝ => (r, z.2.1, z.2.2)) (1, 0, 0) r :=
      (hasDerivAt_id r).prodMk ((hasDerivAt_const r _).prodMk (hasDerivAt_const r _))
    exact (h3.comp_hasDerivAt r h4).deriv

theorem contDiff_freeFlight_all : ContDiff ℝ ∞ fun z : ℝ × ℝ × ℝ => freeFlight z.1 z.2.1 z.2.2 := by
  have hr : ContDiff ℝ ∞ fun z : ℝ × ℝ × ℝ => z.1 := contDiff_fst
  have hm : ContDiff ℝ ∞ fun z : ℝ × ℝ × ℝ => z.2.1 := contDiff_fst.comp contDiff_snd
  have ht : ContDiff ℝ ∞ fun z : ℝ × ℝ × ℝ => z.2.2 := contDiff_snd.comp contDiff_snd
  have ho : ContDiff ℝ ∞ fun z : ℝ × ℝ × ℝ => originSq z.1 z.2.1 z.2.2 :=
    ((hr.pow 2).sub (((contDiff_const.mul hr).mul hm).mul ht)).add (ht.pow 2)
  exact (Real.contDiff_exp.comp ht.neg).mul ((contDiff_ballProfile (n := ⊤)).comp ho)

theorem contDiff_freeFlight_r (μ t : ℝ) : ContDiff ℝ ∞ fun r => freeFlight r μ t :=
  contDiff_freeFlight_all.comp (contDiff_id.prodMk (contDiff_const.prodMk contDiff_const))

theorem contDiff_freeFlight_order (M : ℕ) (μ t : ℝ) : ContDiff ℝ (M + 1) fun r => freeFlight r μ t :=
  (contDiff_freeFlight_r μ t).of_le (by exact_mod_cast le_top)

theorem freeFlight_smooth_all (M : ℕ) :
    ∃ B D, SmoothTransport M 0 (fun _ => 1 / 2) (fun _ => 0) 2 ∅ B D freeFlight := by
  obtain ⟨_, D, h⟩ := freeFlight_smooth
  have hc := (contDiff_radial (M + 1) contDiff_freeFlight_all).continuous
  obtain ⟨B, hB⟩ := (isCompact_Icc.prod (isCompact_Icc.prod isCompact_Icc)).exists_bound_of_continuousOn
    (s := Icc (0 : ℝ) (1 / 2) ×ˢ (Icc (-1 : ℝ) 1 ×ˢ Icc (0 : ℝ) 2)) hc.continuousOn
  refine ⟨B, D, h.finite, h.transport, fun t _ μ _ => ?_, fun t ht μ hμ r hr => ?_, h.angularBound⟩
  · exact contDiff_freeFlight_order M μ t
  · exact hB (r, μ, t) ⟨hr, hμ, ht⟩

/-- Arguments of `solve` for a sphere at rest without scattering, with Gauss directions. -/
noncomputable def gaussFlight (inv : (ℕ → ℕ → ℝ) → ℕ → ℕ → ℝ) (leg w : ℕ → ℕ → ℝ) (M n N : ℕ) : Problem :=
  { exampleCritical inv N with
    Nang := n, M := M, mus := leg n, rawWs := w n, sigmaS := 0, tables := exactTables (M + 1) }

theorem gaussFlight_any {inv : (ℕ → ℕ → ℝ) → ℕ → ℕ → ℝ} {leg w : ℕ → ℕ → ℝ} (hl : GaussPoints leg) {M n N : ℕ}
    (hi : InverseCorrect M inv) (hM : M ≤ 10) (hn : 2 ≤ n) (hN : 2 ≤ N) :
    AnyDirections (gaussFlight inv leg w M n N) (evenEdges N (1 / 2)) (evenEdges N 0) where
  problem :=
    { sphere := rfl
      mesh := exampleCritical_mesh (by omega)
      order := hM
      tables := exactTables_exact _
      inverse := hi
      directions := hn
      checks := by
        intro l hl' h2
        have hl' : l < n := hl'
        have h2 : n ≤ 2 * l := h2
        have hsym := (hl n (by omega)).symm (legendre_natDegree_eq _)
          (fun e => (legendre_coeff n).ne' (by rw [e, coeff_zero])) (legendre_eval_neg _) l hl'
        have hlt := inc_lt (hl n (by omega)).inc (i := n - 1 - l) (j := l) (by omega) hl'
        show 0 < leg n l ∧ |leg n (n - l - 1) - -leg n l| ≤ _
        rw [show n - l - 1 = n - 1 - l by omega]
        refine ⟨by linarith, ?_⟩
        rw [hsym, sub_self, abs_zero]
        positivity
      opacity := rfl }
  shells := hN
  noSource := by simp [SourceAsked, gaussFlight, exampleCritical]
  noBoundary := rfl
  noManufactured := by simp [gaussFlight, exampleCritical, exampleCriticalMesh, MeshConfig.st]
  directions := by
    obtain ⟨w, hw, h⟩ := c141_gauss hl hn
    exact (h w fun p hp => hw p (by omega)).points
  scattering := le_rfl

theorem gaussFlight_run (inv : (ℕ → ℕ → ℝ) → ℕ → ℕ → ℝ) {leg w : ℕ → ℕ → ℝ} (hl : GaussPoints leg) {M n N : ℕ}
    (hn : 3 ≤ n) (hN : 2 ≤ N) (hw : ExactRule n (leg n) (w n) (2 * n - 1)) :
    GaussRun (gaussFlight inv leg w M n N) (evenEdges N (1 / 2)) (evenEdges N 0) 2 ((1 / 2) / N) ((1 / 2) / N) 1
      (1 / 2) (1 / (n : ℝ) ^ 2) (3 * √(Real.pi / (n - 2))) := by
  have hN0 : (0 : ℝ) < N := by exact_mod_cast (by omega : 0 < N)
  have hn0 : (0 : ℝ) < n := by exact_mod_cast (by omega : 0 < n)
  have hex : ExactRule n (leg n) (w n) (2 * n - 2) := fun p hp => hw p (by omega)
  obtain ⟨-, -, hg⟩ := c141_gauss hl (n := n) (by omega)
  have hg := hg _ hex
  have hNe : (gaussFlight inv leg w M n N).mesh.N = N := rfl
  have hz : ∀ k, evenEdges N 0 k = 0 := fun k => by simp [evenEdges]
  have hend : evenEdges N (1 / 2) N = 1 / 2 := by simp only [evenEdges, div_self hN0.ne', one_mul]
  have e1 : evenEdges N (1 / 2) 1 = (1 / 2) / N := by simp only [evenEdges]; push_cast; ring
  refine ⟨hg, by positivity, c141_cells_below hg.points hex, c141_narrow hg hn, by positivity, e1.ge,
    by rw [e1, hz]; simp, by rw [hNe, hend], by rw [hNe, hend, hz]; norm_num,
    fun k _ => (evenEdges_width (N := N) (1 / 2) k).le, fun k _ => ?_, zero_le_one, fun l hl k _ => ?_⟩
  · rw [hz, hz, zero_mul, add_zero, add_zero]
    exact (evenEdges_width (N := N) (1 / 2) k).le
  · rw [hz, sub_zero]
    have := directionSet_mem hg.points hl
    exact abs_le.2 ⟨this.1, this.2⟩

theorem gaussFlight_exact (inv : (ℕ → ℕ → ℝ) → ℕ → ℕ → ℝ) (leg w : ℕ → ℕ → ℝ) (M : ℕ) : ∃ B D, ∀ n N : ℕ, 2 ≤ N →
    SmoothTransport M (gaussFlight inv leg w M n N).sigmaS
      (fun t => evenEdges N (1 / 2) (gaussFlight inv leg w M n N).mesh.N
        + evenEdges N 0 (gaussFlight inv leg w M n N).mesh.N * t)
      (fun _ => evenEdges N 0 (gaussFlight inv leg w M n N).mesh.N) 2 ∅ B D freeFlight := by
  obtain ⟨B, D, h⟩ := freeFlight_smooth_all M
  refine ⟨B, D, fun n N hN => ?_⟩
  have hN0 : (0 : ℝ) < N := by exact_mod_cast (by omega : 0 < N)
  have e1 : (fun t => evenEdges N (1 / 2) (gaussFlight inv leg w M n N).mesh.N
        + evenEdges N 0 (gaussFlight inv leg w M n N).mesh.N * t) = fun _ => (1 / 2 : ℝ) := by
    funext t
    show evenEdges N (1 / 2) N + evenEdges N 0 N * t = 1 / 2
    simp only [evenEdges, div_self hN0.ne', one_mul, zero_mul, add_zero]
  have e2 : (fun _ : ℝ => evenEdges N 0 (gaussFlight inv leg w M n N).mesh.N) = fun _ => (0 : ℝ) := by
    funext t
    simp [evenEdges]
  rw [e1, e2]
  exact h

theorem gauss_everything : ∃ leg w : ℕ → ℕ → ℝ, GaussPoints leg ∧
    ∀ n, 2 ≤ n → ExactRule n (leg n) (w n) (2 * n - 1) := by
  choose leg hleg using fun n => legendre_roots n
  have hl : GaussPoints leg := fun n _ => (hleg n).1
  have hw : ∀ n, ∃ w, 2 ≤ n → ExactRule n (leg n) w (2 * n - 1) := fun n => by
    by_cases h : 2 ≤ n
    · obtain ⟨w, hw, -⟩ := c141_gauss hl h
      exact ⟨w, fun _ => hw⟩
    · exact ⟨fun _ => 0, fun h' => absurd h' h⟩
  choose w hw using hw
  exact ⟨leg, w, hl, hw⟩

/-- `solve` with `RK45`, `n` Gauss directions and `N` shells against free flight. -/
example : ∃ (inv : (ℕ → ℕ → ℝ) → ℕ → ℕ → ℝ) (leg w : ℕ → ℕ → ℝ), GaussPoints leg ∧
    (∀ n, 2 ≤ n → ExactRule n (leg n) (w n) (2 * n - 1)) ∧
    ∃ C K B D : ℝ, ∀ n N : ℕ, 3 ≤ n → 2 ≤ N → ∃ V0, StartsFrom (gaussFlight inv leg w 4 n N) V0 ∧
    ∃ Y, ∃ η₀ > 0, ∀ (es : List Event) (η : ℝ),
      0 ≤ η → η ≤ η₀ → Arrives (gaussFlight inv leg w 4 n N) es → (∀ s ∈ acceptedSteps es, s ≤ η) →
      ∃ Q, (gaussFlight inv leg w 4 n N).solve rk45 (rkInterpolant rk45 rk45Dense 4) es false none = some Q ∧
        TransportErrorAtMost (gaussFlight inv leg w 4 n N) (evenEdges N (1 / 2)) (evenEdges N 0) none freeFlight
          (2 * transportBound (gaussFlight inv leg w 4 n N) (evenEdges N (1 / 2))
            (3 * √(Real.pi / (n - 2)) / 2) ((1 / 2) / N) 2 ((1 / 2) / N) 1
            B D (1 / 2) (1 / (n : ℝ) ^ 2) (3 * √(Real.pi / (n - 2))) (2 * (3 * √(Real.pi / (n - 2)))) C K V0 freeFlight
            + Y * η ^ 10)
          ((1 / 2) ^ 3 * (2 * (D * (2 * (3 * √(Real.pi / (n - 2)))))) ^ 2) Q := by
  obtain ⟨inv, hi⟩ := inverse_exists 4
  obtain ⟨leg, w, hl, hw⟩ := gauss_everything
  obtain ⟨C, K, -, -, hK⟩ := c141_rk45_error 4 (by norm_num)
  obtain ⟨B, D, hψ⟩ := gaussFlight_exact inv leg w 4
  refine ⟨inv, leg, w, hl, hw, C, K, B, D, fun n N hn hN => ?_⟩
  have hs := gaussFlight_any (w := w) hl hi (by norm_num) (by omega : 2 ≤ n) hN
  obtain ⟨st, hst, -⟩ := hs.problem.mesh.moves
  obtain ⟨V0, hV0⟩ := initial_exists (P := gaussFlight inv leg w 4 n N) hst rfl
    (by simp [gaussFlight, exampleCritical, exampleCriticalMesh, MeshConfig.st])
    (Or.inr (Or.inl (by simp [gaussFlight, exampleCritical, exampleCriticalMesh, MeshConfig.st])))
    (by norm_num [gaussFlight])
  obtain ⟨Y, η₀, h0, h1⟩ := hK (gaussFlight inv leg w 4 n N) _ _ _ _ _ _ _ _ _ _ _ _ V0 hs
    (gaussFlight_run inv hl hn hN (hw n (by omega))) rfl rfl zero_lt_two (hψ n N hN) hV0
  exact ⟨V0, hV0, Y, η₀, h0, fun es η a1 a2 a3 a4 => h1 es η a1 a2 a3 a4 false none⟩

/-- Started from the best piecewise polynomials, the program with `N` shells and `N ^ 2 + 2` Gauss directions
converges to free flight. -/
example : ∃ (inv : (ℕ → ℕ → ℝ) → ℕ → ℕ → ℝ) (leg w : ℕ → ℕ → ℝ), GaussPoints leg ∧
    (∀ n, 2 ≤ n → ExactRule n (leg n) (w n) (2 * n - 1)) ∧
    ∃ (V : ℕ → ℝ → ℕ → ℕ → ℕ → ℝ) (β : ℕ → ℝ),
    (∀ i, ProgramSolutionOn (gaussFlight inv leg w 4 ((i + 2) ^ 2 + 2) (i + 2)) 0 2 {0, 1} (V i)) ∧
    Tendsto β atTop (𝓝 0) ∧ ∀ i, ∀ t ∈ Icc (0 : ℝ) 2,
      sphereSqDistance ((i + 2) ^ 2 + 2) (cellWs (gaussFlight inv leg w 4 ((i + 2) ^ 2 + 2) (i + 2))) (i + 2) 4
        (evenEdges (i + 2) (1 / 2)) (V i t) (fun l _ r => freeFlight r (leg ((i + 2) ^ 2 + 2) l) t) ≤ β i := by
  obtain ⟨inv, hi⟩ := inverse_exists 4
  obtain ⟨leg, w, hl, hw⟩ := gauss_everything
  obtain ⟨B, D, hψ⟩ := gaussFlight_exact inv leg w 4
  refine ⟨inv, leg, w, hl, hw, ?_⟩
  set n : ℕ → ℕ := fun i => (i + 2) ^ 2 + 2 with hn
  have hn3 : ∀ i, 3 ≤ n i := fun i => by have : 0 < (i + 2) ^ 2 := by positivity
                                         simp only [hn]; omega
  have hN2 : ∀ i : ℕ, 2 ≤ i + 2 := fun i => by omega
  have hany := fun i => gaussFlight_any (w := w) hl hi (by norm_num) (by have := hn3 i; omega : 2 ≤ n i) (hN2 i)
  have hpos : ∀ i : ℕ, (0 : ℝ) < ((i + 2 : ℕ) : ℝ) := fun i => by positivity
  have hlt : ∀ i k, evenEdges (i + 2) (1 / 2) k < evenEdges (i + 2) (1 / 2) (k + 1) := fun i k => by
    have h1 := evenEdges_width (N := i + 2) (1 / 2) k
    have h2 : (0 : ℝ) < 1 / 2 / ((i + 2 : ℕ) : ℝ) := by have := hpos i; positivity
    linarith
  have hB : ∀ μ ∈ Icc (-1 : ℝ) 1, ∀ r ∈ Icc (0 : ℝ) (1 / 2),
      |iteratedDeriv 5 (fun r => freeFlight r μ 0) r| ≤ B := by
    intro μ hμ r hr
    have h := (hψ 3 2 le_rfl).radialBound 0 (by norm_num) μ hμ r
    refine h ⟨hr.1, hr.2.trans ?_⟩
    show 1 / 2 ≤ evenEdges 2 (1 / 2) 2 + evenEdges 2 0 2 * 0
    norm_num [evenEdges]
  have hrange : ∀ i, ∀ k < i + 2, ∀ r ∈ Icc (evenEdges (i + 2) (1 / 2) k) (evenEdges (i + 2) (1 / 2) (k + 1)),
      r ∈ Icc (0 : ℝ) (1 / 2) := fun i k hk r hr => by
    refine ⟨le_trans ?_ hr.1, hr.2.trans ?_⟩
    · unfold evenEdges; positivity
    · unfold evenEdges
      have : ((k + 1 : ℕ) : ℝ) / ((i + 2 : ℕ) : ℝ) ≤ 1 := by
        rw [div_le_one (hpos i)]
        exact_mod_cast hk
      linarith
  have hU : ∀ i l k, ∃ U : ℕ → ℝ, l < n i → k < i + 2 →
      ∀ r ∈ Icc (evenEdges (i + 2) (1 / 2) k) (evenEdges (i + 2) (1 / 2) (k + 1)),
      |sphereField 4 U (evenEdges (i + 2) (1 / 2) k) (evenEdges (i + 2) (1 / 2) (k + 1)) r
        - freeFlight r (leg (n i) l) 0| ≤ B * ((1 / 2) / ((i + 2 : ℕ) : ℝ)) ^ 5 / ((Nat.factorial 4 : ℕ) : ℝ) := by
    intro i l k
    by_cases hlk : l < n i ∧ k < i + 2
    · have hm := directionSet_mem (hany i).directions hlk.1
      have hc := contDiff_freeFlight_order 4 (leg (n i) l) 0
      obtain ⟨U, hU⟩ := exists_close_sphere_field 4 (B := B) (hlt i k)
        (f := fun r => freeFlight r (leg (n i) l) 0) hc.contDiffOn
        (fun y hy => by
          rw [iteratedDerivWithin_eq_iteratedDeriv (uniqueDiffOn_Icc (hlt i k))
            hc.contDiffAt hy]
          exact hB _ ⟨hm.1, hm.2⟩ y (hrange i k hlk.2 y hy))
      refine ⟨U, fun _ _ r hr => ?_⟩
      have := hU r hr
      rwa [evenEdges_width] at this
    · exact ⟨fun _ => 0, fun h1 h2 => absurd ⟨h1, h2⟩ hlk⟩
  choose U hU using hU
  have hw' := fun i => c110_wellposed_partial (hany i).problem (Or.inl (hany i).noSource) zero_le_two
    (fun l k => U i l k)
  choose V hV using hw'
  have h1 : ∀ i, max 0 (min (gaussFlight inv leg w 4 (n i) (i + 2)).mesh.t0 2) = 1 := fun i => by
    have : (gaussFlight inv leg w 4 (n i) (i + 2)).mesh.t0 = 1 := rfl
    rw [this]
    norm_num
  have hV1 : ∀ i, ProgramSolutionOn (gaussFlight inv leg w 4 (n i) (i + 2)) 0 2 {0, 1} (V i) := fun i => by
    have := (hV i).1.1
    rwa [h1 i] at this
  have hlim : Tendsto (fun i : ℕ => ((i + 2 : ℕ) : ℝ)) atTop atTop :=
    tendsto_natCast_atTop_atTop.comp (tendsto_add_atTop_nat 2)
  have hhalf : Tendsto (fun i : ℕ => (1 / 2) / ((i + 2 : ℕ) : ℝ)) atTop (𝓝 0) :=
    tendsto_const_nhds.div_atTop hlim
  have hw0 : ∀ i, ∀ l < n i, 0 ≤ cellWs (gaussFlight inv leg w 4 (n i) (i + 2)) l :=
    fun i l hl => ((hany i).cell l hl).le
  have hw1 : ∀ i, ∑ l ∈ Finset.range (n i), cellWs (gaussFlight inv leg w 4 (n i) (i + 2)) l = 1 := fun i =>
    (cell_weights (p := cellParams (gaussFlight inv leg w 4 (n i) (i + 2)).params) (hany i).directions
      fun _ _ => rfl).2
  have hinit : Tendsto (fun i => sphereSqDistance (n i) (cellWs (gaussFlight inv leg w 4 (n i) (i + 2)))
      (i + 2) 4 (evenEdges (i + 2) (1 / 2)) (V i 0)
      fun l _ r => freeFlight r (leg (n i) l) 0) atTop (𝓝 0) := by
    have hz : Tendsto (fun i : ℕ => (1 / 2 : ℝ) ^ 3 *
        (B * ((1 / 2) / ((i + 2 : ℕ) : ℝ)) ^ 5 / ((Nat.factorial 4 : ℕ) : ℝ)) ^ 2) atTop
        (𝓝 ((1 / 2 : ℝ) ^ 3 * (B * 0 ^ 5 / ((Nat.factorial 4 : ℕ) : ℝ)) ^ 2)) :=
      ((((hhalf.pow 5).const_mul B).div_const _).pow 2).const_mul _
    rw [show (1 / 2 : ℝ) ^ 3 * (B * 0 ^ 5 / ((Nat.factorial 4 : ℕ) : ℝ)) ^ 2 = 0 by simp] at hz
    refine squeeze_zero (fun i => ?_) (fun i => ?_) hz
    · exact sphereSqDistance_nonneg (hw0 i) _ _ (fun k _ => hlt i k) _ _
    · have hc := sphereSqDistance_congr_state (n := n i) (N := i + 2) (M := 4)
        (ws := cellWs (gaussFlight inv leg w 4 (n i) (i + 2))) (e := evenEdges (i + 2) (1 / 2))
        (u := fun l _ r => freeFlight r (leg (n i) l) 0) (V := V i 0) (W := U i)
        (fun _ _ => rfl) (hV i).1.2
      rw [hc]
      refine sphereSqDistance_le (hw0 i) (hw1 i) _ _ (by simp [evenEdges]) ?_ (fun k _ => hlt i k) _ _
        (fun l _ k _ => (contDiff_freeFlight_r _ _).continuous) (fun l hl k hk => hU i l k hl hk)
      simp only [evenEdges, div_self (hpos i).ne', one_mul, le_refl]
  have hncast : ∀ i, ((n i : ℕ) : ℝ) = ((i + 2 : ℕ) : ℝ) ^ 2 + 2 := fun i => by simp only [hn]; push_cast; ring
  obtain ⟨β, hβ, h⟩ := c141_convergence 4 (by norm_num) (fun i => gaussFlight inv leg w 4 (n i) (i + 2))
    (fun i => evenEdges (i + 2) (1 / 2)) (fun i => evenEdges (i + 2) 0) 0 2 1 B D (1 / 2) 1 2
    (fun i => (1 / 2) / ((i + 2 : ℕ) : ℝ)) (fun i => (1 / 2) / ((i + 2 : ℕ) : ℝ))
    (fun i => 1 / ((n i : ℕ) : ℝ) ^ 2) ∅ (fun _ => {0, 1}) freeFlight V hany hn3
    (fun i => gaussFlight_run inv hl (hn3 i) (hN2 i) (hw _ (by have := hn3 i; omega))) (fun _ => rfl) (fun _ => rfl)
    (fun i => hψ (n i) (i + 2) (hN2 i))
    (fun i => by
      show (((i + 2 : ℕ) : ℝ) + 1) * ((1 / 2) / ((i + 2 : ℕ) : ℝ)) ≤ 1
      rw [← mul_div_assoc, div_le_one (hpos i)]
      push_cast
      have : (0 : ℝ) ≤ i := Nat.cast_nonneg i
      linarith)
    (fun i => by
      show (1 : ℝ) ≤ 2 * ((1 / 2) / ((i + 2 : ℕ) : ℝ)) * √(((n i : ℕ) : ℝ) - 2)
      rw [hncast, add_sub_cancel_right, Real.sqrt_sq (hpos i).le]
      have hne := (hpos i).ne'
      generalize ((i + 2 : ℕ) : ℝ) = x at hne
      apply le_of_eq
      field_simp)
    (fun _ => by simp) hV1 hhalf
    (by
      refine tendsto_atTop_mono (fun i => ?_) tendsto_id
      show i ≤ (i + 2) ^ 2 + 2
      nlinarith)
    (by
      refine squeeze_zero (g := fun i : ℕ => 1 / ((i + 2 : ℕ) : ℝ)) (fun i => ?_) (fun i => ?_)
        (tendsto_const_nhds.div_atTop hlim)
      · have := hpos i; positivity
      · rw [hncast]
        have h2 : (2 : ℝ) ≤ ((i + 2 : ℕ) : ℝ) := by exact_mod_cast hN2 i
        generalize ((i + 2 : ℕ) : ℝ) = x at h2
        have hx : 0 < x := by linarith
        rw [div_div_eq_mul_div, div_one, div_pow, div_mul_eq_mul_div, div_le_div_iff₀ (by positivity) hx]
        have h3 : x ^ 2 + 2 ≤ 2 * x ^ 2 := by nlinarith
        have h4 : (x ^ 2 + 2) ^ 2 ≤ (2 * x ^ 2) ^ 2 := pow_le_pow_left₀ (by positivity) h3 2
        have h5 : (x ^ 2 + 2) ^ 2 * x ≤ (2 * x ^ 2) ^ 2 * x := mul_le_mul_of_nonneg_right h4 hx.le
        have h6 : 0 ≤ x ^ 5 := by positivity
        calc (1 / 2 : ℝ) ^ (4 + 1) * (x ^ 2 + 2) ^ 2 * x = 1 / 32 * ((x ^ 2 + 2) ^ 2 * x) := by ring
          _ ≤ 1 / 32 * ((2 * x ^ 2) ^ 2 * x) := by linarith
          _ = 1 / 8 * x ^ 5 := by ring
          _ ≤ 1 * x ^ (4 + 1) := by linarith)
    hinit zero_le_two
  refine ⟨V, β, hV1, hβ, fun i t ht => ?_⟩
  have := h i t ht
  have e0 : (fun k => evenEdges (i + 2) (1 / 2) k + evenEdges (i + 2) 0 k * t) = evenEdges (i + 2) (1 / 2) := by
    funext k
    simp [evenEdges]
  rw [e0] at this
  exact this

end Verif.Props
