import Verif.Props.Quadrature
import Verif.Props.SphereUniform
import Verif.Props.SphereProgram
import Verif.Lemmas.GaussNodes

/-!
Property C133: the equation that the sphere solver discretises, at the centre, for the directions that
`solve` uses.
-/

namespace Verif.Props

open Set Filter Polynomial Verif.Spec Verif.Model Verif.Lemmas

/-! ### Directions in the middle of their angular cells -/

/-- The directions are the middles of their angular cells exactly when they are equally spaced. -/
theorem c133_middle_iff {n : ℕ} {mus : ℕ → ℝ} (hn : 2 ≤ n) :
    (∀ l < n, mus l = angularMid n mus l) ↔ ∀ l < n, mus l = -1 + (2 * l + 1) / n := by
  have hn0 : (0 : ℝ) < n := by exact_mod_cast (by omega : 0 < n)
  have mid0 : angularMid n mus 0 = (-1 + (mus 0 + mus 1) / 2) / 2 := by
    unfold angularMid angularEdge
    rw [if_pos rfl, if_neg (by omega), if_neg (by omega)]
  have midi : ∀ l, 0 < l → l + 1 < n →
      angularMid n mus l = ((mus (l - 1) + mus l) / 2 + (mus l + mus (l + 1)) / 2) / 2 := by
    intro l h0 h1
    unfold angularMid angularEdge
    rw [if_neg (by omega), if_neg (by omega), if_neg (by omega), if_neg (by omega)]
    rfl
  have midn : angularMid n mus (n - 1) = ((mus (n - 2) + mus (n - 1)) / 2 + 1) / 2 := by
    unfold angularMid angularEdge
    rw [if_neg (by omega), if_neg (by omega), if_neg (by omega), if_pos (by omega),
      show n - 1 - 1 = n - 2 by omega]
  constructor
  · intro h
    have hall : ∀ l, l + 1 < n → mus l = -1 + (2 * l + 1) * (mus 0 + 1) ∧
        mus (l + 1) = -1 + (2 * (l + 1 : ℕ) + 1) * (mus 0 + 1) := by
      intro l
      induction l with
      | zero =>
        intro _
        have h0 := h 0 (by omega)
        rw [mid0] at h0
        constructor
        · push_cast; ring
        · rw [zero_add]; push_cast; linarith
      | succ l ih =>
        intro hl
        obtain ⟨h1, h2⟩ := ih (by omega)
        have h3 := h (l + 1) (by omega)
        rw [midi (l + 1) (by omega) hl, show l + 1 - 1 = l by omega] at h3
        refine ⟨h2, ?_⟩
        push_cast at h2 ⊢
        linarith
    obtain ⟨h1, h2⟩ := hall (n - 2) (by omega)
    have h3 := h (n - 1) (by omega)
    rw [midn] at h3
    rw [show n - 2 + 1 = n - 1 by omega] at h2
    have c1 : ((n - 2 : ℕ) : ℝ) = n - 2 := by push_cast [Nat.cast_sub hn]; ring
    have c2 : ((n - 1 : ℕ) : ℝ) = n - 1 := by push_cast [Nat.cast_sub (by omega : 1 ≤ n)]; ring
    rw [c1] at h1
    rw [c2] at h2
    have hs : (mus 0 + 1) = 1 / n := by
      field_simp
      linarith
    intro l hl
    rcases Nat.lt_or_ge (l + 1) n with h4 | h4
    · rw [(hall l h4).1, hs]; ring
    · rw [show l = n - 1 by omega, h2, hs, c2]; ring
  · intro h l hl
    rcases Nat.eq_zero_or_pos l with rfl | h0
    · rw [mid0, h 0 (by omega), h 1 (by omega)]
      push_cast; field_simp; ring
    rcases Nat.lt_or_ge (l + 1) n with h4 | h4
    · rw [midi l h0 h4, h l hl, h (l + 1) h4, h (l - 1) (by omega)]
      push_cast [Nat.cast_sub (by omega : 1 ≤ l)]
      field_simp; ring
    · rw [show l = n - 1 by omega, midn, h (n - 1) (by omega), h (n - 2) (by omega)]
      push_cast [Nat.cast_sub (by omega : 1 ≤ n), Nat.cast_sub hn]
      field_simp; ring

/-- Gauss-Legendre directions are not. -/
theorem gauss_not_middle {leg : ℕ → ℕ → ℝ} (hl : GaussPoints leg) {n : ℕ} (hn : 2 ≤ n) :
    ¬ ∀ l < n, leg n l = angularMid n (leg n) l := by
  intro h
  have h1 := (c133_middle_iff hn).1 h
  have hn0 : (0 : ℝ) < n := by exact_mod_cast (by omega : 0 < n)
  have h2 := (gauss_inverse_sum (hl n (by omega)) fun i hi => (gaussPoints_inside hl hi).2).1
  have h3 : ∑ i ∈ Finset.range n, 1 / (1 - leg n i) =
      n * ∑ i ∈ Finset.range n, 1 / (2 * (i : ℝ) + 1) := by
    rw [← Finset.sum_range_reflect, Finset.mul_sum]
    refine Finset.sum_congr rfl fun i hi => ?_
    have hi := Finset.mem_range.1 hi
    rw [h1 (n - 1 - i) (by omega)]
    have c : ((n - 1 - i : ℕ) : ℝ) = n - 1 - i := by
      rw [Nat.cast_sub (by omega), Nat.cast_sub (by omega)]; push_cast; ring
    rw [c]
    have e : (1 : ℝ) - (-1 + (2 * ((n : ℝ) - 1 - i) + 1) / n) = (2 * i + 1) / n := by
      field_simp; ring
    rw [e, one_div_div]
    ring
  obtain ⟨m, rfl⟩ : ∃ m, n = m + 2 := ⟨n - 2, by omega⟩
  have h4 := odd_reciprocals_lt m
  rw [h3] at h2
  have h5 := mul_lt_mul_of_pos_left h4 hn0
  linarith

/-- Nor are directions that begin with `-1`, like those of Gauss and Lobatto. -/
theorem lobatto_not_middle {n : ℕ} {mus : ℕ → ℝ} (hn : 2 ≤ n) (h0 : mus 0 = -1) :
    ¬ ∀ l < n, mus l = angularMid n mus l := by
  intro h
  have h1 := (c133_middle_iff hn).1 h 0 (by omega)
  have hn0 : (0 : ℝ) < n := by exact_mod_cast (by omega : 0 < n)
  rw [h0] at h1
  have : (0 : ℝ) < (2 * ((0 : ℕ) : ℝ) + 1) / n := by positivity
  linarith

/-! ### The centre -/

theorem angularDifference_last {n : ℕ} {mus x y : ℕ → ℝ} {l : ℕ} (hl : l < n)
    (h : ∀ i < n, x i = y i) : angularDifference n mus x l = angularDifference n mus y l := by
  unfold angularDifference
  rw [h l hl, h (l - 1) (by omega)]
  rcases Nat.lt_or_ge (l + 1) n with h1 | h1
  · rw [h (l + 1) h1]
  · have e : angularEdge n mus (l + 1) = 1 := by
      unfold angularEdge
      rw [if_neg (by omega), if_pos (by omega)]
    rw [e]; ring

/-- C133: at the centre of the sphere the redistribution of a smooth solution balances its radial
streaming, at all times. -/
theorem c133_centre {n : ℕ} {mus ws : ℕ → ℝ} {scat : ℝ} {N : ℕ} {e v : ℝ → ℕ → ℝ}
    {q : ℕ → ℝ → ℝ → ℝ} {a b : ℝ} {F : Set ℝ} {u : ℕ → ℕ → ℝ → ℝ → ℝ}
    (hu : SphereSolution n mus ws scat N e v q a b F u) (hN : 0 < N) {t : ℝ} (ht : t ∈ Ico a b \ F)
    (h0 : e t 0 = 0) (h1 : 0 < e t 1) (hq : Continuous fun r => q 0 r t) :
    ∀ l < n, 2 * mus l * u l 0 0 t + angularDifference n mus (fun l => u l 0 0 t) l = 0 := by
  intro l hl
  -- outside the directions the intensities play no part
  set w : ℕ → ℝ → ℝ := fun i r => if i < n then u i 0 r t else 0 with hw
  have hcw : ∀ i, Continuous (w i) := by
    intro i
    by_cases hi : i < n
    · simp only [hw, if_pos hi]
      exact (hu.smooth i hi 0 hN).continuous.comp (continuous_id.prodMk continuous_const)
    · simp only [hw, if_neg hi]
      exact continuous_const
  have hwu : ∀ r, angularDifference n mus (fun l => u l 0 r t) l = angularDifference n mus (fun i => w i r) l :=
    fun r => angularDifference_last hl fun i hi => by simp only [hw, if_pos hi]
  set U : ℝ × ℝ → ℝ := fun z => u l 0 z.1 z.2 with hU
  have hs : ContDiff ℝ 1 U := hu.smooth l hl 0 hN
  have hfd : Continuous fun z => fderiv ℝ U z := hs.continuous_fderiv one_ne_zero
  have hd : ∀ z, HasFDerivAt U (fderiv ℝ U z) z := fun z => (hs.differentiable one_ne_zero z).hasFDerivAt
  have dt : ∀ r, HasDerivAt (fun τ => u l 0 r τ) (fderiv ℝ U (r, t) (0, 1)) t := fun r =>
    (hd (r, t)).comp_hasDerivAt t ((hasDerivAt_const t r).prodMk (hasDerivAt_id t))
  have dr : ∀ r, HasDerivAt (fun y => u l 0 y t) (fderiv ℝ U (r, t) (1, 0)) r := fun r =>
    HasFDerivAt.comp_hasDerivAt (l := U) (f := fun y => (y, t)) r (hd (r, t))
      ((hasDerivAt_id' r).prodMk (hasDerivAt_const r t))
  have cdt : Continuous fun r => fderiv ℝ U (r, t) (0, 1) :=
    (hfd.comp (continuous_id.prodMk continuous_const)).clm_apply continuous_const
  have cdr : Continuous fun r => fderiv ℝ U (r, t) (1, 0) :=
    (hfd.comp (continuous_id.prodMk continuous_const)).clm_apply continuous_const
  set G : ℝ → ℝ := fun r => r * fderiv ℝ U (r, t) (0, 1) + mus l * (2 * w l r + r * fderiv ℝ U (r, t) (1, 0))
    + angularDifference n mus (fun i => w i r) l
    - r * (-w l r + scat * (∑ i ∈ Finset.range n, ws i * w i r) + q 0 r t) with hG
  have hcG : Continuous G := by
    have c1 : Continuous fun r => angularDifference n mus (fun i => w i r) l := by
      unfold angularDifference
      exact ((continuous_const.mul (((hcw l).add (hcw (l + 1))).div_const 2)).sub
        (continuous_const.mul (((hcw (l - 1)).add (hcw l)).div_const 2))).div_const _
    have c2 : Continuous fun r => ∑ i ∈ Finset.range n, ws i * w i r :=
      continuous_finsetSum _ fun i _ => continuous_const.mul (hcw i)
    exact (((continuous_id.mul cdt).add (continuous_const.mul ((continuous_const.mul (hcw l)).add
      (continuous_id.mul cdr)))).add c1).sub
      (continuous_id.mul (((hcw l).neg.add (continuous_const.mul c2)).add hq))
  have hz : ∀ r ∈ Ioc 0 (e t 1), G r = 0 := by
    intro r hr
    have he := hu.equation t ht l hl 0 hN r (by rw [h0, zero_add]; exact ⟨hr.1.le, hr.2⟩)
    have e1 : deriv (fun y => y ^ 2 * u l 0 y t) r = 2 * r * u l 0 r t + r ^ 2 * fderiv ℝ U (r, t) (1, 0) := by
      have := ((hasDerivAt_pow 2 r).mul (dr r)).deriv
      refine Eq.trans this ?_
      push_cast
      ring
    have e2 : ∑ i ∈ Finset.range n, ws i * u i 0 r t = ∑ i ∈ Finset.range n, ws i * w i r :=
      Finset.sum_congr rfl fun i hi => by simp only [hw, if_pos (Finset.mem_range.1 hi)]
    have e3 : w l r = u l 0 r t := if_pos hl
    rw [(dt r).deriv, e1, hwu, e2, ← e3] at he
    have : r * G r = 0 := by simp only [hG]; linear_combination he
    exact (mul_eq_zero.1 this).resolve_left hr.1.ne'
  have hG0 : G 0 = 0 := by
    have hcl : (0 : ℝ) ∈ closure (Ioc 0 (e t 1)) := by
      rw [closure_Ioc h1.ne]; exact ⟨le_rfl, h1.le⟩
    have hsub : closure (Ioc 0 (e t 1)) ⊆ G ⁻¹' {0} :=
      closure_minimal (fun r hr => hz r hr) (isClosed_singleton.preimage hcG)
    exact hsub hcl
  have e3 : w l 0 = u l 0 0 t := if_pos hl
  rw [hwu, ← e3]
  simp only [hG] at hG0
  linear_combination hG0

theorem angularDifference_const {n : ℕ} {mus : ℕ → ℝ} (h : DirectionSet n mus) {x : ℕ → ℝ} {v : ℝ}
    (hx : ∀ l < n, x l = v) {l : ℕ} (hl : l < n) :
    angularDifference n mus x l = -2 * angularMid n mus l * v := by
  rw [angularDifference_last (y := fun _ => v) hl hx]
  have := (angularWidth_pos h hl).ne'
  unfold angularDifference angularMid angularWidth at *
  field_simp
  ring

/-- C133: if a smooth solution is isotropic and not zero at the centre at some time, the directions are
the equally spaced ones `-1 + (2 l + 1) / n`. -/
theorem c133_isotropic_centre {n : ℕ} {mus ws : ℕ → ℝ} {scat : ℝ} {N : ℕ} {e v : ℝ → ℕ → ℝ}
    {q : ℕ → ℝ → ℝ → ℝ} {a b : ℝ} {F : Set ℝ} {u : ℕ → ℕ → ℝ → ℝ → ℝ} (hd : DirectionSet n mus)
    (hu : SphereSolution n mus ws scat N e v q a b F u) (hN : 0 < N) {t : ℝ} (ht : t ∈ Ico a b \ F)
    (h0 : e t 0 = 0) (h1 : 0 < e t 1) (hq : Continuous fun r => q 0 r t) {c : ℝ} (hc : c ≠ 0)
    (hi : ∀ l < n, u l 0 0 t = c) : ∀ l < n, mus l = -1 + (2 * l + 1) / n := by
  refine (c133_middle_iff hd.two).1 fun l hl => ?_
  have h2 := c133_centre hu hN ht h0 h1 hq l hl
  rw [angularDifference_const hd hi hl, hi l hl] at h2
  have h3 : (mus l - angularMid n mus l) * c = 0 := by linear_combination h2 / 2
  linarith [(mul_eq_zero.1 h3).resolve_right hc]

/-- C133: with Gauss-Legendre directions a smooth solution that is isotropic at the centre is zero
there. -/
theorem c133_gauss_legendre {leg : ℕ → ℕ → ℝ} (hleg : GaussPoints leg) {n : ℕ} (hn : 2 ≤ n)
    {ws : ℕ → ℝ} {scat : ℝ} {N : ℕ} {e v : ℝ → ℕ → ℝ}
    {q : ℕ → ℝ → ℝ → ℝ} {a b : ℝ} {F : Set ℝ} {u : ℕ → ℕ → ℝ → ℝ → ℝ}
    (hu : SphereSolution n (leg n) ws scat N e v q a b F u) (hN : 0 < N) {t : ℝ} (ht : t ∈ Ico a b \ F)
    (h0 : e t 0 = 0) (h1 : 0 < e t 1) (hq : Continuous fun r => q 0 r t) {c : ℝ}
    (hi : ∀ l < n, u l 0 0 t = c) : c = 0 := by
  by_contra hc
  have hd : DirectionSet n (leg n) := ⟨hn, (gaussPoints_inside hleg (by omega)).1.le,
    (gaussPoints_inside hleg (by omega)).2.le, (hleg n (by omega)).inc⟩
  exact gauss_not_middle hleg hn ((c133_middle_iff hn).2
    (c133_isotropic_centre hd hu hN ht h0 h1 hq hc hi))

/-- C133: the same with the directions of `quadrature(n, 'gauss_lobatto')`, and with any others that
begin with `-1`. -/
theorem c133_gauss_lobatto {n : ℕ} {mus : ℕ → ℝ} (hd : DirectionSet n mus) (hm : mus 0 = -1)
    {ws : ℕ → ℝ} {scat : ℝ} {N : ℕ} {e v : ℝ → ℕ → ℝ}
    {q : ℕ → ℝ → ℝ → ℝ} {a b : ℝ} {F : Set ℝ} {u : ℕ → ℕ → ℝ → ℝ → ℝ}
    (hu : SphereSolution n mus ws scat N e v q a b F u) (hN : 0 < N) {t : ℝ} (ht : t ∈ Ico a b \ F)
    (h0 : e t 0 = 0) (h1 : 0 < e t 1) (hq : Continuous fun r => q 0 r t) {c : ℝ}
    (hi : ∀ l < n, u l 0 0 t = c) : c = 0 := by
  by_contra hc
  exact lobatto_not_middle hd.two hm ((c133_middle_iff hd.two).2
    (c133_isotropic_centre hd hu hN ht h0 h1 hq hc hi))

/-- C133: with two directions `±m` other than `±1/2` a smooth solution is zero at the centre, isotropic
there or not. -/
theorem c133_two_directions {mus ws : ℕ → ℝ} {m : ℝ} (hm0 : 0 < m) (hm : m ≠ 1 / 2) (hl : mus 0 = -m)
    (hr : mus 1 = m) {scat : ℝ} {N : ℕ} {e v : ℝ → ℕ → ℝ}
    {q : ℕ → ℝ → ℝ → ℝ} {a b : ℝ} {F : Set ℝ} {u : ℕ → ℕ → ℝ → ℝ → ℝ}
    (hu : SphereSolution 2 mus ws scat N e v q a b F u) (hN : 0 < N) {t : ℝ} (ht : t ∈ Ico a b \ F)
    (h0 : e t 0 = 0) (h1 : 0 < e t 1) (hq : Continuous fun r => q 0 r t) :
    u 0 0 0 t = 0 ∧ u 1 0 0 t = 0 := by
  have g0 := c133_centre hu hN ht h0 h1 hq 0 (by norm_num)
  have g1 := c133_centre hu hN ht h0 h1 hq 1 (by norm_num)
  simp only [angularDifference, angularEdge, angularWidth, hl, hr] at g0 g1
  norm_num at g0 g1
  have e1 : m * (u 1 0 0 t - u 0 0 0 t) = 0 := by linarith
  have e2 := (mul_eq_zero.1 e1).resolve_left hm0.ne'
  have e3 : (2 * m - 1) * u 0 0 0 t = 0 := by nlinarith
  have e4 : u 0 0 0 t = 0 := (mul_eq_zero.1 e3).resolve_left fun h => hm (by linarith)
  exact ⟨e4, by linarith⟩

/-! ### Uniform radiation -/

/-- C133: the program does not keep uniform isotropic radiation in a purely scattering medium, whatever
the number of Gauss-Legendre directions: some direction changes in every shell that is not the last. -/
theorem c133_uniform {leg : ℕ → ℕ → ℝ} (hleg : GaussPoints leg) (p : RhsParams) (hn : 2 ≤ p.Nang)
    (hmus : ∀ l < p.Nang, p.mus l = leg p.Nang l)
    (hw : ∑ l ∈ Finset.range p.Nang, p.ws l = 1) (hc : p.c = 1)
    (c : FluxConfig) (hg : c.geometry = .sphere) (hM : c.M ≤ 10) (t : ℝ)
    (hoff : ¬ BoundaryActive c true t) (m : MeshView) (mats : ℕ → CellMats) (fs : FluxState)
    (hm : ∀ k < c.Nspace, m.edges k < m.edges (k + 1)) (h0 : 0 ≤ m.edges 0) (v : ℝ) (hv : v ≠ 0)
    (R : ℕ → ℕ → ℕ → ℝ)
    (hR : activeCall p c t m mats (fun _ _ => 0) fs (fun _ => uniformCoeffs m v) = some R)
    (mesh : ℝ → MeshView) (hmesh : mesh t = m)
    (hedge : ∀ k ≤ c.Nspace, HasDerivAt (fun s => (mesh s).edges k) (m.Dedges k) t) :
    ∃ l < p.Nang, ∀ space, space + 1 < c.Nspace →
      MatsExact c.M (m.edges space) (m.edges (space + 1)) (m.Dedges space) (m.Dedges (space + 1))
        (mats space) →
      ¬ ∀ i ≤ c.M, HasDerivAt (fun s => uniformCoeffs (mesh s) v space i) (R l space i) t := by
  have hd : DirectionSet p.Nang p.mus := ⟨hn, by
      rw [hmus 0 (by omega)]; exact (gaussPoints_inside hleg (by omega)).1.le, by
      rw [hmus _ (by omega)]; exact (gaussPoints_inside hleg (by omega)).2.le, fun k hk => by
      rw [hmus k (by omega), hmus (k + 1) hk]; exact (hleg _ (by omega)).inc k hk⟩
  have hex : ∃ l < p.Nang, p.mus l ≠ angularMid p.Nang p.mus l := by
    by_contra hcon
    push Not at hcon
    have h1 := (c133_middle_iff hn).1 hcon
    exact gauss_not_middle hleg hn ((c133_middle_iff hn).2 fun l hl => by rw [← hmus l hl, h1 l hl])
  obtain ⟨l, hl, hne⟩ := hex
  refine ⟨l, hl, fun space hs hmats hcon => hne ?_⟩
  have h1 := (c63_uniform_equilibrium_iff p hn hw hc c hg hM t hoff m mats fs hm h0 space hs hmats v hv R hR
    l hl mesh hmesh hedge).1 hcon
  exact (c20_equilibrium_iff_partial hd one_ne_zero hl).1 (by rw [h1]; ring)

/-! ### Weights -/

/-- The second moment of the directions with the widths of their cells. -/
theorem widths_second_moment {n : ℕ} (hn : 1 ≤ n) (mus : ℕ → ℝ) :
    ∑ l ∈ Finset.range n, angularWidth n mus l * mus l ^ 2 =
      mus (n - 1) ^ 2 + mus 0 ^ 2 - 2 / 3 * (mus (n - 1) ^ 3 - mus 0 ^ 3)
        + 1 / 6 * ∑ l ∈ Finset.range (n - 1), (mus (l + 1) - mus l) ^ 3 := by
  have key : ∀ j, j + 1 ≤ n → ∑ l ∈ Finset.range (j + 1), angularWidth n mus l * mus l ^ 2 =
      angularEdge n mus (j + 1) * mus j ^ 2 + mus 0 ^ 2 - 2 / 3 * (mus j ^ 3 - mus 0 ^ 3)
        + 1 / 6 * ∑ l ∈ Finset.range j, (mus (l + 1) - mus l) ^ 3 := by
    intro j
    induction j with
    | zero =>
      intro _
      have : angularEdge n mus 0 = -1 := if_pos rfl
      simp only [zero_add, Finset.sum_range_one, angularWidth, this, Finset.range_zero, Finset.sum_empty]
      ring
    | succ j ih =>
      intro hj
      rw [Finset.sum_range_succ, ih (by omega), Finset.sum_range_succ]
      have : angularEdge n mus (j + 1) = (mus j + mus (j + 1)) / 2 := by
        unfold angularEdge
        rw [if_neg (by omega), if_neg (by omega), show j + 1 - 1 = j by omega]
      unfold angularWidth
      rw [this]
      ring
  have h := key (n - 1) (by omega)
  have e : angularEdge n mus n = 1 := by
    unfold angularEdge
    rw [if_neg (by omega), if_pos rfl]
  rwa [show n - 1 + 1 = n by omega, e, one_mul] at h

/-- C133: with three or more Gauss-Legendre directions, and weights that integrate constants and
squares exactly, the redistribution does not conserve the scalar flux. -/
theorem c133_redistribution {leg : ℕ → ℕ → ℝ} (hleg : GaussPoints leg) {n : ℕ} (hn : 3 ≤ n) {w : ℕ → ℝ}
    (hw0 : ∑ l ∈ Finset.range n, w l = 2) (hw2 : ∑ l ∈ Finset.range n, w l * leg n l ^ 2 = 2 / 3) :
    ∃ psi : ℕ → ℝ, ∑ k ∈ Finset.range n, w k * angularTerm n (leg n) psi k ≠ 0 := by
  by_contra hcon
  push Not at hcon
  have hroot := hleg n (by omega)
  have hlt : ∀ i < n, leg n i < 1 := fun i hi => (gaussPoints_inside hleg hi).2
  have hd : DirectionSet n (leg n) := ⟨by omega, (gaussPoints_inside hleg (by omega)).1.le,
    (gaussPoints_inside hleg (by omega)).2.le, hroot.inc⟩
  obtain ⟨r, hr⟩ := (c16_conserves_iff_partial hd w).1 hcon
  have hr1 : r = 1 := by
    rw [Finset.sum_congr rfl fun l hl => hr l (Finset.mem_range.1 hl), ← Finset.mul_sum,
      c15_widths_sum n (by omega)] at hw0
    linarith
  subst hr1
  rw [Finset.sum_congr rfl fun l hl => by rw [hr l (Finset.mem_range.1 hl), one_mul],
    widths_second_moment (by omega)] at hw2
  have hsym := hroot.symm (legendre_natDegree_eq n)
    (fun e => (legendre_coeff n).ne' (by rw [e, coeff_zero])) (legendre_eval_neg n)
  have hs0 : leg n 0 = -leg n (n - 1) := by
    have := hsym 0 (by omega)
    rw [Nat.sub_zero] at this
    linarith
  set m := leg n (n - 1) with hm
  rw [hs0] at hw2
  set S := ∑ l ∈ Finset.range (n - 1), (leg n (l + 1) - leg n l) ^ 3 with hS
  have hS4 : S = 4 * (1 - m) ^ 2 * (1 + 2 * m) := by linear_combination 6 * hw2
  have hm1 : m < 1 := hlt _ (by omega)
  rcases Nat.eq_or_lt_of_le hn with h3 | h3
  · subst h3
    have hc : leg 3 1 = 0 := by
      have := hsym 1 (by omega)
      rw [show 3 - 1 - 1 = 1 from rfl] at this
      linarith
    have hm2 : leg 3 2 = m := rfl
    have e1 := (gauss_inverse_sum hroot hlt).1
    simp only [Finset.sum_range_succ, Finset.range_zero, Finset.sum_empty, zero_add, hc, hm2, hs0] at e1
    have hm0 : 0 < m := by
      have := hroot.inc 1 (by omega)
      rw [hc] at this
      exact this
    have h1 : 1 - m ≠ 0 := by linarith
    have h2 : 1 + m ≠ 0 := by linarith
    have hsq : m ^ 2 = 3 / 5 := by
      norm_num at e1
      field_simp at e1
      nlinarith
    have hS3 : S = 2 * m ^ 3 := by
      rw [hS]
      simp only [show 3 - 1 = 2 from rfl, Finset.sum_range_succ, Finset.range_zero, Finset.sum_empty,
        zero_add, hs0, hc]
      norm_num
      rw [hm2]
      ring
    rw [hS3] at hS4
    have h5 : m = 8 / 9 := by
      have : m ^ 3 = 3 / 5 * m := by rw [pow_succ, hsq]
      nlinarith
    rw [h5] at hsq
    norm_num at hsq
  · have hn4 : (4 : ℝ) ≤ n := by exact_mod_cast h3
    have hδ := gauss_last (by omega) hroot hlt
    rw [← hm] at hδ
    have hq : (0 : ℝ) < (n : ℝ) ^ 2 + n + 2 := by positivity
    have hcard : (0 : ℝ) < (n : ℝ) - 1 := by linarith
    have hpm := pow_sum_div_card_le_sum_pow (s := Finset.range (n - 1))
      (f := fun l => leg n (l + 1) - leg n l) (n := 2) (fun l hl => by
        have := hroot.inc l (by have := Finset.mem_range.1 hl; omega)
        linarith)
    rw [Finset.sum_range_sub, Finset.card_range, ← hm, hs0] at hpm
    have hcast : ((n - 1 : ℕ) : ℝ) = n - 1 := by push_cast [Nat.cast_sub (by omega : 1 ≤ n)]; ring
    rw [hcast] at hpm
    norm_num at hpm
    rw [← hS, hS4, div_le_iff₀ (by positivity)] at hpm
    set δ := 1 - m with hδd
    have hδ0 : 0 < δ := by linarith
    have hδ1 : δ ≤ 2 / 11 := hδ.trans (by
      rw [div_le_div_iff₀ hq (by norm_num)]; nlinarith)
    have hδ2 : δ * (n - 1) ≤ 6 / 11 := by
      have h6 : δ * (n - 1) ≤ 4 / ((n : ℝ) ^ 2 + n + 2) * (n - 1) :=
        mul_le_mul_of_nonneg_right hδ hcard.le
      refine h6.trans ?_
      rw [div_mul_eq_mul_div, div_le_div_iff₀ hq (by norm_num)]
      nlinarith
    have hm' : m = 1 - δ := by rw [hδd]; ring
    rw [hm'] at hpm
    have h7 : (δ * (n - 1)) ^ 2 ≤ (6 / 11) ^ 2 := pow_le_pow_left₀ (by positivity) hδ2 2
    have h8 : (9 / 11 : ℝ) ^ 3 ≤ (1 - δ) ^ 3 := pow_le_pow_left₀ (by norm_num) (by linarith) 3
    have h9 : 4 * δ ^ 2 * (1 + 2 * (1 - δ)) * ((n : ℝ) - 1) ^ 2 ≤ 12 * (δ * (n - 1)) ^ 2 := by
      have : 0 ≤ δ * (δ * ((n : ℝ) - 1)) ^ 2 := by positivity
      nlinarith
    nlinarith

/-- C133: weights of the angular cells with directions at or right of their middles, as in C118 and C130,
are not those of a rule that integrates the first and the second power exactly. -/
theorem c133_not_exact {P : Problem} (hd : DirectionSet P.Nang P.mus) (hw : CellWeights P)
    (hmid : ∀ l < P.Nang, angularMid P.Nang P.mus l ≤ P.mus l)
    (h1 : ∑ l ∈ Finset.range P.Nang, P.rawWs l * P.mus l = 0) :
    ∑ l ∈ Finset.range P.Nang, P.rawWs l * P.mus l ^ 2 ≠ (∑ l ∈ Finset.range P.Nang, P.rawWs l) / 3 := by
  obtain ⟨α, hα, hr⟩ := hw
  have hn := hd.two
  set n := P.Nang
  set mus := P.mus
  have e0 : angularEdge n mus 0 = -1 := if_pos rfl
  have en : angularEdge n mus n = 1 := by
    unfold angularEdge
    rw [if_neg (by omega), if_pos rfl]
  have hm1 : ∑ l ∈ Finset.range n, angularWidth n mus l * angularMid n mus l = 0 := by
    have : ∀ l ∈ Finset.range n, angularWidth n mus l * angularMid n mus l =
        angularEdge n mus (l + 1) ^ 2 / 2 - angularEdge n mus l ^ 2 / 2 := fun l _ => by
      unfold angularWidth angularMid; ring
    rw [Finset.sum_congr rfl this, Finset.sum_range_sub fun l => angularEdge n mus l ^ 2 / 2, e0, en]
    norm_num
  have h2 : ∑ l ∈ Finset.range n, angularWidth n mus l * mus l = 0 := by
    rw [Finset.sum_congr rfl fun l hl => by rw [hr l (Finset.mem_range.1 hl), mul_assoc],
      ← Finset.mul_sum] at h1
    exact (mul_eq_zero.1 h1).resolve_left hα
  have heq : ∀ l ∈ Finset.range n, angularWidth n mus l * (mus l - angularMid n mus l) = 0 := by
    refine (Finset.sum_eq_zero_iff_of_nonneg fun l hl => ?_).1 ?_
    · have hl := Finset.mem_range.1 hl
      exact mul_nonneg (angularWidth_pos hd hl).le (by linarith [hmid l hl])
    · simp only [mul_sub, Finset.sum_sub_distrib, hm1, h2, sub_zero]
  have hmm : ∀ l < n, mus l = angularMid n mus l := fun l hl => by
    have := (mul_eq_zero.1 (heq l (Finset.mem_range.2 hl))).resolve_left (angularWidth_pos hd hl).ne'
    linarith
  have hlt : ∑ l ∈ Finset.range n, angularWidth n mus l * mus l ^ 2 < 2 / 3 := by
    have h3 : ∑ l ∈ Finset.range n, (angularEdge n mus (l + 1) ^ 3 / 3 - angularEdge n mus l ^ 3 / 3) = 2 / 3 := by
      rw [Finset.sum_range_sub fun l => angularEdge n mus l ^ 3 / 3, e0, en]; norm_num
    rw [← h3]
    refine Finset.sum_lt_sum_of_nonempty ⟨0, Finset.mem_range.2 (by omega)⟩ fun l hl => ?_
    have hl := Finset.mem_range.1 hl
    have hp := angularWidth_pos hd hl
    rw [hmm l hl]
    have : angularWidth n mus l * angularMid n mus l ^ 2 =
        angularEdge n mus (l + 1) ^ 3 / 3 - angularEdge n mus l ^ 3 / 3 - angularWidth n mus l ^ 3 / 12 := by
      unfold angularWidth angularMid; ring
    rw [this]
    have : 0 < angularWidth n mus l ^ 3 := by positivity
    linarith
  rw [Finset.sum_congr rfl fun l hl => by rw [hr l (Finset.mem_range.1 hl), mul_assoc],
    Finset.sum_congr rfl fun l hl => hr l (Finset.mem_range.1 hl), ← Finset.mul_sum, ← Finset.mul_sum,
    c15_widths_sum n (by omega)]
  intro h4
  have h5 : α * (∑ l ∈ Finset.range n, angularWidth n mus l * mus l ^ 2 - 2 / 3) = 0 := by linarith
  have := (mul_eq_zero.1 h5).resolve_left hα
  linarith

/-! ### Examples -/

/-- Radiation from a source in the unit ball, two directions `±m`. -/
noncomputable def pairU (m : ℝ) (l _ : ℕ) (r _ : ℝ) : ℝ :=
  r ^ 2 - 4 / 5 * r ^ 3 + (if l = 0 then -1 else 1) * (-(4 * m - 1) * r + 4 / 5 * (5 * m - 1) * r ^ 2)

/-- The source. -/
noncomputable def pairQ (m : ℝ) (_ : ℕ) (r _ : ℝ) : ℝ := m * (-3 * (4 * m - 1) + 16 / 5 * (5 * m - 1) * r)

theorem pair_dr (m : ℝ) (l k : ℕ) (r t : ℝ) : HasDerivAt (fun y => y ^ 2 * pairU m l k y t)
    (4 * r ^ 3 - 4 * r ^ 4 + (if l = 0 then -1 else 1) *
      (-(4 * m - 1) * (3 * r ^ 2) + 4 / 5 * (5 * m - 1) * (4 * r ^ 3))) r := by
  have e : (fun y => y ^ 2 * pairU m l k y t) = fun y : ℝ => y ^ 4 - 4 / 5 * y ^ 5
      + (if l = 0 then -1 else 1) * (-(4 * m - 1) * y ^ 3 + 4 / 5 * (5 * m - 1) * y ^ 4) := by
    funext y; unfold pairU; ring
  rw [e]
  refine (((hasDerivAt_pow 4 r).sub ((hasDerivAt_pow 5 r).const_mul (4 / 5))).add
    ((((hasDerivAt_pow 3 r).const_mul (-(4 * m - 1))).add
      ((hasDerivAt_pow 4 r).const_mul (4 / 5 * (5 * m - 1)))).const_mul
        (if l = 0 then (-1 : ℝ) else 1))).congr_deriv ?_
  push_cast
  ring

theorem pair_solution {m : ℝ} (hm : 0 < m) {mus : ℕ → ℝ} (h0 : mus 0 = -m) (h1 : mus 1 = m) :
    SphereSolution 2 mus (fun _ => 1 / 2) 1 2 (fun _ k => (k : ℝ) / 2) (fun _ _ => 0) (pairQ m) 0 1 ∅
      (pairU m) where
  smooth l _ k _ := by unfold pairU; fun_prop
  equation t _ l hl k _ r _ := by
    have e : (fun τ => pairU m l k r τ) = fun _ => pairU m l k r 0 := rfl
    rw [(pair_dr m l k r t).deriv, e, deriv_const]
    have hl2 : l = 0 ∨ l = 1 := by omega
    rcases hl2 with rfl | rfl <;>
    · simp only [pairU, pairQ, angularDifference, angularEdge, angularWidth, h0, h1,
        Finset.sum_range_succ, Finset.range_zero, Finset.sum_empty]
      norm_num [h0, h1]
      ring
  continuousFlux t _ l _ k _ := rfl
  vacuum t _ l hl hv := by
    have hl2 : l = 0 ∨ l = 1 := by omega
    rcases hl2 with rfl | rfl
    · norm_num [pairU]
      ring
    · rw [h1, sub_zero] at hv
      linarith

/-- The two Gauss-Legendre points. -/
theorem gauss_pair {leg : ℕ → ℕ → ℝ} (hl : GaussPoints leg) :
    0 < leg 2 1 ∧ leg 2 0 = -leg 2 1 ∧ leg 2 1 ≠ 1 / 2 := by
  have h1 := (hl 2 (by omega)).inc 0 (by omega)
  have h2 := (hl 2 (by omega)).symm (legendre_natDegree_eq 2)
    (fun e => (legendre_coeff 2).ne' (by rw [e, coeff_zero])) (legendre_eval_neg 2) 0 (by omega)
  rw [show 2 - 1 - 0 = 1 from rfl] at h2
  rw [zero_add] at h1
  refine ⟨by linarith, by linarith, fun h => ?_⟩
  have h3 := (hl 2 (by omega)).root 1 (by omega)
  rw [h] at h3
  norm_num [legendre] at h3

/-- At time one half, two Gauss-Legendre directions, or the directions `±1`: zero at the centre. -/
example {leg : ℕ → ℕ → ℝ} (hl : GaussPoints leg) :
    (pairU (leg 2 1) 0 0 0 (1 / 2) = 0 ∧ pairU (leg 2 1) 1 0 0 (1 / 2) = 0) ∧
      (∀ c, (∀ l < 2, pairU (leg 2 1) l 0 0 (1 / 2) = c) → c = 0) ∧
      ∀ c, (∀ l < 2, pairU 1 l 0 0 (1 / 2) = c) → c = 0 := by
  obtain ⟨h0, h1, h2⟩ := gauss_pair hl
  have ht : (1 / 2 : ℝ) ∈ Ico (0 : ℝ) 1 \ ∅ := ⟨by norm_num, by simp⟩
  refine ⟨c133_two_directions h0 h2 h1 rfl (pair_solution h0 h1 rfl) two_pos ht (by norm_num)
    (by norm_num) (by unfold pairQ; fun_prop), fun c hc => ?_, fun c hc => ?_⟩
  · exact c133_gauss_legendre hl le_rfl (pair_solution h0 h1 rfl) two_pos ht (by norm_num)
      (by norm_num) (by unfold pairQ; fun_prop) hc
  · exact c133_gauss_lobatto (n := 2) (mus := fun l => if l = 0 then -1 else 1)
      ⟨le_rfl, by norm_num, by norm_num, fun k hk => by
        have : k = 0 := by omega
        subst this; norm_num⟩ rfl
      (pair_solution one_pos rfl rfl) two_pos ht (by norm_num)
      (by norm_num) (by unfold pairQ; fun_prop) hc

/-- The ball with a source and directions `±1/2` has isotropic radiation `6` at the centre; these
directions are the equally spaced ones. -/
example : (∀ l < 2, ballU l 0 0 (1 / 2) = 6) ∧
    (∀ l < 2, exampleSphereParams.mus l = -1 + (2 * l + 1) / (2 : ℕ)) ∧
    ∀ l < 2, 2 * exampleSphereParams.mus l * ballU l 0 0 (1 / 2)
      + angularDifference 2 exampleSphereParams.mus (fun l => ballU l 0 0 (1 / 2)) l = 0 := by
  have ht : (1 / 2 : ℝ) ∈ Ico (0 : ℝ) 1 \ ∅ := ⟨by norm_num, by simp⟩
  have h6 : ∀ l < 2, ballU l 0 0 (1 / 2) = 6 := fun l _ => by norm_num [ballU]
  have hN : 0 < exampleSphereConfig.Nspace := by norm_num [exampleSphereConfig, exampleConfig]
  refine ⟨h6, ?_, ?_⟩
  · exact c133_isotropic_centre exampleSphere_directions (ball_solution ∅) hN ht (by norm_num [ballMesh])
      (by norm_num [ballMesh]) continuous_const (by norm_num) h6
  · exact c133_centre (ball_solution ∅) hN ht (by norm_num [ballMesh]) (by norm_num [ballMesh])
      continuous_const

/-- Uniform radiation of intensity three on the expanding mesh, two Gauss-Legendre directions. -/
example {leg : ℕ → ℕ → ℝ} (hl : GaussPoints leg) (fs : FluxState) : ∃ mats R,
    activeCall { exampleSphereParams with mus := leg 2 } exampleSphereConfig 0 (exampleSphereMesh 0) mats
      (fun _ _ => 0) fs (fun _ => uniformCoeffs (exampleSphereMesh 0) 3) = some R ∧
    ∃ l < 2, ∀ space, space + 1 < 3 →
      ¬ ∀ i ≤ 1, HasDerivAt (fun s => uniformCoeffs (exampleSphereMesh s) 3 space i) (R l space i) 0 := by
  obtain ⟨mats, hmats⟩ := exampleSphere_mats
  obtain ⟨h0, h1, -⟩ := gauss_pair hl
  have hR : ∃ R, activeCall { exampleSphereParams with mus := leg 2 } exampleSphereConfig 0
      (exampleSphereMesh 0) mats (fun _ _ => 0) fs (fun _ => uniformCoeffs (exampleSphereMesh 0) 3) =
      some R := by
    unfold activeCall
    rw [if_neg (fun h => h.2 (show centreChecks 2 (leg 2) from fun angle ha hb => by
      have : angle = 1 := by omega
      subst this
      rw [show 2 - 1 - 1 = 0 from rfl, h1]
      exact ⟨h0, by norm_num⟩))]
    exact ⟨_, rfl⟩
  obtain ⟨R, hR⟩ := hR
  refine ⟨mats, R, hR, ?_⟩
  obtain ⟨l, hl', h2⟩ := c133_uniform hl { exampleSphereParams with mus := leg 2 } le_rfl
    (fun _ _ => rfl) (by norm_num [exampleSphereParams]) rfl exampleSphereConfig rfl
    (by simp [exampleSphereConfig, exampleConfig]) 0 (exampleSphere_not_active true)
    (exampleSphereMesh 0) mats fs (fun k _ => exampleSphereMesh_ordered k)
    (by simp [exampleSphereMesh]) 3 (by norm_num) R hR exampleSphereMesh rfl
    (fun k _ => exampleSphereMesh_deriv k)
  exact ⟨l, hl', fun space hs => h2 space hs (hmats space)⟩

/-- The three point rule. -/
example {leg : ℕ → ℕ → ℝ} (hl : GaussPoints leg) : ∃ psi : ℕ → ℝ,
    ∑ k ∈ Finset.range 3, (if k = 1 then 8 / 9 else 5 / 9 : ℝ) * angularTerm 3 (leg 3) psi k ≠ 0 := by
  obtain ⟨g0, g1, g2⟩ := gauss_three hl
  have hs : √(3 / 5) ^ 2 = (3 / 5 : ℝ) := Real.sq_sqrt (by norm_num)
  refine c133_redistribution hl le_rfl (by norm_num [Finset.sum_range_succ]) ?_
  simp only [Finset.sum_range_succ, Finset.range_zero, Finset.sum_empty, g0, g1, g2, neg_sq, hs]
  norm_num

/-- The critical sphere, with the directions `±1/2`. -/
example {inv : (ℕ → ℕ → ℝ) → ℕ → ℕ → ℝ} (hi : InverseCorrect 1 inv) :
    ∑ l ∈ Finset.range 2, (exampleCritical inv 4).rawWs l * (exampleCritical inv 4).mus l ^ 2 ≠
      (∑ l ∈ Finset.range 2, (exampleCritical inv 4).rawWs l) / 3 :=
  have h := exampleCritical_setting hi (N := 4) (by norm_num)
  c133_not_exact h.directions h.weights h.middle (by
    simp only [show (exampleCritical inv 4).Nang = 2 from rfl, Finset.sum_range_succ]
    norm_num [exampleCritical, exampleShell, exampleSphereParams])

end Verif.Props
