import Verif.Spec.SphereTransport
import Verif.Lemmas.SphereProjection
import Verif.Props.SphereStability
import Verif.Props.ErrorEstimate

/-!
Property C107: distance of the discrete solution from a solution of the discrete-ordinates equation
in sphere geometry.
-/

namespace Verif.Props

open Polynomial Verif.Spec Verif.Model Verif.Lemmas Set MeasureTheory

/-! ### The angular difference -/

theorem angularDifference_eq {n : ℕ} {mus : ℕ → ℝ} (hn : 2 ≤ n) (x : ℕ → ℝ) {l : ℕ} (hl : l < n) :
    angularDifference n mus x l = angularTerm n mus x l := by
  rw [angularTerm_eq hn x hl]
  unfold angularDifference angularFlux
  rw [Nat.add_sub_cancel]

theorem angularDifference_sub (n : ℕ) (mus x y : ℕ → ℝ) (l : ℕ) :
    angularDifference n mus (fun l => x l - y l) l =
      angularDifference n mus x l - angularDifference n mus y l := by
  unfold angularDifference
  rw [← sub_div]
  congr 1
  ring

theorem continuous_angularDifference {n : ℕ} {mus : ℕ → ℝ} {f : ℕ → ℝ → ℝ}
    (hf : ∀ l < n, Continuous (f l)) {l : ℕ} (hl : l < n) :
    Continuous fun r => angularDifference n mus (fun l => f l r) l := by
  unfold angularDifference
  have h1 : Continuous fun r => (1 - angularEdge n mus (l + 1) ^ 2) * ((f l r + f (l + 1) r) / 2) := by
    by_cases h : l + 1 = n
    · have : angularEdge n mus (l + 1) = 1 := by
        unfold angularEdge; rw [if_neg (by omega), if_pos h]
      rw [this]
      simp only [one_pow, sub_self, zero_mul]
      exact continuous_const
    · exact continuous_const.mul (((hf l hl).add (hf (l + 1) (by omega))).div_const 2)
  have h2 : Continuous fun r => (1 - angularEdge n mus l ^ 2) * ((f (l - 1) r + f l r) / 2) :=
    continuous_const.mul (((hf (l - 1) (by omega)).add (hf l hl)).div_const 2)
  exact (h1.sub h2).div_const _

theorem angularDifference_le {n : ℕ} {mus : ℕ → ℝ} (hd : DirectionSet n mus) {x : ℕ → ℝ} {δ : ℝ}
    (hx : ∀ l < n, |x l| ≤ δ) {l : ℕ} (hl : l < n) :
    |angularDifference n mus x l| ≤ 2 * δ / angularWidth n mus l := by
  have hδ : 0 ≤ δ := (abs_nonneg _).trans (hx l hl)
  have hw := angularWidth_pos hd hl
  have hcoef : ∀ {s y z : ℝ}, -1 ≤ s → s ≤ 1 → |y| ≤ δ → |z| ≤ δ →
      |(1 - s ^ 2) * ((y + z) / 2)| ≤ δ := by
    intro s y z h1 h2 h3 h4
    have h5 : |(y + z) / 2| ≤ δ := by
      rw [abs_le] at h3 h4 ⊢
      constructor <;> linarith [h3.1, h3.2, h4.1, h4.2]
    have h6 : 0 ≤ 1 - s ^ 2 := by nlinarith
    rw [abs_mul, abs_of_nonneg h6]
    nlinarith [sq_nonneg s, abs_nonneg ((y + z) / 2)]
  have h1 : |(1 - angularEdge n mus (l + 1) ^ 2) * ((x l + x (l + 1)) / 2)| ≤ δ := by
    by_cases h : l + 1 = n
    · have : angularEdge n mus (l + 1) = 1 := by
        unfold angularEdge; rw [if_neg (by omega), if_pos h]
      rw [this]
      simpa using hδ
    · have h2 := angularEdge_inner hd (k := l + 1) (by omega) (by omega)
      exact hcoef h2.1.le h2.2.le (hx l hl) (hx (l + 1) (by omega))
  have h2 : |(1 - angularEdge n mus l ^ 2) * ((x (l - 1) + x l) / 2)| ≤ δ := by
    rcases Nat.eq_zero_or_pos l with h | h
    · have : angularEdge n mus l = -1 := by unfold angularEdge; rw [if_pos h]
      rw [this]
      simpa using hδ
    · have h2 := angularEdge_inner hd h hl
      exact hcoef h2.1.le h2.2.le (hx (l - 1) (by omega)) (hx l hl)
  unfold angularDifference
  rw [abs_div, abs_of_pos hw]
  refine div_le_div_of_nonneg_right ?_ hw.le
  have := abs_sub ((1 - angularEdge n mus (l + 1) ^ 2) * ((x l + x (l + 1)) / 2))
    ((1 - angularEdge n mus l ^ 2) * ((x (l - 1) + x l) / 2))
  linarith

/-! ### The defect of the projected solution -/

/-- Defect of the numerical flux of the projected solution at edge `j`. -/
noncomputable def sphereDefect (c : FluxConfig) (t : ℝ) (m : MeshView) (P : ℕ → ℕ → ℝ)
    (u : ℕ → ℝ → ℝ) (mul : ℝ) (uRefl : ℕ → ℕ → ℝ) (j : ℕ) : ℝ :=
  if j < c.Nspace then
    upwind (mul - m.Dedges j) (leftOuter c t m P j (uRefl j))
      (sphereField c.M (P j) (m.edges j) (m.edges (j + 1)) (m.edges j))
      - (mul - m.Dedges j) * u j (m.edges j)
  else
    upwind (mul - m.Dedges j)
      (sphereField c.M (P (j - 1)) (m.edges (j - 1)) (m.edges j) (m.edges j))
      (rightOuter c t m P (j - 1)) - (mul - m.Dedges j) * u (j - 1) (m.edges j)

theorem sphereDefect_right (c : FluxConfig) (hg : c.geometry = .sphere) (t : ℝ) (m : MeshView)
    (P : ℕ → ℕ → ℝ) (u : ℕ → ℝ → ℝ) (mul : ℝ) (uRefl : ℕ → ℕ → ℝ) (k : ℕ)
    (hflux : k + 1 < c.Nspace → (mul - m.Dedges (k + 1)) * u k (m.edges (k + 1)) =
      (mul - m.Dedges (k + 1)) * u (k + 1) (m.edges (k + 1))) :
    upwind (mul - m.Dedges (k + 1))
        (sphereField c.M (P k) (m.edges k) (m.edges (k + 1)) (m.edges (k + 1)))
        (rightOuter c t m P k) - (mul - m.Dedges (k + 1)) * u k (m.edges (k + 1)) =
      sphereDefect c t m P u mul uRefl (k + 1) := by
  unfold sphereDefect
  split_ifs with h
  · rw [hflux h]
    unfold leftOuter rightOuter
    rw [if_pos (by omega), if_pos (by omega), hg]
    rfl
  · rfl

/-- Away from the centre the defect is at most the projection error at the edge. -/
theorem sphereDefect_le (c : FluxConfig) (hg : c.geometry = .sphere) (t : ℝ) (m : MeshView)
    (P : ℕ → ℕ → ℝ) (u : ℕ → ℝ → ℝ) (mul δ : ℝ) (uRefl : ℕ → ℕ → ℝ) (hδ : 0 ≤ δ)
    (hflux : ∀ k, k + 1 < c.Nspace → (mul - m.Dedges (k + 1)) * u k (m.edges (k + 1)) =
      (mul - m.Dedges (k + 1)) * u (k + 1) (m.edges (k + 1)))
    (hr : mul - m.Dedges c.Nspace < 0 →
      rightOuter c t m P (c.Nspace - 1) = u (c.Nspace - 1) (m.edges c.Nspace))
    (hL : ∀ k < c.Nspace,
      |sphereField c.M (P k) (m.edges k) (m.edges (k + 1)) (m.edges k) - u k (m.edges k)| ≤ δ)
    (hR : ∀ k < c.Nspace,
      |sphereField c.M (P k) (m.edges k) (m.edges (k + 1)) (m.edges (k + 1))
        - u k (m.edges (k + 1))| ≤ δ) (j : ℕ) (hj : j ≤ c.Nspace) (hj0 : 0 < j) :
    |sphereDefect c t m P u mul uRefl j| ≤ |mul - m.Dedges j| * δ := by
  unfold sphereDefect
  split_ifs with h
  · refine upwind_close (fun hv => ?_) fun _ => hL j h
    rcases j with _ | k
    · omega
    · have hne : mul - m.Dedges (k + 1) ≠ 0 := hv.ne'
      rw [← mul_left_cancel₀ hne (hflux k h)]
      have e : leftOuter c t m P (k + 1) (uRefl (k + 1)) =
          sphereField c.M (P k) (m.edges k) (m.edges (k + 1)) (m.edges (k + 1)) := by
        unfold leftOuter
        rw [if_pos (by omega), hg]
        rfl
      rw [e]
      exact hR k (by omega)
  · have hjN : j = c.Nspace := by omega
    subst hjN
    refine upwind_close (fun _ => ?_) fun hv => ?_
    · have := hR (c.Nspace - 1) (by omega)
      rwa [Nat.sub_add_cancel hj0] at this
    · rw [hr hv]; simpa using hδ

/-- Testing the defects with a state gives the jumps of the state. -/
theorem sphere_defect_form (N M : ℕ) (e : ℕ → ℝ) (D : ℕ → ℕ → ℝ) (ρ : ℕ → ℝ) :
    ∑ k ∈ Finset.range N, ∑ i ∈ Finset.range (M + 1), D k i *
      (-(sphereBasis i (e (k + 1)) (e k) (e (k + 1)) * ρ (k + 1))
        + sphereBasis i (e k) (e k) (e (k + 1)) * ρ k) =
      ∑ j ∈ Finset.range (N + 1), ρ j * sphereJump N M e D j := by
  have h1 : ∀ k ∈ Finset.range N, ∑ i ∈ Finset.range (M + 1), D k i *
      (-(sphereBasis i (e (k + 1)) (e k) (e (k + 1)) * ρ (k + 1))
        + sphereBasis i (e k) (e k) (e (k + 1)) * ρ k) =
      ρ k * sphereTraceRight N M e D k - ρ (k + 1) * sphereTraceLeft M e D (k + 1) := by
    intro k hk
    unfold sphereTraceRight sphereTraceLeft
    rw [if_pos (Finset.mem_range.1 hk)]
    unfold sphereField
    rw [Finset.mul_sum, Finset.mul_sum, ← Finset.sum_sub_distrib]
    exact Finset.sum_congr rfl fun i _ => by ring
  rw [Finset.sum_congr rfl h1, Finset.sum_sub_distrib]
  unfold sphereJump
  simp only [mul_sub]
  rw [Finset.sum_sub_distrib, Finset.sum_range_succ (fun j => ρ j * sphereTraceRight N M e D j),
    Finset.sum_range_succ' (fun j => ρ j * sphereTraceLeft M e D j)]
  have h2 : sphereTraceRight N M e D N = 0 := by unfold sphereTraceRight; rw [if_neg (lt_irrefl N)]
  have h3 : sphereTraceLeft M e D 0 = 0 := rfl
  rw [h2, h3]
  ring

/-- The redistribution matrix applied to coefficients. -/
theorem j_apply (M : ℕ) (x : ℕ → ℝ) {a b : ℝ} (h : a < b) (i : ℕ) :
    matVec M (fun i j => sphereJ i j a b) x i =
      ∫ r in a..b, r * sphereField M x a b r * sphereBasis i r a b := by
  unfold matVec sphereJ
  have e : ∀ r, r * sphereField M x a b r * sphereBasis i r a b =
      ∑ j ∈ Finset.range (M + 1), x j * (r * (sphereBasis i r a b * sphereBasis j r a b)) := by
    intro r
    unfold sphereField
    rw [Finset.mul_sum, Finset.sum_mul]
    exact Finset.sum_congr rfl fun j _ => by ring
  simp_rw [e]
  rw [intervalIntegral.integral_finsetSum]
  · refine Finset.sum_congr rfl fun j _ => ?_
    rw [intervalIntegral.integral_const_mul, mul_comm]
  · intro j _
    have h1 := continuous_sphereBasis h i
    have h2 := continuous_sphereBasis h j
    exact Continuous.intervalIntegrable (by fun_prop) _ _

/-- Moments of streaming and time derivative of a solution on one shell. -/
theorem solution_moment {n : ℕ} {mus ws : ℕ → ℝ} {scat : ℝ} {N : ℕ} {e v : ℝ → ℕ → ℝ}
    {q : ℕ → ℝ → ℝ → ℝ} {ρ : ℕ → ℕ → ℝ → ℝ → ℝ} {a b : ℝ} {F : Set ℝ} {u : ℕ → ℕ → ℝ → ℝ → ℝ}
    (hu : SphereNearSolution n mus ws scat N e v q ρ a b F u) {t : ℝ} (ht : t ∈ Ico a b \ F) {l : ℕ}
    (hl : l < n) {k : ℕ} (hk : k < N) (hm : e t k < e t (k + 1)) (i : ℕ) :
    ∫ r in (e t k)..(e t (k + 1)), (r ^ 2 * deriv (fun τ => u l k r τ) t
        + mus l * deriv (fun y => y ^ 2 * u l k y t) r) * sphereBasis i r (e t k) (e t (k + 1)) =
      weightedMoment (fun r => q k r t) (e t k) (e t (k + 1)) i
        + scat * ∑ l' ∈ Finset.range n, ws l' *
          weightedMoment (fun r => u l' k r t) (e t k) (e t (k + 1)) i
        - weightedMoment (fun r => u l k r t) (e t k) (e t (k + 1)) i
        - ∫ r in (e t k)..(e t (k + 1)),
          r * (angularDifference n mus (fun l => u l k r t) l - ρ l k r t) *
          sphereBasis i r (e t k) (e t (k + 1)) := by
  set B := fun r => sphereBasis i r (e t k) (e t (k + 1)) with hB
  have hBc : Continuous B := continuous_sphereBasis hm i
  have hcont : ∀ l' < n, Continuous fun r => u l' k r t := fun l' hl' =>
    (hu.smooth l' hl' k hk).continuous.comp (continuous_id.prodMk continuous_const)
  have hD := continuous_angularDifference (mus := mus) hcont hl
  have hρ := hu.residual t ht l hl k hk
  have hUc : ContDiff ℝ 1 fun z : ℝ × ℝ => z.1 ^ 2 * u l k z.1 z.2 :=
    (contDiff_fst.pow 2).mul (hu.smooth l hl k hk)
  have hct : Continuous fun r => deriv (fun τ => u l k r τ) t :=
    (continuous_deriv_of_contDiff (hu.smooth l hl k hk)).2.comp
      (continuous_id.prodMk continuous_const)
  have hcx : Continuous fun r => deriv (fun y => y ^ 2 * u l k y t) r :=
    (continuous_deriv_of_contDiff (u := fun y τ => y ^ 2 * u l k y τ) hUc).1.comp
      (continuous_id.prodMk continuous_const)
  set A := fun r => (r ^ 2 * deriv (fun τ => u l k r τ) t
        + mus l * deriv (fun y => y ^ 2 * u l k y t) r) * B r with hA
  have hAc : Continuous A := by simp only [hA]; fun_prop
  have hul := hcont l hl
  have hsum : ∑ l' ∈ Finset.range n, ws l' *
      weightedMoment (fun r => u l' k r t) (e t k) (e t (k + 1)) i =
      ∫ r in (e t k)..(e t (k + 1)), ∑ l' ∈ Finset.range n, ws l' * (r ^ 2 * (u l' k r t * B r)) := by
    rw [intervalIntegral.integral_finsetSum]
    · refine Finset.sum_congr rfl fun l' _ => ?_
      rw [intervalIntegral.integral_const_mul]
      rfl
    · intro l' hl'
      have := hcont l' (Finset.mem_range.1 hl')
      exact Continuous.intervalIntegrable (by fun_prop) _ _
  have hq : weightedMoment (fun r => q k r t) (e t k) (e t (k + 1)) i =
      ∫ r in (e t k)..(e t (k + 1)), (A r
        + r * (angularDifference n mus (fun l => u l k r t) l - ρ l k r t) * B r
        + r ^ 2 * (u l k r t * B r)
        - scat * ∑ l' ∈ Finset.range n, ws l' * (r ^ 2 * (u l' k r t * B r))) := by
    refine intervalIntegral.integral_congr fun r hr => ?_
    rw [uIcc_of_le hm.le] at hr
    have h1 := hu.equation t ht l hl k hk r hr
    have h2 : ∑ l' ∈ Finset.range n, ws l' * (r ^ 2 * (u l' k r t * B r)) =
        r ^ 2 * B r * ∑ l' ∈ Finset.range n, ws l' * u l' k r t := by
      rw [Finset.mul_sum]
      exact Finset.sum_congr rfl fun _ _ => by ring
    simp only [hA]
    rw [h2]
    simp only [hB]
    linear_combination (-(sphereBasis i r (e t k) (e t (k + 1)))) * h1
  have hsc : Continuous fun r => ∑ l' ∈ Finset.range n, ws l' * (r ^ 2 * (u l' k r t * B r)) :=
    continuous_finsetSum _ fun l' hl' => by
      have := hcont l' (Finset.mem_range.1 hl')
      fun_prop
  rw [hq, hsum]
  have hm2 : weightedMoment (fun r => u l k r t) (e t k) (e t (k + 1)) i =
      ∫ r in (e t k)..(e t (k + 1)), r ^ 2 * (u l k r t * B r) := rfl
  rw [hm2, intervalIntegral.integral_sub, intervalIntegral.integral_add,
    intervalIntegral.integral_add, intervalIntegral.integral_const_mul]
  · ring
  all_goals exact Continuous.intervalIntegrable (by fun_prop) _ _

/-- Mass matrix times the rate of the projected solution: the equations of the scheme plus flux
defects, the error of the redistribution term and the residual. -/
theorem near_projection_equation (p : RhsParams) (hn : 2 ≤ p.Nang) (c : FluxConfig)
    (hg : c.geometry = .sphere) (hM : c.M ≤ 10) (a b : ℝ) (F : Set ℝ) (mesh : ℝ → MeshView)
    (q : ℕ → ℝ → ℝ → ℝ) (ρ : ℕ → ℕ → ℝ → ℝ → ℝ) (u : ℕ → ℕ → ℝ → ℝ → ℝ)
    (hu : SphereNearSolution p.Nang p.mus p.ws p.c c.Nspace (fun t => (mesh t).edges)
      (fun t => (mesh t).Dedges) q ρ a b F u)
    (t : ℝ) (ht : t ∈ Ico a b \ F) (l : ℕ) (hl : l < p.Nang) (k : ℕ) (hk : k < c.Nspace)
    (hm : ∀ k < c.Nspace, (mesh t).edges k < (mesh t).edges (k + 1))
    (mats : CellMats) (hmats : MatsExact c.M ((mesh t).edges k) ((mesh t).edges (k + 1))
      ((mesh t).Dedges k) ((mesh t).Dedges (k + 1)) mats)
    (S : ℕ → ℕ → ℝ) (hS : ∀ i ≤ c.M, 1 / 2 * S k i * p.c =
      weightedMoment (fun r => q k r t) ((mesh t).edges k) ((mesh t).edges (k + 1)) i)
    (P : ℕ → ℕ → ℕ → ℝ) (hP : ∀ l < p.Nang, IsSphereProjection c.M (fun r => u l k r t)
      ((mesh t).edges k) ((mesh t).edges (k + 1)) (P l k))
    (R : ℕ → ℝ)
    (hR : ∀ i ≤ c.M, matVec c.M (fun i j => sphereMass i j ((mesh t).edges k) ((mesh t).edges (k + 1)))
        R i =
      matVec c.M (fun i j => gExact i j ((mesh t).edges k) ((mesh t).edges (k + 1))
          ((mesh t).Dedges k) ((mesh t).Dedges (k + 1)) / Real.pi) (P l k) i
      + p.mus l * matVec c.M (fun i j => sphereL i j ((mesh t).edges k) ((mesh t).edges (k + 1)))
          (P l k) i
      - (sphereBasis i ((mesh t).edges (k + 1)) ((mesh t).edges k) ((mesh t).edges (k + 1)) *
            ((p.mus l - (mesh t).Dedges (k + 1)) * ((mesh t).edges (k + 1) ^ 2 *
              u l k ((mesh t).edges (k + 1)) t))
          - sphereBasis i ((mesh t).edges k) ((mesh t).edges k) ((mesh t).edges (k + 1)) *
            ((p.mus l - (mesh t).Dedges k) * ((mesh t).edges k ^ 2 * u l k ((mesh t).edges k) t)))
      + (∫ r in ((mesh t).edges k)..((mesh t).edges (k + 1)), (r ^ 2 * deriv (fun τ => u l k r τ) t
            + p.mus l * deriv (fun y => y ^ 2 * u l k y t) r) *
              sphereBasis i r ((mesh t).edges k) ((mesh t).edges (k + 1)))
      - matVec c.M (fun i j => mpExact i j ((mesh t).edges k) ((mesh t).edges (k + 1))
          ((mesh t).Dedges k) ((mesh t).Dedges (k + 1)) / Real.pi) (P l k) i)
    (fs : FluxState) (i : ℕ) (hi : i ≤ c.M) :
    matVec c.M mats.Mass R i =
      sphereWeak p c t (mesh t) mats S fs P l k i
        + p.c * matVec c.M mats.Mass (scalarCoef p P k) i - matVec c.M mats.Mass (P l k) i
        + (sphereBasis i ((mesh t).edges (k + 1)) ((mesh t).edges k) ((mesh t).edges (k + 1)) *
            ((mesh t).edges (k + 1) ^ 2 * sphereDefect c t (mesh t) (P l) (fun k r => u l k r t)
              (p.mus l) (fun k => P (reflIndex p.Nang l k) 0) (k + 1))
          - sphereBasis i ((mesh t).edges k) ((mesh t).edges k) ((mesh t).edges (k + 1)) *
            ((mesh t).edges k ^ 2 * sphereDefect c t (mesh t) (P l) (fun k r => u l k r t)
              (p.mus l) (fun k => P (reflIndex p.Nang l k) 0) k))
        - ∫ r in ((mesh t).edges k)..((mesh t).edges (k + 1)),
            r * (angularDifference p.Nang p.mus (fun l => u l k r t -
              sphereField c.M (P l k) ((mesh t).edges k) ((mesh t).edges (k + 1)) r) l - ρ l k r t) *
              sphereBasis i r ((mesh t).edges k) ((mesh t).edges (k + 1)) := by
  set m := mesh t with hmt
  have hc := hm k hk
  have hcont : ∀ l' < p.Nang, Continuous fun r => u l' k r t := fun l' hl' =>
    (hu.smooth l' hl' k hk).continuous.comp (continuous_id.prodMk continuous_const)
  have hfield : ∀ l', Continuous fun r => sphereField c.M (P l' k) (m.edges k) (m.edges (k + 1)) r :=
    fun l' => continuous_sphereField c.M (P l' k) hc
  have hmom : ∀ l' < p.Nang, weightedMoment (fun r => u l' k r t) (m.edges k) (m.edges (k + 1)) i =
      matVec c.M (fun i j => sphereMass i j (m.edges k) (m.edges (k + 1))) (P l' k) i :=
    fun l' hl' => ((isSphereProjection_iff (hcont l' hl') hc _).1 (hP l' hl') i hi).symm
  have hmass : ∀ x, matVec c.M mats.Mass x i =
      matVec c.M (fun i j => sphereMass i j (m.edges k) (m.edges (k + 1))) x i := fun x =>
    matVec_congr (hmats.Mass i hi) x
  have hLm : ∀ x, matVec c.M mats.L x i =
      matVec c.M (fun i j => sphereL i j (m.edges k) (m.edges (k + 1))) x i := fun x =>
    matVec_congr (hmats.L i hi) x
  have hJm : ∀ x, matVec c.M mats.J x i =
      matVec c.M (fun i j => sphereJ i j (m.edges k) (m.edges (k + 1))) x i := fun x =>
    matVec_congr (hmats.J i hi) x
  have hGm : ∀ x, matVec c.M mats.G x i = matVec c.M (fun i j => gExact i j (m.edges k)
      (m.edges (k + 1)) (m.Dedges k) (m.Dedges (k + 1)) / Real.pi) x i := fun x =>
    matVec_congr (fun j hj => matsExact_G hM hc hmats hi hj) x
  have hPm : ∀ x, matVec c.M mats.MPRIME x i = matVec c.M (fun i j => mpExact i j (m.edges k)
      (m.edges (k + 1)) (m.Dedges k) (m.Dedges (k + 1)) / Real.pi) x i := fun x =>
    matVec_congr (fun j hj => matsExact_MPRIME hM hc hmats hi hj) x
  have hsol := solution_moment hu ht hl hk hc i
  simp only [← hmt] at hsol
  have hscal : ∑ l' ∈ Finset.range p.Nang, p.ws l' *
      weightedMoment (fun r => u l' k r t) (m.edges k) (m.edges (k + 1)) i =
      matVec c.M (fun i j => sphereMass i j (m.edges k) (m.edges (k + 1))) (scalarCoef p P k) i := by
    rw [Finset.sum_congr rfl fun l' hl' => by rw [hmom l' (Finset.mem_range.1 hl')]]
    unfold matVec scalarCoef angularSum
    simp only [Finset.mul_sum]
    rw [Finset.sum_comm]
    exact Finset.sum_congr rfl fun j _ => Finset.sum_congr rfl fun l' _ => by ring
  -- redistribution
  have hDu := continuous_angularDifference (mus := p.mus) hcont hl
  have hDf := continuous_angularDifference (n := p.Nang) (mus := p.mus) (l := l)
    (f := fun l' r => sphereField c.M (P l' k) (m.edges k) (m.edges (k + 1)) r)
    (fun l' _ => hfield l') hl
  have hBc := continuous_sphereBasis hc i
  have hρ := hu.residual t ht l hl k hk
  have hred : ∫ r in (m.edges k)..(m.edges (k + 1)), r *
      (angularDifference p.Nang p.mus (fun l => u l k r t -
        sphereField c.M (P l k) (m.edges k) (m.edges (k + 1)) r) l - ρ l k r t) *
        sphereBasis i r (m.edges k) (m.edges (k + 1)) =
      (∫ r in (m.edges k)..(m.edges (k + 1)), r *
        (angularDifference p.Nang p.mus (fun l => u l k r t) l - ρ l k r t) *
        sphereBasis i r (m.edges k) (m.edges (k + 1)))
      - matVec c.M (fun i j => sphereJ i j (m.edges k) (m.edges (k + 1))) (dterm p P l k) i := by
    rw [j_apply c.M _ hc, ← intervalIntegral.integral_sub]
    · refine intervalIntegral.integral_congr fun r _ => ?_
      rw [angularDifference_sub, dterm_field, ← angularDifference_eq hn _ hl]
      ring
    · exact Continuous.intervalIntegrable (by fun_prop) _ _
    · have := continuous_sphereField c.M (dterm p P l k) hc
      exact Continuous.intervalIntegrable (by fun_prop) _ _
  have hf := sphereDefect_right c hg t m (P l) (fun k r => u l k r t) (p.mus l)
    (fun k => P (reflIndex p.Nang l k) 0) k (fun h => hu.continuousFlux t ht l hl k h)
  have hf2 : sphereDefect c t m (P l) (fun k r => u l k r t) (p.mus l)
      (fun k => P (reflIndex p.Nang l k) 0) k =
      upwind (p.mus l - m.Dedges k) (leftOuter c t m (P l) k (P (reflIndex p.Nang l k) 0))
      (sphereField c.M (P l k) (m.edges k) (m.edges (k + 1)) (m.edges k))
      - (p.mus l - m.Dedges k) * u l k (m.edges k) t := if_pos hk
  rw [hscal, hmom l hl, ← hS i hi] at hsol
  rw [hmass, hmass, hmass, hR i hi, hsol, hred, ← hf, hf2]
  unfold sphereWeak
  rw [fluxLU_eq c t m _ k _ _ fs hk hm hi, hLm, hJm, hGm, hPm, hg]
  simp only [geomArea, geomBasis, geomField]
  ring

/-- As `near_projection_equation`, without residual. -/
theorem sphere_projection_equation (p : RhsParams) (hn : 2 ≤ p.Nang) (c : FluxConfig)
    (hg : c.geometry = .sphere) (hM : c.M ≤ 10) (a b : ℝ) (F : Set ℝ) (mesh : ℝ → MeshView)
    (q : ℕ → ℝ → ℝ → ℝ) (u : ℕ → ℕ → ℝ → ℝ → ℝ)
    (hu : SphereSolution p.Nang p.mus p.ws p.c c.Nspace (fun t => (mesh t).edges)
      (fun t => (mesh t).Dedges) q a b F u)
    (t : ℝ) (ht : t ∈ Ico a b \ F) (l : ℕ) (hl : l < p.Nang) (k : ℕ) (hk : k < c.Nspace)
    (hm : ∀ k < c.Nspace, (mesh t).edges k < (mesh t).edges (k + 1))
    (mats : CellMats) (hmats : MatsExact c.M ((mesh t).edges k) ((mesh t).edges (k + 1))
      ((mesh t).Dedges k) ((mesh t).Dedges (k + 1)) mats)
    (S : ℕ → ℕ → ℝ) (hS : ∀ i ≤ c.M, 1 / 2 * S k i * p.c =
      weightedMoment (fun r => q k r t) ((mesh t).edges k) ((mesh t).edges (k + 1)) i)
    (P : ℕ → ℕ → ℕ → ℝ) (hP : ∀ l < p.Nang, IsSphereProjection c.M (fun r => u l k r t)
      ((mesh t).edges k) ((mesh t).edges (k + 1)) (P l k))
    (R : ℕ → ℝ)
    (hR : ∀ i ≤ c.M, matVec c.M (fun i j => sphereMass i j ((mesh t).edges k) ((mesh t).edges (k + 1)))
        R i =
      matVec c.M (fun i j => gExact i j ((mesh t).edges k) ((mesh t).edges (k + 1))
          ((mesh t).Dedges k) ((mesh t).Dedges (k + 1)) / Real.pi) (P l k) i
      + p.mus l * matVec c.M (fun i j => sphereL i j ((mesh t).edges k) ((mesh t).edges (k + 1)))
          (P l k) i
      - (sphereBasis i ((mesh t).edges (k + 1)) ((mesh t).edges k) ((mesh t).edges (k + 1)) *
            ((p.mus l - (mesh t).Dedges (k + 1)) * ((mesh t).edges (k + 1) ^ 2 *
              u l k ((mesh t).edges (k + 1)) t))
          - sphereBasis i ((mesh t).edges k) ((mesh t).edges k) ((mesh t).edges (k + 1)) *
            ((p.mus l - (mesh t).Dedges k) * ((mesh t).edges k ^ 2 * u l k ((mesh t).edges k) t)))
      + (∫ r in ((mesh t).edges k)..((mesh t).edges (k + 1)), (r ^ 2 * deriv (fun τ => u l k r τ) t
            + p.mus l * deriv (fun y => y ^ 2 * u l k y t) r) *
              sphereBasis i r ((mesh t).edges k) ((mesh t).edges (k + 1)))
      - matVec c.M (fun i j => mpExact i j ((mesh t).edges k) ((mesh t).edges (k + 1))
          ((mesh t).Dedges k) ((mesh t).Dedges (k + 1)) / Real.pi) (P l k) i)
    (fs : FluxState) (i : ℕ) (hi : i ≤ c.M) :
    matVec c.M mats.Mass R i =
      sphereWeak p c t (mesh t) mats S fs P l k i
        + p.c * matVec c.M mats.Mass (scalarCoef p P k) i - matVec c.M mats.Mass (P l k) i
        + (sphereBasis i ((mesh t).edges (k + 1)) ((mesh t).edges k) ((mesh t).edges (k + 1)) *
            ((mesh t).edges (k + 1) ^ 2 * sphereDefect c t (mesh t) (P l) (fun k r => u l k r t)
              (p.mus l) (fun k => P (reflIndex p.Nang l k) 0) (k + 1))
          - sphereBasis i ((mesh t).edges k) ((mesh t).edges k) ((mesh t).edges (k + 1)) *
            ((mesh t).edges k ^ 2 * sphereDefect c t (mesh t) (P l) (fun k r => u l k r t)
              (p.mus l) (fun k => P (reflIndex p.Nang l k) 0) k))
        - ∫ r in ((mesh t).edges k)..((mesh t).edges (k + 1)),
            r * angularDifference p.Nang p.mus (fun l => u l k r t -
              sphereField c.M (P l k) ((mesh t).edges k) ((mesh t).edges (k + 1)) r) l *
              sphereBasis i r ((mesh t).edges k) ((mesh t).edges (k + 1)) := by
  have h := near_projection_equation p hn c hg hM a b F mesh q _ u hu.near t ht l hl k hk hm mats hmats S
    hS P hP R hR fs i hi
  simpa only [sub_zero] using h

/-! ### Continuity of the projection -/

theorem continuousOn_weightedMoment {u : ℝ → ℝ → ℝ} (hu : Continuous fun z : ℝ × ℝ => u z.1 z.2)
    {e1 e2 : ℝ → ℝ} {s : Set ℝ} (h1 : ContinuousOn e1 s) (h2 : ContinuousOn e2 s)
    (h : ∀ t ∈ s, e1 t < e2 t) (i : ℕ) :
    ContinuousOn (fun t => weightedMoment (fun x => u x t) (e1 t) (e2 t) i) s := by
  have hJ : Continuous fun z : ℝ × ℝ × ℝ => ∫ ξ in (-1 : ℝ)..1,
      cellPoint z.1 z.2.1 ξ ^ 2 * u (cellPoint z.1 z.2.1 ξ) z.2.2 *
        (Chebyshev.T ℝ (i : ℕ)).eval ξ := by
    refine intervalIntegral.continuous_parametric_intervalIntegral_of_continuous' ?_ _ _
    have hp : Continuous fun w : (ℝ × ℝ × ℝ) × ℝ => (Chebyshev.T ℝ (i : ℕ)).eval w.2 :=
      (Chebyshev.T ℝ (i : ℕ)).continuous.comp continuous_snd
    have hq : Continuous fun w : (ℝ × ℝ × ℝ) × ℝ =>
        ((cellPoint w.1.1 w.1.2.1 w.2, w.1.2.2) : ℝ × ℝ) := by
      unfold cellPoint
      fun_prop
    exact Continuous.mul (Continuous.mul ((continuous_fst.comp hq).pow 2) (hu.comp hq)) hp
  have hc : ContinuousOn (fun t => bb i / (2 * Real.sqrt Real.pi) * Real.sqrt (e2 t - e1 t) *
      ∫ ξ in (-1 : ℝ)..1, cellPoint (e1 t) (e2 t) ξ ^ 2 * u (cellPoint (e1 t) (e2 t) ξ) t *
        (Chebyshev.T ℝ (i : ℕ)).eval ξ) s := by
    refine ContinuousOn.mul (continuousOn_const.mul (ContinuousOn.sqrt (h2.sub h1))) ?_
    have hz : ContinuousOn (fun t => ((e1 t, e2 t, t) : ℝ × ℝ × ℝ)) s :=
      h1.prodMk (h2.prodMk continuousOn_id)
    have h3 := hJ.comp_continuousOn hz
    simp only [Function.comp_def] at h3
    exact h3
  exact hc.congr fun t ht => weightedMoment_eq (h t ht) _ i

theorem continuousOn_sphere_projection {M : ℕ} {u : ℝ → ℝ → ℝ}
    (hu : Continuous fun z : ℝ × ℝ => u z.1 z.2)
    {e1 e2 : ℝ → ℝ} {s : Set ℝ} (h1 : ContinuousOn e1 s) (h2 : ContinuousOn e2 s)
    (h : ∀ t ∈ s, e1 t < e2 t) {P : ℝ → ℕ → ℝ}
    (hP : ∀ t ∈ s, IsSphereProjection M (fun x => u x t) (e1 t) (e2 t) (P t)) {i : ℕ} (hi : i ≤ M) :
    ContinuousOn (fun t => P t i) s := by
  refine ContinuousOn.congr (f := fun t => ∑ j : Fin (M + 1),
    (massMatrix M (e1 t) (e2 t))⁻¹ ⟨i, Nat.lt_succ_of_le hi⟩ j *
      weightedMoment (fun x => u x t) (e1 t) (e2 t) j) ?_ fun t ht => ?_
  · exact continuousOn_finsetSum _ fun j _ => (continuousOn_massInv h1 h2 h M _ j).mul
      (continuousOn_weightedMoment hu h1 h2 h j)
  · exact isSphereProjection_eq (hu.comp (continuous_id.prodMk continuous_const)) (h t ht) (hP t ht)
      ⟨i, Nat.lt_succ_of_le hi⟩

/-! ### Bounds for the residual -/

theorem edges_mono {N : ℕ} {e : ℕ → ℝ} (h : ∀ k < N, e k < e (k + 1)) {i j : ℕ} (hij : i ≤ j)
    (hj : j ≤ N) : e i ≤ e j := by
  induction j, hij using Nat.le_induction with
  | base => exact le_rfl
  | succ j _ ih => exact (ih (by omega)).trans (h j (by omega)).le

/-- Flux defects against the jumps of the error. -/
theorem defect_jump_le (N M : ℕ) (e D' : ℕ → ℝ) (D : ℕ → ℕ → ℝ) (ρ : ℕ → ℝ) (mul A R δ : ℝ)
    (h0 : e 0 = 0) (he : ∀ j ≤ N, 0 ≤ e j ∧ e j ≤ R) (hA : ∀ j ≤ N, |mul - D' j| ≤ A)
    (hρ : ∀ j ≤ N, 0 < j → |ρ j| ≤ |mul - D' j| * δ) :
    2 * ∑ j ∈ Finset.range (N + 1), e j ^ 2 * ρ j * sphereJump N M e D j ≤
      ∑ j ∈ Finset.range (N + 1), e j ^ 2 * (|mul - D' j| * sphereJump N M e D j ^ 2)
        + (N + 1) * (A * R ^ 2 * δ ^ 2) := by
  have hterm : ∀ j ∈ Finset.range (N + 1), 2 * (e j ^ 2 * ρ j * sphereJump N M e D j) ≤
      e j ^ 2 * (|mul - D' j| * sphereJump N M e D j ^ 2) + A * R ^ 2 * δ ^ 2 := by
    intro j hj
    have hj : j ≤ N := Nat.lt_succ_iff.1 (Finset.mem_range.1 hj)
    have hA0 : 0 ≤ A := (abs_nonneg _).trans (hA j hj)
    rcases Nat.eq_zero_or_pos j with h | h
    · rw [h, h0]
      have : 0 ≤ A * R ^ 2 * δ ^ 2 := by positivity
      simpa using this
    · set x := sphereJump N M e D j
      set w := |mul - D' j| with hw
      have hw0 : 0 ≤ w := abs_nonneg _
      have h1 : 2 * (ρ j * x) ≤ w * x ^ 2 + w * δ ^ 2 := by
        have h2 : ρ j * x ≤ |ρ j| * |x| := by rw [← abs_mul]; exact le_abs_self _
        have h3 : |ρ j| * |x| ≤ w * δ * |x| := mul_le_mul_of_nonneg_right (hρ j hj h) (abs_nonneg _)
        have h4 : |x| ^ 2 = x ^ 2 := sq_abs x
        nlinarith [mul_nonneg hw0 (sq_nonneg (|x| - δ))]
      have h2 : e j ^ 2 ≤ R ^ 2 := pow_le_pow_left₀ (he j hj).1 (he j hj).2 2
      have h3 : e j ^ 2 * (w * δ ^ 2) ≤ R ^ 2 * (A * δ ^ 2) :=
        mul_le_mul h2 (mul_le_mul_of_nonneg_right (hA j hj) (sq_nonneg δ))
          (mul_nonneg hw0 (sq_nonneg δ)) (sq_nonneg R)
      have h4 := mul_le_mul_of_nonneg_left h1 (sq_nonneg (e j))
      nlinarith
  rw [Finset.mul_sum]
  refine (Finset.sum_le_sum hterm).trans_eq ?_
  rw [Finset.sum_add_distrib, Finset.sum_const, Finset.card_range, nsmul_eq_mul]
  push_cast
  ring

/-- Error of the redistribution term against the error of the state. -/
theorem redistribution_error_le (N M : ℕ) (e : ℕ → ℝ) (D : ℕ → ℕ → ℝ) (g : ℕ → ℝ → ℝ) (R s : ℝ)
    (h0 : e 0 = 0) (hN : e N ≤ R) (hm : ∀ k < N, e k < e (k + 1))
    (hc : ∀ k < N, Continuous (g k))
    (hg : ∀ k < N, ∀ r ∈ Icc (e k) (e (k + 1)), |g k r| ≤ s) :
    2 * ∑ k ∈ Finset.range N, ∑ i ∈ Finset.range (M + 1), D k i *
      (∫ r in (e k)..(e (k + 1)), r * g k r * sphereBasis i r (e k) (e (k + 1))) ≤
      sphereSqNorm N M e D + R * s ^ 2 := by
  have hcell : ∀ k ∈ Finset.range N, 2 * ∑ i ∈ Finset.range (M + 1), D k i *
      (∫ r in (e k)..(e (k + 1)), r * g k r * sphereBasis i r (e k) (e (k + 1))) ≤
      (∫ r in (e k)..(e (k + 1)), r ^ 2 * sphereField M (D k) (e k) (e (k + 1)) r ^ 2)
        + (e (k + 1) - e k) * s ^ 2 := by
    intro k hk
    have hk := Finset.mem_range.1 hk
    have hgk := hc k hk
    have hf := continuous_sphereField M (D k) (hm k hk)
    have e1 : ∑ i ∈ Finset.range (M + 1), D k i *
        (∫ r in (e k)..(e (k + 1)), r * g k r * sphereBasis i r (e k) (e (k + 1))) =
        ∫ r in (e k)..(e (k + 1)), r * g k r * sphereField M (D k) (e k) (e (k + 1)) r := by
      simp only [← intervalIntegral.integral_const_mul]
      rw [← intervalIntegral.integral_finsetSum]
      · refine intervalIntegral.integral_congr fun r _ => ?_
        simp only [sphereField, Finset.mul_sum]
        exact Finset.sum_congr rfl fun i _ => by ring
      · intro i _
        have := continuous_sphereBasis (hm k hk) i
        exact Continuous.intervalIntegrable (by fun_prop) _ _
    have e2 : (e (k + 1) - e k) * s ^ 2 = ∫ _ in (e k)..(e (k + 1)), s ^ 2 := by
      rw [intervalIntegral.integral_const, smul_eq_mul]
    rw [e1, e2, ← intervalIntegral.integral_const_mul, ← intervalIntegral.integral_add]
    · refine intervalIntegral.integral_mono_on (hm k hk).le ?_ ?_ fun r hr => ?_
      · exact Continuous.intervalIntegrable (by fun_prop) _ _
      · exact Continuous.intervalIntegrable (by fun_prop) _ _
      · have h1 : g k r ^ 2 ≤ s ^ 2 := by
          rw [← sq_abs]
          exact pow_le_pow_left₀ (abs_nonneg _) (hg k hk r hr) 2
        nlinarith [sq_nonneg (r * sphereField M (D k) (e k) (e (k + 1)) r - g k r)]
    · exact Continuous.intervalIntegrable (by fun_prop) _ _
    · exact intervalIntegrable_const
  rw [Finset.mul_sum]
  refine (Finset.sum_le_sum hcell).trans ?_
  rw [Finset.sum_add_distrib, ← Finset.sum_mul, Finset.sum_range_sub, h0, sub_zero]
  exact add_le_add le_rfl (mul_le_mul_of_nonneg_right hN (sq_nonneg s))

/-! ### C107 -/

/-- As `c107_sphere_error_bound`, for functions that satisfy the equation up to a residual `r ζ` with
`|ζ| ≤ σ`. -/
theorem near_error_bound (M : ℕ) (hM : M ≤ 10) : ∃ C : ℝ, 1 ≤ C ∧
    ∀ (p : RhsParams) (c : FluxConfig) (mesh : ℝ → MeshView) (mats : ℝ → ℕ → CellMats)
      (S : ℝ → ℕ → ℕ → ℝ) (a b d h κ A R W δ σ : ℝ) (F : Set ℝ) (q : ℕ → ℝ → ℝ → ℝ)
      (ζ : ℕ → ℕ → ℝ → ℝ → ℝ) (u : ℕ → ℕ → ℝ → ℝ → ℝ) (P V : ℝ → ℕ → ℕ → ℕ → ℝ),
      DirectionSet p.Nang p.mus →
      ∑ l ∈ Finset.range p.Nang, p.ws l ^ 2 / (angularWidth p.Nang p.mus l / 2) ≤ κ →
      0 ≤ p.c → c.geometry = .sphere → c.M = M → 2 ≤ c.Nspace → F.Finite →
      SphereMeshOn c mesh mats a b F →
      (∀ t ∈ Ico a b \ F, ¬ BoundaryActive c false t) →
      SphereNearSolution p.Nang p.mus p.ws p.c c.Nspace (fun t => (mesh t).edges)
        (fun t => (mesh t).Dedges) q ζ a b F u →
      (∀ t ∈ Ico a b \ F, ∀ l < p.Nang, ∀ k < c.Nspace,
        ∀ r ∈ Icc ((mesh t).edges k) ((mesh t).edges (k + 1)), |ζ l k r t| ≤ σ) →
      (∀ t ∈ Ico a b \ F, ∀ k < c.Nspace, ∀ i ≤ c.M, 1 / 2 * S t k i * p.c =
        weightedMoment (fun r => q k r t) ((mesh t).edges k) ((mesh t).edges (k + 1)) i) →
      (∀ t ∈ Icc a b, ∀ l < p.Nang, ∀ k < c.Nspace, IsSphereProjection c.M (fun r => u l k r t)
        ((mesh t).edges k) ((mesh t).edges (k + 1)) (P t l k)) →
      0 ≤ d → (∀ l < p.Nang, angularMid p.Nang p.mus l - p.mus l ≤ d) →
      0 < W → (∀ l < p.Nang, W ≤ angularWidth p.Nang p.mus l) →
      0 < h → (∀ s ∈ Icc a b, h ≤ (mesh s).edges 1 ∧ (mesh s).edges c.Nspace ≤ R) →
      (∀ t ∈ Ico a b \ F, ∀ l < p.Nang, ∀ k ≤ c.Nspace, |p.mus l - (mesh t).Dedges k| ≤ A) →
      (∀ t ∈ Ico a b \ F, ∀ l < p.Nang, ∀ k < c.Nspace,
        ∀ r ∈ Icc ((mesh t).edges k) ((mesh t).edges (k + 1)),
        |sphereField c.M (P t l k) ((mesh t).edges k) ((mesh t).edges (k + 1)) r - u l k r t| ≤ δ) →
      SphereSolutionOn p c mesh mats S a b F V →
      ∀ t ∈ Icc a b,
        sphereAngularSq (cellParams p) c.Nspace c.M (mesh t).edges (fun l k i => V t l k i - P t l k i) ≤
          gronwallBound
            (sphereAngularSq (cellParams p) c.Nspace c.M (mesh a).edges (fun l k i => V a l k i - P a l k i))
            (p.c * (1 + κ) - 1 + 2 * d * C / h)
            ((c.Nspace + 1) * (A * R ^ 2 * δ ^ 2) + R * (2 * δ / W + σ) ^ 2) (t - a) := by
  obtain ⟨C, hC, hmom⟩ := moment_le M
  refine ⟨C, hC, ?_⟩
  intro p c mesh mats S a b d h κ A R W δ σ F q ζ u P V hd hκ hc hg hcM hN hF hmesh hoff hu hσ hS hP hd0 hmid
    hW hW1 hh hhR hA hδ hV t ht
  subst hcM
  obtain ⟨hp, hw1⟩ := cell_weights (p := cellParams p) hd fun _ _ => rfl
  set D : ℝ → ℕ → ℕ → ℕ → ℝ := fun s l k i => V s l k i - P s l k i with hD
  set fs : FluxState := ⟨0, 0, 0, 0, 0, 0, 0, 0, 0, fun _ => 0⟩
  have hcontP : ∀ l < p.Nang, ∀ k < c.Nspace, ∀ i ≤ c.M, ContinuousOn (fun s => P s l k i) (Icc a b) :=
    fun l hl k hk i hi => continuousOn_sphere_projection (hu.smooth l hl k hk).continuous
      (hmesh.cont k hk.le) (hmesh.cont (k + 1) hk) (fun s hs => hmesh.ordered s hs k hk)
      (fun s hs => hP s hs l hl k hk) hi
  have hcont : ContinuousOn (fun s => sphereAngularSq (cellParams p) c.Nspace c.M (mesh s).edges (D s))
      (Icc a b) := by
    unfold sphereAngularSq angularSum
    refine continuousOn_finsetSum _ fun l hl => continuousOn_const.mul ?_
    have hl := Finset.mem_range.1 hl
    exact continuousOn_sphereSqNorm hmesh.cont hmesh.ordered
      fun k hk i hi => (hV.1 l hl k hk i hi).sub (hcontP l hl k hk i hi)
  choose! Rv hRv hRvd using fun x hx => hV.2 x hx fs
  -- rate of the projection
  have hPd : ∀ x ∈ Ico a b \ F, ∀ l < p.Nang, ∀ k < c.Nspace, ∃ R' : ℕ → ℝ,
      (∀ i ≤ c.M, HasDerivWithinAt (fun s => P s l k i) (R' i) (Ici x) x) ∧
      ∀ i ≤ c.M, matVec c.M (mats x k).Mass R' i =
        sphereWeak p c x (mesh x) (mats x k) (S x) fs (P x) l k i
        + p.c * matVec c.M (mats x k).Mass (scalarCoef p (P x) k) i
        - matVec c.M (mats x k).Mass (P x l k) i
        + (sphereBasis i ((mesh x).edges (k + 1)) ((mesh x).edges k) ((mesh x).edges (k + 1)) *
            ((mesh x).edges (k + 1) ^ 2 * sphereDefect c x (mesh x) (P x l) (fun k r => u l k r x)
              (p.mus l) (fun k => P x (reflIndex p.Nang l k) 0) (k + 1))
          - sphereBasis i ((mesh x).edges k) ((mesh x).edges k) ((mesh x).edges (k + 1)) *
            ((mesh x).edges k ^ 2 * sphereDefect c x (mesh x) (P x l) (fun k r => u l k r x)
              (p.mus l) (fun k => P x (reflIndex p.Nang l k) 0) k))
        - ∫ r in ((mesh x).edges k)..((mesh x).edges (k + 1)),
            r * (angularDifference p.Nang p.mus (fun l => u l k r x -
              sphereField c.M (P x l k) ((mesh x).edges k) ((mesh x).edges (k + 1)) r) l - ζ l k r x) *
              sphereBasis i r ((mesh x).edges k) ((mesh x).edges (k + 1)) := by
    intro x hx l hl k hk
    have hx' : x ∈ Icc a b := ⟨hx.1.1, hx.1.2.le⟩
    have hev : ∀ᶠ τ in nhdsWithin x (Ici x), IsSphereProjection c.M (fun r => u l k r τ)
        ((mesh τ).edges k) ((mesh τ).edges (k + 1)) (P τ l k) := by
      have h1 : ∀ᶠ τ in nhdsWithin x (Ici x), τ < b :=
        nhdsWithin_le_nhds (Iio_mem_nhds hx.1.2)
      filter_upwards [h1, self_mem_nhdsWithin] with τ h2 h3
      exact hP τ ⟨hx.1.1.trans h3, h2.le⟩ l hl k hk
    obtain ⟨R', hR'd, hR'⟩ := sphere_projection_rate (hu.smooth l hl k hk)
      (hmesh.velocity x hx k hk.le) (hmesh.velocity x hx (k + 1) hk) (hmesh.ordered x hx' k hk) hev
      (p.mus l)
    exact ⟨R', hR'd, near_projection_equation p hd.two c hg hM a b F mesh q ζ u hu x hx l hl k hk
      (hmesh.ordered x hx') (mats x k) (hmesh.mats x hx k hk) (S x) (hS x hx k hk) (P x)
      (fun l hl => hP x hx' l hl k hk) R' hR' fs⟩
  choose! Rp hRpd hRp using hPd
  set ρ : ℝ → ℕ → ℕ → ℝ := fun x l => sphereDefect c x (mesh x) (P x l) (fun k r => u l k r x)
              (p.mus l) (fun k => P x (reflIndex p.Nang l k) 0) with hρ
  set g : ℝ → ℕ → ℕ → ℝ → ℝ := fun x l k r => angularDifference p.Nang p.mus (fun l => u l k r x -
    sphereField c.M (P x l k) ((mesh x).edges k) ((mesh x).edges (k + 1)) r) l - ζ l k r x with hgdef
  set Q : ℝ → ℕ → ℕ → ℕ → ℝ := fun x l k i =>
    (-(sphereBasis i ((mesh x).edges (k + 1)) ((mesh x).edges k) ((mesh x).edges (k + 1)) *
        ((mesh x).edges (k + 1) ^ 2 * ρ x l (k + 1)))
      + sphereBasis i ((mesh x).edges k) ((mesh x).edges k) ((mesh x).edges (k + 1)) *
        ((mesh x).edges k ^ 2 * ρ x l k))
    + ∫ r in ((mesh x).edges k)..((mesh x).edges (k + 1)), r * g x l k r *
        sphereBasis i r ((mesh x).edges k) ((mesh x).edges (k + 1)) with hQ
  have hmass : ∀ x ∈ Ico a b \ F, ∀ l < p.Nang, ∀ k < c.Nspace, ∀ i ≤ c.M,
      matVec c.M (mats x k).Mass (fun i => Rv x l k i - Rp x l k i) i =
        sphereWeak p (vacuumConfig c) x (mesh x) (mats x k) (fun _ _ => 0) fs (D x) l k i
          + p.c * matVec c.M (mats x k).Mass (scalarCoef p (D x) k) i
          - matVec c.M (mats x k).Mass (D x l k) i + Q x l k i := by
    intro x hx l hl k hk i hi
    have hx' : x ∈ Icc a b := ⟨hx.1.1, hx.1.2.le⟩
    have ecg : ∀ (Q T : ℕ → ℝ), (∀ j ≤ c.M, Q j = T j) →
        matVec c.M (mats x k).Mass Q i = matVec c.M (mats x k).Mass T i := by
      intro Q T h
      unfold matVec
      exact Finset.sum_congr rfl fun j hj => by rw [h j (by simpa [Nat.lt_succ_iff] using hj)]
    have e1 := mass_sphereRhs p c x (mesh x) (mats x) (S x) fs (V x) l k (hmesh.mats x hx k hk) hi
    have e2 := hRp x hx l hl k hk i hi
    rw [c_mass_activePV] at e1
    have e0 := sphereWeak_sub p c hg x (mesh x) (hmesh.centre x hx') (hmesh.ordered x hx') (mats x k)
      (S x) (S x) fs fs fs (V x) (P x) l k i hk hi
    simp only [sub_self] at e0
    have e3 : scalarCoef p (D x) k = fun j => scalarCoef p (V x) k j - scalarCoef p (P x) k j := by
      funext j
      unfold scalarCoef angularSum
      rw [← Finset.sum_sub_distrib]
      exact Finset.sum_congr rfl fun _ _ => by simp only [hD]; ring
    have e4 : D x l k = fun j => V x l k j - P x l k j := rfl
    have e6 : (fun l k i => V x l k i - P x l k i) = D x := rfl
    rw [e6] at e0
    rw [matVec_sub, ecg _ _ fun j hj => activeCall_sphere hg (hRv x hx) hl hk hj, e1, e2,
      e3, e4, matVec_sub, matVec_sub]
    simp only [hQ]
    linear_combination e0
  have hder := fun x (hx : x ∈ Ico a b \ F) => sphere_residual_rate_le hC c hmom p hd hκ hc hg
    hM x mesh (hmesh.centre x ⟨hx.1.1, hx.1.2.le⟩) (hmesh.ordered x ⟨hx.1.1, hx.1.2.le⟩)
    (hmesh.velocity x hx) (mats x) (hmesh.mats x hx) fs D _ (Q x)
    (fun l hl k hk i hi => (hRvd x hx l hl k hk i hi).sub (hRpd x hx l hl k hk i hi)) (hmass x hx)
    hd0 hmid hh (hhR x ⟨hx.1.1, hx.1.2.le⟩).1
  choose! Z hZ hZle using hder
  refine gronwall_except hF _ Z (p.c * (1 + κ) - 1 + 2 * d * C / h)
    ((c.Nspace + 1) * (A * R ^ 2 * δ ^ 2) + R * (2 * δ / W + σ) ^ 2) a b _ hcont hZ le_rfl
    (fun x hx => ?_) t ht
  have hx' : x ∈ Icc a b := ⟨hx.1.1, hx.1.2.le⟩
  have ho := hmesh.ordered x hx'
  have h0 := hmesh.centre x hx'
  have hpos := hd.two
  have hδ0 : 0 ≤ δ := (abs_nonneg _).trans
    (hδ x hx 0 (by omega) 0 (by omega) _ (left_mem_Icc.2 (ho 0 (by omega)).le))
  have h2 := hZle x hx
  -- residual of one direction
  have h4 : ∀ l < p.Nang, 2 * ∑ k ∈ Finset.range c.Nspace, ∑ i ∈ Finset.range (c.M + 1),
      D x l k i * Q x l k i ≤
      ∑ k ∈ Finset.range (c.Nspace + 1), (mesh x).edges k ^ 2 * (|p.mus l - (mesh x).Dedges k| *
          sphereJump c.Nspace c.M (mesh x).edges (D x l) k ^ 2)
        + sphereSqNorm c.Nspace c.M (mesh x).edges (D x l)
        + ((c.Nspace + 1) * (A * R ^ 2 * δ ^ 2) + R * (2 * δ / W + σ) ^ 2) := by
    intro l hl
    have hdl := defect_jump_le c.Nspace c.M (mesh x).edges (mesh x).Dedges (D x l) (ρ x l) (p.mus l)
      A R δ h0 (fun j hj => ⟨by rw [← h0]; exact edges_mono ho (Nat.zero_le j) hj,
        (edges_mono ho hj le_rfl).trans (hhR x hx').2⟩) (hA x hx l hl)
      (fun j hj hj0 => sphereDefect_le c hg x (mesh x) (P x l) (fun k r => u l k r x) (p.mus l) δ _
        hδ0 (fun k hk => hu.continuousFlux x hx l hl k hk)
        (fun hv => by
          have h5 := hu.vacuum x hx l hl hv
          have h6 : isBoundarySourceOn c (c.Nspace - 1) x = false := by
            rw [← Bool.not_eq_true, isBoundarySourceOn_right c x hN]; exact hoff x hx
          unfold rightOuter
          rw [if_neg (by omega), h6]
          simpa using h5.symm)
        (fun k hk => hδ x hx l hl k hk _ (left_mem_Icc.2 (ho k hk).le))
        (fun k hk => hδ x hx l hl k hk _ (right_mem_Icc.2 (ho k hk).le)) j hj hj0)
    have hgl := redistribution_error_le c.Nspace c.M (mesh x).edges (D x l) (g x l) R (2 * δ / W + σ)
      h0 (hhR x hx').2 ho
      (fun k hk => by
        simp only [hgdef]
        refine (continuous_angularDifference (f := fun l r => u l k r x -
          sphereField c.M (P x l k) ((mesh x).edges k) ((mesh x).edges (k + 1)) r)
          (fun l' hl' => ?_) hl).sub (hu.residual x hx l hl k hk)
        have h5 : Continuous fun r => u l' k r x :=
          (hu.smooth l' hl' k hk).continuous.comp (continuous_id.prodMk continuous_const)
        exact h5.sub (continuous_sphereField c.M (P x l' k) (ho k hk)))
      (fun k hk r hr => by
        refine (abs_sub _ _).trans (add_le_add ?_ (hσ x hx l hl k hk r hr))
        refine (angularDifference_le hd (δ := δ) (fun l' hl' => ?_) hl).trans ?_
        · rw [abs_sub_comm]
          exact hδ x hx l' hl' k hk r hr
        · exact div_le_div_of_nonneg_left (by linarith) hW (hW1 l hl))
    have hform := sphere_defect_form c.Nspace c.M (mesh x).edges (D x l)
      (fun j => (mesh x).edges j ^ 2 * ρ x l j)
    have hsplit : ∑ k ∈ Finset.range c.Nspace, ∑ i ∈ Finset.range (c.M + 1),
        D x l k i * Q x l k i =
        ∑ j ∈ Finset.range (c.Nspace + 1), (mesh x).edges j ^ 2 * ρ x l j *
          sphereJump c.Nspace c.M (mesh x).edges (D x l) j
        + ∑ k ∈ Finset.range c.Nspace, ∑ i ∈ Finset.range (c.M + 1), D x l k i *
          (∫ r in ((mesh x).edges k)..((mesh x).edges (k + 1)), r * g x l k r *
            sphereBasis i r ((mesh x).edges k) ((mesh x).edges (k + 1))) := by
      rw [← hform, ← Finset.sum_add_distrib]
      refine Finset.sum_congr rfl fun k _ => ?_
      rw [← Finset.sum_add_distrib]
      exact Finset.sum_congr rfl fun i _ => by simp only [hQ]; ring
    rw [hsplit]
    linarith
  have h5 : 2 * angularSum p.Nang (cellParams p).ws (fun l => ∑ k ∈ Finset.range c.Nspace,
      ∑ i ∈ Finset.range (c.M + 1), D x l k i * Q x l k i) ≤
      angularSum p.Nang (cellParams p).ws (fun l => ∑ k ∈ Finset.range (c.Nspace + 1),
        (mesh x).edges k ^ 2 * (|p.mus l - (mesh x).Dedges k| *
          sphereJump c.Nspace c.M (mesh x).edges (D x l) k ^ 2))
      + sphereAngularSq (cellParams p) c.Nspace c.M (mesh x).edges (D x)
      + ((c.Nspace + 1) * (A * R ^ 2 * δ ^ 2) + R * (2 * δ / W + σ) ^ 2) := by
    have h6 : ∑ l ∈ Finset.range p.Nang, (cellParams p).ws l * (2 * ∑ k ∈ Finset.range c.Nspace,
        ∑ i ∈ Finset.range (c.M + 1), D x l k i * Q x l k i) ≤ _ :=
      Finset.sum_le_sum fun l hl => mul_le_mul_of_nonneg_left (h4 l (Finset.mem_range.1 hl))
        (hp l (Finset.mem_range.1 hl)).le
    simp only [mul_add, Finset.sum_add_distrib] at h6
    have hw2 : ∑ l ∈ Finset.range p.Nang, (cellParams p).ws l = 1 := hw1
    rw [← Finset.sum_mul, ← Finset.sum_mul, hw2] at h6
    unfold sphereAngularSq angularSum
    have eN : (cellParams p).Nang = p.Nang := rfl
    rw [eN, Finset.mul_sum]
    refine le_trans (le_of_eq (Finset.sum_congr rfl fun l _ => by ring)) (h6.trans_eq ?_)
    ring
  linarith

/-- C107: let `u` be a solution of the discrete-ordinates equation that is smooth on every shell of
a mesh from the centre outwards, moving in any way, with vacuum outside, and `P` its projection.
If the projection error is at most `δ` on every shell, the discrete solution stays within the
Gronwall bound of the projection: the square of the error grows from its initial value with rate
`c (1 + κ) - 1 + 2 d C / h` and source `(N + 1) A R² δ² + R (2 δ / W)²`.  Here `d` bounds how far a
direction lies left of the middle of its angular cell, `W` is a lower bound of the angular widths,
`h` one of the radius of the innermost shell, `R` bounds the outer radius, `A` the speed of the
directions relative to the edges, and `C` depends only on the order `M`.  The norm uses the angular
cells as weights; the weights of the scheme enter through `κ ≥ Σ w_l² / (width_l / 2)`. -/
theorem c107_sphere_error_bound (M : ℕ) (hM : M ≤ 10) : ∃ C : ℝ, 1 ≤ C ∧
    ∀ (p : RhsParams) (c : FluxConfig) (mesh : ℝ → MeshView) (mats : ℝ → ℕ → CellMats)
      (S : ℝ → ℕ → ℕ → ℝ) (a b d h κ A R W δ : ℝ) (F : Set ℝ) (q : ℕ → ℝ → ℝ → ℝ)
      (u : ℕ → ℕ → ℝ → ℝ → ℝ) (P V : ℝ → ℕ → ℕ → ℕ → ℝ),
      DirectionSet p.Nang p.mus →
      ∑ l ∈ Finset.range p.Nang, p.ws l ^ 2 / (angularWidth p.Nang p.mus l / 2) ≤ κ →
      0 ≤ p.c → c.geometry = .sphere → c.M = M → 2 ≤ c.Nspace → F.Finite →
      SphereMeshOn c mesh mats a b F →
      (∀ t ∈ Ico a b \ F, ¬ BoundaryActive c false t) →
      SphereSolution p.Nang p.mus p.ws p.c c.Nspace (fun t => (mesh t).edges)
        (fun t => (mesh t).Dedges) q a b F u →
      (∀ t ∈ Ico a b \ F, ∀ k < c.Nspace, ∀ i ≤ c.M, 1 / 2 * S t k i * p.c =
        weightedMoment (fun r => q k r t) ((mesh t).edges k) ((mesh t).edges (k + 1)) i) →
      (∀ t ∈ Icc a b, ∀ l < p.Nang, ∀ k < c.Nspace, IsSphereProjection c.M (fun r => u l k r t)
        ((mesh t).edges k) ((mesh t).edges (k + 1)) (P t l k)) →
      0 ≤ d → (∀ l < p.Nang, angularMid p.Nang p.mus l - p.mus l ≤ d) →
      0 < W → (∀ l < p.Nang, W ≤ angularWidth p.Nang p.mus l) →
      0 < h → (∀ s ∈ Icc a b, h ≤ (mesh s).edges 1 ∧ (mesh s).edges c.Nspace ≤ R) →
      (∀ t ∈ Ico a b \ F, ∀ l < p.Nang, ∀ k ≤ c.Nspace, |p.mus l - (mesh t).Dedges k| ≤ A) →
      (∀ t ∈ Ico a b \ F, ∀ l < p.Nang, ∀ k < c.Nspace,
        ∀ r ∈ Icc ((mesh t).edges k) ((mesh t).edges (k + 1)),
        |sphereField c.M (P t l k) ((mesh t).edges k) ((mesh t).edges (k + 1)) r - u l k r t| ≤ δ) →
      SphereSolutionOn p c mesh mats S a b F V →
      ∀ t ∈ Icc a b,
        sphereAngularSq (cellParams p) c.Nspace c.M (mesh t).edges (fun l k i => V t l k i - P t l k i) ≤
          gronwallBound
            (sphereAngularSq (cellParams p) c.Nspace c.M (mesh a).edges (fun l k i => V a l k i - P a l k i))
            (p.c * (1 + κ) - 1 + 2 * d * C / h)
            ((c.Nspace + 1) * (A * R ^ 2 * δ ^ 2) + R * (2 * δ / W) ^ 2) (t - a) := by
  obtain ⟨C, hC, hb⟩ := near_error_bound M hM
  refine ⟨C, hC, ?_⟩
  intro p c mesh mats S a b d h κ A R W δ F q u P V hd hκ hc hg hcM hN hF hmesh hoff hu hS hP hd0 hmid
    hW hW1 hh hhR hA hδ hV t ht
  have h1 := hb p c mesh mats S a b d h κ A R W δ 0 F q _ u P V hd hκ hc hg hcM hN hF hmesh hoff hu.near
    (fun _ _ _ _ _ _ _ _ => by simp) hS hP hd0 hmid hW hW1 hh hhR hA hδ hV t ht
  rwa [add_zero] at h1

end Verif.Props
