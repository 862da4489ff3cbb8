import Verif.Spec.Exact
import Verif.Lemmas.Approximation
import Verif.Props.Existence

/-!
Properties C88 and C89: error estimates for the slab scheme on moving meshes.
-/

namespace Verif.Props

open Polynomial Verif.Spec Verif.Model Verif.Lemmas Set

theorem projection_congr {f g : ℝ → ℝ} {a b : ℝ} (h : a ≤ b) (hfg : ∀ x ∈ Icc a b, f x = g x)
    (i : ℕ) : projection f a b i = projection g a b i := by
  unfold projection
  refine intervalIntegral.integral_congr fun x hx => ?_
  rw [uIcc_of_le h] at hx
  simp only [hfg x hx]

/-- The projection of the collision terms. -/
theorem projection_collision (n : ℕ) (ws : ℕ → ℝ) (scat a b : ℝ) (f : ℕ → ℝ → ℝ)
    (g : ℝ → ℝ) (hf : ∀ l < n, Continuous (f l)) (hg : IntervalIntegrable g MeasureTheory.volume a b)
    (i l : ℕ) (hl : l < n) :
    projection (fun x => -f l x + scat * (∑ l' ∈ Finset.range n, ws l' * f l' x) + g x) a b i =
      -projection (f l) a b i + scat * angularSum n ws (fun l' => projection (f l') a b i)
        + projection g a b i := by
  have hb := continuous_slabBasis i a b
  have hi : ∀ l < n, IntervalIntegrable (fun x => f l x * slabBasis i x a b) MeasureTheory.volume a b :=
    fun l hl => ((hf l hl).mul hb).intervalIntegrable _ _
  have hn : IntervalIntegrable (fun x => -(f l x * slabBasis i x a b)) MeasureTheory.volume a b :=
    ((hf l hl).mul hb).neg.intervalIntegrable _ _
  have hgi : IntervalIntegrable (fun x => g x * slabBasis i x a b) MeasureTheory.volume a b :=
    hg.mul_continuousOn hb.continuousOn
  have hs : IntervalIntegrable (fun x => ∑ l' ∈ Finset.range n,
      ws l' * (f l' x * slabBasis i x a b)) MeasureTheory.volume a b :=
    (continuous_finsetSum _ fun l' hl' => continuous_const.mul
      ((hf l' (Finset.mem_range.1 hl')).mul hb)).intervalIntegrable _ _
  unfold projection angularSum
  have e : ∀ x, (-f l x + scat * (∑ l' ∈ Finset.range n, ws l' * f l' x) + g x) *
      slabBasis i x a b = -(f l x * slabBasis i x a b) +
        scat * (∑ l' ∈ Finset.range n, ws l' * (f l' x * slabBasis i x a b)) +
        g x * slabBasis i x a b := by
    intro x
    simp only [← mul_assoc, ← Finset.sum_mul]
    ring
  simp_rw [e]
  rw [intervalIntegral.integral_add (hn.add (hs.const_mul scat)) hgi,
    intervalIntegral.integral_add hn (hs.const_mul _), intervalIntegral.integral_neg,
    intervalIntegral.integral_const_mul, intervalIntegral.integral_finsetSum]
  · simp_rw [intervalIntegral.integral_const_mul]
  · intro l' hl'
    exact (hi l' (Finset.mem_range.1 hl')).const_mul _

/-- Projections on continuously moving cells depend continuously on time. -/
theorem continuousOn_projection {u : ℝ → ℝ → ℝ} (hu : Continuous fun z : ℝ × ℝ => u z.1 z.2)
    {e1 e2 : ℝ → ℝ} {s : Set ℝ} (h1 : ContinuousOn e1 s) (h2 : ContinuousOn e2 s)
    (h : ∀ t ∈ s, e1 t < e2 t) (i : ℕ) :
    ContinuousOn (fun t => projection (fun x => u x t) (e1 t) (e2 t) i) s := by
  have hJ : Continuous fun z : ℝ × ℝ × ℝ => ∫ ξ in (-1 : ℝ)..1,
      u (cellPoint z.1 z.2.1 ξ) z.2.2 * (legendre i).eval ξ := by
    refine intervalIntegral.continuous_parametric_intervalIntegral_of_continuous' ?_ _ _
    have hp : Continuous fun w : (ℝ × ℝ × ℝ) × ℝ => (legendre i).eval w.2 :=
      (legendre i).continuous.comp continuous_snd
    have hq : Continuous fun w : (ℝ × ℝ × ℝ) × ℝ =>
        ((cellPoint w.1.1 w.1.2.1 w.2, w.1.2.2) : ℝ × ℝ) := by
      unfold cellPoint
      fun_prop
    exact Continuous.mul (hu.comp hq) hp
  have hc : ContinuousOn (fun t => Real.sqrt ((2 * (i : ℝ) + 1) / (e2 t - e1 t)) *
      ((e2 t - e1 t) / 2) * ∫ ξ in (-1 : ℝ)..1,
        u (cellPoint (e1 t) (e2 t) ξ) t * (legendre i).eval ξ) s := by
    refine ContinuousOn.mul (ContinuousOn.mul (ContinuousOn.sqrt (ContinuousOn.div continuousOn_const
      (h2.sub h1) fun t ht => ?_)) ((h2.sub h1).div_const 2)) ?_
    · have := h t ht
      linarith
    · have hz : ContinuousOn (fun t => ((e1 t, e2 t, t) : ℝ × ℝ × ℝ)) s :=
        h1.prodMk (h2.prodMk continuousOn_id)
      have h3 := hJ.comp_continuousOn hz
      simp only [Function.comp_def] at h3
      exact h3
  exact hc.congr fun t ht => projection_eq (h t ht) _ i

/-! ### The defect of the projected solution -/

/-- Defect of the numerical flux of the projected solution at edge `j`. -/
noncomputable def fluxDefect (c : FluxConfig) (t : ℝ) (m : MeshView) (P : ℕ → ℕ → ℝ)
    (u : ℕ → ℝ → ℝ) (mul : ℝ) (uRefl : ℕ → ℝ) (j : ℕ) : ℝ :=
  if j < c.Nspace then
    upwind (mul - m.Dedges j) (leftOuter c t m P j uRefl)
      (slabField c.M (P j) (m.edges j) (m.edges (j + 1)) (m.edges j))
      - (mul - m.Dedges j) * u j (m.edges j)
  else
    upwind (mul - m.Dedges j)
      (slabField c.M (P (j - 1)) (m.edges (j - 1)) (m.edges j) (m.edges j))
      (rightOuter c t m P (j - 1)) - (mul - m.Dedges j) * u (j - 1) (m.edges j)

theorem fluxDefect_right (c : FluxConfig) (hg : c.geometry = .slab) (t : ℝ) (m : MeshView)
    (P : ℕ → ℕ → ℝ) (u : ℕ → ℝ → ℝ) (mul : ℝ) (uRefl : ℕ → ℝ) (k : ℕ)
    (hflux : k + 1 < c.Nspace → (mul - m.Dedges (k + 1)) * u k (m.edges (k + 1)) =
      (mul - m.Dedges (k + 1)) * u (k + 1) (m.edges (k + 1))) :
    upwind (mul - m.Dedges (k + 1))
        (slabField c.M (P k) (m.edges k) (m.edges (k + 1)) (m.edges (k + 1)))
        (rightOuter c t m P k) - (mul - m.Dedges (k + 1)) * u k (m.edges (k + 1)) =
      fluxDefect c t m P u mul uRefl (k + 1) := by
  unfold fluxDefect
  split_ifs with h
  · rw [hflux h]
    unfold leftOuter rightOuter
    rw [if_pos (by omega), if_pos (by omega), hg]
    rfl
  · rfl

theorem upwind_close {v l r x d : ℝ} (hl : 0 < v → |l - x| ≤ d) (hr : v < 0 → |r - x| ≤ d) :
    |upwind v l r - v * x| ≤ |v| * d := by
  unfold upwind
  rcases lt_trichotomy v 0 with h | h | h
  · rw [max_eq_right h.le, min_eq_left h.le, zero_mul, zero_add, ← mul_sub, abs_mul]
    exact mul_le_mul_of_nonneg_left (hr h) (abs_nonneg v)
  · subst h; simp
  · rw [max_eq_left h.le, min_eq_right h.le, zero_mul, add_zero, ← mul_sub, abs_mul]
    exact mul_le_mul_of_nonneg_left (hl h) (abs_nonneg v)

/-- The defect is at most the projection error at the edge. -/
theorem fluxDefect_le (c : FluxConfig) (hg : c.geometry = .slab) (t : ℝ) (m : MeshView)
    (P : ℕ → ℕ → ℝ) (u : ℕ → ℝ → ℝ) (mul δ : ℝ) (uRefl : ℕ → ℝ) (hδ : 0 ≤ δ)
    (hN : 0 < c.Nspace)
    (hflux : ∀ k, k + 1 < c.Nspace → (mul - m.Dedges (k + 1)) * u k (m.edges (k + 1)) =
      (mul - m.Dedges (k + 1)) * u (k + 1) (m.edges (k + 1)))
    (hl : 0 < mul - m.Dedges 0 → leftOuter c t m P 0 uRefl = u 0 (m.edges 0))
    (hr : mul - m.Dedges c.Nspace < 0 →
      rightOuter c t m P (c.Nspace - 1) = u (c.Nspace - 1) (m.edges c.Nspace))
    (hL : ∀ k < c.Nspace,
      |slabField c.M (P k) (m.edges k) (m.edges (k + 1)) (m.edges k) - u k (m.edges k)| ≤ δ)
    (hR : ∀ k < c.Nspace,
      |slabField c.M (P k) (m.edges k) (m.edges (k + 1)) (m.edges (k + 1))
        - u k (m.edges (k + 1))| ≤ δ) (j : ℕ) (hj : j ≤ c.Nspace) :
    |fluxDefect c t m P u mul uRefl j| ≤ |mul - m.Dedges j| * δ := by
  unfold fluxDefect
  split_ifs with h
  · refine upwind_close (fun hv => ?_) fun _ => hL j h
    rcases j with _ | k
    · rw [hl hv]; simpa using hδ
    · have hne : mul - m.Dedges (k + 1) ≠ 0 := hv.ne'
      rw [← mul_left_cancel₀ hne (hflux k h)]
      have e : leftOuter c t m P (k + 1) uRefl =
          slabField c.M (P k) (m.edges k) (m.edges (k + 1)) (m.edges (k + 1)) := by
        unfold leftOuter
        rw [if_pos (by omega), hg]
        rfl
      rw [e]
      exact hR k (by omega)
  · have hjN : j = c.Nspace := by omega
    subst hjN
    refine upwind_close (fun _ => ?_) fun hv => ?_
    · have := hR (c.Nspace - 1) (by omega)
      rwa [Nat.sub_add_cancel hN] at this
    · rw [hr hv]; simpa using hδ

/-- Testing the defects with a state gives the jumps of the state. -/
theorem defect_form (N M : ℕ) (e : ℕ → ℝ) (D : ℕ → ℕ → ℝ) (ρ : ℕ → ℝ) :
    ∑ k ∈ Finset.range N, ∑ i ∈ Finset.range (M + 1), D k i *
      (-(slabBasis i (e (k + 1)) (e k) (e (k + 1)) * ρ (k + 1))
        + slabBasis i (e k) (e k) (e (k + 1)) * ρ k) =
      ∑ j ∈ Finset.range (N + 1), ρ j * edgeJump N M e D j := by
  have h1 : ∀ k ∈ Finset.range N, ∑ i ∈ Finset.range (M + 1), D k i *
      (-(slabBasis i (e (k + 1)) (e k) (e (k + 1)) * ρ (k + 1))
        + slabBasis i (e k) (e k) (e (k + 1)) * ρ k) =
      ρ k * traceRight N M e D k - ρ (k + 1) * traceLeft M e D (k + 1) := by
    intro k hk
    unfold traceRight traceLeft
    rw [if_pos (Finset.mem_range.1 hk)]
    unfold slabField
    rw [Finset.mul_sum, Finset.mul_sum, ← Finset.sum_sub_distrib]
    exact Finset.sum_congr rfl fun i _ => by ring
  rw [Finset.sum_congr rfl h1, Finset.sum_sub_distrib]
  unfold edgeJump
  simp only [mul_sub]
  rw [Finset.sum_sub_distrib, Finset.sum_range_succ (fun j => ρ j * traceRight N M e D j),
    Finset.sum_range_succ' (fun j => ρ j * traceLeft M e D j)]
  have h2 : traceRight N M e D N = 0 := by unfold traceRight; rw [if_neg (lt_irrefl N)]
  have h3 : traceLeft M e D 0 = 0 := rfl
  rw [h2, h3]
  ring

/-- Rate of the projected solution: the right-hand side of the scheme plus the flux defects. -/
theorem projection_rate (p : RhsParams) (c : FluxConfig) (hg : c.geometry = .slab) (a b : ℝ)
    (F : Set ℝ) (mesh : ℝ → MeshView) (inL inR : ℝ → ℝ) (q : ℕ → ℝ → ℝ → ℝ)
    (u : ℕ → ℕ → ℝ → ℝ → ℝ)
    (hu : PiecewiseSolution p.Nang p.mus p.ws p.c c.Nspace (fun t => (mesh t).edges)
      (fun t => (mesh t).Dedges) inL inR q a b F u)
    (t : ℝ) (ht : t ∈ Ico a b \ F) (l : ℕ) (hl : l < p.Nang) (k : ℕ) (hk : k < c.Nspace)
    (i : ℕ) (hi : i ≤ c.M)
    (hm : ∀ k < c.Nspace, (mesh t).edges k < (mesh t).edges (k + 1))
    (he : ∀ k ≤ c.Nspace, HasDerivWithinAt (fun s => (mesh s).edges k) ((mesh t).Dedges k) (Ici t) t)
    (S : ℕ → ℕ → ℝ) (hS : 1 / 2 * S k i =
      projection (fun x => q k x t) ((mesh t).edges k) ((mesh t).edges (k + 1)) i)
    (uRefl : ℕ → ℝ) (fs : FluxState) :
    HasDerivWithinAt
      (fun s => meshProjection (mesh s).edges (fun l k x => u l k x s) l k i)
      (slabConstantRhs p c t (mesh t) S uRefl fs
          (meshProjection (mesh t).edges fun l k x => u l k x t) l k i
        + (slabBasis i ((mesh t).edges (k + 1)) ((mesh t).edges k) ((mesh t).edges (k + 1)) *
            fluxDefect c t (mesh t) (meshProjection (mesh t).edges (fun l k x => u l k x t) l)
              (fun k x => u l k x t) (p.mus l) uRefl (k + 1)
          - slabBasis i ((mesh t).edges k) ((mesh t).edges k) ((mesh t).edges (k + 1)) *
            fluxDefect c t (mesh t) (meshProjection (mesh t).edges (fun l k x => u l k x t) l)
              (fun k x => u l k x t) (p.mus l) uRefl k)) (Ici t) t := by
  set m := mesh t with hmt
  set P : ℕ → ℕ → ℕ → ℝ := meshProjection m.edges fun l k x => u l k x t with hP
  have hc := hm k hk
  have h := hasDerivWithinAt_projection (hu.smooth l hl k hk) (he k hk.le) (he (k + 1) hk) hc
    (p.mus l) hi
  refine h.congr_deriv ?_
  -- the equation
  have hcont : ∀ l' < p.Nang, Continuous fun x => u l' k x t := fun l' hl' =>
    (hu.smooth l' hl' k hk).continuous.comp (continuous_id.prodMk continuous_const)
  obtain ⟨hcx, hct⟩ := continuous_deriv_of_contDiff (hu.smooth l hl k hk)
  have hlhs : Continuous fun x => deriv (fun τ => u l k x τ) t
      + p.mus l * deriv (fun y => u l k y t) x := by
    have h1 : Continuous fun x => deriv (fun τ => u l k x τ) t :=
      hct.comp (continuous_id.prodMk continuous_const)
    have h2 : Continuous fun x => deriv (fun y => u l k y t) x :=
      hcx.comp (continuous_id.prodMk continuous_const)
    exact h1.add (continuous_const.mul h2)
  have hqi : IntervalIntegrable (fun x => q k x t) MeasureTheory.volume (m.edges k)
      (m.edges (k + 1)) := by
    have hg' : Continuous fun x => (deriv (fun τ => u l k x τ) t
        + p.mus l * deriv (fun y => u l k y t) x) + u l k x t
        - p.c * ∑ l' ∈ Finset.range p.Nang, p.ws l' * u l' k x t :=
      (hlhs.add (hcont l hl)).sub (continuous_const.mul (continuous_finsetSum _ fun l' hl' =>
        continuous_const.mul (hcont l' (Finset.mem_range.1 hl'))))
    refine (hg'.intervalIntegrable (m.edges k) (m.edges (k + 1))).congr ?_
    intro x hx
    rw [uIoc_of_le hc.le] at hx
    have := hu.equation t ht l hl k hk x (Ioc_subset_Icc_self hx)
    simp only
    rw [this]
    ring
  have hcoll : projection (fun x => deriv (fun τ => u l k x τ) t
      + p.mus l * deriv (fun y => u l k y t) x) (m.edges k) (m.edges (k + 1)) i =
      -P l k i + p.c * angularSum p.Nang p.ws (fun l' => P l' k i) + 1 / 2 * S k i := by
    rw [hS, projection_congr hc.le fun x hx => hu.equation t ht l hl k hk x hx,
      projection_collision p.Nang p.ws p.c _ _ (fun l x => u l k x t) (fun x => q k x t) hcont hqi
        i l hl]
    rfl
  have hPk : projection (fun x => u l k x t) (m.edges k) (m.edges (k + 1)) = P l k := rfl
  simp only [← hmt]
  rw [hcoll, hPk]
  have hf := fluxDefect_right c hg t m (P l) (fun k x => u l k x t) (p.mus l) uRefl k
    (fun h => hu.continuousFlux t ht l hl k h)
  unfold slabConstantRhs streamPart
  rw [makeP_eq, fluxLU_eq c t m _ k _ uRefl fs hk hm hi, matVec_L c.M m k hc _ hi,
    matVec_G c.M m k hc _ hi, ← hf, hg]
  unfold fluxDefect
  rw [if_pos hk]
  simp only [geomArea, geomBasis, geomField]
  ring

/-- Prescribed inflow on one side: the boundary source while it is active, otherwise nothing. -/
def InflowOf (c : FluxConfig) (left : Bool) (t r : ℝ) : Prop :=
  (BoundaryActive c left t → ∀ x, bcFunc c x t = r) ∧ (¬ BoundaryActive c left t → r = 0)

theorem leftOuter_inflow (c : FluxConfig) (hg : c.geometry = .slab) (hq : QuadExact c.quad c.M)
    (t r : ℝ) (hr : InflowOf c true t r) (m : MeshView) (hm : m.edges 0 < m.edges 1)
    (P : ℕ → ℕ → ℝ) (uRefl : ℕ → ℝ) : leftOuter c t m P 0 uRefl = r := by
  by_cases h : BoundaryActive c true t
  · exact leftOuter_source c hg t r m P uRefl hq hm ((isBoundarySourceOn_left c t).2 h) (hr.1 h)
  · have h' : isBoundarySourceOn c 0 t = false := by
      rw [← Bool.not_eq_true, isBoundarySourceOn_left]; exact h
    unfold leftOuter
    rw [if_neg (by omega), h', hg, hr.2 h]
    simp

theorem rightOuter_inflow (c : FluxConfig) (hg : c.geometry = .slab) (hq : QuadExact c.quad c.M)
    (hN : 2 ≤ c.Nspace) (t r : ℝ) (hr : InflowOf c false t r) (m : MeshView)
    (hm : ∀ k < c.Nspace, m.edges k < m.edges (k + 1))
    (P : ℕ → ℕ → ℝ) : rightOuter c t m P (c.Nspace - 1) = r := by
  by_cases h : BoundaryActive c false t
  · exact rightOuter_source c hg t r m P (c.Nspace - 1) (by omega) hq (hm _ (by omega))
      ((isBoundarySourceOn_right c t hN).2 h) (hr.1 h)
  · have h' : isBoundarySourceOn c (c.Nspace - 1) t = false := by
      rw [← Bool.not_eq_true, isBoundarySourceOn_right c t hN]; exact h
    unfold rightOuter
    rw [if_neg (by omega), h', hr.2 h]
    simp

/-! ### C88 -/

/-- C88: let `u` be a solution of the discrete-ordinates equation that is smooth on every cell of
the moving mesh, with the source and inflow the scheme uses, and let `V` be a trajectory of the
scheme.  If the projection of `u` misses `u` by at most `δ` at the two edges of every cell, and
particles cross edges with relative speed at most `A`, the square norm of the difference between
`V` and the projection is at most the solution of `E' = 2 (c - 1) E + (N + 1) A δ ^ 2` that starts
at the initial difference.  The mesh may move arbitrarily. -/
theorem c88_error_bound (p : RhsParams) (hp : ∀ l < p.Nang, 0 ≤ p.ws l)
    (hw : ∑ l ∈ Finset.range p.Nang, p.ws l = 1) (hc : 0 ≤ p.c)
    (c : FluxConfig) (hg : c.geometry = .slab) (hquad : QuadExact c.quad c.M) (hN : 2 ≤ c.Nspace)
    (a b : ℝ) (F : Set ℝ) (hF : F.Finite) (mesh : ℝ → MeshView)
    (hm : ∀ s ∈ Icc a b, ∀ k < c.Nspace, (mesh s).edges k < (mesh s).edges (k + 1))
    (hec : ∀ k ≤ c.Nspace, ContinuousOn (fun s => (mesh s).edges k) (Icc a b))
    (he : ∀ t ∈ Ico a b \ F, ∀ k ≤ c.Nspace,
      HasDerivWithinAt (fun s => (mesh s).edges k) ((mesh t).Dedges k) (Ici t) t)
    (inL inR : ℝ → ℝ) (hinL : ∀ t ∈ Ico a b \ F, InflowOf c true t (inL t))
    (hinR : ∀ t ∈ Ico a b \ F, InflowOf c false t (inR t))
    (q : ℕ → ℝ → ℝ → ℝ) (u : ℕ → ℕ → ℝ → ℝ → ℝ)
    (hu : PiecewiseSolution p.Nang p.mus p.ws p.c c.Nspace (fun t => (mesh t).edges)
      (fun t => (mesh t).Dedges) inL inR q a b F u)
    (S : ℝ → ℕ → ℕ → ℝ) (hS : ∀ t ∈ Ico a b \ F, ∀ k < c.Nspace, ∀ i ≤ c.M, 1 / 2 * S t k i =
      projection (fun x => q k x t) ((mesh t).edges k) ((mesh t).edges (k + 1)) i)
    (V : ℝ → ℕ → ℕ → ℕ → ℝ) (hV : SlabSolutionOn p c mesh S a b F V)
    (δ A : ℝ) (hA : ∀ t ∈ Ico a b \ F, ∀ l < p.Nang, ∀ k ≤ c.Nspace,
      |p.mus l - (mesh t).Dedges k| ≤ A)
    (hδ : ∀ t ∈ Ico a b \ F, ∀ l < p.Nang, ∀ k < c.Nspace,
      ∀ x, x = (mesh t).edges k ∨ x = (mesh t).edges (k + 1) →
      |slabField c.M (projection (fun x => u l k x t) ((mesh t).edges k) ((mesh t).edges (k + 1)))
        ((mesh t).edges k) ((mesh t).edges (k + 1)) x - u l k x t| ≤ δ)
    (t : ℝ) (ht : t ∈ Icc a b) :
    angularSqNorm p c.Nspace c.M (mesh t).edges (fun l k i =>
        V t l k i - meshProjection (mesh t).edges (fun l k x => u l k x t) l k i) ≤
      gronwallBound
        (angularSqNorm p c.Nspace c.M (mesh a).edges fun l k i =>
          V a l k i - meshProjection (mesh a).edges (fun l k x => u l k x a) l k i)
        (2 * (p.c - 1)) ((c.Nspace + 1) * A * δ ^ 2) (t - a) := by
  set P : ℝ → ℕ → ℕ → ℕ → ℝ := fun s => meshProjection (mesh s).edges fun l k x => u l k x s with hP
  set D : ℝ → ℕ → ℕ → ℕ → ℝ := fun s l k i => V s l k i - P s l k i with hD
  set z : ℕ → ℝ := fun _ => 0 with hz
  set fs : FluxState := ⟨0, 0, 0, 0, 0, 0, 0, 0, 0, fun _ => 0⟩ with hfs
  have hcont : ContinuousOn (fun s => angularSqNorm p c.Nspace c.M (mesh s).edges (D s))
      (Icc a b) := by
    have h1 : ContinuousOn (fun s => ∑ l ∈ Finset.range p.Nang, p.ws l *
        ∑ k ∈ Finset.range c.Nspace, ∑ i ∈ Finset.range (c.M + 1), D s l k i ^ 2) (Icc a b) := by
      refine continuousOn_finsetSum _ fun l hl => ContinuousOn.mul continuousOn_const ?_
      refine continuousOn_finsetSum _ fun k hk => continuousOn_finsetSum _ fun i hi => ?_
      have hi' : i ≤ c.M := by simpa [Nat.lt_succ_iff] using hi
      rw [Finset.mem_range] at hl hk
      exact ((hV.1 l hl k hk i hi').sub (continuousOn_projection (hu.smooth l hl k hk).continuous
        (hec k hk.le) (hec (k + 1) hk) (fun s hs => hm s hs k hk) i)).pow 2
    exact h1.congr fun s hs => angularSqNorm_eq p c.Nspace c.M (mesh s).edges (D s) (hm s hs)
  have hev : ∀ x ∈ Ico a b \ F, ∀ᶠ s in nhdsWithin x (Ici x), ∀ k < c.Nspace,
      (mesh s).edges k < (mesh s).edges (k + 1) := by
    intro x hx
    have : Icc x b ∈ nhdsWithin x (Ici x) := Icc_mem_nhdsGE hx.1.2
    exact Filter.mem_of_superset this fun s hs => hm s ⟨hx.1.1.trans hs.1, hs.2⟩
  set ρ : ℝ → ℕ → ℕ → ℝ := fun x l => fluxDefect c x (mesh x) (P x l) (fun k y => u l k y x)
    (p.mus l) z with hρ
  set Q : ℝ → ℕ → ℕ → ℕ → ℝ := fun x l k i =>
    -(slabBasis i ((mesh x).edges (k + 1)) ((mesh x).edges k) ((mesh x).edges (k + 1)) *
        ρ x l (k + 1))
      + slabBasis i ((mesh x).edges k) ((mesh x).edges k) ((mesh x).edges (k + 1)) * ρ x l k with hQ
  have hrate : ∀ x ∈ Ico a b \ F, ∀ l < p.Nang, ∀ k < c.Nspace, ∀ i ≤ c.M,
      HasDerivWithinAt (fun s => D s l k i)
      (streamPart (vacuumConfig c) x (mesh x) (D x l) k (p.mus l) z fs i
        + (-D x l k i + p.c * scalarCoef p (D x) k i + Q x l k i)) (Ici x) x := by
    intro x hx l hl k hk i hi
    have hmx := hm x ⟨hx.1.1, hx.1.2.le⟩
    have h1 := hV.2 x hx l hl k hk i hi z fs
    have h2 := projection_rate p c hg a b F mesh inL inR q u hu x hx l hl k hk i hi hmx (he x hx)
      (S x) (hS x hx k hk i hi) z fs
    refine (h1.sub h2).congr_deriv ?_
    have e := streamPart_sub c hg x (mesh x) hmx z z fs fs fs (V x l) (P x l) (p.mus l) k i hk hi
    have e2 : scalarCoef p (D x) k i =
        angularSum p.Nang p.ws (fun l => V x l k i) - angularSum p.Nang p.ws fun l => P x l k i := by
      unfold scalarCoef angularSum
      rw [← Finset.sum_sub_distrib]
      exact Finset.sum_congr rfl fun _ _ => by simp only [hD]; ring
    show _ = streamPart (vacuumConfig c) x (mesh x) (fun k j => V x l k j - P x l k j) k (p.mus l)
      z fs i + _
    rw [← e, e2]
    unfold slabConstantRhs
    rw [makeP_eq, makeP_eq]
    simp only [hD, hQ]
    ring
  have hder := fun x (hx : x ∈ Ico a b \ F) => HasDerivWithinAt.fun_sum
    fun l (hl : l ∈ Finset.range p.Nang) =>
    (sq_rate c hg x mesh (hev x hx) (p.mus l) z (fun _ => fs) (fun s => D s l) _
      (hrate x hx l (Finset.mem_range.1 hl))).const_mul (p.ws l)
  refine gronwall_except hF _ _ _ _ a b _ hcont hder le_rfl (fun x hx => ?_) t ht
  have hmx : ∀ k < c.Nspace, (mesh x).edges k < (mesh x).edges (k + 1) := hm x ⟨hx.1.1, hx.1.2.le⟩
  have h2 := mul_le_mul_of_nonneg_left (scalar_le_angular p hp hw c.Nspace c.M (mesh x).edges hmx
    (D x)) hc
  -- collisions
  have hcol : 2 * ∑ l ∈ Finset.range p.Nang, p.ws l * ∑ k ∈ Finset.range c.Nspace,
      ∑ i ∈ Finset.range (c.M + 1), D x l k i * (-D x l k i + p.c * scalarCoef p (D x) k i) =
      -2 * angularSqNorm p c.Nspace c.M (mesh x).edges (D x)
        + 2 * p.c * meshSqNorm c.Nspace c.M (mesh x).edges (scalarCoef p (D x)) := by
    rw [angularSqNorm_eq _ _ _ _ _ hmx, meshSqNorm_eq _ _ _ _ hmx]
    have hswap : ∀ F : ℕ → ℕ → ℕ → ℝ, ∑ l ∈ Finset.range p.Nang, p.ws l *
        ∑ k ∈ Finset.range c.Nspace, ∑ i ∈ Finset.range (c.M + 1), F l k i =
        ∑ k ∈ Finset.range c.Nspace, ∑ i ∈ Finset.range (c.M + 1),
          angularSum p.Nang p.ws fun l => F l k i := by
      intro F
      simp only [Finset.mul_sum]
      rw [Finset.sum_comm]
      refine Finset.sum_congr rfl fun k _ => ?_
      rw [Finset.sum_comm]
      rfl
    rw [hswap, hswap]
    simp only [Finset.mul_sum, ← Finset.sum_add_distrib]
    refine Finset.sum_congr rfl fun k _ => Finset.sum_congr rfl fun i _ => ?_
    have hc1 := collision_form p fun l => D x l k i
    have e1 : angularSum p.Nang p.ws (fun l => D x l k i *
        (-D x l k i + p.c * scalarCoef p (D x) k i)) =
        ∑ l ∈ Finset.range p.Nang, p.ws l * (D x l k i *
          (-D x l k i + p.c * angularSum p.Nang p.ws fun l => D x l k i)) := rfl
    rw [e1, hc1]
    unfold scalarCoef
    ring
  -- one direction
  have hdir : ∀ l < p.Nang,
      -(∑ k ∈ Finset.range (c.Nspace + 1), |p.mus l - (mesh x).Dedges k| *
          edgeJump c.Nspace c.M (mesh x).edges (D x l) k ^ 2)
        + 2 * ∑ k ∈ Finset.range c.Nspace, ∑ i ∈ Finset.range (c.M + 1), D x l k i *
          (-D x l k i + p.c * scalarCoef p (D x) k i + Q x l k i) ≤
      2 * ∑ k ∈ Finset.range c.Nspace, ∑ i ∈ Finset.range (c.M + 1), D x l k i *
          (-D x l k i + p.c * scalarCoef p (D x) k i) + (c.Nspace + 1) * A * δ ^ 2 := by
    intro l hl
    have hδ0 : 0 ≤ δ := (abs_nonneg _).trans (hδ x hx l hl 0 (by omega) _ (Or.inl rfl))
    have hdef : ∀ j ≤ c.Nspace, |ρ x l j| ≤ |p.mus l - (mesh x).Dedges j| * δ := by
      refine fluxDefect_le c hg x (mesh x) (P x l) (fun k y => u l k y x) (p.mus l) δ z hδ0
        (by omega) (fun k h => hu.continuousFlux x hx l hl k h) (fun hv => ?_) (fun hv => ?_)
        (fun k hk => hδ x hx l hl k hk _ (Or.inl rfl))
        (fun k hk => hδ x hx l hl k hk _ (Or.inr rfl))
      · rw [leftOuter_inflow c hg hquad x _ (hinL x hx) (mesh x) (hmx 0 (by omega))]
        exact (hu.inflowLeft x hx l hl hv).symm
      · rw [rightOuter_inflow c hg hquad hN x _ (hinR x hx) (mesh x) hmx]
        exact (hu.inflowRight x hx l hl hv).symm
    have hsp : ∑ k ∈ Finset.range c.Nspace, ∑ i ∈ Finset.range (c.M + 1), D x l k i *
          (-D x l k i + p.c * scalarCoef p (D x) k i + Q x l k i) =
        ∑ k ∈ Finset.range c.Nspace, ∑ i ∈ Finset.range (c.M + 1), D x l k i *
          (-D x l k i + p.c * scalarCoef p (D x) k i) +
        ∑ j ∈ Finset.range (c.Nspace + 1),
          ρ x l j * edgeJump c.Nspace c.M (mesh x).edges (D x l) j := by
      rw [← defect_form, ← Finset.sum_add_distrib]
      refine Finset.sum_congr rfl fun k _ => ?_
      rw [← Finset.sum_add_distrib]
      exact Finset.sum_congr rfl fun i _ => by simp only [hQ]; ring
    have hj : ∑ j ∈ Finset.range (c.Nspace + 1),
          2 * (ρ x l j * edgeJump c.Nspace c.M (mesh x).edges (D x l) j) ≤
        ∑ j ∈ Finset.range (c.Nspace + 1), (|p.mus l - (mesh x).Dedges j| *
          edgeJump c.Nspace c.M (mesh x).edges (D x l) j ^ 2 + A * δ ^ 2) := by
      refine Finset.sum_le_sum fun j hj => ?_
      have hj' : j ≤ c.Nspace := by simpa [Nat.lt_succ_iff] using hj
      set w := edgeJump c.Nspace c.M (mesh x).edges (D x l) j
      have h3 := hdef j hj'
      have h4 := hA x hx l hl j hj'
      have h5 : ρ x l j * w ≤ |p.mus l - (mesh x).Dedges j| * δ * |w| := by
        refine (le_abs_self _).trans ?_
        rw [abs_mul]
        exact mul_le_mul_of_nonneg_right h3 (abs_nonneg w)
      have h6 : 0 ≤ |p.mus l - (mesh x).Dedges j| * (|w| - δ) ^ 2 :=
        mul_nonneg (abs_nonneg _) (sq_nonneg _)
      have h7 : |p.mus l - (mesh x).Dedges j| * δ ^ 2 ≤ A * δ ^ 2 :=
        mul_le_mul_of_nonneg_right h4 (sq_nonneg δ)
      have h8 : |p.mus l - (mesh x).Dedges j| * (|w| - δ) ^ 2 =
          |p.mus l - (mesh x).Dedges j| * w ^ 2 - 2 * (|p.mus l - (mesh x).Dedges j| * δ * |w|)
            + |p.mus l - (mesh x).Dedges j| * δ ^ 2 := by
        rw [← sq_abs w]; ring
      linarith
    rw [Finset.sum_add_distrib, Finset.sum_const, Finset.card_range, nsmul_eq_mul,
      ← Finset.mul_sum] at hj
    rw [hsp]
    push_cast at hj
    linarith
  have hsum : ∑ l ∈ Finset.range p.Nang, p.ws l *
      (-(∑ k ∈ Finset.range (c.Nspace + 1), |p.mus l - (mesh x).Dedges k| *
          edgeJump c.Nspace c.M (mesh x).edges (D x l) k ^ 2)
        + 2 * ∑ k ∈ Finset.range c.Nspace, ∑ i ∈ Finset.range (c.M + 1), D x l k i *
          (-D x l k i + p.c * scalarCoef p (D x) k i + Q x l k i)) ≤
      ∑ l ∈ Finset.range p.Nang, (2 * (p.ws l * ∑ k ∈ Finset.range c.Nspace,
        ∑ i ∈ Finset.range (c.M + 1), D x l k i *
          (-D x l k i + p.c * scalarCoef p (D x) k i)) + p.ws l * ((c.Nspace + 1) * A * δ ^ 2)) := by
    refine Finset.sum_le_sum fun l hl => ?_
    have := mul_le_mul_of_nonneg_left (hdir l (Finset.mem_range.1 hl)) (hp l (Finset.mem_range.1 hl))
    refine this.trans (le_of_eq ?_)
    ring
  rw [Finset.sum_add_distrib, ← Finset.mul_sum, ← Finset.sum_mul, hw, one_mul, hcol] at hsum
  show _ ≤ 2 * (p.c - 1) * angularSqNorm p c.Nspace c.M (mesh x).edges (D x) + _
  refine hsum.trans ?_
  linarith

/-! ### C89 -/

/-- Distance from the exact solution: distance from the projection plus distance of the
projection. -/
theorem sqDistance_eq (p : RhsParams) (N M : ℕ) (e : ℕ → ℝ) (V : ℕ → ℕ → ℕ → ℝ)
    (u : ℕ → ℕ → ℝ → ℝ) (h : ∀ k < N, e k < e (k + 1))
    (hu : ∀ l < p.Nang, ∀ k < N, Continuous (u l k)) :
    sqDistance p.Nang p.ws N M e V u =
      angularSqNorm p N M e (fun l k i => V l k i - meshProjection e u l k i)
        + sqDistance p.Nang p.ws N M e (meshProjection e u) u := by
  rw [angularSqNorm_eq p N M e _ h]
  unfold sqDistance
  rw [← Finset.sum_add_distrib]
  refine Finset.sum_congr rfl fun l hl => ?_
  rw [← mul_add, ← Finset.sum_add_distrib]
  congr 1
  refine Finset.sum_congr rfl fun k hk => ?_
  rw [Finset.mem_range] at hl hk
  exact integral_field_sub_sq M (V l k) (hu l hl k hk) (h k hk)

theorem sqDistance_projection_le (p : RhsParams) (hp : ∀ l < p.Nang, 0 ≤ p.ws l)
    (hw : ∑ l ∈ Finset.range p.Nang, p.ws l = 1) (N M : ℕ) (e : ℕ → ℝ) (u : ℕ → ℕ → ℝ → ℝ)
    (h : ∀ k < N, e k < e (k + 1)) (hu : ∀ l < p.Nang, ∀ k < N, Continuous (u l k)) (ε : ℝ)
    (hε : ∀ l < p.Nang, ∀ k < N, ∃ U : ℕ → ℝ, ∀ x ∈ Icc (e k) (e (k + 1)),
      |slabField M U (e k) (e (k + 1)) x - u l k x| ≤ ε) :
    sqDistance p.Nang p.ws N M e (meshProjection e u) u ≤ (e N - e 0) * ε ^ 2 := by
  unfold sqDistance
  have h1 : ∀ l ∈ Finset.range p.Nang, p.ws l * ∑ k ∈ Finset.range N,
      ∫ x in (e k)..(e (k + 1)),
        (slabField M (meshProjection e u l k) (e k) (e (k + 1)) x - u l k x) ^ 2 ≤
      p.ws l * ((e N - e 0) * ε ^ 2) := by
    intro l hl
    rw [Finset.mem_range] at hl
    refine mul_le_mul_of_nonneg_left ?_ (hp l hl)
    have h2 : ∀ k ∈ Finset.range N, ∫ x in (e k)..(e (k + 1)),
        (slabField M (meshProjection e u l k) (e k) (e (k + 1)) x - u l k x) ^ 2 ≤
        ε ^ 2 * (e (k + 1) - e k) := by
      intro k hk
      rw [Finset.mem_range] at hk
      obtain ⟨U, hU⟩ := hε l hl k hk
      exact projection_mean_error M (hu l hl k hk) (h k hk) hU
    refine (Finset.sum_le_sum h2).trans (le_of_eq ?_)
    rw [← Finset.mul_sum, Finset.sum_range_sub]
    ring
  refine (Finset.sum_le_sum h1).trans (le_of_eq ?_)
  rw [← Finset.sum_mul, hw, one_mul]

/-- C89: in the setting of C88, if at every time `u` has `M + 1` continuous space derivatives on
every cell with the last one at most `B`, and no cell is wider than `h`, the squared distance
between the discrete and the exact solution is at most the solution of
`E' = 2 (c - 1) E + (N + 1) A ((M + 2) ε) ^ 2` that starts at the initial distance, plus
`(x_N - x_0) ε ^ 2`, where `ε = B h ^ (M + 1) / M!`. -/
theorem c89_distance_bound (p : RhsParams) (hp : ∀ l < p.Nang, 0 ≤ p.ws l)
    (hw : ∑ l ∈ Finset.range p.Nang, p.ws l = 1) (hc : 0 ≤ p.c)
    (c : FluxConfig) (hg : c.geometry = .slab) (hquad : QuadExact c.quad c.M) (hN : 2 ≤ c.Nspace)
    (a b : ℝ) (F : Set ℝ) (hF : F.Finite) (mesh : ℝ → MeshView)
    (hm : ∀ s ∈ Icc a b, ∀ k < c.Nspace, (mesh s).edges k < (mesh s).edges (k + 1))
    (hec : ∀ k ≤ c.Nspace, ContinuousOn (fun s => (mesh s).edges k) (Icc a b))
    (he : ∀ t ∈ Ico a b \ F, ∀ k ≤ c.Nspace,
      HasDerivWithinAt (fun s => (mesh s).edges k) ((mesh t).Dedges k) (Ici t) t)
    (inL inR : ℝ → ℝ) (hinL : ∀ t ∈ Ico a b \ F, InflowOf c true t (inL t))
    (hinR : ∀ t ∈ Ico a b \ F, InflowOf c false t (inR t))
    (q : ℕ → ℝ → ℝ → ℝ) (u : ℕ → ℕ → ℝ → ℝ → ℝ)
    (hu : PiecewiseSolution p.Nang p.mus p.ws p.c c.Nspace (fun t => (mesh t).edges)
      (fun t => (mesh t).Dedges) inL inR q a b F u)
    (S : ℝ → ℕ → ℕ → ℝ) (hS : ∀ t ∈ Ico a b \ F, ∀ k < c.Nspace, ∀ i ≤ c.M, 1 / 2 * S t k i =
      projection (fun x => q k x t) ((mesh t).edges k) ((mesh t).edges (k + 1)) i)
    (V : ℝ → ℕ → ℕ → ℕ → ℝ) (hV : SlabSolutionOn p c mesh S a b F V)
    (A B h : ℝ) (hA : ∀ t ∈ Ico a b \ F, ∀ l < p.Nang, ∀ k ≤ c.Nspace,
      |p.mus l - (mesh t).Dedges k| ≤ A)
    (hh : ∀ t ∈ Icc a b, ∀ k < c.Nspace, (mesh t).edges (k + 1) - (mesh t).edges k ≤ h)
    (hsm : ∀ t ∈ Icc a b, ∀ l < p.Nang, ∀ k < c.Nspace, ContDiffOn ℝ (c.M + 1)
      (fun x => u l k x t) (Icc ((mesh t).edges k) ((mesh t).edges (k + 1))))
    (hB : ∀ t ∈ Icc a b, ∀ l < p.Nang, ∀ k < c.Nspace,
      ∀ x ∈ Icc ((mesh t).edges k) ((mesh t).edges (k + 1)),
      |iteratedDerivWithin (c.M + 1) (fun x => u l k x t)
        (Icc ((mesh t).edges k) ((mesh t).edges (k + 1))) x| ≤ B)
    (t : ℝ) (ht : t ∈ Icc a b) :
    sqDistance p.Nang p.ws c.Nspace c.M (mesh t).edges (V t) (fun l k x => u l k x t) ≤
      gronwallBound
        (sqDistance p.Nang p.ws c.Nspace c.M (mesh a).edges (V a) fun l k x => u l k x a)
        (2 * (p.c - 1))
        ((c.Nspace + 1) * A * ((c.M + 2) * (B * h ^ (c.M + 1) / (c.M.factorial : ℝ))) ^ 2) (t - a)
      + ((mesh t).edges c.Nspace - (mesh t).edges 0) *
        (B * h ^ (c.M + 1) / (c.M.factorial : ℝ)) ^ 2 := by
  set ε := B * h ^ (c.M + 1) / (c.M.factorial : ℝ) with hε
  have hcu : ∀ s, ∀ l < p.Nang, ∀ k < c.Nspace, Continuous fun x => u l k x s :=
    fun s l hl k hk => (hu.smooth l hl k hk).continuous.comp (continuous_id.prodMk continuous_const)
  have hclose : ∀ s ∈ Icc a b, ∀ l < p.Nang, ∀ k < c.Nspace, ∃ U : ℕ → ℝ,
      ∀ x ∈ Icc ((mesh s).edges k) ((mesh s).edges (k + 1)),
      |slabField c.M U ((mesh s).edges k) ((mesh s).edges (k + 1)) x - u l k x s| ≤ ε := by
    intro s hs l hl k hk
    have hlt := hm s hs k hk
    obtain ⟨U, hU⟩ := exists_close_field c.M hlt (hsm s hs l hl k hk) (hB s hs l hl k hk)
    refine ⟨U, fun x hx => (hU x hx).trans ?_⟩
    have hB0 : 0 ≤ B := (abs_nonneg _).trans (hB s hs l hl k hk x hx)
    have h1 := hh s hs k hk
    have h2 : 0 ≤ (mesh s).edges (k + 1) - (mesh s).edges k := by linarith
    rw [hε]
    gcongr
  have ha : a ∈ Icc a b := ⟨le_rfl, ht.1.trans ht.2⟩
  have h88 := c88_error_bound p hp hw hc c hg hquad hN a b F hF mesh hm hec he inL inR hinL hinR q u
    hu S hS V hV ((c.M + 2) * ε) A hA (fun s hs l hl k hk x hx => by
      have hs' : s ∈ Icc a b := ⟨hs.1.1, hs.1.2.le⟩
      obtain ⟨U, hU⟩ := hclose s hs' l hl k hk
      exact projection_edge_error c.M (hcu s l hl k hk) (hm s hs' k hk) hU hx) t ht
  have hproj := sqDistance_projection_le p hp hw c.Nspace c.M (mesh t).edges
    (fun l k x => u l k x t) (hm t ht) (hcu t) ε (hclose t ht)
  have hinit : angularSqNorm p c.Nspace c.M (mesh a).edges (fun l k i =>
      V a l k i - meshProjection (mesh a).edges (fun l k x => u l k x a) l k i) ≤
      sqDistance p.Nang p.ws c.Nspace c.M (mesh a).edges (V a) fun l k x => u l k x a := by
    rw [sqDistance_eq p c.Nspace c.M (mesh a).edges (V a) (fun l k x => u l k x a) (hm a ha) (hcu a)]
    have : 0 ≤ sqDistance p.Nang p.ws c.Nspace c.M (mesh a).edges
        (meshProjection (mesh a).edges fun l k x => u l k x a) fun l k x => u l k x a := by
      unfold sqDistance
      refine Finset.sum_nonneg fun l hl => mul_nonneg (hp l (Finset.mem_range.1 hl))
        (Finset.sum_nonneg fun k hk => intervalIntegral.integral_nonneg
          (hm a ha k (Finset.mem_range.1 hk)).le fun _ _ => sq_nonneg _)
    linarith
  rw [sqDistance_eq p c.Nspace c.M (mesh t).edges (V t) (fun l k x => u l k x t) (hm t ht) (hcu t)]
  exact add_le_add (h88.trans (gronwallBound_mono' _ _ hinit _)) hproj

theorem gronwallBound_le_linear {δ K ε x : ℝ} (hδ : 0 ≤ δ) (hK : K ≤ 0) (hε : 0 ≤ ε) (hx : 0 ≤ x) :
    gronwallBound δ K ε x ≤ δ + ε * x := by
  by_cases h : K = 0
  · subst h; rw [gronwallBound_K0]
  · have hK' : K < 0 := lt_of_le_of_ne hK h
    rw [gronwallBound_of_K_ne_0 h]
    have h1 : Real.exp (K * x) ≤ 1 := Real.exp_le_one_iff.2 (mul_nonpos_of_nonpos_of_nonneg hK hx)
    have h2 : K * x + 1 ≤ Real.exp (K * x) := Real.add_one_le_exp _
    have h3 : ε / K * (Real.exp (K * x) - 1) ≤ ε * x := by
      have : ε / K * (Real.exp (K * x) - 1) = ε * ((1 - Real.exp (K * x)) / (-K)) := by
        field_simp; ring
      rw [this]
      refine mul_le_mul_of_nonneg_left ?_ hε
      rw [div_le_iff₀ (by linarith)]
      linarith
    have h4 : δ * Real.exp (K * x) ≤ δ := mul_le_of_le_one_right hδ h1
    linarith

/-- C89: convergence.  Without multiplication (`c ≤ 1`), on a mesh whose cells are not wider than `h`
while their number is at most `κ / h - 1`, the squared distance at time `t` exceeds the initial one
by at most a constant times `h ^ (2 M + 1)`; the constant depends on the solution only through the
bound `B` of its derivative of order `M + 1`. -/
theorem c89_convergence (p : RhsParams) (hp : ∀ l < p.Nang, 0 ≤ p.ws l)
    (hw : ∑ l ∈ Finset.range p.Nang, p.ws l = 1) (hc : 0 ≤ p.c) (hc1 : p.c ≤ 1)
    (c : FluxConfig) (hg : c.geometry = .slab) (hquad : QuadExact c.quad c.M) (hN : 2 ≤ c.Nspace)
    (a b : ℝ) (F : Set ℝ) (hF : F.Finite) (mesh : ℝ → MeshView)
    (hm : ∀ s ∈ Icc a b, ∀ k < c.Nspace, (mesh s).edges k < (mesh s).edges (k + 1))
    (hec : ∀ k ≤ c.Nspace, ContinuousOn (fun s => (mesh s).edges k) (Icc a b))
    (he : ∀ t ∈ Ico a b \ F, ∀ k ≤ c.Nspace,
      HasDerivWithinAt (fun s => (mesh s).edges k) ((mesh t).Dedges k) (Ici t) t)
    (inL inR : ℝ → ℝ) (hinL : ∀ t ∈ Ico a b \ F, InflowOf c true t (inL t))
    (hinR : ∀ t ∈ Ico a b \ F, InflowOf c false t (inR t))
    (q : ℕ → ℝ → ℝ → ℝ) (u : ℕ → ℕ → ℝ → ℝ → ℝ)
    (hu : PiecewiseSolution p.Nang p.mus p.ws p.c c.Nspace (fun t => (mesh t).edges)
      (fun t => (mesh t).Dedges) inL inR q a b F u)
    (S : ℝ → ℕ → ℕ → ℝ) (hS : ∀ t ∈ Ico a b \ F, ∀ k < c.Nspace, ∀ i ≤ c.M, 1 / 2 * S t k i =
      projection (fun x => q k x t) ((mesh t).edges k) ((mesh t).edges (k + 1)) i)
    (V : ℝ → ℕ → ℕ → ℕ → ℝ) (hV : SlabSolutionOn p c mesh S a b F V)
    (A B L κ h : ℝ) (hA0 : 0 ≤ A) (hA : ∀ t ∈ Ico a b \ F, ∀ l < p.Nang, ∀ k ≤ c.Nspace,
      |p.mus l - (mesh t).Dedges k| ≤ A)
    (hh : ∀ t ∈ Icc a b, ∀ k < c.Nspace, (mesh t).edges (k + 1) - (mesh t).edges k ≤ h)
    (hκ : ((c.Nspace : ℝ) + 1) * h ≤ κ)
    (hL : ∀ t ∈ Icc a b, (mesh t).edges c.Nspace - (mesh t).edges 0 ≤ L)
    (hsm : ∀ t ∈ Icc a b, ∀ l < p.Nang, ∀ k < c.Nspace, ContDiffOn ℝ (c.M + 1)
      (fun x => u l k x t) (Icc ((mesh t).edges k) ((mesh t).edges (k + 1))))
    (hB : ∀ t ∈ Icc a b, ∀ l < p.Nang, ∀ k < c.Nspace,
      ∀ x ∈ Icc ((mesh t).edges k) ((mesh t).edges (k + 1)),
      |iteratedDerivWithin (c.M + 1) (fun x => u l k x t)
        (Icc ((mesh t).edges k) ((mesh t).edges (k + 1))) x| ≤ B)
    (t : ℝ) (ht : t ∈ Icc a b) :
    sqDistance p.Nang p.ws c.Nspace c.M (mesh t).edges (V t) (fun l k x => u l k x t) ≤
      sqDistance p.Nang p.ws c.Nspace c.M (mesh a).edges (V a) (fun l k x => u l k x a)
        + ((t - a) * κ * A * (c.M + 2) ^ 2 + L * h) * (B / (c.M.factorial : ℝ)) ^ 2
          * h ^ (2 * c.M + 1) := by
  have ha : a ∈ Icc a b := ⟨le_rfl, ht.1.trans ht.2⟩
  have h89 := c89_distance_bound p hp hw hc c hg hquad hN a b F hF mesh hm hec he inL inR hinL hinR q u
    hu S hS V hV A B h hA hh hsm hB t ht
  have hh0 : 0 ≤ h := by
    have h1 := hh a ha 0 (by omega)
    have h2 := hm a ha 0 (by omega)
    linarith
  have hnn : 0 ≤ sqDistance p.Nang p.ws c.Nspace c.M (mesh a).edges (V a)
      (fun l k x => u l k x a) := by
    unfold sqDistance
    refine Finset.sum_nonneg fun l hl => mul_nonneg (hp l (Finset.mem_range.1 hl))
      (Finset.sum_nonneg fun k hk => intervalIntegral.integral_nonneg
        (hm a ha k (Finset.mem_range.1 hk)).le fun _ _ => sq_nonneg _)
  refine h89.trans ?_
  have hlin := gronwallBound_le_linear hnn (show 2 * (p.c - 1) ≤ 0 by linarith)
    (show 0 ≤ ((c.Nspace : ℝ) + 1) * A *
      ((c.M + 2) * (B * h ^ (c.M + 1) / (c.M.factorial : ℝ))) ^ 2 by positivity)
    (show 0 ≤ t - a by linarith [ht.1])
  set E := (B / (c.M.factorial : ℝ)) ^ 2 with hE
  have hpow : (B * h ^ (c.M + 1) / (c.M.factorial : ℝ)) ^ 2 = E * (h * h ^ (2 * c.M + 1)) := by
    rw [hE]; ring
  have h1 : ((mesh t).edges c.Nspace - (mesh t).edges 0) * (E * (h * h ^ (2 * c.M + 1))) ≤
      L * (E * (h * h ^ (2 * c.M + 1))) :=
    mul_le_mul_of_nonneg_right (hL t ht) (by positivity)
  have h2 : ((c.Nspace : ℝ) + 1) * h * (A * (c.M + 2) ^ 2 * E * h ^ (2 * c.M + 1) * (t - a)) ≤
      κ * (A * (c.M + 2) ^ 2 * E * h ^ (2 * c.M + 1) * (t - a)) :=
    mul_le_mul_of_nonneg_right hκ (mul_nonneg (by positivity) (by linarith [ht.1]))
  rw [mul_pow, hpow] at hlin
  rw [mul_pow, hpow]
  have e1 : (↑c.Nspace + 1) * A * ((↑c.M + 2) ^ 2 * (E * (h * h ^ (2 * c.M + 1)))) * (t - a) =
      ((c.Nspace : ℝ) + 1) * h * (A * (c.M + 2) ^ 2 * E * h ^ (2 * c.M + 1) * (t - a)) := by ring
  rw [e1] at hlin
  calc _ ≤ _ := add_le_add hlin h1
    _ ≤ sqDistance p.Nang p.ws c.Nspace c.M (mesh a).edges (V a) (fun l k x => u l k x a)
        + κ * (A * (c.M + 2) ^ 2 * E * h ^ (2 * c.M + 1) * (t - a))
        + L * (E * (h * h ^ (2 * c.M + 1))) := by linarith
    _ = _ := by ring

/-! ### Example: a pulse that fills the expanding mesh -/

/-- Vanishes at both ends of the example mesh. -/
noncomputable def waveX (x t : ℝ) : ℝ := 9 / 4 * (1 + t) ^ 2 - x ^ 2

/-- Exact solution for two directions: even part plus or minus odd part. -/
noncomputable def waveU (l _ : ℕ) (x t : ℝ) : ℝ :=
  9 * (1 + t) * waveX x t + waveX x t ^ 2 + (if l = 0 then -1 else 1) * (2 * x * waveX x t)

/-- The source it needs. -/
noncomputable def waveQ (_ : ℕ) (x t : ℝ) : ℝ :=
  9 * waveX x t + 81 / 2 * (1 + t) ^ 2 + 9 * (1 + t) * waveX x t
    + 1 / 2 * (2 * waveX x t - 4 * x ^ 2) + 2 / 3 * (9 * (1 + t) * waveX x t + waveX x t ^ 2)

theorem waveX_dx (x t : ℝ) : HasDerivAt (fun y => waveX y t) (-(2 * x)) x := by
  unfold waveX
  simpa using ((hasDerivAt_id x).pow 2).const_sub (9 / 4 * (1 + t) ^ 2)

theorem waveX_dt (x t : ℝ) : HasDerivAt (fun s => waveX x s) (9 / 2 * (1 + t)) t := by
  unfold waveX
  refine (((((hasDerivAt_id t).const_add 1).pow 2).const_mul (9 / 4 : ℝ)).sub_const
    (x ^ 2)).congr_deriv ?_
  simp; ring

theorem waveU_dx (l k : ℕ) (x t : ℝ) : HasDerivAt (fun y => waveU l k y t)
    (-18 * (1 + t) * x - 4 * x * waveX x t + (if l = 0 then -1 else 1) * (2 * waveX x t - 4 * x ^ 2))
    x := by
  unfold waveU
  have h := waveX_dx x t
  refine (((h.const_mul (9 * (1 + t))).add (h.pow 2)).add
    ((((hasDerivAt_id x).const_mul (2 : ℝ)).mul h).const_mul
      (if l = 0 then (-1 : ℝ) else 1))).congr_deriv ?_
  simp only [id]
  split_ifs <;> ring

theorem waveU_dt (l k : ℕ) (x t : ℝ) : HasDerivAt (fun s => waveU l k x s)
    (9 * waveX x t + 81 / 2 * (1 + t) ^ 2 + 9 * (1 + t) * waveX x t
      + (if l = 0 then -1 else 1) * (9 * x * (1 + t))) t := by
  unfold waveU
  have h := waveX_dt x t
  refine (((((hasDerivAt_id t).const_add 1).const_mul (9 : ℝ)).mul h |>.add (h.pow 2)).add
    ((h.const_mul (2 * x)).const_mul (if l = 0 then (-1 : ℝ) else 1))).congr_deriv ?_
  simp only [id]
  split_ifs <;> ring

theorem waveU_dxx (l k : ℕ) (x t : ℝ) : HasDerivAt (fun y => deriv (fun y => waveU l k y t) y)
    (-18 * (1 + t) - 4 * waveX x t + 8 * x ^ 2 + (if l = 0 then -1 else 1) * (-12 * x)) x := by
  have e : (fun y => deriv (fun y => waveU l k y t) y) = fun y =>
      -18 * (1 + t) * y - 4 * y * waveX y t
        + (if l = 0 then -1 else 1) * (2 * waveX y t - 4 * y ^ 2) :=
    funext fun y => (waveU_dx l k y t).deriv
  rw [e]
  have h := waveX_dx x t
  refine ((((hasDerivAt_id x).const_mul (-18 * (1 + t))).sub
    (((hasDerivAt_id x).const_mul (4 : ℝ)).mul h)).add
    (((h.const_mul (2 : ℝ)).sub (((hasDerivAt_id x).pow 2).const_mul (4 : ℝ))).const_mul
      (if l = 0 then (-1 : ℝ) else 1))).congr_deriv ?_
  simp only [id]
  split_ifs <;> ring

theorem waveX_contDiff (n : WithTop ℕ∞) : ContDiff ℝ n fun z : ℝ × ℝ => waveX z.1 z.2 := by
  unfold waveX; fun_prop

theorem waveU_contDiff (n : WithTop ℕ∞) (l k : ℕ) :
    ContDiff ℝ n fun z : ℝ × ℝ => waveU l k z.1 z.2 := by
  unfold waveU waveX; fun_prop

theorem wave_solution (F : Set ℝ) :
    PiecewiseSolution exampleParams.Nang exampleParams.mus exampleParams.ws exampleParams.c
      exampleConfig.Nspace (fun t => (exampleMesh t).edges) (fun t => (exampleMesh t).Dedges)
      (fun _ => 0) (fun _ => 0) waveQ 0 1 F waveU where
  smooth l _ k _ := waveU_contDiff 1 l k
  equation t _ l hl k _ x _ := by
    rw [(waveU_dt l k x t).deriv, (waveU_dx l k x t).deriv]
    have hl2 : l = 0 ∨ l = 1 := by have : l < 2 := hl; omega
    rcases hl2 with rfl | rfl <;>
    · simp only [exampleParams, waveU, waveQ, Finset.sum_range_succ, Finset.range_zero,
        Finset.sum_empty]
      norm_num
      ring
  continuousFlux t _ l _ k _ := rfl
  inflowLeft t _ l _ _ := by
    simp only [waveU, waveX, exampleMesh]
    push_cast
    ring
  inflowRight t _ l _ _ := by
    simp only [waveU, waveX, exampleMesh, exampleConfig]
    push_cast
    ring

theorem wave_inflow (left : Bool) (t : ℝ) : InflowOf exampleConfig left t 0 :=
  ⟨fun h => by
    unfold BoundaryActive at h
    simp [exampleConfig] at h, fun _ => rfl⟩

theorem exampleMesh_lt {s : ℝ} (hs : 0 ≤ s) (k : ℕ) :
    (exampleMesh s).edges k < (exampleMesh s).edges (k + 1) := by
  show (1 + s) * ((k : ℝ) - 3 / 2) < (1 + s) * (((k + 1 : ℕ) : ℝ) - 3 / 2)
  push_cast
  nlinarith

theorem exampleMesh_hasDeriv (t : ℝ) (k : ℕ) :
    HasDerivAt (fun s => (exampleMesh s).edges k) ((exampleMesh t).Dedges k) t := by
  simp only [exampleMesh]
  simpa using ((hasDerivAt_id t).const_add 1).mul_const ((k : ℝ) - 3 / 2)

theorem wave_speed (t : ℝ) (l : ℕ) (hl : l < exampleParams.Nang) (k : ℕ)
    (hk : k ≤ exampleConfig.Nspace) : |exampleParams.mus l - (exampleMesh t).Dedges k| ≤ 2 := by
  have hl2 : l = 0 ∨ l = 1 := by have : l < 2 := hl; omega
  have hk2 : k = 0 ∨ k = 1 ∨ k = 2 ∨ k = 3 := by have : k ≤ 3 := hk; omega
  rcases hl2 with rfl | rfl <;> rcases hk2 with rfl | rfl | rfl | rfl <;>
    norm_num [exampleParams, exampleMesh, abs_le]

theorem wave_width {t : ℝ} (ht : t ∈ Icc (0 : ℝ) 1) (k : ℕ) :
    (exampleMesh t).edges (k + 1) - (exampleMesh t).edges k ≤ 2 := by
  simp only [exampleMesh]
  push_cast
  nlinarith [ht.1, ht.2]

theorem wave_second (t : ℝ) (ht : t ∈ Icc (0 : ℝ) 1) (l k : ℕ) (hk : k < exampleConfig.Nspace)
    (x : ℝ) (hx : x ∈ Icc ((exampleMesh t).edges k) ((exampleMesh t).edges (k + 1))) :
    |iteratedDerivWithin (exampleConfig.M + 1) (fun x => waveU l k x t)
      (Icc ((exampleMesh t).edges k) ((exampleMesh t).edges (k + 1))) x| ≤ 180 := by
  have hlt := exampleMesh_lt ht.1 k
  have hc : ContDiff ℝ 2 fun x => waveU l k x t :=
    (waveU_contDiff 2 l k).comp (contDiff_id.prodMk contDiff_const)
  show |iteratedDerivWithin 2 _ _ _| ≤ _
  rw [iteratedDerivWithin_eq_iteratedDeriv (uniqueDiffOn_Icc hlt) hc.contDiffAt hx,
    iteratedDeriv_succ, iteratedDeriv_one, (waveU_dxx l k x t).deriv]
  have hk2 : k < 3 := hk
  have hkr : (k : ℝ) ≤ 2 := by exact_mod_cast (by omega : k ≤ 2)
  have hk0 : (0 : ℝ) ≤ k := Nat.cast_nonneg k
  obtain ⟨ht0, ht1⟩ := ht
  obtain ⟨hx1, hx2⟩ := hx
  simp only [exampleMesh] at hx1 hx2
  push_cast at hx2
  have h1 : -(3 / 2 * (1 + t)) ≤ x := by nlinarith
  have h2 : x ≤ 3 / 2 * (1 + t) := by nlinarith
  have hx3 : |x| ≤ 3 := abs_le.2 ⟨by linarith, by linarith⟩
  have hX0 : 0 ≤ waveX x t := by unfold waveX; nlinarith
  have hX9 : waveX x t ≤ 9 := by unfold waveX; nlinarith [sq_nonneg x]
  have hxx : x ^ 2 ≤ 9 := by nlinarith [abs_le.1 hx3]
  have hxx0 := sq_nonneg x
  obtain ⟨h3, h4⟩ := abs_le.1 hx3
  rw [abs_le]
  split_ifs <;> constructor <;> nlinarith

/-- Source moments the scheme uses. -/
noncomputable def waveS (t : ℝ) (k i : ℕ) : ℝ :=
  2 * projection (fun x => waveQ k x t) ((exampleMesh t).edges k) ((exampleMesh t).edges (k + 1)) i

/-- Start of the example interval, where the equations are not required. -/
def waveF : Set ℝ := {t | ∃ j < 1, t = (fun j : ℕ => (j : ℝ)) j}

/-- The scheme has a solution for the example. -/
theorem wave_exists (V0 : ℕ → ℕ → ℕ → ℝ) :
    ∃ V, SlabSolutionOn exampleParams exampleConfig exampleMesh waveS 0 1 waveF V ∧
      ∀ l < exampleParams.Nang, ∀ k < exampleConfig.Nspace, ∀ i ≤ exampleConfig.M,
        V 0 l k i = V0 l k i := by
  have h := c87_exists exampleParams exampleConfig rfl 1 (fun j => (j : ℝ))
    (fun j _ => by push_cast; linarith) (Or.inl rfl)
    (fun j hj => Or.inl (by
      have : j = 0 := by omega
      subst this
      norm_num [exampleConfig])) exampleMesh
    (fun s hs k _ => exampleMesh_lt (by simpa using hs.1) k)
    (fun k _ => by simp only [exampleMesh]; fun_prop)
    (fun j _ k _ => ⟨fun _ => (k : ℝ) - 3 / 2, continuousOn_const, fun _ _ => rfl⟩) waveS
    (fun j hj k _ i _ => ⟨fun t => waveS t k i, by
      unfold waveS
      refine continuousOn_const.mul (continuousOn_projection (u := fun x t => waveQ k x t) ?_ ?_ ?_
        (fun t ht => exampleMesh_lt ?_ k) i)
      · unfold waveQ waveX; fun_prop
      · simp only [exampleMesh]; fun_prop
      · simp only [exampleMesh]; fun_prop
      · have : j = 0 := by omega
        subst this
        simpa using ht.1, fun _ _ => rfl⟩) V0
  simpa [waveF] using h

theorem waveF_finite : waveF.Finite :=
  ((finite_lt_nat 1).image fun j : ℕ => (j : ℝ)).subset
    (by rintro t ⟨j, hj, rfl⟩; exact ⟨j, hj, rfl⟩)

/-- Every cell has a linear function close to the pulse. -/
theorem wave_close (t : ℝ) (ht : t ∈ Icc (0 : ℝ) 1) (l k : ℕ) (hk : k < exampleConfig.Nspace) :
    ∃ U : ℕ → ℝ, ∀ x ∈ Icc ((exampleMesh t).edges k) ((exampleMesh t).edges (k + 1)),
      |slabField exampleConfig.M U ((exampleMesh t).edges k) ((exampleMesh t).edges (k + 1)) x
        - waveU l k x t| ≤ 720 := by
  have hlt := exampleMesh_lt ht.1 k
  obtain ⟨U, hU⟩ := exists_close_field exampleConfig.M hlt
    ((waveU_contDiff _ l k).comp (contDiff_id.prodMk contDiff_const)).contDiffOn
    (wave_second t ht l k hk)
  refine ⟨U, fun x hx => (hU x hx).trans ?_⟩
  have h1 := wave_width ht k
  have h2 : (((exampleMesh t).edges (k + 1) - (exampleMesh t).edges k)) ^ 2 ≤ 2 ^ 2 :=
    pow_le_pow_left₀ (by linarith) h1 2
  show 180 * (((exampleMesh t).edges (k + 1) - (exampleMesh t).edges k)) ^ 2 / (Nat.factorial 1 : ℝ)
    ≤ 720
  simp only [Nat.factorial_one, Nat.cast_one, div_one]
  linarith

/-- C88 for the pulse, started at any initial state. -/
example (V0 : ℕ → ℕ → ℕ → ℝ) :
    ∃ V, SlabSolutionOn exampleParams exampleConfig exampleMesh waveS 0 1 waveF V ∧
      (∀ l < exampleParams.Nang, ∀ k < exampleConfig.Nspace, ∀ i ≤ exampleConfig.M,
        V 0 l k i = V0 l k i) ∧
      ∀ t ∈ Icc (0 : ℝ) 1, angularSqNorm exampleParams 3 1 (exampleMesh t).edges (fun l k i =>
          V t l k i - meshProjection (exampleMesh t).edges (fun l k x => waveU l k x t) l k i) ≤
        gronwallBound
          (angularSqNorm exampleParams 3 1 (exampleMesh 0).edges fun l k i =>
            V 0 l k i - meshProjection (exampleMesh 0).edges (fun l k x => waveU l k x 0) l k i)
          (2 * (exampleParams.c - 1)) ((((3 : ℕ) : ℝ) + 1) * 2 * ((((1 : ℕ) : ℝ) + 2) * 720) ^ 2)
          (t - 0) := by
  obtain ⟨V, hV, h0⟩ := wave_exists V0
  exact ⟨V, hV, h0, fun (t : ℝ) (ht : t ∈ Icc (0 : ℝ) 1) => c88_error_bound exampleParams
    (fun _ _ => by simp [exampleParams]) exampleParams_weights (by norm_num [exampleParams])
    exampleConfig rfl example_quad (by norm_num [exampleConfig]) 0 1
    waveF waveF_finite exampleMesh (fun s hs k _ => exampleMesh_lt hs.1 k)
    (fun k _ => by simp only [exampleMesh]; fun_prop)
    (fun t _ k _ => (exampleMesh_hasDeriv t k).hasDerivWithinAt) (fun _ => 0) (fun _ => 0)
    (fun t _ => wave_inflow true t) (fun t _ => wave_inflow false t) waveQ waveU
    (wave_solution waveF) waveS (fun t _ k _ i _ => by unfold waveS; ring) V hV _ 2
    (fun t _ l hl k hk => wave_speed t l hl k hk) (fun t ht l _ k hk x hx => by
      have ht' : t ∈ Icc (0 : ℝ) 1 := ⟨ht.1.1, ht.1.2.le⟩
      obtain ⟨U, hU⟩ := wave_close t ht' l k hk
      exact projection_edge_error exampleConfig.M ((waveU_contDiff 1 l k).continuous.comp
        (continuous_id.prodMk continuous_const)) (exampleMesh_lt ht'.1 k) hU hx) t ht⟩

/-- C89 for the pulse, started at any initial state. -/
example (V0 : ℕ → ℕ → ℕ → ℝ) :
    ∃ V, SlabSolutionOn exampleParams exampleConfig exampleMesh waveS 0 1 waveF V ∧
      (∀ l < exampleParams.Nang, ∀ k < exampleConfig.Nspace, ∀ i ≤ exampleConfig.M,
        V 0 l k i = V0 l k i) ∧
      ∀ t ∈ Icc (0 : ℝ) 1, sqDistance exampleParams.Nang exampleParams.ws 3 1
        (exampleMesh t).edges (V t) (fun l k x => waveU l k x t) ≤
        sqDistance exampleParams.Nang exampleParams.ws 3 1 (exampleMesh 0).edges (V 0)
          (fun l k x => waveU l k x 0)
        + ((t - 0) * 8 * 2 * (((1 : ℕ) : ℝ) + 2) ^ 2 + 6 * 2) * (180 / (Nat.factorial 1 : ℝ)) ^ 2
          * 2 ^ (2 * 1 + 1) := by
  obtain ⟨V, hV, h0⟩ := wave_exists V0
  exact ⟨V, hV, h0, fun (t : ℝ) (ht : t ∈ Icc (0 : ℝ) 1) => c89_convergence exampleParams
    (fun _ _ => by simp [exampleParams]) exampleParams_weights (by norm_num [exampleParams])
    (by norm_num [exampleParams]) exampleConfig rfl example_quad (by norm_num [exampleConfig]) 0 1
    waveF waveF_finite exampleMesh (fun s hs k _ => exampleMesh_lt hs.1 k)
    (fun k _ => by simp only [exampleMesh]; fun_prop)
    (fun t _ k _ => (exampleMesh_hasDeriv t k).hasDerivWithinAt) (fun _ => 0) (fun _ => 0)
    (fun t _ => wave_inflow true t) (fun t _ => wave_inflow false t) waveQ waveU
    (wave_solution waveF) waveS (fun t _ k _ i _ => by unfold waveS; ring) V hV 2 180 6 8 2
    (by norm_num) (fun t _ l hl k hk => wave_speed t l hl k hk) (fun t ht k _ => wave_width ht k)
    (by norm_num [exampleConfig]) (fun t ht => by
      simp only [exampleMesh, exampleConfig]
      push_cast
      nlinarith [ht.1, ht.2])
    (fun t _ l _ k _ => ((waveU_contDiff _ l k).comp
      (contDiff_id.prodMk contDiff_const)).contDiffOn)
    (fun t ht l _ k hk x hx => wave_second t ht l k hk x hx) t ht⟩

end Verif.Props
