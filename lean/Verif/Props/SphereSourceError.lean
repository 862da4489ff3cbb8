import Verif.Props.SphereProgram
import Verif.Props.SystemRun
import Verif.Props.Numerics
import Verif.Props.SphereSuperposition
import Verif.Props.BallFluxRadius
import Verif.Model.SphereQuad

/-!
Property C124: the collision source of sphere runs with uncollided treatment.  Its moments are summed
with the Chebyshev rule of `6 M + 1` points; the answer converges, but not to the solution.
-/

namespace Verif.Props

open Set Filter Verif.Spec Verif.Model Verif.Lemmas

/-! ### The error estimate with an error of the source -/

theorem weightedMoment_add {f g : ℝ → ℝ} {a b : ℝ} (h : a < b) (hf : Continuous f) (hg : Continuous g)
    (i : ℕ) : weightedMoment (fun r => f r + g r) a b i =
      weightedMoment f a b i + weightedMoment g a b i := by
  unfold weightedMoment
  have hb := continuous_sphereBasis h i
  rw [← intervalIntegral.integral_add]
  · exact intervalIntegral.integral_congr fun r _ => by ring
  · exact Continuous.intervalIntegrable (by fun_prop) _ _
  · exact Continuous.intervalIntegrable (by fun_prop) _ _

/-- Error of the source against the error of the state. -/
theorem source_error_le (N M : ℕ) (e : ℕ → ℝ) (D : ℕ → ℕ → ℝ) (g : ℕ → ℝ → ℝ)
    (hm : ∀ k < N, e k < e (k + 1)) (hc : ∀ k < N, Continuous (g k)) :
    2 * ∑ k ∈ Finset.range N, ∑ i ∈ Finset.range (M + 1), D k i *
      weightedMoment (g k) (e k) (e (k + 1)) i ≤
      sphereSqNorm N M e D + ∑ k ∈ Finset.range N, ∫ r in (e k)..(e (k + 1)), r ^ 2 * g k r ^ 2 := by
  unfold sphereSqNorm
  rw [Finset.mul_sum, ← Finset.sum_add_distrib]
  refine Finset.sum_le_sum fun k hk => ?_
  have hk := Finset.mem_range.1 hk
  have hgk := hc k hk
  have hf := continuous_sphereField M (D k) (hm k hk)
  have e1 : ∑ i ∈ Finset.range (M + 1), D k i * weightedMoment (g k) (e k) (e (k + 1)) i =
      ∫ r in (e k)..(e (k + 1)), r ^ 2 * (g k r * sphereField M (D k) (e k) (e (k + 1)) r) := by
    simp only [weightedMoment, ← intervalIntegral.integral_const_mul]
    rw [← intervalIntegral.integral_finsetSum]
    · refine intervalIntegral.integral_congr fun r _ => ?_
      simp only [sphereField, Finset.mul_sum]
      exact Finset.sum_congr rfl fun i _ => by ring
    · intro i _
      have := continuous_sphereBasis (hm k hk) i
      exact Continuous.intervalIntegrable (by fun_prop) _ _
  rw [e1, ← intervalIntegral.integral_const_mul, ← intervalIntegral.integral_add]
  · refine intervalIntegral.integral_mono_on (hm k hk).le ?_ ?_ fun r _ => ?_
    · exact Continuous.intervalIntegrable (by fun_prop) _ _
    · exact Continuous.intervalIntegrable (by fun_prop) _ _
    · nlinarith [mul_nonneg (sq_nonneg r)
        (sq_nonneg (sphereField M (D k) (e k) (e (k + 1)) r - g k r))]
  · exact Continuous.intervalIntegrable (by fun_prop) _ _
  · exact Continuous.intervalIntegrable (by fun_prop) _ _

/-- As `c107_sphere_error_bound`, for a source whose moments are those of `q + f` while `u` is the
solution for `q`: the square integral `E` of `f` enters the bound. -/
theorem sphere_error_bound_source (M : ℕ) (hM : M ≤ 10) : ∃ C : ℝ, 1 ≤ C ∧
    ∀ (p : RhsParams) (c : FluxConfig) (mesh : ℝ → MeshView) (mats : ℝ → ℕ → CellMats)
      (S : ℝ → ℕ → ℕ → ℝ) (a b d h κ A R W δ E : ℝ) (F : Set ℝ) (q f : ℕ → ℝ → ℝ → ℝ)
      (u : ℕ → ℕ → ℝ → ℝ → ℝ) (P V : ℝ → ℕ → ℕ → ℕ → ℝ),
      DirectionSet p.Nang p.mus →
      ∑ l ∈ Finset.range p.Nang, p.ws l ^ 2 / (angularWidth p.Nang p.mus l / 2) ≤ κ →
      0 < p.c → c.geometry = .sphere → c.M = M → 2 ≤ c.Nspace → F.Finite →
      SphereMeshOn c mesh mats a b F →
      (∀ t ∈ Ico a b \ F, ¬ BoundaryActive c false t) →
      SphereSolution p.Nang p.mus p.ws p.c c.Nspace (fun t => (mesh t).edges)
        (fun t => (mesh t).Dedges) q a b F u →
      (∀ t ∈ Ico a b \ F, ∀ k < c.Nspace, ∀ i ≤ c.M, 1 / 2 * S t k i * p.c =
        weightedMoment (fun r => q k r t + f k r t) ((mesh t).edges k) ((mesh t).edges (k + 1)) i) →
      (∀ t, ∀ k < c.Nspace, Continuous fun r => q k r t) →
      (∀ t, ∀ k < c.Nspace, Continuous fun r => f k r t) →
      (∀ t ∈ Ico a b \ F, ∑ k ∈ Finset.range c.Nspace,
        ∫ r in ((mesh t).edges k)..((mesh t).edges (k + 1)), r ^ 2 * f k r t ^ 2 ≤ E) →
      (∀ t ∈ Icc a b, ∀ l < p.Nang, ∀ k < c.Nspace, IsSphereProjection c.M (fun r => u l k r t)
        ((mesh t).edges k) ((mesh t).edges (k + 1)) (P t l k)) →
      0 ≤ d → (∀ l < p.Nang, angularMid p.Nang p.mus l - p.mus l ≤ d) →
      0 < W → (∀ l < p.Nang, W ≤ angularWidth p.Nang p.mus l) →
      0 < h → (∀ s ∈ Icc a b, h ≤ (mesh s).edges 1 ∧ (mesh s).edges c.Nspace ≤ R) →
      (∀ t ∈ Ico a b \ F, ∀ l < p.Nang, ∀ k ≤ c.Nspace, |p.mus l - (mesh t).Dedges k| ≤ A) →
      (∀ t ∈ Ico a b \ F, ∀ l < p.Nang, ∀ k < c.Nspace,
        ∀ r ∈ Icc ((mesh t).edges k) ((mesh t).edges (k + 1)),
        |sphereField c.M (P t l k) ((mesh t).edges k) ((mesh t).edges (k + 1)) r - u l k r t| ≤ δ) →
      SphereSolutionOn p c mesh mats S a b F V →
      ∀ t ∈ Icc a b,
        sphereAngularSq (cellParams p) c.Nspace c.M (mesh t).edges (fun l k i => V t l k i - P t l k i) ≤
          gronwallBound
            (sphereAngularSq (cellParams p) c.Nspace c.M (mesh a).edges (fun l k i => V a l k i - P a l k i))
            (p.c * (1 + κ) + 2 * d * C / h)
            ((c.Nspace + 1) * (A * R ^ 2 * δ ^ 2) + R * (2 * δ / W) ^ 2 + E) (t - a) := by
  obtain ⟨C, hC, hmom⟩ := moment_le M
  refine ⟨C, hC, ?_⟩
  intro p c mesh mats S a b d h κ A R W δ E F q f u P V hd hκ hc0 hg hcM hN hF hmesh hoff hu hS hqc hfc hE hP hd0
    hmid
    hW hW1 hh hhR hA hδ hV t ht
  subst hcM
  have hc : 0 ≤ p.c := hc0.le
  set S' : ℝ → ℕ → ℕ → ℝ := fun x k i => 2 / p.c *
    weightedMoment (fun r => q k r x) ((mesh x).edges k) ((mesh x).edges (k + 1)) i with hS'
  have hS1 : ∀ x k i, 1 / 2 * S' x k i * p.c =
      weightedMoment (fun r => q k r x) ((mesh x).edges k) ((mesh x).edges (k + 1)) i := by
    intro x k i
    simp only [hS']
    field_simp
  obtain ⟨hp, hw1⟩ := cell_weights (p := cellParams p) hd fun _ _ => rfl
  set D : ℝ → ℕ → ℕ → ℕ → ℝ := fun s l k i => V s l k i - P s l k i with hD
  set fs : FluxState := ⟨0, 0, 0, 0, 0, 0, 0, 0, 0, fun _ => 0⟩
  have hcontP : ∀ l < p.Nang, ∀ k < c.Nspace, ∀ i ≤ c.M, ContinuousOn (fun s => P s l k i) (Icc a b) :=
    fun l hl k hk i hi => continuousOn_sphere_projection (hu.smooth l hl k hk).continuous
      (hmesh.cont k hk.le) (hmesh.cont (k + 1) hk) (fun s hs => hmesh.ordered s hs k hk)
      (fun s hs => hP s hs l hl k hk) hi
  have hcont : ContinuousOn (fun s => sphereAngularSq (cellParams p) c.Nspace c.M (mesh s).edges (D s))
      (Icc a b) := by
    unfold sphereAngularSq angularSum
    refine continuousOn_finsetSum _ fun l hl => continuousOn_const.mul ?_
    have hl := Finset.mem_range.1 hl
    exact continuousOn_sphereSqNorm hmesh.cont hmesh.ordered
      fun k hk i hi => (hV.1 l hl k hk i hi).sub (hcontP l hl k hk i hi)
  choose! Rv hRv hRvd using fun x hx => hV.2 x hx fs
  -- rate of the projection
  have hPd : ∀ x ∈ Ico a b \ F, ∀ l < p.Nang, ∀ k < c.Nspace, ∃ R' : ℕ → ℝ,
      (∀ i ≤ c.M, HasDerivWithinAt (fun s => P s l k i) (R' i) (Ici x) x) ∧
      ∀ i ≤ c.M, matVec c.M (mats x k).Mass R' i =
        sphereWeak p c x (mesh x) (mats x k) (S' x) fs (P x) l k i
        + p.c * matVec c.M (mats x k).Mass (scalarCoef p (P x) k) i
        - matVec c.M (mats x k).Mass (P x l k) i
        + (sphereBasis i ((mesh x).edges (k + 1)) ((mesh x).edges k) ((mesh x).edges (k + 1)) *
            ((mesh x).edges (k + 1) ^ 2 * sphereDefect c x (mesh x) (P x l) (fun k r => u l k r x)
              (p.mus l) (fun k => P x (reflIndex p.Nang l k) 0) (k + 1))
          - sphereBasis i ((mesh x).edges k) ((mesh x).edges k) ((mesh x).edges (k + 1)) *
            ((mesh x).edges k ^ 2 * sphereDefect c x (mesh x) (P x l) (fun k r => u l k r x)
              (p.mus l) (fun k => P x (reflIndex p.Nang l k) 0) k))
        - ∫ r in ((mesh x).edges k)..((mesh x).edges (k + 1)),
            r * angularDifference p.Nang p.mus (fun l => u l k r x -
              sphereField c.M (P x l k) ((mesh x).edges k) ((mesh x).edges (k + 1)) r) l *
              sphereBasis i r ((mesh x).edges k) ((mesh x).edges (k + 1)) := by
    intro x hx l hl k hk
    have hx' : x ∈ Icc a b := ⟨hx.1.1, hx.1.2.le⟩
    have hev : ∀ᶠ τ in nhdsWithin x (Ici x), IsSphereProjection c.M (fun r => u l k r τ)
        ((mesh τ).edges k) ((mesh τ).edges (k + 1)) (P τ l k) := by
      have h1 : ∀ᶠ τ in nhdsWithin x (Ici x), τ < b :=
        nhdsWithin_le_nhds (Iio_mem_nhds hx.1.2)
      filter_upwards [h1, self_mem_nhdsWithin] with τ h2 h3
      exact hP τ ⟨hx.1.1.trans h3, h2.le⟩ l hl k hk
    obtain ⟨R', hR'd, hR'⟩ := sphere_projection_rate (hu.smooth l hl k hk)
      (hmesh.velocity x hx k hk.le) (hmesh.velocity x hx (k + 1) hk) (hmesh.ordered x hx' k hk) hev
      (p.mus l)
    exact ⟨R', hR'd, sphere_projection_equation p hd.two c hg hM a b F mesh q u hu x hx l hl k hk
      (hmesh.ordered x hx') (mats x k) (hmesh.mats x hx k hk) (S' x) (fun i _ => hS1 x k i) (P x)
      (fun l hl => hP x hx' l hl k hk) R' hR' fs⟩
  choose! Rp hRpd hRp using hPd
  set ρ : ℝ → ℕ → ℕ → ℝ := fun x l => sphereDefect c x (mesh x) (P x l) (fun k r => u l k r x)
              (p.mus l) (fun k => P x (reflIndex p.Nang l k) 0) with hρ
  set g : ℝ → ℕ → ℕ → ℝ → ℝ := fun x l k r => angularDifference p.Nang p.mus (fun l => u l k r x -
    sphereField c.M (P x l k) ((mesh x).edges k) ((mesh x).edges (k + 1)) r) l with hgdef
  set Q : ℝ → ℕ → ℕ → ℕ → ℝ := fun x l k i =>
    (-(sphereBasis i ((mesh x).edges (k + 1)) ((mesh x).edges k) ((mesh x).edges (k + 1)) *
        ((mesh x).edges (k + 1) ^ 2 * ρ x l (k + 1)))
      + sphereBasis i ((mesh x).edges k) ((mesh x).edges k) ((mesh x).edges (k + 1)) *
        ((mesh x).edges k ^ 2 * ρ x l k))
    + weightedMoment (fun r => f k r x) ((mesh x).edges k) ((mesh x).edges (k + 1)) i
    + ∫ r in ((mesh x).edges k)..((mesh x).edges (k + 1)), r * g x l k r *
        sphereBasis i r ((mesh x).edges k) ((mesh x).edges (k + 1)) with hQ
  have hmass : ∀ x ∈ Ico a b \ F, ∀ l < p.Nang, ∀ k < c.Nspace, ∀ i ≤ c.M,
      matVec c.M (mats x k).Mass (fun i => Rv x l k i - Rp x l k i) i =
        sphereWeak p (vacuumConfig c) x (mesh x) (mats x k) (fun _ _ => 0) fs (D x) l k i
          + p.c * matVec c.M (mats x k).Mass (scalarCoef p (D x) k) i
          - matVec c.M (mats x k).Mass (D x l k) i + Q x l k i := by
    intro x hx l hl k hk i hi
    have hx' : x ∈ Icc a b := ⟨hx.1.1, hx.1.2.le⟩
    have ecg : ∀ (Q T : ℕ → ℝ), (∀ j ≤ c.M, Q j = T j) →
        matVec c.M (mats x k).Mass Q i = matVec c.M (mats x k).Mass T i := by
      intro Q T h
      unfold matVec
      exact Finset.sum_congr rfl fun j hj => by rw [h j (by simpa [Nat.lt_succ_iff] using hj)]
    have e1 := mass_sphereRhs p c x (mesh x) (mats x) (S x) fs (V x) l k (hmesh.mats x hx k hk) hi
    have e2 := hRp x hx l hl k hk i hi
    rw [c_mass_activePV] at e1
    have e0 := sphereWeak_sub p c hg x (mesh x) (hmesh.centre x hx') (hmesh.ordered x hx') (mats x k)
      (S x) (S' x) fs fs fs (V x) (P x) l k i hk hi
    have e00 : sphereWeak p (vacuumConfig c) x (mesh x) (mats x k) (fun k i => S x k i - S' x k i) fs
        (fun l k i => V x l k i - P x l k i) l k i =
        sphereWeak p (vacuumConfig c) x (mesh x) (mats x k) (fun _ _ => 0) fs
          (fun l k i => V x l k i - P x l k i) l k i
        + weightedMoment (fun r => f k r x) ((mesh x).edges k) ((mesh x).edges (k + 1)) i := by
      have h1 := hS x hx k hk i hi
      have h2 := hS1 x k i
      rw [weightedMoment_add (hmesh.ordered x hx' k hk) (hqc x k hk) (hfc x k hk)] at h1
      unfold sphereWeak
      linear_combination h1 - h2
    rw [e00] at e0
    have e3 : scalarCoef p (D x) k = fun j => scalarCoef p (V x) k j - scalarCoef p (P x) k j := by
      funext j
      unfold scalarCoef angularSum
      rw [← Finset.sum_sub_distrib]
      exact Finset.sum_congr rfl fun _ _ => by simp only [hD]; ring
    have e4 : D x l k = fun j => V x l k j - P x l k j := rfl
    have e6 : (fun l k i => V x l k i - P x l k i) = D x := rfl
    rw [e6] at e0
    rw [matVec_sub, ecg _ _ fun j hj => activeCall_sphere hg (hRv x hx) hl hk hj, e1, e2,
      e3, e4, matVec_sub, matVec_sub]
    simp only [hQ]
    linear_combination e0
  have hder := fun x (hx : x ∈ Ico a b \ F) => sphere_residual_rate_le hC c hmom p hd hκ hc hg
    hM x mesh (hmesh.centre x ⟨hx.1.1, hx.1.2.le⟩) (hmesh.ordered x ⟨hx.1.1, hx.1.2.le⟩)
    (hmesh.velocity x hx) (mats x) (hmesh.mats x hx) fs D _ (Q x)
    (fun l hl k hk i hi => (hRvd x hx l hl k hk i hi).sub (hRpd x hx l hl k hk i hi)) (hmass x hx)
    hd0 hmid hh (hhR x ⟨hx.1.1, hx.1.2.le⟩).1
  choose! Z hZ hZle using hder
  refine gronwall_except hF _ Z (p.c * (1 + κ) + 2 * d * C / h)
    ((c.Nspace + 1) * (A * R ^ 2 * δ ^ 2) + R * (2 * δ / W) ^ 2 + E) a b _ hcont hZ le_rfl
    (fun x hx => ?_) t ht
  have hx' : x ∈ Icc a b := ⟨hx.1.1, hx.1.2.le⟩
  have ho := hmesh.ordered x hx'
  have h0 := hmesh.centre x hx'
  have hpos := hd.two
  have hδ0 : 0 ≤ δ := (abs_nonneg _).trans
    (hδ x hx 0 (by omega) 0 (by omega) _ (left_mem_Icc.2 (ho 0 (by omega)).le))
  have h2 := hZle x hx
  -- residual of one direction
  have h4 : ∀ l < p.Nang, 2 * ∑ k ∈ Finset.range c.Nspace, ∑ i ∈ Finset.range (c.M + 1),
      D x l k i * Q x l k i ≤
      ∑ k ∈ Finset.range (c.Nspace + 1), (mesh x).edges k ^ 2 * (|p.mus l - (mesh x).Dedges k| *
          sphereJump c.Nspace c.M (mesh x).edges (D x l) k ^ 2)
        + (sphereSqNorm c.Nspace c.M (mesh x).edges (D x l)
          + sphereSqNorm c.Nspace c.M (mesh x).edges (D x l))
        + ((c.Nspace + 1) * (A * R ^ 2 * δ ^ 2) + R * (2 * δ / W) ^ 2 + E) := by
    intro l hl
    have hdl := defect_jump_le c.Nspace c.M (mesh x).edges (mesh x).Dedges (D x l) (ρ x l) (p.mus l)
      A R δ h0 (fun j hj => ⟨by rw [← h0]; exact edges_mono ho (Nat.zero_le j) hj,
        (edges_mono ho hj le_rfl).trans (hhR x hx').2⟩) (hA x hx l hl)
      (fun j hj hj0 => sphereDefect_le c hg x (mesh x) (P x l) (fun k r => u l k r x) (p.mus l) δ _
        hδ0 (fun k hk => hu.continuousFlux x hx l hl k hk)
        (fun hv => by
          have h5 := hu.vacuum x hx l hl hv
          have h6 : isBoundarySourceOn c (c.Nspace - 1) x = false := by
            rw [← Bool.not_eq_true, isBoundarySourceOn_right c x hN]; exact hoff x hx
          unfold rightOuter
          rw [if_neg (by omega), h6]
          simpa using h5.symm)
        (fun k hk => hδ x hx l hl k hk _ (left_mem_Icc.2 (ho k hk).le))
        (fun k hk => hδ x hx l hl k hk _ (right_mem_Icc.2 (ho k hk).le)) j hj hj0)
    have hgl := redistribution_error_le c.Nspace c.M (mesh x).edges (D x l) (g x l) R (2 * δ / W)
      h0 (hhR x hx').2 ho
      (fun k hk => by
        simp only [hgdef]
        refine continuous_angularDifference (f := fun l r => u l k r x -
          sphereField c.M (P x l k) ((mesh x).edges k) ((mesh x).edges (k + 1)) r)
          (fun l' hl' => ?_) hl
        have h5 : Continuous fun r => u l' k r x :=
          (hu.smooth l' hl' k hk).continuous.comp (continuous_id.prodMk continuous_const)
        exact h5.sub (continuous_sphereField c.M (P x l' k) (ho k hk)))
      (fun k hk r hr => by
        refine (angularDifference_le hd (δ := δ) (fun l' hl' => ?_) hl).trans ?_
        · rw [abs_sub_comm]
          exact hδ x hx l' hl' k hk r hr
        · exact div_le_div_of_nonneg_left (by linarith) hW (hW1 l hl))
    have hfl := source_error_le c.Nspace c.M (mesh x).edges (D x l) (fun k r => f k r x) ho
      (fun k hk => hfc x k hk)
    have hEx := hE x hx
    have hform := sphere_defect_form c.Nspace c.M (mesh x).edges (D x l)
      (fun j => (mesh x).edges j ^ 2 * ρ x l j)
    have hsplit : ∑ k ∈ Finset.range c.Nspace, ∑ i ∈ Finset.range (c.M + 1),
        D x l k i * Q x l k i =
        ∑ j ∈ Finset.range (c.Nspace + 1), (mesh x).edges j ^ 2 * ρ x l j *
          sphereJump c.Nspace c.M (mesh x).edges (D x l) j
        + ∑ k ∈ Finset.range c.Nspace, ∑ i ∈ Finset.range (c.M + 1), D x l k i *
          (∫ r in ((mesh x).edges k)..((mesh x).edges (k + 1)), r * g x l k r *
            sphereBasis i r ((mesh x).edges k) ((mesh x).edges (k + 1)))
        + ∑ k ∈ Finset.range c.Nspace, ∑ i ∈ Finset.range (c.M + 1), D x l k i *
          weightedMoment (fun r => f k r x) ((mesh x).edges k) ((mesh x).edges (k + 1)) i := by
      rw [← hform, ← Finset.sum_add_distrib, ← Finset.sum_add_distrib]
      refine Finset.sum_congr rfl fun k _ => ?_
      rw [← Finset.sum_add_distrib, ← Finset.sum_add_distrib]
      exact Finset.sum_congr rfl fun i _ => by simp only [hQ]; ring
    rw [hsplit]
    linarith
  have h5 : 2 * angularSum p.Nang (cellParams p).ws (fun l => ∑ k ∈ Finset.range c.Nspace,
      ∑ i ∈ Finset.range (c.M + 1), D x l k i * Q x l k i) ≤
      angularSum p.Nang (cellParams p).ws (fun l => ∑ k ∈ Finset.range (c.Nspace + 1),
        (mesh x).edges k ^ 2 * (|p.mus l - (mesh x).Dedges k| *
          sphereJump c.Nspace c.M (mesh x).edges (D x l) k ^ 2))
      + (sphereAngularSq (cellParams p) c.Nspace c.M (mesh x).edges (D x)
        + sphereAngularSq (cellParams p) c.Nspace c.M (mesh x).edges (D x))
      + ((c.Nspace + 1) * (A * R ^ 2 * δ ^ 2) + R * (2 * δ / W) ^ 2 + E) := by
    have h6 : ∑ l ∈ Finset.range p.Nang, (cellParams p).ws l * (2 * ∑ k ∈ Finset.range c.Nspace,
        ∑ i ∈ Finset.range (c.M + 1), D x l k i * Q x l k i) ≤ _ :=
      Finset.sum_le_sum fun l hl => mul_le_mul_of_nonneg_left (h4 l (Finset.mem_range.1 hl))
        (hp l (Finset.mem_range.1 hl)).le
    simp only [mul_add, Finset.sum_add_distrib] at h6
    have hw2 : ∑ l ∈ Finset.range p.Nang, (cellParams p).ws l = 1 := hw1
    rw [← Finset.sum_mul, ← Finset.sum_mul, ← Finset.sum_mul, hw2] at h6
    unfold sphereAngularSq angularSum
    have eN : (cellParams p).Nang = p.Nang := rfl
    rw [eN, Finset.mul_sum]
    refine le_trans (le_of_eq (Finset.sum_congr rfl fun l _ => by ring)) (h6.trans_eq ?_)
    ring
  linarith

/-- Distance form: if on every shell some polynomial of degree at most `M` is within `ε` of the
solution, the discrete solution stays within the Gronwall bound of the solution.  `K` and `C` depend
only on `M`; the other constants are those of `sphere_error_bound_source`. -/
theorem sphere_distance_bound_source (M : ℕ) (hM : M ≤ 10) : ∃ C K : ℝ, 1 ≤ C ∧ 1 ≤ K ∧
    ∀ (p : RhsParams) (c : FluxConfig) (mesh : ℝ → MeshView) (mats : ℝ → ℕ → CellMats)
      (S : ℝ → ℕ → ℕ → ℝ) (a b d h κ A R W ε E : ℝ) (F : Set ℝ) (q f : ℕ → ℝ → ℝ → ℝ)
      (u : ℕ → ℕ → ℝ → ℝ → ℝ) (V : ℝ → ℕ → ℕ → ℕ → ℝ),
      DirectionSet p.Nang p.mus →
      ∑ l ∈ Finset.range p.Nang, p.ws l ^ 2 / (angularWidth p.Nang p.mus l / 2) ≤ κ →
      0 < p.c → c.geometry = .sphere → c.M = M → 2 ≤ c.Nspace → F.Finite →
      SphereMeshOn c mesh mats a b F →
      (∀ t ∈ Ico a b \ F, ¬ BoundaryActive c false t) →
      SphereSolution p.Nang p.mus p.ws p.c c.Nspace (fun t => (mesh t).edges)
        (fun t => (mesh t).Dedges) q a b F u →
      (∀ t ∈ Ico a b \ F, ∀ k < c.Nspace, ∀ i ≤ c.M, 1 / 2 * S t k i * p.c =
        weightedMoment (fun r => q k r t + f k r t) ((mesh t).edges k) ((mesh t).edges (k + 1)) i) →
      (∀ t, ∀ k < c.Nspace, Continuous fun r => q k r t) →
      (∀ t, ∀ k < c.Nspace, Continuous fun r => f k r t) →
      (∀ t ∈ Ico a b \ F, ∑ k ∈ Finset.range c.Nspace,
        ∫ r in ((mesh t).edges k)..((mesh t).edges (k + 1)), r ^ 2 * f k r t ^ 2 ≤ E) →
      0 ≤ d → (∀ l < p.Nang, angularMid p.Nang p.mus l - p.mus l ≤ d) →
      0 < W → (∀ l < p.Nang, W ≤ angularWidth p.Nang p.mus l) →
      0 < h → (∀ s ∈ Icc a b, h ≤ (mesh s).edges 1 ∧ (mesh s).edges c.Nspace ≤ R) →
      (∀ t ∈ Ico a b \ F, ∀ l < p.Nang, ∀ k ≤ c.Nspace, |p.mus l - (mesh t).Dedges k| ≤ A) →
      (∀ t ∈ Icc a b, ∀ l < p.Nang, ∀ k < c.Nspace, ∃ U : ℕ → ℝ,
        ∀ r ∈ Icc ((mesh t).edges k) ((mesh t).edges (k + 1)),
        |sphereField c.M U ((mesh t).edges k) ((mesh t).edges (k + 1)) r - u l k r t| ≤ ε) →
      SphereSolutionOn p c mesh mats S a b F V →
      ∀ t ∈ Icc a b,
        sphereSqDistance p.Nang (fun l => angularWidth p.Nang p.mus l / 2) c.Nspace c.M (mesh t).edges
            (V t) (fun l k r => u l k r t) ≤
          gronwallBound
            (sphereSqDistance p.Nang (fun l => angularWidth p.Nang p.mus l / 2) c.Nspace c.M
              (mesh a).edges (V a) (fun l k r => u l k r a))
            (p.c * (1 + κ) + 2 * d * C / h)
            ((c.Nspace + 1) * (A * R ^ 2 * (K * ε) ^ 2) + R * (2 * (K * ε) / W) ^ 2 + E) (t - a)
          + R ^ 3 * (K * ε) ^ 2 := by
  obtain ⟨C, hC, hb⟩ := sphere_error_bound_source M hM
  obtain ⟨K, hK, hsup⟩ := sphere_projection_sup M
  refine ⟨C, K, hC, hK, ?_⟩
  intro p c mesh mats S a b d h κ A R W ε E F q f u V hd hκ hc hg hcM hN hF hmesh hoff hu hS hqc hfc hE hd0 hmid
    hW hW1 hh hhR hA hε hV t ht
  subst hcM
  have ha : a ∈ Icc a b := ⟨le_rfl, ht.1.trans ht.2⟩
  have hcu : ∀ s, ∀ l < p.Nang, ∀ k < c.Nspace, Continuous fun x => u l k x s :=
    fun s l hl k hk => (hu.smooth l hl k hk).continuous.comp (continuous_id.prodMk continuous_const)
  have hex : ∀ s l k, ∃ P : ℕ → ℝ, s ∈ Icc a b → l < p.Nang → k < c.Nspace →
      IsSphereProjection c.M (fun r => u l k r s) ((mesh s).edges k) ((mesh s).edges (k + 1)) P := by
    intro s l k
    by_cases hc : s ∈ Icc a b ∧ l < p.Nang ∧ k < c.Nspace
    · obtain ⟨P, hP⟩ := exists_sphere_projection c.M (hcu s l hc.2.1 k hc.2.2)
        (hmesh.ordered s hc.1 k hc.2.2)
      exact ⟨P, fun _ _ _ => hP⟩
    · exact ⟨fun _ => 0, fun h1 h2 h3 => absurd ⟨h1, h2, h3⟩ hc⟩
  choose P hP using hex
  have hδ : ∀ s ∈ Icc a b, ∀ l < p.Nang, ∀ k < c.Nspace,
      ∀ r ∈ Icc ((mesh s).edges k) ((mesh s).edges (k + 1)),
      |sphereField c.M (P s l k) ((mesh s).edges k) ((mesh s).edges (k + 1)) r - u l k r s| ≤
        K * ε := by
    intro s hs l hl k hk
    obtain ⟨U, hU⟩ := hε s hs l hl k hk
    refine hsup _ (hcu s l hl k hk) _ _ ε ?_ (hmesh.ordered s hs k hk) _ (hP s l k hs hl hk) U hU
    rw [← hmesh.centre s hs]
    exact edges_mono (hmesh.ordered s hs) (Nat.zero_le k) hk.le
  have hbound := hb p c mesh mats S a b d h κ A R W (K * ε) E F q f u P V hd hκ hc hg rfl hN hF hmesh hoff
    hu hS hqc hfc hE (fun s hs l hl k hk => hP s l k hs hl hk) hd0 hmid hW hW1 hh hhR hA
    (fun s hs => hδ s ⟨hs.1.1, hs.1.2.le⟩) hV t ht
  obtain ⟨hp, hw1⟩ := cell_weights (p := cellParams p) hd fun _ _ => rfl
  have hproj := sphereSqDistance_le (fun l hl => (hp l hl).le) hw1 c.Nspace c.M (hmesh.centre t ht)
    (hhR t ht).2 (hmesh.ordered t ht) (P t) (fun l k r => u l k r t) (hcu t) (hδ t ht)
  have eq := fun s (hs : s ∈ Icc a b) => sphereSqDistance_eq (cellParams p) c.Nspace c.M
    (mesh s).edges (V s) (P s) (fun l k r => u l k r s) (hmesh.ordered s hs) (hcu s)
    (fun l hl k hk => hP s l k hs hl hk)
  have hinit : sphereAngularSq (cellParams p) c.Nspace c.M (mesh a).edges
      (fun l k i => V a l k i - P a l k i) ≤
      sphereSqDistance p.Nang (cellParams p).ws c.Nspace c.M
              (mesh a).edges (V a) (fun l k r => u l k r a) := by
    have h1 := eq a ha
    have h2 := sphereSqDistance_nonneg (n := p.Nang) (fun l hl => (hp l hl).le) c.Nspace c.M
      (hmesh.ordered a ha) (P a) (fun l k r => u l k r a)
    have eN : (cellParams p).Nang = p.Nang := rfl
    rw [eN] at h1
    linarith
  refine (eq t ht).trans_le ?_
  exact add_le_add (hbound.trans (gronwallBound_mono' _ _ hinit _)) hproj

/-- With directions at or right of the middle of their angular cells and an error of the source with
square integral `E`: the squared distance is of order `h^(2M+1)` up to `E` times the time. -/
theorem sphere_convergence_source (M : ℕ) (hM : M ≤ 10) : ∃ K : ℝ, 1 ≤ K ∧
    ∀ (p : RhsParams) (c : FluxConfig) (mesh : ℝ → MeshView) (mats : ℝ → ℕ → CellMats)
      (S : ℝ → ℕ → ℕ → ℝ) (a b h κ A B R W L E : ℝ) (F : Set ℝ) (q f : ℕ → ℝ → ℝ → ℝ)
      (u : ℕ → ℕ → ℝ → ℝ → ℝ) (V : ℝ → ℕ → ℕ → ℕ → ℝ),
      DirectionSet p.Nang p.mus →
      ∑ l ∈ Finset.range p.Nang, p.ws l ^ 2 / (angularWidth p.Nang p.mus l / 2) ≤ κ →
      0 < p.c → c.geometry = .sphere → c.M = M → 2 ≤ c.Nspace → F.Finite →
      SphereMeshOn c mesh mats a b F →
      (∀ t ∈ Ico a b \ F, ¬ BoundaryActive c false t) →
      SphereSolution p.Nang p.mus p.ws p.c c.Nspace (fun t => (mesh t).edges)
        (fun t => (mesh t).Dedges) q a b F u →
      (∀ t ∈ Ico a b \ F, ∀ k < c.Nspace, ∀ i ≤ c.M, 1 / 2 * S t k i * p.c =
        weightedMoment (fun r => q k r t + f k r t) ((mesh t).edges k) ((mesh t).edges (k + 1)) i) →
      (∀ t, ∀ k < c.Nspace, Continuous fun r => q k r t) →
      (∀ t, ∀ k < c.Nspace, Continuous fun r => f k r t) →
      (∀ t ∈ Ico a b \ F, ∑ k ∈ Finset.range c.Nspace,
        ∫ r in ((mesh t).edges k)..((mesh t).edges (k + 1)), r ^ 2 * f k r t ^ 2 ≤ E) → 0 ≤ E →
      (∀ l < p.Nang, angularMid p.Nang p.mus l ≤ p.mus l) →
      0 < W → (∀ l < p.Nang, W ≤ angularWidth p.Nang p.mus l) →
      (∀ t ∈ Icc a b, (mesh t).edges c.Nspace ≤ R) →
      (∀ t ∈ Icc a b, ∀ k < c.Nspace, (mesh t).edges (k + 1) - (mesh t).edges k ≤ h) →
      ((c.Nspace : ℝ) + 1) * h ≤ L → 0 ≤ A →
      (∀ t ∈ Ico a b \ F, ∀ l < p.Nang, ∀ k ≤ c.Nspace, |p.mus l - (mesh t).Dedges k| ≤ A) →
      (∀ t ∈ Icc a b, ∀ l < p.Nang, ∀ k < c.Nspace, ContDiffOn ℝ (c.M + 1)
        (fun r => u l k r t) (Icc ((mesh t).edges k) ((mesh t).edges (k + 1)))) →
      (∀ t ∈ Icc a b, ∀ l < p.Nang, ∀ k < c.Nspace,
        ∀ r ∈ Icc ((mesh t).edges k) ((mesh t).edges (k + 1)),
        |iteratedDerivWithin (c.M + 1) (fun r => u l k r t)
          (Icc ((mesh t).edges k) ((mesh t).edges (k + 1))) r| ≤ B) →
      SphereSolutionOn p c mesh mats S a b F V →
      ∀ t ∈ Icc a b,
        sphereSqDistance p.Nang (fun l => angularWidth p.Nang p.mus l / 2) c.Nspace c.M (mesh t).edges
            (V t) (fun l k r => u l k r t) ≤
          (sphereSqDistance p.Nang (fun l => angularWidth p.Nang p.mus l / 2) c.Nspace c.M
              (mesh a).edges (V a) (fun l k r => u l k r a)
            + ((t - a) * (L * A * R ^ 2 + R * (2 / W) ^ 2 * h) + R ^ 3 * h)
              * (K * B) ^ 2 * h ^ (2 * c.M + 1) + (t - a) * E)
          * Real.exp (max (p.c * (1 + κ)) 0 * (t - a)) := by
  obtain ⟨C, K, hC, hK, hb⟩ := sphere_distance_bound_source M hM
  refine ⟨K, hK, ?_⟩
  intro p c mesh mats S a b h κ A B R W L E F q f u V hd hκ hc hg hcM hN hF hmesh hoff hu hS hqc hfc hE hE0 hmid
    hW hW1 hR hh hL hA0 hA hsm hB hV t ht
  subst hcM
  have hab : a ≤ b := ht.1.trans ht.2
  have ha : a ∈ Icc a b := ⟨le_rfl, hab⟩
  obtain ⟨x, hx, hmin⟩ := isCompact_Icc.exists_isMinOn (nonempty_Icc.2 hab)
    (hmesh.cont 1 (by omega))
  have hx1 : 0 < (mesh x).edges 1 := by
    have := hmesh.ordered x hx 0 (by omega)
    rwa [hmesh.centre x hx, zero_add] at this
  have hh0 : 0 ≤ h := by
    have h1 := hh a ha 0 (by omega)
    have h2 := hmesh.ordered a ha 0 (by omega)
    linarith
  have hR0 : 0 ≤ R := by
    have h1 := edges_mono (hmesh.ordered a ha) (Nat.zero_le c.Nspace) le_rfl
    rw [hmesh.centre a ha] at h1
    exact h1.trans (hR a ha)
  have hB0 : 0 ≤ B := by
    have := hd.two
    exact (abs_nonneg _).trans (hB a ha 0 (by omega) 0 (by omega) _
      (left_mem_Icc.2 (hmesh.ordered a ha 0 (by omega)).le))
  set ε := B * h ^ (c.M + 1) with hε
  have hclose : ∀ s ∈ Icc a b, ∀ l < p.Nang, ∀ k < c.Nspace, ∃ U : ℕ → ℝ,
      ∀ r ∈ Icc ((mesh s).edges k) ((mesh s).edges (k + 1)),
      |sphereField c.M U ((mesh s).edges k) ((mesh s).edges (k + 1)) r - u l k r s| ≤ ε := by
    intro s hs l hl k hk
    have hlt := hmesh.ordered s hs k hk
    obtain ⟨U, hU⟩ := exists_close_sphere_field c.M hlt (hsm s hs l hl k hk) (hB s hs l hl k hk)
    refine ⟨U, fun x hx => (hU x hx).trans ?_⟩
    have h1 := hh s hs k hk
    have h2 : 0 ≤ (mesh s).edges (k + 1) - (mesh s).edges k := by linarith
    have h3 : (1 : ℝ) ≤ (c.M.factorial : ℝ) := by exact_mod_cast c.M.factorial_pos
    refine (div_le_self (by positivity) h3).trans ?_
    rw [hε]
    gcongr
  have hbound := hb p c mesh mats S a b 0 ((mesh x).edges 1) κ A R W ε E F q f u V hd hκ hc hg rfl hN hF
    hmesh hoff hu hS hqc hfc hE le_rfl (fun l hl => by linarith [hmid l hl]) hW hW1 hx1
    (fun s hs => ⟨hmin hs, hR s hs⟩) hA hclose hV t ht
  have e0 : p.c * (1 + κ) + 2 * 0 * C / (mesh x).edges 1 = p.c * (1 + κ) := by ring
  rw [e0] at hbound
  obtain ⟨hp, -⟩ := cell_weights (p := cellParams p) hd fun _ _ => rfl
  have hnn : 0 ≤ sphereSqDistance p.Nang (fun l => angularWidth p.Nang p.mus l / 2) c.Nspace c.M
      (mesh a).edges (V a) (fun l k r => u l k r a) :=
    sphereSqDistance_nonneg (fun l hl => (hp l hl).le) c.Nspace c.M (hmesh.ordered a ha) _ _
  have hta : 0 ≤ t - a := by linarith [ht.1]
  have hg1 := gronwallBound_le_exp (K := p.c * (1 + κ)) hnn
    (show 0 ≤ ((c.Nspace : ℝ) + 1) * (A * R ^ 2 * (K * ε) ^ 2) + R * (2 * (K * ε) / W) ^ 2 + E by
      positivity) hta
  refine hbound.trans ((add_le_add hg1 le_rfl).trans ?_)
  set X := Real.exp (max (p.c * (1 + κ)) 0 * (t - a)) with hX
  have hX1 : 1 ≤ X := Real.one_le_exp (mul_nonneg (le_max_right _ _) hta)
  set G := (K * B) ^ 2 * h ^ (2 * c.M + 1) with hG
  have hG0 : 0 ≤ G := by positivity
  have eG : (K * ε) ^ 2 = G * h := by rw [hε, hG]; ring
  have h1 : ((c.Nspace : ℝ) + 1) * (A * R ^ 2 * (K * ε) ^ 2) ≤ L * A * R ^ 2 * G := by
    rw [eG]
    have := mul_le_mul_of_nonneg_right hL (show 0 ≤ A * R ^ 2 * G by positivity)
    linarith
  have h2 : R * (2 * (K * ε) / W) ^ 2 = R * (2 / W) ^ 2 * h * G := by
    have : (2 * (K * ε) / W) ^ 2 = (2 / W) ^ 2 * (K * ε) ^ 2 := by ring
    rw [this, eG]; ring
  have h3 : R ^ 3 * (K * ε) ^ 2 ≤ R ^ 3 * h * G * X := by
    rw [eG]
    have : 0 ≤ R ^ 3 * h * G := by positivity
    nlinarith
  have h4 : (((c.Nspace : ℝ) + 1) * (A * R ^ 2 * (K * ε) ^ 2) + R * (2 * (K * ε) / W) ^ 2 + E) *
      (t - a) ≤ (t - a) * (L * A * R ^ 2 + R * (2 / W) ^ 2 * h) * G + (t - a) * E := by
    rw [h2]
    have := mul_le_mul_of_nonneg_right h1 hta
    linarith
  have h5 := mul_le_mul_of_nonneg_right h4 (zero_le_one.trans hX1)
  have e6 : ∀ Y : ℝ, (Y + ((t - a) * (L * A * R ^ 2 + R * (2 / W) ^ 2 * h) + R ^ 3 * h)
      * (K * B) ^ 2 * h ^ (2 * c.M + 1) + (t - a) * E) * X =
      Y * X + (t - a) * (L * A * R ^ 2 + R * (2 / W) ^ 2 * h) * G * X + R ^ 3 * h * G * X
      + (t - a) * E * X := by
    intro Y; rw [hG]; ring
  rw [e6, add_mul]
  linarith

end Verif.Props
