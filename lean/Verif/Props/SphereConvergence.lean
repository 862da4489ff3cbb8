import Verif.Props.SphereErrorEstimate
import Verif.Props.SphereExistence
import Verif.Lemmas.SphereApproximation

/-!
Properties C107 (distance form) and C108: convergence of the sphere scheme to solutions of the
discrete-ordinates equation.
-/

namespace Verif.Props

open Polynomial Verif.Spec Verif.Model Verif.Lemmas Set MeasureTheory

theorem sphereSqDistance_eq (p : RhsParams) (N M : ℕ) (e : ℕ → ℝ) (V P : ℕ → ℕ → ℕ → ℝ)
    (u : ℕ → ℕ → ℝ → ℝ) (h : ∀ k < N, e k < e (k + 1))
    (hu : ∀ l < p.Nang, ∀ k < N, Continuous (u l k))
    (hP : ∀ l < p.Nang, ∀ k < N, IsSphereProjection M (u l k) (e k) (e (k + 1)) (P l k)) :
    sphereSqDistance p.Nang p.ws N M e V u =
      sphereAngularSq p N M e (fun l k i => V l k i - P l k i)
        + sphereSqDistance p.Nang p.ws N M e P u := by
  unfold sphereSqDistance sphereAngularSq angularSum
  rw [← Finset.sum_add_distrib]
  refine Finset.sum_congr rfl fun l hl => ?_
  rw [Finset.mem_range] at hl
  rw [← mul_add]
  congr 1
  unfold sphereSqNorm
  rw [← Finset.sum_add_distrib]
  refine Finset.sum_congr rfl fun k hk => ?_
  rw [Finset.mem_range] at hk
  exact sphere_pythagoras (hu l hl k hk) (h k hk) (hP l hl k hk) (V l k)

theorem sphereSqDistance_nonneg {n : ℕ} {ws : ℕ → ℝ} (hw : ∀ l < n, 0 ≤ ws l) (N M : ℕ) {e : ℕ → ℝ}
    (h : ∀ k < N, e k < e (k + 1)) (V : ℕ → ℕ → ℕ → ℝ) (u : ℕ → ℕ → ℝ → ℝ) :
    0 ≤ sphereSqDistance n ws N M e V u := by
  unfold sphereSqDistance
  exact Finset.sum_nonneg fun l hl => mul_nonneg (hw l (Finset.mem_range.1 hl))
    (Finset.sum_nonneg fun k hk => intervalIntegral.integral_nonneg
      (h k (Finset.mem_range.1 hk)).le fun _ _ => mul_nonneg (sq_nonneg _) (sq_nonneg _))

theorem sphereSqDistance_le {n : ℕ} {ws : ℕ → ℝ} (hw : ∀ l < n, 0 ≤ ws l)
    (hw1 : ∑ l ∈ Finset.range n, ws l = 1) (N M : ℕ) {e : ℕ → ℝ} {R δ : ℝ} (h0 : e 0 = 0)
    (hR : e N ≤ R) (h : ∀ k < N, e k < e (k + 1)) (P : ℕ → ℕ → ℕ → ℝ) (u : ℕ → ℕ → ℝ → ℝ)
    (hu : ∀ l < n, ∀ k < N, Continuous (u l k))
    (hδ : ∀ l < n, ∀ k < N, ∀ r ∈ Icc (e k) (e (k + 1)),
      |sphereField M (P l k) (e k) (e (k + 1)) r - u l k r| ≤ δ) :
    sphereSqDistance n ws N M e P u ≤ R ^ 3 * δ ^ 2 := by
  have hR0 : 0 ≤ R := by
    have := edges_mono h (Nat.zero_le N) le_rfl
    linarith
  have hl : ∀ l ∈ Finset.range n, ws l * ∑ k ∈ Finset.range N, ∫ r in (e k)..(e (k + 1)),
      r ^ 2 * (sphereField M (P l k) (e k) (e (k + 1)) r - u l k r) ^ 2 ≤ ws l * (R ^ 3 * δ ^ 2) := by
    intro l hl
    have hl := Finset.mem_range.1 hl
    refine mul_le_mul_of_nonneg_left ?_ (hw l hl)
    have hk : ∀ k ∈ Finset.range N, ∫ r in (e k)..(e (k + 1)),
        r ^ 2 * (sphereField M (P l k) (e k) (e (k + 1)) r - u l k r) ^ 2 ≤
        (e (k + 1) - e k) * (R ^ 2 * δ ^ 2) := by
      intro k hk
      have hk := Finset.mem_range.1 hk
      have h1 := continuous_sphereField M (P l k) (h k hk)
      have h2 := hu l hl k hk
      have h3 : ∫ r in (e k)..(e (k + 1)),
          r ^ 2 * (sphereField M (P l k) (e k) (e (k + 1)) r - u l k r) ^ 2 ≤
          ∫ _ in (e k)..(e (k + 1)), R ^ 2 * δ ^ 2 := by
        refine intervalIntegral.integral_mono_on (h k hk).le
          (Continuous.intervalIntegrable (by fun_prop) _ _)
          (continuous_const.intervalIntegrable _ _) fun r hr => ?_
        have h4 : 0 ≤ e k := by
          rw [← h0]; exact edges_mono h (Nat.zero_le k) hk.le
        have h5 : e (k + 1) ≤ R := (edges_mono h hk le_rfl).trans hR
        refine mul_le_mul (pow_le_pow_left₀ (h4.trans hr.1) (hr.2.trans h5) 2) ?_ (sq_nonneg _)
          (sq_nonneg _)
        rw [← sq_abs]
        exact pow_le_pow_left₀ (abs_nonneg _) (hδ l hl k hk r hr) 2
      rwa [intervalIntegral.integral_const, smul_eq_mul] at h3
    refine (Finset.sum_le_sum hk).trans ?_
    rw [← Finset.sum_mul, Finset.sum_range_sub, h0, sub_zero]
    calc e N * (R ^ 2 * δ ^ 2) ≤ R * (R ^ 2 * δ ^ 2) :=
          mul_le_mul_of_nonneg_right hR (by positivity)
      _ = _ := by ring
  unfold sphereSqDistance
  refine (Finset.sum_le_sum hl).trans_eq ?_
  rw [← Finset.sum_mul, hw1, one_mul]

/-- As `c107_sphere_distance_bound`, for functions that satisfy the equation up to a residual `r ζ` with
`|ζ| ≤ σ`. -/
theorem near_distance_bound (M : ℕ) (hM : M ≤ 10) : ∃ C K : ℝ, 1 ≤ C ∧ 1 ≤ K ∧
    ∀ (p : RhsParams) (c : FluxConfig) (mesh : ℝ → MeshView) (mats : ℝ → ℕ → CellMats)
      (S : ℝ → ℕ → ℕ → ℝ) (a b d h κ A R W ε σ : ℝ) (F : Set ℝ) (q : ℕ → ℝ → ℝ → ℝ)
      (ζ : ℕ → ℕ → ℝ → ℝ → ℝ) (u : ℕ → ℕ → ℝ → ℝ → ℝ) (V : ℝ → ℕ → ℕ → ℕ → ℝ),
      DirectionSet p.Nang p.mus →
      ∑ l ∈ Finset.range p.Nang, p.ws l ^ 2 / (angularWidth p.Nang p.mus l / 2) ≤ κ →
      0 ≤ p.c → c.geometry = .sphere → c.M = M → 2 ≤ c.Nspace → F.Finite →
      SphereMeshOn c mesh mats a b F →
      (∀ t ∈ Ico a b \ F, ¬ BoundaryActive c false t) →
      SphereNearSolution p.Nang p.mus p.ws p.c c.Nspace (fun t => (mesh t).edges)
        (fun t => (mesh t).Dedges) q ζ a b F u →
      (∀ t ∈ Ico a b \ F, ∀ l < p.Nang, ∀ k < c.Nspace,
        ∀ r ∈ Icc ((mesh t).edges k) ((mesh t).edges (k + 1)), |ζ l k r t| ≤ σ) →
      (∀ t ∈ Ico a b \ F, ∀ k < c.Nspace, ∀ i ≤ c.M, 1 / 2 * S t k i * p.c =
        weightedMoment (fun r => q k r t) ((mesh t).edges k) ((mesh t).edges (k + 1)) i) →
      0 ≤ d → (∀ l < p.Nang, angularMid p.Nang p.mus l - p.mus l ≤ d) →
      0 < W → (∀ l < p.Nang, W ≤ angularWidth p.Nang p.mus l) →
      0 < h → (∀ s ∈ Icc a b, h ≤ (mesh s).edges 1 ∧ (mesh s).edges c.Nspace ≤ R) →
      (∀ t ∈ Ico a b \ F, ∀ l < p.Nang, ∀ k ≤ c.Nspace, |p.mus l - (mesh t).Dedges k| ≤ A) →
      (∀ t ∈ Icc a b, ∀ l < p.Nang, ∀ k < c.Nspace, ∃ U : ℕ → ℝ,
        ∀ r ∈ Icc ((mesh t).edges k) ((mesh t).edges (k + 1)),
        |sphereField c.M U ((mesh t).edges k) ((mesh t).edges (k + 1)) r - u l k r t| ≤ ε) →
      SphereSolutionOn p c mesh mats S a b F V →
      ∀ t ∈ Icc a b,
        sphereSqDistance p.Nang (fun l => angularWidth p.Nang p.mus l / 2) c.Nspace c.M (mesh t).edges
            (V t) (fun l k r => u l k r t) ≤
          gronwallBound
            (sphereSqDistance p.Nang (fun l => angularWidth p.Nang p.mus l / 2) c.Nspace c.M
              (mesh a).edges (V a) (fun l k r => u l k r a))
            (p.c * (1 + κ) - 1 + 2 * d * C / h)
            ((c.Nspace + 1) * (A * R ^ 2 * (K * ε) ^ 2) + R * (2 * (K * ε) / W + σ) ^ 2) (t - a)
          + R ^ 3 * (K * ε) ^ 2 := by
  obtain ⟨C, hC, hb⟩ := near_error_bound M hM
  obtain ⟨K, hK, hsup⟩ := sphere_projection_sup M
  refine ⟨C, K, hC, hK, ?_⟩
  intro p c mesh mats S a b d h κ A R W ε σ F q ζ u V hd hκ hc hg hcM hN hF hmesh hoff hu hσ hS hd0 hmid
    hW hW1 hh hhR hA hε hV t ht
  subst hcM
  have ha : a ∈ Icc a b := ⟨le_rfl, ht.1.trans ht.2⟩
  have hcu : ∀ s, ∀ l < p.Nang, ∀ k < c.Nspace, Continuous fun x => u l k x s :=
    fun s l hl k hk => (hu.smooth l hl k hk).continuous.comp (continuous_id.prodMk continuous_const)
  have hex : ∀ s l k, ∃ P : ℕ → ℝ, s ∈ Icc a b → l < p.Nang → k < c.Nspace →
      IsSphereProjection c.M (fun r => u l k r s) ((mesh s).edges k) ((mesh s).edges (k + 1)) P := by
    intro s l k
    by_cases hc : s ∈ Icc a b ∧ l < p.Nang ∧ k < c.Nspace
    · obtain ⟨P, hP⟩ := exists_sphere_projection c.M (hcu s l hc.2.1 k hc.2.2)
        (hmesh.ordered s hc.1 k hc.2.2)
      exact ⟨P, fun _ _ _ => hP⟩
    · exact ⟨fun _ => 0, fun h1 h2 h3 => absurd ⟨h1, h2, h3⟩ hc⟩
  choose P hP using hex
  have hδ : ∀ s ∈ Icc a b, ∀ l < p.Nang, ∀ k < c.Nspace,
      ∀ r ∈ Icc ((mesh s).edges k) ((mesh s).edges (k + 1)),
      |sphereField c.M (P s l k) ((mesh s).edges k) ((mesh s).edges (k + 1)) r - u l k r s| ≤
        K * ε := by
    intro s hs l hl k hk
    obtain ⟨U, hU⟩ := hε s hs l hl k hk
    refine hsup _ (hcu s l hl k hk) _ _ ε ?_ (hmesh.ordered s hs k hk) _ (hP s l k hs hl hk) U hU
    rw [← hmesh.centre s hs]
    exact edges_mono (hmesh.ordered s hs) (Nat.zero_le k) hk.le
  have hbound := hb p c mesh mats S a b d h κ A R W (K * ε) σ F q ζ u P V hd hκ hc hg rfl hN hF hmesh hoff
    hu hσ hS (fun s hs l hl k hk => hP s l k hs hl hk) hd0 hmid hW hW1 hh hhR hA
    (fun s hs => hδ s ⟨hs.1.1, hs.1.2.le⟩) hV t ht
  obtain ⟨hp, hw1⟩ := cell_weights (p := cellParams p) hd fun _ _ => rfl
  have hproj := sphereSqDistance_le (fun l hl => (hp l hl).le) hw1 c.Nspace c.M (hmesh.centre t ht)
    (hhR t ht).2 (hmesh.ordered t ht) (P t) (fun l k r => u l k r t) (hcu t) (hδ t ht)
  have eq := fun s (hs : s ∈ Icc a b) => sphereSqDistance_eq (cellParams p) c.Nspace c.M
    (mesh s).edges (V s) (P s) (fun l k r => u l k r s) (hmesh.ordered s hs) (hcu s)
    (fun l hl k hk => hP s l k hs hl hk)
  have hinit : sphereAngularSq (cellParams p) c.Nspace c.M (mesh a).edges
      (fun l k i => V a l k i - P a l k i) ≤
      sphereSqDistance p.Nang (cellParams p).ws c.Nspace c.M
              (mesh a).edges (V a) (fun l k r => u l k r a) := by
    have h1 := eq a ha
    have h2 := sphereSqDistance_nonneg (n := p.Nang) (fun l hl => (hp l hl).le) c.Nspace c.M
      (hmesh.ordered a ha) (P a) (fun l k r => u l k r a)
    have eN : (cellParams p).Nang = p.Nang := rfl
    rw [eN] at h1
    linarith
  refine (eq t ht).trans_le ?_
  exact add_le_add (hbound.trans (gronwallBound_mono' _ _ hinit _)) hproj

/-- C107, distance form: if on every shell some polynomial of degree at most `M` is within `ε` of the
solution, the discrete solution stays within the Gronwall bound of the solution.  `K` and `C` depend
only on `M`; the other constants are those of `c107_sphere_error_bound`. -/
theorem c107_sphere_distance_bound (M : ℕ) (hM : M ≤ 10) : ∃ C K : ℝ, 1 ≤ C ∧ 1 ≤ K ∧
    ∀ (p : RhsParams) (c : FluxConfig) (mesh : ℝ → MeshView) (mats : ℝ → ℕ → CellMats)
      (S : ℝ → ℕ → ℕ → ℝ) (a b d h κ A R W ε : ℝ) (F : Set ℝ) (q : ℕ → ℝ → ℝ → ℝ)
      (u : ℕ → ℕ → ℝ → ℝ → ℝ) (V : ℝ → ℕ → ℕ → ℕ → ℝ),
      DirectionSet p.Nang p.mus →
      ∑ l ∈ Finset.range p.Nang, p.ws l ^ 2 / (angularWidth p.Nang p.mus l / 2) ≤ κ →
      0 ≤ p.c → c.geometry = .sphere → c.M = M → 2 ≤ c.Nspace → F.Finite →
      SphereMeshOn c mesh mats a b F →
      (∀ t ∈ Ico a b \ F, ¬ BoundaryActive c false t) →
      SphereSolution p.Nang p.mus p.ws p.c c.Nspace (fun t => (mesh t).edges)
        (fun t => (mesh t).Dedges) q a b F u →
      (∀ t ∈ Ico a b \ F, ∀ k < c.Nspace, ∀ i ≤ c.M, 1 / 2 * S t k i * p.c =
        weightedMoment (fun r => q k r t) ((mesh t).edges k) ((mesh t).edges (k + 1)) i) →
      0 ≤ d → (∀ l < p.Nang, angularMid p.Nang p.mus l - p.mus l ≤ d) →
      0 < W → (∀ l < p.Nang, W ≤ angularWidth p.Nang p.mus l) →
      0 < h → (∀ s ∈ Icc a b, h ≤ (mesh s).edges 1 ∧ (mesh s).edges c.Nspace ≤ R) →
      (∀ t ∈ Ico a b \ F, ∀ l < p.Nang, ∀ k ≤ c.Nspace, |p.mus l - (mesh t).Dedges k| ≤ A) →
      (∀ t ∈ Icc a b, ∀ l < p.Nang, ∀ k < c.Nspace, ∃ U : ℕ → ℝ,
        ∀ r ∈ Icc ((mesh t).edges k) ((mesh t).edges (k + 1)),
        |sphereField c.M U ((mesh t).edges k) ((mesh t).edges (k + 1)) r - u l k r t| ≤ ε) →
      SphereSolutionOn p c mesh mats S a b F V →
      ∀ t ∈ Icc a b,
        sphereSqDistance p.Nang (fun l => angularWidth p.Nang p.mus l / 2) c.Nspace c.M (mesh t).edges
            (V t) (fun l k r => u l k r t) ≤
          gronwallBound
            (sphereSqDistance p.Nang (fun l => angularWidth p.Nang p.mus l / 2) c.Nspace c.M
              (mesh a).edges (V a) (fun l k r => u l k r a))
            (p.c * (1 + κ) - 1 + 2 * d * C / h)
            ((c.Nspace + 1) * (A * R ^ 2 * (K * ε) ^ 2) + R * (2 * (K * ε) / W) ^ 2) (t - a)
          + R ^ 3 * (K * ε) ^ 2 := by
  obtain ⟨C, K, hC, hK, hb⟩ := near_distance_bound M hM
  refine ⟨C, K, hC, hK, ?_⟩
  intro p c mesh mats S a b d h κ A R W ε F q u V hd hκ hc hg hcM hN hF hmesh hoff hu hS hd0 hmid
    hW hW1 hh hhR hA hε hV t ht
  have h1 := hb p c mesh mats S a b d h κ A R W ε 0 F q _ u V hd hκ hc hg hcM hN hF hmesh hoff hu.near
    (fun _ _ _ _ _ _ _ _ => by simp) hS hd0 hmid hW hW1 hh hhR hA hε hV t ht
  rwa [add_zero] at h1

/-! ### C108 -/

/-- C108: with directions at or right of the middle of their angular cells (equally spaced
directions), the squared distance of the discrete solution from the exact one is at most its initial
value plus a term of order `h^(2M+1)`, times an exponential that does not depend on the mesh.  `h` is
the largest width of a shell and `B` bounds the derivatives of order `M + 1` of the solution.  For
other directions `c107_sphere_distance_bound` has a factor that grows with the reciprocal of the
radius of the innermost shell, so no order of convergence follows. -/
theorem c108_sphere_convergence_partial (M : ℕ) (hM : M ≤ 10) : ∃ K : ℝ, 1 ≤ K ∧
    ∀ (p : RhsParams) (c : FluxConfig) (mesh : ℝ → MeshView) (mats : ℝ → ℕ → CellMats)
      (S : ℝ → ℕ → ℕ → ℝ) (a b h κ A B R W L : ℝ) (F : Set ℝ) (q : ℕ → ℝ → ℝ → ℝ)
      (u : ℕ → ℕ → ℝ → ℝ → ℝ) (V : ℝ → ℕ → ℕ → ℕ → ℝ),
      DirectionSet p.Nang p.mus →
      ∑ l ∈ Finset.range p.Nang, p.ws l ^ 2 / (angularWidth p.Nang p.mus l / 2) ≤ κ →
      0 ≤ p.c → c.geometry = .sphere → c.M = M → 2 ≤ c.Nspace → F.Finite →
      SphereMeshOn c mesh mats a b F →
      (∀ t ∈ Ico a b \ F, ¬ BoundaryActive c false t) →
      SphereSolution p.Nang p.mus p.ws p.c c.Nspace (fun t => (mesh t).edges)
        (fun t => (mesh t).Dedges) q a b F u →
      (∀ t ∈ Ico a b \ F, ∀ k < c.Nspace, ∀ i ≤ c.M, 1 / 2 * S t k i * p.c =
        weightedMoment (fun r => q k r t) ((mesh t).edges k) ((mesh t).edges (k + 1)) i) →
      (∀ l < p.Nang, angularMid p.Nang p.mus l ≤ p.mus l) →
      0 < W → (∀ l < p.Nang, W ≤ angularWidth p.Nang p.mus l) →
      (∀ t ∈ Icc a b, (mesh t).edges c.Nspace ≤ R) →
      (∀ t ∈ Icc a b, ∀ k < c.Nspace, (mesh t).edges (k + 1) - (mesh t).edges k ≤ h) →
      ((c.Nspace : ℝ) + 1) * h ≤ L → 0 ≤ A →
      (∀ t ∈ Ico a b \ F, ∀ l < p.Nang, ∀ k ≤ c.Nspace, |p.mus l - (mesh t).Dedges k| ≤ A) →
      (∀ t ∈ Icc a b, ∀ l < p.Nang, ∀ k < c.Nspace, ContDiffOn ℝ (c.M + 1)
        (fun r => u l k r t) (Icc ((mesh t).edges k) ((mesh t).edges (k + 1)))) →
      (∀ t ∈ Icc a b, ∀ l < p.Nang, ∀ k < c.Nspace,
        ∀ r ∈ Icc ((mesh t).edges k) ((mesh t).edges (k + 1)),
        |iteratedDerivWithin (c.M + 1) (fun r => u l k r t)
          (Icc ((mesh t).edges k) ((mesh t).edges (k + 1))) r| ≤ B) →
      SphereSolutionOn p c mesh mats S a b F V →
      ∀ t ∈ Icc a b,
        sphereSqDistance p.Nang (fun l => angularWidth p.Nang p.mus l / 2) c.Nspace c.M (mesh t).edges
            (V t) (fun l k r => u l k r t) ≤
          (sphereSqDistance p.Nang (fun l => angularWidth p.Nang p.mus l / 2) c.Nspace c.M
              (mesh a).edges (V a) (fun l k r => u l k r a)
            + ((t - a) * (L * A * R ^ 2 + R * (2 / W) ^ 2 * h) + R ^ 3 * h)
              * (K * B) ^ 2 * h ^ (2 * c.M + 1))
          * Real.exp (max (p.c * (1 + κ) - 1) 0 * (t - a)) := by
  obtain ⟨C, K, hC, hK, hb⟩ := c107_sphere_distance_bound M hM
  refine ⟨K, hK, ?_⟩
  intro p c mesh mats S a b h κ A B R W L F q u V hd hκ hc hg hcM hN hF hmesh hoff hu hS hmid
    hW hW1 hR hh hL hA0 hA hsm hB hV t ht
  subst hcM
  have hab : a ≤ b := ht.1.trans ht.2
  have ha : a ∈ Icc a b := ⟨le_rfl, hab⟩
  obtain ⟨x, hx, hmin⟩ := isCompact_Icc.exists_isMinOn (nonempty_Icc.2 hab)
    (hmesh.cont 1 (by omega))
  have hx1 : 0 < (mesh x).edges 1 := by
    have := hmesh.ordered x hx 0 (by omega)
    rwa [hmesh.centre x hx, zero_add] at this
  have hh0 : 0 ≤ h := by
    have h1 := hh a ha 0 (by omega)
    have h2 := hmesh.ordered a ha 0 (by omega)
    linarith
  have hR0 : 0 ≤ R := by
    have h1 := edges_mono (hmesh.ordered a ha) (Nat.zero_le c.Nspace) le_rfl
    rw [hmesh.centre a ha] at h1
    exact h1.trans (hR a ha)
  have hB0 : 0 ≤ B := by
    have := hd.two
    exact (abs_nonneg _).trans (hB a ha 0 (by omega) 0 (by omega) _
      (left_mem_Icc.2 (hmesh.ordered a ha 0 (by omega)).le))
  set ε := B * h ^ (c.M + 1) with hε
  have hclose : ∀ s ∈ Icc a b, ∀ l < p.Nang, ∀ k < c.Nspace, ∃ U : ℕ → ℝ,
      ∀ r ∈ Icc ((mesh s).edges k) ((mesh s).edges (k + 1)),
      |sphereField c.M U ((mesh s).edges k) ((mesh s).edges (k + 1)) r - u l k r s| ≤ ε := by
    intro s hs l hl k hk
    have hlt := hmesh.ordered s hs k hk
    obtain ⟨U, hU⟩ := exists_close_sphere_field c.M hlt (hsm s hs l hl k hk) (hB s hs l hl k hk)
    refine ⟨U, fun x hx => (hU x hx).trans ?_⟩
    have h1 := hh s hs k hk
    have h2 : 0 ≤ (mesh s).edges (k + 1) - (mesh s).edges k := by linarith
    have h3 : (1 : ℝ) ≤ (c.M.factorial : ℝ) := by exact_mod_cast c.M.factorial_pos
    refine (div_le_self (by positivity) h3).trans ?_
    rw [hε]
    gcongr
  have hbound := hb p c mesh mats S a b 0 ((mesh x).edges 1) κ A R W ε F q u V hd hκ hc hg rfl hN hF
    hmesh hoff hu hS le_rfl (fun l hl => by linarith [hmid l hl]) hW hW1 hx1
    (fun s hs => ⟨hmin hs, hR s hs⟩) hA hclose hV t ht
  have e0 : p.c * (1 + κ) - 1 + 2 * 0 * C / (mesh x).edges 1 = p.c * (1 + κ) - 1 := by ring
  rw [e0] at hbound
  obtain ⟨hp, -⟩ := cell_weights (p := cellParams p) hd fun _ _ => rfl
  have hnn : 0 ≤ sphereSqDistance p.Nang (fun l => angularWidth p.Nang p.mus l / 2) c.Nspace c.M
      (mesh a).edges (V a) (fun l k r => u l k r a) :=
    sphereSqDistance_nonneg (fun l hl => (hp l hl).le) c.Nspace c.M (hmesh.ordered a ha) _ _
  have hta : 0 ≤ t - a := by linarith [ht.1]
  have hg1 := gronwallBound_le_exp (K := p.c * (1 + κ) - 1) hnn
    (show 0 ≤ ((c.Nspace : ℝ) + 1) * (A * R ^ 2 * (K * ε) ^ 2) + R * (2 * (K * ε) / W) ^ 2 by
      positivity) hta
  refine hbound.trans ((add_le_add hg1 le_rfl).trans ?_)
  set X := Real.exp (max (p.c * (1 + κ) - 1) 0 * (t - a)) with hX
  have hX1 : 1 ≤ X := Real.one_le_exp (mul_nonneg (le_max_right _ _) hta)
  set G := (K * B) ^ 2 * h ^ (2 * c.M + 1) with hG
  have hG0 : 0 ≤ G := by positivity
  have eG : (K * ε) ^ 2 = G * h := by rw [hε, hG]; ring
  have h1 : ((c.Nspace : ℝ) + 1) * (A * R ^ 2 * (K * ε) ^ 2) ≤ L * A * R ^ 2 * G := by
    rw [eG]
    have := mul_le_mul_of_nonneg_right hL (show 0 ≤ A * R ^ 2 * G by positivity)
    linarith
  have h2 : R * (2 * (K * ε) / W) ^ 2 = R * (2 / W) ^ 2 * h * G := by
    have : (2 * (K * ε) / W) ^ 2 = (2 / W) ^ 2 * (K * ε) ^ 2 := by ring
    rw [this, eG]; ring
  have h3 : R ^ 3 * (K * ε) ^ 2 ≤ R ^ 3 * h * G * X := by
    rw [eG]
    have : 0 ≤ R ^ 3 * h * G := by positivity
    nlinarith
  have h4 : (((c.Nspace : ℝ) + 1) * (A * R ^ 2 * (K * ε) ^ 2) + R * (2 * (K * ε) / W) ^ 2) * (t - a) ≤
      (t - a) * (L * A * R ^ 2 + R * (2 / W) ^ 2 * h) * G := by
    rw [h2]
    have := mul_le_mul_of_nonneg_right h1 hta
    linarith
  have h5 := mul_le_mul_of_nonneg_right h4 (zero_le_one.trans hX1)
  have e6 : ∀ Y : ℝ, (Y + ((t - a) * (L * A * R ^ 2 + R * (2 / W) ^ 2 * h) + R ^ 3 * h)
      * (K * B) ^ 2 * h ^ (2 * c.M + 1)) * X =
      Y * X + (t - a) * (L * A * R ^ 2 + R * (2 / W) ^ 2 * h) * G * X + R ^ 3 * h * G * X := by
    intro Y; rw [hG]; ring
  rw [e6, add_mul]
  linarith

/-! ### Example: a sphere with a source, seen from a mesh with a moving edge -/

/-- Three shells of the sphere of radius three; the inner edge moves. -/
noncomputable def ballMesh (t : ℝ) : MeshView where
  edges := fun k => (k : ℝ) + (if k = 1 then t / 4 else 0)
  Dedges := fun k => if k = 1 then 1 / 4 else 0

/-- Angular flux of the directions `±1/2`; nothing enters at radius three. -/
noncomputable def ballU (l _ : ℕ) (r _ : ℝ) : ℝ := (12 - r ^ 2 + (if l = 0 then -1 else 1) * r) / 2

theorem ball_dr (l k : ℕ) (r t : ℝ) : HasDerivAt (fun y => y ^ 2 * ballU l k y t)
    (12 * r - 2 * r ^ 3 + (if l = 0 then -1 else 1) * (3 / 2 * r ^ 2)) r := by
  have e : (fun y => y ^ 2 * ballU l k y t) = fun y : ℝ => 6 * y ^ 2 - y ^ 4 / 2
      + (if l = 0 then -1 else 1) * (y ^ 3 / 2) := by
    funext y; unfold ballU; ring
  rw [e]
  refine ((((hasDerivAt_pow 2 r).const_mul (6 : ℝ)).sub ((hasDerivAt_pow 4 r).div_const 2)).add
    (((hasDerivAt_pow 3 r).div_const 2).const_mul (if l = 0 then (-1 : ℝ) else 1))).congr_deriv ?_
  push_cast
  ring

theorem ball_contDiff (n : WithTop ℕ∞) (l k : ℕ) :
    ContDiff ℝ n fun z : ℝ × ℝ => ballU l k z.1 z.2 := by
  unfold ballU; fun_prop

theorem ball_contDiff_radius (n : WithTop ℕ∞) (l k : ℕ) (t : ℝ) :
    ContDiff ℝ n fun r => ballU l k r t := by
  unfold ballU; fun_prop

theorem ballMesh_lt {t : ℝ} (ht : t ∈ Icc (0 : ℝ) 1) (k : ℕ) :
    (ballMesh t).edges k < (ballMesh t).edges (k + 1) := by
  obtain ⟨h0, h1⟩ := ht
  simp only [ballMesh]
  push_cast
  split_ifs <;> first | omega | linarith

theorem ball_solution (F : Set ℝ) : SphereSolution exampleSphereParams.Nang exampleSphereParams.mus
    exampleSphereParams.ws exampleSphereParams.c exampleSphereConfig.Nspace
    (fun t => (ballMesh t).edges) (fun t => (ballMesh t).Dedges) (fun _ _ _ => 3 / 4) 0 1 F ballU where
  smooth l _ k _ := ball_contDiff 1 l k
  equation t _ l hl k _ r _ := by
    have e : (fun τ => ballU l k r τ) = fun _ => ballU l k r 0 := rfl
    rw [(ball_dr l k r t).deriv, e, deriv_const]
    have hl2 : l = 0 ∨ l = 1 := by have : l < 2 := hl; omega
    rcases hl2 with rfl | rfl <;>
    · simp only [exampleSphereParams, ballU, angularDifference, angularEdge, angularWidth,
        Finset.sum_range_succ, Finset.range_zero, Finset.sum_empty]
      norm_num
      ring
  continuousFlux t _ l _ k _ := rfl
  vacuum t _ l hl hv := by
    have hl2 : l = 0 ∨ l = 1 := by have : l < 2 := hl; omega
    rcases hl2 with rfl | rfl
    · norm_num [ballU, ballMesh, exampleSphereConfig, exampleConfig]
    · norm_num [ballMesh, exampleSphereConfig, exampleConfig, exampleSphereParams] at hv

theorem ball_meshOn : ∃ mats, SphereMeshOn exampleSphereConfig ballMesh mats 0 1 {0} := by
  have hex : ∀ (s : ℝ) (k : ℕ), ∃ m : CellMats, s ∈ Icc (0 : ℝ) 1 →
      MatsExact exampleSphereConfig.M ((ballMesh s).edges k)
        ((ballMesh s).edges (k + 1)) ((ballMesh s).Dedges k) ((ballMesh s).Dedges (k + 1)) m := by
    intro s k
    by_cases hs : s ∈ Icc (0 : ℝ) 1
    · obtain ⟨m, hm⟩ := c65_matrices_exist (M := exampleSphereConfig.M)
        (by simp [exampleSphereConfig, exampleConfig]) (ballMesh_lt hs k)
        ((ballMesh s).Dedges k) ((ballMesh s).Dedges (k + 1))
      exact ⟨m, fun _ => hm⟩
    · exact ⟨⟨0, 0, 0, 0, 0, 0⟩, fun h1 => absurd h1 hs⟩
  choose mats hmats using hex
  exact ⟨mats, {
    centre := fun s _ => by simp [ballMesh]
    ordered := fun s hs k _ => ballMesh_lt hs k
    cont := fun k _ => by simp only [ballMesh]; split_ifs <;> fun_prop
    velocity := fun t _ k _ => by
      simp only [ballMesh]
      split_ifs
      · exact (((hasDerivAt_id t).div_const 4).const_add (k : ℝ)).hasDerivWithinAt
      · exact (hasDerivAt_const _ _).hasDerivWithinAt
    mats := fun t ht k _ => hmats t k ⟨ht.1.1, ht.1.2.le⟩ }⟩

/-- Source moments the scheme uses. -/
noncomputable def ballS (t : ℝ) (k i : ℕ) : ℝ :=
  2 * weightedMoment (fun _ => 3 / 4) ((ballMesh t).edges k) ((ballMesh t).edges (k + 1)) i

theorem ball_exists {mats : ℝ → ℕ → CellMats}
    (h : SphereMeshOn exampleSphereConfig ballMesh mats 0 1 {0}) (V0 : ℕ → ℕ → ℕ → ℝ) :
    ∃ V, SphereSolutionOn exampleSphereParams exampleSphereConfig ballMesh mats ballS 0 1 {0} V ∧
      ∀ l < exampleSphereParams.Nang, ∀ k < exampleSphereConfig.Nspace,
        ∀ i ≤ exampleSphereConfig.M, V 0 l k i = V0 l k i := by
  have hIoo : ∀ t ∈ Ioo ((0 : ℕ) : ℝ) ((0 + 1 : ℕ) : ℝ), t ∈ Ico (0 : ℝ) 1 \ {0} := fun t ht => by
    have h1 : 0 < t := by simpa using ht.1
    exact ⟨⟨h1.le, by have := ht.2; simpa using this⟩, h1.ne'⟩
  obtain ⟨V, hV, -⟩ := c104_wellposed exampleSphereParams le_rfl exampleSphere_checks
    exampleSphereConfig rfl (by simp [exampleSphereConfig, exampleConfig]) 1 (fun j => (j : ℝ))
    (fun j _ => by push_cast; linarith) (Or.inl rfl)
    (fun j hj => by
      have : j = 0 := by omega
      subst this
      show ((0 + 1 : ℕ) : ℝ) ≤ exampleConfig.t0 ∨ exampleConfig.t0 ≤ ((0 : ℕ) : ℝ)
      norm_num [exampleConfig])
    ballMesh (by simpa using h.centre) (by simpa using h.ordered) (by simpa using h.cont)
    (fun j _ k _ => ⟨fun _ => if k = 1 then 1 / 4 else 0, continuousOn_const, fun _ _ => rfl⟩) mats
    (fun j hj t ht => by
      have : j = 0 := by omega
      subst this
      exact h.mats t (hIoo t ht))
    ballS (fun j hj k hk i _ => ⟨fun t => ballS t k i, by
      have : j = 0 := by omega
      subst this
      have hs : Icc ((0 : ℕ) : ℝ) ((0 + 1 : ℕ) : ℝ) = Icc 0 1 := by simp
      simp only [hs]
      unfold ballS
      exact continuousOn_const.mul (continuousOn_weightedMoment (u := fun _ _ => 3 / 4)
        continuous_const (h.cont k hk.le) (h.cont (k + 1) hk) (fun t ht => ballMesh_lt ht k) i),
      fun _ _ => rfl⟩) V0
  refine ⟨V, ?_⟩
  simpa using hV

theorem ball_second (t : ℝ) (ht : t ∈ Icc (0 : ℝ) 1) (l k : ℕ) (r : ℝ)
    (hr : r ∈ Icc ((ballMesh t).edges k) ((ballMesh t).edges (k + 1))) :
    |iteratedDerivWithin (exampleSphereConfig.M + 1) (fun r => ballU l k r t)
      (Icc ((ballMesh t).edges k) ((ballMesh t).edges (k + 1))) r| ≤ 1 := by
  have hlt := ballMesh_lt ht k
  have hc := ball_contDiff_radius 2 l k t
  show |iteratedDerivWithin 2 _ _ _| ≤ _
  have hd1 : ∀ x : ℝ, HasDerivAt (fun y => ballU l k y t)
      (-x + (if l = 0 then -1 else 1) / 2) x := by
    intro x
    unfold ballU
    refine ((((hasDerivAt_pow 2 x).const_sub (12 : ℝ)).add
      ((hasDerivAt_id x).const_mul (if l = 0 then (-1 : ℝ) else 1))).div_const 2).congr_deriv ?_
    push_cast
    ring
  have e : deriv (fun y => ballU l k y t) = fun x => -x + (if l = 0 then -1 else 1) / 2 :=
    funext fun x => (hd1 x).deriv
  have hd2 : HasDerivAt (fun x : ℝ => -x + (if l = 0 then (-1 : ℝ) else 1) / 2) (-1) r :=
    (hasDerivAt_neg r).add_const _
  rw [iteratedDerivWithin_eq_iteratedDeriv (uniqueDiffOn_Icc hlt) hc.contDiffAt hr,
    iteratedDeriv_succ, iteratedDeriv_one, e, hd2.deriv]
  norm_num

theorem ball_speed (t : ℝ) (l : ℕ) (hl : l < exampleSphereParams.Nang) (k : ℕ) :
    |exampleSphereParams.mus l - (ballMesh t).Dedges k| ≤ 1 := by
  have hl2 : l = 0 ∨ l = 1 := by have : l < 2 := hl; omega
  simp only [ballMesh, exampleSphereParams]
  rcases hl2 with rfl | rfl <;> split_ifs <;> norm_num [abs_le]

theorem ball_width {t : ℝ} (ht : t ∈ Icc (0 : ℝ) 1) (k : ℕ) :
    (ballMesh t).edges (k + 1) - (ballMesh t).edges k ≤ 5 / 4 := by
  obtain ⟨h0, h1⟩ := ht
  simp only [ballMesh]
  push_cast
  split_ifs <;> first | omega | linarith

theorem example_kappa : ∑ l ∈ Finset.range exampleSphereParams.Nang, exampleSphereParams.ws l ^ 2 /
    (angularWidth exampleSphereParams.Nang exampleSphereParams.mus l / 2) ≤ 1 := by
  norm_num [exampleSphereParams, Finset.sum_range_succ, angularWidth, angularEdge]

theorem example_cells (l : ℕ) (hl : l < exampleSphereParams.Nang) :
    1 ≤ angularWidth exampleSphereParams.Nang exampleSphereParams.mus l := by
  have hl2 : l = 0 ∨ l = 1 := by have : l < 2 := hl; omega
  rcases hl2 with rfl | rfl <;> norm_num [exampleSphereParams, angularWidth, angularEdge]

/-- C107 and C108 for the sphere with a source, started at any initial state. -/
example (V0 : ℕ → ℕ → ℕ → ℝ) : ∃ (K : ℝ) (mats : ℝ → ℕ → CellMats) (V : ℝ → ℕ → ℕ → ℕ → ℝ),
    SphereSolutionOn exampleSphereParams exampleSphereConfig ballMesh mats ballS 0 1 {0} V ∧
    (∀ l < 2, ∀ k < 3, ∀ i ≤ 1, V 0 l k i = V0 l k i) ∧
    ∀ t ∈ Icc (0 : ℝ) 1, sphereSqDistance 2 (fun l => angularWidth 2 exampleSphereParams.mus l / 2)
        3 1 (ballMesh t).edges (V t) (fun l k r => ballU l k r t) ≤
      (sphereSqDistance 2 (fun l => angularWidth 2 exampleSphereParams.mus l / 2) 3 1
          (ballMesh 0).edges (V 0) (fun l k r => ballU l k r 0)
        + ((t - 0) * (5 * 1 * 3 ^ 2 + 3 * (2 / 1) ^ 2 * (5 / 4)) + 3 ^ 3 * (5 / 4))
          * (K * 1) ^ 2 * (5 / 4) ^ (2 * 1 + 1)) *
        Real.exp (max (exampleSphereParams.c * (1 + 1) - 1) 0 * (t - 0)) := by
  obtain ⟨mats, h⟩ := ball_meshOn
  obtain ⟨V, hV, hV0⟩ := ball_exists h V0
  obtain ⟨K, -, hK⟩ := c108_sphere_convergence_partial 1 (by norm_num)
  refine ⟨K, mats, V, hV, hV0, ?_⟩
  exact hK exampleSphereParams exampleSphereConfig ballMesh mats ballS 0 1 (5 / 4) 1 1 1 3 1 5 {0}
    (fun _ _ _ => 3 / 4) ballU V exampleSphere_directions example_kappa
    (by simp [exampleSphereParams]) rfl rfl (by norm_num [exampleSphereConfig, exampleConfig])
    (finite_singleton 0) h (fun t _ => by
      unfold BoundaryActive; simp [exampleSphereConfig, exampleConfig])
    (ball_solution {0}) (fun t _ k _ i _ => by simp only [exampleSphereParams, ballS]; ring)
    exampleSphere_midpoints one_pos example_cells
    (fun t _ => by norm_num [ballMesh, exampleSphereConfig, exampleConfig])
    (fun t ht k _ => ball_width ht k) (by norm_num [exampleSphereConfig, exampleConfig]) zero_le_one
    (fun t _ l hl k _ => ball_speed t l hl k)
    (fun t _ l _ k _ => (ball_contDiff_radius _ l k t).contDiffOn)
    (fun t ht l _ k _ r hr => ball_second t ht l k r hr) hV

end Verif.Props
