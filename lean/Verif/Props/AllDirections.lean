import Verif.Props.AnyDirections
import Verif.Lemmas.AngularConsistency

/-!
Property C139: the error of the program against the transport equation with all directions.
-/

namespace Verif.Props

open Set MeasureTheory Verif.Spec Verif.Model Verif.Lemmas

/-! ### The scheme, for functions that satisfy the equations up to a residual -/

/-- As `c134_scheme`, for functions that satisfy the discrete-ordinates equations up to a residual. -/
theorem near_scheme (M : ℕ) (hM : M ≤ 10) : ∃ C K : ℝ, 1 ≤ C ∧ 1 ≤ K ∧
    ∀ (p : RhsParams) (c : FluxConfig) (mesh : ℝ → MeshView) (mats : ℝ → ℕ → CellMats)
      (S : ℝ → ℕ → ℕ → ℝ) (a b δ ρ h κ A B R W L σ : ℝ) (F : Set ℝ) (q : ℕ → ℝ → ℝ → ℝ)
      (ζ : ℕ → ℕ → ℝ → ℝ → ℝ) (u : ℕ → ℕ → ℝ → ℝ → ℝ) (V : ℝ → ℕ → ℕ → ℕ → ℝ),
      DirectionSet p.Nang p.mus →
      ∑ l ∈ Finset.range p.Nang, p.ws l ^ 2 / (angularWidth p.Nang p.mus l / 2) ≤ κ →
      0 ≤ p.c → c.geometry = .sphere → c.M = M → 2 ≤ c.Nspace → F.Finite →
      SphereMeshOn c mesh mats a b F →
      (∀ t ∈ Ico a b \ F, ¬ BoundaryActive c false t) →
      SphereNearSolution p.Nang p.mus p.ws p.c c.Nspace (fun t => (mesh t).edges)
        (fun t => (mesh t).Dedges) q ζ a b F u →
      (∀ t ∈ Ico a b \ F, ∀ l < p.Nang, ∀ k < c.Nspace,
        ∀ r ∈ Icc ((mesh t).edges k) ((mesh t).edges (k + 1)), |ζ l k r t| ≤ σ) →
      (∀ t ∈ Ico a b \ F, ∀ k < c.Nspace, ∀ i ≤ c.M, 1 / 2 * S t k i * p.c =
        weightedMoment (fun r => q k r t) ((mesh t).edges k) ((mesh t).edges (k + 1)) i) →
      0 ≤ δ → (∀ l < p.Nang, angularMid p.Nang p.mus l - p.mus l ≤ δ) →
      0 < ρ → (∀ t ∈ Icc a b, ρ ≤ (mesh t).edges 1) →
      0 < W → (∀ l < p.Nang, W ≤ angularWidth p.Nang p.mus l) →
      (∀ t ∈ Icc a b, (mesh t).edges c.Nspace ≤ R) →
      (∀ t ∈ Icc a b, ∀ k < c.Nspace, (mesh t).edges (k + 1) - (mesh t).edges k ≤ h) →
      ((c.Nspace : ℝ) + 1) * h ≤ L → 0 ≤ A →
      (∀ t ∈ Ico a b \ F, ∀ l < p.Nang, ∀ k ≤ c.Nspace, |p.mus l - (mesh t).Dedges k| ≤ A) →
      (∀ t ∈ Icc a b, ∀ l < p.Nang, ∀ k < c.Nspace, ContDiffOn ℝ (c.M + 1)
        (fun r => u l k r t) (Icc ((mesh t).edges k) ((mesh t).edges (k + 1)))) →
      (∀ t ∈ Icc a b, ∀ l < p.Nang, ∀ k < c.Nspace,
        ∀ r ∈ Icc ((mesh t).edges k) ((mesh t).edges (k + 1)),
        |iteratedDerivWithin (c.M + 1) (fun r => u l k r t)
          (Icc ((mesh t).edges k) ((mesh t).edges (k + 1))) r| ≤ B) →
      SphereSolutionOn p c mesh mats S a b F V →
      ∀ t ∈ Icc a b,
        sphereSqDistance p.Nang (fun l => angularWidth p.Nang p.mus l / 2) c.Nspace c.M (mesh t).edges
            (V t) (fun l k r => u l k r t) ≤
          (sphereSqDistance p.Nang (fun l => angularWidth p.Nang p.mus l / 2) c.Nspace c.M
              (mesh a).edges (V a) (fun l k r => u l k r a)
            + ((t - a) * (L * A * R ^ 2 + 2 * R * (2 / W) ^ 2 * h) + R ^ 3 * h)
              * (K * B) ^ 2 * h ^ (2 * c.M + 1) + (t - a) * (2 * R * σ ^ 2))
          * Real.exp (max (p.c * (1 + κ) - 1 + 2 * δ * C / ρ) 0 * (t - a)) := by
  obtain ⟨C, K, hC, hK, hb⟩ := near_distance_bound M hM
  refine ⟨C, K, hC, hK, ?_⟩
  intro p c mesh mats S a b δ ρ h κ A B R W L σ F q ζ u V hd hκ hc hg hcM hN hF hmesh hoff hu hσ hS hδ hmid
    hρ hρ1 hW hW1 hR hh hL hA0 hA hsm hB hV t ht
  subst hcM
  have hab : a ≤ b := ht.1.trans ht.2
  have ha : a ∈ Icc a b := ⟨le_rfl, hab⟩
  have hh0 : 0 ≤ h := by
    have h1 := hh a ha 0 (by omega)
    have h2 := hmesh.ordered a ha 0 (by omega)
    linarith
  have hR0 : 0 ≤ R := by
    have h1 := edges_mono (hmesh.ordered a ha) (Nat.zero_le c.Nspace) le_rfl
    rw [hmesh.centre a ha] at h1
    exact h1.trans (hR a ha)
  have hB0 : 0 ≤ B := by
    have := hd.two
    exact (abs_nonneg _).trans (hB a ha 0 (by omega) 0 (by omega) _
      (left_mem_Icc.2 (hmesh.ordered a ha 0 (by omega)).le))
  set ε := B * h ^ (c.M + 1) with hε
  have hclose : ∀ s ∈ Icc a b, ∀ l < p.Nang, ∀ k < c.Nspace, ∃ U : ℕ → ℝ,
      ∀ r ∈ Icc ((mesh s).edges k) ((mesh s).edges (k + 1)),
      |sphereField c.M U ((mesh s).edges k) ((mesh s).edges (k + 1)) r - u l k r s| ≤ ε := by
    intro s hs l hl k hk
    have hlt := hmesh.ordered s hs k hk
    obtain ⟨U, hU⟩ := exists_close_sphere_field c.M hlt (hsm s hs l hl k hk) (hB s hs l hl k hk)
    refine ⟨U, fun x hx => (hU x hx).trans ?_⟩
    have h1 := hh s hs k hk
    have h2 : 0 ≤ (mesh s).edges (k + 1) - (mesh s).edges k := by linarith
    have h3 : (1 : ℝ) ≤ (c.M.factorial : ℝ) := by exact_mod_cast c.M.factorial_pos
    refine (div_le_self (by positivity) h3).trans ?_
    rw [hε]
    gcongr
  have hbound := hb p c mesh mats S a b δ ρ κ A R W ε σ F q ζ u V hd hκ hc hg rfl hN hF
    hmesh hoff hu hσ hS hδ hmid hW hW1 hρ
    (fun s hs => ⟨hρ1 s hs, hR s hs⟩) hA hclose hV t ht
  set E := p.c * (1 + κ) - 1 + 2 * δ * C / ρ with hE
  obtain ⟨hp, -⟩ := cell_weights (p := cellParams p) hd fun _ _ => rfl
  have hnn : 0 ≤ sphereSqDistance p.Nang (fun l => angularWidth p.Nang p.mus l / 2) c.Nspace c.M
      (mesh a).edges (V a) (fun l k r => u l k r a) :=
    sphereSqDistance_nonneg (fun l hl => (hp l hl).le) c.Nspace c.M (hmesh.ordered a ha) _ _
  have hta : 0 ≤ t - a := by linarith [ht.1]
  have hg1 := gronwallBound_le_exp (K := E) hnn
    (show 0 ≤ ((c.Nspace : ℝ) + 1) * (A * R ^ 2 * (K * ε) ^ 2) + R * (2 * (K * ε) / W + σ) ^ 2 by
      positivity) hta
  refine hbound.trans ((add_le_add hg1 le_rfl).trans ?_)
  set X := Real.exp (max E 0 * (t - a)) with hX
  have hX1 : 1 ≤ X := Real.one_le_exp (mul_nonneg (le_max_right _ _) hta)
  set G := (K * B) ^ 2 * h ^ (2 * c.M + 1) with hG
  have hG0 : 0 ≤ G := by positivity
  have eG : (K * ε) ^ 2 = G * h := by rw [hε, hG]; ring
  have h1 : ((c.Nspace : ℝ) + 1) * (A * R ^ 2 * (K * ε) ^ 2) ≤ L * A * R ^ 2 * G := by
    rw [eG]
    have := mul_le_mul_of_nonneg_right hL (show 0 ≤ A * R ^ 2 * G by positivity)
    linarith
  have h2 : R * (2 * (K * ε) / W + σ) ^ 2 ≤ 2 * R * (2 / W) ^ 2 * h * G + 2 * R * σ ^ 2 := by
    have e1 : (2 * (K * ε) / W) ^ 2 = (2 / W) ^ 2 * (K * ε) ^ 2 := by ring
    have e2 : (2 * (K * ε) / W + σ) ^ 2 ≤ 2 * (2 * (K * ε) / W) ^ 2 + 2 * σ ^ 2 := by
      nlinarith [sq_nonneg (2 * (K * ε) / W - σ)]
    rw [e1, eG] at e2
    have := mul_le_mul_of_nonneg_left e2 hR0
    linarith
  have h3 : R ^ 3 * (K * ε) ^ 2 ≤ R ^ 3 * h * G * X := by
    rw [eG]
    have : 0 ≤ R ^ 3 * h * G := by positivity
    nlinarith
  have h4 : (((c.Nspace : ℝ) + 1) * (A * R ^ 2 * (K * ε) ^ 2) + R * (2 * (K * ε) / W + σ) ^ 2) * (t - a) ≤
      (t - a) * (L * A * R ^ 2 + 2 * R * (2 / W) ^ 2 * h) * G + (t - a) * (2 * R * σ ^ 2) := by
    have := mul_le_mul_of_nonneg_right (add_le_add h1 h2) hta
    linarith
  have h5 := mul_le_mul_of_nonneg_right h4 (zero_le_one.trans hX1)
  have e6 : ∀ Y : ℝ, (Y + ((t - a) * (L * A * R ^ 2 + 2 * R * (2 / W) ^ 2 * h) + R ^ 3 * h)
      * (K * B) ^ 2 * h ^ (2 * c.M + 1) + (t - a) * (2 * R * σ ^ 2)) * X =
      Y * X + ((t - a) * (L * A * R ^ 2 + 2 * R * (2 / W) ^ 2 * h) * G + (t - a) * (2 * R * σ ^ 2)) * X
        + R ^ 3 * h * G * X := by
    intro Y; rw [hG]; ring
  rw [e6, add_mul]
  linarith

/-! ### From all directions to those of the program -/

theorem twiceBounded_of_contDiff {f : ℝ → ℝ} {D : ℝ} (hf : ContDiff ℝ 2 f)
    (h : ∀ x ∈ Icc (-1 : ℝ) 1, ∀ j ≤ 2, |iteratedDeriv j f x| ≤ D) :
    TwiceBounded f (deriv f) (deriv (deriv f)) D where
  first x := (hf.differentiable (by norm_num) x).hasDerivAt
  second x := by
    have h1 : ContDiff ℝ 1 (deriv f) := ((contDiff_succ_iff_deriv (n := 1)).1 (by exact_mod_cast hf)).2.2
    exact (h1.differentiable (by norm_num) x).hasDerivAt
  bound x hx := by simpa using h x hx 0 (by norm_num)
  bound1 x hx := by simpa [iteratedDeriv_one] using h x hx 1 (by norm_num)
  bound2 x hx := by
    have := h x hx 2 le_rfl
    rwa [iteratedDeriv_succ, iteratedDeriv_one] at this

/-- What the redistribution term and the sum over directions leave of the transport equation. -/
noncomputable def angularResidual (n : ℕ) (mus ws : ℕ → ℝ) (scat : ℝ) (ψ : ℝ → ℝ → ℝ → ℝ)
    (l : ℕ) (_k : ℕ) (r t : ℝ) : ℝ :=
  angularDifference n mus (fun l => ψ r (mus l) t) l - deriv (fun m => (1 - m ^ 2) * ψ r m t) (mus l)
    + r * scat * ((∫ m in (-1 : ℝ)..1, ψ r m t) / 2 - ∑ l' ∈ Finset.range n, ws l' * ψ r (mus l') t)

theorem deriv_flux {f f1 f2 : ℝ → ℝ} {D : ℝ} (h : TwiceBounded f f1 f2 D) (x : ℝ) :
    deriv (fun m => (1 - m ^ 2) * f m) x = -2 * x * f x + (1 - x ^ 2) * f1 x :=
  (h.flux.first x).deriv

/-- The sum over directions with given weights against the mean over all directions. -/
theorem weighted_sum_consistent {n : ℕ} {mus ws : ℕ → ℝ} (hd : DirectionSet n mus) {f f1 f2 : ℝ → ℝ}
    {D Δ ω : ℝ} (hf : TwiceBounded f f1 f2 D) (hΔ : ∀ l < n, angularWidth n mus l ≤ Δ)
    (hω : ∑ l ∈ Finset.range n, |ws l - angularWidth n mus l / 2| ≤ ω) :
    |(∫ m in (-1 : ℝ)..1, f m) / 2 - ∑ l ∈ Finset.range n, ws l * f (mus l)| ≤ D * (Δ + ω) := by
  have hD0 := hf.nonneg
  have h2 := angularSum_consistent hd hf hΔ
  have h3 : |∑ l ∈ Finset.range n, ws l * f (mus l)
      - ∑ l ∈ Finset.range n, angularWidth n mus l / 2 * f (mus l)| ≤ D * ω := by
    rw [← Finset.sum_sub_distrib]
    refine (Finset.abs_sum_le_sum_abs _ _).trans ?_
    refine le_trans (Finset.sum_le_sum fun l hl => ?_)
      ((Finset.mul_sum _ _ _).symm.le.trans (mul_le_mul_of_nonneg_left hω hD0))
    rw [← sub_mul, abs_mul, mul_comm]
    have hm := directionSet_mem hd (Finset.mem_range.1 hl)
    exact mul_le_mul_of_nonneg_right (hf.bound _ ⟨hm.1, hm.2⟩) (abs_nonneg _)
  rw [abs_le] at h2 h3 ⊢
  constructor <;> nlinarith [h2.1, h2.2, h3.1, h3.2]

/-- C139: weights near the widths of the angular cells give a rule. -/
theorem c139_rule_of_widths {n : ℕ} {mus ws : ℕ → ℝ} (hd : DirectionSet n mus) {Δ ω : ℝ}
    (hΔ : ∀ l < n, angularWidth n mus l ≤ Δ)
    (hω : ∑ l ∈ Finset.range n, |ws l - angularWidth n mus l / 2| ≤ ω) : AngularRule n mus ws (Δ + ω) :=
  fun _ hf _ hD => weighted_sum_consistent hd (twiceBounded_of_contDiff hf hD) hΔ hω

/-- C139: the residual is of first order in the widths of the angular cells, up to the error of the sum over
directions. -/
theorem c139_residual {n : ℕ} {mus ws : ℕ → ℝ} (hd : DirectionSet n mus) {scat : ℝ} (hs : 0 ≤ scat)
    {ψ : ℝ → ℝ → ℝ → ℝ} {D Δ ω R r t : ℝ} (hψ : ContDiff ℝ 2 fun m => ψ r m t)
    (hD : ∀ μ ∈ Icc (-1 : ℝ) 1, ∀ j ≤ 2, |iteratedDeriv j (fun m => ψ r m t) μ| ≤ D)
    (hΔ : ∀ l < n, angularWidth n mus l ≤ Δ)
    (hω : AngularRule n mus ws ω) (hr : r ∈ Icc 0 R) {l : ℕ} (hl : l < n) (k : ℕ) :
    |angularResidual n mus ws scat ψ l k r t| ≤ D * (9 * Δ + R * scat * ω) := by
  have hf := twiceBounded_of_contDiff hψ hD
  have hD0 := hf.nonneg
  have h1 : |angularDifference n mus (fun l => ψ r (mus l) t) l
      - deriv (fun m => (1 - m ^ 2) * ψ r m t) (mus l)| ≤ 9 * D * Δ := by
    rw [deriv_flux hf]
    exact (angularDifference_consistent hd hf hl).trans
      (mul_le_mul_of_nonneg_left (hΔ l hl) (by positivity))
  have h4 := hω _ hψ _ hD
  have h5 : |r * scat * ((∫ m in (-1 : ℝ)..1, ψ r m t) / 2
      - ∑ l' ∈ Finset.range n, ws l' * ψ r (mus l') t)| ≤ R * scat * (D * ω) := by
    rw [abs_mul, abs_of_nonneg (mul_nonneg hr.1 hs)]
    exact mul_le_mul (mul_le_mul_of_nonneg_right hr.2 hs) h4 (abs_nonneg _)
      (mul_nonneg (hr.1.trans hr.2) hs)
  unfold angularResidual
  refine (abs_add_le _ _).trans ((add_le_add h1 h5).trans_eq ?_)
  ring

/-- A solution of the transport equation, at the directions of the program, satisfies the
discrete-ordinates equations up to the residual. -/
theorem SphereTransport.near {n : ℕ} {mus ws : ℕ → ℝ} (hd : DirectionSet n mus) {scat : ℝ}
    {R V : ℝ → ℝ} {q : ℝ → ℝ → ℝ} {a b : ℝ} {F : Set ℝ} {ψ : ℝ → ℝ → ℝ → ℝ}
    (h : SphereTransport scat R V q a b F ψ) {N : ℕ} {e v : ℝ → ℕ → ℝ}
    (he0 : ∀ t ∈ Ico a b, ∀ k < N, 0 ≤ e t k) (heN : ∀ t ∈ Ico a b, ∀ k < N, e t (k + 1) ≤ R t)
    (heR : ∀ t ∈ Ico a b, e t N = R t) (hv : ∀ t ∈ Ico a b, v t N = V t) :
    SphereNearSolution n mus ws scat N e v (fun _ => q) (angularResidual n mus ws scat ψ) a b F
      (fun l _ r t => ψ r (mus l) t) where
  smooth l _ k _ := by
    have h1 : ContDiff ℝ 1 fun z : ℝ × ℝ => (z.1, mus l, z.2) :=
      contDiff_fst.prodMk (contDiff_const.prodMk contDiff_snd)
    exact (h.smooth.of_le (by norm_num)).comp h1
  residual t _ l _ k _ := by
    have hc : Continuous fun z : ℝ × ℝ × ℝ => ψ z.1 z.2.1 z.2.2 := h.smooth.continuous
    have hcm : ∀ m, Continuous fun r => ψ r m t := fun m =>
      hc.comp (continuous_id.prodMk (continuous_const.prodMk continuous_const))
    have hder : ∀ r, deriv (fun m => (1 - m ^ 2) * ψ r m t) (mus l) =
        -2 * mus l * ψ r (mus l) t + (1 - mus l ^ 2) *
          fderiv ℝ (fun z : ℝ × ℝ × ℝ => ψ z.1 z.2.1 z.2.2) (r, mus l, t) (0, 1, 0) := by
      intro r
      have h1 : HasDerivAt (fun m : ℝ => (r, m, t)) ((0 : ℝ), (1 : ℝ), (0 : ℝ)) (mus l) :=
        (hasDerivAt_const _ _).prodMk ((hasDerivAt_id _).prodMk (hasDerivAt_const _ _))
      have h2 := ((h.smooth.differentiable (by norm_num)) (r, mus l, t)).hasFDerivAt.comp_hasDerivAt
        (mus l) h1
      have h3 : HasDerivAt (fun x : ℝ => 1 - x ^ 2) (-2 * mus l) (mus l) := by
        refine ((hasDerivAt_pow 2 (mus l)).const_sub 1).congr_deriv ?_
        simp
      exact (h3.mul h2).deriv
    have hfd : Continuous fun r : ℝ =>
        fderiv ℝ (fun z : ℝ × ℝ × ℝ => ψ z.1 z.2.1 z.2.2) (r, mus l, t) (0, 1, 0) :=
      ((h.smooth.continuous_fderiv (by norm_num)).comp
        (continuous_id.prodMk (continuous_const.prodMk continuous_const))).clm_apply continuous_const
    have hint : Continuous fun r => ∫ m in (-1 : ℝ)..1, ψ r m t := by
      refine intervalIntegral.continuous_parametric_intervalIntegral_of_continuous' ?_ _ _
      exact hc.comp (continuous_fst.prodMk (continuous_snd.prodMk continuous_const))
    unfold angularResidual angularDifference
    simp only [hder]
    refine ((Continuous.div_const ?_ _).sub ?_).add ?_
    · exact (continuous_const.mul (((hcm _).add (hcm _)).div_const _)).sub
        (continuous_const.mul (((hcm _).add (hcm _)).div_const _))
    · exact (continuous_const.mul (hcm _)).add (continuous_const.mul hfd)
    · exact (continuous_id.mul continuous_const).mul ((hint.div_const _).sub
        (continuous_finsetSum _ fun l' _ => continuous_const.mul (hcm _)))
  equation t ht l hl k hk r hr := by
    have hm := directionSet_mem hd hl
    have h1 := h.equation t ht r ⟨(he0 t ht.1 k hk).trans hr.1, hr.2.trans (heN t ht.1 k hk)⟩ (mus l)
      ⟨hm.1, hm.2⟩
    unfold angularResidual
    linear_combination h1
  continuousFlux _ _ _ _ _ _ := rfl
  vacuum t ht l hl h1 := by
    have hm := directionSet_mem hd hl
    rw [hv t ht.1] at h1
    show ψ (e t N) (mus l) t = 0
    rw [heR t ht.1]
    exact h.vacuum t ht (mus l) ⟨hm.1, hm.2⟩ h1

/-! ### The program -/

/-- The sizes that enter the estimate: `h` bounds the widths of the shells at the first and the last
time, `R` the radius, `A` the speeds of the directions relative to the edges, `W` and `Δ` the angular cells
from below and above, `ω` the error of sums over the directions. -/
structure AngularMeshSizes (P : Problem) (e d : ℕ → ℝ) (T h A R W Δ ω : ℝ) : Prop where
  cell : 0 < W
  cells : ∀ l < P.Nang, W ≤ angularWidth P.Nang P.mus l
  cellsAbove : ∀ l < P.Nang, angularWidth P.Nang P.mus l ≤ Δ
  weights : AngularRule P.Nang P.mus P.ws ω
  first : e P.mesh.N ≤ R
  last : e P.mesh.N + d P.mesh.N * T ≤ R
  widthFirst : ∀ k < P.mesh.N, e (k + 1) - e k ≤ h
  widthLast : ∀ k < P.mesh.N, e (k + 1) + d (k + 1) * T - (e k + d k * T) ≤ h
  speed : 0 ≤ A
  speeds : ∀ l < P.Nang, ∀ k ≤ P.mesh.N, |P.mus l - d k| ≤ A

/-- What limits the accuracy of the program: the shells and the directions. -/
noncomputable def transportTerm (P : Problem) (h A B D R W Δ ω K t : ℝ) : ℝ :=
  (t * ((P.mesh.N + 1) * h * A * R ^ 2 + 2 * R * (2 / W) ^ 2 * h) + R ^ 3 * h)
      * (K * B) ^ 2 * h ^ (2 * P.M + 1)
    + t * (2 * R * (D * (9 * Δ + R * P.sigmaS * ω)) ^ 2)

/-- C139: the distance of the answer of the program from the solution of the transport equation with all
directions, at every time. -/
theorem c139_error_bound (M : ℕ) (hM : M ≤ 10) : ∃ C K : ℝ, 1 ≤ C ∧ 1 ≤ K ∧
    ∀ (P : Problem) (e d : ℕ → ℝ) (T δ ρ κ h A B D R W Δ ω : ℝ) (F G : Set ℝ) (ψ : ℝ → ℝ → ℝ → ℝ)
      (V : ℝ → ℕ → ℕ → ℕ → ℝ), AnyDirections P e d → Offsets P e d T δ ρ κ → P.M = M →
      AngularMeshSizes P e d T h A R W Δ ω →
      SmoothTransport M P.sigmaS (fun t => e P.mesh.N + d P.mesh.N * t) (fun _ => d P.mesh.N) T F B D ψ →
      G.Finite → ProgramSolutionOn P 0 T G V → ∀ t ∈ Icc 0 T,
        sphereSqDistance P.Nang (cellWs P) P.mesh.N M (fun k => e k + d k * t) (V t)
            (fun l _ r => ψ r (P.mus l) t) ≤
          (sphereSqDistance P.Nang (cellWs P) P.mesh.N M e (V 0) (fun l _ r => ψ r (P.mus l) 0)
            + transportTerm P h A B D R W Δ ω K t)
          * Real.exp (max (P.sigmaS * (1 + κ) - 1 + 2 * δ * C / ρ) 0 * t) := by
  obtain ⟨C, K, hC, hK, hb⟩ := near_scheme M hM
  refine ⟨C, K, hC, hK, ?_⟩
  intro P e d T δ ρ κ h A B D R W Δ ω F G ψ V hP hO hPM hS hψ hG hV t ht
  subst hPM
  have hl := fun t => meshAt_linear hP.problem.mesh t
  have hE : ∀ t, ∀ k < P.mesh.N, (meshAt P t).edges k = e k + d k * t ∧
      (meshAt P t).edges (k + 1) = e (k + 1) + d (k + 1) * t := fun t k hk =>
    ⟨(hl t).1 k hk.le, (hl t).1 (k + 1) hk⟩
  have hact : ∀ left t, ¬ BoundaryActive P.fluxConfig left t := by
    intro left t
    simp [BoundaryActive, Problem.fluxConfig, hP.noManufactured, hP.noBoundary]
  have hmesh := programMesh (a := 0) (b := T) hP.problem.toSphereSetup le_rfl (F ∪ G)
  have hF : (F ∪ G).Finite := hψ.finite.union hG
  have hV' : ProgramSolutionOn P 0 T (F ∪ G) V :=
    ⟨hV.1, fun t ht => hV.2 t ⟨ht.1, fun hf => ht.2 (Or.inr hf)⟩⟩
  have htr : SphereTransport P.sigmaS (fun t => e P.mesh.N + d P.mesh.N * t) (fun _ => d P.mesh.N)
      (fun _ _ => 0) 0 T (F ∪ G) ψ :=
    ⟨hψ.transport.smooth, fun t ht => hψ.transport.equation t ⟨ht.1, fun hf => ht.2 (Or.inl hf)⟩,
      fun t ht => hψ.transport.vacuum t ⟨ht.1, fun hf => ht.2 (Or.inl hf)⟩⟩
  have hzero : ∀ t ∈ Icc 0 T, ∀ k ≤ P.mesh.N, 0 ≤ (meshAt P t).edges k := fun t ht k hk => by
    have := edges_mono (hmesh.ordered t ht) (Nat.zero_le k) hk
    rwa [hmesh.centre t ht] at this
  have htop : ∀ t ∈ Icc 0 T, ∀ k < P.mesh.N, (meshAt P t).edges (k + 1) ≤ e P.mesh.N + d P.mesh.N * t :=
    fun t ht k hk => by
      have := edges_mono (hmesh.ordered t ht) (show k + 1 ≤ P.mesh.N from hk) le_rfl
      rwa [(hl t).1 _ le_rfl] at this
  have hIco : ∀ {t}, t ∈ Ico 0 T → t ∈ Icc 0 T := fun h => ⟨h.1, h.2.le⟩
  have hRt : ∀ t ∈ Icc 0 T, e P.mesh.N + d P.mesh.N * t ≤ R := fun t ht => line_le hS.first hS.last ht
  have hnear := SphereTransport.near (ws := P.ws) hP.directions htr (N := P.mesh.N)
    (e := fun t => (meshAt P t).edges) (v := fun t => (meshAt P t).Dedges)
    (fun t ht k hk => hzero t (hIco ht) k hk.le) (fun t ht k hk => htop t (hIco ht) k hk)
    (fun t _ => (hl t).1 _ le_rfl) (fun t _ => (hl t).2 _ le_rfl)
  have hcell : ∀ t ∈ Icc 0 T, ∀ k < P.mesh.N, ∀ r ∈ Icc (e k + d k * t) (e (k + 1) + d (k + 1) * t),
      r ∈ Icc 0 (e P.mesh.N + d P.mesh.N * t) := fun t ht k hk r hr => by
    rw [← (hE t k hk).1, ← (hE t k hk).2] at hr
    exact ⟨(hzero t ht k hk.le).trans hr.1, hr.2.trans (htop t ht k hk)⟩
  have hord : ∀ t ∈ Icc 0 T, ∀ k < P.mesh.N, e k + d k * t < e (k + 1) + d (k + 1) * t :=
    fun t ht k hk => by
      rw [← (hE t k hk).1, ← (hE t k hk).2]
      exact hmesh.ordered t ht k hk
  have hmain := hb P.params P.fluxConfig (meshAt P) (programMats P) (programSource P) 0 T δ ρ h κ A B R W
    ((P.mesh.N + 1) * h) (D * (9 * Δ + R * P.sigmaS * ω)) (F ∪ G) (fun _ _ _ => 0)
    (angularResidual P.Nang P.mus P.ws P.sigmaS ψ) (fun l _ r t => ψ r (P.mus l) t) V hP.directions
    hO.weights hP.scattering hP.problem.sphere rfl hP.shells hF hmesh (fun t _ => hact _ _) hnear
    (fun t ht l hl' k hk r hr => by
      have hk : k < P.mesh.N := hk
      rw [(hE t k hk).1, (hE t k hk).2] at hr
      have hr' := hcell t (hIco ht.1) k hk r hr
      refine c139_residual hP.directions hP.scattering ?_
        (hψ.angularBound t (hIco ht.1) r hr') hS.cellsAbove hS.weights
        ⟨hr'.1, hr'.2.trans (hRt t (hIco ht.1))⟩ hl' k
      exact hψ.transport.smooth.comp
        (contDiff_const.prodMk (contDiff_id.prodMk contDiff_const)))
    (fun t _ k _ i _ => by
      simp [programSource, sourceOf, if_neg hP.noSource, weightedMoment])
    hO.offset hO.offsets hO.inner
    (fun t ht => by
      rw [(hl t).1 1 (by have := hP.shells; omega)]
      have := line_le (a := -e 1) (b := -d 1) (h := -ρ) (by have := hO.innerFirst; linarith)
        (by have := hO.innerLast; linarith) ht
      linarith)
    hS.cell hS.cells
    (fun t ht => by
      rw [show P.fluxConfig.Nspace = P.mesh.N from rfl, (hl t).1 _ le_rfl]
      exact hRt t ht)
    (fun t ht k hk => by
      have hk : k < P.mesh.N := hk
      rw [(hE t k hk).1, (hE t k hk).2]
      have := line_le (a := e (k + 1) - e k) (b := d (k + 1) - d k) (hS.widthFirst k hk)
        (by have := hS.widthLast k hk; linarith) ht
      linarith)
    le_rfl hS.speed
    (fun t _ l hl' k hk => by
      rw [(hl t).2 k hk]
      exact hS.speeds l hl' k hk)
    (fun t ht l hl' k hk => by
      have hm := directionSet_mem hP.directions hl'
      exact (hψ.radial t ht (P.mus l) ⟨hm.1, hm.2⟩).contDiffOn)
    (fun t ht l hl' k hk r hr => by
      have hk : k < P.mesh.N := hk
      have hm := directionSet_mem hP.directions hl'
      rw [(hE t k hk).1, (hE t k hk).2] at hr ⊢
      have h1 := hψ.radialBound t ht (P.mus l) ⟨hm.1, hm.2⟩ r (hcell t ht k hk r hr)
      rwa [iteratedDerivWithin_eq_iteratedDeriv (uniqueDiffOn_Icc (hord t ht k hk))
        (by exact_mod_cast (hψ.radial t ht (P.mus l) ⟨hm.1, hm.2⟩).contDiffAt) hr])
    ((programSolution_iff hP.problem _ _ _ _).1 hV') t ht
  have hws : ∀ l < P.Nang, cellWs P l = angularWidth P.Nang P.mus l / 2 := fun _ _ => rfl
  rw [sphereSqDistance_congr P.Nang hws P.mesh.N P.M
      (e := fun k => e k + d k * t) (e' := (meshAt P t).edges) (fun k hk => ((hl t).1 k hk).symm),
    sphereSqDistance_congr P.Nang hws P.mesh.N P.M
      (e := e) (e' := (meshAt P 0).edges) (fun k hk => by rw [(hl 0).1 k hk]; ring)]
  refine hmain.trans_eq ?_
  unfold transportTerm
  rw [sub_zero, ← add_assoc]
  rfl

/-! ### What `solve` returns -/

/-- The bound of `c139_error_bound` at the final time, for the initial state `V0`. -/
noncomputable def transportBound (P : Problem) (e : ℕ → ℝ) (δ ρ κ h A B D R W Δ ω C K : ℝ) (V0 : StateVec)
    (ψ : ℝ → ℝ → ℝ → ℝ) : ℝ :=
  (sphereSqDistance P.Nang (cellWs P) P.mesh.N P.M e V0 (fun l _ r => ψ r (P.mus l) 0)
    + transportTerm P h A B D R W Δ ω K P.mesh.tfinal)
  * Real.exp (max (P.sigmaS * (1 + κ) - 1 + 2 * δ * C / ρ) 0 * P.mesh.tfinal)

/-- Squared error of a scalar flux `φ` against the integral of `ψ` over all directions, at the final
time.  The weights of the program need not have the sum two. -/
noncomputable def transportFluxError (P : Problem) (e d : ℕ → ℝ) (φ : ℝ → ℝ) (ψ : ℝ → ℝ → ℝ → ℝ) : ℝ :=
  ∑ k ∈ Finset.range P.mesh.N, ∫ r in (e k + d k * P.mesh.tfinal)..(e (k + 1) + d (k + 1) * P.mesh.tfinal),
    r ^ 2 * (φ r - (∑ l ∈ Finset.range P.Nang, P.rawWs l) / 2 *
      ∫ m in (-1 : ℝ)..1, ψ r m P.mesh.tfinal) ^ 2

/-- The results `Q` are within `b` of `ψ`, squared: the intensities in every direction with which the run
ends, and, up to the factor of the weights and the error `ε` of the sum over directions, the scalar flux
that is reported at whatever points.  The edges are where they belong. -/
structure TransportErrorAtMost (P : Problem) (e d : ℕ → ℝ) (choose : Option (List ℝ))
    (ψ : ℝ → ℝ → ℝ → ℝ) (b ε : ℝ) (Q : Results) : Prop where
  intensities : sphereSqDistance P.Nang (cellWs P) P.mesh.N P.M Q.edges Q.solLast
    (fun l _ r => ψ r (P.mus l) P.mesh.tfinal) ≤ b
  edges : ∀ k ≤ P.mesh.N, Q.edges k = e k + d k * P.mesh.tfinal
  points : Q.xs = P.outputPoints choose (meshAt P P.mesh.tfinal).edges
  reported : Q.phi = Q.xs.map (resultFlux P Q)
  flux : transportFluxError P e d (resultFlux P Q) ψ ≤
    2 * ((∑ l ∈ Finset.range P.Nang, P.rawWs l ^ 2 / cellWs P l) * b) + 2 * ε

theorem continuous_parametric {ψ : ℝ → ℝ → ℝ → ℝ} (h : ContDiff ℝ 2 fun z : ℝ × ℝ × ℝ => ψ z.1 z.2.1 z.2.2)
    (t : ℝ) : (∀ m, Continuous fun r => ψ r m t) ∧ Continuous fun r => ∫ m in (-1 : ℝ)..1, ψ r m t := by
  have hc : Continuous fun z : ℝ × ℝ × ℝ => ψ z.1 z.2.1 z.2.2 := h.continuous
  refine ⟨fun m => hc.comp (continuous_id.prodMk (continuous_const.prodMk continuous_const)), ?_⟩
  refine intervalIntegral.continuous_parametric_intervalIntegral_of_continuous' ?_ _ _
  exact hc.comp (continuous_fst.prodMk (continuous_snd.prodMk continuous_const))

/-- The scalar flux of a state against the integral over all directions. -/
theorem transport_flux_error {P : Problem} {e d : ℕ → ℝ} (hP : AnyDirections P e d)
    (hT : 0 ≤ P.mesh.tfinal) {ψ : ℝ → ℝ → ℝ → ℝ}
    (hψ : ContDiff ℝ 2 fun z : ℝ × ℝ × ℝ => ψ z.1 z.2.1 z.2.2) {R D ω : ℝ}
    (hR : e P.mesh.N + d P.mesh.N * P.mesh.tfinal ≤ R)
    (hD : ∀ r ∈ Icc 0 (e P.mesh.N + d P.mesh.N * P.mesh.tfinal), ∀ μ ∈ Icc (-1 : ℝ) 1, ∀ j ≤ 2,
      |iteratedDeriv j (fun m => ψ r m P.mesh.tfinal) μ| ≤ D)
    (hω : AngularRule P.Nang P.mus P.ws ω) (hs : ∑ l ∈ Finset.range P.Nang, P.rawWs l ≠ 0) (V : StateVec) :
    transportFluxError P e d (stateFlux P P.mesh.tfinal V) ψ ≤
      2 * fluxSqError P e d (stateFlux P P.mesh.tfinal V) (fun l _ r t => ψ r (P.mus l) t)
      + 2 * (R ^ 3 * ((∑ l ∈ Finset.range P.Nang, P.rawWs l) * (D * ω)) ^ 2) := by
  set T := P.mesh.tfinal with hTd
  set s := ∑ l ∈ Finset.range P.Nang, P.rawWs l with hsd
  obtain ⟨hcm, hci⟩ := continuous_parametric hψ T
  have hord : ∀ k < P.mesh.N, e k + d k * T < e (k + 1) + d (k + 1) * T := hP.problem.mesh.ordered T hT
  have hl := (meshAt_linear hP.problem.mesh T).1
  have hordm : ∀ k < P.mesh.N, (meshAt P T).edges k < (meshAt P T).edges (k + 1) := fun k hk => by
    rw [hl k hk.le, hl (k + 1) hk]
    exact hord k hk
  have e0 : e 0 + d 0 * T = 0 := by rw [hP.problem.mesh.centre, hP.problem.mesh.rest]; simp
  have hmono : ∀ {i j}, i ≤ j → j ≤ P.mesh.N → e i + d i * T ≤ e j + d j * T := fun {i j} hij hj => by
    have := edges_mono hordm hij hj
    rwa [hl i (hij.trans hj), hl j hj] at this
  -- the sum over directions against the integral
  have hsum : ∀ r ∈ Icc 0 (e P.mesh.N + d P.mesh.N * T),
      |∑ l ∈ Finset.range P.Nang, P.rawWs l * ψ r (P.mus l) T - s / 2 * ∫ m in (-1 : ℝ)..1, ψ r m T| ≤
        |s| * (D * ω) := by
    intro r hr
    have h1 := hω (fun m => ψ r m T)
      (hψ.comp (contDiff_const.prodMk (contDiff_id.prodMk contDiff_const))) D (hD r hr)
    have e1 : ∑ l ∈ Finset.range P.Nang, P.rawWs l * ψ r (P.mus l) T - s / 2 * ∫ m in (-1 : ℝ)..1, ψ r m T =
        -(s * ((∫ m in (-1 : ℝ)..1, ψ r m T) / 2 - ∑ l ∈ Finset.range P.Nang, P.ws l * ψ r (P.mus l) T)) := by
      have : ∑ l ∈ Finset.range P.Nang, P.rawWs l * ψ r (P.mus l) T =
          s * ∑ l ∈ Finset.range P.Nang, P.ws l * ψ r (P.mus l) T := by
        rw [Finset.mul_sum]
        refine Finset.sum_congr rfl fun l _ => ?_
        unfold Problem.ws
        rw [← hsd]
        field_simp
      rw [this]
      ring
    rw [e1, abs_neg, abs_mul]
    exact mul_le_mul_of_nonneg_left h1 (abs_nonneg _)
  have hR0 : 0 ≤ R := by
    have := hmono (Nat.zero_le P.mesh.N) le_rfl
    rw [e0] at this
    exact this.trans hR
  set X := s * (D * ω) with hX
  have hcell : ∀ k ∈ Finset.range P.mesh.N,
      ∫ r in (e k + d k * T)..(e (k + 1) + d (k + 1) * T), r ^ 2 * (stateFlux P T V r - s / 2 *
          ∫ m in (-1 : ℝ)..1, ψ r m T) ^ 2 ≤
        2 * (∫ r in (e k + d k * T)..(e (k + 1) + d (k + 1) * T), r ^ 2 * (stateFlux P T V r -
          ∑ l ∈ Finset.range P.Nang, P.rawWs l * ψ r (P.mus l) T) ^ 2)
        + 2 * (R ^ 2 * X ^ 2) * (e (k + 1) + d (k + 1) * T - (e k + d k * T)) := by
    intro k hk
    have hk := Finset.mem_range.1 hk
    have hab := hord k hk
    set g : ℝ → ℝ := fun r => ∑ l ∈ Finset.range P.Nang, P.rawWs l *
      sphereField P.M (V l k) (e k + d k * T) (e (k + 1) + d (k + 1) * T) r with hg
    have hgc : Continuous g := continuous_finsetSum _ fun l _ =>
      continuous_const.mul (Lemmas.continuous_sphereField P.M _ hab)
    have hgs : ∀ r ∈ uIoc (e k + d k * T) (e (k + 1) + d (k + 1) * T), stateFlux P T V r = g r := by
      intro r hr
      rw [uIoc_of_le hab.le] at hr
      unfold stateFlux meshFlux
      refine Finset.sum_congr rfl fun l _ => ?_
      rw [meshField_cell hordm (V l) hk (by rw [hl k hk.le]; exact hr.1) (by rw [hl (k + 1) hk]; exact hr.2),
        hl k hk.le, hl (k + 1) hk]
    have q1 := intervalIntegral.integral_congr_ae (μ := volume) (a := e k + d k * T)
      (b := e (k + 1) + d (k + 1) * T)
      (f := fun r => r ^ 2 * (stateFlux P T V r - s / 2 * ∫ m in (-1 : ℝ)..1, ψ r m T) ^ 2)
      (g := fun r => r ^ 2 * (g r - s / 2 * ∫ m in (-1 : ℝ)..1, ψ r m T) ^ 2)
      (Filter.Eventually.of_forall fun r hr => by rw [hgs r hr])
    have q2 := intervalIntegral.integral_congr_ae (μ := volume) (a := e k + d k * T)
      (b := e (k + 1) + d (k + 1) * T)
      (f := fun r => r ^ 2 * (stateFlux P T V r -
        ∑ l ∈ Finset.range P.Nang, P.rawWs l * ψ r (P.mus l) T) ^ 2)
      (g := fun r => r ^ 2 * (g r - ∑ l ∈ Finset.range P.Nang, P.rawWs l * ψ r (P.mus l) T) ^ 2)
      (Filter.Eventually.of_forall fun r hr => by rw [hgs r hr])
    rw [q1, q2]
    have c1 : Continuous fun r => r ^ 2 * (g r - s / 2 * ∫ m in (-1 : ℝ)..1, ψ r m T) ^ 2 :=
      (continuous_pow 2).mul ((hgc.sub (continuous_const.mul hci)).pow 2)
    have c2 : Continuous fun r => r ^ 2 * (g r -
        ∑ l ∈ Finset.range P.Nang, P.rawWs l * ψ r (P.mus l) T) ^ 2 :=
      (continuous_pow 2).mul ((hgc.sub (continuous_finsetSum _ fun l _ =>
        continuous_const.mul (hcm _))).pow 2)
    have h1 : ∫ r in (e k + d k * T)..(e (k + 1) + d (k + 1) * T),
        r ^ 2 * (g r - s / 2 * ∫ m in (-1 : ℝ)..1, ψ r m T) ^ 2 ≤
        ∫ r in (e k + d k * T)..(e (k + 1) + d (k + 1) * T), (2 * (r ^ 2 * (g r -
          ∑ l ∈ Finset.range P.Nang, P.rawWs l * ψ r (P.mus l) T) ^ 2) + 2 * (R ^ 2 * X ^ 2)) := by
      refine intervalIntegral.integral_mono_on hab.le (c1.intervalIntegrable _ _)
        (((continuous_const.mul c2).add continuous_const).intervalIntegrable _ _) fun r hr => ?_
      have hr0 : r ∈ Icc 0 (e P.mesh.N + d P.mesh.N * T) := by
        have h1 := hmono (Nat.zero_le k) hk.le
        rw [e0] at h1
        exact ⟨h1.trans hr.1, hr.2.trans (hmono hk le_rfl)⟩
      have h2 := hsum r hr0
      have h3 : (∑ l ∈ Finset.range P.Nang, P.rawWs l * ψ r (P.mus l) T
          - s / 2 * ∫ m in (-1 : ℝ)..1, ψ r m T) ^ 2 ≤ X ^ 2 := by
        rw [← sq_abs]
        refine (pow_le_pow_left₀ (abs_nonneg _) h2 2).trans_eq ?_
        rw [hX, mul_pow, sq_abs, ← mul_pow]
      set x := g r - ∑ l ∈ Finset.range P.Nang, P.rawWs l * ψ r (P.mus l) T with hx
      set y := ∑ l ∈ Finset.range P.Nang, P.rawWs l * ψ r (P.mus l) T
          - s / 2 * ∫ m in (-1 : ℝ)..1, ψ r m T with hy
      have e2 : g r - s / 2 * ∫ m in (-1 : ℝ)..1, ψ r m T = x + y := by rw [hx, hy]; ring
      rw [e2]
      have h4 : (x + y) ^ 2 ≤ 2 * x ^ 2 + 2 * y ^ 2 := by nlinarith [sq_nonneg (x - y)]
      have h5 : r ^ 2 ≤ R ^ 2 := pow_le_pow_left₀ hr0.1 (hr0.2.trans hR) 2
      have h6 := mul_le_mul_of_nonneg_left h4 (sq_nonneg r)
      have h7 : r ^ 2 * y ^ 2 ≤ R ^ 2 * X ^ 2 := mul_le_mul h5 h3 (sq_nonneg _) (sq_nonneg _)
      linarith
    refine h1.trans_eq ?_
    have c3 : Continuous fun r => 2 * (r ^ 2 * (g r -
        ∑ l ∈ Finset.range P.Nang, P.rawWs l * ψ r (P.mus l) T) ^ 2) := continuous_const.mul c2
    rw [intervalIntegral.integral_add (c3.intervalIntegrable _ _) intervalIntegrable_const, intervalIntegral.integral_const_mul, intervalIntegral.integral_const,
      smul_eq_mul]
    ring
  unfold transportFluxError fluxSqError
  refine (Finset.sum_le_sum hcell).trans ?_
  rw [Finset.sum_add_distrib, ← Finset.mul_sum, ← Finset.mul_sum,
    Finset.sum_range_sub (fun k => e k + d k * T), e0, sub_zero]
  have h1 : 2 * (R ^ 2 * X ^ 2) * (e P.mesh.N + d P.mesh.N * T) ≤ 2 * (R ^ 2 * X ^ 2) * R :=
    mul_le_mul_of_nonneg_left hR (by positivity)
  have e9 : 2 * (R ^ 2 * X ^ 2) * R = 2 * (R ^ 3 * X ^ 2) := by ring
  linarith

theorem error_of_near_all {P : Problem} {e d : ℕ → ℝ} (hP : AnyDirections P e d)
    (hT : 0 ≤ P.mesh.tfinal) {ψ : ℝ → ℝ → ℝ → ℝ} {F : Set ℝ} {h A B D R W Δ ω : ℝ}
    (hS : AngularMeshSizes P e d P.mesh.tfinal h A R W Δ ω)
    (hψ : SmoothTransport P.M P.sigmaS (fun t => e P.mesh.N + d P.mesh.N * t) (fun _ => d P.mesh.N)
      P.mesh.tfinal F B D ψ)
    (hs : ∑ l ∈ Finset.range P.Nang, P.rawWs l ≠ 0) :
    ∃ Q, 0 ≤ Q ∧ ∀ (V y : StateVec) (ρ b : ℝ) (choose : Option (List ℝ)) (S : Results), 0 ≤ ρ →
      StatesWithin P y V ρ →
      sphereSqDistance P.Nang (cellWs P) P.mesh.N P.M (fun k => e k + d k * P.mesh.tfinal) V
        (fun l _ r => ψ r (P.mus l) P.mesh.tfinal) ≤ b →
      Reports P e d choose y S → TransportErrorAtMost P e d choose ψ (2 * b + ρ ^ 2 * Q)
        (R ^ 3 * ((∑ l ∈ Finset.range P.Nang, P.rawWs l) * (D * ω)) ^ 2) S := by
  have hcont : ∀ l < P.Nang, ∀ k < P.mesh.N, Continuous fun r => ψ r (P.mus l) P.mesh.tfinal :=
    fun l _ _ _ => (continuous_parametric hψ.transport.smooth P.mesh.tfinal).1 _
  obtain ⟨Q, hQ0, hQ⟩ := error_of_near_any hP hT (u := fun l _ r t => ψ r (P.mus l) t) hcont
  refine ⟨Q, hQ0, fun V y ρ b choose S hρ hy hb hR => ?_⟩
  obtain ⟨g1, g2, g3, g4, g5⟩ := hQ V y ρ b choose S hρ hy hb hR
  have hfl := hR.flux hP.problem.mesh
  have h1 := transport_flux_error hP hT hψ.transport.smooth hS.last
    (hψ.angularBound P.mesh.tfinal ⟨hT, le_rfl⟩) hS.weights hs y
  rw [hfl] at h1
  exact ⟨g1, g2, g3, g4, by linarith⟩

theorem run_and_bound_all (M : ℕ) (hM : M ≤ 10) : ∃ C K : ℝ, 1 ≤ C ∧ 1 ≤ K ∧
    ∀ (P : Problem) (e d : ℕ → ℝ) (δ ρ κ h A B D R W Δ ω : ℝ) (F : Set ℝ) (ψ : ℝ → ℝ → ℝ → ℝ)
      (V0 : StateVec),
      AnyDirections P e d → Offsets P e d P.mesh.tfinal δ ρ κ → P.M = M → 0 < P.mesh.tfinal →
      AngularMeshSizes P e d P.mesh.tfinal h A R W Δ ω →
      SmoothTransport M P.sigmaS (fun t => e P.mesh.N + d P.mesh.N * t) (fun _ => d P.mesh.N)
        P.mesh.tfinal F B D ψ → StartsFrom P V0 →
      ∃ (G : Set ℝ) (V : ℝ → StateVec), G.Finite ∧ RunOn P P.mesh.tfinal G V ∧
        sphereSqDistance P.Nang (cellWs P) P.mesh.N P.M (fun k => e k + d k * P.mesh.tfinal)
          (V P.mesh.tfinal) (fun l _ r => ψ r (P.mus l) P.mesh.tfinal) ≤
          transportBound P e δ ρ κ h A B D R W Δ ω C K V0 ψ := by
  obtain ⟨C, K, hC1, hK1, hK⟩ := c139_error_bound M hM
  refine ⟨C, K, hC1, hK1, fun P e d δ ρ κ h A B D R W Δ ω F ψ V0 hP hO hPM hT hS hψ hV0 => ?_⟩
  subst hPM
  obtain ⟨V, ⟨hV, hVs⟩, -⟩ := c110_wellposed_partial hP.problem (Or.inl hP.noSource) hT.le V0
  set G : Set ℝ := {0, max 0 (min P.mesh.t0 P.mesh.tfinal)} with hG
  have hGf : G.Finite := by simp [hG]
  refine ⟨G, V, hGf, ⟨fun l hl k hk i hi => ?_, hV⟩, ?_⟩
  · rw [hVs l hl k hk i hi]
    exact hV0 l hl k hk i hi
  have h1 := hK P e d P.mesh.tfinal δ ρ κ h A B D R W Δ ω F G ψ V hP hO rfl hS hψ hGf hV P.mesh.tfinal
    ⟨hT.le, le_rfl⟩
  rw [sphereSqDistance_congr_state (V := V 0) (W := V0) (fun _ _ => rfl) hVs] at h1
  exact h1

/-- C139: the results of `solve` with `RK45` for a sphere without sources, for all directions and
weights, against a smooth solution of the transport equation with all directions. -/
theorem c139_rk45_error (M : ℕ) (hM : M ≤ 10) : ∃ C K : ℝ, 1 ≤ C ∧ 1 ≤ K ∧
    ∀ (P : Problem) (e d : ℕ → ℝ) (δ ρ κ h A B D R W Δ ω : ℝ) (F : Set ℝ) (ψ : ℝ → ℝ → ℝ → ℝ)
      (V0 : StateVec),
      AnyDirections P e d → Offsets P e d P.mesh.tfinal δ ρ κ → P.M = M → P.uncollided = false →
      0 < P.mesh.tfinal → AngularMeshSizes P e d P.mesh.tfinal h A R W Δ ω →
      SmoothTransport M P.sigmaS (fun t => e P.mesh.N + d P.mesh.N * t) (fun _ => d P.mesh.N)
        P.mesh.tfinal F B D ψ → ∑ l ∈ Finset.range P.Nang, P.rawWs l ≠ 0 → StartsFrom P V0 →
      ∃ Y, ∃ η₀ > 0, ∀ (es : List Event) (η : ℝ), 0 ≤ η → η ≤ η₀ → Arrives P es →
        (∀ s ∈ acceptedSteps es, s ≤ η) → ∀ estimate choose, ∃ Q,
          P.solve rk45 (rkInterpolant rk45 rk45Dense 4) es estimate choose = some Q ∧
          TransportErrorAtMost P e d choose ψ
            (2 * transportBound P e δ ρ κ h A B D R W Δ ω C K V0 ψ + Y * η ^ 10)
            (R ^ 3 * ((∑ l ∈ Finset.range P.Nang, P.rawWs l) * (D * ω)) ^ 2) Q := by
  obtain ⟨C, K, hC1, hK1, hK⟩ := run_and_bound_all M hM
  refine ⟨C, K, hC1, hK1,
    fun P e d δ ρ κ h A B D R W Δ ω F ψ V0 hP hO hPM hun hT hS hψ hs0 hV0 => ?_⟩
  obtain ⟨G, V, hG, hV, hb⟩ := hK P e d δ ρ κ h A B D R W Δ ω F ψ V0 hP hO hPM hT hS hψ hV0
  subst hPM
  obtain ⟨Y, η₀, h0, h1⟩ := c127_rk45_order hP.problem hP.noSource (Or.inl hP.noBoundary) hG hV.2
  obtain ⟨Q, hQ0, hQ⟩ := error_of_near_all hP hT.le hS hψ hs0
  refine ⟨max Y 0 ^ 2 * Q, η₀, h0, fun es η hη hη0 hes hs estimate choose => ?_⟩
  obtain ⟨S, x, r1, r2, r3, r4⟩ := c128_solve hP.problem (by have := hP.shells; omega) hun hT rk45_usable
    rk45_endsRight hV.1 hes estimate choose
  refine ⟨S, r1, ?_⟩
  have h2 := h1 _ es x 0 η le_rfl hη hη0 (fun s hs' => ⟨(hes.1 s hs').le, hs s hs'⟩)
    (hV.1.within hV.1) r2 r3.le
  rw [zero_add, r3] at h2
  have h3 := hQ (V P.mesh.tfinal) x.y (max Y 0 * η ^ 5) _ choose S (by positivity)
    (fun l hl k hk i hi => (h2 l hl k hk i hi).trans
      (mul_le_mul_of_nonneg_right (le_max_left _ _) (by positivity))) hb r4
  rwa [show (max Y 0 * η ^ 5) ^ 2 * Q = max Y 0 ^ 2 * Q * η ^ 10 by ring] at h3

/-- C139: with every consistent Runge-Kutta method, if the accepted steps are short enough. -/
theorem c139_consistent_error (M : ℕ) (hM : M ≤ 10) : ∃ C K : ℝ, 1 ≤ C ∧ 1 ≤ K ∧
    ∀ (P : Problem) (e d : ℕ → ℝ) (δ ρ κ h A B D R W Δ ω : ℝ) (F : Set ℝ) (ψ : ℝ → ℝ → ℝ → ℝ)
      (V0 : StateVec) (τ : Tableau) (I : Interpolant),
      AnyDirections P e d → Offsets P e d P.mesh.tfinal δ ρ κ → P.M = M → P.uncollided = false →
      0 < P.mesh.tfinal → AngularMeshSizes P e d P.mesh.tfinal h A R W Δ ω →
      SmoothTransport M P.sigmaS (fun t => e P.mesh.N + d P.mesh.N * t) (fun _ => d P.mesh.N)
        P.mesh.tfinal F B D ψ → ∑ l ∈ Finset.range P.Nang, P.rawWs l ≠ 0 → StartsFrom P V0 →
      UsableMethod τ → ∑ i ∈ Finset.range τ.n, τ.b i = 1 → EndsRight τ I →
      ∀ ε > 0, ∃ η > 0, ∀ es : List Event, Arrives P es → (∀ s ∈ acceptedSteps es, s ≤ η) →
        ∀ estimate choose, ∃ Q, P.solve τ I es estimate choose = some Q ∧
          TransportErrorAtMost P e d choose ψ
            (2 * transportBound P e δ ρ κ h A B D R W Δ ω C K V0 ψ + ε)
            (R ^ 3 * ((∑ l ∈ Finset.range P.Nang, P.rawWs l) * (D * ω)) ^ 2) Q := by
  obtain ⟨C, K, hC1, hK1, hK⟩ := run_and_bound_all M hM
  refine ⟨C, K, hC1, hK1,
    fun P e d δ ρ κ h A B D R W Δ ω F ψ V0 τ I hP hO hPM hun hT hS hψ hs0 hV0 hτ hτb hI ε hε => ?_⟩
  obtain ⟨G, V, hG, hV, hb⟩ := hK P e d δ ρ κ h A B D R W Δ ω F ψ V0 hP hO hPM hT hS hψ hV0
  subst hPM
  obtain ⟨Y, h1⟩ := c125_converges hP.problem (Or.inl hP.noSource) hτ hT.le hG hV.2 0
  obtain ⟨Q, hQ0, hQ⟩ := error_of_near_all hP hT.le hS hψ hs0
  set r := min 1 (ε / (Q + 1)) with hr
  have hr0 : 0 < r := lt_min one_pos (by positivity)
  obtain ⟨η, hη, h1⟩ := h1 r hr0
  refine ⟨η, hη, fun es hes hs estimate choose => ?_⟩
  obtain ⟨S, x, r1, r2, r3, r4⟩ := c128_solve hP.problem (by have := hP.shells; omega) hun hT hτ
    hI hV.1 hes estimate choose
  refine ⟨S, r1, ?_⟩
  have h2 := (h1 _ es x (fun s hs' => ⟨(hes.1 s hs').le, hs s hs'⟩)
    (fun l hl k hk i hi => (hV.1.within hV.1 l hl k hk i hi).trans hη.le) r2 r3.le).1
  rw [hτb, sub_self, abs_zero, mul_zero, add_zero, r3] at h2
  have h3 := hQ (V P.mesh.tfinal) x.y r _ choose S hr0.le h2 hb r4
  have h4 : r ^ 2 * Q ≤ ε := by
    have a1 : r ^ 2 ≤ r := by
      have := min_le_left 1 (ε / (Q + 1))
      nlinarith
    have a2 : r * (Q + 1) ≤ ε := by
      have := min_le_right 1 (ε / (Q + 1))
      rwa [← hr, le_div_iff₀ (by positivity)] at this
    nlinarith
  obtain ⟨g1, g2, g3, g4, g5⟩ := h3
  exact ⟨by linarith, g2, g3, g4, g5.trans (add_le_add (mul_le_mul_of_nonneg_left
    (mul_le_mul_of_nonneg_left (by linarith) (flux_factor_nonneg hP)) zero_le_two) le_rfl)⟩

end Verif.Props
