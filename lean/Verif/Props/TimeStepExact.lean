import Verif.Props.TimeStep
import Verif.Props.SphereProgram

/-!
Property C125, continued: what `solve_ivp` returns for the sphere program, compared with the solution
of the transport equation.
-/

namespace Verif.Props

open Set Filter Verif.Spec Verif.Model Verif.Lemmas

/-- Squared distances of two states from a function. -/
theorem sphereSqDistance_near (n : ℕ) {ws : ℕ → ℝ} (hw : ∀ l < n, 0 ≤ ws l) (N M : ℕ) {e : ℕ → ℝ}
    (he : ∀ k < N, e k < e (k + 1)) (u : ℕ → ℕ → ℝ → ℝ)
    (hu : ∀ l < n, ∀ k < N, Continuous (u l k)) :
    ∃ Q, 0 ≤ Q ∧ ∀ (V W : ℕ → ℕ → ℕ → ℝ) (ρ : ℝ), 0 ≤ ρ →
      (∀ l < n, ∀ k < N, ∀ i ≤ M, |W l k i - V l k i| ≤ ρ) →
      sphereSqDistance n ws N M e W u ≤ 2 * sphereSqDistance n ws N M e V u + ρ ^ 2 * Q := by
  set q : ℕ → ℝ := fun k => ∫ r in (e k)..(e (k + 1)),
    r ^ 2 * (∑ j ∈ Finset.range (M + 1), |sphereBasis j r (e k) (e (k + 1))|) ^ 2 with hq
  have hB : ∀ k < N, ∀ j, Continuous fun r => sphereBasis j r (e k) (e (k + 1)) := fun k hk j =>
    continuous_sphereBasis (he k hk) j
  have hq0 : ∀ k < N, 0 ≤ q k := fun k hk =>
    intervalIntegral.integral_nonneg (he k hk).le fun r _ => by positivity
  refine ⟨2 * ∑ l ∈ Finset.range n, ws l * ∑ k ∈ Finset.range N, q k, ?_, fun V W ρ hρ h => ?_⟩
  · refine mul_nonneg zero_le_two (Finset.sum_nonneg fun l hl => mul_nonneg (hw l (Finset.mem_range.1 hl))
      (Finset.sum_nonneg fun k hk => hq0 k (Finset.mem_range.1 hk)))
  have key : ∀ l < n, ∀ k < N, (∫ r in (e k)..(e (k + 1)),
      r ^ 2 * (sphereField M (W l k) (e k) (e (k + 1)) r - u l k r) ^ 2) ≤
      2 * (∫ r in (e k)..(e (k + 1)),
        r ^ 2 * (sphereField M (V l k) (e k) (e (k + 1)) r - u l k r) ^ 2) + 2 * ρ ^ 2 * q k := by
    intro l hl k hk
    have c1 : Continuous fun r => r ^ 2 * (sphereField M (W l k) (e k) (e (k + 1)) r - u l k r) ^ 2 :=
      (continuous_pow 2).mul (((Lemmas.continuous_sphereField M _ (he k hk)).sub (hu l hl k hk)).pow 2)
    have c2 : Continuous fun r => r ^ 2 * (sphereField M (V l k) (e k) (e (k + 1)) r - u l k r) ^ 2 :=
      (continuous_pow 2).mul (((Lemmas.continuous_sphereField M _ (he k hk)).sub (hu l hl k hk)).pow 2)
    have c3 : Continuous fun r : ℝ =>
        r ^ 2 * (∑ j ∈ Finset.range (M + 1), |sphereBasis j r (e k) (e (k + 1))|) ^ 2 :=
      (continuous_pow 2).mul ((continuous_finsetSum _ fun j _ => (hB k hk j).abs).pow 2)
    rw [hq]
    beta_reduce
    rw [← intervalIntegral.integral_const_mul, ← intervalIntegral.integral_const_mul,
      ← intervalIntegral.integral_add ((c2.intervalIntegrable _ _).const_mul _)
        ((c3.intervalIntegrable _ _).const_mul _)]
    refine intervalIntegral.integral_mono_on (he k hk).le (c1.intervalIntegrable _ _)
      (((c2.intervalIntegrable _ _).const_mul _).add ((c3.intervalIntegrable _ _).const_mul _))
      fun r _ => ?_
    set s := ∑ j ∈ Finset.range (M + 1), |sphereBasis j r (e k) (e (k + 1))|
    have h1 : |sphereField M (W l k) (e k) (e (k + 1)) r - sphereField M (V l k) (e k) (e (k + 1)) r|
        ≤ ρ * s := by
      unfold sphereField
      rw [← Finset.sum_sub_distrib, Finset.mul_sum]
      refine (Finset.abs_sum_le_sum_abs _ _).trans (Finset.sum_le_sum fun j hj => ?_)
      rw [← sub_mul, abs_mul]
      exact mul_le_mul_of_nonneg_right (h l hl k hk j (Nat.lt_succ_iff.1 (Finset.mem_range.1 hj)))
        (abs_nonneg _)
    have h2 := sq_le_sq' (abs_le.1 h1).1 (abs_le.1 h1).2
    set a := sphereField M (W l k) (e k) (e (k + 1)) r
    set b := sphereField M (V l k) (e k) (e (k + 1)) r
    have h3 : (a - u l k r) ^ 2 ≤ 2 * (b - u l k r) ^ 2 + 2 * ρ ^ 2 * s ^ 2 := by
      nlinarith [sq_nonneg ((a - b) - (b - u l k r))]
    have h4 := mul_le_mul_of_nonneg_left h3 (sq_nonneg r)
    linarith
  unfold sphereSqDistance
  rw [Finset.mul_sum, mul_left_comm, Finset.mul_sum, Finset.mul_sum, ← Finset.sum_add_distrib]
  refine Finset.sum_le_sum fun l hl => ?_
  have hl := Finset.mem_range.1 hl
  have h1 : ∑ k ∈ Finset.range N, (∫ r in (e k)..(e (k + 1)),
      r ^ 2 * (sphereField M (W l k) (e k) (e (k + 1)) r - u l k r) ^ 2) ≤
      2 * (∑ k ∈ Finset.range N, ∫ r in (e k)..(e (k + 1)),
        r ^ 2 * (sphereField M (V l k) (e k) (e (k + 1)) r - u l k r) ^ 2) +
      2 * ρ ^ 2 * ∑ k ∈ Finset.range N, q k := by
    rw [Finset.mul_sum, Finset.mul_sum, ← Finset.sum_add_distrib]
    exact Finset.sum_le_sum fun k hk => key l hl k (Finset.mem_range.1 hk)
  have h2 := mul_le_mul_of_nonneg_left h1 (hw l hl)
  refine h2.trans_eq ?_
  ring

theorem sphereSolution_mono {n : ℕ} {mus ws : ℕ → ℝ} {scat : ℝ} {N : ℕ} {e v : ℝ → ℕ → ℝ}
    {q : ℕ → ℝ → ℝ → ℝ} {a b : ℝ} {F G : Set ℝ} {u : ℕ → ℕ → ℝ → ℝ → ℝ} (hFG : F ⊆ G)
    (h : SphereSolution n mus ws scat N e v q a b F u) : SphereSolution n mus ws scat N e v q a b G u where
  smooth := h.smooth
  equation t ht := h.equation t ⟨ht.1, fun hf => ht.2 (hFG hf)⟩
  continuousFlux t ht := h.continuousFlux t ⟨ht.1, fun hf => ht.2 (hFG hf)⟩
  vacuum t ht := h.vacuum t ⟨ht.1, fun hf => ht.2 (hFG hf)⟩

/-- C125 with C118: the state that the integrator returns at time `T`, on the mesh of a point pulse,
started near the projection `V0` of the exact solution.  Its squared distance from the exact solution
is at most twice the bound of C118 for the exact answer of the equations, plus any `ε` when the
accepted steps are short enough. -/
theorem c125_whole_program (M : ℕ) (hM : M ≤ 10) : ∃ K : ℝ, 1 ≤ K ∧
    ∀ (P : Problem) (R0 v T A B W : ℝ) (F : Set ℝ) (u : ℕ → ℕ → ℝ → ℝ → ℝ) (V0 : StateVec)
      (τ : Tableau),
      EstimateSetting P (evenEdges P.mesh.N R0) (evenEdges P.mesh.N v) → P.M = M → F.Finite →
      0 < W → (∀ l < P.Nang, W ≤ angularWidth P.Nang P.mus l) → 0 ≤ v → 0 ≤ A → 0 ≤ T →
      (∀ l < P.Nang, ∀ k ≤ P.mesh.N, |P.mus l - evenEdges P.mesh.N v k| ≤ A) →
      SphereSolution P.Nang P.mus P.ws P.sigmaS P.mesh.N (fun t => evenEdges P.mesh.N (R0 + v * t))
        (fun _ => evenEdges P.mesh.N v) (fun _ _ _ => 0) 0 T F u →
      (∀ t ∈ Icc 0 T, ∀ l < P.Nang, ∀ k < P.mesh.N, ContDiffOn ℝ (M + 1) (fun r => u l k r t)
        (Icc (evenEdges P.mesh.N (R0 + v * t) k) (evenEdges P.mesh.N (R0 + v * t) (k + 1)))) →
      (∀ t ∈ Icc 0 T, ∀ l < P.Nang, ∀ k < P.mesh.N,
        ∀ r ∈ Icc (evenEdges P.mesh.N (R0 + v * t) k) (evenEdges P.mesh.N (R0 + v * t) (k + 1)),
        |iteratedDerivWithin (M + 1) (fun r => u l k r t)
          (Icc (evenEdges P.mesh.N (R0 + v * t) k) (evenEdges P.mesh.N (R0 + v * t) (k + 1))) r|
            ≤ B) →
      (∀ l < P.Nang, ∀ k < P.mesh.N, IsSphereProjection M (fun r => u l k r 0)
        (evenEdges P.mesh.N R0 k) (evenEdges P.mesh.N R0 (k + 1)) (V0 l k)) →
      UsableMethod τ → ∑ i ∈ Finset.range τ.n, τ.b i = 1 →
      ∀ ε > 0, ∃ η > 0, ∀ (y0 : StateVec) (es : List Event) (x : StepState),
        (∀ s ∈ acceptedSteps es, 0 ≤ s ∧ s ≤ η) → StatesWithin P y0 V0 η →
        P.integrate τ y0 es = some x → x.t = T →
        sphereSqDistance P.Nang P.ws P.mesh.N M (evenEdges P.mesh.N (R0 + v * T)) x.y
            (fun l k r => u l k r T) ≤
          2 * ((T * (2 * A * (R0 + v * T) ^ 3 + (2 / W) ^ 2 * (R0 + v * T) ^ 2) + 2 * (R0 + v * T) ^ 4)
            * (K * B) ^ 2 * ((R0 + v * T) / P.mesh.N) ^ (2 * M + 1)
            * Real.exp (max (2 * P.sigmaS - 1) 0 * T)) + ε := by
  obtain ⟨K, hK1, hK⟩ := c118_rate_partial M hM
  refine ⟨K, hK1, ?_⟩
  intro P R0 v T A B W F u V0 τ hP hPM hF hW hW1 hv hA0 hT hA hu hsm hB hV0 hτ hb ε hε
  obtain ⟨V, ⟨hV, hVs⟩, -⟩ := c110_wellposed_partial hP.problem (Or.inl hP.noSource) hT V0
  set G : Set ℝ := {0, max 0 (min P.mesh.t0 T)} with hG
  have hGf : (F ∪ G).Finite := hF.union (by simp [hG])
  have hV' : ProgramSolutionOn P 0 T (F ∪ G) V :=
    ⟨hV.1, fun t ht => hV.2 t ⟨ht.1, fun hf => ht.2 (Or.inr hf)⟩⟩
  have hproj : ∀ l < P.Nang, ∀ k < P.mesh.N, IsSphereProjection M (fun r => u l k r 0)
      (evenEdges P.mesh.N R0 k) (evenEdges P.mesh.N R0 (k + 1)) (V 0 l k) := by
    intro l hl k hk i hi
    refine Eq.trans ?_ (hV0 l hl k hk i hi)
    have : ∀ r, sphereField M (V 0 l k) (evenEdges P.mesh.N R0 k) (evenEdges P.mesh.N R0 (k + 1)) r =
        sphereField M (V0 l k) (evenEdges P.mesh.N R0 k) (evenEdges P.mesh.N R0 (k + 1)) r := by
      intro r
      unfold sphereField
      refine Finset.sum_congr rfl fun j hj => ?_
      rw [hVs l hl k hk j (hPM ▸ Nat.lt_succ_iff.1 (Finset.mem_range.1 hj))]
    simp only [this]
  have hbound := hK P R0 v T A B W (F ∪ G) u V hP hPM hGf hW hW1 hv hA0 hA
    (sphereSolution_mono subset_union_left hu) hsm hB hV' hproj T ⟨hT, le_rfl⟩
  have hedges : ∀ k < P.mesh.N, evenEdges P.mesh.N (R0 + v * T) k < evenEdges P.mesh.N (R0 + v * T) (k + 1) := by
    intro k hk
    have h1 := hP.problem.mesh.ordered T hT k hk
    simp only [evenEdges] at h1 ⊢
    linarith
  have hw0 : ∀ l < P.Nang, 0 ≤ P.ws l := fun l hl =>
    ((cell_weights (p := P.params) hP.directions (hP.weights.ws hP.problem.directions)).1 l hl).le
  obtain ⟨Q, hQ0, hQ⟩ := sphereSqDistance_near P.Nang hw0 P.mesh.N M hedges (fun l k r => u l k r T)
    (fun l hl k hk => (hu.smooth l hl k hk).continuous.comp (by fun_prop : Continuous fun r : ℝ => (r, T)))
  obtain ⟨C, hC⟩ := c125_converges hP.problem (Or.inl hP.noSource) hτ hT hGf hV' 0
  set ρ := min 1 (ε / (Q + 1)) with hρ
  have hρ0 : 0 < ρ := lt_min one_pos (by positivity)
  obtain ⟨η, hη, hC⟩ := hC ρ hρ0
  refine ⟨η, hη, fun y0 es x hes hy0 hx hxT => ?_⟩
  have h1 := (hC y0 es x hes (fun l hl k hk i hi => by rw [hVs l hl k hk i hi]; exact hy0 l hl k hk i hi)
    hx hxT.le).1
  rw [hb, sub_self, abs_zero, mul_zero, add_zero, hxT] at h1
  have h2 := hQ (V T) x.y ρ hρ0.le (fun l hl k hk i hi => h1 l hl k hk i (hPM ▸ hi))
  have h3 : ρ ^ 2 * Q ≤ ε := by
    have a1 : ρ ^ 2 ≤ ρ := by
      have := min_le_left 1 (ε / (Q + 1))
      nlinarith
    have a2 : ρ * (Q + 1) ≤ ε := by
      have := min_le_right 1 (ε / (Q + 1))
      rwa [← hρ, le_div_iff₀ (by positivity)] at this
    nlinarith
  linarith

/-- The critical sphere with `RK45`: for every number of shells, short enough accepted steps from the
projection of the exact solution, with whatever rejected ones in between, end at time `2` within
`C N^-3` of it, squared. -/
example : ∃ inv, InverseCorrect 1 inv ∧ ∃ C : ℝ, ∀ N : ℕ, 2 ≤ N → ∃ V0 : StateVec, ∃ η > 0,
    (∀ l k, IsSphereProjection 1 (fun r => criticalU l k r 0) (evenEdges N (1 / 2) k)
      (evenEdges N (1 / 2) (k + 1)) (V0 l k)) ∧
    ∀ es x, (∀ s ∈ acceptedSteps es, 0 ≤ s ∧ s ≤ η) →
      (exampleCritical inv N).integrate rk45 V0 es = some x → x.t = 2 →
      sphereSqDistance 2 (exampleCritical inv N).ws N 1 (evenEdges N (1 / 2)) x.y
        (fun l k r => criticalU l k r 2) ≤ C * ((1 / 2) / N) ^ 3 := by
  obtain ⟨inv, hi⟩ := inverse_exists 1
  refine ⟨inv, hi, ?_⟩
  obtain ⟨K, -, hK⟩ := c125_whole_program 1 (by norm_num)
  have hcont : ∀ l : ℕ, ∃ B, ∀ r ∈ Icc (0 : ℝ) (1 / 2),
      |iteratedDeriv 2 (fun r => criticalU l 0 r 0) r| ≤ B := by
    intro l
    have h1 : Continuous (iteratedDeriv 2 (fun r => criticalU l 0 r 0)) :=
      (contDiff_criticalU (n := 2) l 0 0).continuous_iteratedDeriv 2 le_rfl
    obtain ⟨B, hB⟩ := isCompact_Icc.exists_bound_of_continuousOn (s := Icc (0 : ℝ) (1 / 2))
      h1.continuousOn
    exact ⟨B, fun r hr => hB r hr⟩
  obtain ⟨B0, hB0⟩ := hcont 0
  obtain ⟨B1, hB1⟩ := hcont 1
  set C := (2 * (2 * (1 / 2) * (1 / 2 + 0 * 2) ^ 3 + (2 / 1) ^ 2 * (1 / 2 + 0 * 2) ^ 2)
    + 2 * (1 / 2 + 0 * 2) ^ 4) * (K * max B0 B1) ^ 2 *
      Real.exp (max (2 * (1 + Real.pi ^ 2 / 4) - 1) 0 * 2) with hC
  refine ⟨2 * C + 1, fun N hN => ?_⟩
  have hs := exampleCritical_setting hi hN
  have hN0 : (0 : ℝ) < N := by exact_mod_cast (by omega : 0 < N)
  have hlt : ∀ k, evenEdges N (1 / 2) k < evenEdges N (1 / 2) (k + 1) := by
    intro k
    have h1 := evenEdges_width (N := N) (1 / 2) k
    have h2 : (0 : ℝ) < 1 / 2 / N := by positivity
    linarith
  have hproj : ∀ l k, ∃ Q : ℕ → ℝ, IsSphereProjection 1 (fun r => criticalU l k r 0)
      (evenEdges N (1 / 2) k) (evenEdges N (1 / 2) (k + 1)) Q := fun l k =>
    exists_sphere_projection 1 (contDiff_criticalU (n := 0) l k 0).continuous (hlt k)
  choose Q hQ using hproj
  have hε : (0 : ℝ) < ((1 / 2) / N) ^ 3 := by positivity
  obtain ⟨η, hη, hmain⟩ := hK (exampleCritical inv N) (1 / 2) 0 2 (1 / 2) (max B0 B1) 1 {0, 1} criticalU Q
    rk45 hs rfl (by simp) one_pos example_cells le_rfl (by norm_num) zero_le_two
    (fun l hl k _ => by
      have hl2 : l = 0 ∨ l = 1 := by have : l < 2 := hl; omega
      have h0 : evenEdges (exampleCritical inv N).mesh.N 0 k = 0 := by simp [evenEdges]
      rw [h0, sub_zero]
      rcases hl2 with rfl | rfl <;>
        norm_num [exampleCritical, exampleShell, exampleSphereParams, abs_le])
    (critical_solution hi hN 2 {0, 1})
    (fun t _ l _ k _ => (contDiff_criticalU l k t).contDiffOn)
    (fun t _ l hl k hk r hr => by
      have hl2 : l = 0 ∨ l = 1 := by have : l < 2 := hl; omega
      have hk : k < N := hk
      have e0 : evenEdges (exampleCritical inv N).mesh.N (1 / 2 + 0 * t) = evenEdges N (1 / 2) := by
        rw [zero_mul, add_zero]
        rfl
      rw [e0] at hr ⊢
      have h1 : (fun r => criticalU l k r t) = fun r => criticalU l 0 r 0 := rfl
      rw [h1, iteratedDerivWithin_eq_iteratedDeriv (uniqueDiffOn_Icc (hlt k))
        (contDiff_criticalU l 0 0).contDiffAt hr]
      have hr2 : r ∈ Icc (0 : ℝ) (1 / 2) := by
        refine ⟨le_trans ?_ hr.1, hr.2.trans ?_⟩
        · unfold evenEdges
          positivity
        · unfold evenEdges
          have : ((k + 1 : ℕ) : ℝ) / N ≤ 1 := by
            rw [div_le_one hN0]
            exact_mod_cast hk
          linarith
      rcases hl2 with rfl | rfl
      · exact (hB0 r hr2).trans (le_max_left _ _)
      · exact (hB1 r hr2).trans (le_max_right _ _))
    (fun l _ k _ => hQ l k) rk45_usable (by linarith [rk45_sum]) _ hε
  refine ⟨Q, η, hη, hQ, fun es x hes hx hxT => ?_⟩
  have h1 := hmain Q es x hes (fun l _ k _ i _ => by rw [sub_self, abs_zero]; exact hη.le) hx hxT
  have e0 : evenEdges (exampleCritical inv N).mesh.N (1 / 2 + 0 * 2) = evenEdges N (1 / 2) := by
    rw [zero_mul, add_zero]
    rfl
  rw [e0] at h1
  refine h1.trans_eq ?_
  have e1 : (exampleCritical inv N).mesh.N = N := rfl
  have e2 : (exampleCritical inv N).sigmaS = 1 + Real.pi ^ 2 / 4 := rfl
  rw [e1, e2, show 2 * 1 + 1 = 3 from rfl, show (1 / 2 + 0 * 2 : ℝ) / N = 1 / 2 / N by ring, hC]
  ring

end Verif.Props
