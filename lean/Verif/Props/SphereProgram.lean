import Verif.Props.SystemSphere
import Verif.Props.SphereConvergence
import Mathlib.Analysis.SpecialFunctions.Trigonometric.Sinc

/-!
Property C118: how far the answer of the composed sphere solver is from the solution of the transport
equation, from the arguments of `solve`.
-/

namespace Verif.Props

open Set Filter Verif.Spec Verif.Model Verif.Lemmas

/-! ### Distance and solution depend on the edges of the mesh only -/

theorem sphereSqDistance_congr (n : ℕ) {ws ws' : ℕ → ℝ} (hw : ∀ l < n, ws l = ws' l) (N M : ℕ)
    {e e' : ℕ → ℝ} (he : ∀ k ≤ N, e k = e' k) (V : ℕ → ℕ → ℕ → ℝ) (u : ℕ → ℕ → ℝ → ℝ) :
    sphereSqDistance n ws N M e V u = sphereSqDistance n ws' N M e' V u := by
  unfold sphereSqDistance
  refine Finset.sum_congr rfl fun l hl => ?_
  rw [hw l (Finset.mem_range.1 hl)]
  congr 1
  refine Finset.sum_congr rfl fun k hk => ?_
  have hk := Finset.mem_range.1 hk
  rw [he k hk.le, he (k + 1) hk]

theorem sphereSolution_congr {n : ℕ} {mus ws : ℕ → ℝ} {scat : ℝ} {N : ℕ}
    {e v e' v' : ℝ → ℕ → ℝ} {q : ℕ → ℝ → ℝ → ℝ} {a b : ℝ} {F : Set ℝ} {u : ℕ → ℕ → ℝ → ℝ → ℝ}
    (h : SphereSolution n mus ws scat N e v q a b F u) (he : ∀ t, ∀ k ≤ N, e' t k = e t k)
    (hv : ∀ t, ∀ k ≤ N, v' t k = v t k) : SphereSolution n mus ws scat N e' v' q a b F u where
  smooth := h.smooth
  equation t ht l hl k hk r hr := by
    rw [he t k hk.le, he t (k + 1) hk] at hr
    exact h.equation t ht l hl k hk r hr
  continuousFlux t ht l hl k hk := by
    rw [he t (k + 1) hk.le, hv t (k + 1) hk.le]
    exact h.continuousFlux t ht l hl k hk
  vacuum t ht l hl h1 := by
    rw [hv t N le_rfl] at h1
    rw [he t N le_rfl]
    exact h.vacuum t ht l hl h1

/-- A straight line is below a bound between two points where it is. -/
theorem line_le {a b T h t : ℝ} (h0 : a ≤ h) (h1 : a + b * T ≤ h) (ht : t ∈ Icc 0 T) :
    a + b * t ≤ h := by
  obtain ⟨ht0, ht1⟩ := ht
  rcases le_total b 0 with hb | hb
  · nlinarith
  · nlinarith

/-! ### C118 -/

/-- What the estimate asks of the arguments: no source, no boundary source, weights of the angular
cells, no direction below the middle of its cell, scattering not negative. -/
structure EstimateSetting (P : Problem) (e d : ℕ → ℝ) : Prop where
  problem : SphereProblem P e d
  shells : 2 ≤ P.mesh.N
  noSource : ¬ SourceAsked P
  noBoundary : P.boundarySource = false
  noManufactured : P.mesh.st 4 ≠ 1
  directions : DirectionSet P.Nang P.mus
  weights : CellWeights P
  scattering : 0 ≤ P.sigmaS
  middle : ∀ l < P.Nang, angularMid P.Nang P.mus l ≤ P.mus l

theorem EstimateSetting.kappa {P : Problem} {e d : ℕ → ℝ} (h : EstimateSetting P e d) :
    ∑ l ∈ Finset.range P.Nang, P.ws l ^ 2 / (angularWidth P.Nang P.mus l / 2) ≤ 1 := by
  have hw := h.weights.ws h.problem.directions
  obtain ⟨hp, hw1⟩ := cell_weights (p := P.params) h.directions hw
  have : ∀ l ∈ Finset.range P.Nang, P.ws l ^ 2 / (angularWidth P.Nang P.mus l / 2) = P.ws l := by
    intro l hl
    have hl := Finset.mem_range.1 hl
    have h0 : P.ws l ≠ 0 := (hp l hl).ne'
    rw [← hw l hl, sq, mul_div_assoc, div_self h0, mul_one]
  rw [Finset.sum_congr rfl this]
  exact hw1.le

/-- C118: the distance of the answer of the program from the solution of the transport equation.
`h` bounds the widths of the shells at the first and the last time, `R` the radius, `B` the
derivatives of order `M + 1`, `A` the speeds of the directions relative to the edges, `W` the angular
cells from below; `K` depends on the order only. -/
theorem c118_error_bound_partial (M : ℕ) (hM : M ≤ 10) : ∃ K : ℝ, 1 ≤ K ∧
    ∀ (P : Problem) (e d : ℕ → ℝ) (T h A B R W : ℝ) (F : Set ℝ) (u : ℕ → ℕ → ℝ → ℝ → ℝ)
      (V : ℝ → ℕ → ℕ → ℕ → ℝ), EstimateSetting P e d → P.M = M → F.Finite →
      0 < W → (∀ l < P.Nang, W ≤ angularWidth P.Nang P.mus l) →
      e P.mesh.N ≤ R → e P.mesh.N + d P.mesh.N * T ≤ R →
      (∀ k < P.mesh.N, e (k + 1) - e k ≤ h) →
      (∀ k < P.mesh.N, e (k + 1) + d (k + 1) * T - (e k + d k * T) ≤ h) →
      0 ≤ A → (∀ l < P.Nang, ∀ k ≤ P.mesh.N, |P.mus l - d k| ≤ A) →
      SphereSolution P.Nang P.mus P.ws P.sigmaS P.mesh.N (fun t k => e k + d k * t) (fun _ => d)
        (fun _ _ _ => 0) 0 T F u →
      (∀ t ∈ Icc 0 T, ∀ l < P.Nang, ∀ k < P.mesh.N, ContDiffOn ℝ (M + 1) (fun r => u l k r t)
        (Icc (e k + d k * t) (e (k + 1) + d (k + 1) * t))) →
      (∀ t ∈ Icc 0 T, ∀ l < P.Nang, ∀ k < P.mesh.N,
        ∀ r ∈ Icc (e k + d k * t) (e (k + 1) + d (k + 1) * t),
        |iteratedDerivWithin (M + 1) (fun r => u l k r t)
          (Icc (e k + d k * t) (e (k + 1) + d (k + 1) * t)) r| ≤ B) →
      ProgramSolutionOn P 0 T F V → ∀ t ∈ Icc 0 T,
        sphereSqDistance P.Nang P.ws P.mesh.N M (fun k => e k + d k * t) (V t)
            (fun l k r => u l k r t) ≤
          (sphereSqDistance P.Nang P.ws P.mesh.N M e (V 0) (fun l k r => u l k r 0)
            + (t * ((P.mesh.N + 1) * h * A * R ^ 2 + R * (2 / W) ^ 2 * h) + R ^ 3 * h)
              * (K * B) ^ 2 * h ^ (2 * M + 1))
          * Real.exp (max (2 * P.sigmaS - 1) 0 * t) := by
  obtain ⟨K, hK, hb⟩ := c108_sphere_convergence_partial M hM
  refine ⟨K, hK, ?_⟩
  intro P e d T h A B R W F u V hP hPM hF hW hW1 hR0 hR1 hh0 hh1 hA0 hA hu hsm hB hV t ht
  subst hPM
  have hl := fun t => meshAt_linear hP.problem.mesh t
  have hE : ∀ t, ∀ k < P.mesh.N, (meshAt P t).edges k = e k + d k * t ∧
      (meshAt P t).edges (k + 1) = e (k + 1) + d (k + 1) * t := fun t k hk =>
    ⟨(hl t).1 k hk.le, (hl t).1 (k + 1) hk⟩
  have hact : ∀ left t, ¬ BoundaryActive P.fluxConfig left t := by
    intro left t
    simp [BoundaryActive, Problem.fluxConfig, hP.noManufactured, hP.noBoundary]
  have hmain := hb P.params P.fluxConfig (meshAt P) (programMats P) (programSource P) 0 T h 1 A B R W
    ((P.mesh.N + 1) * h) F (fun _ _ _ => 0) u V hP.directions hP.kappa hP.scattering
    hP.problem.sphere rfl hP.shells hF (programMesh hP.problem.toSphereSetup le_rfl F)
    (fun t _ => hact _ _)
    (sphereSolution_congr hu (fun t k hk => (hl t).1 k hk) fun t k hk => (hl t).2 k hk)
    (fun t _ k _ i _ => by
      simp [programSource, sourceOf, if_neg hP.noSource, weightedMoment])
    hP.middle hW hW1
    (fun t ht => by
      rw [show P.fluxConfig.Nspace = P.mesh.N from rfl, (hl t).1 _ le_rfl]
      exact line_le hR0 hR1 ht)
    (fun t ht k hk => by
      have hk : k < P.mesh.N := hk
      rw [(hE t k hk).1, (hE t k hk).2]
      have := line_le (a := e (k + 1) - e k) (b := d (k + 1) - d k) (hh0 k hk)
        (by have := hh1 k hk; linarith) ht
      linarith)
    le_rfl hA0
    (fun t _ l hl' k hk => by
      rw [(hl t).2 k hk]
      exact hA l hl' k hk)
    (fun t ht l hl' k hk => by
      have hk : k < P.mesh.N := hk
      rw [(hE t k hk).1, (hE t k hk).2]
      exact hsm t ht l hl' k hk)
    (fun t ht l hl' k hk => by
      have hk : k < P.mesh.N := hk
      rw [(hE t k hk).1, (hE t k hk).2]
      exact hB t ht l hl' k hk)
    ((programSolution_iff hP.problem _ _ _ _).1 hV) t ht
  have hws := hP.weights.ws hP.problem.directions
  rw [sphereSqDistance_congr P.Nang hws P.mesh.N P.M
      (e := fun k => e k + d k * t) (e' := (meshAt P t).edges) (fun k hk => ((hl t).1 k hk).symm),
    sphereSqDistance_congr P.Nang hws P.mesh.N P.M
      (e := e) (e' := (meshAt P 0).edges) (fun k hk => by rw [(hl 0).1 k hk]; ring)]
  refine hmain.trans_eq ?_
  have h1 : P.params.c = P.sigmaS := rfl
  have h2 : P.params.c * (1 + 1) - 1 = 2 * P.sigmaS - 1 := by rw [h1]; ring
  rw [h2, sub_zero]
  rfl

/-- Squared distance of the projection of a smooth function to the polynomials of equally wide shells. -/
theorem projection_distance (M : ℕ) : ∃ K : ℝ, 1 ≤ K ∧ ∀ (n : ℕ) (ws : ℕ → ℝ) (N : ℕ) (e : ℕ → ℝ)
    (R h B : ℝ) (P : ℕ → ℕ → ℕ → ℝ) (u : ℕ → ℕ → ℝ → ℝ), (∀ l < n, 0 ≤ ws l) →
    ∑ l ∈ Finset.range n, ws l = 1 → e 0 = 0 → e N ≤ R → (∀ k < N, e k < e (k + 1)) →
    (∀ k < N, e (k + 1) - e k ≤ h) → 0 ≤ B → (∀ l < n, ∀ k < N, Continuous (u l k)) →
    (∀ l < n, ∀ k < N, ContDiffOn ℝ (M + 1) (u l k) (Icc (e k) (e (k + 1)))) →
    (∀ l < n, ∀ k < N, ∀ r ∈ Icc (e k) (e (k + 1)),
      |iteratedDerivWithin (M + 1) (u l k) (Icc (e k) (e (k + 1))) r| ≤ B) →
    (∀ l < n, ∀ k < N, IsSphereProjection M (u l k) (e k) (e (k + 1)) (P l k)) →
    sphereSqDistance n ws N M e P u ≤ R ^ 3 * (K * (B * h ^ (M + 1))) ^ 2 := by
  obtain ⟨K, hK, hsup⟩ := sphere_projection_sup M
  refine ⟨K, hK, ?_⟩
  intro n ws N e R h B P u hw hw1 h0 hR ho hh hB0 hcu hsm hB hP
  refine sphereSqDistance_le hw hw1 N M h0 hR ho P u hcu fun l hl k hk => ?_
  have hlt := ho k hk
  obtain ⟨U, hU⟩ := exists_close_sphere_field M hlt (hsm l hl k hk) (hB l hl k hk)
  refine hsup _ (hcu l hl k hk) _ _ _ ?_ hlt _ (hP l hl k hk) U fun x hx => (hU x hx).trans ?_
  · rw [← h0]
    exact edges_mono ho (Nat.zero_le k) hk.le
  · have h1 := hh k hk
    have h2 : 0 ≤ e (k + 1) - e k := by linarith
    have h3 : (1 : ℝ) ≤ (M.factorial : ℝ) := by exact_mod_cast M.factorial_pos
    refine (div_le_self (by positivity) h3).trans ?_
    gcongr

/-- Edges of the mesh of a point pulse: equally wide shells. -/
noncomputable def evenEdges (N : ℕ) (R : ℝ) (k : ℕ) : ℝ := (k : ℝ) / N * R

theorem evenEdges_width {N : ℕ} (R : ℝ) (k : ℕ) :
    evenEdges N R (k + 1) - evenEdges N R k = R / N := by
  unfold evenEdges
  push_cast
  ring

/-- C118: on the mesh of a point pulse, of radius `R0` at first and growing at speed `v`, started
from the projection of the exact solution, the root of the squared distance falls with the number of
shells like `N^-(M + 1/2)`: no constant depends on `N`. -/
theorem c118_rate_partial (M : ℕ) (hM : M ≤ 10) : ∃ K : ℝ, 1 ≤ K ∧
    ∀ (P : Problem) (R0 v T A B W : ℝ) (F : Set ℝ) (u : ℕ → ℕ → ℝ → ℝ → ℝ)
      (V : ℝ → ℕ → ℕ → ℕ → ℝ),
      EstimateSetting P (evenEdges P.mesh.N R0) (evenEdges P.mesh.N v) → P.M = M → F.Finite →
      0 < W → (∀ l < P.Nang, W ≤ angularWidth P.Nang P.mus l) → 0 ≤ v → 0 ≤ A →
      (∀ l < P.Nang, ∀ k ≤ P.mesh.N, |P.mus l - evenEdges P.mesh.N v k| ≤ A) →
      SphereSolution P.Nang P.mus P.ws P.sigmaS P.mesh.N (fun t => evenEdges P.mesh.N (R0 + v * t))
        (fun _ => evenEdges P.mesh.N v) (fun _ _ _ => 0) 0 T F u →
      (∀ t ∈ Icc 0 T, ∀ l < P.Nang, ∀ k < P.mesh.N, ContDiffOn ℝ (M + 1) (fun r => u l k r t)
        (Icc (evenEdges P.mesh.N (R0 + v * t) k) (evenEdges P.mesh.N (R0 + v * t) (k + 1)))) →
      (∀ t ∈ Icc 0 T, ∀ l < P.Nang, ∀ k < P.mesh.N,
        ∀ r ∈ Icc (evenEdges P.mesh.N (R0 + v * t) k) (evenEdges P.mesh.N (R0 + v * t) (k + 1)),
        |iteratedDerivWithin (M + 1) (fun r => u l k r t)
          (Icc (evenEdges P.mesh.N (R0 + v * t) k) (evenEdges P.mesh.N (R0 + v * t) (k + 1))) r|
            ≤ B) →
      ProgramSolutionOn P 0 T F V →
      (∀ l < P.Nang, ∀ k < P.mesh.N, IsSphereProjection M (fun r => u l k r 0)
        (evenEdges P.mesh.N R0 k) (evenEdges P.mesh.N R0 (k + 1)) (V 0 l k)) →
      ∀ t ∈ Icc 0 T,
        sphereSqDistance P.Nang P.ws P.mesh.N M (evenEdges P.mesh.N (R0 + v * t)) (V t)
            (fun l k r => u l k r t) ≤
          (T * (2 * A * (R0 + v * T) ^ 3 + (2 / W) ^ 2 * (R0 + v * T) ^ 2) + 2 * (R0 + v * T) ^ 4)
            * (K * B) ^ 2 * ((R0 + v * T) / P.mesh.N) ^ (2 * M + 1)
            * Real.exp (max (2 * P.sigmaS - 1) 0 * T) := by
  obtain ⟨K1, hK1, hb⟩ := c118_error_bound_partial M hM
  obtain ⟨K2, hK2, hp⟩ := projection_distance M
  refine ⟨max K1 K2, hK1.trans (le_max_left _ _), ?_⟩
  intro P R0 v T A B W F u V hP hPM hF hW hW1 hv hA0 hA hu hsm hB hV hV0 t ht
  set N := P.mesh.N with hN
  have hN2 : 2 ≤ N := hP.shells
  have hN0 : (0 : ℝ) < N := by exact_mod_cast (by omega : 0 < N)
  have hT : 0 ≤ T := ht.1.trans ht.2
  have hev : ∀ t, (fun k => evenEdges N R0 k + evenEdges N v k * t) = evenEdges N (R0 + v * t) := by
    intro t
    funext k
    simp only [evenEdges]
    ring
  have hend : ∀ R, evenEdges N R N = R := by
    intro R
    simp only [evenEdges, div_self hN0.ne', one_mul]
  have hzero : ∀ R, evenEdges N R 0 = 0 := by intro R; simp [evenEdges]
  have hord := hP.problem.mesh.ordered
  have hR0 : 0 < R0 := by
    have h1 := hord 0 le_rfl 0 (by omega)
    have h2 := evenEdges_width (N := N) R0 0
    have h3 : 0 < R0 / N := by rw [← h2]; simpa using h1
    have := mul_pos h3 hN0
    rwa [div_mul_cancel₀ _ hN0.ne'] at this
  set R := R0 + v * T with hR
  have hvT : 0 ≤ v * T := mul_nonneg hv hT
  have hRp : 0 < R := by linarith
  set h := R / N with hh
  have hhp : 0 < h := by positivity
  have hhR : h ≤ R := div_le_self hRp.le (by exact_mod_cast (by omega : 1 ≤ N))
  have hw0 : ∀ k < N, evenEdges N R0 (k + 1) - evenEdges N R0 k ≤ h := by
    intro k _
    rw [evenEdges_width, hh]
    gcongr
    linarith
  have h0T : (0 : ℝ) ∈ Icc 0 T := ⟨le_rfl, hT⟩
  have hB0 : 0 ≤ B := by
    have h1 := hP.directions.two
    refine (abs_nonneg _).trans (hB 0 h0T 0 (by omega) 0 (by omega) _ (left_mem_Icc.2 ?_))
    have := evenEdges_width (N := N) (R0 + v * 0) 0
    have h2 : 0 ≤ (R0 + v * 0) / N := by rw [mul_zero, add_zero]; positivity
    linarith
  have e0 : evenEdges N (R0 + v * 0) = evenEdges N R0 := by rw [mul_zero, add_zero]
  have hws := hP.weights.ws hP.problem.directions
  obtain ⟨hwp, hwsum⟩ := cell_weights (p := P.params) hP.directions hws
  have hinit := hp P.Nang P.ws N (evenEdges N R0) R h B (V 0) (fun l k r => u l k r 0)
    (fun l hl => (hwp l hl).le) hwsum (hzero _) (by rw [hend]; linarith)
    (fun k hk => by simpa using hord 0 le_rfl k hk) hw0 hB0
    (fun l hl k hk => (hu.smooth l hl k hk).continuous.comp
      (continuous_id.prodMk continuous_const))
    (fun l hl k hk => by have := hsm 0 h0T l hl k hk; rwa [e0] at this)
    (fun l hl k hk => by have := hB 0 h0T l hl k hk; rwa [e0] at this) hV0
  have hmain := hb P (evenEdges N R0) (evenEdges N v) T h A B R W F u V hP hPM hF hW hW1
    (by rw [← hN, hend]; linarith) (by rw [← hN, hend, hend]) hw0
    (fun k _ => le_of_eq (by
      have h1 := congrFun (hev T) (k + 1)
      have h2 := congrFun (hev T) k
      rw [h1, h2, evenEdges_width, hh, hR]))
    hA0 hA (sphereSolution_congr hu (fun t k _ => congrFun (hev t) k) fun _ _ _ => rfl)
    (fun t ht l hl k hk => by
      have h1 := congrFun (hev t) (k + 1)
      have h2 := congrFun (hev t) k
      rw [h1, h2]
      exact hsm t ht l hl k hk)
    (fun t ht l hl k hk => by
      have h1 := congrFun (hev t) (k + 1)
      have h2 := congrFun (hev t) k
      rw [h1, h2]
      exact hB t ht l hl k hk) hV t ht
  rw [← hN, hev t] at hmain
  refine hmain.trans ?_
  set K := max K1 K2
  have hK0 : 0 ≤ K := zero_le_one.trans (hK1.trans (le_max_left _ _))
  have hG : 0 ≤ (K * B) ^ 2 * h ^ (2 * M + 1) := by positivity
  refine mul_le_mul ?_ (Real.exp_le_exp.2 (mul_le_mul_of_nonneg_left ht.2 (le_max_right _ _)))
    (Real.exp_pos _).le ?_
  · have h1 : R ^ 3 * (K2 * (B * h ^ (M + 1))) ^ 2 ≤ R ^ 4 * ((K * B) ^ 2 * h ^ (2 * M + 1)) := by
      have h2 : (K2 * (B * h ^ (M + 1))) ^ 2 = (K2 * B) ^ 2 * h ^ (2 * M + 1) * h := by ring
      rw [h2]
      have h3 : (K2 * B) ^ 2 ≤ (K * B) ^ 2 := by
        have : K2 ≤ K := le_max_right _ _
        gcongr
      calc R ^ 3 * ((K2 * B) ^ 2 * h ^ (2 * M + 1) * h)
          ≤ R ^ 3 * ((K * B) ^ 2 * h ^ (2 * M + 1) * R) := by gcongr
        _ = _ := by ring
    have h4 : (K1 * B) ^ 2 * h ^ (2 * M + 1) ≤ (K * B) ^ 2 * h ^ (2 * M + 1) := by
      have : K1 ≤ K := le_max_left _ _
      gcongr
    have h5 : ((N : ℝ) + 1) * h ≤ 2 * R := by
      have : (N : ℝ) * h = R := by rw [hh]; field_simp
      linarith
    have h6 : t * ((N + 1) * h * A * R ^ 2 + R * (2 / W) ^ 2 * h) + R ^ 3 * h ≤
        T * (2 * A * R ^ 3 + (2 / W) ^ 2 * R ^ 2) + R ^ 4 := by
      have h7 : (N + 1) * h * A * R ^ 2 + R * (2 / W) ^ 2 * h ≤
          2 * A * R ^ 3 + (2 / W) ^ 2 * R ^ 2 := by
        have h8 := mul_le_mul_of_nonneg_right h5 (show 0 ≤ A * R ^ 2 by positivity)
        have h9 := mul_le_mul_of_nonneg_right hhR (show 0 ≤ R * (2 / W) ^ 2 by positivity)
        linarith
      have h10 : R ^ 3 * h ≤ R ^ 4 := by
        have := mul_le_mul_of_nonneg_left hhR (show 0 ≤ R ^ 3 by positivity)
        linarith
      have h11 : t * ((N + 1) * h * A * R ^ 2 + R * (2 / W) ^ 2 * h) ≤
          T * (2 * A * R ^ 3 + (2 / W) ^ 2 * R ^ 2) :=
        mul_le_mul ht.2 h7 (by positivity) hT
      linarith
    have h12 := mul_le_mul h6 h4 (by positivity)
      (show 0 ≤ T * (2 * A * R ^ 3 + (2 / W) ^ 2 * R ^ 2) + R ^ 4 by positivity)
    have h13 := hinit.trans h1
    linarith
  · positivity

/-! ### Example: the critical sphere

Two directions `∓1/2`, radius `1/2` and `1 + π²/4` secondaries per collision: the flux
`sin (π r) / (π r)` stays as it is, and nothing enters. -/

theorem contDiff_sinc {n : WithTop ℕ∞} : ContDiff ℝ n Real.sinc := by
  rw [contDiff_iff_contDiffAt]
  intro x
  rw [Real.sinc_eq_dslope]
  rcases eq_or_ne x 0 with rfl | hx
  · obtain ⟨p, hp⟩ := Real.analyticAt_sin (x := 0)
    exact (hp.has_fpower_series_dslope_fslope.analyticAt).contDiffAt
  · refine ContDiffAt.congr_of_eventuallyEq ?_ (dslope_eventuallyEq_slope_of_ne Real.sin hx)
    unfold slope
    simp only [vsub_eq_sub, smul_eq_mul, sub_zero]
    exact (contDiffAt_id.inv hx).mul (Real.contDiff_sin.contDiffAt.sub contDiffAt_const)

/-- Scalar flux of the critical sphere. -/
noncomputable def critical (r : ℝ) : ℝ := Real.sinc (Real.pi * r)

theorem contDiff_critical {n : WithTop ℕ∞} : ContDiff ℝ n critical :=
  contDiff_sinc.comp (contDiff_const.mul contDiff_id)

theorem critical_mul (r : ℝ) : Real.pi * r * critical r = Real.sin (Real.pi * r) := by
  unfold critical
  rcases eq_or_ne (Real.pi * r) 0 with h | h
  · rw [h]; simp
  · rw [Real.sinc_of_ne_zero h, mul_div_cancel₀ _ h]

theorem contDiff_deriv_critical {n : WithTop ℕ∞} : ContDiff ℝ n (deriv critical) :=
  (contDiff_succ_iff_deriv.1 (contDiff_critical (n := n + 1))).2.2

theorem critical_hasDeriv (r : ℝ) : HasDerivAt critical (deriv critical r) r :=
  ((contDiff_critical (n := 1)).differentiable one_ne_zero r).hasDerivAt

theorem critical_hasDeriv2 (r : ℝ) :
    HasDerivAt (deriv critical) (deriv (deriv critical) r) r :=
  ((contDiff_deriv_critical (n := 1)).differentiable one_ne_zero r).hasDerivAt

theorem critical_first (r : ℝ) :
    critical r + r * deriv critical r = Real.cos (Real.pi * r) := by
  have h1 : HasDerivAt (fun r => Real.pi * r * critical r)
      (Real.pi * 1 * critical r + Real.pi * r * deriv critical r) r :=
    ((hasDerivAt_id r).const_mul Real.pi).mul (critical_hasDeriv r)
  have h2 : HasDerivAt (fun r => Real.sin (Real.pi * r)) (Real.cos (Real.pi * r) * (Real.pi * 1)) r :=
    ((hasDerivAt_id r).const_mul Real.pi).sin
  rw [funext critical_mul] at h1
  have h3 := h1.unique h2
  have h4 := Real.pi_ne_zero
  apply mul_left_cancel₀ h4
  linarith

theorem critical_second (r : ℝ) :
    2 * deriv critical r + r * deriv (deriv critical) r = -(Real.pi ^ 2 * (r * critical r)) := by
  have h1 : HasDerivAt (fun r => critical r + r * deriv critical r)
      (deriv critical r + (1 * deriv critical r + r * deriv (deriv critical) r)) r :=
    (critical_hasDeriv r).add ((hasDerivAt_id r).mul (critical_hasDeriv2 r))
  have h2 : HasDerivAt (fun r => Real.cos (Real.pi * r)) (-Real.sin (Real.pi * r) * (Real.pi * 1)) r :=
    ((hasDerivAt_id r).const_mul Real.pi).cos
  rw [funext critical_first] at h1
  have h3 := h1.unique h2
  rw [← critical_mul] at h3
  linarith

/-- Angular flux of the critical sphere: direction `0` inwards, direction `1` outwards. -/
noncomputable def criticalU (l _ : ℕ) (r _ : ℝ) : ℝ :=
  critical r + (if l = 0 then 1 else -1) * (deriv critical r / 2)

theorem contDiff_criticalU {n : WithTop ℕ∞} (l k : ℕ) (t : ℝ) :
    ContDiff ℝ n fun r => criticalU l k r t := by
  unfold criticalU
  exact contDiff_critical.add (contDiff_const.mul (contDiff_deriv_critical.div_const _))

theorem criticalU_edge (k : ℕ) (t : ℝ) : criticalU 0 k (1 / 2) t = 0 := by
  have h1 := critical_mul (1 / 2)
  have h2 := critical_first (1 / 2)
  rw [show Real.pi * (1 / 2) = Real.pi / 2 by ring, Real.sin_pi_div_two] at h1
  rw [show Real.pi * (1 / 2) = Real.pi / 2 by ring, Real.cos_pi_div_two] at h2
  simp only [criticalU, if_true]
  linarith

/-- Arguments of `solve` for the critical sphere: point-pulse mesh kept fixed, `N` shells. -/
noncomputable def exampleCriticalMesh (N : ℕ) : MeshConfig :=
  { exampleSquareMesh with
    N := N, sourceType := [1, 0, 0, 0, 0, 0], geometry := .sphere, moving := false,
    x0 := 1 / 4, edgeV := 1 / 8, tfinal := 2 }

noncomputable def exampleCritical (inv : (ℕ → ℕ → ℝ) → ℕ → ℕ → ℝ) (N : ℕ) : Problem :=
  { exampleShell inv with
    mesh := exampleCriticalMesh N, uncollided := false, sigmaS := 1 + Real.pi ^ 2 / 4 }

theorem exampleCritical_mesh {N : ℕ} (hN : 1 ≤ N) :
    MovesLinearly (exampleCriticalMesh N) (evenEdges N (1 / 2)) (evenEdges N 0) := by
  have h1 : IsPlane { exampleCriticalMesh N with moving := true } :=
    ⟨rfl, Or.inl rfl, by simp [MeshConfig.st, exampleCriticalMesh],
      by simp [MeshConfig.st, exampleCriticalMesh], by simp [MeshConfig.st, exampleCriticalMesh],
      by simp [MeshConfig.st, exampleCriticalMesh]⟩
  have h2 := plane_linear h1 rfl rfl rfl hN (by norm_num [exampleCriticalMesh])
    (by norm_num [exampleCriticalMesh])
  have h3 := static_linear (c := exampleCriticalMesh N) rfl rfl
    (by simp [MeshConfig.allZero, exampleCriticalMesh]) h2 (by norm_num [exampleCriticalMesh])
    (Or.inl rfl)
  have e1 : (fun k : ℕ => (k : ℝ) / N * (1 / 4) + (k : ℝ) / N * (1 / 8) * 2) = evenEdges N (1 / 2) := by
    funext k
    simp only [evenEdges]
    ring
  have e2 : (fun _ => 0) = evenEdges N 0 := by
    funext k
    simp [evenEdges]
  rw [← e1, ← e2]
  exact h3

theorem exampleCritical_setting {inv : (ℕ → ℕ → ℝ) → ℕ → ℕ → ℝ} (hi : InverseCorrect 1 inv) {N : ℕ}
    (hN : 2 ≤ N) :
    EstimateSetting (exampleCritical inv N) (evenEdges N (1 / 2)) (evenEdges N 0) where
  problem :=
    { sphere := rfl
      mesh := exampleCritical_mesh (by omega)
      order := by norm_num [exampleCritical, exampleShell]
      tables := exactTables_exact 2
      inverse := hi
      directions := le_rfl
      checks := exampleShell_checks
      opacity := rfl }
  shells := hN
  noSource := by simp [SourceAsked, exampleCritical]
  noBoundary := rfl
  noManufactured := by simp [exampleCritical, exampleCriticalMesh, MeshConfig.st]
  directions := exampleSphere_directions
  weights := exampleShell_weights inv
  scattering := by simp only [exampleCritical]; positivity
  middle := exampleSphere_midpoints

theorem critical_solution {inv : (ℕ → ℕ → ℝ) → ℕ → ℕ → ℝ} (hi : InverseCorrect 1 inv) {N : ℕ}
    (hN : 2 ≤ N) (T : ℝ) (F : Set ℝ) :
    SphereSolution 2 exampleSphereParams.mus (exampleCritical inv N).ws (1 + Real.pi ^ 2 / 4) N
      (fun t => evenEdges N (1 / 2 + 0 * t)) (fun _ => evenEdges N 0) (fun _ _ _ => 0) 0 T F
      criticalU := by
  have hws : ∀ l < 2, (exampleCritical inv N).ws l = 1 / 2 := by
    intro l hl
    have h1 := (exampleCritical_setting hi hN).weights.ws le_rfl l hl
    have h2 : (1 / 2 : ℝ) = angularWidth 2 exampleSphereParams.mus l / 2 := exampleSphere_weights l hl
    exact h1.trans h2.symm
  refine ⟨fun l _ k _ => ?_, fun t _ l hl k _ r _ => ?_, fun t _ l _ k _ => rfl,
    fun t _ l hl h => ?_⟩
  · exact (contDiff_criticalU (n := 1) l k 0).comp contDiff_fst
  · have hw : ∑ l' ∈ Finset.range 2, (exampleCritical inv N).ws l' * criticalU l' k r t =
        critical r := by
      rw [Finset.sum_range_succ, Finset.sum_range_one, hws 0 (by norm_num), hws 1 (by norm_num)]
      simp [criticalU]
      ring
    have hdt : deriv (fun τ => criticalU l k r τ) t = 0 := by
      show deriv (fun _ => criticalU l k r 0) t = 0
      exact deriv_const _ _
    have hdr : ∀ σ : ℝ, HasDerivAt
        (fun y => y ^ 2 * (critical y + σ * (deriv critical y / 2)))
        (2 * r * (critical r + σ * (deriv critical r / 2))
          + r ^ 2 * (deriv critical r + σ * (deriv (deriv critical) r / 2))) r := by
      intro σ
      refine ((hasDerivAt_pow 2 r).mul ((critical_hasDeriv r).add
        (((critical_hasDeriv2 r).div_const 2).const_mul σ))).congr_deriv ?_
      simp
    have h2 := critical_second r
    have hl2 : l = 0 ∨ l = 1 := by omega
    rw [hw, hdt]
    rcases hl2 with rfl | rfl
    · have h1 : deriv (fun y => y ^ 2 * criticalU 0 k y t) r = _ := (hdr 1).deriv
      rw [h1]
      simp only [angularDifference, angularEdge, angularWidth, exampleSphereParams, criticalU]
      norm_num
      linear_combination (-(1 / 4) * r) * h2
    · have h1 : deriv (fun y => y ^ 2 * criticalU 1 k y t) r = _ := (hdr (-1)).deriv
      rw [h1]
      simp only [angularDifference, angularEdge, angularWidth, exampleSphereParams, criticalU]
      norm_num
      linear_combination (-(1 / 4) * r) * h2
  · have hN0 : (N : ℝ) ≠ 0 := by positivity
    have he : evenEdges N (1 / 2 + 0 * t) N = 1 / 2 := by
      simp only [evenEdges, div_self hN0]
      ring
    have hl2 : l = 0 ∨ l = 1 := by omega
    rcases hl2 with rfl | rfl
    · simp only [he]
      exact criticalU_edge _ _
    · exfalso
      norm_num [evenEdges, exampleSphereParams] at h

/-- C118 for the critical sphere: for every number of shells the equations of the program have a
solution started from the projection, and its distance from the exact solution falls like
`N^-(M + 1/2)`, here with `M = 1`. -/
example : ∃ inv, InverseCorrect 1 inv ∧ ∃ C : ℝ, ∀ N : ℕ, 2 ≤ N → ∃ V,
    ProgramSolutionOn (exampleCritical inv N) 0 2 {0, 1} V ∧
    (∀ l < 2, ∀ k < N, IsSphereProjection 1 (fun r => criticalU l k r 0) (evenEdges N (1 / 2) k)
      (evenEdges N (1 / 2) (k + 1)) (V 0 l k)) ∧
    ∀ t ∈ Icc (0 : ℝ) 2, sphereSqDistance 2 (exampleCritical inv N).ws N 1 (evenEdges N (1 / 2)) (V t)
      (fun l k r => criticalU l k r t) ≤ C * ((1 / 2) / N) ^ 3 := by
  obtain ⟨inv, hi⟩ := inverse_exists 1
  refine ⟨inv, hi, ?_⟩
  obtain ⟨K, -, hK⟩ := c118_rate_partial 1 (by norm_num)
  have hcont : ∀ l : ℕ, ∃ B, ∀ r ∈ Icc (0 : ℝ) (1 / 2),
      |iteratedDeriv 2 (fun r => criticalU l 0 r 0) r| ≤ B := by
    intro l
    have h1 : Continuous (iteratedDeriv 2 (fun r => criticalU l 0 r 0)) :=
      (contDiff_criticalU (n := 2) l 0 0).continuous_iteratedDeriv 2 le_rfl
    obtain ⟨B, hB⟩ := isCompact_Icc.exists_bound_of_continuousOn (s := Icc (0 : ℝ) (1 / 2))
      h1.continuousOn
    exact ⟨B, fun r hr => hB r hr⟩
  obtain ⟨B0, hB0⟩ := hcont 0
  obtain ⟨B1, hB1⟩ := hcont 1
  refine ⟨(2 * (2 * (1 / 2) * (1 / 2 + 0 * 2) ^ 3 + (2 / 1) ^ 2 * (1 / 2 + 0 * 2) ^ 2)
    + 2 * (1 / 2 + 0 * 2) ^ 4) * (K * max B0 B1) ^ 2 *
      Real.exp (max (2 * (1 + Real.pi ^ 2 / 4) - 1) 0 * 2), fun N hN => ?_⟩
  have hs := exampleCritical_setting hi hN
  have hN0 : (0 : ℝ) < N := by exact_mod_cast (by omega : 0 < N)
  have hlt : ∀ k, evenEdges N (1 / 2) k < evenEdges N (1 / 2) (k + 1) := by
    intro k
    have h1 := evenEdges_width (N := N) (1 / 2) k
    have h2 : (0 : ℝ) < 1 / 2 / N := by positivity
    linarith
  have hproj : ∀ l k, ∃ Q : ℕ → ℝ, IsSphereProjection 1 (fun r => criticalU l k r 0)
      (evenEdges N (1 / 2) k) (evenEdges N (1 / 2) (k + 1)) Q := fun l k =>
    exists_sphere_projection 1 (contDiff_criticalU (n := 0) l k 0).continuous (hlt k)
  choose Q hQ using hproj
  obtain ⟨V, ⟨hV, hV0⟩, -⟩ := c110_wellposed_partial hs.problem (Or.inl hs.noSource) (T := 2)
    (by norm_num) Q
  have ht : max 0 (min (exampleCritical inv N).mesh.t0 2) = 1 := by
    have : (exampleCritical inv N).mesh.t0 = 1 := rfl
    rw [this]; norm_num
  rw [ht] at hV
  have hVp : ∀ l < 2, ∀ k < N, IsSphereProjection 1 (fun r => criticalU l k r 0)
      (evenEdges N (1 / 2) k) (evenEdges N (1 / 2) (k + 1)) (V 0 l k) := by
    intro l hl k hk i hi'
    refine Eq.trans ?_ (hQ l k i hi')
    have : ∀ r, sphereField 1 (V 0 l k) (evenEdges N (1 / 2) k) (evenEdges N (1 / 2) (k + 1)) r =
        sphereField 1 (Q l k) (evenEdges N (1 / 2) k) (evenEdges N (1 / 2) (k + 1)) r := by
      intro r
      unfold sphereField
      refine Finset.sum_congr rfl fun j hj => ?_
      rw [hV0 l hl k hk j (Nat.lt_succ_iff.1 (Finset.mem_range.1 hj))]
    simp only [this]
  refine ⟨V, hV, hVp, fun t ht => ?_⟩
  have hmain := hK (exampleCritical inv N) (1 / 2) 0 2 (1 / 2) (max B0 B1) 1 {0, 1} criticalU V hs rfl
    (by simp) one_pos example_cells le_rfl (by norm_num)
    (fun l hl k _ => by
      have hl2 : l = 0 ∨ l = 1 := by have : l < 2 := hl; omega
      have h0 : evenEdges (exampleCritical inv N).mesh.N 0 k = 0 := by simp [evenEdges]
      rw [h0, sub_zero]
      rcases hl2 with rfl | rfl <;>
        norm_num [exampleCritical, exampleShell, exampleSphereParams, abs_le])
    (critical_solution hi hN 2 {0, 1})
    (fun t _ l _ k _ => (contDiff_criticalU l k t).contDiffOn)
    (fun t _ l hl k hk r hr => by
      have hl2 : l = 0 ∨ l = 1 := by have : l < 2 := hl; omega
      have hk : k < N := hk
      have e0 : evenEdges (exampleCritical inv N).mesh.N (1 / 2 + 0 * t) = evenEdges N (1 / 2) := by
        rw [zero_mul, add_zero]
        rfl
      rw [e0] at hr ⊢
      have h1 : (fun r => criticalU l k r t) = fun r => criticalU l 0 r 0 := rfl
      rw [h1, iteratedDerivWithin_eq_iteratedDeriv (uniqueDiffOn_Icc (hlt k))
        (contDiff_criticalU l 0 0).contDiffAt hr]
      have hr2 : r ∈ Icc (0 : ℝ) (1 / 2) := by
        refine ⟨le_trans ?_ hr.1, hr.2.trans ?_⟩
        · unfold evenEdges
          positivity
        · unfold evenEdges
          have : ((k + 1 : ℕ) : ℝ) / N ≤ 1 := by
            rw [div_le_one hN0]
            exact_mod_cast hk
          linarith
      rcases hl2 with rfl | rfl
      · exact (hB0 r hr2).trans (le_max_left _ _)
      · exact (hB1 r hr2).trans (le_max_right _ _))
    hV hVp t ht
  have e0 : evenEdges (exampleCritical inv N).mesh.N (1 / 2 + 0 * t) = evenEdges N (1 / 2) := by
    rw [zero_mul, add_zero]
    rfl
  rw [e0] at hmain
  refine hmain.trans_eq ?_
  have e1 : (exampleCritical inv N).mesh.N = N := rfl
  have e2 : (exampleCritical inv N).sigmaS = 1 + Real.pi ^ 2 / 4 := rfl
  rw [e1, e2, show 2 * 1 + 1 = 3 from rfl, show (1 / 2 + 0 * 2 : ℝ) / N = 1 / 2 / N by ring]
  ring

end Verif.Props
