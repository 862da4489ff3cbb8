import Verif.Props.Solve
import Verif.Props.TimeStepExact

/-!
Property C130: the error of what `solve` returns for the sphere, against the solution of the transport
equation.
-/

namespace Verif.Props

open Set MeasureTheory Verif.Spec Verif.Model Verif.Lemmas

/-- `u` solves the transport equation of the problem, started at time zero, up to the final time, and
is smooth in every shell.  `h` bounds the widths of the shells at the first and the last time, `R` the
radius, `B` the derivatives of order `M + 1`, `A` the speeds of the directions relative to the edges,
`W` the angular cells from below; `F` are the times at which the equation need not hold. -/
structure SmoothExact (P : Problem) (e d : ℕ → ℝ) (h A B R W : ℝ) (F : Set ℝ)
    (u : ℕ → ℕ → ℝ → ℝ → ℝ) : Prop where
  finite : F.Finite
  cell : 0 < W
  cells : ∀ l < P.Nang, W ≤ angularWidth P.Nang P.mus l
  first : e P.mesh.N ≤ R
  last : e P.mesh.N + d P.mesh.N * P.mesh.tfinal ≤ R
  widthFirst : ∀ k < P.mesh.N, e (k + 1) - e k ≤ h
  widthLast : ∀ k < P.mesh.N,
    e (k + 1) + d (k + 1) * P.mesh.tfinal - (e k + d k * P.mesh.tfinal) ≤ h
  speed : 0 ≤ A
  speeds : ∀ l < P.Nang, ∀ k ≤ P.mesh.N, |P.mus l - d k| ≤ A
  solution : SphereSolution P.Nang P.mus P.ws P.sigmaS P.mesh.N (fun t k => e k + d k * t) (fun _ => d)
    (fun _ _ _ => 0) 0 P.mesh.tfinal F u
  smooth : ∀ t ∈ Icc 0 P.mesh.tfinal, ∀ l < P.Nang, ∀ k < P.mesh.N,
    ContDiffOn ℝ (P.M + 1) (fun r => u l k r t) (Icc (e k + d k * t) (e (k + 1) + d (k + 1) * t))
  derivative : ∀ t ∈ Icc 0 P.mesh.tfinal, ∀ l < P.Nang, ∀ k < P.mesh.N,
    ∀ r ∈ Icc (e k + d k * t) (e (k + 1) + d (k + 1) * t),
      |iteratedDerivWithin (P.M + 1) (fun r => u l k r t)
        (Icc (e k + d k * t) (e (k + 1) + d (k + 1) * t)) r| ≤ B

/-- The bound of C118 at the final time, for the initial state `V0`. -/
noncomputable def meshBound (P : Problem) (e : ℕ → ℝ) (h A B R W K : ℝ) (V0 : StateVec)
    (u : ℕ → ℕ → ℝ → ℝ → ℝ) : ℝ :=
  (sphereSqDistance P.Nang P.ws P.mesh.N P.M e V0 (fun l k r => u l k r 0)
    + (P.mesh.tfinal * ((P.mesh.N + 1) * h * A * R ^ 2 + R * (2 / W) ^ 2 * h) + R ^ 3 * h)
      * (K * B) ^ 2 * h ^ (2 * P.M + 1))
  * Real.exp (max (2 * P.sigmaS - 1) 0 * P.mesh.tfinal)

/-- Squared error of a scalar flux `φ` against that of `u` at the final time. -/
noncomputable def fluxSqError (P : Problem) (e d : ℕ → ℝ) (φ : ℝ → ℝ) (u : ℕ → ℕ → ℝ → ℝ → ℝ) : ℝ :=
  ∑ k ∈ Finset.range P.mesh.N, ∫ r in (e k + d k * P.mesh.tfinal)..(e (k + 1) + d (k + 1) * P.mesh.tfinal),
    r ^ 2 * (φ r - ∑ l ∈ Finset.range P.Nang, P.rawWs l * u l k r P.mesh.tfinal) ^ 2

/-- The scalar flux of the results `Q` at every radius, from the coefficients and the edges that they
hold. -/
noncomputable def resultFlux (P : Problem) (Q : Results) : ℝ → ℝ :=
  meshFlux P.Nang P.rawWs P.M P.mesh.N Q.edges Q.solLast

theorem Reports.flux {P : Problem} {e d : ℕ → ℝ} {choose : Option (List ℝ)} {V : StateVec} {Q : Results}
    (h : Reports P e d choose V Q) (hm : MovesLinearly P.mesh e d) :
    stateFlux P P.mesh.tfinal V = resultFlux P Q := by
  funext x
  unfold stateFlux resultFlux meshFlux
  refine Finset.sum_congr rfl fun l hl => ?_
  rw [meshField_congr (fun k hk => ((meshAt_linear hm P.mesh.tfinal).1 k hk).trans (h.edges k hk).symm)
    fun k hk i hi => (h.coefficients l (Finset.mem_range.1 hl) k hk i hi).symm]

/-- The results `Q` are within `b` of the solution `u`, squared: the intensities with which the run
ends, and, times the square of the sum of the weights, the scalar flux that is reported at whatever
points.  The edges are where they belong. -/
def ErrorAtMost (P : Problem) (e d : ℕ → ℝ) (choose : Option (List ℝ)) (u : ℕ → ℕ → ℝ → ℝ → ℝ) (b : ℝ)
    (Q : Results) : Prop :=
  sphereSqDistance P.Nang P.ws P.mesh.N P.M Q.edges Q.solLast (fun l k r => u l k r P.mesh.tfinal) ≤ b ∧
  (∀ k ≤ P.mesh.N, Q.edges k = e k + d k * P.mesh.tfinal) ∧
  Q.xs = P.outputPoints choose (meshAt P P.mesh.tfinal).edges ∧ Q.phi = Q.xs.map (resultFlux P Q) ∧
    fluxSqError P e d (resultFlux P Q) u ≤ (∑ l ∈ Finset.range P.Nang, P.rawWs l) ^ 2 * b

theorem sphereSqDistance_congr_state {n : ℕ} {ws : ℕ → ℝ} {N M : ℕ} {e e' : ℕ → ℝ} {V W : ℕ → ℕ → ℕ → ℝ}
    {u : ℕ → ℕ → ℝ → ℝ} (he : ∀ k ≤ N, e k = e' k)
    (h : ∀ l < n, ∀ k < N, ∀ i ≤ M, V l k i = W l k i) :
    sphereSqDistance n ws N M e V u = sphereSqDistance n ws N M e' W u := by
  unfold sphereSqDistance
  refine Finset.sum_congr rfl fun l hl => ?_
  congr 1
  refine Finset.sum_congr rfl fun k hk => ?_
  have hk := Finset.mem_range.1 hk
  rw [he k hk.le, he (k + 1) hk]
  have : ∀ r, sphereField M (V l k) (e' k) (e' (k + 1)) r =
      sphereField M (W l k) (e' k) (e' (k + 1)) r := fun r => by
    unfold sphereField
    refine Finset.sum_congr rfl fun j hj => ?_
    rw [h l (Finset.mem_range.1 hl) k hk j (Nat.lt_succ_iff.1 (Finset.mem_range.1 hj))]
  simp only [this]

/-- The scalar flux of a state is not further from that of `u` than the state is from `u`. -/
theorem flux_error {P : Problem} {e d : ℕ → ℝ} (hP : EstimateSetting P e d) (hT : 0 ≤ P.mesh.tfinal)
    (V : StateVec) {u : ℕ → ℕ → ℝ → ℝ → ℝ}
    (hu : ∀ l < P.Nang, ∀ k < P.mesh.N, Continuous fun r => u l k r P.mesh.tfinal) :
    fluxSqError P e d (stateFlux P P.mesh.tfinal V) u ≤ (∑ l ∈ Finset.range P.Nang, P.rawWs l) ^ 2 *
      sphereSqDistance P.Nang P.ws P.mesh.N P.M (fun k => e k + d k * P.mesh.tfinal) V
        (fun l k r => u l k r P.mesh.tfinal) := by
  set T := P.mesh.tfinal with hTd
  set s := ∑ l ∈ Finset.range P.Nang, P.rawWs l with hs
  obtain ⟨hp, h1⟩ := cell_weights (p := P.params) hP.directions (hP.weights.ws hP.problem.directions)
  replace hp : ∀ l < P.Nang, 0 < P.ws l := hp
  have hws : ∀ l < P.Nang, P.rawWs l = s * P.ws l := by
    obtain ⟨α, hα, hr⟩ := hP.weights
    intro l hl
    have h2 : s = α * 2 := by
      rw [hs, Finset.sum_congr rfl fun i hi => hr i (Finset.mem_range.1 hi), ← Finset.mul_sum,
        c15_widths_sum P.Nang (by have := hP.problem.directions; omega)]
    rw [hr l hl, hP.weights.ws hP.problem.directions l hl, h2]
    ring
  have hord : ∀ k < P.mesh.N, e k + d k * T < e (k + 1) + d (k + 1) * T := hP.problem.mesh.ordered T hT
  have hl := (meshAt_linear hP.problem.mesh T).1
  have hordm : ∀ k < P.mesh.N, (meshAt P T).edges k < (meshAt P T).edges (k + 1) := fun k hk => by
    rw [hl k hk.le, hl (k + 1) hk]
    exact hord k hk
  unfold fluxSqError sphereSqDistance
  have hswap : ∑ l ∈ Finset.range P.Nang, P.ws l * ∑ k ∈ Finset.range P.mesh.N,
      ∫ r in (e k + d k * T)..(e (k + 1) + d (k + 1) * T), r ^ 2 *
        (sphereField P.M (V l k) (e k + d k * T) (e (k + 1) + d (k + 1) * T) r - u l k r T) ^ 2 =
      ∑ k ∈ Finset.range P.mesh.N, ∑ l ∈ Finset.range P.Nang, P.ws l *
        ∫ r in (e k + d k * T)..(e (k + 1) + d (k + 1) * T), r ^ 2 *
          (sphereField P.M (V l k) (e k + d k * T) (e (k + 1) + d (k + 1) * T) r - u l k r T) ^ 2 := by
    rw [Finset.sum_comm]
    exact Finset.sum_congr rfl fun l _ => Finset.mul_sum _ _ _
  beta_reduce
  rw [hswap, Finset.mul_sum]
  refine Finset.sum_le_sum fun k hk => ?_
  have hk := Finset.mem_range.1 hk
  set a := e k + d k * T with ha
  set b := e (k + 1) + d (k + 1) * T with hb
  have hab : a < b := hord k hk
  have hc : ∀ l < P.Nang, Continuous fun r => r ^ 2 *
      (sphereField P.M (V l k) a b r - u l k r T) ^ 2 := fun l hl' =>
    (continuous_pow 2).mul (((Lemmas.continuous_sphereField P.M _ hab).sub (hu l hl' k hk)).pow 2)
  have e1 : ∑ l ∈ Finset.range P.Nang, P.ws l * ∫ r in a..b, r ^ 2 *
      (sphereField P.M (V l k) a b r - u l k r T) ^ 2 =
      ∫ r in a..b, ∑ l ∈ Finset.range P.Nang, P.ws l *
        (r ^ 2 * (sphereField P.M (V l k) a b r - u l k r T) ^ 2) := by
    rw [intervalIntegral.integral_finsetSum fun l hl' =>
      ((hc l (Finset.mem_range.1 hl')).intervalIntegrable _ _).const_mul _]
    exact Finset.sum_congr rfl fun l _ => (intervalIntegral.integral_const_mul _ _).symm
  have e2 : ∫ r in a..b, r ^ 2 * (stateFlux P T V r - ∑ l ∈ Finset.range P.Nang, P.rawWs l * u l k r T) ^ 2 =
      ∫ r in a..b, r ^ 2 * (∑ l ∈ Finset.range P.Nang, P.rawWs l *
        (sphereField P.M (V l k) a b r - u l k r T)) ^ 2 := by
    refine intervalIntegral.integral_congr_ae (Filter.Eventually.of_forall fun r hr => ?_)
    rw [uIoc_of_le hab.le] at hr
    have e3 : stateFlux P T V r = ∑ l ∈ Finset.range P.Nang, P.rawWs l * sphereField P.M (V l k) a b r := by
      unfold stateFlux meshFlux
      refine Finset.sum_congr rfl fun l _ => ?_
      rw [meshField_cell hordm (V l) hk (by rw [hl k hk.le]; exact hr.1) (by rw [hl (k + 1) hk]; exact hr.2),
        hl k hk.le, hl (k + 1) hk]
    rw [e3, ← Finset.sum_sub_distrib]
    simp only [mul_sub]
  rw [e1, e2, ← intervalIntegral.integral_const_mul]
  have c1 : Continuous fun r => r ^ 2 * (∑ l ∈ Finset.range P.Nang, P.rawWs l *
      (sphereField P.M (V l k) a b r - u l k r T)) ^ 2 :=
    (continuous_pow 2).mul ((continuous_finsetSum _ fun l hl' => continuous_const.mul
      ((Lemmas.continuous_sphereField P.M _ hab).sub (hu l (Finset.mem_range.1 hl') k hk))).pow 2)
  have c2 : Continuous fun r => s ^ 2 * ∑ l ∈ Finset.range P.Nang, P.ws l *
      (r ^ 2 * (sphereField P.M (V l k) a b r - u l k r T) ^ 2) :=
    continuous_const.mul (continuous_finsetSum _ fun l hl' => continuous_const.mul
      (hc l (Finset.mem_range.1 hl')))
  refine intervalIntegral.integral_mono_on hab.le (c1.intervalIntegrable _ _) (c2.intervalIntegrable _ _)
    fun r _ => ?_
  set f : ℕ → ℝ := fun l => sphereField P.M (V l k) a b r - u l k r T with hf
  have e4 : ∑ l ∈ Finset.range P.Nang, P.rawWs l * f l = s * ∑ l ∈ Finset.range P.Nang, P.ws l * f l := by
    rw [Finset.mul_sum]
    refine Finset.sum_congr rfl fun l hl' => ?_
    rw [hws l (Finset.mem_range.1 hl')]
    ring
  have e5 : (∑ l ∈ Finset.range P.Nang, P.ws l * f l) ^ 2 ≤ ∑ l ∈ Finset.range P.Nang, P.ws l * f l ^ 2 := by
    have hcs := Finset.sum_mul_sq_le_sq_mul_sq (Finset.range P.Nang) (fun l => √(P.ws l))
      (fun l => √(P.ws l) * f l)
    have a1 : ∀ l ∈ Finset.range P.Nang, √(P.ws l) * (√(P.ws l) * f l) = P.ws l * f l := fun l hl' => by
      rw [← mul_assoc, Real.mul_self_sqrt (hp l (Finset.mem_range.1 hl')).le]
    have a2 : ∀ l ∈ Finset.range P.Nang, √(P.ws l) ^ 2 = P.ws l := fun l hl' =>
      Real.sq_sqrt (hp l (Finset.mem_range.1 hl')).le
    have a3 : ∀ l ∈ Finset.range P.Nang, (√(P.ws l) * f l) ^ 2 = P.ws l * f l ^ 2 := fun l hl' => by
      rw [mul_pow, a2 l hl']
    rw [Finset.sum_congr rfl a1, Finset.sum_congr rfl a2, Finset.sum_congr rfl a3] at hcs
    have h1' : ∑ l ∈ Finset.range P.Nang, P.ws l = 1 := h1
    rwa [h1', one_mul] at hcs
  show r ^ 2 * (∑ l ∈ Finset.range P.Nang, P.rawWs l * f l) ^ 2 ≤
    s ^ 2 * ∑ l ∈ Finset.range P.Nang, P.ws l * (r ^ 2 * f l ^ 2)
  have e6 : ∑ l ∈ Finset.range P.Nang, P.ws l * (r ^ 2 * f l ^ 2) =
      r ^ 2 * ∑ l ∈ Finset.range P.Nang, P.ws l * f l ^ 2 := by
    rw [Finset.mul_sum]
    exact Finset.sum_congr rfl fun l _ => by ring
  rw [e4, e6, mul_pow]
  have := mul_le_mul_of_nonneg_left e5 (show 0 ≤ s ^ 2 * r ^ 2 by positivity)
  linarith

/-- What is reported of a state near the answer of the program. -/
theorem error_of_near {P : Problem} {e d : ℕ → ℝ} (hP : EstimateSetting P e d)
    (hT : 0 ≤ P.mesh.tfinal) {u : ℕ → ℕ → ℝ → ℝ → ℝ}
    (hu : ∀ l < P.Nang, ∀ k < P.mesh.N, Continuous fun r => u l k r P.mesh.tfinal) :
    ∃ Q, 0 ≤ Q ∧ ∀ (V y : StateVec) (ρ b : ℝ) (choose : Option (List ℝ)) (R : Results), 0 ≤ ρ →
      StatesWithin P y V ρ →
      sphereSqDistance P.Nang P.ws P.mesh.N P.M (fun k => e k + d k * P.mesh.tfinal) V
        (fun l k r => u l k r P.mesh.tfinal) ≤ b →
      Reports P e d choose y R → ErrorAtMost P e d choose u (2 * b + ρ ^ 2 * Q) R := by
  have hw0 : ∀ l < P.Nang, 0 ≤ P.ws l := fun l hl =>
    ((cell_weights (p := P.params) hP.directions (hP.weights.ws hP.problem.directions)).1 l hl).le
  obtain ⟨Q, hQ0, hQ⟩ := sphereSqDistance_near P.Nang hw0 P.mesh.N P.M
    (hP.problem.mesh.ordered P.mesh.tfinal hT) (fun l k r => u l k r P.mesh.tfinal) hu
  refine ⟨Q, hQ0, fun V y ρ b choose R hρ hy hb hR => ?_⟩
  have h1 := hQ V y ρ hρ hy
  have h2 : sphereSqDistance P.Nang P.ws P.mesh.N P.M (fun k => e k + d k * P.mesh.tfinal) y
      (fun l k r => u l k r P.mesh.tfinal) ≤ 2 * b + ρ ^ 2 * Q := by linarith
  have hfl := hR.flux hP.problem.mesh
  refine ⟨?_, hR.edges, hR.xs, by rw [← hfl]; exact hR.phi, ?_⟩
  · rwa [sphereSqDistance_congr_state hR.edges hR.coefficients]
  · rw [← hfl]
    exact (flux_error hP hT y hu).trans (mul_le_mul_of_nonneg_left h2 (sq_nonneg _))

/-- The answer of the program to the initial state that it forms itself, and its distance from `u`. -/
theorem run_and_bound (M : ℕ) (hM : M ≤ 10) : ∃ K : ℝ, 1 ≤ K ∧
    ∀ (P : Problem) (e d : ℕ → ℝ) (h A B R W : ℝ) (F : Set ℝ) (u : ℕ → ℕ → ℝ → ℝ → ℝ) (V0 : StateVec),
      EstimateSetting P e d → P.M = M → 0 < P.mesh.tfinal →
      SmoothExact P e d h A B R W F u → StartsFrom P V0 →
      ∃ (G : Set ℝ) (V : ℝ → StateVec), G.Finite ∧ RunOn P P.mesh.tfinal G V ∧
        sphereSqDistance P.Nang P.ws P.mesh.N P.M (fun k => e k + d k * P.mesh.tfinal) (V P.mesh.tfinal)
          (fun l k r => u l k r P.mesh.tfinal) ≤ meshBound P e h A B R W K V0 u := by
  obtain ⟨K, hK1, hK⟩ := c118_error_bound_partial M hM
  refine ⟨K, hK1, fun P e d h A B R W F u V0 hP hPM hT hu hV0 => ?_⟩
  subst hPM
  obtain ⟨V, ⟨hV, hVs⟩, -⟩ := c110_wellposed_partial hP.problem (Or.inl hP.noSource) hT.le V0
  set G : Set ℝ := {0, max 0 (min P.mesh.t0 P.mesh.tfinal)} with hG
  have hGf : (F ∪ G).Finite := hu.finite.union (by simp [hG])
  have hV' : ProgramSolutionOn P 0 P.mesh.tfinal (F ∪ G) V :=
    ⟨hV.1, fun t ht => hV.2 t ⟨ht.1, fun hf => ht.2 (Or.inr hf)⟩⟩
  refine ⟨F ∪ G, V, hGf, ⟨fun l hl k hk i hi => ?_, hV'⟩, ?_⟩
  · rw [hVs l hl k hk i hi]
    exact hV0 l hl k hk i hi
  have h1 := hK P e d P.mesh.tfinal h A B R W (F ∪ G) u V hP rfl hGf hu.cell hu.cells hu.first hu.last
    hu.widthFirst hu.widthLast hu.speed hu.speeds (sphereSolution_mono subset_union_left hu.solution)
    hu.smooth hu.derivative hV' P.mesh.tfinal ⟨hT.le, le_rfl⟩
  rw [sphereSqDistance_congr_state (V := V 0) (W := V0) (fun _ _ => rfl) hVs] at h1
  exact h1

theorem SmoothExact.final {P : Problem} {e d : ℕ → ℝ} {h A B R W : ℝ} {F : Set ℝ}
    {u : ℕ → ℕ → ℝ → ℝ → ℝ} (hu : SmoothExact P e d h A B R W F u) :
    ∀ l < P.Nang, ∀ k < P.mesh.N, Continuous fun r => u l k r P.mesh.tfinal := fun l hl k hk =>
  (hu.solution.smooth l hl k hk).continuous.comp (by fun_prop : Continuous fun r : ℝ => (r, P.mesh.tfinal))

/-- C130: the results of `solve` with `RK45` for a sphere without sources, against a smooth solution of
the transport equation: the error, squared, is at most twice the error of the mesh, which contains the
distance of the initial state from the initial values, plus a constant times the tenth power of the
largest step. -/
theorem c130_rk45_error (M : ℕ) (hM : M ≤ 10) : ∃ K : ℝ, 1 ≤ K ∧
    ∀ (P : Problem) (e d : ℕ → ℝ) (h A B R W : ℝ) (F : Set ℝ) (u : ℕ → ℕ → ℝ → ℝ → ℝ) (V0 : StateVec),
      EstimateSetting P e d → P.M = M → P.uncollided = false → 0 < P.mesh.tfinal →
      SmoothExact P e d h A B R W F u → StartsFrom P V0 →
      ∃ C, ∃ η₀ > 0, ∀ (es : List Event) (η : ℝ), 0 ≤ η → η ≤ η₀ → Arrives P es →
        (∀ s ∈ acceptedSteps es, s ≤ η) → ∀ estimate choose, ∃ Q,
          P.solve rk45 (rkInterpolant rk45 rk45Dense 4) es estimate choose = some Q ∧
          ErrorAtMost P e d choose u (2 * meshBound P e h A B R W K V0 u + C * η ^ 10) Q := by
  obtain ⟨K, hK1, hK⟩ := run_and_bound M hM
  refine ⟨K, hK1, fun P e d h A B R W F u V0 hP hPM hun hT hu hV0 => ?_⟩
  obtain ⟨G, V, hG, hV, hb⟩ := hK P e d h A B R W F u V0 hP hPM hT hu hV0
  obtain ⟨C, η₀, h0, h1⟩ := c127_rk45_order hP.problem hP.noSource (Or.inl hP.noBoundary) hG hV.2
  obtain ⟨Q, hQ0, hQ⟩ := error_of_near hP hT.le hu.final
  refine ⟨max C 0 ^ 2 * Q, η₀, h0, fun es η hη hη0 hes hs estimate choose => ?_⟩
  obtain ⟨S, x, r1, r2, r3, r4⟩ := c128_solve hP.problem (by have := hP.shells; omega) hun hT rk45_usable
    rk45_endsRight hV.1 hes estimate choose
  refine ⟨S, r1, ?_⟩
  have h2 := h1 _ es x 0 η le_rfl hη hη0 (fun s hs' => ⟨(hes.1 s hs').le, hs s hs'⟩)
    (hV.1.within hV.1) r2 r3.le
  rw [zero_add, r3] at h2
  have h3 := hQ (V P.mesh.tfinal) x.y (max C 0 * η ^ 5) _ choose S (by positivity)
    (fun l hl k hk i hi => (h2 l hl k hk i hi).trans
      (mul_le_mul_of_nonneg_right (le_max_left _ _) (by positivity))) hb r4
  rwa [show (max C 0 * η ^ 5) ^ 2 * Q = max C 0 ^ 2 * Q * η ^ 10 by ring] at h3

/-- C130: with `RK23` it is the sixth power. -/
theorem c130_rk23_error (M : ℕ) (hM : M ≤ 10) : ∃ K : ℝ, 1 ≤ K ∧
    ∀ (P : Problem) (e d : ℕ → ℝ) (h A B R W : ℝ) (F : Set ℝ) (u : ℕ → ℕ → ℝ → ℝ → ℝ) (V0 : StateVec),
      EstimateSetting P e d → P.M = M → P.uncollided = false → 0 < P.mesh.tfinal →
      SmoothExact P e d h A B R W F u → StartsFrom P V0 →
      ∃ C, ∃ η₀ > 0, ∀ (es : List Event) (η : ℝ), 0 ≤ η → η ≤ η₀ → Arrives P es →
        (∀ s ∈ acceptedSteps es, s ≤ η) → ∀ estimate choose, ∃ Q,
          P.solve rk23 (rkInterpolant rk23 rk23Dense 3) es estimate choose = some Q ∧
          ErrorAtMost P e d choose u (2 * meshBound P e h A B R W K V0 u + C * η ^ 6) Q := by
  obtain ⟨K, hK1, hK⟩ := run_and_bound M hM
  refine ⟨K, hK1, fun P e d h A B R W F u V0 hP hPM hun hT hu hV0 => ?_⟩
  obtain ⟨G, V, hG, hV, hb⟩ := hK P e d h A B R W F u V0 hP hPM hT hu hV0
  obtain ⟨C, η₀, h0, h1⟩ := c127_rk23_order hP.problem hP.noSource (Or.inl hP.noBoundary) hG hV.2
  obtain ⟨Q, hQ0, hQ⟩ := error_of_near hP hT.le hu.final
  refine ⟨max C 0 ^ 2 * Q, η₀, h0, fun es η hη hη0 hes hs estimate choose => ?_⟩
  obtain ⟨S, x, r1, r2, r3, r4⟩ := c128_solve hP.problem (by have := hP.shells; omega) hun hT rk23_usable
    rk23_endsRight hV.1 hes estimate choose
  refine ⟨S, r1, ?_⟩
  have h2 := h1 _ es x 0 η le_rfl hη hη0 (fun s hs' => ⟨(hes.1 s hs').le, hs s hs'⟩)
    (hV.1.within hV.1) r2 r3.le
  rw [zero_add, r3] at h2
  have h3 := hQ (V P.mesh.tfinal) x.y (max C 0 * η ^ 3) _ choose S (by positivity)
    (fun l hl k hk i hi => (h2 l hl k hk i hi).trans
      (mul_le_mul_of_nonneg_right (le_max_left _ _) (by positivity))) hb r4
  rwa [show (max C 0 * η ^ 3) ^ 2 * Q = max C 0 ^ 2 * Q * η ^ 6 by ring] at h3

/-- C130: with every consistent Runge-Kutta method, `DOP853` among them, the error, squared, is at most
twice the error of the mesh plus any `ε`, if the accepted steps are short enough. -/
theorem c130_consistent_error (M : ℕ) (hM : M ≤ 10) : ∃ K : ℝ, 1 ≤ K ∧
    ∀ (P : Problem) (e d : ℕ → ℝ) (h A B R W : ℝ) (F : Set ℝ) (u : ℕ → ℕ → ℝ → ℝ → ℝ) (V0 : StateVec)
      (τ : Tableau) (D : Interpolant),
      EstimateSetting P e d → P.M = M → P.uncollided = false → 0 < P.mesh.tfinal →
      SmoothExact P e d h A B R W F u → StartsFrom P V0 →
      UsableMethod τ → ∑ i ∈ Finset.range τ.n, τ.b i = 1 → EndsRight τ D →
      ∀ ε > 0, ∃ η > 0, ∀ es : List Event, Arrives P es → (∀ s ∈ acceptedSteps es, s ≤ η) →
        ∀ estimate choose, ∃ Q, P.solve τ D es estimate choose = some Q ∧
          ErrorAtMost P e d choose u (2 * meshBound P e h A B R W K V0 u + ε) Q := by
  obtain ⟨K, hK1, hK⟩ := run_and_bound M hM
  refine ⟨K, hK1, fun P e d h A B R W F u V0 τ D hP hPM hun hT hu hV0 hτ hτb hD ε hε => ?_⟩
  obtain ⟨G, V, hG, hV, hb⟩ := hK P e d h A B R W F u V0 hP hPM hT hu hV0
  obtain ⟨C, h1⟩ := c125_converges hP.problem (Or.inl hP.noSource) hτ hT.le hG hV.2 0
  obtain ⟨Q, hQ0, hQ⟩ := error_of_near hP hT.le hu.final
  set ρ := min 1 (ε / (Q + 1)) with hρ
  have hρ0 : 0 < ρ := lt_min one_pos (by positivity)
  obtain ⟨η, hη, h1⟩ := h1 ρ hρ0
  refine ⟨η, hη, fun es hes hs estimate choose => ?_⟩
  obtain ⟨S, x, r1, r2, r3, r4⟩ := c128_solve hP.problem (by have := hP.shells; omega) hun hT hτ
    hD hV.1 hes estimate choose
  refine ⟨S, r1, ?_⟩
  have h2 := (h1 _ es x (fun s hs' => ⟨(hes.1 s hs').le, hs s hs'⟩)
    (fun l hl k hk i hi => (hV.1.within hV.1 l hl k hk i hi).trans hη.le) r2 r3.le).1
  rw [hτb, sub_self, abs_zero, mul_zero, add_zero, r3] at h2
  have h3 := hQ (V P.mesh.tfinal) x.y ρ _ choose S hρ0.le h2 hb r4
  have h4 : ρ ^ 2 * Q ≤ ε := by
    have a1 : ρ ^ 2 ≤ ρ := by
      have := min_le_left 1 (ε / (Q + 1))
      nlinarith
    have a2 : ρ * (Q + 1) ≤ ε := by
      have := min_le_right 1 (ε / (Q + 1))
      rwa [← hρ, le_div_iff₀ (by positivity)] at this
    nlinarith
  obtain ⟨g1, g2, g3, g4, g5⟩ := h3
  exact ⟨by linarith, g2, g3, g4, g5.trans (mul_le_mul_of_nonneg_left (by linarith) (sq_nonneg _))⟩

/-- The critical sphere as a problem for `solve`: `N` equal shells at rest. -/
theorem critical_exact {inv : (ℕ → ℕ → ℝ) → ℕ → ℕ → ℝ} (hi : InverseCorrect 1 inv) :
    ∃ B, ∀ N : ℕ, 2 ≤ N → SmoothExact (exampleCritical inv N) (evenEdges N (1 / 2)) (evenEdges N 0)
      ((1 / 2) / N) (1 / 2) B (1 / 2) 1 {1} criticalU := by
  have hcont : ∀ l : ℕ, ∃ B, ∀ r ∈ Icc (0 : ℝ) (1 / 2),
      |iteratedDeriv 2 (fun r => criticalU l 0 r 0) r| ≤ B := by
    intro l
    have h1 : Continuous (iteratedDeriv 2 (fun r => criticalU l 0 r 0)) :=
      (contDiff_criticalU (n := 2) l 0 0).continuous_iteratedDeriv 2 le_rfl
    obtain ⟨B, hB⟩ := isCompact_Icc.exists_bound_of_continuousOn (s := Icc (0 : ℝ) (1 / 2))
      h1.continuousOn
    exact ⟨B, fun r hr => hB r hr⟩
  obtain ⟨B0, hB0⟩ := hcont 0
  obtain ⟨B1, hB1⟩ := hcont 1
  refine ⟨max B0 B1, fun N hN => ?_⟩
  have hN0 : (0 : ℝ) < N := by exact_mod_cast (by omega : 0 < N)
  have hNe : (exampleCritical inv N).mesh.N = N := rfl
  have hz : ∀ k, evenEdges N 0 k = 0 := fun k => by simp [evenEdges]
  have hend : evenEdges N (1 / 2) N = 1 / 2 := by
    simp only [evenEdges, div_self hN0.ne', one_mul]
  have hlt : ∀ k, evenEdges N (1 / 2) k < evenEdges N (1 / 2) (k + 1) := by
    intro k
    have h1 := evenEdges_width (N := N) (1 / 2) k
    have h2 : (0 : ℝ) < 1 / 2 / N := by positivity
    linarith
  have hsol := critical_solution hi hN 2 {1}
  refine ⟨by simp, one_pos, example_cells, ?_, ?_, fun k _ => (evenEdges_width (N := N) (1 / 2) k).le,
    fun k _ => ?_, by norm_num, fun l hl k _ => ?_, ?_, fun t _ l _ k _ => ?_, fun t _ l hl k hk r hr => ?_⟩
  · rw [hNe, hend]
  · rw [hNe, hend, hz]; norm_num
  · rw [hz, hz, zero_mul, add_zero, add_zero]
    exact (evenEdges_width (N := N) (1 / 2) k).le
  · have hl2 : l = 0 ∨ l = 1 := by have : l < 2 := hl; omega
    rw [hz, sub_zero]
    rcases hl2 with rfl | rfl <;>
      norm_num [exampleCritical, exampleShell, exampleSphereParams, abs_le]
  · have e1 : (fun (t : ℝ) k => evenEdges N (1 / 2) k + evenEdges N 0 k * t) =
        fun t => evenEdges N (1 / 2 + 0 * t) := by
      funext t k
      simp only [evenEdges]
      ring
    rw [e1]
    exact hsol
  · exact (contDiff_criticalU l k t).contDiffOn
  · have hl2 : l = 0 ∨ l = 1 := by have : l < 2 := hl; omega
    have hk : k < N := hk
    rw [hz, hz, zero_mul, add_zero, add_zero] at hr ⊢
    have h1 : (fun r => criticalU l k r t) = fun r => criticalU l 0 r 0 := rfl
    have e2 : (exampleCritical inv N).M + 1 = 2 := rfl
    rw [h1, e2, iteratedDerivWithin_eq_iteratedDeriv (uniqueDiffOn_Icc (hlt k))
      (contDiff_criticalU l 0 0).contDiffAt hr]
    have hr2 : r ∈ Icc (0 : ℝ) (1 / 2) := by
      refine ⟨le_trans ?_ hr.1, hr.2.trans ?_⟩
      · unfold evenEdges
        positivity
      · unfold evenEdges
        have : ((k + 1 : ℕ) : ℝ) / N ≤ 1 := by
          rw [div_le_one hN0]
          exact_mod_cast hk
        linarith
    rcases hl2 with rfl | rfl
    · exact (hB0 r hr2).trans (le_max_left _ _)
    · exact (hB1 r hr2).trans (le_max_right _ _)

/-- `solve` on the critical sphere with a point pulse to start with, for every number of shells, with `n`
equal steps and a rejected one: the distance from the stationary solution at time two. -/
example : ∃ inv, InverseCorrect 1 inv ∧ ∃ K B : ℝ, ∀ N : ℕ, 2 ≤ N → ∃ V0, StartsFrom (exampleCritical inv N) V0 ∧
    ∃ C, ∃ η₀ > 0, ∀ (n : ℕ) (η : ℝ), 0 < η → η ≤ η₀ → n * η = 2 →
      ∃ Q, (exampleCritical inv N).solve rk45 (rkInterpolant rk45 rk45Dense 4)
          (.step 1 false :: List.replicate n (.step η true)) false none = some Q ∧
        ErrorAtMost (exampleCritical inv N) (evenEdges N (1 / 2)) (evenEdges N 0) none criticalU
          (2 * meshBound (exampleCritical inv N) (evenEdges N (1 / 2)) ((1 / 2) / N) (1 / 2) B (1 / 2) 1 K V0
            criticalU + C * η ^ 10) Q := by
  obtain ⟨inv, hi⟩ := inverse_exists 1
  obtain ⟨B, hB⟩ := critical_exact hi
  obtain ⟨K, -, hK⟩ := c130_rk45_error 1 (by norm_num)
  refine ⟨inv, hi, K, B, fun N hN => ?_⟩
  have hs := exampleCritical_setting hi hN
  obtain ⟨m, hm, -⟩ := hs.problem.mesh.moves
  obtain ⟨V0, hV0⟩ := initial_exists (P := exampleCritical inv N) hm rfl
    (by simp [exampleCritical, exampleCriticalMesh, MeshConfig.st])
    (Or.inr (Or.inl (by simp [exampleCritical, exampleCriticalMesh, MeshConfig.st])))
    (by norm_num [exampleCritical, exampleShell])
  obtain ⟨C, η₀, h0, h1⟩ := hK (exampleCritical inv N) _ _ _ _ _ _ _ _ _ V0 hs rfl rfl zero_lt_two (hB N hN) hV0
  refine ⟨V0, hV0, C, η₀, h0, fun n η hη hη0 hn => ?_⟩
  have hacc : acceptedSteps (.step 1 false :: List.replicate n (.step η true)) = List.replicate n η := by
    rw [acceptedSteps, acceptedSteps_replicate]
  refine h1 _ η hη.le hη0 ⟨fun s hs => ?_, ?_⟩ (fun s hs => ?_) false none
  · rw [hacc] at hs
    rwa [(List.mem_replicate.1 hs).2]
  · rw [hacc, List.sum_replicate, nsmul_eq_mul]
    exact hn
  · rw [hacc] at hs
    rw [(List.mem_replicate.1 hs).2]

end Verif.Props
