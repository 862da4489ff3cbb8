import Verif.Props.SolveError
import Verif.Props.GaussDirections

/-!
Property C134: the error estimates of C108, C118 and C130 for every set of directions and all weights.
-/

namespace Verif.Props

open Set MeasureTheory Verif.Spec Verif.Model Verif.Lemmas

/-! ### The scheme -/

/-- C134: as `c108_sphere_convergence_partial`, for all directions.  `δ` bounds how far directions are
left of the middle of their angular cells and `ρ` the innermost edge from below; `C` and `K` depend on
the order only. -/
theorem c134_scheme (M : ℕ) (hM : M ≤ 10) : ∃ C K : ℝ, 1 ≤ C ∧ 1 ≤ K ∧
    ∀ (p : RhsParams) (c : FluxConfig) (mesh : ℝ → MeshView) (mats : ℝ → ℕ → CellMats)
      (S : ℝ → ℕ → ℕ → ℝ) (a b δ ρ h κ A B R W L : ℝ) (F : Set ℝ) (q : ℕ → ℝ → ℝ → ℝ)
      (u : ℕ → ℕ → ℝ → ℝ → ℝ) (V : ℝ → ℕ → ℕ → ℕ → ℝ),
      DirectionSet p.Nang p.mus →
      ∑ l ∈ Finset.range p.Nang, p.ws l ^ 2 / (angularWidth p.Nang p.mus l / 2) ≤ κ →
      0 ≤ p.c → c.geometry = .sphere → c.M = M → 2 ≤ c.Nspace → F.Finite →
      SphereMeshOn c mesh mats a b F →
      (∀ t ∈ Ico a b \ F, ¬ BoundaryActive c false t) →
      SphereSolution p.Nang p.mus p.ws p.c c.Nspace (fun t => (mesh t).edges)
        (fun t => (mesh t).Dedges) q a b F u →
      (∀ t ∈ Ico a b \ F, ∀ k < c.Nspace, ∀ i ≤ c.M, 1 / 2 * S t k i * p.c =
        weightedMoment (fun r => q k r t) ((mesh t).edges k) ((mesh t).edges (k + 1)) i) →
      0 ≤ δ → (∀ l < p.Nang, angularMid p.Nang p.mus l - p.mus l ≤ δ) →
      0 < ρ → (∀ t ∈ Icc a b, ρ ≤ (mesh t).edges 1) →
      0 < W → (∀ l < p.Nang, W ≤ angularWidth p.Nang p.mus l) →
      (∀ t ∈ Icc a b, (mesh t).edges c.Nspace ≤ R) →
      (∀ t ∈ Icc a b, ∀ k < c.Nspace, (mesh t).edges (k + 1) - (mesh t).edges k ≤ h) →
      ((c.Nspace : ℝ) + 1) * h ≤ L → 0 ≤ A →
      (∀ t ∈ Ico a b \ F, ∀ l < p.Nang, ∀ k ≤ c.Nspace, |p.mus l - (mesh t).Dedges k| ≤ A) →
      (∀ t ∈ Icc a b, ∀ l < p.Nang, ∀ k < c.Nspace, ContDiffOn ℝ (c.M + 1)
        (fun r => u l k r t) (Icc ((mesh t).edges k) ((mesh t).edges (k + 1)))) →
      (∀ t ∈ Icc a b, ∀ l < p.Nang, ∀ k < c.Nspace,
        ∀ r ∈ Icc ((mesh t).edges k) ((mesh t).edges (k + 1)),
        |iteratedDerivWithin (c.M + 1) (fun r => u l k r t)
          (Icc ((mesh t).edges k) ((mesh t).edges (k + 1))) r| ≤ B) →
      SphereSolutionOn p c mesh mats S a b F V →
      ∀ t ∈ Icc a b,
        sphereSqDistance p.Nang (fun l => angularWidth p.Nang p.mus l / 2) c.Nspace c.M (mesh t).edges
            (V t) (fun l k r => u l k r t) ≤
          (sphereSqDistance p.Nang (fun l => angularWidth p.Nang p.mus l / 2) c.Nspace c.M
              (mesh a).edges (V a) (fun l k r => u l k r a)
            + ((t - a) * (L * A * R ^ 2 + R * (2 / W) ^ 2 * h) + R ^ 3 * h)
              * (K * B) ^ 2 * h ^ (2 * c.M + 1))
          * Real.exp (max (p.c * (1 + κ) - 1 + 2 * δ * C / ρ) 0 * (t - a)) := by
  obtain ⟨C, K, hC, hK, hb⟩ := c107_sphere_distance_bound M hM
  refine ⟨C, K, hC, hK, ?_⟩
  intro p c mesh mats S a b δ ρ h κ A B R W L F q u V hd hκ hc hg hcM hN hF hmesh hoff hu hS hδ hmid
    hρ hρ1 hW hW1 hR hh hL hA0 hA hsm hB hV t ht
  subst hcM
  have hab : a ≤ b := ht.1.trans ht.2
  have ha : a ∈ Icc a b := ⟨le_rfl, hab⟩
  have hh0 : 0 ≤ h := by
    have h1 := hh a ha 0 (by omega)
    have h2 := hmesh.ordered a ha 0 (by omega)
    linarith
  have hR0 : 0 ≤ R := by
    have h1 := edges_mono (hmesh.ordered a ha) (Nat.zero_le c.Nspace) le_rfl
    rw [hmesh.centre a ha] at h1
    exact h1.trans (hR a ha)
  have hB0 : 0 ≤ B := by
    have := hd.two
    exact (abs_nonneg _).trans (hB a ha 0 (by omega) 0 (by omega) _
      (left_mem_Icc.2 (hmesh.ordered a ha 0 (by omega)).le))
  set ε := B * h ^ (c.M + 1) with hε
  have hclose : ∀ s ∈ Icc a b, ∀ l < p.Nang, ∀ k < c.Nspace, ∃ U : ℕ → ℝ,
      ∀ r ∈ Icc ((mesh s).edges k) ((mesh s).edges (k + 1)),
      |sphereField c.M U ((mesh s).edges k) ((mesh s).edges (k + 1)) r - u l k r s| ≤ ε := by
    intro s hs l hl k hk
    have hlt := hmesh.ordered s hs k hk
    obtain ⟨U, hU⟩ := exists_close_sphere_field c.M hlt (hsm s hs l hl k hk) (hB s hs l hl k hk)
    refine ⟨U, fun x hx => (hU x hx).trans ?_⟩
    have h1 := hh s hs k hk
    have h2 : 0 ≤ (mesh s).edges (k + 1) - (mesh s).edges k := by linarith
    have h3 : (1 : ℝ) ≤ (c.M.factorial : ℝ) := by exact_mod_cast c.M.factorial_pos
    refine (div_le_self (by positivity) h3).trans ?_
    rw [hε]
    gcongr
  have hbound := hb p c mesh mats S a b δ ρ κ A R W ε F q u V hd hκ hc hg rfl hN hF
    hmesh hoff hu hS hδ hmid hW hW1 hρ
    (fun s hs => ⟨hρ1 s hs, hR s hs⟩) hA hclose hV t ht
  set E := p.c * (1 + κ) - 1 + 2 * δ * C / ρ with hE
  obtain ⟨hp, -⟩ := cell_weights (p := cellParams p) hd fun _ _ => rfl
  have hnn : 0 ≤ sphereSqDistance p.Nang (fun l => angularWidth p.Nang p.mus l / 2) c.Nspace c.M
      (mesh a).edges (V a) (fun l k r => u l k r a) :=
    sphereSqDistance_nonneg (fun l hl => (hp l hl).le) c.Nspace c.M (hmesh.ordered a ha) _ _
  have hta : 0 ≤ t - a := by linarith [ht.1]
  have hg1 := gronwallBound_le_exp (K := E) hnn
    (show 0 ≤ ((c.Nspace : ℝ) + 1) * (A * R ^ 2 * (K * ε) ^ 2) + R * (2 * (K * ε) / W) ^ 2 by
      positivity) hta
  refine hbound.trans ((add_le_add hg1 le_rfl).trans ?_)
  set X := Real.exp (max E 0 * (t - a)) with hX
  have hX1 : 1 ≤ X := Real.one_le_exp (mul_nonneg (le_max_right _ _) hta)
  set G := (K * B) ^ 2 * h ^ (2 * c.M + 1) with hG
  have hG0 : 0 ≤ G := by positivity
  have eG : (K * ε) ^ 2 = G * h := by rw [hε, hG]; ring
  have h1 : ((c.Nspace : ℝ) + 1) * (A * R ^ 2 * (K * ε) ^ 2) ≤ L * A * R ^ 2 * G := by
    rw [eG]
    have := mul_le_mul_of_nonneg_right hL (show 0 ≤ A * R ^ 2 * G by positivity)
    linarith
  have h2 : R * (2 * (K * ε) / W) ^ 2 = R * (2 / W) ^ 2 * h * G := by
    have : (2 * (K * ε) / W) ^ 2 = (2 / W) ^ 2 * (K * ε) ^ 2 := by ring
    rw [this, eG]; ring
  have h3 : R ^ 3 * (K * ε) ^ 2 ≤ R ^ 3 * h * G * X := by
    rw [eG]
    have : 0 ≤ R ^ 3 * h * G := by positivity
    nlinarith
  have h4 : (((c.Nspace : ℝ) + 1) * (A * R ^ 2 * (K * ε) ^ 2) + R * (2 * (K * ε) / W) ^ 2) * (t - a) ≤
      (t - a) * (L * A * R ^ 2 + R * (2 / W) ^ 2 * h) * G := by
    rw [h2]
    have := mul_le_mul_of_nonneg_right h1 hta
    linarith
  have h5 := mul_le_mul_of_nonneg_right h4 (zero_le_one.trans hX1)
  have e6 : ∀ Y : ℝ, (Y + ((t - a) * (L * A * R ^ 2 + R * (2 / W) ^ 2 * h) + R ^ 3 * h)
      * (K * B) ^ 2 * h ^ (2 * c.M + 1)) * X =
      Y * X + (t - a) * (L * A * R ^ 2 + R * (2 / W) ^ 2 * h) * G * X + R ^ 3 * h * G * X := by
    intro Y; rw [hG]; ring
  rw [e6, add_mul]
  linarith

/-! ### The program -/

/-- What the estimate asks of the arguments: no source, no boundary source, scattering not negative.
Directions and weights are whatever the rule gives. -/
structure AnyDirections (P : Problem) (e d : ℕ → ℝ) : Prop where
  problem : SphereProblem P e d
  shells : 2 ≤ P.mesh.N
  noSource : ¬ SourceAsked P
  noBoundary : P.boundarySource = false
  noManufactured : P.mesh.st 4 ≠ 1
  directions : DirectionSet P.Nang P.mus
  scattering : 0 ≤ P.sigmaS

theorem EstimateSetting.any {P : Problem} {e d : ℕ → ℝ} (h : EstimateSetting P e d) :
    AnyDirections P e d :=
  ⟨h.problem, h.shells, h.noSource, h.noBoundary, h.noManufactured, h.directions, h.scattering⟩

/-- `δ` bounds how far directions are left of the middle of their angular cells, `ρ` the innermost edge
from below at the first and the last time, `κ` measures how far the weights are from the widths of the
angular cells. -/
structure Offsets (P : Problem) (e d : ℕ → ℝ) (T δ ρ κ : ℝ) : Prop where
  offset : 0 ≤ δ
  offsets : ∀ l < P.Nang, angularMid P.Nang P.mus l - P.mus l ≤ δ
  inner : 0 < ρ
  innerFirst : ρ ≤ e 1
  innerLast : ρ ≤ e 1 + d 1 * T
  weights : ∑ l ∈ Finset.range P.Nang, P.ws l ^ 2 / (angularWidth P.Nang P.mus l / 2) ≤ κ

/-- The widths of the angular cells, as weights with sum one. -/
noncomputable def cellWs (P : Problem) (l : ℕ) : ℝ := angularWidth P.Nang P.mus l / 2

/-- C134: the distance of the answer of the program from the solution of the transport equation, for
all directions and weights. -/
theorem c134_error_bound (M : ℕ) (hM : M ≤ 10) : ∃ C K : ℝ, 1 ≤ C ∧ 1 ≤ K ∧
    ∀ (P : Problem) (e d : ℕ → ℝ) (T δ ρ κ h A B R W : ℝ) (F : Set ℝ) (u : ℕ → ℕ → ℝ → ℝ → ℝ)
      (V : ℝ → ℕ → ℕ → ℕ → ℝ), AnyDirections P e d → Offsets P e d T δ ρ κ → P.M = M → F.Finite →
      0 < W → (∀ l < P.Nang, W ≤ angularWidth P.Nang P.mus l) →
      e P.mesh.N ≤ R → e P.mesh.N + d P.mesh.N * T ≤ R →
      (∀ k < P.mesh.N, e (k + 1) - e k ≤ h) →
      (∀ k < P.mesh.N, e (k + 1) + d (k + 1) * T - (e k + d k * T) ≤ h) →
      0 ≤ A → (∀ l < P.Nang, ∀ k ≤ P.mesh.N, |P.mus l - d k| ≤ A) →
      SphereSolution P.Nang P.mus P.ws P.sigmaS P.mesh.N (fun t k => e k + d k * t) (fun _ => d)
        (fun _ _ _ => 0) 0 T F u →
      (∀ t ∈ Icc 0 T, ∀ l < P.Nang, ∀ k < P.mesh.N, ContDiffOn ℝ (M + 1) (fun r => u l k r t)
        (Icc (e k + d k * t) (e (k + 1) + d (k + 1) * t))) →
      (∀ t ∈ Icc 0 T, ∀ l < P.Nang, ∀ k < P.mesh.N,
        ∀ r ∈ Icc (e k + d k * t) (e (k + 1) + d (k + 1) * t),
        |iteratedDerivWithin (M + 1) (fun r => u l k r t)
          (Icc (e k + d k * t) (e (k + 1) + d (k + 1) * t)) r| ≤ B) →
      ProgramSolutionOn P 0 T F V → ∀ t ∈ Icc 0 T,
        sphereSqDistance P.Nang (cellWs P) P.mesh.N M (fun k => e k + d k * t) (V t)
            (fun l k r => u l k r t) ≤
          (sphereSqDistance P.Nang (cellWs P) P.mesh.N M e (V 0) (fun l k r => u l k r 0)
            + (t * ((P.mesh.N + 1) * h * A * R ^ 2 + R * (2 / W) ^ 2 * h) + R ^ 3 * h)
              * (K * B) ^ 2 * h ^ (2 * M + 1))
          * Real.exp (max (P.sigmaS * (1 + κ) - 1 + 2 * δ * C / ρ) 0 * t) := by
  obtain ⟨C, K, hC, hK, hb⟩ := c134_scheme M hM
  refine ⟨C, K, hC, hK, ?_⟩
  intro P e d T δ ρ κ h A B R W F u V hP hO hPM hF hW hW1 hR0 hR1 hh0 hh1 hA0 hA hu hsm hB hV t ht
  subst hPM
  have hl := fun t => meshAt_linear hP.problem.mesh t
  have hE : ∀ t, ∀ k < P.mesh.N, (meshAt P t).edges k = e k + d k * t ∧
      (meshAt P t).edges (k + 1) = e (k + 1) + d (k + 1) * t := fun t k hk =>
    ⟨(hl t).1 k hk.le, (hl t).1 (k + 1) hk⟩
  have hact : ∀ left t, ¬ BoundaryActive P.fluxConfig left t := by
    intro left t
    simp [BoundaryActive, Problem.fluxConfig, hP.noManufactured, hP.noBoundary]
  have hmain := hb P.params P.fluxConfig (meshAt P) (programMats P) (programSource P) 0 T δ ρ h κ A B R W
    ((P.mesh.N + 1) * h) F (fun _ _ _ => 0) u V hP.directions hO.weights hP.scattering
    hP.problem.sphere rfl hP.shells hF (programMesh hP.problem.toSphereSetup le_rfl F)
    (fun t _ => hact _ _)
    (sphereSolution_congr hu (fun t k hk => (hl t).1 k hk) fun t k hk => (hl t).2 k hk)
    (fun t _ k _ i _ => by
      simp [programSource, sourceOf, if_neg hP.noSource, weightedMoment])
    hO.offset hO.offsets hO.inner
    (fun t ht => by
      rw [(hl t).1 1 (by have := hP.shells; omega)]
      have := line_le (a := -e 1) (b := -d 1) (h := -ρ) (by have := hO.innerFirst; linarith)
        (by have := hO.innerLast; linarith) ht
      linarith)
    hW hW1
    (fun t ht => by
      rw [show P.fluxConfig.Nspace = P.mesh.N from rfl, (hl t).1 _ le_rfl]
      exact line_le hR0 hR1 ht)
    (fun t ht k hk => by
      have hk : k < P.mesh.N := hk
      rw [(hE t k hk).1, (hE t k hk).2]
      have := line_le (a := e (k + 1) - e k) (b := d (k + 1) - d k) (hh0 k hk)
        (by have := hh1 k hk; linarith) ht
      linarith)
    le_rfl hA0
    (fun t _ l hl' k hk => by
      rw [(hl t).2 k hk]
      exact hA l hl' k hk)
    (fun t ht l hl' k hk => by
      have hk : k < P.mesh.N := hk
      rw [(hE t k hk).1, (hE t k hk).2]
      exact hsm t ht l hl' k hk)
    (fun t ht l hl' k hk => by
      have hk : k < P.mesh.N := hk
      rw [(hE t k hk).1, (hE t k hk).2]
      exact hB t ht l hl' k hk)
    ((programSolution_iff hP.problem _ _ _ _).1 hV) t ht
  have hws : ∀ l < P.Nang, cellWs P l = angularWidth P.Nang P.mus l / 2 := fun _ _ => rfl
  rw [sphereSqDistance_congr P.Nang hws P.mesh.N P.M
      (e := fun k => e k + d k * t) (e' := (meshAt P t).edges) (fun k hk => ((hl t).1 k hk).symm),
    sphereSqDistance_congr P.Nang hws P.mesh.N P.M
      (e := e) (e' := (meshAt P 0).edges) (fun k hk => by rw [(hl 0).1 k hk]; ring)]
  refine hmain.trans_eq ?_
  rw [sub_zero]
  rfl

/-! ### What `solve` returns -/

/-- The bound of `c134_error_bound` at the final time, for the initial state `V0`. -/
noncomputable def offsetBound (P : Problem) (e : ℕ → ℝ) (δ ρ κ h A B R W C K : ℝ) (V0 : StateVec)
    (u : ℕ → ℕ → ℝ → ℝ → ℝ) : ℝ :=
  (sphereSqDistance P.Nang (cellWs P) P.mesh.N P.M e V0 (fun l k r => u l k r 0)
    + (P.mesh.tfinal * ((P.mesh.N + 1) * h * A * R ^ 2 + R * (2 / W) ^ 2 * h) + R ^ 3 * h)
      * (K * B) ^ 2 * h ^ (2 * P.M + 1))
  * Real.exp (max (P.sigmaS * (1 + κ) - 1 + 2 * δ * C / ρ) 0 * P.mesh.tfinal)

/-- As `ErrorAtMost`, with the widths of the angular cells in the place of the weights. -/
def ErrorAtMostAny (P : Problem) (e d : ℕ → ℝ) (choose : Option (List ℝ)) (u : ℕ → ℕ → ℝ → ℝ → ℝ) (b : ℝ)
    (Q : Results) : Prop :=
  sphereSqDistance P.Nang (cellWs P) P.mesh.N P.M Q.edges Q.solLast
    (fun l k r => u l k r P.mesh.tfinal) ≤ b ∧
  (∀ k ≤ P.mesh.N, Q.edges k = e k + d k * P.mesh.tfinal) ∧
  Q.xs = P.outputPoints choose (meshAt P P.mesh.tfinal).edges ∧ Q.phi = Q.xs.map (resultFlux P Q) ∧
    fluxSqError P e d (resultFlux P Q) u ≤ (∑ l ∈ Finset.range P.Nang, P.rawWs l ^ 2 / cellWs P l) * b

theorem AnyDirections.cell {P : Problem} {e d : ℕ → ℝ} (h : AnyDirections P e d) :
    ∀ l < P.Nang, 0 < cellWs P l := fun l hl =>
  (cell_weights (p := cellParams P.params) h.directions fun _ _ => rfl).1 l hl

/-- The scalar flux of a state against that of `u`, with the weights of the rule. -/
theorem flux_error_any {P : Problem} {e d : ℕ → ℝ} (hP : AnyDirections P e d) (hT : 0 ≤ P.mesh.tfinal)
    (V : StateVec) {u : ℕ → ℕ → ℝ → ℝ → ℝ}
    (hu : ∀ l < P.Nang, ∀ k < P.mesh.N, Continuous fun r => u l k r P.mesh.tfinal) :
    fluxSqError P e d (stateFlux P P.mesh.tfinal V) u ≤
      (∑ l ∈ Finset.range P.Nang, P.rawWs l ^ 2 / cellWs P l) *
      sphereSqDistance P.Nang (cellWs P) P.mesh.N P.M (fun k => e k + d k * P.mesh.tfinal) V
        (fun l k r => u l k r P.mesh.tfinal) := by
  set T := P.mesh.tfinal with hTd
  set s := ∑ l ∈ Finset.range P.Nang, P.rawWs l ^ 2 / cellWs P l with hs
  have hp := hP.cell
  have hord : ∀ k < P.mesh.N, e k + d k * T < e (k + 1) + d (k + 1) * T := hP.problem.mesh.ordered T hT
  have hl := (meshAt_linear hP.problem.mesh T).1
  have hordm : ∀ k < P.mesh.N, (meshAt P T).edges k < (meshAt P T).edges (k + 1) := fun k hk => by
    rw [hl k hk.le, hl (k + 1) hk]
    exact hord k hk
  unfold fluxSqError sphereSqDistance
  have hswap : ∑ l ∈ Finset.range P.Nang, cellWs P l * ∑ k ∈ Finset.range P.mesh.N,
      ∫ r in (e k + d k * T)..(e (k + 1) + d (k + 1) * T), r ^ 2 *
        (sphereField P.M (V l k) (e k + d k * T) (e (k + 1) + d (k + 1) * T) r - u l k r T) ^ 2 =
      ∑ k ∈ Finset.range P.mesh.N, ∑ l ∈ Finset.range P.Nang, cellWs P l *
        ∫ r in (e k + d k * T)..(e (k + 1) + d (k + 1) * T), r ^ 2 *
          (sphereField P.M (V l k) (e k + d k * T) (e (k + 1) + d (k + 1) * T) r - u l k r T) ^ 2 := by
    rw [Finset.sum_comm]
    exact Finset.sum_congr rfl fun l _ => Finset.mul_sum _ _ _
  beta_reduce
  rw [hswap, Finset.mul_sum]
  refine Finset.sum_le_sum fun k hk => ?_
  have hk := Finset.mem_range.1 hk
  set a := e k + d k * T with ha
  set b := e (k + 1) + d (k + 1) * T with hb
  have hab : a < b := hord k hk
  have hc : ∀ l < P.Nang, Continuous fun r => r ^ 2 *
      (sphereField P.M (V l k) a b r - u l k r T) ^ 2 := fun l hl' =>
    (continuous_pow 2).mul (((Lemmas.continuous_sphereField P.M _ hab).sub (hu l hl' k hk)).pow 2)
  have e1 : ∑ l ∈ Finset.range P.Nang, cellWs P l * ∫ r in a..b, r ^ 2 *
      (sphereField P.M (V l k) a b r - u l k r T) ^ 2 =
      ∫ r in a..b, ∑ l ∈ Finset.range P.Nang, cellWs P l *
        (r ^ 2 * (sphereField P.M (V l k) a b r - u l k r T) ^ 2) := by
    rw [intervalIntegral.integral_finsetSum fun l hl' =>
      ((hc l (Finset.mem_range.1 hl')).intervalIntegrable _ _).const_mul _]
    exact Finset.sum_congr rfl fun l _ => (intervalIntegral.integral_const_mul _ _).symm
  have e2 : ∫ r in a..b, r ^ 2 * (stateFlux P T V r - ∑ l ∈ Finset.range P.Nang, P.rawWs l * u l k r T) ^ 2 =
      ∫ r in a..b, r ^ 2 * (∑ l ∈ Finset.range P.Nang, P.rawWs l *
        (sphereField P.M (V l k) a b r - u l k r T)) ^ 2 := by
    refine intervalIntegral.integral_congr_ae (Filter.Eventually.of_forall fun r hr => ?_)
    rw [uIoc_of_le hab.le] at hr
    have e3 : stateFlux P T V r = ∑ l ∈ Finset.range P.Nang, P.rawWs l * sphereField P.M (V l k) a b r := by
      unfold stateFlux meshFlux
      refine Finset.sum_congr rfl fun l _ => ?_
      rw [meshField_cell hordm (V l) hk (by rw [hl k hk.le]; exact hr.1) (by rw [hl (k + 1) hk]; exact hr.2),
        hl k hk.le, hl (k + 1) hk]
    rw [e3, ← Finset.sum_sub_distrib]
    simp only [mul_sub]
  rw [e1, e2, ← intervalIntegral.integral_const_mul]
  have c1 : Continuous fun r => r ^ 2 * (∑ l ∈ Finset.range P.Nang, P.rawWs l *
      (sphereField P.M (V l k) a b r - u l k r T)) ^ 2 :=
    (continuous_pow 2).mul ((continuous_finsetSum _ fun l hl' => continuous_const.mul
      ((Lemmas.continuous_sphereField P.M _ hab).sub (hu l (Finset.mem_range.1 hl') k hk))).pow 2)
  have c2 : Continuous fun r => s * ∑ l ∈ Finset.range P.Nang, cellWs P l *
      (r ^ 2 * (sphereField P.M (V l k) a b r - u l k r T) ^ 2) :=
    continuous_const.mul (continuous_finsetSum _ fun l hl' => continuous_const.mul
      (hc l (Finset.mem_range.1 hl')))
  refine intervalIntegral.integral_mono_on hab.le (c1.intervalIntegrable _ _) (c2.intervalIntegrable _ _)
    fun r _ => ?_
  set f : ℕ → ℝ := fun l => sphereField P.M (V l k) a b r - u l k r T with hf
  have e5 : (∑ l ∈ Finset.range P.Nang, P.rawWs l * f l) ^ 2 ≤
      s * ∑ l ∈ Finset.range P.Nang, cellWs P l * f l ^ 2 := by
    have hcs := Finset.sum_mul_sq_le_sq_mul_sq (Finset.range P.Nang)
      (fun l => P.rawWs l / √(cellWs P l)) (fun l => √(cellWs P l) * f l)
    have a2 : ∀ l ∈ Finset.range P.Nang, √(cellWs P l) ^ 2 = cellWs P l := fun l hl' =>
      Real.sq_sqrt (hp l (Finset.mem_range.1 hl')).le
    have a1 : ∀ l ∈ Finset.range P.Nang,
        P.rawWs l / √(cellWs P l) * (√(cellWs P l) * f l) = P.rawWs l * f l := fun l hl' => by
      have := (Real.sqrt_pos.2 (hp l (Finset.mem_range.1 hl'))).ne'
      field_simp
    have a3 : ∀ l ∈ Finset.range P.Nang, (√(cellWs P l) * f l) ^ 2 = cellWs P l * f l ^ 2 :=
      fun l hl' => by rw [mul_pow, a2 l hl']
    have a4 : ∀ l ∈ Finset.range P.Nang, (P.rawWs l / √(cellWs P l)) ^ 2 = P.rawWs l ^ 2 / cellWs P l :=
      fun l hl' => by rw [div_pow, a2 l hl']
    rwa [Finset.sum_congr rfl a1, Finset.sum_congr rfl a3, Finset.sum_congr rfl a4] at hcs
  show r ^ 2 * (∑ l ∈ Finset.range P.Nang, P.rawWs l * f l) ^ 2 ≤
    s * ∑ l ∈ Finset.range P.Nang, cellWs P l * (r ^ 2 * f l ^ 2)
  have e6 : ∑ l ∈ Finset.range P.Nang, cellWs P l * (r ^ 2 * f l ^ 2) =
      r ^ 2 * ∑ l ∈ Finset.range P.Nang, cellWs P l * f l ^ 2 := by
    rw [Finset.mul_sum]
    exact Finset.sum_congr rfl fun l _ => by ring
  rw [e6]
  have := mul_le_mul_of_nonneg_left e5 (sq_nonneg r)
  linarith

theorem flux_factor_nonneg {P : Problem} {e d : ℕ → ℝ} (hP : AnyDirections P e d) :
    0 ≤ ∑ l ∈ Finset.range P.Nang, P.rawWs l ^ 2 / cellWs P l :=
  Finset.sum_nonneg fun l hl => div_nonneg (sq_nonneg _) (hP.cell l (Finset.mem_range.1 hl)).le

theorem error_of_near_any {P : Problem} {e d : ℕ → ℝ} (hP : AnyDirections P e d)
    (hT : 0 ≤ P.mesh.tfinal) {u : ℕ → ℕ → ℝ → ℝ → ℝ}
    (hu : ∀ l < P.Nang, ∀ k < P.mesh.N, Continuous fun r => u l k r P.mesh.tfinal) :
    ∃ Q, 0 ≤ Q ∧ ∀ (V y : StateVec) (ρ b : ℝ) (choose : Option (List ℝ)) (R : Results), 0 ≤ ρ →
      StatesWithin P y V ρ →
      sphereSqDistance P.Nang (cellWs P) P.mesh.N P.M (fun k => e k + d k * P.mesh.tfinal) V
        (fun l k r => u l k r P.mesh.tfinal) ≤ b →
      Reports P e d choose y R → ErrorAtMostAny P e d choose u (2 * b + ρ ^ 2 * Q) R := by
  obtain ⟨Q, hQ0, hQ⟩ := sphereSqDistance_near P.Nang (fun l hl => (hP.cell l hl).le) P.mesh.N P.M
    (hP.problem.mesh.ordered P.mesh.tfinal hT) (fun l k r => u l k r P.mesh.tfinal) hu
  refine ⟨Q, hQ0, fun V y ρ b choose R hρ hy hb hR => ?_⟩
  have h1 := hQ V y ρ hρ hy
  have h2 : sphereSqDistance P.Nang (cellWs P) P.mesh.N P.M (fun k => e k + d k * P.mesh.tfinal) y
      (fun l k r => u l k r P.mesh.tfinal) ≤ 2 * b + ρ ^ 2 * Q := by linarith
  have hfl := hR.flux hP.problem.mesh
  refine ⟨?_, hR.edges, hR.xs, by rw [← hfl]; exact hR.phi, ?_⟩
  · rwa [sphereSqDistance_congr_state hR.edges hR.coefficients]
  · rw [← hfl]
    exact (flux_error_any hP hT y hu).trans (mul_le_mul_of_nonneg_left h2 (flux_factor_nonneg hP))

theorem run_and_bound_any (M : ℕ) (hM : M ≤ 10) : ∃ C K : ℝ, 1 ≤ C ∧ 1 ≤ K ∧
    ∀ (P : Problem) (e d : ℕ → ℝ) (δ ρ κ h A B R W : ℝ) (F : Set ℝ) (u : ℕ → ℕ → ℝ → ℝ → ℝ)
      (V0 : StateVec),
      AnyDirections P e d → Offsets P e d P.mesh.tfinal δ ρ κ → P.M = M → 0 < P.mesh.tfinal →
      SmoothExact P e d h A B R W F u → StartsFrom P V0 →
      ∃ (G : Set ℝ) (V : ℝ → StateVec), G.Finite ∧ RunOn P P.mesh.tfinal G V ∧
        sphereSqDistance P.Nang (cellWs P) P.mesh.N P.M (fun k => e k + d k * P.mesh.tfinal)
          (V P.mesh.tfinal) (fun l k r => u l k r P.mesh.tfinal) ≤
          offsetBound P e δ ρ κ h A B R W C K V0 u := by
  obtain ⟨C, K, hC1, hK1, hK⟩ := c134_error_bound M hM
  refine ⟨C, K, hC1, hK1, fun P e d δ ρ κ h A B R W F u V0 hP hO hPM hT hu hV0 => ?_⟩
  subst hPM
  obtain ⟨V, ⟨hV, hVs⟩, -⟩ := c110_wellposed_partial hP.problem (Or.inl hP.noSource) hT.le V0
  set G : Set ℝ := {0, max 0 (min P.mesh.t0 P.mesh.tfinal)} with hG
  have hGf : (F ∪ G).Finite := hu.finite.union (by simp [hG])
  have hV' : ProgramSolutionOn P 0 P.mesh.tfinal (F ∪ G) V :=
    ⟨hV.1, fun t ht => hV.2 t ⟨ht.1, fun hf => ht.2 (Or.inr hf)⟩⟩
  refine ⟨F ∪ G, V, hGf, ⟨fun l hl k hk i hi => ?_, hV'⟩, ?_⟩
  · rw [hVs l hl k hk i hi]
    exact hV0 l hl k hk i hi
  have h1 := hK P e d P.mesh.tfinal δ ρ κ h A B R W (F ∪ G) u V hP hO rfl hGf hu.cell hu.cells hu.first
    hu.last hu.widthFirst hu.widthLast hu.speed hu.speeds
    (sphereSolution_mono subset_union_left hu.solution) hu.smooth hu.derivative hV' P.mesh.tfinal
    ⟨hT.le, le_rfl⟩
  rw [sphereSqDistance_congr_state (V := V 0) (W := V0) (fun _ _ => rfl) hVs] at h1
  exact h1

/-- C134: the results of `solve` with `RK45` for a sphere without sources, for all directions and
weights, against a smooth solution of the transport equation. -/
theorem c134_rk45_error (M : ℕ) (hM : M ≤ 10) : ∃ C K : ℝ, 1 ≤ C ∧ 1 ≤ K ∧
    ∀ (P : Problem) (e d : ℕ → ℝ) (δ ρ κ h A B R W : ℝ) (F : Set ℝ) (u : ℕ → ℕ → ℝ → ℝ → ℝ)
      (V0 : StateVec),
      AnyDirections P e d → Offsets P e d P.mesh.tfinal δ ρ κ → P.M = M → P.uncollided = false →
      0 < P.mesh.tfinal → SmoothExact P e d h A B R W F u → StartsFrom P V0 →
      ∃ D, ∃ η₀ > 0, ∀ (es : List Event) (η : ℝ), 0 ≤ η → η ≤ η₀ → Arrives P es →
        (∀ s ∈ acceptedSteps es, s ≤ η) → ∀ estimate choose, ∃ Q,
          P.solve rk45 (rkInterpolant rk45 rk45Dense 4) es estimate choose = some Q ∧
          ErrorAtMostAny P e d choose u
            (2 * offsetBound P e δ ρ κ h A B R W C K V0 u + D * η ^ 10) Q := by
  obtain ⟨C, K, hC1, hK1, hK⟩ := run_and_bound_any M hM
  refine ⟨C, K, hC1, hK1, fun P e d δ ρ κ h A B R W F u V0 hP hO hPM hun hT hu hV0 => ?_⟩
  obtain ⟨G, V, hG, hV, hb⟩ := hK P e d δ ρ κ h A B R W F u V0 hP hO hPM hT hu hV0
  obtain ⟨D, η₀, h0, h1⟩ := c127_rk45_order hP.problem hP.noSource (Or.inl hP.noBoundary) hG hV.2
  obtain ⟨Q, hQ0, hQ⟩ := error_of_near_any hP hT.le hu.final
  refine ⟨max D 0 ^ 2 * Q, η₀, h0, fun es η hη hη0 hes hs estimate choose => ?_⟩
  obtain ⟨S, x, r1, r2, r3, r4⟩ := c128_solve hP.problem (by have := hP.shells; omega) hun hT rk45_usable
    rk45_endsRight hV.1 hes estimate choose
  refine ⟨S, r1, ?_⟩
  have h2 := h1 _ es x 0 η le_rfl hη hη0 (fun s hs' => ⟨(hes.1 s hs').le, hs s hs'⟩)
    (hV.1.within hV.1) r2 r3.le
  rw [zero_add, r3] at h2
  have h3 := hQ (V P.mesh.tfinal) x.y (max D 0 * η ^ 5) _ choose S (by positivity)
    (fun l hl k hk i hi => (h2 l hl k hk i hi).trans
      (mul_le_mul_of_nonneg_right (le_max_left _ _) (by positivity))) hb r4
  rwa [show (max D 0 * η ^ 5) ^ 2 * Q = max D 0 ^ 2 * Q * η ^ 10 by ring] at h3

/-- C134: with `RK23` it is the sixth power. -/
theorem c134_rk23_error (M : ℕ) (hM : M ≤ 10) : ∃ C K : ℝ, 1 ≤ C ∧ 1 ≤ K ∧
    ∀ (P : Problem) (e d : ℕ → ℝ) (δ ρ κ h A B R W : ℝ) (F : Set ℝ) (u : ℕ → ℕ → ℝ → ℝ → ℝ)
      (V0 : StateVec),
      AnyDirections P e d → Offsets P e d P.mesh.tfinal δ ρ κ → P.M = M → P.uncollided = false →
      0 < P.mesh.tfinal → SmoothExact P e d h A B R W F u → StartsFrom P V0 →
      ∃ D, ∃ η₀ > 0, ∀ (es : List Event) (η : ℝ), 0 ≤ η → η ≤ η₀ → Arrives P es →
        (∀ s ∈ acceptedSteps es, s ≤ η) → ∀ estimate choose, ∃ Q,
          P.solve rk23 (rkInterpolant rk23 rk23Dense 3) es estimate choose = some Q ∧
          ErrorAtMostAny P e d choose u
            (2 * offsetBound P e δ ρ κ h A B R W C K V0 u + D * η ^ 6) Q := by
  obtain ⟨C, K, hC1, hK1, hK⟩ := run_and_bound_any M hM
  refine ⟨C, K, hC1, hK1, fun P e d δ ρ κ h A B R W F u V0 hP hO hPM hun hT hu hV0 => ?_⟩
  obtain ⟨G, V, hG, hV, hb⟩ := hK P e d δ ρ κ h A B R W F u V0 hP hO hPM hT hu hV0
  obtain ⟨D, η₀, h0, h1⟩ := c127_rk23_order hP.problem hP.noSource (Or.inl hP.noBoundary) hG hV.2
  obtain ⟨Q, hQ0, hQ⟩ := error_of_near_any hP hT.le hu.final
  refine ⟨max D 0 ^ 2 * Q, η₀, h0, fun es η hη hη0 hes hs estimate choose => ?_⟩
  obtain ⟨S, x, r1, r2, r3, r4⟩ := c128_solve hP.problem (by have := hP.shells; omega) hun hT rk23_usable
    rk23_endsRight hV.1 hes estimate choose
  refine ⟨S, r1, ?_⟩
  have h2 := h1 _ es x 0 η le_rfl hη hη0 (fun s hs' => ⟨(hes.1 s hs').le, hs s hs'⟩)
    (hV.1.within hV.1) r2 r3.le
  rw [zero_add, r3] at h2
  have h3 := hQ (V P.mesh.tfinal) x.y (max D 0 * η ^ 3) _ choose S (by positivity)
    (fun l hl k hk i hi => (h2 l hl k hk i hi).trans
      (mul_le_mul_of_nonneg_right (le_max_left _ _) (by positivity))) hb r4
  rwa [show (max D 0 * η ^ 3) ^ 2 * Q = max D 0 ^ 2 * Q * η ^ 6 by ring] at h3

/-- C134: with every consistent Runge-Kutta method the error, squared, is at most twice the error of the
mesh plus any `ε`, if the accepted steps are short enough. -/
theorem c134_consistent_error (M : ℕ) (hM : M ≤ 10) : ∃ C K : ℝ, 1 ≤ C ∧ 1 ≤ K ∧
    ∀ (P : Problem) (e d : ℕ → ℝ) (δ ρ κ h A B R W : ℝ) (F : Set ℝ) (u : ℕ → ℕ → ℝ → ℝ → ℝ)
      (V0 : StateVec) (τ : Tableau) (D : Interpolant),
      AnyDirections P e d → Offsets P e d P.mesh.tfinal δ ρ κ → P.M = M → P.uncollided = false →
      0 < P.mesh.tfinal → SmoothExact P e d h A B R W F u → StartsFrom P V0 →
      UsableMethod τ → ∑ i ∈ Finset.range τ.n, τ.b i = 1 → EndsRight τ D →
      ∀ ε > 0, ∃ η > 0, ∀ es : List Event, Arrives P es → (∀ s ∈ acceptedSteps es, s ≤ η) →
        ∀ estimate choose, ∃ Q, P.solve τ D es estimate choose = some Q ∧
          ErrorAtMostAny P e d choose u (2 * offsetBound P e δ ρ κ h A B R W C K V0 u + ε) Q := by
  obtain ⟨C, K, hC1, hK1, hK⟩ := run_and_bound_any M hM
  refine ⟨C, K, hC1, hK1,
    fun P e d δ ρ κ h A B R W F u V0 τ D hP hO hPM hun hT hu hV0 hτ hτb hD ε hε => ?_⟩
  obtain ⟨G, V, hG, hV, hb⟩ := hK P e d δ ρ κ h A B R W F u V0 hP hO hPM hT hu hV0
  obtain ⟨C, h1⟩ := c125_converges hP.problem (Or.inl hP.noSource) hτ hT.le hG hV.2 0
  obtain ⟨Q, hQ0, hQ⟩ := error_of_near_any hP hT.le hu.final
  set r := min 1 (ε / (Q + 1)) with hr
  have hr0 : 0 < r := lt_min one_pos (by positivity)
  obtain ⟨η, hη, h1⟩ := h1 r hr0
  refine ⟨η, hη, fun es hes hs estimate choose => ?_⟩
  obtain ⟨S, x, r1, r2, r3, r4⟩ := c128_solve hP.problem (by have := hP.shells; omega) hun hT hτ
    hD hV.1 hes estimate choose
  refine ⟨S, r1, ?_⟩
  have h2 := (h1 _ es x (fun s hs' => ⟨(hes.1 s hs').le, hs s hs'⟩)
    (fun l hl k hk i hi => (hV.1.within hV.1 l hl k hk i hi).trans hη.le) r2 r3.le).1
  rw [hτb, sub_self, abs_zero, mul_zero, add_zero, r3] at h2
  have h3 := hQ (V P.mesh.tfinal) x.y r _ choose S hr0.le h2 hb r4
  have h4 : r ^ 2 * Q ≤ ε := by
    have a1 : r ^ 2 ≤ r := by
      have := min_le_left 1 (ε / (Q + 1))
      nlinarith
    have a2 : r * (Q + 1) ≤ ε := by
      have := min_le_right 1 (ε / (Q + 1))
      rwa [← hr, le_div_iff₀ (by positivity)] at this
    nlinarith
  obtain ⟨g1, g2, g3, g4, g5⟩ := h3
  exact ⟨by linarith, g2, g3, g4,
    g5.trans (mul_le_mul_of_nonneg_left (by linarith) (flux_factor_nonneg hP))⟩

/-! ### Without radiation to compare with -/

theorem zero_solution (P : Problem) (e d : ℕ → ℝ) (T : ℝ) :
    SphereSolution P.Nang P.mus P.ws P.sigmaS P.mesh.N (fun t k => e k + d k * t) (fun _ => d)
      (fun _ _ _ => 0) 0 T ∅ (fun _ _ _ _ => 0) where
  smooth _ _ _ _ := contDiff_const
  equation t _ l _ k _ r _ := by simp [angularDifference]
  continuousFlux _ _ _ _ _ _ := by simp
  vacuum _ _ _ _ _ := rfl

/-- C134: what `solve` returns for a sphere without sources is bounded by the initial state, whatever the
directions and weights: the square norm of the intensities is at most twice that of the initial state
times an exponential, up to the error of the time integration. -/
theorem c134_stable (M : ℕ) (hM : M ≤ 10) : ∃ C : ℝ, 1 ≤ C ∧
    ∀ (P : Problem) (e d : ℕ → ℝ) (δ ρ κ : ℝ) (V0 : StateVec),
      AnyDirections P e d → Offsets P e d P.mesh.tfinal δ ρ κ → P.M = M → P.uncollided = false →
      0 < P.mesh.tfinal → StartsFrom P V0 →
      ∃ D, ∃ η₀ > 0, ∀ (es : List Event) (η : ℝ), 0 ≤ η → η ≤ η₀ → Arrives P es →
        (∀ s ∈ acceptedSteps es, s ≤ η) → ∀ estimate choose, ∃ Q,
          P.solve rk45 (rkInterpolant rk45 rk45Dense 4) es estimate choose = some Q ∧
          ErrorAtMostAny P e d choose (fun _ _ _ _ => 0)
            (2 * (sphereSqDistance P.Nang (cellWs P) P.mesh.N P.M e V0 (fun _ _ _ => 0)
              * Real.exp (max (P.sigmaS * (1 + κ) - 1 + 2 * δ * C / ρ) 0 * P.mesh.tfinal))
              + D * η ^ 10) Q := by
  obtain ⟨C, K, hC, -, hb⟩ := c134_rk45_error M hM
  refine ⟨C, hC, fun P e d δ ρ κ V0 hP hO hPM hun hT hV0 => ?_⟩
  have hW : ∃ W : ℝ, 0 < W ∧ ∀ l < P.Nang, W ≤ angularWidth P.Nang P.mus l := by
    obtain ⟨l, hl, hmin⟩ := Finset.exists_min_image (Finset.range P.Nang)
      (fun l => angularWidth P.Nang P.mus l) ⟨0, Finset.mem_range.2 (by have := hP.directions.two; omega)⟩
    refine ⟨angularWidth P.Nang P.mus l, ?_, fun k hk => hmin k (Finset.mem_range.2 hk)⟩
    have := hP.cell l (Finset.mem_range.1 hl)
    unfold cellWs at this
    linarith
  obtain ⟨W, hW0, hW⟩ := hW
  have fin : ∀ (n : ℕ) (f : ℕ → ℝ), ∃ b, 0 ≤ b ∧ ∀ k < n, f k ≤ b := fun n f =>
    ⟨∑ k ∈ Finset.range n, |f k|, Finset.sum_nonneg fun _ _ => abs_nonneg _, fun k hk =>
      (le_abs_self _).trans (Finset.single_le_sum (f := fun k => |f k|) (fun _ _ => abs_nonneg _)
        (Finset.mem_range.2 hk))⟩
  obtain ⟨h1, h10, hh1⟩ := fin P.mesh.N fun k => e (k + 1) - e k
  obtain ⟨h2, h20, hh2⟩ := fin P.mesh.N fun k =>
    e (k + 1) + d (k + 1) * P.mesh.tfinal - (e k + d k * P.mesh.tfinal)
  obtain ⟨m, hm0, hm⟩ := fin P.Nang fun l => |P.mus l|
  obtain ⟨v, hv0, hv⟩ := fin (P.mesh.N + 1) fun k => |d k|
  have hu : SmoothExact P e d (max h1 h2) (m + v) 0
      (max (e P.mesh.N) (e P.mesh.N + d P.mesh.N * P.mesh.tfinal)) W ∅ (fun _ _ _ _ => 0) :=
    { finite := finite_empty
      cell := hW0
      cells := hW
      first := le_max_left _ _
      last := le_max_right _ _
      widthFirst := fun k hk => (hh1 k hk).trans (le_max_left _ _)
      widthLast := fun k hk => (hh2 k hk).trans (le_max_right _ _)
      speed := by positivity
      speeds := fun l hl k hk => (abs_sub _ _).trans (add_le_add (hm l hl) (hv k (by omega)))
      solution := zero_solution P e d _
      smooth := fun _ _ _ _ _ _ => contDiffOn_const
      derivative := fun _ _ _ _ _ _ r _ => by
        rw [iteratedDerivWithin_const, if_neg (Nat.succ_ne_zero _), abs_zero] }
  obtain ⟨D, η₀, h0, h⟩ := hb P e d δ ρ κ _ _ _ _ _ _ _ V0 hP hO hPM hun hT hu hV0
  refine ⟨D, η₀, h0, fun es η a1 a2 a3 a4 estimate choose => ?_⟩
  obtain ⟨Q, q1, q2⟩ := h es η a1 a2 a3 a4 estimate choose
  refine ⟨Q, q1, ?_⟩
  unfold offsetBound at q2
  simpa using q2

/-! ### Example: two Gauss-Legendre directions -/

/-- A point pulse in a sphere at rest, `N` shells, two Gauss-Legendre directions with unequal weights. -/
noncomputable def exampleGauss (inv : (ℕ → ℕ → ℝ) → ℕ → ℕ → ℝ) (N : ℕ) : Problem :=
  { exampleCritical inv N with mus := gauss2, rawWs := fun l => l + 1 }

theorem gauss2_middle : 1 / 2 < 1 / Real.sqrt 3 ∧ 1 / Real.sqrt 3 < 3 / 5 := by
  have h3 : Real.sqrt 3 ^ 2 = 3 := Real.sq_sqrt (by norm_num)
  have h0 := Real.sqrt_nonneg 3
  have h1 : Real.sqrt 3 < 2 := by nlinarith
  have h2 : 5 / 3 < Real.sqrt 3 := by nlinarith
  constructor
  · rw [div_lt_div_iff₀ (by norm_num) (by linarith)]
    linarith
  · rw [div_lt_div_iff₀ (by linarith) (by norm_num)]
    linarith

theorem exampleGauss_any {inv : (ℕ → ℕ → ℝ) → ℕ → ℕ → ℝ} (hi : InverseCorrect 1 inv) {N : ℕ}
    (hN : 2 ≤ N) : AnyDirections (exampleGauss inv N) (evenEdges N (1 / 2)) (evenEdges N 0) where
  problem :=
    { sphere := rfl
      mesh := exampleCritical_mesh (by omega)
      order := by norm_num [exampleGauss, exampleCritical, exampleShell]
      tables := exactTables_exact 2
      inverse := hi
      directions := le_rfl
      checks := by
        intro l hl h2
        have hl : l < 2 := hl
        have h2 : 2 ≤ 2 * l := h2
        have : l = 1 := by omega
        subst this
        have := gauss2_middle
        refine ⟨?_, ?_⟩
        · simp only [exampleGauss, gauss2, one_ne_zero, if_false]
          linarith
        · simp [exampleGauss, gauss2, exampleCritical, exampleShell]
      opacity := rfl }
  shells := hN
  noSource := by simp [SourceAsked, exampleGauss, exampleCritical]
  noBoundary := rfl
  noManufactured := by simp [exampleGauss, exampleCritical, exampleCriticalMesh, MeshConfig.st]
  directions := gauss2_directions
  scattering := by simp only [exampleGauss, exampleCritical]; positivity

/-- Directions left of the middle of their cells, weights that are not widths of cells: the estimate of
C130 does not apply, that of C134 does. -/
theorem exampleGauss_offsets (inv : (ℕ → ℕ → ℝ) → ℕ → ℕ → ℝ) {N : ℕ} (hN : 2 ≤ N) :
    Offsets (exampleGauss inv N) (evenEdges N (1 / 2)) (evenEdges N 0) 2 (1 / 10) ((1 / 2) / N) (10 / 9) ∧
    ¬ EstimateSetting (exampleGauss inv N) (evenEdges N (1 / 2)) (evenEdges N 0) := by
  have hN0 : (0 : ℝ) < N := by exact_mod_cast (by omega : 0 < N)
  have hm := gauss2_middle
  have e1 : evenEdges N (1 / 2) 1 = (1 / 2) / N := by simp only [evenEdges]; push_cast; ring
  have e2 : evenEdges N 0 1 = 0 := by simp [evenEdges]
  have w0 : (exampleGauss inv N).ws 0 = 1 / 3 ∧ (exampleGauss inv N).ws 1 = 2 / 3 := by
    constructor <;>
      norm_num [Problem.ws, normalizedWeights, exampleGauss, exampleCritical, exampleShell,
        List.range_succ]
  refine ⟨⟨by norm_num, fun l hl => ?_, by positivity, e1.ge, by rw [e1, e2]; norm_num, ?_⟩,
    fun h => ?_⟩
  · have hl : l < 2 := hl
    have hl2 : l = 0 ∨ l = 1 := by omega
    rcases hl2 with rfl | rfl
    · simp only [exampleGauss, exampleCritical, exampleShell, gauss2, angularMid, angularEdge]
      norm_num [gauss2] at hm ⊢
      linarith
    · simp only [exampleGauss, exampleCritical, exampleShell, gauss2, angularMid, angularEdge]
      norm_num [gauss2] at hm ⊢
      linarith
  · show ∑ l ∈ Finset.range 2, (exampleGauss inv N).ws l ^ 2 / (angularWidth 2 gauss2 l / 2) ≤ _
    rw [Finset.sum_range_succ, Finset.sum_range_one, w0.1, w0.2]
    norm_num [angularWidth, angularEdge, gauss2]
  · have h1 := h.middle 0 (by show 0 < 2; norm_num)
    simp only [exampleGauss, exampleCritical, exampleShell, gauss2, angularMid, angularEdge] at h1
    norm_num [gauss2] at hm h1
    linarith

/-- `solve` on the pulse, with `n` equal steps and a rejected one: bounded by the initial state. -/
example : ∃ inv, InverseCorrect 1 inv ∧ ∃ C : ℝ, ∀ N : ℕ, 2 ≤ N → ∃ V0, StartsFrom (exampleGauss inv N) V0 ∧
    ∃ D, ∃ η₀ > 0, ∀ (n : ℕ) (η : ℝ), 0 < η → η ≤ η₀ → n * η = 2 →
      ∃ Q, (exampleGauss inv N).solve rk45 (rkInterpolant rk45 rk45Dense 4)
          (.step 1 false :: List.replicate n (.step η true)) false none = some Q ∧
        ErrorAtMostAny (exampleGauss inv N) (evenEdges N (1 / 2)) (evenEdges N 0) none (fun _ _ _ _ => 0)
          (2 * (sphereSqDistance 2 (cellWs (exampleGauss inv N)) N 1 (evenEdges N (1 / 2)) V0
              (fun _ _ _ => 0)
            * Real.exp (max ((1 + Real.pi ^ 2 / 4) * (1 + 10 / 9) - 1
                + 2 * (1 / 10) * C / ((1 / 2) / N)) 0 * 2)) + D * η ^ 10) Q := by
  obtain ⟨inv, hi⟩ := inverse_exists 1
  obtain ⟨C, -, hC⟩ := c134_stable 1 (by norm_num)
  refine ⟨inv, hi, C, fun N hN => ?_⟩
  have hs := exampleGauss_any hi hN
  obtain ⟨m, hm, -⟩ := hs.problem.mesh.moves
  obtain ⟨V0, hV0⟩ := initial_exists (P := exampleGauss inv N) hm rfl
    (by simp [exampleGauss, exampleCritical, exampleCriticalMesh, MeshConfig.st])
    (Or.inr (Or.inl (by simp [exampleGauss, exampleCritical, exampleCriticalMesh, MeshConfig.st])))
    (by norm_num [exampleGauss, exampleCritical, exampleShell])
  obtain ⟨D, η₀, h0, h1⟩ := hC (exampleGauss inv N) _ _ _ _ _ V0 hs (exampleGauss_offsets inv hN).1 rfl rfl
    zero_lt_two hV0
  refine ⟨V0, hV0, D, η₀, h0, fun n η hη hη0 hn => ?_⟩
  have hacc : acceptedSteps (.step 1 false :: List.replicate n (.step η true)) = List.replicate n η := by
    rw [acceptedSteps, acceptedSteps_replicate]
  refine h1 _ η hη.le hη0 ⟨fun s hs => ?_, ?_⟩ (fun s hs => ?_) false none
  · rw [hacc] at hs
    rwa [(List.mem_replicate.1 hs).2]
  · rw [hacc, List.sum_replicate, nsmul_eq_mul]
    exact hn
  · rw [hacc] at hs
    rw [(List.mem_replicate.1 hs).2]

/-- The critical sphere of C130, whose solution is not zero, with `δ = 0`. -/
example : ∃ inv, InverseCorrect 1 inv ∧ ∃ C K B : ℝ, ∀ N : ℕ, 2 ≤ N →
    ∃ V0, StartsFrom (exampleCritical inv N) V0 ∧ ∃ D, ∃ η₀ > 0, ∀ (es : List Event) (η : ℝ),
      0 ≤ η → η ≤ η₀ → Arrives (exampleCritical inv N) es → (∀ s ∈ acceptedSteps es, s ≤ η) →
      ∃ Q, (exampleCritical inv N).solve rk45 (rkInterpolant rk45 rk45Dense 4) es false none = some Q ∧
        ErrorAtMostAny (exampleCritical inv N) (evenEdges N (1 / 2)) (evenEdges N 0) none criticalU
          (2 * offsetBound (exampleCritical inv N) (evenEdges N (1 / 2)) 0 ((1 / 2) / N) 1 ((1 / 2) / N)
            (1 / 2) B (1 / 2) 1 C K V0 criticalU + D * η ^ 10) Q := by
  obtain ⟨inv, hi⟩ := inverse_exists 1
  obtain ⟨B, hB⟩ := critical_exact hi
  obtain ⟨C, K, -, -, hK⟩ := c134_rk45_error 1 (by norm_num)
  refine ⟨inv, hi, C, K, B, fun N hN => ?_⟩
  have hs := exampleCritical_setting hi hN
  have hN0 : (0 : ℝ) < N := by exact_mod_cast (by omega : 0 < N)
  have e1 : evenEdges N (1 / 2) 1 = (1 / 2) / N := by simp only [evenEdges]; push_cast; ring
  have e2 : evenEdges N 0 1 = 0 := by simp [evenEdges]
  obtain ⟨m, hm, -⟩ := hs.problem.mesh.moves
  obtain ⟨V0, hV0⟩ := initial_exists (P := exampleCritical inv N) hm rfl
    (by simp [exampleCritical, exampleCriticalMesh, MeshConfig.st])
    (Or.inr (Or.inl (by simp [exampleCritical, exampleCriticalMesh, MeshConfig.st])))
    (by norm_num [exampleCritical, exampleShell])
  obtain ⟨D, η₀, h0, h1⟩ := hK (exampleCritical inv N) _ _ 0 ((1 / 2) / N) 1 _ _ _ _ _ _ _ V0 hs.any
    ⟨le_rfl, fun l hl => by linarith [hs.middle l hl], by positivity, e1.ge, by rw [e1, e2]; simp,
      hs.kappa⟩ rfl rfl zero_lt_two (hB N hN) hV0
  exact ⟨V0, hV0, D, η₀, h0, fun es η a1 a2 a3 a4 => h1 es η a1 a2 a3 a4 false none⟩

end Verif.Props
