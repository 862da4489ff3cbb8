import Verif.Model.Results
import Verif.Props.SystemRun
import Verif.Props.Output
import Verif.Props.Layout
import Verif.Props.Numerics

/-!
Property C113: what `solve` returns for a problem in the sphere.
-/

namespace Verif.Props

open Set MeasureTheory Verif.Spec Verif.Model Verif.Lemmas

/-- The field with coefficients `U` on all cells: at an edge between two cells the value from the
left, outside the mesh zero. -/
noncomputable def meshField (M N : ℕ) (edges : ℕ → ℝ) (U : ℕ → ℕ → ℝ) (x : ℝ) : ℝ :=
  open Classical in
  ∑ k ∈ Finset.range N, if (edges k < x ∧ x ≤ edges (k + 1)) ∨ (k = 0 ∧ x = edges 0) then
    sphereField M (U k) (edges k) (edges (k + 1)) x else 0

/-- The scalar flux of a state on a mesh, for given weights. -/
noncomputable def meshFlux (Nang : ℕ) (w : ℕ → ℝ) (M N : ℕ) (edges : ℕ → ℝ)
    (V : ℕ → ℕ → ℕ → ℝ) (x : ℝ) : ℝ :=
  ∑ l ∈ Finset.range Nang, w l * meshField M N edges (V l) x

theorem meshField_cell {M N : ℕ} {edges : ℕ → ℝ} (he : ∀ i < N, edges i < edges (i + 1))
    (U : ℕ → ℕ → ℝ) {x : ℝ} {k : ℕ} (hk : k < N) (h0 : edges k < x) (h1 : x ≤ edges (k + 1)) :
    meshField M N edges U x = sphereField M (U k) (edges k) (edges (k + 1)) x := by
  unfold meshField
  rw [Finset.sum_eq_single_of_mem k (Finset.mem_range.2 hk), if_pos (Or.inl ⟨h0, h1⟩)]
  intro j hj hjk
  have hj := Finset.mem_range.1 hj
  rw [if_neg]
  rintro (⟨a, b⟩ | ⟨rfl, a⟩)
  · rcases lt_or_gt_of_ne hjk with h | h
    · have := edges_mono he (show j + 1 ≤ k by omega) (by omega); linarith
    · have := edges_mono he (show k + 1 ≤ j by omega) (by omega); linarith
  · have := edges_mono he (Nat.zero_le k) (by omega); linarith

theorem meshField_left {M N : ℕ} (hN : 1 ≤ N) {edges : ℕ → ℝ}
    (he : ∀ i < N, edges i < edges (i + 1)) (U : ℕ → ℕ → ℝ) :
    meshField M N edges U (edges 0) = sphereField M (U 0) (edges 0) (edges 1) (edges 0) := by
  unfold meshField
  rw [Finset.sum_eq_single_of_mem 0 (Finset.mem_range.2 hN), if_pos (Or.inr ⟨rfl, rfl⟩)]
  intro j hj hjk
  have hj := Finset.mem_range.1 hj
  rw [if_neg]
  rintro (⟨a, -⟩ | ⟨rfl, -⟩)
  · have := edges_mono he (Nat.zero_le j) hj.le; linarith
  · exact hjk rfl

theorem meshField_outside {M N : ℕ} (hN : 1 ≤ N) {edges : ℕ → ℝ}
    (he : ∀ i < N, edges i < edges (i + 1)) (U : ℕ → ℕ → ℝ) {x : ℝ}
    (hx : x < edges 0 ∨ edges N < x) : meshField M N edges U x = 0 := by
  unfold meshField
  refine Finset.sum_eq_zero fun j hj => if_neg ?_
  have hj := Finset.mem_range.1 hj
  rintro (⟨a, b⟩ | ⟨-, a⟩)
  · have h1 := edges_mono he (Nat.zero_le j) hj.le
    have h2 := edges_mono he (show j + 1 ≤ N from hj) le_rfl
    rcases hx with h | h <;> linarith
  · have h2 := edges_strict he hN le_rfl
    rcases hx with h | h <;> linarith

theorem cell_exists {N : ℕ} {edges : ℕ → ℝ} {x : ℝ} (h0 : edges 0 < x) (h1 : x ≤ edges N) :
    ∃ k < N, edges k < x ∧ x ≤ edges (k + 1) := by
  induction N with
  | zero => linarith
  | succ N ih =>
    by_cases h : x ≤ edges N
    · obtain ⟨k, hk, h2⟩ := ih h
      exact ⟨k, by omega, h2⟩
    · exact ⟨N, by omega, not_le.1 h, h1⟩

theorem psiOut_meshField {M N : ℕ} (hM : M ≤ 12) (hN : 1 ≤ N) {edges : ℕ → ℝ}
    (he : ∀ i < N, edges i < edges (i + 1)) (U : ℕ → ℕ → ℝ) (x : ℝ) :
    psiOut .sphere M N edges U x = some (meshField M N edges U x) := by
  have hO : OrderOk .sphere M := fun _ => hM
  by_cases hx : x < edges 0 ∨ edges N < x
  · rw [meshField_outside hN he U hx]
    exact (c50_outside .sphere M N 0 (fun _ => 0) edges (fun _ => U) false (fun _ _ => 0) 0 hx).1 0
  · push Not at hx
    rcases eq_or_lt_of_le hx.1 with h | h
    · subst h
      rw [meshField_left hN he]
      exact (c78_exit_distribution .sphere M hO hN edges he U).1
    · obtain ⟨k, hk, h2, h3⟩ := cell_exists h hx.2
      rw [meshField_cell he U hk h2 h3]
      exact c50_cell_of_point .sphere M hO edges he U hk h2 h3

theorem continuous_sphereField (M : ℕ) (U : ℕ → ℝ) (a b : ℝ) :
    Continuous fun x => sphereField M U a b x := by
  unfold sphereField sphereBasis ref
  refine continuous_finsetSum _ fun j _ => continuous_const.mul (continuous_const.mul ?_)
  exact (Polynomial.continuous _).comp (by fun_prop)

/-- The content of the field is the sum of the contents of the cells. -/
theorem integral_meshField {M N : ℕ} {edges : ℕ → ℝ} (he : ∀ i < N, edges i < edges (i + 1))
    (U : ℕ → ℕ → ℝ) :
    IntervalIntegrable (fun r => r ^ 2 * meshField M N edges U r) volume (edges 0) (edges N) ∧
      ∫ r in (edges 0)..(edges N), r ^ 2 * meshField M N edges U r =
        ∑ k ∈ Finset.range N, sphereContent M (U k) (edges k) (edges (k + 1)) := by
  have hc : ∀ k < N, IntervalIntegrable (fun r => r ^ 2 * sphereField M (U k) (edges k)
      (edges (k + 1)) r) volume (edges k) (edges (k + 1)) := fun k _ =>
    ((continuous_id.pow 2).mul (continuous_sphereField _ _ _ _)).intervalIntegrable _ _
  have heq : ∀ k < N, EqOn (fun r => r ^ 2 * meshField M N edges U r)
      (fun r => r ^ 2 * sphereField M (U k) (edges k) (edges (k + 1)) r)
      (uIoc (edges k) (edges (k + 1))) := by
    intro k hk r hr
    rw [uIoc_of_le (he k hk).le] at hr
    simp only [meshField_cell he U hk hr.1 hr.2]
  have hi : ∀ k < N, IntervalIntegrable (fun r => r ^ 2 * meshField M N edges U r) volume
      (edges k) (edges (k + 1)) := fun k hk => (hc k hk).congr (heq k hk).symm
  refine ⟨IntervalIntegrable.trans_iterate hi, ?_⟩
  rw [← intervalIntegral.sum_integral_adjacent_intervals hi]
  refine Finset.sum_congr rfl fun k hk => ?_
  unfold sphereContent
  exact intervalIntegral.integral_congr_ae (Filter.Eventually.of_forall
    (heq k (Finset.mem_range.1 hk)))

/-! ### What is reported -/

/-- The vector `v` holds the state `V`. -/
def Holds (P : Problem) (v : FlatArr) (V : ℕ → ℕ → ℕ → ℝ) : Prop :=
  v.size = P.Nang * P.mesh.N * (P.M + 1) ∧ ∀ l < P.Nang, ∀ k < P.mesh.N, ∀ i ≤ P.M,
    v.get ((l * P.mesh.N + k) * (P.M + 1) + i) = V l k i

/-- The scalar flux that the problem should report at time `t` for the state `V`. -/
noncomputable def stateFlux (P : Problem) (t : ℝ) (V : ℕ → ℕ → ℕ → ℝ) (x : ℝ) : ℝ :=
  meshFlux P.Nang P.rawWs P.M P.mesh.N (meshAt P t).edges V x

theorem meshField_congr {M N : ℕ} {e e' : ℕ → ℝ} {U U' : ℕ → ℕ → ℝ} (he : ∀ k ≤ N, e k = e' k)
    (hU : ∀ k < N, ∀ i ≤ M, U k i = U' k i) (x : ℝ) :
    meshField M N e U x = meshField M N e' U' x := by
  unfold meshField
  refine Finset.sum_congr rfl fun k hk => ?_
  have hk := Finset.mem_range.1 hk
  rw [he k hk.le, he (k + 1) hk, he 0 (Nat.zero_le _)]
  have : sphereField M (U k) (e' k) (e' (k + 1)) x = sphereField M (U' k) (e' k) (e' (k + 1)) x := by
    unfold sphereField
    exact Finset.sum_congr rfl fun i hi => by rw [hU k hk i (by have := Finset.mem_range.1 hi; omega)]
  rw [this]

theorem Holds.state {P : Problem} {v : FlatArr} {V : ℕ → ℕ → ℕ → ℝ} (h : Holds P v V) :
    ∃ u, outputState true P.Nang P.mesh.N P.M v = some u ∧
      ∀ l < P.Nang, ∀ k < P.mesh.N, ∀ i ≤ P.M, u l k i = V l k i := by
  unfold outputState reshape3
  rw [if_pos rfl, if_pos h.1]
  exact ⟨_, rfl, h.2⟩

/-- A vector that holds a state exists. -/
theorem holds_flatten (P : Problem) (V : ℕ → ℕ → ℕ → ℝ) :
    Holds P (flatten3 P.Nang P.mesh.N (P.M + 1) V) V := by
  refine ⟨rfl, fun l _ k hk i hi => ?_⟩
  obtain ⟨h1, h2, h3⟩ := flat_index (l := l) hk (Nat.lt_succ_of_le hi)
  simp only [flatten3, h1, h2, h3]

/-- The output for one time, without uncollided treatment. -/
theorem makeOutput_eq {P : Problem} (hg : P.mesh.geometry = .sphere) (hM : P.M ≤ 12)
    (hN : 1 ≤ P.mesh.N) (hu : P.uncollided = false) {edges : ℕ → ℝ}
    (he : ∀ i < P.mesh.N, edges i < edges (i + 1)) (unc : List ℝ) (t : ℝ) (xs : List ℝ)
    (u : ℕ → ℕ → ℕ → ℝ) :
    P.makeOutput unc t edges xs u = some ({
      phi := xs.map (meshFlux P.Nang P.rawWs P.M P.mesh.N edges u)
      psi := fun l => xs.map (meshField P.M P.mesh.N edges (u l))
      exitDist := fun l count =>
        meshField P.M P.mesh.N edges (u l) (exitPoint P.mesh.N edges count)
      exitPhi := [meshFlux P.Nang P.rawWs P.M P.mesh.N edges u (edges 0),
        meshFlux P.Nang P.rawWs P.M P.mesh.N edges u (edges P.mesh.N)] }, unc) := by
  have hp : ∀ l x, P.psiAt edges u l x = some (meshField P.M P.mesh.N edges (u l) x) := by
    intro l x
    unfold Problem.psiAt
    rw [hg]
    exact psiOut_meshField hM hN he _ x
  have hs : P.sumAt edges u = meshFlux P.Nang P.rawWs P.M P.mesh.N edges u := by
    funext x
    unfold Problem.sumAt meshFlux
    exact Finset.sum_congr rfl fun l _ => by rw [hp, Option.getD_some, mul_comm]
  unfold Problem.makeOutput
  simp only [hp, hs, Option.isSome_some, implies_true, and_self, if_true, Option.getD_some,
    Problem.addUncollided, hu, Bool.false_eq_true, if_false, Option.bind_some, Option.map_some,
    List.map_cons, List.map_nil]

theorem reached_mesh {P : Problem} {e d : ℕ → ℝ} (h : SphereSetup P e d) (hf : SteadyOpacity P)
    {o : Objects} (ho : Reached P o) (t : ℝ) :
    ∃ m, meshMove P.mesh o.mesh t = some m ∧ m.edges = (meshAt P t).edges := by
  obtain ⟨o0, calls, h0, h1⟩ := ho
  obtain ⟨-, hm⟩ := ready_run h.sphere (h.tables.usable' (Nat.lt_succ_self _) h.order) hf
    h.mesh.noHistory calls (ready_objects h0) h1
  obtain ⟨m, hm'⟩ := move_total h.mesh.noHistory o.mesh t
  refine ⟨m, hm', ?_⟩
  unfold Problem.objects at h0
  obtain ⟨s, hs, rfl⟩ := Option.map_eq_some_iff.1 h0
  unfold meshAt
  rw [hs, Option.bind_some, ← hm t, hm']

theorem meshFlux_congr {Nang M N : ℕ} {w e : ℕ → ℝ} {u V : ℕ → ℕ → ℕ → ℝ}
    (h : ∀ l < Nang, ∀ k < N, ∀ i ≤ M, u l k i = V l k i) (x : ℝ) :
    meshFlux Nang w M N e u x = meshFlux Nang w M N e V x := by
  unfold meshFlux
  exact Finset.sum_congr rfl fun l hl => by
    rw [meshField_congr (fun _ _ => rfl) (h l (Finset.mem_range.1 hl)) x]

/-- C113 (partial: no uncollided treatment; `c113_uncollided_fails`): whatever calls the integrator
has made, `solve` returns for the points asked for, or for its own points, the scalar flux, the
angular fluxes and the values at the two ends of the mesh of the state that the integrator has
found, on the mesh of the final time. -/
theorem c113_results_partial {P : Problem} {e d : ℕ → ℝ} (h : SphereSetup P e d)
    (hf : SteadyOpacity P) (hN : 1 ≤ P.mesh.N) (hu : P.uncollided = false)
    (htf : 0 ≤ P.mesh.tfinal) {o : Objects} (ho : Reached P o) (choose : Option (List ℝ))
    {v : FlatArr} {V : ℕ → ℕ → ℕ → ℝ} (hv : Holds P v V) :
    ∃ R, P.finish o choose v = some R ∧
      R.xs = P.outputPoints choose (meshAt P P.mesh.tfinal).edges ∧
      R.phi = R.xs.map (stateFlux P P.mesh.tfinal V) ∧
      (∀ l < P.Nang, R.psi l = R.xs.map
        (meshField P.M P.mesh.N (meshAt P P.mesh.tfinal).edges (V l))) ∧
      (∀ l < P.Nang, R.exitDist l 0 = sphereField P.M (V l 0) (e 0 + d 0 * P.mesh.tfinal)
        (e 1 + d 1 * P.mesh.tfinal) 0) ∧
      (∀ l < P.Nang, R.exitDist l 1 = sphereField P.M (V l (P.mesh.N - 1))
        (e (P.mesh.N - 1) + d (P.mesh.N - 1) * P.mesh.tfinal)
        (e P.mesh.N + d P.mesh.N * P.mesh.tfinal) (e P.mesh.N + d P.mesh.N * P.mesh.tfinal)) ∧
      (∀ k ≤ P.mesh.N, R.edges k = e k + d k * P.mesh.tfinal) ∧
      R.exitPhi = [stateFlux P P.mesh.tfinal V 0,
        stateFlux P P.mesh.tfinal V (e P.mesh.N + d P.mesh.N * P.mesh.tfinal)] ∧
      (∀ l < P.Nang, ∀ k < P.mesh.N, ∀ i ≤ P.M, R.solLast l k i = V l k i) ∧
      R.e = R.xs.map fun _ => 0 := by
  set T := P.mesh.tfinal with hT
  obtain ⟨m, hm, hme⟩ := reached_mesh h hf ho T
  obtain ⟨u, hu1, hu2⟩ := hv.state
  have hlin := (meshAt_linear h.mesh T).1
  have hord : ∀ k < P.mesh.N, (meshAt P T).edges k < (meshAt P T).edges (k + 1) := by
    intro k hk
    rw [hlin k hk.le, hlin (k + 1) hk]
    exact h.mesh.ordered T htf k hk
  unfold Problem.finish
  rw [hu1, Option.bind_some, ← hT, hm, Option.bind_some, hme]
  dsimp only
  rw [makeOutput_eq h.sphere (h.order.trans (by norm_num)) hN hu hord, Option.map_some]
  refine ⟨_, rfl, rfl, ?_, fun l hl => ?_, fun l hl => ?_, fun l hl => ?_, hlin, ?_, hu2, ?_⟩
  · exact List.map_congr_left fun x _ => meshFlux_congr hu2 x
  · exact List.map_congr_left fun x _ => meshField_congr (fun _ _ => rfl) (hu2 l hl) x
  · show meshField P.M P.mesh.N (meshAt P T).edges (u l) ((meshAt P T).edges 0) = _
    rw [meshField_congr (fun _ _ => rfl) (hu2 l hl), meshField_left hN hord, hlin 0 (Nat.zero_le _),
      hlin 1 hN, h.mesh.centre, h.mesh.rest]
    simp
  · show meshField P.M P.mesh.N (meshAt P T).edges (u l) ((meshAt P T).edges P.mesh.N) = _
    obtain ⟨n, hn⟩ : ∃ n, P.mesh.N = n + 1 := ⟨P.mesh.N - 1, by omega⟩
    have h1 := meshField_cell hord (M := P.M) (V l) (k := n) (by omega)
      (x := (meshAt P T).edges P.mesh.N) (by rw [hn]; exact hord n (by omega)) (by rw [hn])
    rw [meshField_congr (fun _ _ => rfl) (hu2 l hl), h1, ← hn, hlin _ le_rfl, hlin n (by omega), hn,
      Nat.add_sub_cancel]
  · show [meshFlux _ _ _ _ _ u ((meshAt P T).edges 0), meshFlux _ _ _ _ _ u
      ((meshAt P T).edges P.mesh.N)] = _
    rw [meshFlux_congr hu2, meshFlux_congr hu2, hlin 0 (Nat.zero_le _), hlin _ le_rfl,
      h.mesh.centre, h.mesh.rest, zero_mul, add_zero]
    rfl
  · show ((P.outputPoints choose (meshAt P T).edges).map _).map (· * 0) = _
    rw [List.map_map]
    exact List.map_congr_left fun x _ => by simp

/-- Integrated over the ball the reported scalar flux gives the number of particles of the state. -/
theorem stateFlux_integral {P : Problem} {t : ℝ}
    (ho : ∀ k < P.mesh.N, (meshAt P t).edges k < (meshAt P t).edges (k + 1))
    (hw : ∑ l ∈ Finset.range P.Nang, P.rawWs l = 2) (V : ℕ → ℕ → ℕ → ℝ) :
    ∫ r in ((meshAt P t).edges 0)..((meshAt P t).edges P.mesh.N),
      4 * Real.pi * r ^ 2 * stateFlux P t V r = runParticles P t V := by
  have h1 : ∀ r, 4 * Real.pi * r ^ 2 * stateFlux P t V r = ∑ l ∈ Finset.range P.Nang,
      4 * Real.pi * P.rawWs l * (r ^ 2 * meshField P.M P.mesh.N (meshAt P t).edges (V l) r) := by
    intro r
    unfold stateFlux meshFlux
    rw [Finset.mul_sum]
    exact Finset.sum_congr rfl fun l _ => by ring
  simp only [h1]
  rw [intervalIntegral.integral_finsetSum fun l _ => ((integral_meshField ho (V l)).1).const_mul _]
  simp only [intervalIntegral.integral_const_mul]
  unfold runParticles sphereParticles
  rw [runWeights_length, Finset.mul_sum]
  refine Finset.sum_congr rfl fun l hl => ?_
  rw [(integral_meshField ho (V l)).2, runWeights_get P (Finset.mem_range.1 hl), Problem.ws, hw]
  ring

/-- C113, shell (partial as `c112_shell_run_partial`): there is one function of the radius whose
values `solve` returns, at its own points or at those asked for, after whatever calls of whatever
integrator that finds the run; integrated over the ball it gives the strength asked for times the
decay by collisions. -/
theorem c113_shell_reported_partial {P : Problem} (hsq : IsSquare P.mesh)
    (hmv : P.mesh.moving = true) (hg : P.mesh.geometry = .sphere)
    (hfin : P.mesh.finiteDomain = false) (hN : 3 ≤ P.mesh.N)
    (hx : 0 < P.mesh.x0) (hv : 0 ≤ P.mesh.edgeV) (hM : P.M ≤ 10)
    (htab : TablesExact P.tables (P.M + 1)) (hinv : InverseCorrect P.M P.inv) (hn : 2 ≤ P.Nang)
    (hop : P.sigmaFunc = .constant) (hu : P.uncollided = false)
    (hquad : P.quad = chebRule (6 * P.M + 1))
    (hd : DirectionSet P.Nang P.mus) (hsym : SymmetricSet P.Nang P.mus)
    (hch : centreChecks P.Nang P.mus)
    (hw : CellWeights P) (hw2 : ∑ l ∈ Finset.range P.Nang, P.rawWs l = 2)
    (hb : P.boundarySource = false) (hmms : P.mesh.st 4 ≠ 1)
    (hfast : ∀ l < P.Nang, P.mus l ≤ P.mesh.edgeV) (hT : 0 ≤ P.mesh.tfinal) :
    (∃ F V, F.Finite ∧ RunOn P P.mesh.tfinal F V) ∧ ∃ φ : ℝ → ℝ,
      (∀ F V, F.Finite → RunOn P P.mesh.tfinal F V → ∀ o, Reached P o → ∀ choose v,
        Holds P v (V P.mesh.tfinal) → ∃ R, P.finish o choose v = some R ∧ R.phi = R.xs.map φ ∧
          ∫ r in (0 : ℝ)..R.edges P.mesh.N, 4 * Real.pi * r ^ 2 * φ r =
            P.strength * Real.exp ((P.sigmaS - 1) * P.mesh.tfinal)) := by
  obtain ⟨V, h1, h2, h3⟩ := c112_shell_run_partial hsq hmv hg hfin hN hx hv hM htab hinv hn hop hu
    hquad hd hsym hch hw hb hmms hfast hT
  have hs : SphereSetup P (shellEdges P.mesh).get (shellState P.mesh).DedgesConst :=
    ⟨hg, shell_linear hsq hmv hg hfin (by omega) hx hv, hM, htab, hinv, hn, hch⟩
  have hlin := (meshAt_linear hs.mesh P.mesh.tfinal).1
  have hord : ∀ k < P.mesh.N, (meshAt P P.mesh.tfinal).edges k <
      (meshAt P P.mesh.tfinal).edges (k + 1) := by
    intro k hk
    rw [hlin k hk.le, hlin (k + 1) hk]
    exact hs.mesh.ordered _ hT k hk
  refine ⟨⟨_, V, by simp, h1⟩, stateFlux P P.mesh.tfinal (V P.mesh.tfinal),
    fun F W hF hW o ho choose v hv' => ?_⟩
  obtain ⟨R, r1, -, r3, -, -, -, r7, -⟩ := c113_results_partial hs (steady_of_constant hop)
    (by omega) hu hT ho choose hv'
  refine ⟨R, r1, ?_, ?_⟩
  · rw [r3]
    refine List.map_congr_left fun x _ => meshFlux_congr (fun l hl k hk i hi => ?_) x
    exact h3 F W hF hW _ ⟨hT, le_rfl⟩ l hl k hk i hi
  · have e0 : (meshAt P P.mesh.tfinal).edges 0 = 0 := by
      rw [hlin 0 (Nat.zero_le _), hs.mesh.centre, hs.mesh.rest]
      simp
    have := stateFlux_integral hord hw2 (V P.mesh.tfinal)
    rw [h2 _ ⟨hT, le_rfl⟩, e0, hlin _ le_rfl, ← r7 _ le_rfl] at this
    exact this

/-! ### Uncollided treatment -/

theorem findNodes_sphere_length (leg : ℕ → List ℝ) (M : ℕ) (edges : ℕ → ℝ) (cells : ℕ) :
    (findNodes .sphere leg M edges cells).length = cells * max M 1 := by
  have h : nodeOrder M = max M 1 := by unfold nodeOrder; split_ifs <;> omega
  unfold findNodes
  rw [List.length_flatMap]
  simp [cellSlice, cellNodes, nodePoints, chebNodes, h]

theorem uncollided_length {P : Problem} (hg : P.mesh.geometry = .sphere)
    (hu : P.uncollided = true) (hk : P.mesh.st 0 = 1 ∨ P.mesh.st 1 = 1) (prev xs : List ℝ) (t : ℝ) :
    (uncollidedSolution P.uncollidedConfig prev xs t).length = xs.length := by
  have hu' : P.uncollidedConfig.uncollided = true := hu
  have hg' : P.uncollidedConfig.geometry = .sphere := hg
  have hk' : P.uncollidedConfig.st 0 = 1 ∨ P.uncollidedConfig.st 1 = 1 := hk
  unfold uncollidedSolution
  rw [hu', hg', if_pos rfl]
  dsimp only
  split_ifs with a b
  · simp
  · simp
  · exact absurd hk' (by tauto)

theorem addInPlace_none {a b : List ℝ} (h1 : b.length ≠ a.length) (h2 : b.length ≠ 1) :
    addInPlace a b = none := by
  unfold addInPlace
  rw [if_neg h1]
  match b, h2 with
  | [], _ => rfl
  | [_], h => simp at h
  | _ :: _ :: _, _ => rfl

theorem makeOutput_uncollided {P : Problem} (hg : P.mesh.geometry = .sphere)
    (hu : P.uncollided = true) (hk : P.mesh.st 0 = 1 ∨ P.mesh.st 1 = 1) (unc : List ℝ) (t : ℝ)
    (edges : ℕ → ℝ) {xs : List ℝ} (h1 : xs.length ≠ 1) (h2 : xs.length ≠ 2)
    (u : ℕ → ℕ → ℕ → ℝ) : P.makeOutput unc t edges xs u = none := by
  unfold Problem.makeOutput
  dsimp only
  split_ifs
  · rw [Option.bind_eq_none_iff]
    intro p _
    rw [Option.map_eq_none_iff]
    unfold Problem.addUncollided
    rw [if_pos hu, Option.map_eq_none_iff]
    have hl := uncollided_length hg hu hk p.2 xs t
    exact addInPlace_none (by rw [hl]; simpa using h2) (by rw [hl]; exact h1)
  · rfl

theorem finish_uncollided {P : Problem} (hg : P.mesh.geometry = .sphere)
    (hu : P.uncollided = true) (hk : P.mesh.st 0 = 1 ∨ P.mesh.st 1 = 1) (o : Objects)
    {choose : Option (List ℝ)} (h1 : ∀ edges, (P.outputPoints choose edges).length ≠ 1)
    (h2 : ∀ edges, (P.outputPoints choose edges).length ≠ 2) (v : FlatArr) :
    P.finish o choose v = none := by
  unfold Problem.finish
  rw [Option.bind_eq_none_iff]
  intro u _
  rw [Option.bind_eq_none_iff]
  intro m _
  dsimp only
  rw [makeOutput_uncollided hg hu hk _ _ _ (h1 _) (h2 _), Option.map_none]

/-- C113 fails with the uncollided treatment: for both kinds of source that the sphere knows, `solve`
ends with an error for every state that the integrator may find, unless one or two output points are
asked for. -/
theorem c113_uncollided_fails {P : Problem} (hg : P.mesh.geometry = .sphere)
    (hu : P.uncollided = true) (hk : P.mesh.st 0 = 1 ∨ P.mesh.st 1 = 1) (o : Objects)
    (xs : List ℝ) (h1 : xs.length ≠ 1) (h2 : xs.length ≠ 2) (v : FlatArr) :
    P.finish o (some xs) v = none :=
  finish_uncollided hg hu hk o (choose := some xs) (fun _ => h1) (fun _ => h2) v

/-- With the points that `solve` chooses itself it always fails, if there are three cells. -/
theorem c113_uncollided_default_fails {P : Problem} (hg : P.mesh.geometry = .sphere)
    (hu : P.uncollided = true) (hk : P.mesh.st 0 = 1 ∨ P.mesh.st 1 = 1) (hN : 3 ≤ P.mesh.N)
    (o : Objects) (v : FlatArr) : P.finish o none v = none := by
  have hl : ∀ edges, (P.outputPoints none edges).length = P.mesh.N * max P.M 1 := fun edges => by
    unfold Problem.outputPoints
    rw [hg]
    exact findNodes_sphere_length _ _ _ _
  have h3 : 3 ≤ P.mesh.N * max P.M 1 := hN.trans (Nat.le_mul_of_pos_right _ (by omega))
  exact finish_uncollided hg hu hk o (fun e => by rw [hl]; omega) (fun e => by rw [hl]; omega) v

/-- The uncollided flux of the point pulse or of the shell. -/
noncomputable def uncollidedAt (P : Problem) (t x : ℝ) : ℝ :=
  (if P.mesh.st 0 = 1 then pointSource x t else shellIC P.builtX0 x t) * P.strength

theorem uncollided_map {P : Problem} (hg : P.mesh.geometry = .sphere)
    (hu : P.uncollided = true) (hk : P.mesh.st 0 = 1 ∨ P.mesh.st 1 = 1) (prev xs : List ℝ) (t : ℝ) :
    uncollidedSolution P.uncollidedConfig prev xs t = xs.map (uncollidedAt P t) := by
  have hu' : P.uncollidedConfig.uncollided = true := hu
  have hg' : P.uncollidedConfig.geometry = .sphere := hg
  have h0 : P.uncollidedConfig.st 0 = P.mesh.st 0 := rfl
  have h1 : P.uncollidedConfig.st 1 = P.mesh.st 1 := rfl
  unfold uncollidedSolution
  rw [hu', hg', if_pos rfl]
  dsimp only
  rw [h0, h1]
  unfold uncollidedAt
  split_ifs with a b
  · rfl
  · rfl
  · exact absurd hk (by tauto)

/-- The output for one time with uncollided treatment and one or two points. -/
theorem makeOutput_few {P : Problem} (hg : P.mesh.geometry = .sphere) (hM : P.M ≤ 12)
    (hN : 1 ≤ P.mesh.N) (hu : P.uncollided = true) (hk : P.mesh.st 0 = 1 ∨ P.mesh.st 1 = 1)
    {edges : ℕ → ℝ} (he : ∀ i < P.mesh.N, edges i < edges (i + 1)) (unc : List ℝ) (t x y : ℝ)
    (u : ℕ → ℕ → ℕ → ℝ) :
    (∃ out, P.makeOutput unc t edges [x] u = some (out, [uncollidedAt P t x]) ∧
      out.phi = [meshFlux P.Nang P.rawWs P.M P.mesh.N edges u x + uncollidedAt P t x] ∧
      out.exitPhi = [meshFlux P.Nang P.rawWs P.M P.mesh.N edges u (edges 0) + uncollidedAt P t x,
        meshFlux P.Nang P.rawWs P.M P.mesh.N edges u (edges P.mesh.N) + uncollidedAt P t x]) ∧
    (∃ out, P.makeOutput unc t edges [x, y] u =
        some (out, [uncollidedAt P t x, uncollidedAt P t y]) ∧
      out.phi = [meshFlux P.Nang P.rawWs P.M P.mesh.N edges u x + uncollidedAt P t x,
        meshFlux P.Nang P.rawWs P.M P.mesh.N edges u y + uncollidedAt P t y] ∧
      out.exitPhi = [meshFlux P.Nang P.rawWs P.M P.mesh.N edges u (edges 0) + uncollidedAt P t x,
        meshFlux P.Nang P.rawWs P.M P.mesh.N edges u (edges P.mesh.N) + uncollidedAt P t y]) := by
  have hp : ∀ l x, P.psiAt edges u l x = some (meshField P.M P.mesh.N edges (u l) x) := by
    intro l x
    unfold Problem.psiAt
    rw [hg]
    exact psiOut_meshField hM hN he _ x
  have hs : P.sumAt edges u = meshFlux P.Nang P.rawWs P.M P.mesh.N edges u := by
    funext x
    unfold Problem.sumAt meshFlux
    exact Finset.sum_congr rfl fun l _ => by rw [hp, Option.getD_some, mul_comm]
  constructor
  · unfold Problem.makeOutput Problem.addUncollided
    simp only [hp, hs, Option.isSome_some, implies_true, and_self, if_true, Option.getD_some, hu,
      uncollided_map hg hu hk, List.map_cons, List.map_nil, addInPlace, List.length_cons,
      List.length_nil, zero_add, List.zipWith_cons_cons, List.zipWith_nil_left, Option.map_some,
      Option.bind_some, Nat.reduceAdd, Nat.reduceEqDiff, if_false]
    exact ⟨_, rfl, rfl, rfl⟩
  · unfold Problem.makeOutput Problem.addUncollided
    simp only [hp, hs, Option.isSome_some, implies_true, and_self, if_true, Option.getD_some, hu,
      uncollided_map hg hu hk, List.map_cons, List.map_nil, addInPlace, List.length_cons,
      List.length_nil, zero_add, List.zipWith_cons_cons, List.zipWith_nil_left, Option.map_some,
      Option.bind_some, Nat.reduceAdd]
    exact ⟨_, rfl, rfl, rfl⟩

/-- With uncollided treatment and one point asked for, the flux reported at the point is the sum of
the collided and the uncollided flux; to the flux at both ends of the mesh is added the uncollided
flux at that point, not at the end. -/
theorem c113_uncollided_one {P : Problem} {e d : ℕ → ℝ} (h : SphereSetup P e d)
    (hf : SteadyOpacity P) (hN : 1 ≤ P.mesh.N) (hu : P.uncollided = true)
    (hk : P.mesh.st 0 = 1 ∨ P.mesh.st 1 = 1) (htf : 0 ≤ P.mesh.tfinal) {o : Objects}
    (ho : Reached P o) (x : ℝ) {v : FlatArr} {V : ℕ → ℕ → ℕ → ℝ} (hv : Holds P v V) :
    ∃ R, P.finish o (some [x]) v = some R ∧
      R.phi = [stateFlux P P.mesh.tfinal V x + uncollidedAt P P.mesh.tfinal x] ∧
      R.exitPhi = [stateFlux P P.mesh.tfinal V 0 + uncollidedAt P P.mesh.tfinal x,
        stateFlux P P.mesh.tfinal V (e P.mesh.N + d P.mesh.N * P.mesh.tfinal) +
          uncollidedAt P P.mesh.tfinal x] := by
  obtain ⟨m, hm, hme⟩ := reached_mesh h hf ho P.mesh.tfinal
  obtain ⟨u, hu1, hu2⟩ := hv.state
  have hlin := (meshAt_linear h.mesh P.mesh.tfinal).1
  have hord : ∀ k < P.mesh.N, (meshAt P P.mesh.tfinal).edges k <
      (meshAt P P.mesh.tfinal).edges (k + 1) := by
    intro k hk
    rw [hlin k hk.le, hlin (k + 1) hk]
    exact h.mesh.ordered _ htf k hk
  obtain ⟨out, h1, h2, h3⟩ := (makeOutput_few h.sphere (h.order.trans (by norm_num)) hN hu hk hord
    o.unc P.mesh.tfinal x x u).1
  unfold Problem.finish
  rw [hu1, Option.bind_some, hm, Option.bind_some, hme]
  dsimp only [Problem.outputPoints]
  rw [h1, Option.map_some]
  refine ⟨_, rfl, ?_, ?_⟩
  · show out.phi = _
    rw [h2, meshFlux_congr hu2]; rfl
  · show out.exitPhi = _
    rw [h3, meshFlux_congr hu2, meshFlux_congr hu2, hlin 0 (Nat.zero_le _), hlin _ le_rfl,
      h.mesh.centre, h.mesh.rest, zero_mul, add_zero]
    rfl

/-- Several times with uncollided treatment and two points: each time has its own uncollided
flux. -/
theorem c113_times_uncollided_two {P : Problem} {e d : ℕ → ℝ} (h : SphereSetup P e d)
    (hf : SteadyOpacity P) (hN : 1 ≤ P.mesh.N) (hu : P.uncollided = true)
    (hk : P.mesh.st 0 = 1 ∨ P.mesh.st 1 = 1) {o : Objects} (ho : Reached P o) (x y : ℝ)
    {cols : List (ℝ × FlatArr)} (hne : cols ≠ []) {V : ℝ → ℕ → ℕ → ℕ → ℝ}
    (hv : ∀ c ∈ cols, 0 ≤ c.1 ∧ Holds P c.2 (V c.1)) :
    ∃ out, P.finishEval o (some [x, y]) cols = some out ∧
      (out.map fun r => (r.phi, r.exitPhi)) = cols.map fun c =>
        ([stateFlux P c.1 (V c.1) x + uncollidedAt P c.1 x,
          stateFlux P c.1 (V c.1) y + uncollidedAt P c.1 y],
         [stateFlux P c.1 (V c.1) 0 + uncollidedAt P c.1 x,
          stateFlux P c.1 (V c.1) (e P.mesh.N + d P.mesh.N * c.1) + uncollidedAt P c.1 y]) := by
  unfold Problem.finishEval
  rw [if_neg hne]
  obtain ⟨m, hm, -⟩ := reached_mesh h hf ho P.mesh.tfinal
  rw [hm, Option.bind_some]
  have key : ∀ (cols : List (ℝ × FlatArr)) (s : MeshState) (unc : List ℝ),
      (∀ t, ∃ m, meshMove P.mesh s t = some m ∧ m.edges = (meshAt P t).edges) →
      (∀ c ∈ cols, 0 ≤ c.1 ∧ Holds P c.2 (V c.1)) →
      ∃ out, P.evalLoop (some [x, y]) s unc cols = some out ∧
        (out.map fun r => (r.phi, r.exitPhi)) = cols.map fun c =>
          ([stateFlux P c.1 (V c.1) x + uncollidedAt P c.1 x,
            stateFlux P c.1 (V c.1) y + uncollidedAt P c.1 y],
           [stateFlux P c.1 (V c.1) 0 + uncollidedAt P c.1 x,
            stateFlux P c.1 (V c.1) (e P.mesh.N + d P.mesh.N * c.1) + uncollidedAt P c.1 y]) := by
    intro cols
    induction cols with
    | nil => intro s unc _ _; exact ⟨[], rfl, rfl⟩
    | cons c cols ih =>
      intro s unc hs hc
      obtain ⟨t, v⟩ := c
      obtain ⟨ht, hv⟩ := hc (t, v) (by simp)
      obtain ⟨m, hm, hme⟩ := hs t
      obtain ⟨u, hu1, hu2⟩ := hv.state
      have hlin := (meshAt_linear h.mesh t).1
      have hord : ∀ k < P.mesh.N, (meshAt P t).edges k < (meshAt P t).edges (k + 1) := by
        intro k hk
        rw [hlin k hk.le, hlin (k + 1) hk]
        exact h.mesh.ordered t ht k hk
      obtain ⟨r, r1, r2, r3⟩ := (makeOutput_few h.sphere (h.order.trans (by norm_num)) hN hu hk hord
        unc t x y u).2
      obtain ⟨out, h1, h2⟩ := ih m [uncollidedAt P t x, uncollidedAt P t y] (fun t' => by
        rw [move_move h.mesh.noHistory hm]; exact hs t') fun c hc' => hc c (by simp [hc'])
      rw [Problem.evalLoop, hm, Option.bind_some]
      dsimp only
      rw [hu1, Option.bind_some, hme, r1, Option.bind_some]
      dsimp only
      rw [h1, Option.map_some]
      refine ⟨_, rfl, ?_⟩
      rw [List.map_cons, List.map_cons, h2, r2, r3, hlin 0 (Nat.zero_le _), hlin _ le_rfl,
        h.mesh.centre, h.mesh.rest, zero_mul, add_zero]
      congr 1
      simp only [meshFlux_congr hu2]
      rfl
  refine key cols m o.unc (fun t => ?_) hv
  rw [move_move h.mesh.noHistory hm]
  exact reached_mesh h hf ho t

/-! ### Several output times -/

/-- C113 for several output times (partial: points asked for, no uncollided treatment): the flux
reported for each time is that of the state at that time, on the mesh of that time. -/
theorem c113_times_partial {P : Problem} {e d : ℕ → ℝ} (h : SphereSetup P e d)
    (hf : SteadyOpacity P) (hN : 1 ≤ P.mesh.N) (hu : P.uncollided = false)
    {o : Objects} (ho : Reached P o) (xs : List ℝ) {cols : List (ℝ × FlatArr)} (hne : cols ≠ [])
    {V : ℝ → ℕ → ℕ → ℕ → ℝ} (hv : ∀ c ∈ cols, 0 ≤ c.1 ∧ Holds P c.2 (V c.1)) :
    ∃ out, P.finishEval o (some xs) cols = some out ∧
      out.map (·.phi) = cols.map fun c => xs.map (stateFlux P c.1 (V c.1)) := by
  unfold Problem.finishEval
  rw [if_neg hne]
  obtain ⟨m, hm, -⟩ := reached_mesh h hf ho P.mesh.tfinal
  rw [hm, Option.bind_some]
  have key : ∀ (cols : List (ℝ × FlatArr)) (s : MeshState) (unc : List ℝ),
      (∀ t, ∃ m, meshMove P.mesh s t = some m ∧ m.edges = (meshAt P t).edges) →
      (∀ c ∈ cols, 0 ≤ c.1 ∧ Holds P c.2 (V c.1)) →
      ∃ out, P.evalLoop (some xs) s unc cols = some out ∧
        out.map (·.phi) = cols.map fun c => xs.map (stateFlux P c.1 (V c.1)) := by
    intro cols
    induction cols with
    | nil => intro s unc _ _; exact ⟨[], rfl, rfl⟩
    | cons c cols ih =>
      intro s unc hs hc
      obtain ⟨t, v⟩ := c
      obtain ⟨ht, hv⟩ := hc (t, v) (by simp)
      obtain ⟨m, hm, hme⟩ := hs t
      obtain ⟨u, hu1, hu2⟩ := hv.state
      have hlin := (meshAt_linear h.mesh t).1
      have hord : ∀ k < P.mesh.N, (meshAt P t).edges k < (meshAt P t).edges (k + 1) := by
        intro k hk
        rw [hlin k hk.le, hlin (k + 1) hk]
        exact h.mesh.ordered t ht k hk
      obtain ⟨out, h1, h2⟩ := ih m unc (fun t' => by
        rw [move_move h.mesh.noHistory hm]; exact hs t') fun c hc' => hc c (by simp [hc'])
      rw [Problem.evalLoop, hm, Option.bind_some]
      dsimp only
      rw [hu1, Option.bind_some, hme,
        makeOutput_eq h.sphere (h.order.trans (by norm_num)) hN hu hord, Option.bind_some]
      dsimp only
      rw [h1, Option.map_some]
      refine ⟨_, rfl, ?_⟩
      rw [List.map_cons, List.map_cons, h2]
      congr 1
      exact List.map_congr_left fun x _ => meshFlux_congr hu2 x
  refine key cols m o.unc (fun t => ?_) hv
  rw [move_move h.mesh.noHistory hm]
  exact reached_mesh h hf ho t

/-- C113 fails for several output times with the points that `solve` chooses itself: it ends with
an error. -/
theorem c113_times_default_fails (P : Problem) (o : Objects) (cols : List (ℝ × FlatArr)) :
    P.finishEval o none cols = none := by
  unfold Problem.finishEval
  split_ifs with h
  · rfl
  · obtain ⟨⟨t, v⟩, rest, rfl⟩ := List.exists_cons_of_ne_nil h
    rw [Option.bind_eq_none_iff]
    intro m _
    rw [Problem.evalLoop, Option.bind_eq_none_iff]
    intro _ _
    rfl

/-! ### Examples -/

/-- The shell example with weights of sum two. -/
noncomputable def exampleShellReport (inv : (ℕ → ℕ → ℝ) → ℕ → ℕ → ℝ) (unc : Bool) : Problem :=
  { exampleShellRun inv with rawWs := fun _ => 1, uncollided := unc }

theorem exampleShellReport_weights (inv : (ℕ → ℕ → ℝ) → ℕ → ℕ → ℝ) :
    CellWeights (exampleShellReport inv false) := by
  obtain ⟨α, hα, h⟩ := exampleShell_weights inv
  refine ⟨α / 3, by simpa using hα, fun l hl => ?_⟩
  have h1 := h l hl
  have h2 : (exampleShell inv).rawWs l = 3 := rfl
  have h3 : angularWidth (exampleShellReport inv false).Nang (exampleShellReport inv false).mus l =
    angularWidth (exampleShell inv).Nang (exampleShell inv).mus l := rfl
  show (1 : ℝ) = _
  rw [h3]
  linarith

/-- The flux reported for the shell contains `3 exp (-tfinal / 2)` particles. -/
example : ∃ inv, InverseCorrect 1 inv ∧ ∃ φ : ℝ → ℝ, ∃ o v R, Reached (exampleShellReport inv false) o ∧
    (exampleShellReport inv false).finish o none v = some R ∧ R.xs.length ≠ 0 ∧
    R.phi = R.xs.map φ ∧ ∫ r in (0 : ℝ)..R.edges (exampleShellReport inv false).mesh.N,
      4 * Real.pi * r ^ 2 * φ r =
        3 * Real.exp ((1 / 2 - 1) * (exampleShellReport inv false).mesh.tfinal) := by
  obtain ⟨inv, hi⟩ := inverse_exists 1
  have hT : 0 ≤ (exampleShellReport inv false).mesh.tfinal := by
    norm_num [exampleShellReport, exampleShellRun, exampleShell, exampleShellMesh, exampleSquareMesh]
  obtain ⟨⟨F, V, hF, hV⟩, φ, h⟩ := c113_shell_reported_partial (P := exampleShellReport inv false)
    exampleShell_mesh rfl rfl rfl (Nat.le_of_ble_eq_true rfl)
    (by norm_num [exampleShellReport, exampleShellRun, exampleShell, exampleShellMesh, exampleSquareMesh])
    (by norm_num [exampleShellReport, exampleShellRun, exampleShell, exampleShellMesh, exampleSquareMesh])
    (Nat.le_of_ble_eq_true rfl) (exactTables_exact 2) hi le_rfl rfl rfl rfl
    exampleSphere_directions exampleSphere_symmetric exampleShell_checks
    (exampleShellReport_weights inv)
    (by
      show ∑ l ∈ Finset.range 2, (1 : ℝ) = 2
      norm_num) rfl
    (zero_ne_one' ℤ)
    (fun l hl => by
      have : l = 0 ∨ l = 1 := by
        have : l < 2 := hl
        omega
      rcases this with rfl | rfl <;>
        norm_num [exampleShellReport, exampleShellRun, exampleShell, exampleSphereParams,
          exampleShellMesh, exampleSquareMesh]) hT
  obtain ⟨o, ho⟩ := reached_exists (P := exampleShellReport inv false)
    (shell_linear exampleShell_mesh rfl rfl rfl (Nat.le_of_ble_eq_true rfl)
      (by norm_num [exampleShellReport, exampleShellRun, exampleShell, exampleShellMesh, exampleSquareMesh])
      (by norm_num [exampleShellReport, exampleShellRun, exampleShell, exampleShellMesh, exampleSquareMesh]))
  obtain ⟨R, r1, r2, r3⟩ := h F V hF hV o ho none _ (holds_flatten _ _)
  refine ⟨inv, hi, φ, o, _, R, ho, r1, ?_, r2, r3⟩
  obtain ⟨u, -, h2⟩ := Option.bind_eq_some_iff.1 r1
  obtain ⟨m, -, h3⟩ := Option.bind_eq_some_iff.1 h2
  obtain ⟨out, -, rfl⟩ := Option.map_eq_some_iff.1 h3
  show ((exampleShellReport inv false).outputPoints none m.edges).length ≠ 0
  have : ((exampleShellReport inv false).outputPoints none m.edges).length =
      (exampleShellReport inv false).mesh.N * max (exampleShellReport inv false).M 1 :=
    findNodes_sphere_length _ _ _ _
  rw [this]
  exact Nat.mul_ne_zero (Nat.succ_ne_zero _) (Nat.succ_ne_zero _)

theorem exampleShellReport_setup {inv : (ℕ → ℕ → ℝ) → ℕ → ℕ → ℝ} (hi : InverseCorrect 1 inv) :
    SphereSetup (exampleShellReport inv false) (shellEdges exampleShellMesh).get
      (shellState exampleShellMesh).DedgesConst :=
  let h := (exampleShell_problem hi).toSphereSetup
  ⟨h.sphere, h.mesh, h.order, h.tables, h.inverse, h.directions, h.checks⟩

/-- Two times and three points of the same problem, for a state that is one in the first direction. -/
example : ∃ inv o v out, InverseCorrect 1 inv ∧
    (exampleShellReport inv false).finishEval o (some [0, 1 / 4, 1]) [(1 / 2, v), (1, v)] =
      some out ∧
    out.map (·.phi) = [1 / 2, 1].map fun t => [0, 1 / 4, 1].map
      (stateFlux (exampleShellReport inv false) t fun l _ _ => if l = 0 then 1 else 0) := by
  obtain ⟨inv, hi⟩ := inverse_exists 1
  have hs := exampleShellReport_setup hi
  obtain ⟨o, ho⟩ := reached_exists hs.mesh
  obtain ⟨out, h1, h2⟩ := c113_times_partial hs (steady_of_constant rfl)
    (Nat.le_of_ble_eq_true rfl) rfl ho [0, 1 / 4, 1]
    (cols := [(1 / 2, flatten3 _ _ _ _), (1, flatten3 _ _ _ _)]) (by simp)
    (V := fun _ l _ _ => if l = 0 then 1 else 0) (by
      intro c hc
      simp only [List.mem_cons, List.not_mem_nil, or_false] at hc
      rcases hc with rfl | rfl
      · exact ⟨by norm_num, holds_flatten _ _⟩
      · exact ⟨by norm_num, holds_flatten _ _⟩)
  exact ⟨inv, o, _, out, hi, h1, h2⟩

/-- The angular flux reported at the outer edge for that state. -/
example : ∃ inv o v R, InverseCorrect 1 inv ∧
    (exampleShellReport inv false).finish o (some [0, 1 / 4, 1]) v = some R ∧
    R.exitDist 1 1 = 0 ∧ R.phi.length = 3 := by
  obtain ⟨inv, hi⟩ := inverse_exists 1
  have hs := exampleShellReport_setup hi
  obtain ⟨o, ho⟩ := reached_exists hs.mesh
  obtain ⟨R, h1, h2, h3, -, -, h6, -⟩ := c113_results_partial hs (steady_of_constant rfl)
    (Nat.le_of_ble_eq_true rfl) rfl
    (by norm_num [exampleShellReport, exampleShellRun, exampleShell, exampleShellMesh,
      exampleSquareMesh]) ho (some [0, 1 / 4, 1])
    (holds_flatten _ fun l _ _ => if l = 0 then 1 else 0)
  refine ⟨inv, o, _, R, hi, h1, ?_, ?_⟩
  · rw [h6 1 (Nat.le_of_ble_eq_true rfl)]
    simp [sphereField]
  · rw [h3, h2]
    rfl

example (inv : (ℕ → ℕ → ℝ) → ℕ → ℕ → ℝ) (o : Objects) (v : FlatArr) :
    (exampleShellReport inv true).finish o (some [0, 1 / 4, 1]) v = none :=
  c113_uncollided_fails (P := exampleShellReport inv true) rfl rfl (Or.inr rfl) o _
    (by simp) (by simp) v

/-- One point asked for, for a state that is zero. -/
example : ∃ inv o v R, InverseCorrect 1 inv ∧
    (exampleShellReport inv true).finish o (some [1 / 4]) v = some R ∧ R.phi.length = 1 := by
  obtain ⟨inv, hi⟩ := inverse_exists 1
  have h0 := exampleShellReport_setup hi
  have hs : SphereSetup (exampleShellReport inv true) (shellEdges exampleShellMesh).get
      (shellState exampleShellMesh).DedgesConst :=
    ⟨h0.sphere, h0.mesh, h0.order, h0.tables, h0.inverse, h0.directions, h0.checks⟩
  obtain ⟨o, ho⟩ := reached_exists hs.mesh
  obtain ⟨R, h1, h2, -⟩ := c113_uncollided_one hs (steady_of_constant rfl)
    (Nat.le_of_ble_eq_true rfl) rfl (Or.inr rfl)
    (by norm_num [exampleShellReport, exampleShellRun, exampleShell, exampleShellMesh,
      exampleSquareMesh]) ho (1 / 4) (holds_flatten _ fun _ _ _ => 0)
  obtain ⟨out, -⟩ := c113_times_uncollided_two hs (steady_of_constant rfl)
    (Nat.le_of_ble_eq_true rfl) rfl (Or.inr rfl) ho (1 / 4) 1
    (cols := [(1 / 2, flatten3 _ _ _ fun _ _ _ => 0)]) (by simp) (V := fun _ _ _ _ => 0) (by
      intro c hc
      simp only [List.mem_singleton] at hc
      subst hc
      exact ⟨by norm_num, holds_flatten _ _⟩)
  exact ⟨inv, o, _, R, hi, h1, by rw [h2]; rfl⟩

/-- The same problem with the uncollided treatment has no result. -/
example (inv : (ℕ → ℕ → ℝ) → ℕ → ℕ → ℝ) (o : Objects) (v : FlatArr) :
    (exampleShellReport inv true).finish o none v = none :=
  c113_uncollided_default_fails (P := exampleShellReport inv true) rfl rfl (Or.inr rfl)
    (Nat.le_of_ble_eq_true rfl) o v

end Verif.Props
