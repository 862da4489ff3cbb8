import Verif.Model.SlabSolve
import Verif.Props.Solve
import Mathlib.Analysis.Complex.Exponential

/-!
Property C129: `solve` for a slab, from its arguments to what it returns.
-/

namespace Verif.Props

open Set Filter Verif.Spec Verif.Model Verif.Lemmas

/-! ### What a Runge-Kutta method makes of a state that is its own derivative -/

/-- Evaluations of one step of size `z` for `y' = y` from one, the first `i` of them. -/
noncomputable def stageFactors (τ : Tableau) (z : ℝ) : ℕ → ℕ → ℝ
  | 0 => fun _ => 1
  | i + 1 => Function.update (stageFactors τ z i) (i + 1)
      (1 + z * ∑ j ∈ Finset.range (i + 1), τ.row (i + 1) j * stageFactors τ z i j)

/-- Growth of `y' = y` in one step of size `z`: the stability polynomial of the method. -/
noncomputable def growth (τ : Tableau) (z : ℝ) : ℝ :=
  1 + z * ∑ j ∈ Finset.range τ.n, τ.b j * stageFactors τ z τ.n j

/-- Multiple of a state. -/
def scaled (g : ℝ) (y : StateVec) : StateVec := fun l k m => g * y l k m

theorem combine_scaled (y : StateVec) (h : ℝ) (w c : ℕ → ℝ) (i : ℕ) :
    combine y h w (fun j => scaled (c j) y) i =
      scaled (1 + h * ∑ j ∈ Finset.range i, w j * c j) y := by
  funext l k m
  simp only [combine, scaled]
  rw [add_mul, one_mul, mul_assoc, Finset.sum_mul]
  congr 2
  exact Finset.sum_congr rfl fun j _ => by ring

/-- The right-hand side answers with the state that it is given. -/
def ReturnsInput {σ : Type} (rhs : SharedRhs σ) : Prop :=
  ∀ o t V r, rhs o t V = some r → r.2 = V

section Integrator

variable {σ : Type} {rhs : SharedRhs σ}

theorem stageLoop_input (hr : ReturnsInput rhs) (τ : Tableau) (t h : ℝ) (y : StateVec) (o : σ) (i : ℕ)
    {z : σ × (ℕ → StateVec)} (hz : rhs.stageLoop τ t h y i (o, fun _ => y) = some z) :
    z.2 = fun j => scaled (stageFactors τ h i j) y := by
  induction i generalizing z with
  | zero =>
    rw [SharedRhs.stageLoop, Option.some_inj] at hz
    rw [← hz]
    funext j l k m
    simp [scaled, stageFactors]
  | succ i ih =>
    rw [SharedRhs.stageLoop, Option.bind_eq_some_iff] at hz
    obtain ⟨w, h1, h2⟩ := hz
    obtain ⟨r, h3, rfl⟩ := Option.map_eq_some_iff.1 h2
    have h4 := hr _ _ _ _ h3
    have h5 := ih h1
    rw [h5, combine_scaled] at h4
    dsimp only
    rw [h4, h5]
    funext j
    by_cases hj : j = i + 1
    · subst hj
      rw [Function.update_self, stageFactors, Function.update_self]
    · rw [Function.update_of_ne hj, stageFactors, Function.update_of_ne hj]

/-- The last evaluation is made at the new state. -/
theorem stageFactors_last (τ : Tableau) (z : ℝ) : stageFactors τ z τ.n τ.n = growth τ z := by
  cases hn : τ.n with
  | zero =>
    unfold growth
    rw [hn]
    simp [stageFactors]
  | succ n =>
    have key : ∀ i m, m ≤ i → ∀ j ≤ m, stageFactors τ z i j = stageFactors τ z m j := by
      intro i m hm
      induction i, hm using Nat.le_induction with
      | base => exact fun j _ => rfl
      | succ i hi ih =>
        intro j hj
        rw [stageFactors, Function.update_of_ne (by omega), ih j hj]
    rw [stageFactors, Function.update_self]
    unfold growth
    rw [hn]
    congr 2
    refine Finset.sum_congr rfl fun j hj => ?_
    have hj := Finset.mem_range.1 hj
    rw [key (n + 1) n (by omega) j (by omega)]
    unfold Tableau.row
    rw [if_neg (by omega)]

/-- What is answered for a time. -/
noncomputable def inputOutput (τ : Tableau) (D : Interpolant) :
    List ℝ → ℝ → StateVec → ℝ → StateVec
  | [], _, y, _ => y
  | h :: hs, t, y, s => open Classical in
    if s ≤ t + h then D t y h (fun j => scaled (stageFactors τ h τ.n j) y) ((s - t) / h)
    else inputOutput τ D hs (t + h) (scaled (growth τ h) y) s

/-- The columns, for any events: every attempt that does not fail leaves the same state. -/
theorem solveEvents_input (hr : ReturnsInput rhs) (τ : Tableau) (D : Interpolant) (es : List Event)
    (x : SharedStep σ) (hx : x.f = x.y) {ts : List ℝ} (hts : ts.Pairwise (· < ·))
    (hpos : ∀ s ∈ acceptedSteps es, 0 ≤ s) {p : SharedStep σ × List (ℝ × StateVec)}
    (hp : rhs.solveEvents τ D es x ts = some p) :
    p.2 = (answered x.t (acceptedSteps es) ts).map fun t =>
      (t, inputOutput τ D (acceptedSteps es) x.t x.y t) := by
  classical
  induction es generalizing x ts p with
  | nil =>
    rw [SharedRhs.solveEvents, Option.some_inj] at hp
    rw [← hp]
    rfl
  | cons ev es ih =>
    cases ev with
    | step s acc =>
      cases acc with
      | true =>
        have hs0 : 0 ≤ s := hpos s List.mem_cons_self
        rw [SharedRhs.solveEvents, Option.bind_eq_some_iff] at hp
        obtain ⟨r, h1, h2⟩ := hp
        obtain ⟨q, h3, rfl⟩ := Option.map_eq_some_iff.1 h2
        unfold SharedRhs.rkStep at h1
        rw [hx] at h1
        have hK := stageLoop_input hr τ x.t s x.y x.objects τ.n h1
        rw [hK] at h3 ⊢
        rw [combine_scaled] at h3
        have h4 := ih _ (by
          dsimp only
          rw [stageFactors_last]
          rfl) (hts.sublist (List.dropWhile_sublist _))
          (fun s' hs' => hpos s' (List.mem_cons_of_mem _ hs')) h3
        dsimp only at h4 ⊢
        rw [h4]
        dsimp only [acceptedSteps]
        have e1 : answered x.t (s :: acceptedSteps es) ts = ts.takeWhile (· ≤ x.t + s) ++
            answered (x.t + s) (acceptedSteps es) (ts.dropWhile (· ≤ x.t + s)) := by
          unfold answered
          rw [if_neg (List.cons_ne_nil _ _)]
          split_ifs with hemp
          · rw [hemp, List.sum_singleton, List.append_nil]
          · rw [List.sum_cons, ← add_assoc]
            refine takeWhile_split (fun a ha => ?_) ts
            have h6 : 0 ≤ (acceptedSteps es).sum := List.sum_nonneg fun s' hs' =>
              hpos s' (List.mem_cons_of_mem _ hs')
            have ha : a ≤ x.t + s := by simpa using ha
            simpa using ha.trans (by linarith)
        rw [e1, List.map_append]
        congr 1
        · refine List.map_congr_left fun t ht => ?_
          have : t ≤ x.t + s := by
            have := List.all_eq_true.1 (List.all_takeWhile (p := fun a => decide (a ≤ x.t + s)) (l := ts)) t ht
            simpa using this
          rw [inputOutput, if_pos this]
        · refine List.map_congr_left fun t ht => ?_
          have hmem : t ∈ ts.dropWhile (· ≤ x.t + s) := by
            unfold answered at ht
            split_ifs at ht with hemp
            · simp at ht
            · exact (List.takeWhile_sublist _).subset ht
          have : x.t + s < t := dropWhile_gt hts (by simp) hmem
          conv_rhs => rw [inputOutput, if_neg (not_le.2 this)]
          rfl
      | false =>
        rw [SharedRhs.solveEvents, Option.bind_eq_some_iff] at hp
        obtain ⟨r, -, h2⟩ := hp
        exact ih { x with objects := r.1 } hx hts hpos h2
    | probe s V =>
      rw [SharedRhs.solveEvents, Option.bind_eq_some_iff] at hp
      obtain ⟨r, -, h2⟩ := hp
      exact ih { x with objects := r.1 } hx hts hpos h2

theorem scaled_scaled (a b : ℝ) (y : StateVec) : scaled a (scaled b y) = scaled (b * a) y := by
  funext l k m
  simp only [scaled]
  ring

/-- At the time that the accepted steps reach. -/
theorem inputOutput_end {τ : Tableau} {D : Interpolant} (hD : EndsRight τ D) {hs : List ℝ}
    (hne : hs ≠ []) (t : ℝ) (y : StateVec) (hpos : ∀ s ∈ hs, 0 < s) :
    inputOutput τ D hs t y (t + hs.sum) = scaled (hs.map (growth τ)).prod y := by
  induction hs generalizing t y with
  | nil => exact absurd rfl hne
  | cons s hs ih =>
    have hs0 := hpos s List.mem_cons_self
    rw [List.sum_cons, List.map_cons, List.prod_cons]
    by_cases hemp : hs = []
    · subst hemp
      rw [inputOutput, if_pos (by simp), List.sum_nil, add_zero, add_sub_cancel_left, div_self hs0.ne', hD,
        combine_scaled]
      simp [growth]
    · have hsum : 0 < hs.sum := List.sum_pos _ (fun s' hs' => hpos s' (List.mem_cons_of_mem _ hs')) hemp
      rw [inputOutput, if_neg (by linarith), ← add_assoc,
        ih hemp _ _ (fun s' hs' => hpos s' (List.mem_cons_of_mem _ hs')), scaled_scaled]

/-- A property of the objects that every call keeps. -/
theorem stageLoop_keeps {I : σ → Prop} (hI : ∀ o t V r, I o → rhs o t V = some r → I r.1) (τ : Tableau)
    (t h : ℝ) (y : StateVec) (i : ℕ) {x z : σ × (ℕ → StateVec)} (hx : I x.1)
    (hz : rhs.stageLoop τ t h y i x = some z) : I z.1 := by
  induction i generalizing z with
  | zero =>
    rw [SharedRhs.stageLoop, Option.some_inj] at hz
    rwa [← hz]
  | succ i ih =>
    rw [SharedRhs.stageLoop, Option.bind_eq_some_iff] at hz
    obtain ⟨w, h1, h2⟩ := hz
    obtain ⟨r, h3, rfl⟩ := Option.map_eq_some_iff.1 h2
    exact hI _ _ _ _ (ih h1) h3

theorem solveEvents_keeps {I : σ → Prop} (hI : ∀ o t V r, I o → rhs o t V = some r → I r.1)
    (τ : Tableau) (D : Interpolant) (es : List Event) {x : SharedStep σ} (hx : I x.objects)
    {ts : List ℝ} {p : SharedStep σ × List (ℝ × StateVec)}
    (hp : rhs.solveEvents τ D es x ts = some p) : I p.1.objects := by
  induction es generalizing x ts p with
  | nil =>
    rw [SharedRhs.solveEvents, Option.some_inj] at hp
    rwa [← hp]
  | cons ev es ih =>
    cases ev with
    | step s acc =>
      cases acc with
      | true =>
        rw [SharedRhs.solveEvents, Option.bind_eq_some_iff] at hp
        obtain ⟨r, h1, h2⟩ := hp
        obtain ⟨q, h3, rfl⟩ := Option.map_eq_some_iff.1 h2
        show I q.1.objects
        exact ih (stageLoop_keeps hI τ _ _ _ _ (x := (x.objects, fun _ => x.f)) hx h1) h3
      | false =>
        rw [SharedRhs.solveEvents, Option.bind_eq_some_iff] at hp
        obtain ⟨r, h1, h2⟩ := hp
        exact ih (stageLoop_keeps hI τ _ _ _ _ (x := (x.objects, fun _ => x.f)) hx h1) h2
    | probe s V =>
      rw [SharedRhs.solveEvents, Option.bind_eq_some_iff] at hp
      obtain ⟨r, h1, h2⟩ := hp
      exact ih (hI _ _ _ _ hx h1) h2

/-- If no call fails, the integration does not. -/
theorem stageLoop_total (hr : ∀ o t V, ∃ r, rhs o t V = some r) (τ : Tableau) (t h : ℝ) (y : StateVec)
    (i : ℕ) (x : σ × (ℕ → StateVec)) : ∃ z, rhs.stageLoop τ t h y i x = some z := by
  induction i with
  | zero => exact ⟨x, rfl⟩
  | succ i ih =>
    obtain ⟨w, hw⟩ := ih
    obtain ⟨r, h1⟩ := hr w.1 (t + τ.node (i + 1) * h) (combine y h (τ.row (i + 1)) w.2 (i + 1))
    rw [SharedRhs.stageLoop, hw, Option.bind_some, h1]
    exact ⟨_, rfl⟩

theorem solveEvents_total (hr : ∀ o t V, ∃ r, rhs o t V = some r) (τ : Tableau) (D : Interpolant)
    (es : List Event) (x : SharedStep σ) (ts : List ℝ) : ∃ p, rhs.solveEvents τ D es x ts = some p := by
  induction es generalizing x ts with
  | nil => exact ⟨_, rfl⟩
  | cons ev es ih =>
    cases ev with
    | step s acc =>
      obtain ⟨r, h1⟩ := stageLoop_total hr τ x.t s x.y τ.n (x.objects, fun _ => x.f)
      have h2 : rhs.rkStep τ x s = some r := h1
      cases acc with
      | true =>
        rw [SharedRhs.solveEvents, h2, Option.bind_some]
        obtain ⟨p, hp⟩ := ih ⟨r.1, x.t + s, combine x.y s τ.b r.2 τ.n, r.2 τ.n⟩ (open Classical in ts.dropWhile (· ≤ x.t + s))
        rw [hp]
        exact ⟨_, rfl⟩
      | false =>
        rw [SharedRhs.solveEvents, h2, Option.bind_some]
        exact ih _ _
    | probe s V =>
      obtain ⟨r, h1⟩ := hr x.objects s V
      rw [SharedRhs.solveEvents, h1, Option.bind_some]
      exact ih _ _

end Integrator

/-! ### The calls -/

theorem slabCall_input (P : Problem) : ReturnsInput P.slabCall := by
  intro o t V r h
  unfold Problem.slabCall at h
  rw [Option.bind_eq_some_iff] at h
  obtain ⟨s, -, h2⟩ := h
  obtain ⟨o', -, rfl⟩ := Option.map_eq_some_iff.1 h2
  rfl

theorem slabAngleLoop_mesh {P : Problem} {t : ℝ} {V : StateVec} {space n : ℕ} {o o' : SlabObjects}
    (h : P.slabAngleLoop t V space n o = some o') : o'.shared.mesh = o.shared.mesh := by
  induction n generalizing o' with
  | zero =>
    rw [Problem.slabAngleLoop, Option.some_inj] at h
    rw [h]
  | succ n ih =>
    rw [Problem.slabAngleLoop, Option.bind_eq_some_iff] at h
    obtain ⟨o1, h1, h2⟩ := h
    unfold Problem.slabAngleStep at h2
    split_ifs at h2
    rw [Option.some_inj] at h2
    subst h2
    have := ih h1
    exact this

theorem scalarStep_mesh (P : Problem) (o : Objects) (V : StateVec) (space : ℕ) :
    (P.scalarStep o V space).mesh = o.mesh := by
  unfold Problem.scalarStep
  dsimp only
  split_ifs <;> rfl

theorem slabCellLoop_mesh {P : Problem} {t : ℝ} {V : StateVec} {n : ℕ} {o o' : SlabObjects}
    (h : P.slabCellLoop t V n o = some o') : o'.shared.mesh = o.shared.mesh := by
  induction n generalizing o' with
  | zero =>
    rw [Problem.slabCellLoop, Option.some_inj] at h
    rw [h]
  | succ n ih =>
    rw [Problem.slabCellLoop, Option.bind_eq_some_iff] at h
    obtain ⟨o1, h1, h2⟩ := h
    rw [Option.bind_eq_some_iff] at h2
    obtain ⟨o2, h2, h3⟩ := h2
    rw [slabAngleLoop_mesh h3, ← ih h1]
    unfold Problem.slabCellStep at h2
    obtain ⟨s, h4, rfl⟩ := Option.map_eq_some_iff.1 h2
    unfold Problem.slabSourceStep at h4
    obtain ⟨S, -, rfl⟩ := Option.map_eq_some_iff.1 h4
    exact scalarStep_mesh P o1.shared V n

theorem meshRun_snoc (c : MeshConfig) (s : MeshState) (ts : List ℝ) (t : ℝ) :
    meshRun c s (ts ++ [t]) = (meshRun c s ts).bind fun s' => meshMove c s' t := by
  induction ts generalizing s with
  | nil =>
    simp only [List.nil_append, meshRun, Option.bind_some]
    cases meshMove c s t <;> rfl
  | cons u us ih =>
    simp only [List.cons_append, meshRun]
    cases meshMove c s u with
    | none => rfl
    | some s' => exact ih s'

/-- The mesh of the objects has been moved from its construction by some requests. -/
def MeshReached (P : Problem) (m0 : MeshState) (o : SlabObjects) : Prop :=
  ∃ ts, meshRun P.mesh m0 ts = some o.shared.mesh

theorem slabCall_meshReached (P : Problem) (m0 : MeshState) (o : SlabObjects) (t : ℝ) (V : StateVec)
    (r : SlabObjects × StateVec) (ho : MeshReached P m0 o) (h : P.slabCall o t V = some r) :
    MeshReached P m0 r.1 := by
  unfold Problem.slabCall at h
  rw [Option.bind_eq_some_iff] at h
  obtain ⟨s, h1, h2⟩ := h
  obtain ⟨o', h3, rfl⟩ := Option.map_eq_some_iff.1 h2
  unfold Problem.prepare at h1
  split_ifs at h1
  obtain ⟨m, h4, rfl⟩ := Option.map_eq_some_iff.1 h1
  obtain ⟨ts, hts⟩ := ho
  refine ⟨ts ++ [t], ?_⟩
  rw [meshRun_snoc, hts, Option.bind_some, h4, slabCellLoop_mesh h3]

theorem makeSource_slab {c : SourceConfig} (hg : c.geometry = .slab) (unc : ℝ → ℝ → ℝ)
    (p : ℝ → ℝ → ℝ → ℝ) (t xL xR : ℝ) (S : ℕ → ℝ) : ∃ S', makeSource c unc p t xL xR S = some S' := by
  unfold makeSource
  rw [hg]
  dsimp only
  split_ifs
  all_goals exact ⟨_, rfl⟩

/-- The problem is a slab on which no call fails: the opacity is one of those implemented, the
directions pass the checks at the first cell, the mesh can be built and follows the time. -/
structure SlabRuns (P : Problem) : Prop where
  slab : P.mesh.geometry = .slab
  opacity : P.sigmaFunc ≠ .other
  directions : centreChecks P.Nang P.mus
  mesh : ∃ m0, meshInit P.mesh = some m0
  noHistory : NoHistory P.mesh

theorem slabCall_total_of {P : Problem} (hg : P.mesh.geometry = .slab) (hop : P.sigmaFunc ≠ .other)
    (hdir : centreChecks P.Nang P.mus) (hmove : ∀ s t, ∃ s', meshMove P.mesh s t = some s')
    (o : SlabObjects) (t : ℝ) (V : StateVec) : ∃ r, P.slabCall o t V = some r := by
  have ha : ∀ space n, n ≤ P.Nang → ∀ o, ∃ o', P.slabAngleLoop t V space n o = some o' := by
    intro space n hn
    induction n with
    | zero => exact fun o => ⟨o, rfl⟩
    | succ n ih =>
      intro o
      obtain ⟨o1, h1⟩ := ih (by omega) o
      rw [Problem.slabAngleLoop, h1, Option.bind_some]
      unfold Problem.slabAngleStep
      have hs : P.asserts space n := fun _ h2 => hdir n (by omega) h2
      rw [if_pos hs]
      exact ⟨_, rfl⟩
  have hc : ∀ n o, ∃ o', P.slabCellLoop t V n o = some o' := by
    intro n
    induction n with
    | zero => exact fun o => ⟨o, rfl⟩
    | succ n ih =>
      intro o
      obtain ⟨o1, h1⟩ := ih o
      rw [Problem.slabCellLoop, h1, Option.bind_some]
      unfold Problem.slabCellStep Problem.slabSourceStep
      obtain ⟨S, hS⟩ := makeSource_slab (c := P.sourceConfig) hg
        (fun x t => (uncollidedSolution P.uncollidedConfig (P.scalarStep o1.shared V n).unc [x] t).getD 0 0)
        (planeIntegrated P.builtX0) t (o1.shared.mesh.edges n) (o1.shared.mesh.edges (n + 1))
        (P.scalarStep o1.shared V n).S
      dsimp only at hS ⊢
      rw [hS, Option.map_some, Option.map_some, Option.bind_some]
      exact ha _ _ le_rfl _
  unfold Problem.slabCall Problem.prepare
  obtain ⟨m, hm⟩ := hmove o.shared.mesh t
  rw [if_neg hop, hm, Option.map_some, Option.bind_some]
  obtain ⟨o', ho'⟩ := hc P.mesh.N { o with shared := { Problem.timeStepCounter o.shared t with
    mesh := m, opacity := sigmaMoments P.opacityConfig m.edges t o.shared.opacity } }
  rw [ho']
  exact ⟨_, rfl⟩

theorem slabCall_total {P : Problem} (h : SlabRuns P) (o : SlabObjects) (t : ℝ) (V : StateVec) :
    ∃ r, P.slabCall o t V = some r :=
  slabCall_total_of h.slab h.opacity h.directions (move_total h.noHistory) o t V

/-! ### What comes back -/

/-- What the state `V` on the mesh `m` is reported as, with the uncollided object at `unc`. -/
noncomputable def slabReport (P : Problem) (leg : ℕ → List ℝ) (choose : Option (List ℝ)) (V : StateVec)
    (m : MeshState) (unc : List ℝ) : Option Results :=
  (outputState true P.Nang P.mesh.N P.M (flatten3 P.Nang P.mesh.N (P.M + 1) V)).bind fun u =>
    (P.makeOutput unc P.mesh.tfinal m.edges (P.slabPoints leg choose m.edges) u).map fun out =>
      { toOutput := out.1, xs := P.slabPoints leg choose m.edges, e := out.1.phi.map (· * 0),
        solLast := u, edges := m.edges }

/-- The product of the growth factors of the accepted steps. -/
noncomputable def totalGrowth (τ : Tableau) (es : List Event) : ℝ :=
  ((acceptedSteps es).map (growth τ)).prod

theorem slabSolve_report {P : Problem} (hT : 0 < P.mesh.tfinal) {leg : ℕ → List ℝ} {τ : Tableau}
    {D : Interpolant} (hD : EndsRight τ D) {es : List Event} (hes : Arrives P es) {estimate : Bool}
    {choose : Option (List ℝ)} {R : Results}
    (h : P.slabSolve leg τ D es estimate choose = some R) :
    ∃ y0 m0 ts m unc, P.startVector = some y0 ∧ meshInit P.mesh = some m0 ∧
      meshRun P.mesh m0 (ts ++ [P.mesh.tfinal]) = some m ∧
      slabReport P leg choose (scaled (totalGrowth τ es) y0) m unc = some R := by
  unfold Problem.slabSolve at h
  rw [Option.bind_eq_some_iff] at h
  obtain ⟨y0, hy0, h⟩ := h
  rw [Option.bind_eq_some_iff] at h
  obtain ⟨o, ho, h⟩ := h
  rw [Option.bind_eq_some_iff] at h
  obtain ⟨s, hs, h⟩ := h
  rw [Option.bind_eq_some_iff] at h
  obtain ⟨c, hc, h⟩ := h
  rw [Option.bind_eq_some_iff] at h
  obtain ⟨u, hu, h⟩ := h
  rw [Option.bind_eq_some_iff] at h
  obtain ⟨m, hm, h⟩ := h
  unfold Problem.slabObjects Problem.objects at ho
  rw [Option.map_map] at ho
  obtain ⟨m0, hm0, ho⟩ := Option.map_eq_some_iff.1 ho
  have hI0 : MeshReached P m0 o := ⟨[], by rw [← ho]; rfl⟩
  obtain ⟨hr1, hr2⟩ := outputTimes_range hT estimate
  unfold SharedRhs.solveIvp at hs
  rw [if_pos ⟨hr1, hr2⟩, Option.bind_eq_some_iff] at hs
  obtain ⟨r, h1, h2⟩ := hs
  obtain ⟨p, h3, rfl⟩ := Option.map_eq_some_iff.1 h2
  have hI1 := slabCall_meshReached P m0 _ _ _ _ hI0 h1
  have hI2 := solveEvents_keeps (slabCall_meshReached P m0) τ D es (x := ⟨r.1, 0, y0, r.2⟩) hI1 h3
  have hp := solveEvents_input (slabCall_input P) τ D es _ (slabCall_input P _ _ _ _ h1) hr2
    (fun s' hs' => (hes.1 s' hs').le) h3
  have hne := hes.ne hT
  rw [answered_all hne fun t ht => by rw [zero_add, hes.2]; exact (hr1 t ht).2] at hp
  dsimp only at hc hp
  rw [hp, List.getLast?_map, outputTimes_last, Option.map_some, Option.some_inj] at hc
  have hend := inputOutput_end hD hne 0 y0 hes.1
  rw [zero_add, hes.2] at hend
  rw [hend] at hc
  obtain ⟨ts, hts⟩ := hI2
  refine ⟨y0, m0, ts, m, p.1.objects.shared.unc, hy0, hm0, ?_, ?_⟩
  · rw [meshRun_snoc, hts, Option.bind_some]
    exact hm
  · unfold slabReport totalGrowth
    rw [← hc] at hu
    rw [hu, Option.bind_some]
    exact h

/-- If no call fails, what `solve` reports is determined by the requests made to the mesh. -/
theorem slabSolve_total_of {P : Problem} (hcall : ∀ o t V, ∃ r, P.slabCall o t V = some r)
    (hmove : ∀ s t, ∃ s', meshMove P.mesh s t = some s') (hT : 0 < P.mesh.tfinal) (leg : ℕ → List ℝ)
    {τ : Tableau} {D : Interpolant} (hD : EndsRight τ D) {es : List Event} (hes : Arrives P es)
    (estimate : Bool) (choose : Option (List ℝ)) {y0 : StateVec} (hy : P.startVector = some y0)
    {m0 : MeshState} (hm0 : meshInit P.mesh = some m0) :
    ∃ ts m unc, meshRun P.mesh m0 (ts ++ [P.mesh.tfinal]) = some m ∧
      P.slabSolve leg τ D es estimate choose =
        slabReport P leg choose (scaled (totalGrowth τ es) y0) m unc := by
  obtain ⟨hr1, hr2⟩ := outputTimes_range hT estimate
  have hex : ∃ o, P.slabObjects = some o ∧ MeshReached P m0 o := by
    unfold Problem.slabObjects Problem.objects
    rw [hm0]
    exact ⟨_, rfl, [], rfl⟩
  obtain ⟨o, ho, hI0⟩ := hex
  obtain ⟨r, h1⟩ := hcall o 0 y0
  obtain ⟨p, h3⟩ := solveEvents_total hcall τ D es ⟨r.1, 0, y0, r.2⟩ (P.outputTimes estimate)
  have hI1 := slabCall_meshReached P m0 _ _ _ _ hI0 h1
  obtain ⟨ts, hts⟩ := solveEvents_keeps (slabCall_meshReached P m0) τ D es (x := ⟨r.1, 0, y0, r.2⟩) hI1 h3
  have hp := solveEvents_input (slabCall_input P) τ D es _ (slabCall_input P _ _ _ _ h1) hr2
    (fun s' hs' => (hes.1 s' hs').le) h3
  have hne := hes.ne hT
  rw [answered_all hne fun t ht => by rw [zero_add, hes.2]; exact (hr1 t ht).2] at hp
  dsimp only at hp
  have hend := inputOutput_end hD hne 0 y0 hes.1
  rw [zero_add, hes.2] at hend
  obtain ⟨m, hm⟩ := hmove p.1.objects.shared.mesh P.mesh.tfinal
  refine ⟨ts, m, p.1.objects.shared.unc, by rw [meshRun_snoc, hts, Option.bind_some, hm], ?_⟩
  unfold Problem.slabSolve SharedRhs.solveIvp
  rw [hy, Option.bind_some, ho, Option.bind_some, if_pos ⟨hr1, hr2⟩, h1, Option.bind_some, h3,
    Option.map_some, Option.bind_some]
  dsimp only
  rw [hp, List.getLast?_map, outputTimes_last, Option.map_some, Option.bind_some]
  dsimp only
  rw [hend, hm]
  rfl

theorem slabSolve_total {P : Problem} (hr : SlabRuns P) (hT : 0 < P.mesh.tfinal) (leg : ℕ → List ℝ)
    {τ : Tableau} {D : Interpolant} (hD : EndsRight τ D) {es : List Event} (hes : Arrives P es)
    (estimate : Bool) (choose : Option (List ℝ)) {y0 : StateVec} (hy : P.startVector = some y0)
    {m : MeshState} (hm : (meshInit P.mesh).bind (meshMove P.mesh · P.mesh.tfinal) = some m) :
    ∃ unc, P.slabSolve leg τ D es estimate choose =
      slabReport P leg choose (scaled (totalGrowth τ es) y0) m unc := by
  obtain ⟨m0, hm0⟩ := hr.mesh
  rw [hm0, Option.bind_some] at hm
  obtain ⟨ts, m', unc, h1, h2⟩ := slabSolve_total_of (slabCall_total hr) (move_total hr.noHistory) hT leg
    hD hes estimate choose hy hm0
  rw [c23_history_irrelevant_partial hr.noHistory, meshRun, hm, Option.bind_some, meshRun,
    Option.some_inj] at h1
  exact ⟨unc, by rw [h1]; exact h2⟩

/-! ### The reported field -/

/-- The field with Legendre coefficients `U` on all cells: at an edge between two cells the value from
the left, outside the mesh zero. -/
noncomputable def slabMeshField (M N : ℕ) (edges : ℕ → ℝ) (U : ℕ → ℕ → ℝ) (x : ℝ) : ℝ :=
  open Classical in
  ∑ k ∈ Finset.range N, if (edges k < x ∧ x ≤ edges (k + 1)) ∨ (k = 0 ∧ x = edges 0) then
    slabField M (U k) (edges k) (edges (k + 1)) x else 0

/-- The scalar flux of a state on a mesh, for given weights. -/
noncomputable def slabMeshFlux (Nang : ℕ) (w : ℕ → ℝ) (M N : ℕ) (edges : ℕ → ℝ) (V : StateVec)
    (x : ℝ) : ℝ :=
  ∑ l ∈ Finset.range Nang, w l * slabMeshField M N edges (V l) x

/-- The number of particles of a state on a mesh. -/
noncomputable def slabNumber (Nang : ℕ) (w : ℕ → ℝ) (M N : ℕ) (edges : ℕ → ℝ) (V : StateVec) : ℝ :=
  ∑ l ∈ Finset.range Nang, w l * ∑ k ∈ Finset.range N, slabContent M (V l k) (edges k) (edges (k + 1))

theorem psiOut_slabMeshField {M N : ℕ} (hN : 1 ≤ N) {edges : ℕ → ℝ}
    (he : ∀ i < N, edges i < edges (i + 1)) (U : ℕ → ℕ → ℝ) (x : ℝ) :
    psiOut .slab M N edges U x = some (slabMeshField M N edges U x) := by
  have hO : OrderOk .slab M := fun h => by cases h
  by_cases hx : x < edges 0 ∨ edges N < x
  · have e : slabMeshField M N edges U x = 0 := by
      unfold slabMeshField
      refine Finset.sum_eq_zero fun j hj => if_neg ?_
      have hj := Finset.mem_range.1 hj
      rintro (⟨a, b⟩ | ⟨-, a⟩)
      · have h1 := edges_mono he (Nat.zero_le j) hj.le
        have h2 := edges_mono he (show j + 1 ≤ N from hj) le_rfl
        rcases hx with h | h <;> linarith
      · have h2 := edges_strict he hN le_rfl
        rcases hx with h | h <;> linarith
    rw [e]
    exact (c50_outside .slab M N 0 (fun _ => 0) edges (fun _ => U) false (fun _ _ => 0) 0 hx).1 0
  · push Not at hx
    rcases eq_or_lt_of_le hx.1 with h | h
    · subst h
      have e : slabMeshField M N edges U (edges 0) = slabField M (U 0) (edges 0) (edges 1) (edges 0) := by
        unfold slabMeshField
        rw [Finset.sum_eq_single_of_mem 0 (Finset.mem_range.2 hN), if_pos (Or.inr ⟨rfl, rfl⟩)]
        intro j hj hjk
        have hj := Finset.mem_range.1 hj
        rw [if_neg]
        rintro (⟨a, -⟩ | ⟨rfl, -⟩)
        · have := edges_mono he (Nat.zero_le j) hj.le; linarith
        · exact hjk rfl
      rw [e]
      exact (c78_exit_distribution .slab M hO hN edges he U).1
    · obtain ⟨k, hk, h2, h3⟩ := cell_exists h hx.2
      have e : slabMeshField M N edges U x = slabField M (U k) (edges k) (edges (k + 1)) x := by
        unfold slabMeshField
        rw [Finset.sum_eq_single_of_mem k (Finset.mem_range.2 hk), if_pos (Or.inl ⟨h2, h3⟩)]
        intro j hj hjk
        have hj := Finset.mem_range.1 hj
        rw [if_neg]
        rintro (⟨a, b⟩ | ⟨rfl, a⟩)
        · rcases lt_or_gt_of_ne hjk with hlt | hlt
          · have := edges_mono he (show j + 1 ≤ k from hlt) hk.le; linarith
          · have := edges_mono he (show k + 1 ≤ j from hlt) hj.le; linarith
        · linarith
      rw [e]
      exact c50_cell_of_point .slab M hO edges he U hk h2 h3

theorem slabMeshField_scaled {M N : ℕ} {edges : ℕ → ℝ} {U W : ℕ → ℕ → ℝ} {g : ℝ}
    (h : ∀ k < N, ∀ i ≤ M, U k i = g * W k i) (x : ℝ) :
    slabMeshField M N edges U x = g * slabMeshField M N edges W x := by
  unfold slabMeshField
  rw [Finset.mul_sum]
  refine Finset.sum_congr rfl fun k hk => ?_
  rw [mul_ite, mul_zero]
  congr 1
  unfold slabField
  rw [Finset.mul_sum]
  exact Finset.sum_congr rfl fun i hi => by
    rw [h k (Finset.mem_range.1 hk) i (by have := Finset.mem_range.1 hi; omega)]
    ring

theorem slabMeshFlux_scaled {Nang M N : ℕ} {w edges : ℕ → ℝ} {U W : StateVec} {g : ℝ}
    (h : ∀ l < Nang, ∀ k < N, ∀ i ≤ M, U l k i = g * W l k i) (x : ℝ) :
    slabMeshFlux Nang w M N edges U x = g * slabMeshFlux Nang w M N edges W x := by
  unfold slabMeshFlux
  rw [Finset.mul_sum]
  exact Finset.sum_congr rfl fun l hl => by
    rw [slabMeshField_scaled (h l (Finset.mem_range.1 hl))]
    ring

theorem slabContent_scaled {M : ℕ} {U W : ℕ → ℝ} {g : ℝ} (h : ∀ i ≤ M, U i = g * W i) (a b : ℝ) :
    slabContent M U a b = g * slabContent M W a b := by
  unfold slabContent
  rw [← intervalIntegral.integral_const_mul]
  congr 1
  funext x
  unfold slabField
  rw [Finset.mul_sum]
  exact Finset.sum_congr rfl fun i hi => by
    rw [h i (by have := Finset.mem_range.1 hi; omega)]
    ring

theorem slabNumber_scaled {Nang M N : ℕ} {w edges : ℕ → ℝ} {U W : StateVec} {g : ℝ}
    (h : ∀ l < Nang, ∀ k < N, ∀ i ≤ M, U l k i = g * W l k i) :
    slabNumber Nang w M N edges U = g * slabNumber Nang w M N edges W := by
  unfold slabNumber
  rw [Finset.mul_sum]
  refine Finset.sum_congr rfl fun l hl => ?_
  have e : ∑ k ∈ Finset.range N, slabContent M (U l k) (edges k) (edges (k + 1)) =
      g * ∑ k ∈ Finset.range N, slabContent M (W l k) (edges k) (edges (k + 1)) := by
    rw [Finset.mul_sum]
    exact Finset.sum_congr rfl fun k hk =>
      slabContent_scaled (h l (Finset.mem_range.1 hl) k (Finset.mem_range.1 hk)) _ _
  rw [e, mul_left_comm]

/-- The output for one time in slab geometry, without uncollided treatment. -/
theorem makeOutput_slab {P : Problem} (hg : P.mesh.geometry = .slab) (hN : 1 ≤ P.mesh.N)
    (hu : P.uncollided = false) {edges : ℕ → ℝ} (he : ∀ i < P.mesh.N, edges i < edges (i + 1))
    (unc : List ℝ) (t : ℝ) (xs : List ℝ) (u : StateVec) :
    P.makeOutput unc t edges xs u = some ({
      phi := xs.map (slabMeshFlux P.Nang P.rawWs P.M P.mesh.N edges u)
      psi := fun l => xs.map (slabMeshField P.M P.mesh.N edges (u l))
      exitDist := fun l count =>
        slabMeshField P.M P.mesh.N edges (u l) (exitPoint P.mesh.N edges count)
      exitPhi := [slabMeshFlux P.Nang P.rawWs P.M P.mesh.N edges u (edges 0),
        slabMeshFlux P.Nang P.rawWs P.M P.mesh.N edges u (edges P.mesh.N)] }, unc) := by
  have hp : ∀ l x, P.psiAt edges u l x = some (slabMeshField P.M P.mesh.N edges (u l) x) := by
    intro l x
    unfold Problem.psiAt
    rw [hg]
    exact psiOut_slabMeshField hN he _ x
  have hs : P.sumAt edges u = slabMeshFlux P.Nang P.rawWs P.M P.mesh.N edges u := by
    funext x
    unfold Problem.sumAt slabMeshFlux
    exact Finset.sum_congr rfl fun l _ => by rw [hp, Option.getD_some, mul_comm]
  unfold Problem.makeOutput
  simp only [hp, hs, Option.isSome_some, implies_true, and_self, if_true, Option.getD_some,
    Problem.addUncollided, hu, Bool.false_eq_true, if_false, Option.bind_some, Option.map_some,
    List.map_cons, List.map_nil]

/-! ### C129: what `solve` returns for a slab -/

theorem slabReport_state {P : Problem} {leg : ℕ → List ℝ} {choose : Option (List ℝ)} {V : StateVec}
    {m : MeshState} {unc : List ℝ} {R : Results} (h : slabReport P leg choose V m unc = some R) :
    ∀ l < P.Nang, ∀ k < P.mesh.N, ∀ i ≤ P.M, R.solLast l k i = V l k i := by
  unfold slabReport at h
  obtain ⟨u, hu, hv⟩ := (holds_flatten P V).state
  rw [hu, Option.bind_some] at h
  obtain ⟨out, -, rfl⟩ := Option.map_eq_some_iff.1 h
  exact hv

theorem startVector_unique {P : Problem} {y V : StateVec} (h : P.startVector = some y)
    (hV : StartsFrom P V) : ∀ l < P.Nang, ∀ k < P.mesh.N, ∀ i ≤ P.M, y l k i = V l k i := by
  intro l hl k hk i hi
  unfold Problem.startVector at h
  split_ifs at h
  rw [Option.some_inj] at h
  rw [← h]
  beta_reduce
  rw [hV l hl k hk i hi]
  rfl

/-- C129: whatever the sources, cross sections, boundaries and directions, whatever the mesh does and
whichever steps were rejected: if `solve` returns for a slab, the coefficients it returns are those
of the initial state times the product, over the accepted steps, of the stability polynomial of the
method. -/
theorem c129_state {P : Problem} (hT : 0 < P.mesh.tfinal) {leg : ℕ → List ℝ} {τ : Tableau}
    {D : Interpolant} (hD : EndsRight τ D) {es : List Event} (hes : Arrives P es) {estimate : Bool}
    {choose : Option (List ℝ)} {V : StateVec} (hV : StartsFrom P V) {R : Results}
    (h : P.slabSolve leg τ D es estimate choose = some R) :
    ∀ l < P.Nang, ∀ k < P.mesh.N, ∀ i ≤ P.M, R.solLast l k i = totalGrowth τ es * V l k i := by
  obtain ⟨y0, m0, ts, m, unc, h1, -, -, h4⟩ := slabSolve_report hT hD hes h
  intro l hl k hk i hi
  rw [slabReport_state h4 l hl k hk i hi, scaled, startVector_unique h1 hV l hl k hk i hi]

/-- The mesh returned is the mesh of the final time. -/
theorem slabSolve_edges {P : Problem} (hT : 0 < P.mesh.tfinal) (hn : NoHistory P.mesh)
    {leg : ℕ → List ℝ} {τ : Tableau}
    {D : Interpolant} (hD : EndsRight τ D) {es : List Event} (hes : Arrives P es) {estimate : Bool}
    {choose : Option (List ℝ)} {R : Results} (h : P.slabSolve leg τ D es estimate choose = some R) :
    R.edges = (meshAt P P.mesh.tfinal).edges ∧ R.xs = P.slabPoints leg choose R.edges := by
  obtain ⟨y0, m0, ts, m, unc, -, h2, h3, h4⟩ := slabSolve_report hT hD hes h
  rw [c23_history_irrelevant_partial hn] at h3
  unfold slabReport at h4
  obtain ⟨u, -, h5⟩ := Option.bind_eq_some_iff.1 h4
  obtain ⟨out, -, rfl⟩ := Option.map_eq_some_iff.1 h5
  refine ⟨?_, rfl⟩
  unfold meshAt
  rw [meshRun] at h3
  rw [h2, Option.bind_some]
  obtain ⟨m', h6, h7⟩ := Option.bind_eq_some_iff.1 h3
  rw [meshRun, Option.some_inj] at h7
  rw [h6, h7]

/-- What a state with field values `f` and fluxes `φ` is reported as. -/
structure SlabReported (P : Problem) (edges : ℕ → ℝ) (g : ℝ) (V : StateVec) (R : Results) : Prop where
  phi : R.phi = R.xs.map fun x => g * slabMeshFlux P.Nang P.rawWs P.M P.mesh.N edges V x
  psi : ∀ l < P.Nang, R.psi l = R.xs.map fun x => g * slabMeshField P.M P.mesh.N edges (V l) x
  left : ∀ l < P.Nang, R.exitDist l 0 = g * slabMeshField P.M P.mesh.N edges (V l) (edges 0)
  right : ∀ l < P.Nang, R.exitDist l 1 = g * slabMeshField P.M P.mesh.N edges (V l) (edges P.mesh.N)
  exitPhi : R.exitPhi = [g * slabMeshFlux P.Nang P.rawWs P.M P.mesh.N edges V (edges 0),
    g * slabMeshFlux P.Nang P.rawWs P.M P.mesh.N edges V (edges P.mesh.N)]
  coefficients : ∀ l < P.Nang, ∀ k < P.mesh.N, ∀ i ≤ P.M, R.solLast l k i = g * V l k i
  energy : R.e = R.xs.map fun _ => 0

theorem slabReport_reported {P : Problem} (hg : P.mesh.geometry = .slab) (hN : 1 ≤ P.mesh.N)
    (hu : P.uncollided = false) {leg : ℕ → List ℝ} {choose : Option (List ℝ)} {W V : StateVec} {g : ℝ}
    {m : MeshState} (he : ∀ i < P.mesh.N, m.edges i < m.edges (i + 1)) {unc : List ℝ}
    (hW : ∀ l < P.Nang, ∀ k < P.mesh.N, ∀ i ≤ P.M, W l k i = g * V l k i) :
    ∃ R, slabReport P leg choose W m unc = some R ∧ R.edges = m.edges ∧
      R.xs = P.slabPoints leg choose m.edges ∧ SlabReported P m.edges g V R := by
  obtain ⟨u, hu1, hv⟩ := (holds_flatten P W).state
  have hs : ∀ l < P.Nang, ∀ k < P.mesh.N, ∀ i ≤ P.M, u l k i = g * V l k i := fun l hl k hk i hi => by
    rw [hv l hl k hk i hi, hW l hl k hk i hi]
  unfold slabReport
  rw [hu1, Option.bind_some, makeOutput_slab hg hN hu he, Option.map_some]
  refine ⟨_, rfl, rfl, rfl, ?_, fun l hl => ?_, fun l hl => ?_, fun l hl => ?_, ?_, hs, ?_⟩
  · exact List.map_congr_left fun x _ => slabMeshFlux_scaled hs x
  · exact List.map_congr_left fun x _ => slabMeshField_scaled (hs l hl) x
  · exact slabMeshField_scaled (hs l hl) _
  · exact slabMeshField_scaled (hs l hl) _
  · dsimp only
    rw [slabMeshFlux_scaled hs, slabMeshFlux_scaled hs]
  · dsimp only
    rw [List.map_map]
    exact List.map_congr_left fun x _ => mul_zero _

/-- C129: for a slab on which no call fails, without uncollided treatment, `solve` returns.  What it
returns is the initial state, put unchanged onto the mesh of the final time and multiplied by the
product of the stability polynomials. -/
theorem c129_solve {P : Problem} (hr : SlabRuns P) (hN : 1 ≤ P.mesh.N) (hu : P.uncollided = false)
    (hT : 0 < P.mesh.tfinal)
    (he : ∀ i < P.mesh.N, (meshAt P P.mesh.tfinal).edges i < (meshAt P P.mesh.tfinal).edges (i + 1))
    (leg : ℕ → List ℝ) {τ : Tableau} {D : Interpolant} (hD : EndsRight τ D) {es : List Event}
    (hes : Arrives P es) {V : StateVec} (hV : StartsFrom P V) (estimate : Bool)
    (choose : Option (List ℝ)) :
    ∃ R, P.slabSolve leg τ D es estimate choose = some R ∧
      R.edges = (meshAt P P.mesh.tfinal).edges ∧
      R.xs = P.slabPoints leg choose (meshAt P P.mesh.tfinal).edges ∧
      SlabReported P (meshAt P P.mesh.tfinal).edges (totalGrowth τ es) V R := by
  obtain ⟨y0, hy1, -, -⟩ := startVector_of hV
  have hy2 := startVector_unique hy1 hV
  obtain ⟨m0, hm0⟩ := hr.mesh
  obtain ⟨m, hm⟩ := move_total hr.noHistory m0 P.mesh.tfinal
  have hmat : (meshAt P P.mesh.tfinal).edges = m.edges := by
    unfold meshAt
    rw [hm0, Option.bind_some, hm]
  rw [hmat] at he ⊢
  obtain ⟨unc, h1⟩ := slabSolve_total hr hT leg hD hes estimate choose hy1 (m := m)
    (by rw [hm0, Option.bind_some, hm])
  obtain ⟨R, h2, h3⟩ := slabReport_reported (leg := leg) (choose := choose) hr.slab hN hu he (unc := unc)
    (W := scaled (totalGrowth τ es) y0) (V := V) (g := totalGrowth τ es)
    fun l hl k hk i hi => by rw [scaled, hy2 l hl k hk i hi]
  exact ⟨R, h1.trans h2, h3⟩

/-- C129: the points reported are the requested ones. -/
theorem c129_requested_points {P : Problem} (hT : 0 < P.mesh.tfinal) {leg : ℕ → List ℝ} {τ : Tableau}
    {D : Interpolant} (hD : EndsRight τ D) {es : List Event} (hes : Arrives P es) {estimate : Bool}
    {xs : List ℝ} {R : Results} (h : P.slabSolve leg τ D es estimate (some xs) = some R) : R.xs = xs := by
  obtain ⟨y0, m0, ts, m, unc, -, -, -, h4⟩ := slabSolve_report hT hD hes h
  unfold slabReport at h4
  rw [Option.bind_eq_some_iff] at h4
  obtain ⟨u, -, h4⟩ := h4
  obtain ⟨out, -, rfl⟩ := Option.map_eq_some_iff.1 h4
  rfl

/-! ### C129: what makes no difference -/

theorem makeOutput_off {P : Problem} (hu : P.uncollided = false) (unc : List ℝ) (t : ℝ)
    (edges : ℕ → ℝ) (xs : List ℝ) (u : StateVec) :
    (P.makeOutput unc t edges xs u).map Prod.fst = open Classical in
      if (∀ ang < P.Nang, ∀ x ∈ xs, (P.psiAt edges u ang x).isSome) ∧
        ∀ ang < P.Nang, ∀ x ∈ [edges 0, edges P.mesh.N], (P.psiAt edges u ang x).isSome then
      some { phi := xs.map (P.sumAt edges u)
             psi := fun ang => xs.map fun x => (P.psiAt edges u ang x).getD 0
             exitDist := fun ang count => (P.psiAt edges u ang (exitPoint P.mesh.N edges count)).getD 0
             exitPhi := [edges 0, edges P.mesh.N].map (P.sumAt edges u) } else none := by
  unfold Problem.makeOutput
  simp only [Problem.addUncollided, hu, Bool.false_eq_true, if_false, Option.bind_some, Option.map_some]
  split_ifs <;> rfl

theorem slabReport_off {P Q : Problem} (hP : P.uncollided = false) (hQ : Q.uncollided = false)
    (hm : Q.mesh = P.mesh) (hM : Q.M = P.M) (hN : Q.Nang = P.Nang) (hw : Q.rawWs = P.rawWs)
    (leg : ℕ → List ℝ) (choose : Option (List ℝ)) (V : StateVec) (m : MeshState) (unc unc' : List ℝ) :
    slabReport Q leg choose V m unc' = slabReport P leg choose V m unc := by
  have hxs : Q.slabPoints leg choose m.edges = P.slabPoints leg choose m.edges := by
    unfold Problem.slabPoints
    rw [hm, hM]
  have key : ∀ u, (Q.makeOutput unc' Q.mesh.tfinal m.edges (Q.slabPoints leg choose m.edges) u).map Prod.fst =
      (P.makeOutput unc P.mesh.tfinal m.edges (P.slabPoints leg choose m.edges) u).map Prod.fst := by
    intro u
    have hpsi : Q.psiAt m.edges u = P.psiAt m.edges u := by
      funext a x
      unfold Problem.psiAt
      rw [hm, hM]
    have hsum : Q.sumAt m.edges u = P.sumAt m.edges u := by
      funext x
      unfold Problem.sumAt
      rw [hpsi, hN, hw]
    rw [makeOutput_off hQ, makeOutput_off hP, hxs, hN, hm, hpsi, hsum]
  have e : ∀ (X : Problem) (un : List ℝ), slabReport X leg choose V m un =
      (outputState true X.Nang X.mesh.N X.M (flatten3 X.Nang X.mesh.N (X.M + 1) V)).bind fun u =>
        ((X.makeOutput un X.mesh.tfinal m.edges (X.slabPoints leg choose m.edges) u).map Prod.fst).map
          fun out => { toOutput := out, xs := X.slabPoints leg choose m.edges, e := out.phi.map (· * 0),
                       solLast := u, edges := m.edges } := by
    intro X un
    unfold slabReport
    congr 1
    funext u
    rw [Option.map_map]
    rfl
  rw [e, e]
  simp only [key]
  simp only [hxs, hN, hm, hM]

/-- C129: two slab problems that differ in cross sections, their kind, boundary sources, tables or
rules for the uncollided solution give the same results, if the accepted steps are the same; also if
other steps were rejected or the wave speed is estimated. -/
theorem c129_physics_ignored {P Q : Problem} (hn : NoHistory P.mesh) (hT : 0 < P.mesh.tfinal)
    (hP : P.uncollided = false) (σT σS l : ℝ) (f : SigmaFunc) (Ms : ℕ) (bs bl br : Bool) (b : ℝ)
    (tables : SphereTables) (inv : (ℕ → ℕ → ℝ) → ℕ → ℕ → ℝ) (expi erf : ℝ → ℝ) (tq : List (ℝ × ℝ))
    (hQ : Q = { P with
      sigmaT := σT, sigmaS := σS, l := l, sigmaFunc := f, Msigma := Ms, boundarySource := bs,
      boundaryOnLeft := bl, boundaryOnRight := br, boundaryStrength := b, tables := tables, inv := inv,
      expi := expi, erf := erf, tQuad := tq })
    {leg : ℕ → List ℝ} {τ : Tableau} {D D' : Interpolant} (hD : EndsRight τ D) (hD' : EndsRight τ D')
    {es es' : List Event} (hes : Arrives P es) (hes' : acceptedSteps es = acceptedSteps es')
    {estimate estimate' : Bool} {choose : Option (List ℝ)} {R R' : Results}
    (h : P.slabSolve leg τ D es estimate choose = some R)
    (h' : Q.slabSolve leg τ D' es' estimate' choose = some R') : R = R' := by
  have hm : Q.mesh = P.mesh := by rw [hQ]
  have hs : Q.startVector = P.startVector := by rw [hQ]; rfl
  obtain ⟨y0, m0, ts, m, unc, h1, h2, h3, h4⟩ := slabSolve_report hT hD hes h
  obtain ⟨y0', m0', ts', m', unc', h1', h2', h3', h4'⟩ := slabSolve_report (P := Q) (by rwa [hm]) hD'
    (es := es') (by
      refine ⟨hes' ▸ hes.1, ?_⟩
      rw [hm, ← hes']
      exact hes.2) h'
  rw [hs, h1, Option.some_inj] at h1'
  rw [hm, h2, Option.some_inj] at h2'
  rw [c23_history_irrelevant_partial hn] at h3
  rw [hm, ← h2', c23_history_irrelevant_partial hn, h3, Option.some_inj] at h3'
  have e : totalGrowth τ es' = totalGrowth τ es := by
    unfold totalGrowth
    rw [hes']
  rw [← h1', ← h3', e, slabReport_off hP (by rw [hQ]; exact hP) hm (by rw [hQ]) (by rw [hQ])
    (by rw [hQ]) leg choose _ m unc unc', h4, Option.some_inj] at h4'
  exact h4'

/-! ### C129: sources -/

theorem slabMoment_zero (quad : List (ℝ × ℝ)) {f : ℝ → ℝ} (hf : ∀ x, f x = 0) (a b : ℝ) (j : ℕ) :
    slabMoment quad f a b j = 0 := by
  unfold slabMoment
  have : (quad.map fun q => q.2 * f (quadPoint a b q.1) * normPn j (quadPoint a b q.1) a b).sum = 0 := by
    refine List.sum_eq_zero fun y hy => ?_
    obtain ⟨q, -, rfl⟩ := List.mem_map.1 hy
    rw [hf]
    ring
  rw [this, mul_zero]

/-- The initial state of a problem without an initial pulse is zero. -/
theorem starts_zero {P : Problem} (hg : P.mesh.geometry = .slab) (hm : ∃ m0, meshInit P.mesh = some m0)
    (h0 : P.uncollided = true ∨ (P.mesh.st 0 ≠ 1 ∧ P.mesh.st 0 ≠ 2 ∧ P.mesh.st 0 ≠ 3 ∧
      P.mesh.st 1 ≠ 1 ∧ P.mesh.st 3 ≠ 1 ∧ P.mesh.st 4 ≠ 1)) :
    StartsFrom P fun _ _ _ => 0 := by
  obtain ⟨m0, hm0⟩ := hm
  intro l _ k _ j _
  unfold Problem.initial
  rw [hm0, Option.bind_some]
  set c := P.buildConfig m0.edges with hc
  have hgc : c.ic.geometry = .slab := hg
  have hobj : ∃ x0 x1, c.icObject = some { c.ic with x0 := x0, x1 := x1 } := by
    unfold BuildConfig.icObject
    rw [if_neg]
    · exact ⟨_, _, rfl⟩
    · rintro ⟨-, h2, h3, -⟩
      rcases h0 with h0 | h0
      · have : P.uncollided = false := h3
        rw [h0] at this
        cases this
      · exact h0.2.1 h2
  obtain ⟨x0, x1, hobj⟩ := hobj
  unfold BuildConfig.initial
  rw [hobj, Option.bind_some, hgc]
  dsimp only
  rw [Option.some_inj]
  refine slabMoment_zero _ (fun x => ?_) _ _ _
  have hst : ∀ i, ({ c.ic with x0 := x0, x1 := x1 } : ICConfig).st i = P.mesh.st i := fun i => rfl
  unfold icFunction
  simp only [hst]
  have e1 : ({ c.ic with x0 := x0, x1 := x1 } : ICConfig).geometry = .slab := hgc
  have e2 : ({ c.ic with x0 := x0, x1 := x1 } : ICConfig).uncollided = P.uncollided := rfl
  dsimp only at e1 e2 ⊢
  rw [e1]
  dsimp only
  rw [e2]
  rcases h0 with h0 | ⟨a, b, c, d, e, f⟩
  · simp [h0]
  · simp only [a, b, c, d, e, f, if_false, false_and, ite_self, Option.getD_some]

/-- C129: volume and boundary sources are not seen.  Without an initial pulse (square source, Gaussian
source, boundary source) `solve` returns zero everywhere, whatever the strength of the source. -/
theorem c129_sources_ignored {P : Problem} (hr : SlabRuns P) (hN : 1 ≤ P.mesh.N)
    (hu : P.uncollided = false) (hT : 0 < P.mesh.tfinal)
    (he : ∀ i < P.mesh.N, (meshAt P P.mesh.tfinal).edges i < (meshAt P P.mesh.tfinal).edges (i + 1))
    (hst : P.mesh.st 0 ≠ 1 ∧ P.mesh.st 0 ≠ 2 ∧ P.mesh.st 0 ≠ 3 ∧ P.mesh.st 1 ≠ 1 ∧ P.mesh.st 3 ≠ 1 ∧
      P.mesh.st 4 ≠ 1)
    (leg : ℕ → List ℝ) {τ : Tableau} {D : Interpolant} (hD : EndsRight τ D) {es : List Event}
    (hes : Arrives P es) (estimate : Bool) (choose : Option (List ℝ)) :
    ∃ R, P.slabSolve leg τ D es estimate choose = some R ∧ R.phi = R.xs.map (fun _ => 0) ∧
      (∀ l < P.Nang, R.psi l = R.xs.map fun _ => 0) ∧ R.exitPhi = [0, 0] ∧
      ∀ l < P.Nang, ∀ k < P.mesh.N, ∀ i ≤ P.M, R.solLast l k i = 0 := by
  obtain ⟨R, h1, h2, h3, h4⟩ := c129_solve hr hN hu hT he leg hD hes
    (starts_zero hr.slab hr.mesh (Or.inr hst)) estimate choose
  have hz : ∀ x, slabMeshField P.M P.mesh.N (meshAt P P.mesh.tfinal).edges (fun _ _ => 0) x = 0 := by
    intro x
    have := slabMeshField_scaled (M := P.M) (N := P.mesh.N) (edges := (meshAt P P.mesh.tfinal).edges)
      (U := fun _ _ => 0) (W := fun _ _ => 0) (g := 0) (by simp) x
    rw [this, zero_mul]
  have hz' : ∀ x, slabMeshFlux P.Nang P.rawWs P.M P.mesh.N (meshAt P P.mesh.tfinal).edges
      (fun _ _ _ => 0) x = 0 := by
    intro x
    unfold slabMeshFlux
    exact Finset.sum_eq_zero fun l _ => by rw [hz, mul_zero]
  refine ⟨R, h1, ?_, fun l hl => ?_, ?_, fun l hl k hk i hi => ?_⟩
  · rw [h4.phi]
    exact List.map_congr_left fun x _ => by rw [hz', mul_zero]
  · rw [h4.psi l hl]
    exact List.map_congr_left fun x _ => by rw [hz, mul_zero]
  · rw [h4.exitPhi, hz', hz', mul_zero]
  · rw [h4.coefficients l hl k hk i hi, mul_zero]

/-! ### C129: exponential growth -/

theorem stageFactors_stable (τ : Tableau) (z : ℝ) {i m : ℕ} (hm : m ≤ i) :
    ∀ j ≤ m, stageFactors τ z i j = stageFactors τ z m j := by
  induction i, hm using Nat.le_induction with
  | base => exact fun j _ => rfl
  | succ i hi ih =>
    intro j hj
    rw [stageFactors, Function.update_of_ne (by omega), ih j hj]

theorem stageFactors_zero (τ : Tableau) (z : ℝ) (i : ℕ) : stageFactors τ z i 0 = 1 := by
  rw [stageFactors_stable τ z (Nat.zero_le i) 0 le_rfl]
  rfl

theorem stageFactors_succ (τ : Tableau) (z : ℝ) {i j : ℕ} (hj : j + 1 ≤ i) :
    stageFactors τ z i (j + 1) =
      1 + z * ∑ m ∈ Finset.range (j + 1), τ.row (j + 1) m * stageFactors τ z i m := by
  rw [stageFactors_stable τ z hj (j + 1) le_rfl, stageFactors, Function.update_self]
  congr 2
  refine Finset.sum_congr rfl fun m hm => ?_
  rw [stageFactors_stable τ z (show j ≤ i by omega) m (by have := Finset.mem_range.1 hm; omega)]

theorem growth_rk23 (z : ℝ) : growth rk23 z = 1 + z + z ^ 2 / 2 + z ^ 3 / 6 := by
  have h0 := stageFactors_zero rk23 z 3
  have h1 := stageFactors_succ rk23 z (i := 3) (j := 0) (by norm_num)
  have h2 := stageFactors_succ rk23 z (i := 3) (j := 1) (by norm_num)
  unfold growth
  rw [show rk23.n = 3 from rfl]
  generalize stageFactors rk23 z 3 = f at *
  simp only [Finset.sum_range_succ, Finset.sum_range_zero, zero_add, Tableau.row, rk23, h0] at *
  norm_num at *
  rw [h1] at h2 ⊢
  rw [h2]
  ring

theorem growth_rk45 (z : ℝ) :
    growth rk45 z = 1 + z + z ^ 2 / 2 + z ^ 3 / 6 + z ^ 4 / 24 + z ^ 5 / 120 + z ^ 6 / 600 := by
  have h0 := stageFactors_zero rk45 z 6
  have h1 := stageFactors_succ rk45 z (i := 6) (j := 0) (by norm_num)
  have h2 := stageFactors_succ rk45 z (i := 6) (j := 1) (by norm_num)
  have h3 := stageFactors_succ rk45 z (i := 6) (j := 2) (by norm_num)
  have h4 := stageFactors_succ rk45 z (i := 6) (j := 3) (by norm_num)
  have h5 := stageFactors_succ rk45 z (i := 6) (j := 4) (by norm_num)
  unfold growth
  rw [show rk45.n = 6 from rfl]
  generalize stageFactors rk45 z 6 = f at *
  simp only [Finset.sum_range_succ, Finset.sum_range_zero, zero_add, Tableau.row, rk45, h0] at *
  norm_num at *
  rw [h1] at h2
  rw [h2] at h3
  rw [h1] at h3
  rw [h1, h2, h3] at h4
  rw [h1, h2, h3, h4] at h5
  rw [h2, h3, h4, h5]
  ring

theorem rk45_growth_bounds {z : ℝ} (h0 : 0 ≤ z) (h1 : z ≤ 1) :
    Real.exp z ≤ growth rk45 z ∧ growth rk45 z ≤ Real.exp z * Real.exp (z ^ 6 / 3600) := by
  have hu := Real.exp_bound' h0 h1 (n := 7) (by norm_num)
  have hl := Real.sum_le_exp_of_nonneg h0 7
  simp only [Finset.sum_range_succ, Finset.sum_range_zero, Nat.factorial] at hu hl
  norm_num at hu hl
  rw [growth_rk45]
  have h6 : z ^ 7 ≤ z ^ 6 := pow_le_pow_of_le_one h0 h1 (by norm_num)
  have h7 : 0 ≤ z ^ 6 := by positivity
  constructor
  · linarith
  · have e1 : 1 ≤ Real.exp z := Real.one_le_exp h0
    have e2 : z ^ 6 / 3600 + 1 ≤ Real.exp (z ^ 6 / 3600) := Real.add_one_le_exp _
    calc _ ≤ Real.exp z + z ^ 6 / 3600 := by linarith
      _ ≤ Real.exp z * (z ^ 6 / 3600 + 1) := by nlinarith
      _ ≤ _ := mul_le_mul_of_nonneg_left e2 (by positivity)

theorem rk23_growth_bounds {z : ℝ} (h0 : 0 ≤ z) (h1 : z ≤ 1) :
    1 ≤ growth rk23 z ∧ growth rk23 z ≤ Real.exp z ∧
      Real.exp z ≤ growth rk23 z * Real.exp (5 * z ^ 4 / 96) := by
  have hu := Real.exp_bound' h0 h1 (n := 4) (by norm_num)
  have hl := Real.sum_le_exp_of_nonneg h0 4
  simp only [Finset.sum_range_succ, Finset.sum_range_zero, Nat.factorial] at hu hl
  norm_num at hu hl
  have h7 : 0 ≤ z ^ 4 := by positivity
  have hg : 1 ≤ growth rk23 z := by
    rw [growth_rk23]
    have : 0 ≤ z ^ 2 := by positivity
    have : 0 ≤ z ^ 3 := by positivity
    linarith
  refine ⟨hg, ?_, ?_⟩
  · rw [growth_rk23]
    linarith
  · have e2 : 5 * z ^ 4 / 96 + 1 ≤ Real.exp (5 * z ^ 4 / 96) := Real.add_one_le_exp _
    calc _ ≤ growth rk23 z + 5 * z ^ 4 / 96 := by rw [growth_rk23]; linarith
      _ ≤ growth rk23 z * (5 * z ^ 4 / 96 + 1) := by nlinarith
      _ ≤ _ := mul_le_mul_of_nonneg_left e2 (by linarith)

theorem rk45_total {hs : List ℝ} {η : ℝ} (h1 : η ≤ 1) (h : ∀ z ∈ hs, 0 < z ∧ z ≤ η) :
    Real.exp hs.sum ≤ (hs.map (growth rk45)).prod ∧
      (hs.map (growth rk45)).prod ≤ Real.exp hs.sum * Real.exp (hs.sum * η ^ 5 / 3600) := by
  induction hs with
  | nil => simp
  | cons z hs ih =>
    obtain ⟨a, b⟩ := ih fun w hw => h w (List.mem_cons_of_mem _ hw)
    obtain ⟨hz, hz'⟩ := h z List.mem_cons_self
    obtain ⟨p, q⟩ := rk45_growth_bounds hz.le (hz'.trans h1)
    rw [List.map_cons, List.prod_cons, List.sum_cons, Real.exp_add]
    have hq : growth rk45 z ≤ Real.exp z * Real.exp (z * η ^ 5 / 3600) := by
      refine q.trans (mul_le_mul_of_nonneg_left (Real.exp_le_exp.2 ?_) (by positivity))
      have : z ^ 5 ≤ η ^ 5 := pow_le_pow_left₀ hz.le hz' 5
      nlinarith
    have hg : 0 ≤ growth rk45 z := (Real.exp_pos z).le.trans p
    refine ⟨mul_le_mul p a (by positivity) hg, ?_⟩
    calc _ ≤ (Real.exp z * Real.exp (z * η ^ 5 / 3600)) *
          (Real.exp hs.sum * Real.exp (hs.sum * η ^ 5 / 3600)) :=
        mul_le_mul hq b ((Real.exp_pos _).le.trans a) (by positivity)
      _ = _ := by
        rw [show (z + hs.sum) * η ^ 5 / 3600 = z * η ^ 5 / 3600 + hs.sum * η ^ 5 / 3600 by ring,
          Real.exp_add]
        ring

theorem rk23_total {hs : List ℝ} {η : ℝ} (h1 : η ≤ 1) (h : ∀ z ∈ hs, 0 < z ∧ z ≤ η) :
    1 ≤ (hs.map (growth rk23)).prod ∧ (hs.map (growth rk23)).prod ≤ Real.exp hs.sum ∧
      Real.exp hs.sum ≤ (hs.map (growth rk23)).prod * Real.exp (5 * hs.sum * η ^ 3 / 96) := by
  induction hs with
  | nil => simp
  | cons z hs ih =>
    obtain ⟨c, a, b⟩ := ih fun w hw => h w (List.mem_cons_of_mem _ hw)
    obtain ⟨hz, hz'⟩ := h z List.mem_cons_self
    obtain ⟨r, p, q⟩ := rk23_growth_bounds hz.le (hz'.trans h1)
    rw [List.map_cons, List.prod_cons, List.sum_cons, Real.exp_add]
    have hq : Real.exp z ≤ growth rk23 z * Real.exp (5 * z * η ^ 3 / 96) := by
      refine q.trans (mul_le_mul_of_nonneg_left (Real.exp_le_exp.2 ?_) (by linarith))
      have : z ^ 3 ≤ η ^ 3 := pow_le_pow_left₀ hz.le hz' 3
      nlinarith
    refine ⟨one_le_mul_of_one_le_of_one_le r c, mul_le_mul p a (by linarith) (by positivity), ?_⟩
    calc _ ≤ (growth rk23 z * Real.exp (5 * z * η ^ 3 / 96)) *
          ((hs.map (growth rk23)).prod * Real.exp (5 * hs.sum * η ^ 3 / 96)) :=
        mul_le_mul hq b (by positivity) (by positivity)
      _ = _ := by
        rw [show 5 * (z + hs.sum) * η ^ 3 / 96 = 5 * z * η ^ 3 / 96 + 5 * hs.sum * η ^ 3 / 96 by ring,
          Real.exp_add]
        ring
/-- C129: with `RK45` and steps of at most one, everything that `solve` reports for a slab is the
initial state times a number that is at least `e^T`, and for short steps close to it, whatever the
opacities and sources.  The equation of transport without sources has solutions that decay. -/
theorem c129_rk45_exponential {P : Problem} (hr : SlabRuns P) (hN : 1 ≤ P.mesh.N)
    (hu : P.uncollided = false) (hT : 0 < P.mesh.tfinal)
    (he : ∀ i < P.mesh.N, (meshAt P P.mesh.tfinal).edges i < (meshAt P P.mesh.tfinal).edges (i + 1))
    (leg : ℕ → List ℝ) {es : List Event} (hes : Arrives P es) {η : ℝ} (hη : η ≤ 1)
    (hshort : ∀ z ∈ acceptedSteps es, z ≤ η) {V : StateVec} (hV : StartsFrom P V) (estimate : Bool)
    (choose : Option (List ℝ)) :
    ∃ R g, P.slabSolve leg rk45 (rkInterpolant rk45 rk45Dense 4) es estimate choose = some R ∧
      SlabReported P (meshAt P P.mesh.tfinal).edges g V R ∧ Real.exp P.mesh.tfinal ≤ g ∧
      g ≤ Real.exp P.mesh.tfinal * Real.exp (P.mesh.tfinal * η ^ 5 / 3600) := by
  obtain ⟨R, h1, -, -, h2⟩ := c129_solve hr hN hu hT he leg rk45_endsRight hes hV estimate choose
  have h3 := rk45_total hη fun z hz => ⟨hes.1 z hz, hshort z hz⟩
  rw [hes.2] at h3
  exact ⟨R, _, h1, h2, h3.1, h3.2⟩

/-- C129: the same with `RK23`, which grows less than the exponential function, but at least by a
factor close to it. -/
theorem c129_rk23_exponential {P : Problem} (hr : SlabRuns P) (hN : 1 ≤ P.mesh.N)
    (hu : P.uncollided = false) (hT : 0 < P.mesh.tfinal)
    (he : ∀ i < P.mesh.N, (meshAt P P.mesh.tfinal).edges i < (meshAt P P.mesh.tfinal).edges (i + 1))
    (leg : ℕ → List ℝ) {es : List Event} (hes : Arrives P es) {η : ℝ} (hη : η ≤ 1)
    (hshort : ∀ z ∈ acceptedSteps es, z ≤ η) {V : StateVec} (hV : StartsFrom P V) (estimate : Bool)
    (choose : Option (List ℝ)) :
    ∃ R g, P.slabSolve leg rk23 (rkInterpolant rk23 rk23Dense 3) es estimate choose = some R ∧
      SlabReported P (meshAt P P.mesh.tfinal).edges g V R ∧ 1 ≤ g ∧ g ≤ Real.exp P.mesh.tfinal ∧
      Real.exp P.mesh.tfinal ≤ g * Real.exp (5 * P.mesh.tfinal * η ^ 3 / 96) := by
  obtain ⟨R, h1, -, -, h2⟩ := c129_solve hr hN hu hT he leg rk23_endsRight hes hV estimate choose
  have h3 := rk23_total hη fun z hz => ⟨hes.1 z hz, hshort z hz⟩
  rw [hes.2] at h3
  exact ⟨R, _, h1, h2, h3.1, h3.2.1, h3.2.2⟩

/-- C129: on a static mesh the number of particles in the slab, as reported, is multiplied by at least
`e^T`, also in a medium that only absorbs. -/
theorem c129_static_number {P : Problem} (hr : SlabRuns P) (hN : 1 ≤ P.mesh.N)
    (hu : P.uncollided = false) (hT : 0 < P.mesh.tfinal) (hm : P.mesh.moving = false) {m0 : MeshState}
    (hm0 : meshInit P.mesh = some m0) (he : ∀ i < P.mesh.N, m0.edges i < m0.edges (i + 1))
    (leg : ℕ → List ℝ) {es : List Event} (hes : Arrives P es)
    (hshort : ∀ z ∈ acceptedSteps es, z ≤ 1) {V : StateVec} (hV : StartsFrom P V)
    (hpos : 0 ≤ slabNumber P.Nang P.rawWs P.M P.mesh.N m0.edges V) (estimate : Bool)
    (choose : Option (List ℝ)) :
    ∃ R, P.slabSolve leg rk45 (rkInterpolant rk45 rk45Dense 4) es estimate choose = some R ∧
      R.edges = m0.edges ∧
      Real.exp P.mesh.tfinal * slabNumber P.Nang P.rawWs P.M P.mesh.N m0.edges V ≤
        slabNumber P.Nang P.rawWs P.M P.mesh.N R.edges R.solLast := by
  have hat : (meshAt P P.mesh.tfinal).edges = m0.edges := by
    have := (c22_static_mesh hm hm0).2 [P.mesh.tfinal]
    rw [meshRun] at this
    unfold meshAt
    rw [hm0, Option.bind_some]
    cases h : meshMove P.mesh m0 P.mesh.tfinal with
    | none =>
      rw [h] at this
      cases this
    | some m =>
      rw [h, Option.bind_some, meshRun, Option.some_inj] at this
      rw [this]
  obtain ⟨R, h1, h2, -, h3⟩ := c129_solve hr hN hu hT (by rw [hat]; exact he) leg rk45_endsRight hes hV
    estimate choose
  have h4 := rk45_total le_rfl fun z hz => ⟨hes.1 z hz, hshort z hz⟩
  rw [hes.2] at h4
  refine ⟨R, h1, h2.trans hat, ?_⟩
  rw [h2, hat, slabNumber_scaled h3.coefficients]
  exact mul_le_mul_of_nonneg_right h4.1 hpos

/-! ### C129: uncollided treatment -/

/-- The sources of which the slab knows the uncollided flux. -/
def SlabUncollided (P : Problem) : Prop :=
  P.mesh.st 0 = 1 ∨ P.mesh.st 1 = 1 ∨ P.mesh.st 2 = 1 ∨ P.mesh.st 3 = 1 ∨ P.mesh.st 5 = 1

/-- The uncollided flux of the problem at one point. -/
noncomputable def slabUncollidedAt (P : Problem) (t x : ℝ) : ℝ :=
  (uncollidedSolution P.uncollidedConfig [] [x] t).getD 0 0

theorem slabUncollided_map {P : Problem} (hg : P.mesh.geometry = .slab) (hu : P.uncollided = true)
    (hk : SlabUncollided P) (prev xs : List ℝ) (t : ℝ) :
    uncollidedSolution P.uncollidedConfig prev xs t = xs.map (slabUncollidedAt P t) := by
  have hu' : P.uncollidedConfig.uncollided = true := hu
  have hg' : P.uncollidedConfig.geometry = .slab := hg
  have hst : ∀ i, P.uncollidedConfig.st i = P.mesh.st i := fun _ => rfl
  unfold SlabUncollided at hk
  simp only [← hst] at hk
  unfold slabUncollidedAt uncollidedSolution
  rw [hu', hg']
  dsimp only
  rw [if_pos rfl]
  simp only [if_true]
  split_ifs <;> first | rfl | exact absurd hk (by tauto)

/-- C129: with the uncollided treatment `solve` fails for a slab unless one or two output points are
asked for. -/
theorem c129_uncollided_fails {P : Problem} (hg : P.mesh.geometry = .slab) (hu : P.uncollided = true)
    (hk : SlabUncollided P) (leg : ℕ → List ℝ) (τ : Tableau) (D : Interpolant) (es : List Event)
    (estimate : Bool) {choose : Option (List ℝ)}
    (hc : ∀ edges, (P.slabPoints leg choose edges).length ≠ 1 ∧
      (P.slabPoints leg choose edges).length ≠ 2) :
    P.slabSolve leg τ D es estimate choose = none := by
  unfold Problem.slabSolve
  simp only [Option.bind_eq_none_iff, Option.map_eq_none_iff]
  intro y0 _ o _ s _ c _ u _ m _
  unfold Problem.makeOutput
  dsimp only
  split_ifs
  · rw [Option.bind_eq_none_iff]
    intro p _
    rw [Option.map_eq_none_iff]
    unfold Problem.addUncollided
    rw [if_pos hu, Option.map_eq_none_iff, slabUncollided_map hg hu hk]
    exact addInPlace_none (by rw [List.length_map]; simpa using (hc m.edges).2)
      (by rw [List.length_map]; exact (hc m.edges).1)
  · rfl

/-- C129: with the uncollided treatment and one output point `solve` reports the uncollided flux
alone; the particles that have collided are missing, whatever the scattering. -/
theorem c129_uncollided_alone {P : Problem} (hr : SlabRuns P) (hN : 1 ≤ P.mesh.N)
    (hu : P.uncollided = true) (hk : SlabUncollided P) (hT : 0 < P.mesh.tfinal)
    (he : ∀ i < P.mesh.N, (meshAt P P.mesh.tfinal).edges i < (meshAt P P.mesh.tfinal).edges (i + 1))
    (leg : ℕ → List ℝ) {τ : Tableau} {D : Interpolant} (hD : EndsRight τ D) {es : List Event}
    (hes : Arrives P es) (estimate : Bool) (x : ℝ) :
    ∃ R, P.slabSolve leg τ D es estimate (some [x]) = some R ∧
      R.phi = [slabUncollidedAt P P.mesh.tfinal x] ∧
      R.exitPhi = [slabUncollidedAt P P.mesh.tfinal x, slabUncollidedAt P P.mesh.tfinal x] ∧
      (∀ l < P.Nang, R.psi l = [0]) ∧
      ∀ l < P.Nang, ∀ k < P.mesh.N, ∀ i ≤ P.M, R.solLast l k i = 0 := by
  have hz := starts_zero hr.slab hr.mesh (Or.inl hu)
  obtain ⟨y0, hy1, -, -⟩ := startVector_of hz
  have hy2 := startVector_unique hy1 hz
  obtain ⟨m0, hm0⟩ := hr.mesh
  obtain ⟨m, hm⟩ := move_total hr.noHistory m0 P.mesh.tfinal
  have hmat : (meshAt P P.mesh.tfinal).edges = m.edges := by
    unfold meshAt
    rw [hm0, Option.bind_some, hm]
  rw [hmat] at he
  obtain ⟨unc, h1⟩ := slabSolve_total hr hT leg hD hes estimate (some [x]) hy1
    (by rw [hm0, Option.bind_some, hm])
  obtain ⟨u, hu1, hv⟩ := (holds_flatten P (scaled (totalGrowth τ es) y0)).state
  have hs : ∀ l < P.Nang, ∀ k < P.mesh.N, ∀ i ≤ P.M, u l k i = 0 := fun l hl k hk i hi => by
    rw [hv l hl k hk i hi, scaled, hy2 l hl k hk i hi, mul_zero]
  have hp : ∀ l x, P.psiAt m.edges u l x = some (slabMeshField P.M P.mesh.N m.edges (u l) x) := by
    intro l x
    unfold Problem.psiAt
    rw [hr.slab]
    exact psiOut_slabMeshField hN he _ x
  have hf : ∀ l < P.Nang, ∀ x, slabMeshField P.M P.mesh.N m.edges (u l) x = 0 := by
    intro l hl x
    rw [slabMeshField_scaled (W := fun _ _ => 0) (g := 0)
      (fun k hk i hi => by rw [hs l hl k hk i hi, mul_zero]) x, zero_mul]
  have hsum : ∀ x, P.sumAt m.edges u x = 0 := by
    intro x
    unfold Problem.sumAt
    exact Finset.sum_eq_zero fun l hl => by
      rw [hp, Option.getD_some, hf l (Finset.mem_range.1 hl), zero_mul]
  rw [h1]
  unfold slabReport
  rw [hu1, Option.bind_some]
  unfold Problem.makeOutput Problem.addUncollided
  simp only [hp, hsum, Option.isSome_some, implies_true, and_self, if_true, Option.getD_some, hu,
    Problem.slabPoints, slabUncollided_map hr.slab hu hk, List.map_cons, List.map_nil, addInPlace,
    List.length_cons, List.length_nil, zero_add, List.zipWith_cons_cons, List.zipWith_nil_left,
    Option.map_some, Option.bind_some, Nat.reduceAdd, Nat.reduceEqDiff, if_false]
  exact ⟨_, rfl, rfl, rfl, fun l hl => by dsimp only; rw [hf l hl], hs⟩


/-! ### A square pulse -/

/-- The square pulse. -/
noncomputable def squarePulse (x0 strength : ℝ) (x : ℝ) : ℝ :=
  open Classical in if -x0 < x ∧ x ≤ x0 then strength / 2 else 0

theorem planeAndSquareIC_eq (c : ICConfig) (hx : 0 ≤ c.x0) (x : ℝ) :
    planeAndSquareIC c x = squarePulse c.x0 c.strength x := by
  unfold planeAndSquareIC squarePulse greater
  by_cases h1 : -c.x0 < x <;> by_cases h2 : c.x0 < x
  · rw [if_pos h1, if_pos h2, if_neg (fun h => absurd h.2 (not_le.2 h2))]
    ring
  · rw [if_pos h1, if_neg h2, if_pos ⟨h1, not_lt.1 h2⟩]
    ring
  · exact absurd (by linarith) h1
  · rw [if_neg h1, if_neg h2, if_neg (fun h => h1 h.1)]
    ring

/-- The initial state of a square pulse. -/
theorem starts_square {P : Problem} (hg : P.mesh.geometry = .slab) (hu : P.uncollided = false)
    (h0 : P.mesh.st 0 ≠ 1) (h0' : P.mesh.st 0 ≠ 2) (h1 : P.mesh.st 1 = 1) (hx : 0 ≤ P.mesh.x0)
    {m0 : MeshState} (hm0 : meshInit P.mesh = some m0) :
    StartsFrom P fun _ k i =>
      slabMoment P.quad (squarePulse P.mesh.x0 P.strength) (m0.edges k) (m0.edges (k + 1)) i := by
  intro l _ k _ j _
  unfold Problem.initial
  rw [hm0, Option.bind_some]
  set c := P.buildConfig m0.edges with hc
  have hgc : c.ic.geometry = .slab := hg
  have hadj : c.adjustedX0 = P.mesh.x0 := by
    unfold BuildConfig.adjustedX0
    rw [if_neg fun h => h0 h.2.1]
    rfl
  have hobj : ∃ x1, c.icObject = some { c.ic with x0 := P.mesh.x0, x1 := x1 } := by
    unfold BuildConfig.icObject
    rw [if_neg (fun h => h0' h.2.1), hadj]
    exact ⟨_, rfl⟩
  obtain ⟨x1, hobj⟩ := hobj
  unfold BuildConfig.initial
  rw [hobj, Option.bind_some, hgc]
  dsimp only
  rw [Option.some_inj]
  have hf : (fun x => (icFunction { c.ic with x0 := P.mesh.x0, x1 := x1 } x (c.cosines l)).getD 0) =
      squarePulse P.mesh.x0 P.strength := by
    funext x
    refine Eq.trans ?_ (planeAndSquareIC_eq { c.ic with x0 := P.mesh.x0, x1 := x1 } hx x)
    have hst : ∀ i, ({ c.ic with x0 := P.mesh.x0, x1 := x1 } : ICConfig).st i = P.mesh.st i := fun i => rfl
    unfold icFunction
    simp only [hst, h0, h1, if_false, if_true]
    have e1 : ({ c.ic with x0 := P.mesh.x0, x1 := x1 } : ICConfig).geometry = .slab := hgc
    have e2 : ({ c.ic with x0 := P.mesh.x0, x1 := x1 } : ICConfig).uncollided = P.uncollided := rfl
    dsimp only at e1 e2 ⊢
    rw [e1]
    dsimp only
    rw [e2, hu]
    simp
  rw [hf]
  rfl

theorem slabMoment_nonneg {quad : List (ℝ × ℝ)} (hq : ∀ q ∈ quad, 0 ≤ q.2) {f : ℝ → ℝ}
    (hf : ∀ x, 0 ≤ f x) {a b : ℝ} (hab : a < b) : 0 ≤ slabMoment quad f a b 0 := by
  unfold slabMoment
  refine mul_nonneg (by linarith) (List.sum_nonneg fun y hy => ?_)
  obtain ⟨q, hq', rfl⟩ := List.mem_map.1 hy
  refine mul_nonneg (mul_nonneg (hq q hq') (hf _)) ?_
  unfold normPn
  rw [legendre_zero]
  simp

/-- C129: a square pulse in a slab that absorbs and does not scatter, on a static mesh: `solve` reports
at least `e^T` times as many particles as there were. -/
theorem c129_square_number {P : Problem} (hr : SlabRuns P) (hN : 1 ≤ P.mesh.N)
    (hu : P.uncollided = false) (hT : 0 < P.mesh.tfinal) (hm : P.mesh.moving = false) {m0 : MeshState}
    (hm0 : meshInit P.mesh = some m0) (he : ∀ i < P.mesh.N, m0.edges i < m0.edges (i + 1))
    (h0 : P.mesh.st 0 ≠ 1) (h0' : P.mesh.st 0 ≠ 2) (h1 : P.mesh.st 1 = 1) (hx : 0 ≤ P.mesh.x0)
    (hs : 0 ≤ P.strength) (hq : ∀ q ∈ P.quad, 0 ≤ q.2) (hw : ∀ l < P.Nang, 0 ≤ P.rawWs l)
    (leg : ℕ → List ℝ) {es : List Event} (hes : Arrives P es)
    (hshort : ∀ z ∈ acceptedSteps es, z ≤ 1) (estimate : Bool) (choose : Option (List ℝ)) :
    ∃ R V, P.slabSolve leg rk45 (rkInterpolant rk45 rk45Dense 4) es estimate choose = some R ∧
      StartsFrom P V ∧ R.edges = m0.edges ∧
      0 ≤ slabNumber P.Nang P.rawWs P.M P.mesh.N m0.edges V ∧
      Real.exp P.mesh.tfinal * slabNumber P.Nang P.rawWs P.M P.mesh.N m0.edges V ≤
        slabNumber P.Nang P.rawWs P.M P.mesh.N R.edges R.solLast := by
  have hV := starts_square hr.slab hu h0 h0' h1 hx hm0
  have hpos : 0 ≤ slabNumber P.Nang P.rawWs P.M P.mesh.N m0.edges fun _ k i =>
      slabMoment P.quad (squarePulse P.mesh.x0 P.strength) (m0.edges k) (m0.edges (k + 1)) i := by
    unfold slabNumber
    refine Finset.sum_nonneg fun l hl => mul_nonneg (hw l (Finset.mem_range.1 hl))
      (Finset.sum_nonneg fun k hk => ?_)
    have hk' := he k (Finset.mem_range.1 hk)
    rw [slabContent_eq _ _ hk']
    refine mul_nonneg (Real.sqrt_nonneg _) (slabMoment_nonneg hq (fun x => ?_) hk')
    unfold squarePulse
    split_ifs
    · linarith
    · exact le_rfl
  obtain ⟨R, g1, g2, g3⟩ := c129_static_number hr hN hu hT hm hm0 he leg hes hshort hV hpos estimate
    choose
  exact ⟨R, _, g1, hV, g2, hpos, g3⟩

/-! ### Examples -/

/-- A square pulse of height one half in a slab that only absorbs, two directions, order one, on a
moving mesh of four cells until time two. -/
noncomputable def exampleAbsorber (inv : (ℕ → ℕ → ℝ) → ℕ → ℕ → ℝ) : Problem :=
  { exampleShell inv with mesh := exampleSquareMesh, uncollided := false, sigmaS := 0 }

theorem exampleAbsorber_runs (inv : (ℕ → ℕ → ℝ) → ℕ → ℕ → ℝ) : SlabRuns (exampleAbsorber inv) :=
  ⟨rfl, by simp [exampleAbsorber, exampleShell], exampleShell_checks, ⟨_, exampleSquare_init⟩, Or.inl rfl⟩

theorem exampleAbsorber_ordered (inv : (ℕ → ℕ → ℝ) → ℕ → ℕ → ℝ) : ∀ i < 4,
    (meshAt (exampleAbsorber inv) 2).edges i < (meshAt (exampleAbsorber inv) 2).edges (i + 1) := by
  have hn : NoHistory exampleSquareMesh := Or.inl rfl
  obtain ⟨s', hs'⟩ := move_total hn (legendreState exampleSquareMesh) 2
  have hr : meshRun exampleSquareMesh (legendreState exampleSquareMesh) [2] = some s' := by
    simp [meshRun, hs']
  have hx : exampleSquareMesh.x0 = 1 / 2 := rfl
  have ho := c24_square_ordered_partial exampleSquare_class rfl rfl exampleSquare_quads
      (by rw [hx]; norm_num) (by rw [exampleSquare_speed]; norm_num)
      (by norm_num [exampleSquareMesh]) exampleSquare_init
      (by
        intro t ht
        fin_cases ht
        norm_num) hr
  have hat : (meshAt (exampleAbsorber inv) 2).edges = s'.edges := by
    unfold meshAt
    rw [show (exampleAbsorber inv).mesh = exampleSquareMesh from rfl, exampleSquare_init,
      Option.bind_some, hs']
  rw [hat]
  exact fun i hi => ho i (i + 1) i.lt_succ_self hi

theorem exampleHalves_arrive {P : Problem} (hP : P.mesh.tfinal = 2) (extra : List Event)
    (he : acceptedSteps extra = []) : Arrives P (extra ++ List.replicate 4 (.step (1 / 2) true)) := by
  have e : acceptedSteps (extra ++ List.replicate 4 (.step (1 / 2) true)) = List.replicate 4 (1 / 2) := by
    induction extra with
    | nil => exact acceptedSteps_replicate _ _
    | cons a extra ih =>
      match a, he with
      | .step h true, he => simp [acceptedSteps] at he
      | .step h false, he => exact ih he
      | .probe t V, he => exact ih he
  constructor
  · intro s hs
    rw [e] at hs
    rw [(List.mem_replicate.1 hs).2]
    norm_num
  · rw [e, hP]
    norm_num

theorem exampleAbsorber_start (inv : (ℕ → ℕ → ℝ) → ℕ → ℕ → ℝ) :
    slabMoment (exampleAbsorber inv).quad (squarePulse (1 / 2) (exampleAbsorber inv).strength)
      ((legendreState exampleSquareMesh).edges 1) ((legendreState exampleSquareMesh).edges 2) 0 =
      Real.sqrt 2 / 4 := by
  have hk : ∀ k, (legendreState exampleSquareMesh).edges k = slabSquareAt exampleSquareMesh (1 / 100) k := by
    intro k
    have := legendreState_moved (Or.inl exampleSquare_class) rfl rfl exampleSquare_quads
      exampleSquare_init k 0
    rw [mul_zero, mul_zero, add_zero, add_zero] at this
    exact this
  have h1 : slabSquareAt exampleSquareMesh (1 / 100) 1 = -(1 / 2) := by
    norm_num [slabSquareAt, squareGrid, exampleSquareMesh]
  have h2 : slabSquareAt exampleSquareMesh (1 / 100) 2 = 0 := by
    norm_num [slabSquareAt, squareGrid, exampleSquareMesh]
  rw [hk, hk, h1, h2]
  norm_num [slabMoment, exampleAbsorber, exampleShell, squarePulse, quadPoint, normPn, legendre_zero]
  ring

/-- The pulse in the second cell has grown by `e²` at least, though the slab absorbs. -/
example (inv : (ℕ → ℕ → ℝ) → ℕ → ℕ → ℝ) (leg : ℕ → List ℝ) : ∃ R V,
    (exampleAbsorber inv).slabSolve leg rk45 (rkInterpolant rk45 rk45Dense 4)
      (List.replicate 4 (.step (1 / 2) true)) false none = some R ∧
    StartsFrom (exampleAbsorber inv) V ∧ V 0 1 0 = Real.sqrt 2 / 4 ∧
    Real.exp 2 * (Real.sqrt 2 / 4) ≤ R.solLast 0 1 0 ∧
    R.solLast 0 1 0 ≤ Real.exp 2 * Real.exp (1 / 57600) * (Real.sqrt 2 / 4) := by
  have hV := starts_square (P := exampleAbsorber inv) rfl rfl
    (show exampleSquareMesh.st 0 ≠ 1 by decide) (show exampleSquareMesh.st 0 ≠ 2 by decide) rfl
    (by norm_num [exampleAbsorber, exampleSquareMesh]) exampleSquare_init
  obtain ⟨R, g, h1, h2, h3, h4⟩ := c129_rk45_exponential (exampleAbsorber_runs inv)
    (Nat.le_of_ble_eq_true rfl) rfl zero_lt_two (exampleAbsorber_ordered inv) leg
    (exampleHalves_arrive rfl [] rfl) (η := 1 / 2) (by norm_num)
    (fun z hz => by
      rw [List.nil_append, acceptedSteps_replicate] at hz
      exact (List.mem_replicate.1 hz).2.le) hV false none
  have hV1 := exampleAbsorber_start inv
  have e : R.solLast 0 1 0 = g * (Real.sqrt 2 / 4) := by
    rw [h2.coefficients 0 zero_lt_two 1 (by decide : 1 < 4) 0 (Nat.zero_le _)]
    exact congrArg (g * ·) hV1
  have hp : 0 ≤ Real.sqrt 2 / 4 := by positivity
  refine ⟨R, _, h1, hV, hV1, ?_, ?_⟩
  · rw [e]
    exact mul_le_mul_of_nonneg_right h3 hp
  · rw [e]
    refine mul_le_mul_of_nonneg_right (h4.trans (le_of_eq ?_)) hp
    rw [show (exampleAbsorber inv).mesh.tfinal = 2 from rfl]
    norm_num

/-- Cross sections ten times as large, the other method of interpolation and a rejected step change
nothing. -/
example (inv : (ℕ → ℕ → ℝ) → ℕ → ℕ → ℝ) (leg : ℕ → List ℝ) : ∃ R,
    (exampleAbsorber inv).slabSolve leg rk45 (rkInterpolant rk45 rk45Dense 4)
      (List.replicate 4 (.step (1 / 2) true)) false none = some R ∧
    ({ exampleAbsorber inv with sigmaT := 10, sigmaS := 7, boundarySource := true } : Problem).slabSolve
      leg rk45 (rkInterpolant rk45 rk45Dense 4)
      ([.step 1 false] ++ List.replicate 4 (.step (1 / 2) true)) true none = some R := by
  have hV := starts_square (P := exampleAbsorber inv) rfl rfl
    (show exampleSquareMesh.st 0 ≠ 1 by decide) (show exampleSquareMesh.st 0 ≠ 2 by decide) rfl
    (by norm_num [exampleAbsorber, exampleSquareMesh]) exampleSquare_init
  obtain ⟨R, h1, -⟩ := c129_solve (exampleAbsorber_runs inv) (Nat.le_of_ble_eq_true rfl) rfl zero_lt_two
    (exampleAbsorber_ordered inv) leg rk45_endsRight (exampleHalves_arrive rfl [] rfl) hV false none
  obtain ⟨R', h2, -⟩ := c129_solve
    (P := { exampleAbsorber inv with sigmaT := 10, sigmaS := 7, boundarySource := true })
    ⟨rfl, (exampleAbsorber_runs inv).opacity, exampleShell_checks, ⟨_, exampleSquare_init⟩, Or.inl rfl⟩
    (Nat.le_of_ble_eq_true rfl) rfl zero_lt_two (exampleAbsorber_ordered inv) leg rk45_endsRight
    (exampleHalves_arrive rfl [.step 1 false] rfl) (V := fun _ k i => slabMoment
      (exampleAbsorber inv).quad (squarePulse (1 / 2) (exampleAbsorber inv).strength)
      ((legendreState exampleSquareMesh).edges k) ((legendreState exampleSquareMesh).edges (k + 1)) i)
    hV true none
  have := c129_physics_ignored (P := exampleAbsorber inv) (Or.inl rfl) zero_lt_two rfl 10 7 _ _ _ true
    _ _ _ _ _ _ _ _ rfl rk45_endsRight rk45_endsRight (exampleHalves_arrive rfl [] rfl)
    (by simp [acceptedSteps]) h1 h2
  exact ⟨R, h1, by rw [this]; exact h2⟩

/-- The same slab with a square source, on a mesh that does not move. -/
noncomputable def exampleSlabSource (inv : (ℕ → ℕ → ℝ) → ℕ → ℕ → ℝ) : Problem :=
  { exampleShell inv with mesh := exampleSourceMesh, uncollided := false, strength := 100 }

theorem exampleSlabSource_ordered (inv : (ℕ → ℕ → ℝ) → ℕ → ℕ → ℝ) : ∀ i < 4,
    (meshAt (exampleSlabSource inv) 2).edges i < (meshAt (exampleSlabSource inv) 2).edges (i + 1) := by
  have hmove : meshMove exampleSourceMesh (legendreState exampleSourceMesh) 2 =
      some (legendreState exampleSourceMesh) := by
    unfold meshMove
    rw [if_pos (show (legendreState exampleSourceMesh).moving = true from rfl), if_neg (by decide),
      if_neg (by decide), if_neg (fun h => absurd h.2 (by simp [exampleSourceMesh, exampleSquareMesh])),
      if_neg (not_allZero (i := 2) (by decide))]
  have hat : (meshAt (exampleSlabSource inv) 2).edges = (legendreState exampleSourceMesh).edges := by
    unfold meshAt
    rw [show (exampleSlabSource inv).mesh = exampleSourceMesh from rfl, exampleSource_init,
      Option.bind_some, hmove]
  obtain ⟨-, hN, e1, e2, q1, q2⟩ := square_constructed (Or.inr exampleSource_class) rfl rfl
    exampleSource_quads exampleSource_init
  have hk : ∀ k, (legendreState exampleSourceMesh).edges k = slabSquareAt exampleSourceMesh (1 / 100) k := by
    intro k
    have := legendreState_moved (Or.inr exampleSource_class) rfl rfl exampleSource_quads
      exampleSource_init k 0
    rw [mul_zero, mul_zero, add_zero, add_zero] at this
    exact this
  have ho := squareGrid_ordered q1 q2 (x0 := exampleSourceMesh.x0)
    (by norm_num [exampleSourceMesh, exampleSquareMesh]) (D := 1 / 100) (by norm_num)
  intro i hi
  rw [hat, hk, hk]
  exact ho i (i + 1) i.lt_succ_self hi

/-- A source of strength one hundred gives no particle. -/
example (inv : (ℕ → ℕ → ℝ) → ℕ → ℕ → ℝ) (leg : ℕ → List ℝ) : ∃ R,
    (exampleSlabSource inv).slabSolve leg rk23 (rkInterpolant rk23 rk23Dense 3)
      (List.replicate 4 (.step (1 / 2) true)) false (some [0, 1 / 4]) = some R ∧ R.phi = R.xs.map fun _ => 0 := by
  obtain ⟨R, h1, h2, -⟩ := c129_sources_ignored (P := exampleSlabSource inv)
    ⟨rfl, by simp [exampleSlabSource, exampleShell], exampleShell_checks, ⟨_, exampleSource_init⟩, Or.inl rfl⟩
    (Nat.le_of_ble_eq_true rfl) rfl zero_lt_two (exampleSlabSource_ordered inv)
    (show exampleSourceMesh.st 0 ≠ 1 ∧ exampleSourceMesh.st 0 ≠ 2 ∧ exampleSourceMesh.st 0 ≠ 3 ∧
      exampleSourceMesh.st 1 ≠ 1 ∧ exampleSourceMesh.st 3 ≠ 1 ∧ exampleSourceMesh.st 4 ≠ 1 by decide)
    leg rk23_endsRight (exampleHalves_arrive rfl [] rfl) false (some [0, 1 / 4])
  exact ⟨R, h1, h2⟩

/-- With `RK23` the pulse grows by nearly `e²`. -/
example (inv : (ℕ → ℕ → ℝ) → ℕ → ℕ → ℝ) (leg : ℕ → List ℝ) : ∃ R g V,
    (exampleAbsorber inv).slabSolve leg rk23 (rkInterpolant rk23 rk23Dense 3)
      (List.replicate 4 (.step (1 / 2) true)) false none = some R ∧
    SlabReported (exampleAbsorber inv) (meshAt (exampleAbsorber inv) 2).edges g V R ∧
    Real.exp 2 ≤ g * Real.exp (5 / 384) := by
  have hV := starts_square (P := exampleAbsorber inv) rfl rfl
    (show exampleSquareMesh.st 0 ≠ 1 by decide) (show exampleSquareMesh.st 0 ≠ 2 by decide) rfl
    (by norm_num [exampleAbsorber, exampleSquareMesh]) exampleSquare_init
  obtain ⟨R, g, h1, h2, -, -, h4⟩ := c129_rk23_exponential (exampleAbsorber_runs inv)
    (Nat.le_of_ble_eq_true rfl) rfl zero_lt_two (exampleAbsorber_ordered inv) leg
    (exampleHalves_arrive rfl [] rfl) (η := 1 / 2) (by norm_num)
    (fun z hz => by
      rw [List.nil_append, acceptedSteps_replicate] at hz
      exact (List.mem_replicate.1 hz).2.le) hV false none
  refine ⟨R, g, _, h1, h2, h4.trans (le_of_eq ?_)⟩
  rw [show (exampleAbsorber inv).mesh.tfinal = 2 from rfl]
  norm_num

/-- A static mesh. -/
example (inv : (ℕ → ℕ → ℝ) → ℕ → ℕ → ℝ) (leg : ℕ → List ℝ) : ∃ P : Problem, P.sigmaS = 0 ∧ P.sigmaT = 1 ∧
    ∃ R V, P.slabSolve leg rk45 (rkInterpolant rk45 rk45Dense 4)
      (List.replicate 4 (.step (1 / 2) true)) false none = some R ∧ StartsFrom P V ∧
    Real.exp 2 * slabNumber 2 P.rawWs 1 4 R.edges V ≤ slabNumber 2 P.rawWs 1 4 R.edges R.solLast := by
  obtain ⟨s, hs⟩ : ∃ s, meshInit { exampleSquareMesh with moving := false } = some s := by
    have h := chooseInit_moving (c := { exampleSquareMesh with moving := false }) rfl
      (not_allZero (i := 1) (by decide))
    have h1 := exampleSquare_init
    rw [init_moving rfl] at h1
    obtain ⟨s0, h2, -⟩ := Option.map_eq_some_iff.mp h1
    rw [show ({ ({ exampleSquareMesh with moving := false } : MeshConfig) with moving := true } :
      MeshConfig) = exampleSquareMesh from rfl, h2] at h
    obtain ⟨s1, h3, -⟩ := Option.map_eq_some_iff.mp h.symm
    obtain ⟨s2, h5⟩ := move_total (c := { exampleSquareMesh with moving := false }) (Or.inl rfl)
      { s1 with DedgesConst := s1.Dedges, moving := true } exampleSquareMesh.tfinal
    refine ⟨{ s2 with Dedges := fun k => s2.Dedges k * 0, moving := false }, ?_⟩
    rw [meshInit, h3, Option.bind_some, finishInit]
    simp only [if_true, h5, Option.map_some]
  obtain ⟨m, m', a1, a2, a3⟩ := c22_static_at_final (c := { exampleSquareMesh with moving := false }) rfl
    rfl (not_allZero (i := 1) (by decide)) hs
  have ho : Ordered 4 m'.edges := c24_square_ordered_partial exampleSquare_class rfl rfl
    exampleSquare_quads (by norm_num [exampleSquareMesh]) (by rw [exampleSquare_speed]; norm_num)
    (by norm_num [exampleSquareMesh]) a1 (ts := [2])
    (by
      intro t ht
      fin_cases ht
      norm_num)
    (by
      rw [meshRun]
      erw [a2]
      rfl)
  obtain ⟨R, V, h1, h2, h3, -, h5⟩ := c129_square_number
    (P := { exampleAbsorber inv with mesh := { exampleSquareMesh with moving := false } })
    ⟨rfl, (exampleAbsorber_runs inv).opacity, exampleShell_checks, ⟨_, hs⟩, Or.inl rfl⟩
    (Nat.le_of_ble_eq_true rfl) rfl zero_lt_two rfl hs
    (fun i hi => by rw [a3]; exact ho i (i + 1) i.lt_succ_self hi)
    (show exampleSquareMesh.st 0 ≠ 1 by decide) (show exampleSquareMesh.st 0 ≠ 2 by decide) rfl
    (by norm_num [exampleSquareMesh]) (by norm_num [exampleAbsorber, exampleShell])
    (by simp [exampleAbsorber, exampleShell]) (by norm_num [exampleAbsorber, exampleShell]) leg
    (exampleHalves_arrive rfl [] rfl)
    (fun z hz => by
      rw [List.nil_append, acceptedSteps_replicate] at hz
      rw [(List.mem_replicate.1 hz).2]
      norm_num) false none
  refine ⟨_, ?_, ?_, R, V, h1, h2, ?_⟩
  · rfl
  · rfl
  · rw [h3]
    rw [h3] at h5
    exact h5

/-- With the uncollided treatment: three points fail, one point has the uncollided flux alone. -/
example (inv : (ℕ → ℕ → ℝ) → ℕ → ℕ → ℝ) (leg : ℕ → List ℝ) :
    let P : Problem := { exampleAbsorber inv with uncollided := true, sigmaS := 1 }
    P.slabSolve leg rk45 (rkInterpolant rk45 rk45Dense 4)
      (List.replicate 4 (.step (1 / 2) true)) false (some [0, 1, 2]) = none ∧
    ∃ R, P.slabSolve leg rk45 (rkInterpolant rk45 rk45Dense 4)
      (List.replicate 4 (.step (1 / 2) true)) false (some [1]) = some R ∧
      R.phi = [slabUncollidedAt P 2 1] ∧ R.psi 0 = [0] := by
  intro P
  refine ⟨c129_uncollided_fails rfl rfl (Or.inr (Or.inl rfl)) leg _ _ _ _ (fun _ => by
    simp [Problem.slabPoints]), ?_⟩
  obtain ⟨R, h1, h2, -, h3, -⟩ := c129_uncollided_alone (P := P)
    ⟨rfl, (exampleAbsorber_runs inv).opacity, exampleShell_checks, ⟨_, exampleSquare_init⟩, Or.inl rfl⟩
    (Nat.le_of_ble_eq_true rfl) rfl (Or.inr (Or.inl rfl)) zero_lt_two (exampleAbsorber_ordered inv) leg
    rk45_endsRight (exampleHalves_arrive rfl [] rfl) false 1
  exact ⟨R, h1, h2, h3 0 zero_lt_two⟩

end Verif.Props
