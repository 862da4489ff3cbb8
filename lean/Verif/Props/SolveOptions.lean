import Verif.Model.SolveOptions
import Verif.Props.SlabSolve
import Verif.Props.Dop853

/-!
Property C136: which options of `solve` return, and what a slab reports for each of several times.
-/

namespace Verif.Props

open Set Verif.Spec Verif.Model Verif.Lemmas

/-! ### C136: the options -/

/-- C136: `find_wave_loc` makes `solve` fail, for both geometries and whatever the search would do: the
problem wants `sigma_t` as a float and the search takes its first entry. -/
theorem c136_find_wave_fails (P : Problem) (leg : ℕ → List ℝ) (τ : Tableau) (D : Interpolant)
    (es : List Event) (sigmaT : PyNumber) (search : ℝ → Option (List ℝ × List ℝ × List ℝ))
    {o : SolveOptions} (h : o.findWave = true) : P.solveCall leg τ D es sigmaT search o = none := by
  unfold Problem.solveCall Problem.waveEdges
  rw [h]
  cases sigmaT with
  | array xs => rfl
  | float x =>
    simp only [PyNumber.toFloat, PyNumber.entry0, Option.bind_some, Option.bind_none, if_true,
      Option.map_none]
    cases Problem.report _ leg τ D es o <;> rfl

/-- C136: all wave data that `solve` returns are a single zero, also with `save_wave_loc`. -/
theorem c136_wave_data {P : Problem} {leg : ℕ → List ℝ} {τ : Tableau} {D : Interpolant}
    {es : List Event} {sigmaT : PyNumber} {search : ℝ → Option (List ℝ × List ℝ × List ℝ)}
    {o : SolveOptions} {r : Returned} (h : P.solveCall leg τ D es sigmaT search o = some r) :
    o.findWave = false ∧ r.wavespeed = [0] ∧ r.leftEdges = [0] ∧ r.rightEdges = [0] ∧ r.tFront = [0] ∧
      r.waveTpnts = [0] ∧ r.waveXpnts = [0] := by
  have hf : o.findWave = false := by
    by_contra hc
    rw [c136_find_wave_fails P leg τ D es sigmaT search (by simpa using hc)] at h
    cases h
  refine ⟨hf, ?_⟩
  unfold Problem.solveCall Problem.waveEdges at h
  rw [hf] at h
  simp only [Bool.false_eq_true, if_false, Option.map_some] at h
  obtain ⟨σ, -, h⟩ := Option.bind_eq_some_iff.1 h
  obtain ⟨R, -, h⟩ := Option.bind_eq_some_iff.1 h
  rw [Option.some_inj] at h
  subst h
  refine ⟨rfl, rfl, rfl, rfl, ?_, ?_⟩ <;> dsimp only <;> split_ifs <;> rfl

theorem solveCall_report {P : Problem} {leg : ℕ → List ℝ} {τ : Tableau} {D : Interpolant}
    {es : List Event} {σ : ℝ} {search : ℝ → Option (List ℝ × List ℝ × List ℝ)}
    {o : SolveOptions} (h : o.findWave = false) :
    (P.solveCall leg τ D es (.float σ) search o).map Returned.report =
      ({ P with sigmaT := σ } : Problem).report leg τ D es o := by
  unfold Problem.solveCall Problem.waveEdges
  rw [h]
  simp only [PyNumber.toFloat, Option.bind_some, Bool.false_eq_true, if_false, Option.map_some]
  cases Problem.report _ leg τ D es o <;> rfl

/-- C136: without `find_wave_loc` and with a number as cross section `solve` reports what the integration with
this cross section gives, at the final time or at the times asked for, whatever `save_wave_loc` is. -/
theorem c136_report {P : Problem} (σ : ℝ) (hσ : P.sigmaT = σ) (leg : ℕ → List ℝ) (τ : Tableau)
    (D : Interpolant) (es : List Event) (search : ℝ → Option (List ℝ × List ℝ × List ℝ))
    (estimate save : Bool) (choose : Option (List ℝ)) :
    (P.mesh.geometry = .sphere →
      (P.solveCall leg τ D es (.float σ) search ⟨estimate, false, save, none, choose⟩).map Returned.report =
        (P.solve τ D es estimate choose).map .final ∧
      ∀ ts, (P.solveCall leg τ D es (.float σ) search ⟨estimate, false, save, some ts, choose⟩).map
        Returned.report = (P.solveTimes τ D es choose ts).map .times) ∧
    (P.mesh.geometry = .slab →
      (P.solveCall leg τ D es (.float σ) search ⟨estimate, false, save, none, choose⟩).map Returned.report =
        (P.slabSolve leg τ D es estimate choose).map .final ∧
      ∀ ts, (P.solveCall leg τ D es (.float σ) search ⟨estimate, false, save, some ts, choose⟩).map
        Returned.report = (P.slabSolveTimes τ D es choose ts).map .times) := by
  have e : ({ P with sigmaT := σ } : Problem) = P := by rw [← hσ]
  simp only [solveCall_report, e, Problem.report]
  refine ⟨fun h => ?_, fun h => ?_⟩ <;> simp [h]

/-- C136: the times returned are the ones asked for; without `eval_times` the final time comes last. -/
theorem c136_time_points {P : Problem} {leg : ℕ → List ℝ} {τ : Tableau} {D : Interpolant}
    {es : List Event} {sigmaT : PyNumber} {search : ℝ → Option (List ℝ × List ℝ × List ℝ)}
    {o : SolveOptions} {r : Returned} (h : P.solveCall leg τ D es sigmaT search o = some r) :
    (∀ ts, o.times = some ts → r.tpnts = ts) ∧
      (o.times = none → r.tpnts.getLast? = some P.mesh.tfinal ∧
        r.tpnts.length = if o.estimate then 10000 else 1) := by
  unfold Problem.solveCall at h
  obtain ⟨σ, -, h⟩ := Option.bind_eq_some_iff.1 h
  obtain ⟨R, -, h⟩ := Option.bind_eq_some_iff.1 h
  obtain ⟨w, -, h⟩ := Option.map_eq_some_iff.1 h
  subst h
  refine ⟨fun ts ht => ?_, fun ht => ?_⟩
  · dsimp only
    rw [ht, Option.getD_some]
  · dsimp only
    rw [ht, Option.getD_none]
    refine ⟨outputTimes_last _ _, ?_⟩
    unfold Problem.outputTimes
    split_ifs <;> simp

theorem finishEval_needs_points (P : Problem) (o : Objects) (cols : List (ℝ × FlatArr)) :
    P.finishEval o none cols = none := by
  unfold Problem.finishEval
  cases cols with
  | nil => rfl
  | cons c cols =>
    rw [if_neg (List.cons_ne_nil _ _)]
    cases meshMove P.mesh o.mesh P.mesh.tfinal with
    | none => rfl
    | some m =>
      rw [Option.bind_some]
      unfold Problem.evalLoop
      cases meshMove P.mesh m c.1 <;> rfl

/-- C136: `eval_times` makes `solve` fail unless the output points are chosen. -/
theorem c136_times_need_points (P : Problem) (leg : ℕ → List ℝ) (τ : Tableau) (D : Interpolant)
    (es : List Event) (sigmaT : PyNumber) (search : ℝ → Option (List ℝ × List ℝ × List ℝ))
    {o : SolveOptions} {ts : List ℝ} (ht : o.times = some ts) (hc : o.choose = none) :
    P.solveCall leg τ D es sigmaT search o = none := by
  have key : ∀ Q : Problem, Q.report leg τ D es o = none := by
    intro Q
    unfold Problem.report
    rw [ht, hc]
    cases Q.mesh.geometry with
    | sphere =>
      dsimp only
      unfold Problem.solveTimes
      cases Q.solveIvp τ D es ts with
      | none => rfl
      | some s =>
        rw [Option.bind_some]
        split_ifs
        · rw [finishEval_needs_points, Option.map_none]
        · rfl
    | slab =>
      dsimp only
      unfold Problem.slabSolveTimes
      cases Q.startVector with
      | none => rfl
      | some y0 =>
        rw [Option.bind_some]
        cases Q.slabObjects with
        | none => rfl
        | some ob =>
          rw [Option.bind_some]
          cases Q.slabCall.solveIvp τ D es Q.mesh.tfinal ob y0 ts with
          | none => rfl
          | some s =>
            rw [Option.bind_some]
            split_ifs
            · rw [finishEval_needs_points, Option.map_none]
            · rfl
  unfold Problem.solveCall
  cases sigmaT.toFloat with
  | none => rfl
  | some σ =>
    rw [Option.bind_some]
    dsimp only
    rw [key, Option.bind_none]

/-! ### What is answered between the ends of steps -/

/-- The dense output of `D` multiplies a state that is its own derivative by `φ`. -/
def Proportional (τ : Tableau) (D : Interpolant) (φ : ℝ → ℝ → ℝ) : Prop :=
  ∀ t y h θ, D t y h (fun j => scaled (stageFactors τ h τ.n j) y) θ = scaled (φ h θ) y

/-- The factor at the time `s`, for steps `hs` from the time `t`. -/
noncomputable def factorAt (τ : Tableau) (φ : ℝ → ℝ → ℝ) : List ℝ → ℝ → ℝ → ℝ
  | [], _, _ => 1
  | h :: hs, t, s => open Classical in
    if s ≤ t + h then φ h ((s - t) / h) else growth τ h * factorAt τ φ hs (t + h) s

theorem inputOutput_factor {τ : Tableau} {D : Interpolant} {φ : ℝ → ℝ → ℝ} (hD : Proportional τ D φ)
    (hs : List ℝ) (t s : ℝ) (y : StateVec) :
    inputOutput τ D hs t y s = scaled (factorAt τ φ hs t s) y := by
  induction hs generalizing t y with
  | nil =>
    funext l k m
    simp [inputOutput, factorAt, scaled]
  | cons h hs ih =>
    rw [inputOutput, factorAt]
    split_ifs
    · exact hD _ _ _ _
    · rw [ih, scaled_scaled]

/-- The factor of `RkDenseOutput`. -/
noncomputable def denseFactor (τ : Tableau) (Pm : ℕ → ℕ → ℝ) (m : ℕ) (h θ : ℝ) : ℝ :=
  1 + h * ∑ i ∈ Finset.range (τ.n + 1), (∑ p ∈ Finset.range m, Pm i p * θ ^ (p + 1)) *
    stageFactors τ h τ.n i

theorem rk_proportional (τ : Tableau) (Pm : ℕ → ℕ → ℝ) (m : ℕ) :
    Proportional τ (rkInterpolant τ Pm m) (denseFactor τ Pm m) := fun _ y h _ =>
  combine_scaled y h _ _ _

/-! ### C136: what is reported for each time -/

/-- What a state `V` times `g` on a mesh is reported as at the points `xs`. -/
structure SlabOutput (P : Problem) (edges : ℕ → ℝ) (g : ℝ) (V : StateVec) (xs : List ℝ) (o : Output) :
    Prop where
  phi : o.phi = xs.map fun x => g * slabMeshFlux P.Nang P.rawWs P.M P.mesh.N edges V x
  psi : ∀ l < P.Nang, o.psi l = xs.map fun x => g * slabMeshField P.M P.mesh.N edges (V l) x
  left : ∀ l < P.Nang, o.exitDist l 0 = g * slabMeshField P.M P.mesh.N edges (V l) (edges 0)
  right : ∀ l < P.Nang, o.exitDist l 1 = g * slabMeshField P.M P.mesh.N edges (V l) (edges P.mesh.N)
  exitPhi : o.exitPhi = [g * slabMeshFlux P.Nang P.rawWs P.M P.mesh.N edges V (edges 0),
    g * slabMeshFlux P.Nang P.rawWs P.M P.mesh.N edges V (edges P.mesh.N)]

theorem evalLoop_slab {P : Problem} (hg : P.mesh.geometry = .slab) (hN : 1 ≤ P.mesh.N)
    (hu : P.uncollided = false) (hn : NoHistory P.mesh) {m0 : MeshState} (hm0 : meshInit P.mesh = some m0)
    {V y : StateVec} (hy : ∀ l < P.Nang, ∀ k < P.mesh.N, ∀ i ≤ P.M, y l k i = V l k i) (g : ℝ → ℝ)
    (xs : List ℝ) (ts : List ℝ)
    (he : ∀ t ∈ ts, ∀ i < P.mesh.N, (meshAt P t).edges i < (meshAt P t).edges (i + 1))
    (us : List ℝ) {s : MeshState} (hs : meshRun P.mesh m0 us = some s) (unc : List ℝ) :
    ∃ out, P.evalLoop (some xs) s unc
        (ts.map fun t => (t, flatten3 P.Nang P.mesh.N (P.M + 1) (scaled (g t) y))) = some out ∧
      List.Forall₂ (fun o t => SlabOutput P (meshAt P t).edges (g t) V xs o) out ts := by
  induction ts generalizing us s unc with
  | nil => exact ⟨[], rfl, .nil⟩
  | cons t ts ih =>
    obtain ⟨m, hm⟩ := move_total hn s t
    have hrun : meshRun P.mesh m0 (us ++ [t]) = some m := by
      rw [meshRun_snoc, hs, Option.bind_some, hm]
    have hat : (meshAt P t).edges = m.edges := by
      have h1 := hrun
      rw [c23_history_irrelevant_partial hn, meshRun] at h1
      obtain ⟨m', h2, h3⟩ := Option.bind_eq_some_iff.1 h1
      rw [meshRun, Option.some_inj] at h3
      unfold meshAt
      rw [hm0, Option.bind_some, h2, h3]
    have he' := he t List.mem_cons_self
    rw [hat] at he'
    obtain ⟨u, hu1, hv⟩ := (holds_flatten P (scaled (g t) y)).state
    have hsu : ∀ l < P.Nang, ∀ k < P.mesh.N, ∀ i ≤ P.M, u l k i = g t * V l k i := fun l hl k hk i hi => by
      rw [hv l hl k hk i hi, scaled, hy l hl k hk i hi]
    obtain ⟨out, h1, h2⟩ := ih (fun t' ht' => he t' (List.mem_cons_of_mem _ ht')) (us ++ [t]) hrun unc
    rw [List.map_cons, Problem.evalLoop, hm, Option.bind_some]
    dsimp only
    rw [hu1, Option.bind_some, makeOutput_slab hg hN hu he', Option.bind_some]
    dsimp only
    rw [h1, Option.map_some]
    refine ⟨_, rfl, .cons ?_ h2⟩
    rw [hat]
    refine ⟨?_, fun l hl => ?_, fun l hl => ?_, fun l hl => ?_, ?_⟩
    · exact List.map_congr_left fun x _ => slabMeshFlux_scaled hsu x
    · exact List.map_congr_left fun x _ => slabMeshField_scaled (hsu l hl) x
    · exact slabMeshField_scaled (hsu l hl) _
    · exact slabMeshField_scaled (hsu l hl) _
    · dsimp only
      rw [slabMeshFlux_scaled hsu, slabMeshFlux_scaled hsu]

/-- C136: for a slab on which no call fails, without uncollided treatment, `solve` with `eval_times` reports
for every time the initial state, put unchanged onto the mesh of that time and multiplied by a number: the
product of the stability polynomials of the steps before and of the factor of the dense output in the step
that contains the time. -/
theorem c136_times {P : Problem} (hr : SlabRuns P) (hN : 1 ≤ P.mesh.N) (hu : P.uncollided = false)
    (hT : 0 < P.mesh.tfinal) {τ : Tableau} {D : Interpolant} {φ : ℝ → ℝ → ℝ} (hD : Proportional τ D φ)
    {es : List Event} (hes : Arrives P es) {V : StateVec} (hV : StartsFrom P V) {ts : List ℝ}
    (hne : ts ≠ []) (hin : ∀ t ∈ ts, 0 ≤ t ∧ t ≤ P.mesh.tfinal) (hinc : ts.Pairwise (· < ·))
    (he : ∀ t ∈ ts, ∀ i < P.mesh.N, (meshAt P t).edges i < (meshAt P t).edges (i + 1)) (xs : List ℝ) :
    ∃ out, P.slabSolveTimes τ D es (some xs) ts = some out ∧
      List.Forall₂ (fun o t => SlabOutput P (meshAt P t).edges
        (factorAt τ φ (acceptedSteps es) 0 t) V xs o) out ts := by
  obtain ⟨y0, hy1, -, -⟩ := startVector_of hV
  have hy2 := startVector_unique hy1 hV
  obtain ⟨m0, hm0⟩ := hr.mesh
  have hcall := slabCall_total hr
  have hex : ∃ o, P.slabObjects = some o ∧ MeshReached P m0 o := by
    unfold Problem.slabObjects Problem.objects
    rw [hm0]
    exact ⟨_, rfl, [], rfl⟩
  obtain ⟨o, ho, hI0⟩ := hex
  obtain ⟨r, h1⟩ := hcall o 0 y0
  obtain ⟨p, h3⟩ := solveEvents_total hcall τ D es ⟨r.1, 0, y0, r.2⟩ ts
  have hI1 := slabCall_meshReached P m0 _ _ _ _ hI0 h1
  obtain ⟨us, hus⟩ := solveEvents_keeps (slabCall_meshReached P m0) τ D es (x := ⟨r.1, 0, y0, r.2⟩) hI1 h3
  have hp := solveEvents_input (slabCall_input P) τ D es _ (slabCall_input P _ _ _ _ h1) hinc
    (fun s' hs' => (hes.1 s' hs').le) h3
  rw [answered_all (hes.ne hT) fun t ht => by rw [zero_add, hes.2]; exact (hin t ht).2] at hp
  dsimp only at hp
  simp only [inputOutput_factor hD] at hp
  obtain ⟨m, hm⟩ := move_total hr.noHistory p.1.objects.shared.mesh P.mesh.tfinal
  have hrun : meshRun P.mesh m0 (us ++ [P.mesh.tfinal]) = some m := by
    rw [meshRun_snoc, hus, Option.bind_some, hm]
  obtain ⟨out, h4, h5⟩ := evalLoop_slab hr.slab hN hu hr.noHistory hm0 hy2
    (fun t => factorAt τ φ (acceptedSteps es) 0 t) xs ts he _ hrun p.1.objects.shared.unc
  refine ⟨out, ?_, h5⟩
  unfold Problem.slabSolveTimes SharedRhs.solveIvp
  rw [hy1, Option.bind_some, ho, Option.bind_some, if_pos ⟨hin, hinc⟩, h1, Option.bind_some, h3,
    Option.map_some, Option.bind_some]
  dsimp only
  rw [hp, List.length_map, if_pos rfl]
  unfold Problem.finishEval
  rw [if_neg (by simp [hne]), hm, Option.bind_some, List.map_map]
  exact h4

/-! ### C136: exponential growth at all times -/

/-- Factors close to the exponential function. -/
structure CloseFactors (τ : Tableau) (φ : ℝ → ℝ → ℝ) (η κ κ' : ℝ) : Prop where
  step : ∀ h, 0 < h → h ≤ η → |growth τ h - Real.exp h| ≤ κ * h
  dense : ∀ h, 0 < h → h ≤ η → ∀ θ ∈ Icc (0 : ℝ) 1, |φ h θ - Real.exp (θ * h)| ≤ κ'
  pos : 0 ≤ κ

theorem factorAt_close {τ : Tableau} {φ : ℝ → ℝ → ℝ} {η κ κ' : ℝ} (hc : CloseFactors τ φ η κ κ')
    (hs : List ℝ) (hne : hs ≠ []) (hpos : ∀ h ∈ hs, 0 < h ∧ h ≤ η) (t s : ℝ) (h0 : t ≤ s)
    (h1 : s ≤ t + hs.sum) :
    |factorAt τ φ hs t s - Real.exp (s - t)| ≤ Real.exp ((1 + κ) * (s - t)) * (κ * (s - t) + κ') := by
  have hκ := hc.pos
  induction hs generalizing t with
  | nil => exact absurd rfl hne
  | cons h hs ih =>
    obtain ⟨ha, hb⟩ := hpos h List.mem_cons_self
    have hk' : 0 ≤ κ' := (abs_nonneg _).trans (hc.dense h ha hb 0 ⟨le_rfl, zero_le_one⟩)
    rw [factorAt]
    split_ifs with hle
    · have h2 := hc.dense h ha hb ((s - t) / h) ⟨by
        have : 0 ≤ s - t := by linarith
        positivity, by rw [div_le_one ha]; linarith⟩
      rw [div_mul_cancel₀ _ ha.ne'] at h2
      have h3 : 1 ≤ Real.exp ((1 + κ) * (s - t)) := by
        exact Real.one_le_exp (mul_nonneg (by linarith) (by linarith))
      have h4 : 0 ≤ κ * (s - t) := mul_nonneg hκ (by linarith)
      nlinarith
    · push Not at hle
      rw [List.sum_cons] at h1
      have hemp : hs ≠ [] := by
        rintro rfl
        rw [List.sum_nil] at h1
        linarith
      have h2 := ih hemp (fun h' hh' => hpos h' (List.mem_cons_of_mem _ hh')) (t + h) hle.le (by linarith)
      set u := s - (t + h) with hu
      have hst : s - t = h + u := by rw [hu]; ring
      have hu0 : 0 < u := by rw [hu]; linarith
      have h3 := hc.step h ha hb
      set F := factorAt τ φ hs (t + h) s
      have e : growth τ h * F - Real.exp (s - t) =
          growth τ h * (F - Real.exp u) + (growth τ h - Real.exp h) * Real.exp u := by
        rw [hst, Real.exp_add]
        ring
      have hg : |growth τ h| ≤ Real.exp ((1 + κ) * h) := by
        have a1 : |growth τ h| ≤ Real.exp h + κ * h := by
          have := abs_add_le (growth τ h - Real.exp h) (Real.exp h)
          rw [sub_add_cancel, abs_of_pos (Real.exp_pos h)] at this
          linarith
        have a2 : κ * h + 1 ≤ Real.exp (κ * h) := Real.add_one_le_exp _
        have a3 : 1 ≤ Real.exp h := Real.one_le_exp ha.le
        rw [add_mul, one_mul, Real.exp_add]
        have a4 : 0 ≤ κ * h := mul_nonneg hκ ha.le
        nlinarith
      have hE : Real.exp ((1 + κ) * (s - t)) = Real.exp ((1 + κ) * h) * Real.exp ((1 + κ) * u) := by
        rw [hst, mul_add, Real.exp_add]
      have hu1 : Real.exp u ≤ Real.exp ((1 + κ) * u) := Real.exp_le_exp.2 (by nlinarith)
      have hh1 : 1 ≤ Real.exp ((1 + κ) * h) := by
        exact Real.one_le_exp (mul_nonneg (by linarith) ha.le)
      rw [e]
      refine (abs_add_le _ _).trans ?_
      rw [abs_mul, abs_mul, abs_of_pos (Real.exp_pos u)]
      calc _ ≤ Real.exp ((1 + κ) * h) * (Real.exp ((1 + κ) * u) * (κ * u + κ')) +
            κ * h * Real.exp ((1 + κ) * u) :=
            add_le_add (mul_le_mul hg h2 (abs_nonneg _) (Real.exp_pos _).le)
              (mul_le_mul h3 hu1 (Real.exp_pos _).le (mul_nonneg hκ ha.le))
        _ ≤ Real.exp ((1 + κ) * h) * (Real.exp ((1 + κ) * u) * (κ * u + κ')) +
            Real.exp ((1 + κ) * h) * (κ * h * Real.exp ((1 + κ) * u)) := by
            refine add_le_add le_rfl (le_mul_of_one_le_left ?_ hh1)
            exact mul_nonneg (mul_nonneg hκ ha.le) (Real.exp_pos _).le
        _ = _ := by rw [hE, hst]; ring

/-- At the end of the last step. -/
theorem factorAt_end {τ : Tableau} {φ : ℝ → ℝ → ℝ} (h1 : ∀ h, φ h 1 = growth τ h) {hs : List ℝ}
    (hne : hs ≠ []) (hpos : ∀ h ∈ hs, 0 < h) (t : ℝ) :
    factorAt τ φ hs t (t + hs.sum) = (hs.map (growth τ)).prod := by
  induction hs generalizing t with
  | nil => exact absurd rfl hne
  | cons h hs ih =>
    have ha := hpos h List.mem_cons_self
    rw [List.sum_cons, List.map_cons, List.prod_cons, factorAt]
    by_cases hemp : hs = []
    · subst hemp
      rw [if_pos (by simp), List.sum_nil, add_zero, add_sub_cancel_left, div_self ha.ne', h1]
      simp
    · have hsum : 0 < hs.sum := List.sum_pos _ (fun s' hs' => hpos s' (List.mem_cons_of_mem _ hs')) hemp
      rw [if_neg (by linarith), ← add_assoc, ih hemp (fun s' hs' => hpos s' (List.mem_cons_of_mem _ hs'))]

/-- The product of the stability polynomials. -/
theorem growth_prod_close {τ : Tableau} {η κ : ℝ} (hκ : 0 ≤ κ)
    (hg : ∀ h, 0 < h → h ≤ η → |growth τ h - Real.exp h| ≤ κ * h) {hs : List ℝ} (hne : hs ≠ [])
    (hpos : ∀ h ∈ hs, 0 < h ∧ h ≤ η) :
    |(hs.map (growth τ)).prod - Real.exp hs.sum| ≤
      Real.exp ((1 + κ) * hs.sum) * (κ * hs.sum + κ * η) := by
  have hc : CloseFactors τ (fun h θ => Real.exp (θ * h) + θ * (growth τ h - Real.exp h)) η κ (κ * η) := by
    refine ⟨hg, fun h h0 h1 θ hθ => ?_, hκ⟩
    rw [add_sub_cancel_left, abs_mul, abs_of_nonneg hθ.1]
    calc _ ≤ 1 * (κ * h) := mul_le_mul hθ.2 (hg h h0 h1) (abs_nonneg _) zero_le_one
      _ ≤ κ * η := by rw [one_mul]; exact mul_le_mul_of_nonneg_left h1 hκ
  have h1 := factorAt_close hc hs hne hpos 0 (0 + hs.sum)
    (by rw [zero_add]; exact List.sum_nonneg fun h hh => (hpos h hh).1.le) le_rfl
  rw [factorAt_end (fun h => by simp) hne (fun h hh => (hpos h hh).1), zero_add, sub_zero] at h1
  exact h1

/-- The factor of the dense output of `RK23`. -/
theorem denseFactor_rk23 (z θ : ℝ) : denseFactor rk23 rk23Dense 3 z θ =
    1 + θ * z + (θ * z) ^ 2 / 2 + (θ * z) ^ 3 / 6 - θ ^ 2 * (1 - θ) / 6 * z ^ 4 := by
  have h0 := stageFactors_zero rk23 z 3
  have h1 := stageFactors_succ rk23 z (i := 3) (j := 0) (by norm_num)
  have h2 := stageFactors_succ rk23 z (i := 3) (j := 1) (by norm_num)
  have h3 := stageFactors_last rk23 z
  rw [growth_rk23, show rk23.n = 3 from rfl] at h3
  unfold denseFactor
  rw [show rk23.n = 3 from rfl]
  generalize stageFactors rk23 z 3 = f at *
  simp only [Finset.sum_range_succ, Finset.sum_range_zero, zero_add, Tableau.row, rk23, rk23Dense, h0,
    List.getD_cons_zero, List.getD_cons_succ] at *
  norm_num at *
  rw [h1] at h2 ⊢
  rw [h2, h3]
  ring

/-- The factor of the dense output of `RK45`. -/
theorem denseFactor_rk45 (z θ : ℝ) : denseFactor rk45 rk45Dense 4 z θ =
    1 + θ * z + (θ * z) ^ 2 / 2 + (θ * z) ^ 3 / 6 + (θ * z) ^ 4 / 24 +
      ((5112093 / 587608460 * θ ^ 2 - 90725539 / 3525650760 * θ ^ 3 + 22358351 / 881412690 * θ ^ 4) * z ^ 5 +
      (-(17546271 / 2938042300) * θ ^ 2 + 181174829 / 17628253800 * θ ^ 3
        - 2325839 / 881412690 * θ ^ 4) * z ^ 6 +
      (6769587 / 2938042300 * θ ^ 2 - 110615467 / 17628253800 * θ ^ 3
        + 13999589 / 3525650760 * θ ^ 4) * z ^ 7) := by
  have h0 := stageFactors_zero rk45 z 6
  have h1 := stageFactors_succ rk45 z (i := 6) (j := 0) (by norm_num)
  have h2 := stageFactors_succ rk45 z (i := 6) (j := 1) (by norm_num)
  have h3 := stageFactors_succ rk45 z (i := 6) (j := 2) (by norm_num)
  have h4 := stageFactors_succ rk45 z (i := 6) (j := 3) (by norm_num)
  have h5 := stageFactors_succ rk45 z (i := 6) (j := 4) (by norm_num)
  have h6 := stageFactors_last rk45 z
  rw [growth_rk45, show rk45.n = 6 from rfl] at h6
  unfold denseFactor
  rw [show rk45.n = 6 from rfl]
  generalize stageFactors rk45 z 6 = f at *
  simp only [Finset.sum_range_succ, Finset.sum_range_zero, zero_add, Tableau.row, rk45, rk45Dense, h0,
    List.getD_cons_zero, List.getD_cons_succ] at *
  norm_num at *
  rw [h1] at h2
  rw [h2] at h3
  rw [h1] at h3
  rw [h1, h2, h3] at h4
  rw [h1, h2, h3, h4] at h5
  rw [h2, h3, h4, h5, h6]
  ring

theorem rk23_close {η : ℝ} (h0 : 0 ≤ η) (h1 : η ≤ 1) :
    CloseFactors rk23 (denseFactor rk23 rk23Dense 3) η (η ^ 3) (η ^ 3) := by
  refine ⟨fun h a b => ?_, fun h a b θ hθ => ?_, by positivity⟩
  · obtain ⟨-, p, -⟩ := rk23_growth_bounds a.le (b.trans h1)
    have hu := Real.exp_bound' a.le (b.trans h1) (n := 4) (by norm_num)
    simp only [Finset.sum_range_succ, Finset.sum_range_zero, Nat.factorial] at hu
    norm_num at hu
    rw [abs_sub_comm, abs_of_nonneg (by linarith)]
    rw [growth_rk23] at *
    have h3 : h ^ 3 ≤ η ^ 3 := pow_le_pow_left₀ a.le b 3
    have h4 : h ^ 4 ≤ η ^ 3 * h := by
      rw [pow_succ]
      exact mul_le_mul_of_nonneg_right h3 a.le
    have : 0 ≤ h ^ 4 := by positivity
    linarith
  · rw [denseFactor_rk23]
    have hw0 : 0 ≤ θ * h := mul_nonneg hθ.1 a.le
    have hwh : θ * h ≤ h := mul_le_of_le_one_left a.le hθ.2
    have hu := Real.exp_bound' hw0 (hwh.trans (b.trans h1)) (n := 4) (by norm_num)
    have hl := Real.sum_le_exp_of_nonneg hw0 4
    simp only [Finset.sum_range_succ, Finset.sum_range_zero, Nat.factorial] at hu hl
    norm_num at hu hl
    have h3 : h ^ 4 ≤ η ^ 3 :=
      (pow_le_pow_left₀ a.le b 4).trans (pow_le_pow_of_le_one h0 h1 (by norm_num))
    have h4 : (θ * h) ^ 4 ≤ h ^ 4 := pow_le_pow_left₀ hw0 hwh 4
    have h5 : 0 ≤ h ^ 4 := by positivity
    have h6 : 0 ≤ θ ^ 2 * (1 - θ) / 6 * h ^ 4 := by
      have := hθ.2
      have : 0 ≤ 1 - θ := by linarith
      positivity
    have h7 : θ ^ 2 * (1 - θ) / 6 * h ^ 4 ≤ 1 / 6 * h ^ 4 := by
      refine mul_le_mul_of_nonneg_right ?_ h5
      have a1 : θ ^ 2 * (1 - θ) ≤ 1 * 1 := mul_le_mul (pow_le_one₀ hθ.1 hθ.2) (by linarith [hθ.1])
        (by linarith [hθ.2]) zero_le_one
      linarith
    rw [abs_le]
    constructor <;> linarith

theorem rk45_close {η : ℝ} (h0 : 0 ≤ η) (h1 : η ≤ 1) :
    CloseFactors rk45 (denseFactor rk45 rk45Dense 4) η (η ^ 5) (η ^ 5) := by
  refine ⟨fun h a b => ?_, fun h a b θ hθ => ?_, by positivity⟩
  · obtain ⟨p, -⟩ := rk45_growth_bounds a.le (b.trans h1)
    have hl := Real.sum_le_exp_of_nonneg a.le 6
    simp only [Finset.sum_range_succ, Finset.sum_range_zero, Nat.factorial] at hl
    norm_num at hl
    rw [abs_of_nonneg (by linarith)]
    rw [growth_rk45] at *
    have h3 : h ^ 5 ≤ η ^ 5 := pow_le_pow_left₀ a.le b 5
    have h4 : h ^ 6 ≤ η ^ 5 * h := by
      rw [pow_succ]
      exact mul_le_mul_of_nonneg_right h3 a.le
    have : 0 ≤ h ^ 6 := by positivity
    linarith
  · rw [denseFactor_rk45]
    have hw0 : 0 ≤ θ * h := mul_nonneg hθ.1 a.le
    have hwh : θ * h ≤ h := mul_le_of_le_one_left a.le hθ.2
    have hu := Real.exp_bound' hw0 (hwh.trans (b.trans h1)) (n := 5) (by norm_num)
    have hl := Real.sum_le_exp_of_nonneg hw0 5
    simp only [Finset.sum_range_succ, Finset.sum_range_zero, Nat.factorial] at hu hl
    norm_num at hu hl
    have h3 : h ^ 5 ≤ η ^ 5 := pow_le_pow_left₀ a.le b 5
    have h4 : (θ * h) ^ 5 ≤ h ^ 5 := pow_le_pow_left₀ hw0 hwh 5
    have h5 : 0 ≤ h ^ 5 := by positivity
    have t0 : ∀ k, 0 ≤ θ ^ k := fun k => pow_nonneg hθ.1 k
    have t1 : ∀ k, θ ^ k ≤ 1 := fun k => pow_le_one₀ hθ.1 hθ.2
    have bound : ∀ (A : ℝ) (k : ℕ), 5 ≤ k → |A| ≤ 1 / 10 → |A * h ^ k| ≤ 1 / 10 * h ^ 5 := fun A k hk hA => by
      rw [abs_mul, abs_of_nonneg (pow_nonneg a.le k)]
      exact mul_le_mul hA (pow_le_pow_of_le_one a.le (b.trans h1) hk) (pow_nonneg a.le k) (by norm_num)
    have q2 := t0 2
    have q3 := t0 3
    have q4 := t0 4
    have r2 := t1 2
    have r3 := t1 3
    have r4 := t1 4
    have b5 := bound (5112093 / 587608460 * θ ^ 2 - 90725539 / 3525650760 * θ ^ 3
      + 22358351 / 881412690 * θ ^ 4) 5 le_rfl (by rw [abs_le]; constructor <;> linarith)
    have b6 := bound (-(17546271 / 2938042300) * θ ^ 2 + 181174829 / 17628253800 * θ ^ 3
      - 2325839 / 881412690 * θ ^ 4) 6 (by norm_num) (by rw [abs_le]; constructor <;> linarith)
    have b7 := bound (6769587 / 2938042300 * θ ^ 2 - 110615467 / 17628253800 * θ ^ 3
      + 13999589 / 3525650760 * θ ^ 4) 7 (by norm_num) (by rw [abs_le]; constructor <;> linarith)
    rw [abs_le] at b5 b6 b7 ⊢
    constructor <;> linarith

theorem close_at {τ : Tableau} {φ : ℝ → ℝ → ℝ} {η κ : ℝ} (hc : CloseFactors τ φ η κ κ) {hs : List ℝ}
    (hne : hs ≠ []) (hpos : ∀ h ∈ hs, 0 < h ∧ h ≤ η) {t : ℝ} (h0 : 0 ≤ t) (h1 : t ≤ hs.sum) (hκ : κ ≤ 1) :
    |factorAt τ φ hs 0 t - Real.exp t| ≤ Real.exp (2 * t) * (t + 1) * κ := by
  have h2 := factorAt_close hc hs hne hpos 0 t h0 (by rwa [zero_add])
  rw [sub_zero] at h2
  have hp := hc.pos
  refine h2.trans ?_
  rw [mul_assoc, show (t + 1) * κ = κ * t + κ by ring]
  refine mul_le_mul_of_nonneg_right (Real.exp_le_exp.2 ?_) (by positivity)
  exact mul_le_mul_of_nonneg_right (by linarith) h0

/-- C136: with `RK45` and steps of at most `η ≤ 1` the number by which the initial state is multiplied at the
time `t` is within `e^(2t) (t + 1) η⁵` of `e^t`, at all times and also between the ends of steps. -/
theorem c136_rk45_times {P : Problem} (hr : SlabRuns P) (hN : 1 ≤ P.mesh.N) (hu : P.uncollided = false)
    (hT : 0 < P.mesh.tfinal) {es : List Event} (hes : Arrives P es) {η : ℝ} (hη : η ≤ 1)
    (hshort : ∀ s ∈ acceptedSteps es, s ≤ η) {V : StateVec} (hV : StartsFrom P V) {ts : List ℝ}
    (hne : ts ≠ []) (hin : ∀ t ∈ ts, 0 ≤ t ∧ t ≤ P.mesh.tfinal) (hinc : ts.Pairwise (· < ·))
    (he : ∀ t ∈ ts, ∀ i < P.mesh.N, (meshAt P t).edges i < (meshAt P t).edges (i + 1)) (xs : List ℝ) :
    ∃ out, ∃ g : ℝ → ℝ, P.slabSolveTimes rk45 (rkInterpolant rk45 rk45Dense 4) es (some xs) ts = some out ∧
      List.Forall₂ (fun o t => SlabOutput P (meshAt P t).edges (g t) V xs o) out ts ∧
      ∀ t ∈ ts, |g t - Real.exp t| ≤ Real.exp (2 * t) * (t + 1) * η ^ 5 := by
  obtain ⟨out, h1, h2⟩ := c136_times hr hN hu hT (rk_proportional rk45 rk45Dense 4) hes hV hne hin hinc he xs
  refine ⟨out, _, h1, h2, fun t ht => ?_⟩
  obtain ⟨s, hs⟩ := List.exists_mem_of_ne_nil _ (hes.ne hT)
  have hη0 : 0 ≤ η := (hes.1 s hs).le.trans (hshort s hs)
  exact close_at (rk45_close hη0 hη) (hes.ne hT) (fun s hs => ⟨hes.1 s hs, hshort s hs⟩) (hin t ht).1
    (by rw [hes.2]; exact (hin t ht).2) (pow_le_one₀ hη0 hη)

/-- C136: the same with `RK23` and the third power. -/
theorem c136_rk23_times {P : Problem} (hr : SlabRuns P) (hN : 1 ≤ P.mesh.N) (hu : P.uncollided = false)
    (hT : 0 < P.mesh.tfinal) {es : List Event} (hes : Arrives P es) {η : ℝ} (hη : η ≤ 1)
    (hshort : ∀ s ∈ acceptedSteps es, s ≤ η) {V : StateVec} (hV : StartsFrom P V) {ts : List ℝ}
    (hne : ts ≠ []) (hin : ∀ t ∈ ts, 0 ≤ t ∧ t ≤ P.mesh.tfinal) (hinc : ts.Pairwise (· < ·))
    (he : ∀ t ∈ ts, ∀ i < P.mesh.N, (meshAt P t).edges i < (meshAt P t).edges (i + 1)) (xs : List ℝ) :
    ∃ out, ∃ g : ℝ → ℝ, P.slabSolveTimes rk23 (rkInterpolant rk23 rk23Dense 3) es (some xs) ts = some out ∧
      List.Forall₂ (fun o t => SlabOutput P (meshAt P t).edges (g t) V xs o) out ts ∧
      ∀ t ∈ ts, |g t - Real.exp t| ≤ Real.exp (2 * t) * (t + 1) * η ^ 3 := by
  obtain ⟨out, h1, h2⟩ := c136_times hr hN hu hT (rk_proportional rk23 rk23Dense 3) hes hV hne hin hinc he xs
  refine ⟨out, _, h1, h2, fun t ht => ?_⟩
  obtain ⟨s, hs⟩ := List.exists_mem_of_ne_nil _ (hes.ne hT)
  have hη0 : 0 ≤ η := (hes.1 s hs).le.trans (hshort s hs)
  exact close_at (rk23_close hη0 hη) (hes.ne hT) (fun s hs => ⟨hes.1 s hs, hshort s hs⟩) (hin t ht).1
    (by rw [hes.2]; exact (hin t ht).2) (pow_le_one₀ hη0 hη)

/-! ### Any method -/

/-- `y' = y` with the solution `exp`. -/
theorem exp_smoothLinear : SmoothLinear 1 (fun _ y => y)
    (fun k _ => if k = 0 then ContinuousLinearMap.id ℝ ℝ else 0) fun _ => Real.exp := by
  refine ⟨⟨fun _ => Real.continuous_exp.continuousOn, fun _ t _ => (Real.hasDerivAt_exp t).hasDerivWithinAt⟩,
    ⟨fun _ => continuousOn_const, fun q t _ => ?_⟩, fun _ _ => rfl, fun _ _ y z => rfl⟩
  rw [if_neg q.succ_ne_zero]
  exact hasDerivWithinAt_const _ _ _

theorem exp_operator : ∀ t ∈ Icc (0 : ℝ) 1,
    ‖(fun k (_ : ℝ) => if k = 0 then ContinuousLinearMap.id ℝ ℝ else 0) 0 t‖ ≤ 1 := fun _ _ => by
  simp

/-- The stages of a step from one. -/
theorem stageFactors_eq (τ : Tableau) (t z : ℝ) (i : ℕ) :
    stageFactors τ z i = rkStages τ (fun _ y => y) t z (1 : ℝ) 1 i := by
  induction i with
  | zero => rfl
  | succ i ih =>
    rw [stageFactors, rkStages, ih]
    simp only [smul_eq_mul]

theorem growth_eq (τ : Tableau) (t z : ℝ) : growth τ z = rkAdvance τ (fun _ y => y) t z (1 : ℝ) := by
  unfold growth rkAdvance
  rw [stageFactors_eq τ t]
  simp only [smul_eq_mul]

/-- C136: the stability polynomial of every explicit Runge-Kutta method is as close to the exponential
function as its conditions for linear equations say, with a constant that only depends on the order and on a
bound for the rows. -/
theorem c136_growth (α : ℝ) (hα : 0 ≤ α) (p : ℕ) : ∃ C, 0 ≤ C ∧ ∀ (τ : Tableau) (ε : ℝ), UsableMethod τ →
    (∀ i ≤ τ.n, ∑ j ∈ Finset.range i, |τ.row i j| ≤ α) → 0 ≤ ε → LinearOrder τ.n τ.row τ.node p ε →
    ∀ h, 0 ≤ h → h ≤ 1 / (2 * α + 1) → |growth τ h - Real.exp h| ≤ C * (ε * h + h ^ (p + 1)) := by
  obtain ⟨C, hC, h1⟩ := linear_step exp_smoothLinear zero_le_one exp_operator hα p
  refine ⟨C, hC, fun τ ε hτ hrow hε ho h h0 hh => ?_⟩
  have hh' : h * (2 * α + 1) ≤ 1 := by rwa [le_div_iff₀ (by positivity)] at hh
  have h2 := h1 τ (hτ.bounded hrow) ε hε ho (0, h) ⟨le_rfl, h0, by nlinarith, by
    dsimp only; nlinarith⟩ (by dsimp only; nlinarith)
  dsimp only at h2
  rw [Real.exp_zero, ← growth_eq, zero_add, Real.norm_eq_abs] at h2
  exact h2

theorem step_bound {C ε h η a : ℝ} {p : ℕ} (hC : 0 ≤ C) (h0 : 0 < h) (h1 : h ≤ η)
    (ha : a ≤ C * (ε * h + h ^ (p + 1))) : a ≤ C * (ε + η ^ p) * h := by
  refine ha.trans ?_
  rw [mul_assoc, pow_succ, ← add_mul]
  have : h ^ p ≤ η ^ p := pow_le_pow_left₀ h0.le h1 p
  exact mul_le_mul_of_nonneg_left (mul_le_mul_of_nonneg_right (by linarith) h0.le) hC

/-- C136: for every explicit Runge-Kutta method: with steps of at most `η` the number by which a slab run
multiplies the initial state until the final time `T` is within
`e^((1 + κ) T) (T + η) κ` of `e^T`, `κ = C (ε + η^p)`, when the method meets the conditions of order `p` for
linear equations up to `ε`. -/
theorem c136_any_method (α : ℝ) (hα : 0 ≤ α) (p : ℕ) : ∃ C, 0 ≤ C ∧ ∀ (τ : Tableau) (ε : ℝ), UsableMethod τ →
    (∀ i ≤ τ.n, ∑ j ∈ Finset.range i, |τ.row i j| ≤ α) → 0 ≤ ε → LinearOrder τ.n τ.row τ.node p ε →
    ∀ (P : Problem), SlabRuns P → 1 ≤ P.mesh.N → P.uncollided = false → 0 < P.mesh.tfinal →
    (∀ i < P.mesh.N, (meshAt P P.mesh.tfinal).edges i < (meshAt P P.mesh.tfinal).edges (i + 1)) →
    ∀ (leg : ℕ → List ℝ) (D : Interpolant), EndsRight τ D → ∀ (es : List Event) (η : ℝ), Arrives P es →
    (∀ s ∈ acceptedSteps es, s ≤ η) → η ≤ 1 / (2 * α + 1) → ∀ (V : StateVec), StartsFrom P V →
    ∀ estimate choose, ∃ R g, P.slabSolve leg τ D es estimate choose = some R ∧
      SlabReported P (meshAt P P.mesh.tfinal).edges g V R ∧
      |g - Real.exp P.mesh.tfinal| ≤ Real.exp ((1 + C * (ε + η ^ p)) * P.mesh.tfinal) *
        ((P.mesh.tfinal + η) * (C * (ε + η ^ p))) := by
  obtain ⟨C, hC, h1⟩ := c136_growth α hα p
  refine ⟨C, hC, fun τ ε hτ hrow hε ho P hr hN hu hT he leg D hD es η hes hshort hη V hV estimate choose => ?_⟩
  obtain ⟨R, h2, -, -, h3⟩ := c129_solve hr hN hu hT he leg hD hes hV estimate choose
  refine ⟨R, _, h2, h3, ?_⟩
  obtain ⟨s, hs⟩ := List.exists_mem_of_ne_nil _ (hes.ne hT)
  have hη0 : 0 ≤ η := (hes.1 s hs).le.trans (hshort s hs)
  have h4 := growth_prod_close (τ := τ) (η := η) (κ := C * (ε + η ^ p)) (by positivity)
    (fun h a b => step_bound hC a b (h1 τ ε hτ hrow hε ho h a.le (b.trans hη))) (hes.ne hT)
    fun s hs => ⟨hes.1 s hs, hshort s hs⟩
  rw [hes.2] at h4
  refine h4.trans (le_of_eq ?_)
  ring

/-! ### `DOP853` -/

theorem extended_factors (c : DopCoefficients) (θ h : ℝ) :
    ∀ i ≤ 12, stageFactors (dopExtended c θ) h i = stageFactors c.tableau h i
  | 0, _ => rfl
  | i + 1, hi => by
    have h1 : (dopExtended c θ).row (i + 1) = c.tableau.row (i + 1) := by
      funext j
      rw [DopLike.row_eq c hi]
      exact if_pos (show i + 1 < 16 by omega)
    rw [stageFactors, stageFactors, extended_factors c θ h i (by omega), h1]

/-- The factor of the dense output of `DOP853`. -/
noncomputable def dopFactor (c : DopCoefficients) (h θ : ℝ) : ℝ :=
  1 + h * ∑ j ∈ Finset.range 16, denseWeight c θ j * stageFactors (dopExtended c θ) h 15 j

theorem slabExtraLoop_input {P : Problem} (hcall : ∀ o t V, ∃ r, P.slabCall o t V = some r)
    (c : DopCoefficients) (θ t h : ℝ) (y : StateVec) (o : SlabObjects) (i : ℕ) (hi : i ≤ 3) :
    ∃ o', P.slabExtraLoop c t h y i (o, fun j => scaled (stageFactors c.tableau h 12 j) y) =
      some (o', fun j => scaled (stageFactors (dopExtended c θ) h (12 + i) j) y) := by
  induction i with
  | zero =>
    exact ⟨o, by rw [Problem.slabExtraLoop, add_zero, extended_factors c θ h 12 le_rfl]⟩
  | succ i ih =>
    obtain ⟨o1, h1⟩ := ih (by omega)
    rw [Problem.slabExtraLoop, h1, Option.bind_some]
    dsimp only
    rw [combine_scaled]
    obtain ⟨r, h2⟩ := hcall o1 (t + c.node (13 + i) * h) (scaled (1 + h * ∑ j ∈ Finset.range (13 + i),
      c.row (13 + i) j * stageFactors (dopExtended c θ) h (12 + i) j) y)
    rw [h2, Option.map_some]
    refine ⟨r.1, ?_⟩
    rw [Option.some_inj, Prod.mk.injEq]
    refine ⟨rfl, ?_⟩
    rw [slabCall_input P _ _ _ _ h2]
    have hrow : (dopExtended c θ).row (12 + i + 1) = c.row (13 + i) := by
      funext j
      rw [show 13 + i = 12 + i + 1 by omega]
      exact if_pos (show 12 + i + 1 < 16 by omega)
    funext j
    rw [show 12 + (i + 1) = 12 + i + 1 by omega, show 13 + i = 12 + i + 1 by omega] at *
    by_cases hj : j = 12 + i + 1
    · subst hj
      rw [Function.update_self, stageFactors, Function.update_self, hrow]
    · rw [Function.update_of_ne hj, stageFactors, Function.update_of_ne hj]

theorem dop_proportional {P : Problem} (hr : SlabRuns P) {c : DopCoefficients}
    (hc : ∀ j ≥ 12, c.row 12 j = 0) : Proportional c.tableau (P.slabDopDense c) (dopFactor c) := by
  intro t y h θ
  obtain ⟨m0, hm0⟩ := hr.mesh
  have hex : ∃ o, P.slabObjects = some o := by
    unfold Problem.slabObjects Problem.objects
    rw [hm0]
    exact ⟨_, rfl⟩
  obtain ⟨o, ho⟩ := hex
  obtain ⟨o', h1⟩ := slabExtraLoop_input (slabCall_total hr) c θ t h y o 3 le_rfl
  have h2 : P.slabExtraValues c t h y (fun j => scaled (stageFactors c.tableau h 12 j) y) =
      fun j => scaled (stageFactors (dopExtended c θ) h 15 j) y := by
    unfold Problem.slabExtraValues
    rw [ho, Option.bind_some, h1]
    rfl
  unfold Problem.slabDopDense dopInterpolant
  beta_reduce
  rw [show c.tableau.n = 12 from rfl, h2]
  have h3 := dense_of_values hc y h (fun j => scaled (stageFactors c.tableau h 12 j) y)
    (fun j => scaled (stageFactors (dopExtended c θ) h 15 j) y) θ fun j hj => by
      rw [stageFactors_stable (dopExtended c θ) h (show 12 ≤ 15 by norm_num) j hj,
        extended_factors c θ h 12 le_rfl]
  rw [show c.tableau.n = 12 from rfl] at h3
  rw [h3, combine_scaled]
  rfl

theorem dop_close (α : ℝ) (hα : 0 ≤ α) : ∃ C, 0 ≤ C ∧ ∀ (c : DopCoefficients) (ε ε' : ℝ), 0 ≤ ε → 0 ≤ ε' →
    DopLike c α ε ε' → ∀ η, 0 ≤ η → η ≤ 1 / (2 * α + 1) →
    CloseFactors c.tableau (dopFactor c) η (C * (ε + η ^ 8)) (C * (ε' + η ^ 8)) := by
  obtain ⟨C₁, hC₁, h1⟩ := c136_growth α hα 8
  obtain ⟨C₂, hC₂, h2⟩ := linear_values exp_smoothLinear zero_le_one exp_operator hα 7
  refine ⟨max C₁ C₂, hC₁.trans (le_max_left _ _), fun c ε ε' hε hε' hc η hη0 hη => ⟨fun h a b => ?_,
    fun h a b θ hθ => ?_, ?_⟩⟩
  · refine (step_bound hC₁ a b (h1 c.tableau ε hc.usable hc.rows' hε hc.linear h a.le (b.trans hη))).trans ?_
    refine mul_le_mul_of_nonneg_right (mul_le_mul_of_nonneg_right (le_max_left _ _) ?_) a.le
    positivity
  · have hsb : StageBound 16 (denseRow c θ) (denseNode c θ) α := by
      refine ⟨(if_pos (by norm_num)).trans hc.first, fun i hi => ?_, fun i hi => ?_, hα⟩
      · unfold denseNode
        split_ifs with hi'
        exacts [hc.nodes i hi', hθ]
      · unfold denseRow
        split_ifs with hi'
        · exact hc.rows i hi'
        · obtain rfl : i = 16 := by omega
          exact hc.weights θ hθ
    have hh' : h * (2 * α + 1) ≤ 1 := by
      have := b.trans hη
      rwa [le_div_iff₀ (by positivity)] at this
    have hh1 : h ≤ 1 := by nlinarith
    have h3 := h2 16 _ _ hsb ε' hε' (hc.dense θ hθ) (0, h) ⟨le_rfl, a.le, hh1, by dsimp only; linarith⟩
      (by dsimp only; nlinarith) (stageFactors (dopExtended c θ) h 15) fun j hj => by
        dsimp only
        rw [Real.exp_zero]
        rcases j with - | j
        · rw [stageFactors_zero]
          simp
        · rw [stageFactors_succ _ _ (show j + 1 ≤ 15 by omega)]
          have e2 : ∀ l, (dopExtended c θ).row (j + 1) l = denseRow c θ (j + 1) l := fun l => by
            unfold denseRow Tableau.row
            rw [if_pos (show j + 1 < (dopExtended c θ).n from hj), if_pos hj]
            rfl
          simp only [e2, smul_eq_mul]
    dsimp only at h3
    rw [show denseNode c θ 16 = θ from if_neg (lt_irrefl _), Real.exp_zero, zero_add, Real.norm_eq_abs] at h3
    simp only [show ∀ j, denseRow c θ 16 j = denseWeight c θ j from fun j => if_neg (lt_irrefl _),
      smul_eq_mul] at h3
    refine h3.trans ?_
    have a1 : h ^ (7 + 1) ≤ η ^ 8 := pow_le_pow_left₀ a.le b 8
    have a2 : ε' * h ≤ ε' := mul_le_of_le_one_right hε' hh1
    refine mul_le_mul (le_max_right _ _) (by linarith) (by positivity) (hC₁.trans (le_max_left _ _))
  · have := hC₁.trans (le_max_left C₁ C₂)
    positivity

/-- C136: with `DOP853`, at all times and also between the ends of steps, the number by which the initial
state is multiplied at the time `t` is within `e^((1 + κ) t) (κ t + κ')` of `e^t`, `κ = C (ε + η⁸)`,
`κ' = C (ε' + η⁸)`; `ε` and `ε'` are what the coefficients miss the conditions by. -/
theorem c136_dop_times (α : ℝ) (hα : 0 ≤ α) : ∃ C, 0 ≤ C ∧ ∀ (c : DopCoefficients) (ε ε' : ℝ), 0 ≤ ε →
    0 ≤ ε' → DopLike c α ε ε' → ∀ (P : Problem), SlabRuns P → 1 ≤ P.mesh.N → P.uncollided = false →
    0 < P.mesh.tfinal → ∀ (es : List Event) (η : ℝ), Arrives P es → (∀ s ∈ acceptedSteps es, s ≤ η) →
    η ≤ 1 / (2 * α + 1) → ∀ (V : StateVec), StartsFrom P V → ∀ ts : List ℝ, ts ≠ [] →
    (∀ t ∈ ts, 0 ≤ t ∧ t ≤ P.mesh.tfinal) → ts.Pairwise (· < ·) →
    (∀ t ∈ ts, ∀ i < P.mesh.N, (meshAt P t).edges i < (meshAt P t).edges (i + 1)) → ∀ xs : List ℝ,
    ∃ out, ∃ g : ℝ → ℝ, P.slabSolveTimes c.tableau (P.slabDopDense c) es (some xs) ts = some out ∧
      List.Forall₂ (fun o t => SlabOutput P (meshAt P t).edges (g t) V xs o) out ts ∧
      ∀ t ∈ ts, |g t - Real.exp t| ≤ Real.exp ((1 + C * (ε + η ^ 8)) * t) *
        (C * (ε + η ^ 8) * t + C * (ε' + η ^ 8)) := by
  obtain ⟨C, hC, h1⟩ := dop_close α hα
  refine ⟨C, hC, fun c ε ε' hε hε' hc P hr hN hu hT es η hes hshort hη V hV ts hne hin hinc he xs => ?_⟩
  obtain ⟨out, h2, h3⟩ := c136_times hr hN hu hT (dop_proportional hr hc.step) hes hV hne hin hinc he xs
  refine ⟨out, _, h2, h3, fun t ht => ?_⟩
  obtain ⟨s, hs⟩ := List.exists_mem_of_ne_nil _ (hes.ne hT)
  have hη0 : 0 ≤ η := (hes.1 s hs).le.trans (hshort s hs)
  have h4 := factorAt_close (h1 c ε ε' hε hε' hc η hη0 hη) (acceptedSteps es) (hes.ne hT)
    (fun s hs => ⟨hes.1 s hs, hshort s hs⟩) 0 t (hin t ht).1 (by rw [zero_add, hes.2]; exact (hin t ht).2)
  rwa [sub_zero] at h4

/-! ### Examples -/

theorem exampleAbsorber_ordered_at (inv : (ℕ → ℕ → ℝ) → ℕ → ℕ → ℝ) {t : ℝ} (ht : 0 ≤ t) :
    ∀ i < (exampleAbsorber inv).mesh.N,
      (meshAt (exampleAbsorber inv) t).edges i < (meshAt (exampleAbsorber inv) t).edges (i + 1) := by
  obtain ⟨s', hs'⟩ := move_total (Or.inl rfl : NoHistory exampleSquareMesh) (legendreState exampleSquareMesh) t
  have hr : meshRun exampleSquareMesh (legendreState exampleSquareMesh) [t] = some s' := by
    simp [meshRun, hs']
  have ho := c24_square_ordered_partial exampleSquare_class rfl rfl exampleSquare_quads
    (by rw [show exampleSquareMesh.x0 = 1 / 2 from rfl]; norm_num) (by rw [exampleSquare_speed]; norm_num)
    (by norm_num [exampleSquareMesh]) exampleSquare_init
    (fun u hu => by rw [List.mem_singleton.1 hu]; exact ht) hr
  have hat : (meshAt (exampleAbsorber inv) t).edges = s'.edges := by
    unfold meshAt
    rw [show (exampleAbsorber inv).mesh = exampleSquareMesh from rfl, exampleSquare_init,
      Option.bind_some, hs']
  rw [hat]
  exact fun i hi => ho i (i + 1) i.lt_succ_self hi

theorem exampleAbsorber_starts (inv : (ℕ → ℕ → ℝ) → ℕ → ℕ → ℝ) :
    ∃ V, StartsFrom (exampleAbsorber inv) V ∧ V 0 1 0 = Real.sqrt 2 / 4 :=
  ⟨_, starts_square (P := exampleAbsorber inv) rfl rfl
    (show exampleSquareMesh.st 0 ≠ 1 by decide) (show exampleSquareMesh.st 0 ≠ 2 by decide) rfl
    (by norm_num [exampleAbsorber, exampleSquareMesh]) exampleSquare_init, exampleAbsorber_start inv⟩

/-- The square pulse in an absorber, asked for the start, for a time within a step and for the end. -/
example (inv : (ℕ → ℕ → ℝ) → ℕ → ℕ → ℝ) : ∃ V, ∃ g : ℝ → ℝ, ∃ out,
    StartsFrom (exampleAbsorber inv) V ∧ V 0 1 0 = Real.sqrt 2 / 4 ∧
    (exampleAbsorber inv).slabSolveTimes rk45 (rkInterpolant rk45 rk45Dense 4)
      (List.replicate 4 (.step (1 / 2) true)) (some [0, 1 / 4]) [0, 3 / 4, 2] = some out ∧
    List.Forall₂ (fun o t => SlabOutput (exampleAbsorber inv) (meshAt (exampleAbsorber inv) t).edges (g t) V
      [0, 1 / 4] o) out [0, 3 / 4, 2] ∧
    |g (3 / 4) - Real.exp (3 / 4)| ≤ Real.exp (3 / 2) * (7 / 4) / 32 := by
  obtain ⟨V, hV, hV0⟩ := exampleAbsorber_starts inv
  have hin : ∀ t ∈ ([0, 3 / 4, 2] : List ℝ), 0 ≤ t ∧ t ≤ (exampleAbsorber inv).mesh.tfinal := fun t ht => by
    rw [show (exampleAbsorber inv).mesh.tfinal = 2 from rfl]
    fin_cases ht <;> norm_num
  obtain ⟨out, g, h1, h2, h3⟩ := c136_rk45_times (exampleAbsorber_runs inv) (Nat.le_of_ble_eq_true rfl) rfl
    zero_lt_two (exampleHalves_arrive rfl [] rfl) (η := 1 / 2) (by norm_num)
    (fun z hz => by
      rw [List.nil_append, acceptedSteps_replicate] at hz
      exact (List.mem_replicate.1 hz).2.le) hV (ts := [0, 3 / 4, 2]) (by simp) hin
    (by norm_num) (fun t ht => exampleAbsorber_ordered_at inv (hin t ht).1) [0, 1 / 4]
  refine ⟨V, g, out, hV, hV0, h1, h2, (h3 (3 / 4) (by simp)).trans (le_of_eq ?_)⟩
  rw [show (2 : ℝ) * (3 / 4) = 3 / 2 by norm_num]
  ring

/-- The same with the doubles of `DOP853`, for all short steps. -/
example (inv : (ℕ → ℕ → ℝ) → ℕ → ℕ → ℝ) : ∃ C, 0 ≤ C ∧ ∃ V, StartsFrom (exampleAbsorber inv) V ∧
    ∀ (n : ℕ) (η : ℝ), 0 < η → η ≤ 1 / 24001 → n * η = 2 → ∃ out, ∃ g : ℝ → ℝ,
      (exampleAbsorber inv).slabSolveTimes dopDouble.tableau ((exampleAbsorber inv).slabDopDense dopDouble)
        (List.replicate n (.step η true)) (some [0, 1 / 4]) [η / 3, 1] = some out ∧
      List.Forall₂ (fun o t => SlabOutput (exampleAbsorber inv) (meshAt (exampleAbsorber inv) t).edges (g t) V
        [0, 1 / 4] o) out [η / 3, 1] ∧
      |g 1 - Real.exp 1| ≤ Real.exp (1 + C * (1 / 10 ^ 15 + η ^ 8)) * (2 * C * (1 / 10 ^ 11 + η ^ 8)) := by
  obtain ⟨C, hC, h1⟩ := c136_dop_times 12000 (by norm_num)
  obtain ⟨V, hV, -⟩ := exampleAbsorber_starts inv
  refine ⟨C, hC, V, hV, fun n η h0 hη hn => ?_⟩
  have hin : ∀ t ∈ ([η / 3, 1] : List ℝ), 0 ≤ t ∧ t ≤ (exampleAbsorber inv).mesh.tfinal := fun t ht => by
    rw [show (exampleAbsorber inv).mesh.tfinal = 2 from rfl]
    fin_cases ht
    · exact ⟨by positivity, by linarith⟩
    · norm_num
  have hs : ∀ s ∈ acceptedSteps (List.replicate n (.step η true)), s = η := fun s hs => by
    rw [acceptedSteps_replicate] at hs
    exact (List.mem_replicate.1 hs).2
  obtain ⟨out, g, h2, h3, h4⟩ := h1 dopDouble (1 / 10 ^ 15) (1 / 10 ^ 11) (by norm_num) (by norm_num)
    c135_coefficients.2 (exampleAbsorber inv) (exampleAbsorber_runs inv) (Nat.le_of_ble_eq_true rfl) rfl
    zero_lt_two (List.replicate n (.step η true)) η
    ⟨fun s h => by rw [hs s h]; exact h0, by
      rw [acceptedSteps_replicate, List.sum_replicate, nsmul_eq_mul, hn]; rfl⟩ (fun s h => (hs s h).le)
    (hη.trans (by norm_num)) V hV [η / 3, 1] (by simp) hin (by simp; linarith)
    (fun t ht => exampleAbsorber_ordered_at inv (hin t ht).1) [0, 1 / 4]
  refine ⟨out, g, h2, h3, (h4 1 (by simp)).trans ?_⟩
  rw [mul_one, mul_one]
  refine mul_le_mul_of_nonneg_left ?_ (Real.exp_pos _).le
  have : C * (1 / 10 ^ 15 + η ^ 8) ≤ C * (1 / 10 ^ 11 + η ^ 8) :=
    mul_le_mul_of_nonneg_left (by norm_num) hC
  linarith

/-- The final time with the doubles of `DOP853`. -/
example (inv : (ℕ → ℕ → ℝ) → ℕ → ℕ → ℝ) (leg : ℕ → List ℝ) : ∃ C, 0 ≤ C ∧ ∃ V,
    StartsFrom (exampleAbsorber inv) V ∧ ∀ (n : ℕ) (η : ℝ), 0 < η → η ≤ 1 / 24001 → n * η = 2 → ∃ R g,
      (exampleAbsorber inv).slabSolve leg dopDouble.tableau ((exampleAbsorber inv).slabDopDense dopDouble)
        (List.replicate n (.step η true)) false none = some R ∧
      SlabReported (exampleAbsorber inv) (meshAt (exampleAbsorber inv) 2).edges g V R ∧
      |g - Real.exp 2| ≤ Real.exp ((1 + C * (1 / 10 ^ 15 + η ^ 8)) * 2) *
        ((2 + η) * (C * (1 / 10 ^ 15 + η ^ 8))) := by
  obtain ⟨C, hC, h1⟩ := c136_any_method 12000 (by norm_num) 8
  obtain ⟨V, hV, -⟩ := exampleAbsorber_starts inv
  refine ⟨C, hC, V, hV, fun n η h0 hη hn => ?_⟩
  have hs : ∀ s ∈ acceptedSteps (List.replicate n (.step η true)), s = η := fun s hs => by
    rw [acceptedSteps_replicate] at hs
    exact (List.mem_replicate.1 hs).2
  exact h1 dopDouble.tableau (1 / 10 ^ 15) c135_coefficients.2.usable c135_coefficients.2.rows' (by norm_num)
    c135_coefficients.2.linear (exampleAbsorber inv) (exampleAbsorber_runs inv) (Nat.le_of_ble_eq_true rfl) rfl
    zero_lt_two (exampleAbsorber_ordered inv) leg _ (dop_endsRight _ _) (List.replicate n (.step η true)) η
    ⟨fun s h => by rw [hs s h]; exact h0, by
      rw [acceptedSteps_replicate, List.sum_replicate, nsmul_eq_mul, hn]; rfl⟩ (fun s h => (hs s h).le)
    (hη.trans (by norm_num)) V hV false none

/-- With the same arguments the call returns, and with `find_wave_loc` it does not. -/
example (inv : (ℕ → ℕ → ℝ) → ℕ → ℕ → ℝ) (leg : ℕ → List ℝ)
    (search : ℝ → Option (List ℝ × List ℝ × List ℝ)) (findWave : Bool) :
    ((exampleAbsorber inv).solveCall leg rk45 (rkInterpolant rk45 rk45Dense 4)
      (List.replicate 4 (.step (1 / 2) true)) (.float (exampleAbsorber inv).sigmaT) search
      ⟨false, findWave, true, none, none⟩).isSome = !findWave := by
  cases findWave with
  | true => rw [c136_find_wave_fails _ _ _ _ _ _ _ rfl]; rfl
  | false =>
    obtain ⟨V, hV, -⟩ := exampleAbsorber_starts inv
    obtain ⟨R, h1, -⟩ := c129_solve (exampleAbsorber_runs inv) (Nat.le_of_ble_eq_true rfl) rfl zero_lt_two
      (exampleAbsorber_ordered inv) leg rk45_endsRight (exampleHalves_arrive rfl [] rfl) hV false none
    have h2 := ((c136_report (P := exampleAbsorber inv) _ rfl leg rk45 (rkInterpolant rk45 rk45Dense 4)
      (List.replicate 4 (.step (1 / 2) true)) search false true none).2 (exampleAbsorber_runs inv).slab).1
    have h3 := h1
    rw [List.nil_append] at h3
    rw [h3] at h2
    obtain ⟨r, h4, -⟩ := Option.map_eq_some_iff.1 h2
    rw [h4]
    rfl

end Verif.Props
