import Verif.Model.RunFunctions
import Verif.Model.Sources
import Verif.Props.Saving
import Verif.Props.ErrorTables
import Mathlib.Algebra.BigOperators.Field
import Mathlib.Data.Fintype.Pi
import Mathlib.Tactic.Linarith
import Mathlib.Tactic.Ring

/-!
# Names of sources (C121) and what a `run` object shows (C122)
-/

namespace Verif.Props

open Verif.Model Verif.Lemmas

/-! ### C121 -/

/-- The first of the entries that are closest to one. -/
def FirstClosest (st : List ℤ) (i : ℕ) : Prop :=
  ∃ v, st[i]? = some v ∧ (∀ (j : ℕ) w, st[j]? = some w → |v - 1| ≤ |w - 1|) ∧
    ∀ (j : ℕ) w, j < i → st[j]? = some w → |v - 1| < |w - 1|

theorem argminFrom_spec : ∀ (vs : List ℤ) (i best : ℕ) (bv : ℤ),
    (argminFrom vs i bv best = best ∧ ∀ (j : ℕ) w, vs[j]? = some w → bv ≤ |w - 1|) ∨
    ∃ (k : ℕ) (v : ℤ), vs[k]? = some v ∧ argminFrom vs i bv best = i + k ∧ |v - 1| < bv ∧
      (∀ (j : ℕ) w, vs[j]? = some w → |v - 1| ≤ |w - 1|) ∧
      ∀ (j : ℕ) w, j < k → vs[j]? = some w → |v - 1| < |w - 1|
  | [], i, best, bv => Or.inl ⟨rfl, fun j w h => by simp at h⟩
  | v :: vs, i, best, bv => by
    rw [argminFrom]
    split_ifs with hv
    · right
      rcases argminFrom_spec vs (i + 1) i |v - 1| with ⟨h1, h2⟩ | ⟨k, w, h1, h2, h3, h4, h5⟩
      · refine ⟨0, v, rfl, h1, hv, fun j w hw => ?_, fun j w hj => absurd hj (Nat.not_lt_zero _)⟩
        cases j with
        | zero => simp at hw; rw [hw]
        | succ j => exact h2 j w (by simpa using hw)
      · refine ⟨k + 1, w, by simpa using h1, by rw [h2]; omega, h3.trans hv, fun j x hx => ?_,
          fun j x hj hx => ?_⟩
        · cases j with
          | zero => simp at hx; rw [← hx]; exact h3.le
          | succ j => exact h4 j x (by simpa using hx)
        · cases j with
          | zero => simp at hx; rw [← hx]; exact h3
          | succ j => exact h5 j x (by omega) (by simpa using hx)
    · rw [not_lt] at hv
      rcases argminFrom_spec vs (i + 1) best bv with ⟨h1, h2⟩ | ⟨k, w, h1, h2, h3, h4, h5⟩
      · refine Or.inl ⟨h1, fun j w hw => ?_⟩
        cases j with
        | zero => simp at hw; rw [← hw]; exact hv
        | succ j => exact h2 j w (by simpa using hw)
      · refine Or.inr ⟨k + 1, w, by simpa using h1, by rw [h2]; omega, h3, fun j x hx => ?_,
          fun j x hj hx => ?_⟩
        · cases j with
          | zero => simp at hx; rw [← hx]; exact h3.le.trans hv
          | succ j => exact h4 j x (by simpa using hx)
        · cases j with
          | zero => simp at hx; rw [← hx]; exact h3.trans_le hv
          | succ j => exact h5 j x (by omega) (by simpa using hx)

theorem firstClosest_unique {st : List ℤ} {i j : ℕ} (hi : FirstClosest st i)
    (hj : FirstClosest st j) : i = j := by
  obtain ⟨v, h1, h2, h3⟩ := hi
  obtain ⟨w, g1, g2, g3⟩ := hj
  rcases lt_trichotomy i j with h | h | h
  · exact absurd (g3 i v h h1) (not_lt.mpr (h2 j w g1))
  · exact h
  · exact absurd (h3 j w h g1) (not_lt.mpr (g2 i v h1))

theorem sourceIndex_iff {st : List ℤ} {i : ℕ} :
    sourceIndex st = some i ↔ FirstClosest st i := by
  have fwd : ∀ k, sourceIndex st = some k → FirstClosest st k := by
    intro k h
    cases st with
    | nil => exact absurd h (by simp [sourceIndex])
    | cons v vs =>
      rw [sourceIndex, Option.some.injEq] at h
      rcases argminFrom_spec vs 1 0 |v - 1| with ⟨h1, h2⟩ | ⟨k', w, h1, h2, h3, h4, h5⟩
      · rw [h1] at h
        subst h
        refine ⟨v, rfl, fun j w hw => ?_, fun j w hj => absurd hj (Nat.not_lt_zero _)⟩
        cases j with
        | zero => simp at hw; rw [hw]
        | succ j => exact h2 j w (by simpa using hw)
      · rw [h2] at h
        subst h
        refine ⟨w, by rw [Nat.add_comm]; simpa using h1, fun j x hx => ?_, fun j x hj hx => ?_⟩
        · cases j with
          | zero => simp at hx; rw [← hx]; exact h3.le
          | succ j => exact h4 j x (by simpa using hx)
        · cases j with
          | zero => simp at hx; rw [← hx]; exact h3
          | succ j => exact h5 j x (by omega) (by simpa using hx)
  refine ⟨fwd i, fun h => ?_⟩
  cases st with
  | nil => obtain ⟨v, hv, -⟩ := h; simp at hv
  | cons v vs =>
    have := fwd _ (rfl : sourceIndex (v :: vs) = some _)
    rw [firstClosest_unique h this]
    rfl

/-- **C121.**  The name under which a run is saved, and the benchmark it is compared with, stand at
the first position whose entry in `source_type` is closest to one, whatever the entries are. -/
theorem c121_names {st : List ℤ} {i : ℕ} (h : FirstClosest st i) :
    savedSourceName st = sourceNameList[i]? ∧ benchSource st = benchNames[i]? := by
  unfold savedSourceName benchSource
  rw [sourceIndex_iff.mpr h]
  exact ⟨rfl, rfl⟩

/-- **C121.**  For a source among the first six, given by a one at its position and no one before,
the names are the right ones. -/
theorem c121_right_name {st : List ℤ} {name : String} (h : NamedSource st name) :
    savedSourceName st = some name.toList ∧ ∃ i : ℕ, sixNames[i]? = some name ∧
      benchSource st = benchNames[i]? := by
  refine ⟨savedSourceName_of_named h, ?_⟩
  obtain ⟨i, hi, h1, hj⟩ := h
  refine ⟨i, hi, (c121_names ⟨1, h1, fun j w _ => by simp, fun j w hji hw => ?_⟩).2⟩
  have hw1 : w ≠ 1 := fun he => hj j hji (he ▸ hw)
  simpa using sub_ne_zero.mpr hw1

/-- **C121.**  The drivers of transport.yaml: six are saved under their own name; runs with a
boundary source and dipole runs are saved as plane pulses, self-similar plane runs as square
pulses. -/
theorem c121_drivers :
    savedSourceName (driverSource "plane_IC") = some "plane_IC".toList ∧
    savedSourceName (driverSource "square_IC") = some "square_IC".toList ∧
    savedSourceName (driverSource "square_source") = some "square_s".toList ∧
    savedSourceName (driverSource "gaussian_IC") = some "gaussian_IC".toList ∧
    savedSourceName (driverSource "gaussian_source") = some "gaussian_s".toList ∧
    savedSourceName (driverSource "MMS") = some "MMS".toList ∧
    savedSourceName (driverSource "boundary_source") = some "plane_IC".toList ∧
    savedSourceName (driverSource "dipole") = some "plane_IC".toList ∧
    savedSourceName (driverSource "self_sim_plane") = some "square_IC".toList := by
  decide

/-- **C121.**  All the same the nine drivers start from different states: in the slab, without
uncollided treatment, the dipole driver from a dipole, the self-similar driver from its Gaussian, the
driver with a boundary source from nothing. -/
theorem c121_initial_states (c : ICConfig) (hg : c.geometry = Geometry.slab)
    (hu : c.uncollided = false) (x μ : ℝ) :
    icFunction { c with sourceType := driverSource "plane_IC" } x μ =
      some (planeAndSquareIC c x / c.x0 / 2) ∧
    icFunction { c with sourceType := driverSource "square_IC" } x μ =
      some (planeAndSquareIC c x) ∧
    icFunction { c with sourceType := driverSource "square_source" } x μ = some 0 ∧
    icFunction { c with sourceType := driverSource "gaussian_IC" } x μ =
      some (gaussianInitial c x) ∧
    icFunction { c with sourceType := driverSource "gaussian_source" } x μ = some 0 ∧
    icFunction { c with sourceType := driverSource "MMS" } x μ = some (mmsIC x) ∧
    icFunction { c with sourceType := driverSource "boundary_source" } x μ = some 0 ∧
    icFunction { c with sourceType := driverSource "dipole" } x μ =
      some (dipoleIC c x / |c.x1|) ∧
    icFunction { c with sourceType := driverSource "self_sim_plane" } x μ =
      some (selfSimPlane x) := by
  refine ⟨?_, ?_, ?_, ?_, ?_, ?_, ?_, ?_, ?_⟩ <;>
    simp [icFunction, hg, hu, driverSource, ICConfig.st, ICConfig.stLast, List.replicate,
      planeAndSquareIC, gaussianInitial, dipoleIC]

example : ∃ c : ICConfig, c.geometry = Geometry.slab ∧ c.uncollided = false :=
  ⟨⟨[1], false, Geometry.slab, 1, 1, 1, 1⟩, rfl, rfl⟩

/-- **C121.**  What is loaded as a plane pulse after a run with a boundary source or a dipole run
was saved is that run: its points, flux, angular flux and so on. -/
theorem c121_loaded_as_plane {fmt : ℝ → Str} {F : Set ℝ} (hf : FmtOk fmt F)
    {single : ℝ → ℝ} {d d' : Disk} {pre : List SaveCall} {r : SaveCall} {l : LoadCall}
    (h : saveAll fmt single d (pre ++ [r]) = some d') (hr : IdFloats F r)
    (hs : r.sourceType = driverSource "boundary_source" ∨ r.sourceType = driverSource "dipole")
    (hl : l.sourceName = "plane_IC".toList) (hfile : l.fileName = "run_data.hdf5")
    (hfold : loadFolder fmt l.problemName l.cv0 = saveFolder fmt r.problemType r.cv)
    (h1 : l.uncollided = r.uncollided) (h2 : l.moving = r.moving) (h3 : l.nSpace = r.nSpace)
    (h4 : l.tfinal = r.tfinal) (h5 : l.c = r.c) (h6 : l.x0 = r.x0) (h7 : l.epsilon = r.epsilon)
    {cv : Option H5Data} (hcv : coeffView r.coeffs l.radOrTransfer l.matOrRad = some cv) :
    ∃ res, loadSolution fmt d' l = some res ∧ GivesBack single r l res ∧ res.psi = r.psi := by
  have hname : savedSourceName r.sourceType = some l.sourceName := by
    rw [hl]
    rcases hs with hs | hs <;> rw [hs] <;> decide
  obtain ⟨res, k1, k2, k3, -⟩ := c54_load_after_save_partial hf (pre := pre) (post := []) h
    (by intro x hx; rw [List.mem_singleton.1 hx]; exact hr)
    ⟨hfile, hfold, hname, h1, h2, h3, h4, h5, h6, h7⟩ (by simp) hcv
  exact ⟨res, k1, k2, k3⟩

/-- The material benchmark that belongs to a radiation benchmark. -/
def companion : List (String × String) :=
  [("P1_su_olson_rad", "P1_su_olson_mat"), ("P1_gaussian_rad", "P1_gaussian_mat"),
    ("P1_gaussian_rad_thick", "P1_gaussian_mat_thick"),
    ("P1_su_olson_rad_thick", "P1_su_olson_mat_thick")]

/-- **C121.**  The two-direction benchmarks: exactly four kinds of problem have one, the thick ones
have the thick benchmark, and the second dataset is the material energy of the first. -/
theorem c121_s2 (sigma x0 : ℝ) (st : List ℤ) :
    (∀ a b, s2Selector sigma x0 st = some (a, b) →
      ∃ p ∈ companion, benchSource a = some p.1 ∧ benchSource b = some p.2) ∧
    ((s2Selector sigma x0 st).isSome ↔
      (st[5]? = some 1 ∧ (sigma = 300 ∨ sigma = 0.5)) ∨
      (st[5]? ≠ some 1 ∧ st[2]? = some 1 ∧ (x0 = 400 ∨ x0 = 0.5))) ∧
    (st[5]? = some 1 → sigma = 300 →
      (s2Selector sigma x0 st).bind (fun p => benchSource p.1) = some "P1_gaussian_rad_thick") ∧
    (st[5]? = some 1 → sigma = 0.5 →
      (s2Selector sigma x0 st).bind (fun p => benchSource p.1) = some "P1_gaussian_rad") ∧
    (st[5]? ≠ some 1 → st[2]? = some 1 → x0 = 400 →
      (s2Selector sigma x0 st).bind (fun p => benchSource p.1) = some "P1_su_olson_rad_thick") ∧
    (st[5]? ≠ some 1 → st[2]? = some 1 → x0 = 0.5 →
      (s2Selector sigma x0 st).bind (fun p => benchSource p.1) = some "P1_su_olson_rad") := by
  have e1 : ((0.5 : ℝ) = 300) ↔ False := by norm_num
  have e2 : ((0.5 : ℝ) = 400) ↔ False := by norm_num
  have b : ∀ i : Fin 16, benchSource (unitArray i) = benchNames[(i : ℕ)]? := by decide
  refine ⟨fun x y h => ?_, ?_, fun h h' => ?_, fun h h' => ?_, fun h h' h'' => ?_,
    fun h h' h'' => ?_⟩
  · unfold s2Selector at h
    split_ifs at h <;> simp only [Option.some.injEq, Prod.mk.injEq] at h <;>
      obtain ⟨rfl, rfl⟩ := h
    · exact ⟨("P1_gaussian_rad_thick", "P1_gaussian_mat_thick"), by simp [companion], (b 12).trans rfl, (b 13).trans rfl⟩
    · exact ⟨("P1_gaussian_rad", "P1_gaussian_mat"), by simp [companion], (b 10).trans rfl, (b 11).trans rfl⟩
    · exact ⟨("P1_su_olson_rad_thick", "P1_su_olson_mat_thick"), by simp [companion], (b 14).trans rfl, (b 15).trans rfl⟩
    · exact ⟨("P1_su_olson_rad", "P1_su_olson_mat"), by simp [companion], (b 8).trans rfl, (b 9).trans rfl⟩
  · unfold s2Selector
    split_ifs <;> simp_all
  · unfold s2Selector
    rw [if_pos h, if_pos h']; exact (b 12).trans rfl
  · unfold s2Selector
    rw [if_pos h, h', if_neg (by norm_num), if_pos rfl]; exact (b 10).trans rfl
  · unfold s2Selector
    rw [if_neg h, if_pos h', if_pos h'']; exact (b 14).trans rfl
  · unfold s2Selector
    rw [if_neg h, if_pos h', h'', if_neg (by norm_num), if_pos rfl]; exact (b 8).trans rfl

/-- **C121.**  `source_name_finder` is undone by the choice of the benchmark, up to the two names
that the two lists spell differently. -/
theorem c121_finder {name : String} {a : List ℤ} (h : sourceNameFinder name = some a) :
    benchSource a = some (if name = "square_s" then "square_source"
      else if name = "gaussian_s" then "gaussian_source" else name) := by
  unfold sourceNameFinder at h
  split_ifs at h with hm
  rw [Option.some.injEq] at h
  subst h
  revert hm
  have : ∀ n ∈ finderNames, benchSource (unitArray (finderNames.idxOf n)) =
      some (if n = "square_s" then "square_source"
        else if n = "gaussian_s" then "gaussian_source" else n) := by
    unfold finderNames; decide
  exact this name

example : FirstClosest [0, 3, 2, 1, 1] 3 := sourceIndex_iff.mp (by decide)
example : NamedSource (driverSource "gaussian_source") "gaussian_s" := ⟨5, rfl, rfl, by decide⟩
example : sourceNameFinder "P1_gaussian_rad" = some (unitArray 10) := by decide

/-! ### C122 -/

theorem mainInner_spec {R : Type} (cfg : RunConfig R) (u m : Bool) (clock : ℕ → ℕ → ℝ) (nr : ℕ) :
    ∀ (k n : ℕ), n + k = cfg.nPos → ∀ (o : SolverObject R),
      (∀ o', mainInner cfg u m clock nr (List.range' n k) o = some o' →
        (∀ c, o'.times c = if n ≤ c ∧ c < cfg.nPos then o.times c + clock nr c / cfg.nRuns
          else o.times c) ∧
        (0 < k → cfg.solve u m (cfg.nPos - 1) = o'.results ∧ o'.results.isSome) ∧
        (k = 0 → o' = o)) ∧
      ((mainInner cfg u m clock nr (List.range' n k) o).isSome ↔
        ∀ c, n ≤ c → c < cfg.nPos → (cfg.solve u m c).isSome) := by
  intro k
  induction k with
  | zero =>
    intro n hn o
    simp only [List.range'_zero, mainInner, Option.some.injEq, Option.isSome_some, true_iff]
    refine ⟨?_, fun c h1 h2 => absurd h2 (by omega)⟩
    rintro o' rfl
    exact ⟨fun c => (if_neg (by omega)).symm, fun h => absurd h (lt_irrefl _), fun _ => rfl⟩
  | succ k ih =>
    intro n hn o
    rw [List.range'_succ, mainInner]
    cases hs : cfg.solve u m n with
    | none =>
      have : mainPosition cfg u m clock nr n o = none := by simp [mainPosition, hs]
      rw [this]
      simp only [Option.bind_none, reduceCtorEq, false_implies, implies_true, true_and,
        Option.isSome_none, Bool.false_eq_true, false_iff]
      intro h
      have := h n le_rfl (by omega)
      rw [hs] at this
      simp at this
    | some r =>
      have e : mainPosition cfg u m clock nr n o = some
          { results := if n + 1 = cfg.nPos then some r else o.results
            times := Function.update o.times n (o.times n + clock nr n / cfg.nRuns) } := by
        simp [mainPosition, hs]
      rw [e, Option.bind_some]
      obtain ⟨h1, h2⟩ := ih (n + 1) (by omega)
        { results := if n + 1 = cfg.nPos then some r else o.results
          times := Function.update o.times n (o.times n + clock nr n / cfg.nRuns) }
      refine ⟨fun o' ho => ?_, h2.trans ⟨fun h c hc hc' => ?_, fun h c hc hc' =>
        h c (by omega) hc'⟩⟩
      · obtain ⟨g1, g2, g3⟩ := h1 o' ho
        refine ⟨fun c => ?_, fun _ => ?_, fun h => absurd h (by omega)⟩
        · rw [g1 c]
          by_cases hc : c = n
          · subst hc
            rw [if_neg (show ¬ (c + 1 ≤ c ∧ c < cfg.nPos) by omega),
              if_pos (show c ≤ c ∧ c < cfg.nPos by omega)]
            exact Function.update_self _ _ _
          · simp only [Function.update_of_ne hc]
            by_cases hc' : n + 1 ≤ c ∧ c < cfg.nPos
            · rw [if_pos hc', if_pos (by omega)]
            · rw [if_neg hc', if_neg (by omega)]
        · by_cases hk : 0 < k
          · exact g2 hk
          · have hk0 : k = 0 := by omega
            have hp : n + 1 = cfg.nPos := by omega
            rw [g3 hk0]
            simp only [if_pos hp]
            have : cfg.nPos - 1 = n := by omega
            rw [this, hs]
            simp
      · by_cases he : c = n
        · rw [he, hs]; rfl
        · exact h c (by omega) hc'

theorem mainInner_range {R : Type} (cfg : RunConfig R) (u m : Bool) (clock : ℕ → ℕ → ℝ) (nr : ℕ)
    (o : SolverObject R) :
    (∀ o', mainInner cfg u m clock nr (List.range cfg.nPos) o = some o' →
      (∀ c < cfg.nPos, o'.times c = o.times c + clock nr c / cfg.nRuns) ∧
      (0 < cfg.nPos → cfg.solve u m (cfg.nPos - 1) = o'.results ∧ o'.results.isSome) ∧
      (cfg.nPos = 0 → o' = o)) ∧
    ((mainInner cfg u m clock nr (List.range cfg.nPos) o).isSome ↔
      ∀ c < cfg.nPos, (cfg.solve u m c).isSome) := by
  have := mainInner_spec cfg u m clock nr cfg.nPos 0 (by omega) o
  rw [← List.range_eq_range'] at this
  obtain ⟨h1, h2⟩ := this
  refine ⟨fun o' ho => ?_, h2.trans ⟨fun h c hc => h c (Nat.zero_le _) hc, fun h c _ hc => h c hc⟩⟩
  obtain ⟨g1, g2, g3⟩ := h1 o' ho
  exact ⟨fun c hc => by rw [g1 c, if_pos ⟨Nat.zero_le _, hc⟩], g2, g3⟩

theorem mainOuter_spec {R : Type} (cfg : RunConfig R) (u m : Bool) (clock : ℕ → ℕ → ℝ) :
    ∀ (l : List ℕ) (o : SolverObject R),
      (∀ o', mainOuter cfg u m clock l o = some o' →
        (∀ c < cfg.nPos, o'.times c = o.times c + (l.map (fun nr => clock nr c / cfg.nRuns)).sum) ∧
        (l ≠ [] → 0 < cfg.nPos → cfg.solve u m (cfg.nPos - 1) = o'.results ∧ o'.results.isSome) ∧
        (l = [] ∨ cfg.nPos = 0 → o' = o)) ∧
      ((mainOuter cfg u m clock l o).isSome ↔ l = [] ∨ ∀ c < cfg.nPos, (cfg.solve u m c).isSome)
  | [], o => by
    simp only [mainOuter, Option.some.injEq, List.map_nil, List.sum_nil, add_zero, ne_eq,
      not_true_eq_false, false_implies, true_or, true_implies, Option.isSome_some, and_true]
    rintro o' rfl
    exact ⟨fun _ _ => rfl, trivial, rfl⟩
  | nr :: l, o => by
    rw [mainOuter]
    obtain ⟨h1, h2⟩ := mainInner_range cfg u m clock nr o
    cases hi : mainInner cfg u m clock nr (List.range cfg.nPos) o with
    | none =>
      rw [hi] at h2
      simp only [Option.bind_none, reduceCtorEq, false_implies, implies_true, true_and,
        Option.isSome_none, Bool.false_eq_true, false_iff, false_or]
      simpa using h2
    | some o1 =>
      rw [hi] at h2
      rw [Option.bind_some]
      obtain ⟨g1, g2, g3⟩ := h1 o1 hi
      obtain ⟨k1, k2⟩ := mainOuter_spec cfg u m clock l o1
      have hall : ∀ c < cfg.nPos, (cfg.solve u m c).isSome := by simpa using h2
      refine ⟨fun o' ho => ?_, ?_⟩
      · obtain ⟨f1, f2, f3⟩ := k1 o' ho
        refine ⟨fun c hc => ?_, fun _ hp => ?_, fun h => ?_⟩
        · rw [f1 c hc, g1 c hc, List.map_cons, List.sum_cons, add_assoc]
        · by_cases hl : l = []
          · rw [f3 (Or.inl hl)]; exact g2 hp
          · exact f2 hl hp
        · rcases h with h | h
          · simp at h
          · rw [f3 (Or.inr h), g3 h]
      · rw [k2]
        exact ⟨fun _ => Or.inr hall, fun _ => Or.inr hall⟩

/-- **C122.**  A call of `main` fails exactly when some `solve` fails; otherwise the object holds
the results of the last entry of `N_angles` with the switches of the call, and to the time of every
entry the average of the measured times is added. -/
theorem c122_main {R : Type} (cfg : RunConfig R) (u m : Bool) (clock : ℕ → ℕ → ℝ)
    (o : SolverObject R) (hr : 0 < cfg.nRuns) (hp : 0 < cfg.nPos) :
    ((mainCall cfg u m clock o).isSome ↔ ∀ c < cfg.nPos, (cfg.solve u m c).isSome) ∧
    ∀ o', mainCall cfg u m clock o = some o' →
      o'.results = cfg.solve u m (cfg.nPos - 1) ∧ o'.results.isSome ∧
      ∀ c < cfg.nPos, o'.times c =
        o.times c + (∑ nr ∈ Finset.range cfg.nRuns, clock nr c) / cfg.nRuns := by
  obtain ⟨h1, h2⟩ := mainOuter_spec cfg u m clock (List.range cfg.nRuns) o
  have hne : List.range cfg.nRuns ≠ [] := by
    rw [Ne, List.range_eq_nil]; omega
  refine ⟨h2.trans (by simp [hne]), fun o' ho => ?_⟩
  obtain ⟨g1, g2, -⟩ := h1 o' ho
  refine ⟨(g2 hne hp).1.symm, (g2 hne hp).2, fun c hc => ?_⟩
  rw [g1 c hc, Finset.sum_div]
  rfl

theorem runCall_shown {R : Type} {e : Option (R × List ℝ)} {c : RunCall R}
    {e' : Option (R × List ℝ)} (h : runCall e c = some e') :
    ∃ shown, runShown e c = some shown ∧ e' = shown := by
  obtain ⟨shown, h1, h2⟩ := Option.bind_eq_some_iff.mp h
  refine ⟨shown, h1, ?_⟩
  by_cases hq : c.square = true
  · rw [if_pos hq] at h2
    obtain ⟨_, -, h7⟩ := Option.map_eq_some_iff.mp h2
    exact h7.symm
  · rw [if_neg hq] at h2
    exact (Option.some.inj h2).symm

theorem runCall_plain {R : Type} {e : Option (R × List ℝ)} {c : RunCall R}
    {e' : Option (R × List ℝ)} (h : runCall e c = some e') (ha : c.all = false)
    (hr : 0 < c.cfg.nRuns) (hp : 0 < c.cfg.nPos) :
    ∃ r, c.cfg.solve c.uncollided c.moving (c.cfg.nPos - 1) = some r ∧ e' = some (r, c.cfg.x0) := by
  obtain ⟨shown, h1, he⟩ := runCall_shown h
  unfold runShown at h1
  rw [ha, if_neg (by decide)] at h1
  obtain ⟨o, h3, h4⟩ := Option.bind_eq_some_iff.mp h1
  obtain ⟨r, h5, h6⟩ := Option.map_eq_some_iff.mp h4
  obtain ⟨g1, -, -⟩ := (c122_main c.cfg c.uncollided c.moving (c.clock 0) _ hr hp).2 o h3
  exact ⟨r, g1 ▸ h5, he.trans h6.symm⟩

/-- **C122.**  After an ordinary call of one of the methods, whatever was called before on the
object, the results it shows are those of the last entry of `N_angles` of that call. -/
theorem c122_results {R : Type} {e e' : Option (R × List ℝ)} {cs : List (RunCall R)}
    {c : RunCall R} (h : runCalls e (cs ++ [c]) = some e') (ha : c.all = false)
    (hr : 0 < c.cfg.nRuns) (hp : 0 < c.cfg.nPos) :
    ∃ r, c.cfg.solve c.uncollided c.moving (c.cfg.nPos - 1) = some r ∧ e' = some (r, c.cfg.x0) := by
  induction cs generalizing e with
  | nil =>
    simp only [List.nil_append, runCalls] at h
    obtain ⟨e1, h1, h2⟩ := Option.bind_eq_some_iff.mp h
    rw [Option.some.injEq] at h2
    exact h2 ▸ runCall_plain h1 ha hr hp
  | cons c' cs ih =>
    rw [List.cons_append, runCalls] at h
    obtain ⟨e1, -, h2⟩ := Option.bind_eq_some_iff.mp h
    exact ih h2

/-- **C122.**  A call with `All = True` makes four runs and shows none of them: the object keeps
the results it had before. -/
theorem c122_all_keeps {R : Type} {e e' : Option (R × List ℝ)} {c : RunCall R}
    (h : runCall e c = some e') (ha : c.all = true) : e' = e := by
  obtain ⟨shown, h1, he⟩ := runCall_shown h
  unfold runShown at h1
  rw [ha, if_pos rfl] at h1
  obtain ⟨_, -, h4⟩ := Option.map_eq_some_iff.mp h1
  exact he.trans h4.symm

/-- **C122.**  `square_source(All = True)` as the first call on an object fails, after the four
runs. -/
theorem c122_square_all_fails {R : Type} {c : RunCall R} (ha : c.all = true)
    (hs : c.square = true) : runCall (none : Option (R × List ℝ)) c = none := by
  unfold runCall runShown
  rw [ha, hs, if_pos rfl]
  cases mainAll c.cfg c.clock (SolverObject.new R) with
  | none => rfl
  | some o => rfl

/-- **C122.**  `square_source` with several entries in `x0` fails after its runs. -/
theorem c122_square_many_fails {R : Type} (exposed : Option (R × List ℝ)) {c : RunCall R}
    (ha : c.all = false) (hs : c.square = true) (hx : 2 ≤ c.cfg.x0.length) : runCall exposed c = none := by
  unfold runCall runShown
  rw [ha, hs, if_neg (by decide)]
  cases mainCall c.cfg c.uncollided c.moving (c.clock 0) (SolverObject.new R) with
  | none => rfl
  | some o =>
    cases h : o.results with
    | none => simp [h]
    | some r =>
      simp only [Option.bind_some, h, Option.map_some, if_true, squareCheck]
      rw [if_neg (by omega)]
      rfl

/-- **C122.**  After the four runs of `All = True` the times of the solver object are the sums of
the averages of the four runs, not an average. -/
theorem c122_all_times {R : Type} (cfg : RunConfig R) (clock : ℕ → ℕ → ℕ → ℝ)
    (hr : 0 < cfg.nRuns) (hp : 0 < cfg.nPos) {o : SolverObject R}
    (h : mainAll cfg clock (SolverObject.new R) = some o) :
    o.results = cfg.solve false false (cfg.nPos - 1) ∧
    ∀ c < cfg.nPos, o.times c =
      ∑ k ∈ Finset.range 4, (∑ nr ∈ Finset.range cfg.nRuns, clock k nr c) / cfg.nRuns := by
  unfold mainAll at h
  simp only [Option.bind_eq_bind] at h
  obtain ⟨o1, h1, h⟩ := Option.bind_eq_some_iff.mp h
  obtain ⟨o2, h2, h⟩ := Option.bind_eq_some_iff.mp h
  obtain ⟨o3, h3, h⟩ := Option.bind_eq_some_iff.mp h
  obtain ⟨-, -, t1⟩ := (c122_main cfg _ _ _ _ hr hp).2 o1 h1
  obtain ⟨-, -, t2⟩ := (c122_main cfg _ _ _ _ hr hp).2 o2 h2
  obtain ⟨-, -, t3⟩ := (c122_main cfg _ _ _ _ hr hp).2 o3 h3
  obtain ⟨r4, -, t4⟩ := (c122_main cfg _ _ _ _ hr hp).2 o h
  refine ⟨r4, fun c hc => ?_⟩
  rw [t4 c hc, t3 c hc, t2 c hc, t1 c hc]
  simp [Finset.sum_range_succ, SolverObject.new]

/-- A call with two entries of `N_angles` and three repetitions. -/
def smallCall (square all : Bool) : RunCall ℕ where
  cfg := ⟨3, 2, [1], fun u m c => some (c + (if u then 10 else 0) + (if m then 100 else 0))⟩
  square := square
  all := all
  uncollided := true
  moving := false
  clock := fun _ _ _ => 1

example : ∃ e', runCalls none [smallCall false true, smallCall true false] = some e' ∧
    (smallCall true false).all = false ∧ 0 < (smallCall true false).cfg.nRuns ∧
    0 < (smallCall true false).cfg.nPos :=
  ⟨some (11, [1]), by
    simp [runCalls, runCall, runShown, smallCall, mainAll, mainCall, mainOuter, mainInner, mainPosition,
      List.range_succ, squareCheck], rfl, by decide, by decide⟩

/-- Two half widths. -/
example : ∃ c : RunCall ℕ, c.all = false ∧ c.square = true ∧ 2 ≤ c.cfg.x0.length :=
  ⟨{ smallCall true false with cfg := { (smallCall true false).cfg with x0 := [0.5, 1] } }, rfl, rfl, le_rfl⟩

end Verif.Props
