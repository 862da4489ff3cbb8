import Verif.Model.ErrorTables
import Verif.Lemmas.Saving
import Mathlib.Tactic.NormNum

/-!
# Saved tables of errors (C120)
-/

namespace Verif.Props

open Verif.Model Verif.Lemmas

/-! ### What is asked for, in terms of the inputs -/

/-- The six sources of the package, in the order of `source_type`. -/
def sixNames : List String :=
  ["plane_IC", "square_IC", "square_s", "gaussian_IC", "MMS", "gaussian_s"]

/-- The first `1` in `source_type` stands at the position of this source. -/
def NamedSource (st : List ℤ) (name : String) : Prop :=
  ∃ i : ℕ, sixNames[i]? = some name ∧ st[i]? = some 1 ∧ ∀ j < i, st[j]? ≠ some 1

/-- The whole part of the cross section is 300. -/
def ThickGaussian (r : TableCall) : Prop := 300 ≤ r.sigma ∧ r.sigma < 301

/-- The name asked for is the name of the source of the saved table. -/
def AsksSource (s : String) (r : TableCall) : Prop :=
  (r.angles = none ∧ NamedSource r.sourceType s) ∨
  (r.angles = none ∧ NamedSource r.sourceType "square_s" ∧
    (s = "su_olson" ∨ s = "su_olson_energy")) ∨
  (r.angles = some 2 ∧ ¬ ThickGaussian r ∧ r.x0 ≠ 400 ∧ NamedSource r.sourceType "square_s" ∧
    (s = "su_olson_s2" ∨ s = "su_olson_energy_s2")) ∨
  (r.angles = some 2 ∧ ¬ ThickGaussian r ∧ r.x0 ≠ 400 ∧ NamedSource r.sourceType "gaussian_s" ∧
    (s = "gaussian_s2" ∨ s = "gaussian_energy_s2")) ∨
  (r.angles = some 2 ∧ ThickGaussian r ∧ (∃ n, NamedSource r.sourceType n) ∧
    (s = "gaussian_s_thick_s2" ∨ s = "gaussian_s_thick_s2_energy")) ∨
  (r.angles = some 8 ∧ ThickGaussian r ∧ (∃ n, NamedSource r.sourceType n) ∧
    (s = "gaussian_s_thick_s8" ∨ s = "gaussian_s_thick_s8_energy")) ∨
  (r.angles = some 2 ∧ ¬ ThickGaussian r ∧ r.x0 = 400 ∧ (∃ n, NamedSource r.sourceType n) ∧
    (s = "su_olson_thick_s2" ∨ s = "su_olson_thick_s2_energy")) ∨
  (r.angles = some 8 ∧ ¬ ThickGaussian r ∧ r.x0 = 400 ∧ (∃ n, NamedSource r.sourceType n) ∧
    (s = "su_olson_thick_s8" ∨ s = "su_olson_thick_s8_energy"))

/-- The time asked for is the time of the saved table. -/
def AsksTime (t : Str) (r : TableCall) : Prop :=
  (∃ n : ℕ, r.tfinal = n ∧ t = (toString n).toList) ∨
  (r.angles = none ∧ r.major = "cells" ∧ r.tfinal = 1.25 ∧ t = "1.25".toList) ∨
  (r.angles = none ∧ r.major = "cells" ∧ r.tfinal = 0.8333333333333334 ∧
    t = "0.8333333333333334".toList)

/-- The plotter is asked for this table. -/
structure AsksTable (q : TableQuery) (r : TableCall) : Prop where
  major : q.major = r.major
  uncollided : q.uncollided = r.uncollided
  moving : q.moving = r.moving
  order : r.major = "cells" → r.Ms.head? = some q.M
  source : AsksSource q.source r
  time : AsksTime q.time r

/-- All lists have one entry per run. -/
structure TableSized (r : TableCall) : Prop where
  Ms : r.Ms.length = r.nSpaces.length
  rms : r.rms.length = r.nSpaces.length
  nAngles : r.nAngles.length = r.nSpaces.length
  times : r.times.length = r.nSpaces.length
  energyRms : r.energyRms.length = r.nSpaces.length

/-- The table as it should come back, in single precision. -/
noncomputable def wantedTable (single : ℝ → ℝ) (r : TableCall) (s : String) : TableLoad where
  cells := r.nSpaces.map (fun k => single k)
  Ms := if r.major = "cells" then none else some (r.Ms.map (fun k => single k))
  rms := r.rms.map single
  angles := r.nAngles.map (fun k => single k)
  times := r.times.map single
  energyRms := if s ∈ suOlsonNames then some (r.energyRms.map single) else none

/-- Several saves, one after the other. -/
noncomputable def saveTables (single : ℝ → ℝ) (d : Disk) : List TableCall → Option Disk
  | [] => some d
  | r :: rs => (saveTable single d r).bind (fun d => saveTables single d rs)

/-- Two saves that go to one and the same dataset. -/
structure SamePlace (r r' : TableCall) : Prop where
  file : tableFile r.problemType = tableFile r'.problemType
  source : tableSource r = tableSource r'
  time : tableTime r = tableTime r'
  angles : r.angles = r'.angles
  major : r.major = "cells" ↔ r'.major = "cells"
  uncollided : r.uncollided = r'.uncollided
  moving : r.moving = r'.moving
  order : r.major = "cells" → r.Ms.head? = r'.Ms.head?

/-! ### Names and paths -/

theorem slash_not_intStr (n : ℤ) : '/' ∉ intStr n := by
  unfold intStr
  cases n with
  | ofNat m => exact slash_not_digits m
  | negSucc m =>
    have : (toString (Int.negSucc m)).toList = '-' :: (toString (m + 1)).toList := by
      change ("-" ++ toString (m + 1)).toList = _
      simp
    rw [this, List.mem_cons, not_or]
    exact ⟨by decide, slash_not_digits _⟩

theorem slash_not_tableTime (r : TableCall) : '/' ∉ tableTime r := by
  unfold tableTime
  split_ifs
  · decide
  · decide
  · exact slash_not_intStr _
  · exact slash_not_intStr _

theorem slash_not_tableName (b u m : Bool) (M : ℕ) : '/' ∉ tableName b u m M := by
  have := slash_not_digits M
  unfold tableName
  cases b <;> cases u <;> cases m <;> simp_all

theorem tableName_ne_nil (b u m : Bool) (M : ℕ) : tableName b u m M ≠ [] := by
  unfold tableName
  cases b <;> cases u <;> cases m <;> simp

/-- The place of a table in its file. -/
def tablePath (source time : Str) (angles : Option ℕ) (name : Str) : H5Path :=
  source :: ("t=".toList ++ time) :: "RMS".toList ::
    ((angles.toList.map (fun a => "S".toList ++ (toString a).toList)) ++ [name])

theorem splitPath_cons (a s : Str) (h : '/' ∉ a) (h0 : a ≠ []) :
    splitPath [] (a ++ '/' :: s) = a :: splitPath [] s := by
  rw [splitPath_append a h, List.nil_append, splitPath, if_pos rfl, if_neg h0]

theorem splitPath_group {source time : Str} (hs : '/' ∉ source) (hs0 : source ≠ [])
    (ht : '/' ∉ time) (angles : Option ℕ) :
    splitPath [] (tableGroup source time angles) =
      source :: ("t=".toList ++ time) :: "RMS".toList ::
        (angles.toList.map (fun a => "S".toList ++ (toString a).toList)) := by
  have ht' : '/' ∉ "t=".toList ++ time := by simp_all
  have ht0 : "t=".toList ++ time ≠ [] := by simp
  cases angles with
  | none =>
    have : tableGroup source time none =
        source ++ '/' :: (("t=".toList ++ time) ++ '/' :: "RMS".toList) := by
      unfold tableGroup; simp
    rw [this, splitPath_cons _ _ hs hs0, splitPath_cons _ _ ht' ht0,
      splitPath_single _ (by decide) (by decide)]
    rfl
  | some a =>
    have : tableGroup source time (some a) = source ++ '/' :: (("t=".toList ++ time) ++
        '/' :: ("RMS".toList ++ '/' :: ("S".toList ++ (toString a).toList))) := by
      unfold tableGroup; simp
    rw [this, splitPath_cons _ _ hs hs0, splitPath_cons _ _ ht' ht0,
      splitPath_cons _ _ (by decide) (by decide), splitPath_single]
    · rfl
    · have := slash_not_digits a
      simp_all
    · simp

theorem splitPath_group_name {source time name : Str} (hs : '/' ∉ source) (hs0 : source ≠ [])
    (ht : '/' ∉ time) (angles : Option ℕ) (hn : '/' ∉ name) (hn0 : name ≠ []) :
    splitPath [] (tableGroup source time angles ++ "/".toList ++ name) =
      tablePath source time angles name := by
  have ht' : '/' ∉ "t=".toList ++ time := by simp_all
  have ht0 : "t=".toList ++ time ≠ [] := by simp
  cases angles with
  | none =>
    have : tableGroup source time none ++ "/".toList ++ name =
        source ++ '/' :: (("t=".toList ++ time) ++ '/' :: ("RMS".toList ++ '/' :: name)) := by
      unfold tableGroup; simp
    rw [this, splitPath_cons _ _ hs hs0, splitPath_cons _ _ ht' ht0,
      splitPath_cons _ _ (by decide) (by decide), splitPath_single _ hn hn0]
    rfl
  | some a =>
    have : tableGroup source time (some a) ++ "/".toList ++ name =
        source ++ '/' :: (("t=".toList ++ time) ++ '/' :: ("RMS".toList ++
          '/' :: (("S".toList ++ (toString a).toList) ++ '/' :: name))) := by
      unfold tableGroup; simp
    rw [this, splitPath_cons _ _ hs hs0, splitPath_cons _ _ ht' ht0,
      splitPath_cons _ _ (by decide) (by decide), splitPath_cons, splitPath_single _ hn hn0]
    · rfl
    · have := slash_not_digits a
      simp_all
    · simp

theorem head_ne_of_slash {a : Str} (h : '/' ∉ a) : a.head? ≠ some '/' := fun h' =>
  h (List.mem_of_head? h')

theorem resolve_saved {source time name : Str} (hs : '/' ∉ source) (hs0 : source ≠ [])
    (ht : '/' ∉ time) (angles : Option ℕ) (hn : '/' ∉ name) (hn0 : name ≠ []) :
    resolve (splitPath [] (tableGroup source time angles)) name =
      tablePath source time angles name := by
  unfold resolve
  rw [if_neg (head_ne_of_slash hn), splitPath_group hs hs0 ht, splitPath_single _ hn hn0]
  rfl

theorem resolve_loaded {source time name : Str} (hs : '/' ∉ source) (hs0 : source ≠ [])
    (ht : '/' ∉ time) (angles : Option ℕ) (hn : '/' ∉ name) (hn0 : name ≠ []) :
    resolve [] (tableGroup source time angles ++ "/".toList ++ name) =
      tablePath source time angles name := by
  unfold resolve
  rw [splitPath_group_name hs hs0 ht angles hn hn0]
  split_ifs <;> rfl

/-- The name of a table determines what kind of table it is. -/
theorem tableName_inj {b b' u u' m m' : Bool} {M M' : ℕ}
    (h : tableName b u m M = tableName b' u' m' M') :
    b = b' ∧ u = u' ∧ m = m' ∧ (b = true → M = M') := by
  unfold tableName at h
  cases b <;> cases b' <;> cases u <;> cases u' <;> cases m <;> cases m' <;>
    simp at h ⊢
  all_goals exact toString_nat_inj (by simpa using h)

theorem tablePath_inj {s s' t t' n n' : Str} {a a' : Option ℕ}
    (h : tablePath s t a n = tablePath s' t' a' n') : s = s' ∧ t = t' ∧ a = a' ∧ n = n' := by
  unfold tablePath at h
  simp only [List.cons.injEq, List.append_cancel_left_eq, true_and] at h
  obtain ⟨h1, h2, h3⟩ := h
  refine ⟨h1, h2, ?_⟩
  cases a <;> cases a'
  · simpa using h3
  · simp at h3
  · simp at h3
  · simp only [Option.toList_some, List.map_cons, List.map_nil, List.cons_append, List.nil_append,
      List.cons.injEq, List.append_cancel_left_eq, and_true] at h3
    exact ⟨congrArg some (toString_nat_inj h3.1), h3.2⟩

/-! ### Sources and times -/

theorem argminFrom_zero (vs : List ℤ) (i best : ℕ) : argminFrom vs i 0 best = best := by
  induction vs generalizing i with
  | nil => rfl
  | cons v vs ih => rw [argminFrom, if_neg (not_lt.mpr (abs_nonneg _)), ih]

theorem argminFrom_first : ∀ (vs : List ℤ) (i best k : ℕ) (bv : ℤ), 0 < bv →
    vs[k]? = some 1 → (∀ j < k, vs[j]? ≠ some 1) → argminFrom vs i bv best = i + k
  | [], _, _, _, _, _, h, _ => by simp at h
  | v :: vs, i, best, 0, bv, hb, h, _ => by
    simp only [List.getElem?_cons_zero, Option.some.injEq] at h
    subst h
    rw [argminFrom, if_pos (by simpa using hb)]
    simpa using argminFrom_zero vs (i + 1) i
  | v :: vs, i, best, k + 1, bv, hb, h, hj => by
    have hv : v ≠ 1 := fun hv => hj 0 (Nat.succ_pos _) (by simp [hv])
    have hpos : 0 < |v - 1| := abs_pos.mpr (sub_ne_zero.mpr hv)
    have h' : vs[k]? = some 1 := by simpa using h
    have hj' : ∀ j < k, vs[j]? ≠ some 1 := fun j hjk => by
      have := hj (j + 1) (by omega)
      simpa using this
    rw [argminFrom]
    split_ifs
    · rw [argminFrom_first vs (i + 1) i k _ hpos h' hj']; omega
    · rw [argminFrom_first vs (i + 1) best k _ hb h' hj']; omega

theorem savedSourceName_of_named {st : List ℤ} {name : String} (h : NamedSource st name) :
    savedSourceName st = some name.toList := by
  obtain ⟨i, hi, h1, hj⟩ := h
  have hidx : sourceIndex st = some i := by
    cases st with
    | nil => simp at h1
    | cons v vs =>
      rw [sourceIndex]
      congr 1
      cases i with
      | zero =>
        simp only [List.getElem?_cons_zero, Option.some.injEq] at h1
        subst h1
        simpa using argminFrom_zero vs 1 0
      | succ k =>
        have hv : v ≠ 1 := fun hv => hj 0 (Nat.succ_pos _) (by simp [hv])
        rw [argminFrom_first vs 1 0 k _ (abs_pos.mpr (sub_ne_zero.mpr hv)) (by simpa using h1)
          (fun j hjk => by have := hj (j + 1) (by omega); simpa using this)]
        omega
  unfold savedSourceName
  rw [hidx, Option.bind_some]
  have : sourceNameList = sixNames.map String.toList := by decide
  rw [this, List.getElem?_map, hi]
  rfl

theorem truncate_thick (r : TableCall) : truncate r.sigma = 300 ↔ ThickGaussian r := by
  unfold truncate ThickGaussian
  split_ifs with h
  · rw [Int.floor_eq_iff]; norm_num
  · rw [Int.ceil_eq_iff]
    constructor
    · rintro ⟨h1, -⟩; norm_num at h1; exact absurd h (by push Not; linarith)
    · rintro ⟨h1, -⟩; exact absurd h (by push Not; linarith)

theorem truncate_nat (n : ℕ) : truncate (n : ℝ) = n := by
  unfold truncate
  rw [if_pos (Nat.cast_nonneg n)]
  exact Int.floor_natCast n

theorem named_mem {st : List ℤ} {s : String} (h : NamedSource st s) : s ∈ sixNames := by
  obtain ⟨i, hi, -⟩ := h
  exact List.mem_of_getElem? hi

theorem loadedGroup_named : ∀ s ∈ sixNames, loadedGroup s = (s.toList, none) := by
  unfold sixNames; decide

theorem source_of_asks {s : String} {r : TableCall} (h : AsksSource s r) :
    tableSource r = some (loadedGroup s).1 ∧ r.angles = (loadedGroup s).2 := by
  unfold tableSource
  rcases h with ⟨ha, hn⟩ | ⟨ha, hn, hs⟩ | ⟨ha, ht, hx, hn, hs⟩ | ⟨ha, ht, hx, hn, hs⟩ |
    ⟨ha, ht, ⟨n, hn⟩, hs⟩ | ⟨ha, ht, ⟨n, hn⟩, hs⟩ | ⟨ha, ht, hx, ⟨n, hn⟩, hs⟩ |
    ⟨ha, ht, hx, ⟨n, hn⟩, hs⟩
  · rw [savedSourceName_of_named hn, ha, loadedGroup_named s (named_mem hn)]
    exact ⟨rfl, rfl⟩
  · rw [savedSourceName_of_named hn, ha]
    simp only [Option.bind_eq_bind, Option.bind_some]
    rcases hs with rfl | rfl <;> decide
  · rw [← truncate_thick] at ht
    rw [savedSourceName_of_named hn, ha]
    simp only [Option.bind_eq_bind, Option.bind_some, if_neg ht, if_neg hx]
    rcases hs with rfl | rfl <;> decide
  · rw [← truncate_thick] at ht
    rw [savedSourceName_of_named hn, ha]
    simp only [Option.bind_eq_bind, Option.bind_some, if_neg ht, if_neg hx]
    rcases hs with rfl | rfl <;> decide
  · rw [← truncate_thick] at ht
    rw [savedSourceName_of_named hn, ha]
    simp only [Option.bind_eq_bind, Option.bind_some, if_pos ht]
    rcases hs with rfl | rfl <;> decide
  · rw [← truncate_thick] at ht
    rw [savedSourceName_of_named hn, ha]
    simp only [Option.bind_eq_bind, Option.bind_some, if_pos ht]
    rcases hs with rfl | rfl <;> decide
  · rw [← truncate_thick] at ht
    rw [savedSourceName_of_named hn, ha]
    simp only [Option.bind_eq_bind, Option.bind_some, if_neg ht, if_pos hx]
    rcases hs with rfl | rfl <;> decide
  · rw [← truncate_thick] at ht
    rw [savedSourceName_of_named hn, ha]
    simp only [Option.bind_eq_bind, Option.bind_some, if_neg ht, if_pos hx]
    rcases hs with rfl | rfl <;> decide

theorem time_of_asks {t : Str} {r : TableCall} (h : AsksTime t r) : tableTime r = t := by
  unfold tableTime
  rcases h with ⟨n, hn, rfl⟩ | ⟨ha, hm, hx, rfl⟩ | ⟨ha, hm, hx, rfl⟩
  · have h1 : (n : ℝ) ≠ 1.25 := fun h => by
      have h4 : ((4 * n : ℕ) : ℝ) = ((5 : ℕ) : ℝ) := by push_cast; rw [h]; norm_num
      have := Nat.cast_injective h4
      omega
    have h2 : (n : ℝ) ≠ 0.8333333333333334 := fun h => by
      have h0 : (n : ℝ) < ((1 : ℕ) : ℝ) := by rw [h]; norm_num
      have h0' := Nat.cast_lt.mp h0
      have : n = 0 := by omega
      rw [this] at h
      norm_num at h
    rw [hn, if_neg h1, if_neg h2, truncate_nat, ite_self]
    rfl
  · rw [if_pos ⟨ha, hm⟩, if_pos hx]
  · rw [if_pos ⟨ha, hm⟩, if_neg (by rw [hx]; norm_num), if_pos hx]

theorem tableSource_ok {r : TableCall} {s : Str} (h : tableSource r = some s) :
    '/' ∉ s ∧ s ≠ [] := by
  unfold tableSource at h
  obtain ⟨s0, hn, h⟩ := Option.bind_eq_some_iff.mp h
  have h0 : ∀ a ∈ sourceNameList, '/' ∉ a ∧ a ≠ [] := by unfold sourceNameList; decide
  have hs0 := h0 _ (savedSourceName_mem hn)
  have e1 : '/' ∉ "gaussian_s_thick".toList ∧ "gaussian_s_thick".toList ≠ [] := by decide
  have e2 : '/' ∉ "su_olson_thick".toList ∧ "su_olson_thick".toList ≠ [] := by decide
  cases ha : r.angles with
  | none => rw [ha] at h; exact Option.some.inj h ▸ hs0
  | some a =>
    rw [ha] at h
    change (if truncate r.sigma = 300 then some "gaussian_s_thick".toList
      else if r.x0 = 400 then some "su_olson_thick".toList else some s0) = some s at h
    by_cases h1 : truncate r.sigma = 300
    · rw [if_pos h1] at h; exact Option.some.inj h ▸ e1
    · rw [if_neg h1] at h
      by_cases h2 : r.x0 = 400
      · rw [if_pos h2] at h; exact Option.some.inj h ▸ e2
      · rw [if_neg h2] at h; exact Option.some.inj h ▸ hs0

/-! ### One save -/

theorem putData_eq (f : H5File) (p : H5Path) (a : H5Data) :
    putData f p a = some (fun q => if q = p then some a else f q) := by
  unfold putData
  rw [createDataset_of_none (by simp [deleteIfPresent])]
  congr 1
  funext q
  by_cases h : q = p <;> simp [deleteIfPresent, h]

theorem tableKey_ok {r : TableCall} {k : Str} (h : tableKey r = some k) : '/' ∉ k ∧ k ≠ [] := by
  unfold tableKey at h
  split_ifs at h
  · cases hM : r.Ms.head? with
    | none => rw [hM] at h; simp at h
    | some M =>
      rw [hM] at h
      simp only [Option.map_some, Option.some.injEq] at h
      exact h ▸ ⟨slash_not_tableName _ _ _ _, tableName_ne_nil _ _ _ _⟩
  · rw [Option.some.injEq] at h
    exact h ▸ ⟨slash_not_tableName _ _ _ _, tableName_ne_nil _ _ _ _⟩

/-- What a save does to the files. -/
theorem saveTable_cases {single : ℝ → ℝ} {d d' : Disk} {r : TableCall}
    (h : saveTable single d r = some d') :
    d' = d ∨ ∃ name s f k rows, tableFile r.problemType = some name ∧ tableSource r = some s ∧
      d name = some f ∧ tableKey r = some k ∧ tableRows single r = some rows ∧
      d' = fun n => if n = name then
        some (fun p => if p = tablePath s (tableTime r) r.angles k then some (.mat rows) else f p)
        else d n := by
  unfold saveTable at h
  split_ifs at h
  · right
    cases h1 : tableFile r.problemType with
    | none => rw [h1] at h; simp at h
    | some name =>
    cases h2 : tableSource r with
    | none => rw [h1, h2] at h; simp at h
    | some s =>
    cases h3 : d name with
    | none => rw [h1, h2] at h; simp [h3] at h
    | some f =>
    cases h4 : tableKey r with
    | none => rw [h1, h2] at h; simp [h3, h4] at h
    | some k =>
    cases h5 : tableRows single r with
    | none => rw [h1, h2] at h; simp [h3, h4, h5] at h
    | some rows =>
      refine ⟨name, s, f, k, rows, rfl, rfl, h3, rfl, rfl, ?_⟩
      obtain ⟨hs, hs0⟩ := tableSource_ok h2
      obtain ⟨hk, hk0⟩ := tableKey_ok h4
      rw [h1, h2, h4, h5] at h
      simp only [Option.bind_eq_bind, Option.bind_some, h3, putData_eq, Option.pure_def,
        resolve_saved hs hs0 (slash_not_tableTime r) r.angles hk hk0, Option.some.injEq] at h
      exact h.symm
  · left; exact (Option.some.inj h).symm

theorem saveTable_writes {single : ℝ → ℝ} {d : Disk} {r : TableCall} (hw : TableWanted r)
    {name : String} {s : Str} {f : H5File} {k : Str} {rows : List (List ℝ)}
    (h1 : tableFile r.problemType = some name) (h2 : tableSource r = some s)
    (h3 : d name = some f) (h4 : tableKey r = some k) (h5 : tableRows single r = some rows) :
    saveTable single d r = some (fun n => if n = name then
      some (fun p => if p = tablePath s (tableTime r) r.angles k then some (.mat rows) else f p)
      else d n) := by
  obtain ⟨hs, hs0⟩ := tableSource_ok h2
  obtain ⟨hk, hk0⟩ := tableKey_ok h4
  unfold saveTable
  rw [if_pos hw, h1, h2, h4, h5]
  simp only [Option.bind_eq_bind, Option.bind_some, h3, putData_eq, Option.pure_def,
    resolve_saved hs hs0 (slash_not_tableTime r) r.angles hk hk0]

/-- Saves that go elsewhere leave a dataset alone. -/
theorem saveTables_frame {single : ℝ → ℝ} {name : String} {p : H5Path} :
    ∀ (rs : List TableCall) {d d' : Disk}, saveTables single d rs = some d' →
      ∀ {f : H5File}, d name = some f →
      (∀ r ∈ rs, ∀ s k, tableFile r.problemType = some name → tableSource r = some s →
        tableKey r = some k → p ≠ tablePath s (tableTime r) r.angles k) →
      ∃ f', d' name = some f' ∧ f' p = f p
  | [], d, d', h, f, hf, _ => by
    rw [saveTables, Option.some.injEq] at h
    exact ⟨f, h ▸ hf, rfl⟩
  | r :: rs, d, d', h, f, hf, hp => by
    rw [saveTables] at h
    cases h1 : saveTable single d r with
    | none => rw [h1] at h; simp at h
    | some d1 =>
      rw [h1, Option.bind_some] at h
      rcases saveTable_cases h1 with hd | ⟨name', s, g, k, rows, e1, e2, e3, e4, e5, rfl⟩
      · exact saveTables_frame rs h (hd ▸ hf) (fun r' hr' => hp r' (List.mem_cons_of_mem _ hr'))
      · by_cases hn : name = name'
        · subst hn
          rw [hf, Option.some.injEq] at e3
          subst e3
          have hne := hp r List.mem_cons_self s k e1 e2 e4
          obtain ⟨f', h', he⟩ := saveTables_frame (p := p) rs h (if_pos rfl)
            (fun r' hr' => hp r' (List.mem_cons_of_mem _ hr'))
          exact ⟨f', h', he.trans (if_neg hne)⟩
        · exact saveTables_frame rs h ((if_neg hn).trans hf)
            (fun r' hr' => hp r' (List.mem_cons_of_mem _ hr'))

theorem tableKey_place {r r' : TableCall} {k : Str} (h : tableKey r = some k)
    (h' : tableKey r' = some k) : (r.major = "cells" ↔ r'.major = "cells") ∧
      r.uncollided = r'.uncollided ∧ r.moving = r'.moving ∧
      (r.major = "cells" → r.Ms.head? = r'.Ms.head?) := by
  unfold tableKey at h h'
  by_cases h1 : r.major = "cells" <;> by_cases h2 : r'.major = "cells"
  · rw [if_pos h1] at h
    rw [if_pos h2] at h'
    cases e1 : r.Ms.head? with
    | none => rw [e1] at h; simp at h
    | some M =>
      cases e2 : r'.Ms.head? with
      | none => rw [e2] at h'; simp at h'
      | some M' =>
        rw [e1] at h
        rw [e2] at h'
        simp only [Option.map_some, Option.some.injEq] at h h'
        obtain ⟨-, hu, hm, hM⟩ := tableName_inj (h.trans h'.symm)
        exact ⟨by simp [h1, h2], hu, hm, fun _ => congrArg some (hM rfl)⟩
  · rw [if_pos h1] at h
    rw [if_neg h2, Option.some.injEq] at h'
    cases e1 : r.Ms.head? with
    | none => rw [e1] at h; simp at h
    | some M =>
      rw [e1] at h
      simp only [Option.map_some, Option.some.injEq] at h
      exact absurd (tableName_inj (h.trans h'.symm)).1 (by decide)
  · rw [if_neg h1, Option.some.injEq] at h
    rw [if_pos h2] at h'
    cases e2 : r'.Ms.head? with
    | none => rw [e2] at h'; simp at h'
    | some M' =>
      rw [e2] at h'
      simp only [Option.map_some, Option.some.injEq] at h'
      exact absurd (tableName_inj (h.trans h'.symm)).1 (by decide)
  · rw [if_neg h1, Option.some.injEq] at h
    rw [if_neg h2, Option.some.injEq] at h'
    obtain ⟨-, hu, hm, -⟩ := tableName_inj (h.trans h'.symm)
    exact ⟨by simp [h1, h2], hu, hm, fun hc => absurd hc h1⟩

theorem tableRows_sized {single : ℝ → ℝ} {r : TableCall} (h : TableSized r) :
    tableRows single r = some
      [(if r.major = "cells" then r.nSpaces else r.Ms).map (fun k => single k),
        r.rms.map single, r.nAngles.map (fun k => single k), r.times.map single,
        (if r.major = "cells" then r.Ms else r.nSpaces).map (fun k => single k),
        r.energyRms.map single] := by
  have row : ∀ v : List ℝ, v.length = r.nSpaces.length →
      tableRow single r.nSpaces.length v = some (v.map single) := fun v hv => by
    unfold tableRow; rw [if_pos hv]
  unfold tableRows
  by_cases hm : r.major = "cells"
  · simp only [hm, if_true, row _ h.rms, row _ h.times, row _ h.energyRms,
      row (r.nSpaces.map (fun k => (k : ℝ))) (by simp),
      row (r.Ms.map (fun k => (k : ℝ))) (by simp [h.Ms]),
      row (r.nAngles.map (fun k => (k : ℝ))) (by simp [h.nAngles]), Option.bind_eq_bind,
      Option.bind_some, Option.pure_def, List.map_map]
    rfl
  · simp only [hm, if_false, row _ h.rms, row _ h.times, row _ h.energyRms,
      row (r.nSpaces.map (fun k => (k : ℝ))) (by simp),
      row (r.Ms.map (fun k => (k : ℝ))) (by simp [h.Ms]),
      row (r.nAngles.map (fun k => (k : ℝ))) (by simp [h.nAngles]), Option.bind_eq_bind,
      Option.bind_some, Option.pure_def, List.map_map]
    rfl

/-- What the loader makes of a table found at its place. -/
theorem loadTableFrom_eq {single : ℝ → ℝ} {f : H5File} {q : TableQuery} {r : TableCall}
    (hr : TableSized r) (hwant : r.major = "cells" ∨ r.major = "Ms") (hM : q.major = r.major)
    {s k : Str} (hs : '/' ∉ s) (hs0 : s ≠ []) (hg : loadedGroup q.source = (s, r.angles))
    (ht : '/' ∉ q.time) (hk : k = tableName (r.major == "cells") q.uncollided q.moving q.M)
    {rows : List (List ℝ)} (hrows : tableRows single r = some rows)
    (hf : f (tablePath s q.time r.angles k) = some (.mat rows)) :
    loadTableFrom f q = some (wantedTable single r q.source) := by
  have hn := slash_not_tableName (r.major == "cells") q.uncollided q.moving q.M
  have hn0 := tableName_ne_nil (r.major == "cells") q.uncollided q.moving q.M
  rw [tableRows_sized hr, Option.some.injEq] at hrows
  subst hk
  subst hrows
  unfold loadTableFrom wantedTable
  rcases hwant with hc | hc
  · rw [hc] at hn hn0 hf
    have hb : ("cells" == "cells") = true := by decide
    rw [hb] at hn hn0 hf
    simp only [hM, hc, if_true, Option.bind_eq_bind, Option.bind_some, hg,
      resolve_loaded hs hs0 ht r.angles hn hn0, readMat, hf, List.getElem?_cons_zero,
      List.getElem?_cons_succ, Option.pure_def]
  · have hnc : ¬ ("Ms" = "cells") := by decide
    rw [hc] at hn hn0 hf
    have hb : ("Ms" == "cells") = false := by decide
    rw [hb] at hn hn0 hf
    simp only [hM, hc, if_neg hnc, if_true, Option.bind_eq_bind, Option.bind_some, hg,
      resolve_loaded hs hs0 ht r.angles hn hn0, readMat, hf, List.getElem?_cons_zero,
      List.getElem?_cons_succ, Option.pure_def, Bool.false_eq_true, if_false]

theorem tableKey_of_query {q : TableQuery} {r : TableCall}
    (hu : q.uncollided = r.uncollided) (hm : q.moving = r.moving)
    (ho : r.major = "cells" → r.Ms.head? = some q.M) :
    tableKey r = some (tableName (r.major == "cells") q.uncollided q.moving
      (if r.major = "cells" then q.M else 0)) := by
  unfold tableKey
  by_cases hc : r.major = "cells"
  · rw [if_pos hc, ho hc, hu, hm, if_pos hc, hc]; rfl
  · rw [if_neg hc, hu, hm, if_neg hc]
    have : (r.major == "cells") = false := by simpa using hc
    rw [this]

theorem tableName_zero {r : TableCall} (u m : Bool) (M : ℕ) :
    tableName (r.major == "cells") u m (if r.major = "cells" then M else 0) =
      tableName (r.major == "cells") u m M := by
  by_cases hc : r.major = "cells"
  · rw [if_pos hc]
  · have : (r.major == "cells") = false := by simpa using hc
    rw [this]
    rfl

/-- A table that was saved is read back from the file it was saved in, whatever was saved
elsewhere in between: for queries that name the group of the table. -/
theorem table_back {single : ℝ → ℝ} {d : Disk} {r : TableCall} {q : TableQuery} {name : String}
    {f0 : H5File} (hw : TableWanted r) (hr : TableSized r)
    (hfile : tableFile r.problemType = some name) (hd : d name = some f0)
    (hsrc : tableSource r = some (loadedGroup q.source).1)
    (hang : r.angles = (loadedGroup q.source).2) (htime : tableTime r = q.time)
    (hM : q.major = r.major) (hu : q.uncollided = r.uncollided) (hm : q.moving = r.moving)
    (ho : r.major = "cells" → r.Ms.head? = some q.M) :
    ∃ d1, saveTable single d r = some d1 ∧ ∀ rs d2, saveTables single d1 rs = some d2 →
      (∀ r' ∈ rs, ¬ SamePlace r r') →
      ∃ f, d2 name = some f ∧ loadTableFrom f q = some (wantedTable single r q.source) := by
  have hkey := tableKey_of_query hu hm ho
  rw [tableName_zero] at hkey
  have hrows := tableRows_sized (single := single) hr
  refine ⟨_, saveTable_writes hw hfile hsrc hd hkey hrows, fun rs d2 h2 hne => ?_⟩
  obtain ⟨f, hf, hfp⟩ := saveTables_frame (name := name)
    (p := tablePath (loadedGroup q.source).1 (tableTime r) r.angles
      (tableName (r.major == "cells") q.uncollided q.moving q.M)) rs h2 (if_pos rfl)
    (fun r' hr' s k e1 e2 e3 hp => by
      obtain ⟨p1, p2, p3, p4⟩ := tablePath_inj hp
      subst p1 p4
      obtain ⟨c1, c2, c3, c4⟩ := tableKey_place hkey e3
      exact hne r' hr' ⟨hfile.trans e1.symm, hsrc.trans e2.symm, p2, p3, c1, c2, c3, c4⟩)
  rw [if_pos rfl] at hfp
  obtain ⟨hs, hs0⟩ := tableSource_ok hsrc
  refine ⟨f, hf, loadTableFrom_eq hr hw.1 hM hs hs0 (by rw [hang]) (htime ▸ slash_not_tableTime r)
    rfl hrows ?_⟩
  rw [← htime]; exact hfp

/-! ### C120 -/

/-- **C120.**  In the file it was saved to, a table of errors is found again by the
plotter's reading code when asked for under its own time, source, order and kind: with the numbers
of cells, errors, angles, times (and for the Su-Olson names the material errors) that were saved,
in single precision, whatever tables were saved to other places since.  That the plotter itself reads other files, and
which times are lost, is in the theorems that follow. -/
theorem c120_roundtrip (single : ℝ → ℝ) {d : Disk} {r : TableCall} {q : TableQuery}
    {name : String} {f0 : H5File} (hw : TableWanted r) (hr : TableSized r)
    (hfile : tableFile r.problemType = some name) (hd : d name = some f0) (hq : AsksTable q r) :
    ∃ d1, saveTable single d r = some d1 ∧ ∀ rs d2, saveTables single d1 rs = some d2 →
      (∀ r' ∈ rs, ¬ SamePlace r r') →
      ∃ f, d2 name = some f ∧ loadTableFrom f q = some (wantedTable single r q.source) :=
  table_back hw hr hfile hd (source_of_asks hq.source).1 (source_of_asks hq.source).2
    (time_of_asks hq.time) hq.major hq.uncollided hq.moving hq.order

/-- **C120.**  Saved tables never reach the plotter: whatever tables are saved, what the plotter
loads afterwards is what it would have loaded before. -/
theorem c120_never_loaded (single : ℝ → ℝ) {d d' : Disk} {rs : List TableCall}
    (h : saveTables single d rs = some d') (q : TableQuery) : loadTable d' q = loadTable d q := by
  have key : ∀ (rs : List TableCall) (d d' : Disk), saveTables single d rs = some d' →
      ∀ n, n = "run_data_transport_RMS.h5" ∨ n = "run_data_su_olson_RMS.h5" → d' n = d n := by
    intro rs
    induction rs with
    | nil => intro d d' h n _; rw [saveTables, Option.some.injEq] at h; rw [h]
    | cons r rs ih =>
      intro d d' h n hn
      rw [saveTables] at h
      cases h1 : saveTable single d r with
      | none => rw [h1] at h; simp at h
      | some d1 =>
        rw [h1, Option.bind_some] at h
        rw [ih d1 d' h n hn]
        rcases saveTable_cases h1 with hd | ⟨name, s, g, k, rows, e1, -, -, -, -, rfl⟩
        · rw [hd]
        · refine if_neg ?_
          rintro rfl
          unfold tableFile at e1
          split_ifs at e1 <;> rw [Option.some.injEq] at e1 <;> subst e1 <;>
            revert hn <;> decide
  unfold loadTable
  rw [key rs d d' h _ (Or.inl rfl)]
  have : loadedFile q.source = "run_data_transport_RMS.h5" ∨
      loadedFile q.source = "run_data_su_olson_RMS.h5" := by
    unfold loadedFile; split_ifs
    · exact Or.inr rfl
    · exact Or.inl rfl
  rw [key rs d d' h _ this]

/-- **C120.**  `save_RMS` drops, without failing, the tables of all other final times than 1, 5,
10, 1.25, 0.8333333333333334 and (with the old thermal flag) 31.6228. -/
theorem c120_dropped (single : ℝ → ℝ) (d : Disk) {r : TableCall} (ha : r.angles = none)
    (h : r.tfinal ∉ ({1, 5, 10, 1.25, 0.8333333333333334, 31.6228} : Set ℝ)) :
    saveTable single d r = some d := by
  unfold saveTable
  rw [if_neg]
  rintro ⟨-, h2⟩
  apply h
  rcases h2 ha with h | h | h | h | h | h <;> simp [h]

/-- **C120.**  Two tables over orders that differ in the number of cells, the scattering ratio, the
width of the source, and in that one belongs to time 1 and the other to time 1.25, are kept in one
and the same dataset: the plotter asked for the table of time 1 gets the one of time 1.25. -/
theorem c120_collision (single : ℝ → ℝ) {d : Disk} {r r' : TableCall} {q : TableQuery}
    {name : String} {f0 : H5File} (hw : TableWanted r) (hr : TableSized r) (hr' : TableSized r')
    (hfile : tableFile r.problemType = some name) (hd : d name = some f0) (hq : AsksTable q r)
    (hm : r.major = "Ms") (ht : r.tfinal = 1) (ht' : r'.tfinal = 1.25) (hm' : r'.major = "Ms")
    (h1 : r'.problemType = r.problemType) (h2 : r'.sourceType = r.sourceType)
    (h3 : r'.uncollided = r.uncollided) (h4 : r'.moving = r.moving) (h5 : r'.angles = r.angles)
    (h6 : r'.sigma = r.sigma) (h7 : r'.x0 = r.x0) :
    ∃ d2, saveTables single d [r, r'] = some d2 ∧
      ∃ f, d2 name = some f ∧ loadTableFrom f q = some (wantedTable single r' q.source) := by
  obtain ⟨hs, ha⟩ := source_of_asks hq.source
  have hnc : ¬ ("Ms" = "cells") := by decide
  have hkey := tableKey_of_query hq.uncollided hq.moving hq.order
  have hrows := tableRows_sized (single := single) hr
  have hsave := saveTable_writes (single := single) hw hfile hs hd hkey hrows
  have hs' : tableSource r' = some (loadedGroup q.source).1 := by
    rw [← hs]; unfold tableSource; rw [h2, h5, h6, h7]
  have htime : tableTime r' = q.time := by
    rw [← time_of_asks hq.time]
    unfold tableTime
    rw [if_neg (fun h => hnc (hm' ▸ h.2)), if_neg (fun h => hnc (hm ▸ h.2)), ht, ht']
    congr 1
    unfold truncate
    rw [if_pos (by norm_num), if_pos (by norm_num), Int.floor_one, Int.floor_eq_iff]
    norm_num
  have hw' : TableWanted r' := ⟨Or.inr hm', fun _ => by simp [ht']⟩
  generalize hg : (fun n => if n = name then _ else d n : Disk) = d0 at hsave
  have hd0 : ∃ g, d0 name = some g := ⟨_, by rw [← hg]; exact if_pos rfl⟩
  obtain ⟨g, hd0⟩ := hd0
  obtain ⟨d1, hd1, hback⟩ := table_back (single := single) (d := d0) (r := r') (q := q)
    (name := name) hw' hr' (h1 ▸ hfile) hd0 hs' (h5.trans ha) htime
    (hq.major.trans (hm.trans hm'.symm)) (hq.uncollided.trans h3.symm) (hq.moving.trans h4.symm)
    (fun h => absurd (hm' ▸ h) hnc)
  obtain ⟨f, hf⟩ := hback [] d1 rfl (by simp)
  refine ⟨d1, ?_, f, hf⟩
  rw [saveTables, hsave, Option.bind_some, saveTables, hd1, Option.bind_some, saveTables]

/-- **C120.**  A table saved at time 31.6228 cannot be found under that time: into a file without
tables of that time nothing is ever written that the plotter finds there. -/
theorem c120_wrong_time (single : ℝ → ℝ) {d d' : Disk} {rs : List TableCall} {name : String}
    {f0 f : H5File} (hd : d name = some f0) (h : saveTables single d rs = some d')
    (hf : d' name = some f) {q : TableQuery} (hq : q.time = "31.6228".toList)
    (hs : '/' ∉ (loadedGroup q.source).1) (hs0 : (loadedGroup q.source).1 ≠ [])
    (hempty : loadTableFrom f0 q = none) : loadTableFrom f q = none := by
  have hdot : ∀ n : ℤ, '.' ∉ intStr n := by
    intro n
    unfold intStr
    have hdig : ∀ m : ℕ, '.' ∉ (toString m).toList := fun m hm => by
      have := digits_ok m _ hm
      revert this; decide
    cases n with
    | ofNat m => exact hdig m
    | negSucc m =>
      have : (toString (Int.negSucc m)).toList = '-' :: (toString (m + 1)).toList := by
        change ("-" ++ toString (m + 1)).toList = _
        simp
      rw [this, List.mem_cons, not_or]
      exact ⟨by decide, hdig _⟩
  have htime : ∀ r : TableCall, tableTime r ≠ "31.6228".toList := by
    intro r
    have hi : intStr (truncate r.tfinal) ≠ "31.6228".toList := fun h =>
      hdot (truncate r.tfinal) (by rw [h]; decide)
    unfold tableTime
    split_ifs
    · decide
    · decide
    · exact hi
    · exact hi
  have same : ∀ b : Bool, f (resolve [] (tableGroup (loadedGroup q.source).1 q.time
        (loadedGroup q.source).2 ++ "/".toList ++ tableName b q.uncollided q.moving q.M)) =
      f0 (resolve [] (tableGroup (loadedGroup q.source).1 q.time
        (loadedGroup q.source).2 ++ "/".toList ++ tableName b q.uncollided q.moving q.M)) := by
    intro b
    rw [resolve_loaded hs hs0 (by rw [hq]; decide) _ (slash_not_tableName _ _ _ _)
      (tableName_ne_nil _ _ _ _)]
    obtain ⟨f', hf', he⟩ := saveTables_frame (name := name) rs h hd
      (fun r _ s k _ _ _ hp => htime r (hq ▸ (tablePath_inj hp).2.1.symm))
    rw [hf, Option.some.injEq] at hf'
    rw [hf']; exact he
  rw [← hempty]
  unfold loadTableFrom
  simp only [readMat, same]

/-- **C120.**  A list with neither one entry nor one per number of cells makes the save fail. -/
theorem c120_wrong_size (single : ℝ → ℝ) (d : Disk) {r : TableCall} (hw : TableWanted r)
    (h : ∃ n ∈ [r.Ms.length, r.rms.length, r.nAngles.length, r.times.length, r.energyRms.length],
      n ≠ r.nSpaces.length ∧ n ≠ 1) : saveTable single d r = none := by
  have hrow : ∀ v : List ℝ, v.length ≠ r.nSpaces.length → v.length ≠ 1 →
      tableRow single r.nSpaces.length v = none := by
    intro v h1 h2
    unfold tableRow
    rw [if_neg h1]
    match v, h2 with
    | [], _ => rfl
    | [_], h2 => exact absurd rfl h2
    | _ :: _ :: _, _ => rfl
  have hrows : tableRows single r = none := by
    rw [Option.eq_none_iff_forall_not_mem]
    intro rows hr
    unfold tableRows at hr
    simp only [Option.bind_eq_bind, Option.mem_def] at hr
    obtain ⟨r0, h0, hr⟩ := Option.bind_eq_some_iff.mp hr
    obtain ⟨r1, h1, hr⟩ := Option.bind_eq_some_iff.mp hr
    obtain ⟨r2, h2, hr⟩ := Option.bind_eq_some_iff.mp hr
    obtain ⟨r3, h3, hr⟩ := Option.bind_eq_some_iff.mp hr
    obtain ⟨r4, h4, hr⟩ := Option.bind_eq_some_iff.mp hr
    obtain ⟨r5, h5, -⟩ := Option.bind_eq_some_iff.mp hr
    obtain ⟨n, hn, hne, hn1⟩ := h
    simp only [List.mem_cons, List.not_mem_nil, or_false] at hn
    rcases hn with rfl | rfl | rfl | rfl | rfl
    · by_cases hc : r.major = "cells"
      · rw [if_pos hc, hrow _ (by simpa using hne) (by simpa using hn1)] at h4; cases h4
      · rw [if_neg hc, hrow _ (by simpa using hne) (by simpa using hn1)] at h0; cases h0
    · rw [hrow _ hne hn1] at h1; cases h1
    · rw [hrow _ (by simpa using hne) (by simpa using hn1)] at h2; cases h2
    · rw [hrow _ hne hn1] at h3; cases h3
    · rw [hrow _ hne hn1] at h5; cases h5
  unfold saveTable
  rw [if_pos hw, hrows]
  cases tableFile r.problemType with
  | none => rfl
  | some name =>
  cases tableSource r with
  | none => rfl
  | some s =>
  cases hd : d name with
  | none => simp [hd]
  | some f =>
  cases tableKey r with
  | none => simp [hd]
  | some k => simp [hd]

/-- **C120.**  The names for which the loader opens the Su-Olson file and sets the errors of the energy
density: all combinations of the thick problems, and six more. -/
theorem c120_energy_names (s : String) : s ∈ suOlsonNames ↔
    (∃ g ∈ ["gaussian_s", "su_olson"], ∃ k ∈ ["s2", "s8"], ∃ e ∈ ["", "_energy"],
      s = g ++ "_thick_" ++ k ++ e) ∨
    s ∈ ["su_olson", "su_olson_energy", "su_olson_s2", "su_olson_energy_s2", "gaussian_s2",
      "gaussian_energy_s2"] := by
  simp only [suOlsonNames, List.mem_cons, List.not_mem_nil, or_false, exists_eq_or_imp,
    exists_eq_left, exists_false, false_and]
  have e1 : "gaussian_s" ++ "_thick_" ++ "s2" ++ "" = "gaussian_s_thick_s2" := by decide
  have e2 : "gaussian_s" ++ "_thick_" ++ "s2" ++ "_energy" = "gaussian_s_thick_s2_energy" := by decide
  have e3 : "gaussian_s" ++ "_thick_" ++ "s8" ++ "" = "gaussian_s_thick_s8" := by decide
  have e4 : "gaussian_s" ++ "_thick_" ++ "s8" ++ "_energy" = "gaussian_s_thick_s8_energy" := by decide
  have e5 : "su_olson" ++ "_thick_" ++ "s2" ++ "" = "su_olson_thick_s2" := by decide
  have e6 : "su_olson" ++ "_thick_" ++ "s2" ++ "_energy" = "su_olson_thick_s2_energy" := by decide
  have e7 : "su_olson" ++ "_thick_" ++ "s8" ++ "" = "su_olson_thick_s8" := by decide
  have e8 : "su_olson" ++ "_thick_" ++ "s8" ++ "_energy" = "su_olson_thick_s8_energy" := by decide
  rw [e1, e2, e3, e4, e5, e6, e7, e8]
  tauto

/-- The hypotheses can be met: a table over numbers of cells at time 1.25. -/
def smallTable : TableCall where
  problemType := "transport"
  sourceType := [0, 0, 0, 0, 0, 1]
  tfinal := 1.25
  thermalIsOne := false
  major := "cells"
  Ms := [4, 4, 4]
  nSpaces := [2, 4, 8]
  moving := true
  uncollided := false
  c := 1
  sigma := 1
  x0 := 0.5
  angles := none
  rms := [0.1, 0.01, 0.001]
  energyRms := [0, 0, 0]
  nAngles := [64, 64, 256]
  times := [1, 3, 9]

example : TableWanted smallTable ∧ TableSized smallTable ∧
    tableFile smallTable.problemType = some "local_run_data/run_data_transport_RMS.h5" ∧
    AsksTable ⟨"gaussian_s", "1.25".toList, 4, "cells", false, true⟩ smallTable := by
  refine ⟨⟨Or.inl rfl, fun _ => by simp [smallTable]⟩, ⟨rfl, rfl, rfl, rfl, rfl⟩, by decide,
    ⟨rfl, rfl, rfl, fun _ => rfl, Or.inl ⟨rfl, 5, rfl, rfl, ?_⟩, Or.inr (Or.inl ⟨rfl, rfl, rfl, rfl⟩)⟩⟩
  decide

/-- A table with two orders for three meshes. -/
example : let r : TableCall := { smallTable with Ms := [4, 6] }
    TableWanted r ∧ ∃ n ∈ [r.Ms.length, r.rms.length, r.nAngles.length, r.times.length, r.energyRms.length],
      n ≠ r.nSpaces.length ∧ n ≠ 1 :=
  ⟨⟨Or.inl rfl, fun _ => by simp [smallTable]⟩, 2, by simp [smallTable], by simp [smallTable]⟩

/-- Two tables as in `c120_collision`. -/
example : let r : TableCall := { smallTable with major := "Ms", tfinal := 1 }
    let r' : TableCall := { smallTable with major := "Ms", c := 0.5, nSpaces := [16, 16, 16] }
    TableWanted r ∧ TableSized r ∧ TableSized r' ∧
    AsksTable ⟨"gaussian_s", "1".toList, 4, "Ms", false, true⟩ r ∧ r.tfinal = 1 ∧
    r'.tfinal = 1.25 := by
  refine ⟨⟨Or.inr rfl, fun _ => by simp⟩, ⟨rfl, rfl, rfl, rfl, rfl⟩, ⟨rfl, rfl, rfl, rfl, rfl⟩,
    ⟨rfl, rfl, rfl, fun h => absurd h (by decide), Or.inl ⟨rfl, 5, rfl, rfl, by decide⟩,
      Or.inl ⟨1, by simp, by decide⟩⟩, rfl, rfl⟩

/-- Another table that is saved to another place. -/
example : ¬ SamePlace smallTable { smallTable with moving := false } :=
  fun h => absurd h.moving (by decide)

end Verif.Props
