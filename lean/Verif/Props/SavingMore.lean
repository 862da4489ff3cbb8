import Verif.Props.Saving

/-!
More on C54, C55 and C57: which folders are used, loads of runs that were not saved, and the widths of runs.
-/

namespace Verif.Props

open Verif.Model

/-- C54: runs with a constant heat capacity are found under the names without "ant". -/
theorem c54_constant_cv_found (fmt : ℝ → Str) (cv : ℝ) :
    loadFolder fmt "rad_transfer_const_cv" cv = saveFolder fmt "rad_transfer_constant_cv" cv ∧
    loadFolder fmt "rad_transfer_const_cv_thick" cv = saveFolder fmt "rad_transfer_constant_cv_thick" cv := by
  constructor <;> simp [loadFolder, saveFolder]

/-- C54: the other problem types, under their own names; the variants with two directions and a constant heat
capacity are never found. -/
theorem c54_other_types_found (fmt : ℝ → Str) (cv : ℝ) :
    (∀ p ∈ ["transport", "su_olson_s2", "su_olson_thick_s2", "su_olson_thick", "su_olson"],
      loadFolder fmt p cv = saveFolder fmt p cv) ∧
    ∀ p ∈ ["rad_transfer_constant_cv_s2", "rad_transfer_constant_cv_thick_s2"],
      loadFolder fmt p cv ≠ saveFolder fmt p cv := by
  constructor
  · intro p hp
    simp only [List.mem_cons, List.not_mem_nil, or_false] at hp
    rcases hp with rfl | rfl | rfl | rfl | rfl <;> simp [loadFolder, saveFolder]
  · intro p hp
    simp only [List.mem_cons, List.not_mem_nil, or_false] at hp
    rcases hp with rfl | rfl <;> simp [loadFolder, saveFolder]

/-- The problem types that have a folder of their own. -/
def problemTypes : List String :=
  ["transport", "rad_transfer_constant_cv", "rad_transfer_constant_cv_s2", "rad_transfer_constant_cv_thick",
    "rad_transfer_constant_cv_thick_s2", "su_olson_s2", "su_olson_thick_s2", "su_olson_thick", "su_olson"]

/-- C55: runs of different problem types with the same heat capacity are saved in different folders. -/
theorem c55_folders_differ (fmt : ℝ → Str) (cv : ℝ) {p q : String} (hp : p ∈ problemTypes) (hq : q ∈ problemTypes)
    (hpq : p ≠ q) : saveFolder fmt p cv ≠ saveFolder fmt q cv := by
  intro h
  have hl := congrArg List.length h
  simp only [problemTypes, List.mem_cons, List.not_mem_nil, or_false] at hp hq
  rcases hp with rfl | rfl | rfl | rfl | rfl | rfl | rfl | rfl | rfl <;>
    rcases hq with rfl | rfl | rfl | rfl | rfl | rfl | rfl | rfl | rfl <;>
    first
    | exact hpq rfl
    | simp [saveFolder] at hl

/-- C54: a load of a run that was not saved fails; it never gives back an empty run. -/
theorem c54_missing {fmt : ℝ → Str} (hf : ∀ x, '/' ∉ fmt x) {d : Disk} {l : LoadCall} {f : H5File}
    (hd : d l.fileName = some f) (hs : '/' ∉ l.sourceName)
    (h : f (splitPath [] (loadFolder fmt l.problemName l.cv0) ++ ["solution".toList, loadBody fmt l]) = none ∨
      f [loadBody fmt l, "psi".toList] = none ∨ f [loadBody fmt l, "mus".toList] = none ∨
      f (splitPath [] (loadFolder fmt l.problemName l.cv0) ++ ["weights".toList, loadBody fmt l]) = none ∨
      f (splitPath [] (loadFolder fmt l.problemName l.cv0) ++ ["edges".toList, loadBody fmt l]) = none) :
    loadSolution fmt d l = none := by
  have hv : ∀ p, f p = none → readVec f p = none := fun p hp => by unfold readVec; rw [hp]
  have hm : ∀ p, f p = none → readMat f p = none := fun p hp => by unfold readMat; rw [hp]
  rw [loadSolution_eq hf hd hs]
  unfold loadParts
  rcases h with h | h | h | h | h
  · rw [hm _ h]; rfl
  · rw [hm _ h]; simp
  · rw [hv _ h]; simp
  · rw [hv _ h]; simp
  · rw [hv _ h]; simp

/-- From an empty file nothing can be loaded. -/
example (l : LoadCall) (hs : '/' ∉ l.sourceName) : loadSolution (fun _ => ['1']) (fun _ => some fun _ => none) l = none :=
  c54_missing (fun _ => by decide) rfl hs (Or.inl rfl)

/-- C57: the width of a run is that of its position for Gaussian pulses and manufactured sources, and the first
one for all others. -/
theorem c57_width (x0 : List ℝ) (a b c d e : ℤ) (st : List ℤ) (count : ℕ) :
    x0Function x0 (a :: b :: c :: d :: e :: st) count = if d ≠ 0 ∨ e = 1 then x0[count]? else x0[0]? := by
  unfold x0Function
  by_cases hd : d = 0 <;> by_cases he : e = 1 <;> simp [hd, he]

/-- C57: so all runs with a Gaussian source (position 5) use the first width. -/
example : x0Function [1, 2] [0, 0, 0, 0, 0, 1] 1 = some 1 ∧ x0Function [1, 2] [0, 0, 0, 1, 0, 0] 1 = some 2 := by
  simp [c57_width]

end Verif.Props
