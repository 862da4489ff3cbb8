import Verif.Lemmas.Saving
import Mathlib.Algebra.Order.Floor.Semiring
import Mathlib.Algebra.Order.Archimedean.Real.Basic
import Mathlib.Tactic.NormNum

/-!
# Saved runs and loaded runs (C54, C55, C58)
-/

namespace Verif.Props

open Verif.Model Verif.Lemmas

/-! ### What a load reads -/

/-- A load as reads at six places of the file. -/
def loadParts (f : H5File) (group : H5Path) (body : Str) (radOrTransfer matOrRad : String) :
    Option LoadResult := do
  let sol ← readMat f (group ++ ["solution".toList, body])
  let xs ← sol[0]?
  let phi ← sol[1]?
  let e ← sol[2]?
  let psi ← readMat f [body, "psi".toList]
  let mus ← readVec f [body, "mus".toList]
  let ws ← readVec f (group ++ ["weights".toList, body])
  let edges ← readVec f (group ++ ["edges".toList, body])
  let coeffs ← loadCoeffs f (group ++ ["coefficients".toList, body]) radOrTransfer matOrRad
  pure ⟨xs, phi, e, psi, mus, ws, edges, coeffs⟩

/-- The name a load looks for, without the leading slash. -/
noncomputable def loadBody (fmt : ℝ → Str) (l : LoadCall) : Str :=
  keyBody fmt l.sourceName l.uncollided l.moving l.nSpace l.tfinal l.c l.x0 l.epsilon

theorem resolve_in {body : Str} (sub : Str) (group : H5Path) (hsub : '/' ∉ sub)
    (hsub0 : sub ≠ []) (hb : '/' ∉ body) (hb0 : body ≠ []) :
    resolve group (sub ++ '/' :: '/' :: body) = group ++ [sub, body] := by
  unfold resolve
  rw [if_neg, splitPath_two sub body hsub hsub0 hb hb0]
  cases sub with
  | nil => exact absurd rfl hsub0
  | cons a l =>
    simp only [List.cons_append, List.head?_cons, Option.some.injEq]
    rintro rfl
    exact hsub List.mem_cons_self

theorem loadSolution_eq {fmt : ℝ → Str} (hf : ∀ x, '/' ∉ fmt x) {d : Disk} {l : LoadCall}
    {f : H5File} (hd : d l.fileName = some f) (hs : '/' ∉ l.sourceName) :
    loadSolution fmt d l = loadParts f (splitPath [] (loadFolder fmt l.problemName l.cv0))
      (loadBody fmt l) l.radOrTransfer l.matOrRad := by
  have hb : '/' ∉ loadBody fmt l := slash_not_keyBody hf hs _ _ _ _ _ _ _
  have hb0 : loadBody fmt l ≠ [] := keyBody_ne_nil _ _ _ _ _ _ _ _ _
  have hkey : fullStr fmt l.sourceName l.uncollided l.moving l.nSpace l.tfinal l.c l.x0 l.epsilon =
      '/' :: loadBody fmt l := fullStr_eq _ _ _ _ _ _ _ _ _
  have e1 : "solution/".toList = "solution".toList ++ ['/'] := by decide
  have e2 : "weights/".toList = "weights".toList ++ ['/'] := by decide
  have e3 : "edges/".toList = "edges".toList ++ ['/'] := by decide
  have e4 : "coefficients/".toList = "coefficients".toList ++ ['/'] := by decide
  have h1 : ∀ g, resolve g ("solution/".toList ++ '/' :: loadBody fmt l) =
      g ++ ["solution".toList, loadBody fmt l] := fun g => by
    rw [e1, List.append_assoc]
    exact resolve_in _ g (by decide) (by decide) hb hb0
  have h2 : ∀ g, resolve g ("weights/".toList ++ '/' :: loadBody fmt l) =
      g ++ ["weights".toList, loadBody fmt l] := fun g => by
    rw [e2, List.append_assoc]
    exact resolve_in _ g (by decide) (by decide) hb hb0
  have h3 : ∀ g, resolve g ("edges/".toList ++ '/' :: loadBody fmt l) =
      g ++ ["edges".toList, loadBody fmt l] := fun g => by
    rw [e3, List.append_assoc]
    exact resolve_in _ g (by decide) (by decide) hb hb0
  have h4 : ∀ g, resolve g ("coefficients/".toList ++ '/' :: loadBody fmt l) =
      g ++ ["coefficients".toList, loadBody fmt l] := fun g => by
    rw [e4, List.append_assoc]
    exact resolve_in _ g (by decide) (by decide) hb hb0
  unfold loadSolution loadParts
  rw [hd]
  simp only [Option.bind_eq_bind, Option.bind_some, hkey, h1, h2, h3, h4, resolve_key _ hb hb0,
    resolve_psi, resolve_mus]

/-- The places a save writes to. -/
noncomputable def savePaths (fmt : ℝ → Str) (source : Str) (r : SaveCall) : List H5Path :=
  [[saveFolder fmt r.problemType r.cv, "edges".toList, saveBody fmt source r],
   [saveFolder fmt r.problemType r.cv, "weights".toList, saveBody fmt source r],
   [saveFolder fmt r.problemType r.cv, "coefficients".toList, saveBody fmt source r],
   [saveBody fmt source r, "mus".toList],
   [saveBody fmt source r, "psi".toList],
   [saveFolder fmt r.problemType r.cv, "solution".toList, saveBody fmt source r]]

theorem saveInFile_frame {fmt : ℝ → Str} (hf : ∀ x, '/' ∉ fmt x) {single : ℝ → ℝ} {f f' : H5File}
    {r : SaveCall} (h : saveInFile fmt single f r = some f') {p : H5Path}
    (hp : ∀ source, savedSourceName r.sourceType = some source → p ∉ savePaths fmt source r) :
    f' p = f p := by
  obtain ⟨⟨source, hs⟩, hr⟩ := saveInFile_some h
  rw [saveInFile_eq hf single f r hs hr rfl rfl] at h
  have hp' := hp source hs
  unfold savePaths at hp'
  simp only [List.mem_cons, List.not_mem_nil, or_false, not_or] at hp'
  rw [← Option.some.inj h]
  simp only [if_neg hp'.1, if_neg hp'.2.1, if_neg hp'.2.2.1, if_neg hp'.2.2.2.1,
    if_neg hp'.2.2.2.2.1, if_neg hp'.2.2.2.2.2]

theorem saveSolution_some {fmt : ℝ → Str} {single : ℝ → ℝ} {d d' : Disk} {r : SaveCall}
    (h : saveSolution fmt single d r = some d') :
    ∃ f f', d "run_data.hdf5" = some f ∧ saveInFile fmt single f r = some f' ∧
      d' "run_data.hdf5" = some f' ∧ ∀ n, n ≠ "run_data.hdf5" → d' n = d n := by
  unfold saveSolution at h
  obtain ⟨f, hf, h⟩ := Option.bind_eq_some_iff.1 h
  obtain ⟨f', hf', h⟩ := Option.bind_eq_some_iff.1 h
  refine ⟨f, f', hf, hf', ?_, ?_⟩
  · rw [← Option.some.inj h]; exact if_pos rfl
  · intro n hn
    rw [← Option.some.inj h]; exact if_neg hn

theorem saveAll_append {fmt : ℝ → Str} {single : ℝ → ℝ} (rs qs : List SaveCall) : ∀ d : Disk,
    saveAll fmt single d (rs ++ qs) =
      (saveAll fmt single d rs).bind (fun d => saveAll fmt single d qs) := by
  induction rs with
  | nil => intro d; rfl
  | cons r rs ih =>
    intro d
    simp only [List.cons_append, saveAll, Option.bind_assoc]
    congr 1
    funext d1
    exact ih d1

/-- A history of saves leaves alone every place that none of its runs writes to, and every other
file. -/
theorem saveAll_frame {fmt : ℝ → Str} (hf : ∀ x, '/' ∉ fmt x) {single : ℝ → ℝ}
    (rs : List SaveCall) : ∀ {d d' : Disk} {f : H5File}, saveAll fmt single d rs = some d' →
    d "run_data.hdf5" = some f →
    ∃ f', d' "run_data.hdf5" = some f' ∧ (∀ n, n ≠ "run_data.hdf5" → d' n = d n) ∧
      ∀ p, (∀ q ∈ rs, ∀ source, savedSourceName q.sourceType = some source →
        p ∉ savePaths fmt source q) → f' p = f p := by
  induction rs with
  | nil =>
    intro d d' f h hd
    have : d' = d := (Option.some.inj h).symm
    exact ⟨f, by rw [this, hd], fun n _ => by rw [this], fun _ _ => rfl⟩
  | cons r rs ih =>
    intro d d' f h hd
    unfold saveAll at h
    obtain ⟨d1, h1, h⟩ := Option.bind_eq_some_iff.1 h
    obtain ⟨g, g', hg, hs, hd1, hother⟩ := saveSolution_some h1
    obtain ⟨f', hf', ho', hfr⟩ := ih h hd1
    have hgf : g = f := Option.some.inj (hg.symm.trans hd)
    refine ⟨f', hf', fun n hn => (ho' n hn).trans (hother n hn), fun p hp => ?_⟩
    rw [hfr p (fun q hq => hp q (List.mem_cons_of_mem _ hq)),
      saveInFile_frame hf hs (hp r List.mem_cons_self), hgf]

/-! ### C54: a saved run can be loaded back -/

/-- The numbers that go into the name of a run are floats. -/
structure IdFloats (F : Set ℝ) (r : SaveCall) : Prop where
  t : r.tfinal ∈ F
  c : r.c ∈ F
  x0 : r.x0 ∈ F
  eps : r.epsilon ∈ F

/-- Two runs with the same source name, switches, number of cells, time, scattering ratio, source
size and epsilon. -/
def SameId (r q : SaveCall) : Prop :=
  savedSourceName r.sourceType = savedSourceName q.sourceType ∧ r.uncollided = q.uncollided ∧
    r.moving = q.moving ∧ r.nSpace = q.nSpace ∧ r.tfinal = q.tfinal ∧ r.c = q.c ∧ r.x0 = q.x0 ∧
    r.epsilon = q.epsilon

/-- A load that asks for the run `r`, in the file the saver writes. -/
structure AsksFor (fmt : ℝ → Str) (l : LoadCall) (r : SaveCall) : Prop where
  file : l.fileName = "run_data.hdf5"
  folder : loadFolder fmt l.problemName l.cv0 = saveFolder fmt r.problemType r.cv
  source : savedSourceName r.sourceType = some l.sourceName
  uncollided : l.uncollided = r.uncollided
  moving : l.moving = r.moving
  nSpace : l.nSpace = r.nSpace
  tfinal : l.tfinal = r.tfinal
  c : l.c = r.c
  x0 : l.x0 = r.x0
  epsilon : l.epsilon = r.epsilon

theorem AsksFor.body {fmt : ℝ → Str} {l : LoadCall} {r : SaveCall} (h : AsksFor fmt l r) :
    loadBody fmt l = saveBody fmt l.sourceName r := by
  unfold loadBody saveBody
  rw [h.uncollided, h.moving, h.nSpace, h.tfinal, h.c, h.x0, h.epsilon]

theorem sameId_of_body {fmt : ℝ → Str} {F : Set ℝ} (hf : FmtOk fmt F) {r q : SaveCall}
    (hr : IdFloats F r) (hq : IdFloats F q) {s s' : Str}
    (hs : savedSourceName r.sourceType = some s) (hs' : savedSourceName q.sourceType = some s')
    (h : saveBody fmt s r = saveBody fmt s' q) : SameId r q := by
  obtain ⟨h1, h2, h3, h4, h5, h6, h7, h8⟩ := keyBody_inj hf (savedSourceName_mem hs)
    (savedSourceName_mem hs') hr.t hq.t hr.c hq.c hr.x0 hq.x0 hr.eps hq.eps h
  exact ⟨by rw [hs, hs', h1], h2, h3, h4, h5, h6, h7, h8⟩

/-- What `call_sol` returns as coefficients for the stored array (load_solution.py 64-71 read as a
specification): everything, everything but the last angle, or the last one. -/
def coeffView (coeffs : List (List (List ℝ))) (radOrTransfer matOrRad : String) :
    Option (Option H5Data) :=
  if radOrTransfer = "transfer" then
    if matOrRad = "rad" then some (some (.cube coeffs.dropLast))
    else if matOrRad = "mat" then coeffs.getLast?.map fun m => some (.mat m)
    else some none
  else some (some (.cube coeffs))

theorem loadCoeffs_eq {f : H5File} {p : H5Path} {c : List (List (List ℝ))}
    (h : f p = some (.cube c)) (a b : String) : loadCoeffs f p a b = coeffView c a b := by
  have hr : readCube f p = some c := by unfold readCube; rw [h]
  unfold loadCoeffs coeffView
  rw [hr]
  split_ifs
  · rfl
  · simp only [Option.bind_eq_bind, Option.bind_some]
    cases c.getLast? <;> rfl
  · rfl
  · rfl

theorem loadParts_of {f : H5File} {group : H5Path} {body : Str} {a b : String}
    {x1 x2 x3 x4 mus ws edges : List ℝ} {psi : List (List ℝ)} {co : List (List (List ℝ))}
    {cv : Option H5Data}
    (h1 : f (group ++ ["solution".toList, body]) = some (.mat [x1, x2, x3, x4]))
    (h2 : f [body, "psi".toList] = some (.mat psi)) (h3 : f [body, "mus".toList] = some (.vec mus))
    (h4 : f (group ++ ["weights".toList, body]) = some (.vec ws))
    (h5 : f (group ++ ["edges".toList, body]) = some (.vec edges))
    (h6 : f (group ++ ["coefficients".toList, body]) = some (.cube co))
    (h7 : coeffView co a b = some cv) :
    loadParts f group body a b = some ⟨x1, x2, x3, psi, mus, ws, edges, cv⟩ := by
  have r1 : readMat f (group ++ ["solution".toList, body]) = some [x1, x2, x3, x4] := by
    unfold readMat; rw [h1]
  have r2 : readMat f [body, "psi".toList] = some psi := by unfold readMat; rw [h2]
  have r3 : readVec f [body, "mus".toList] = some mus := by unfold readVec; rw [h3]
  have r4 : readVec f (group ++ ["weights".toList, body]) = some ws := by unfold readVec; rw [h4]
  have r5 : readVec f (group ++ ["edges".toList, body]) = some edges := by unfold readVec; rw [h5]
  unfold loadParts
  rw [r1, r2, r3, r4, r5, loadCoeffs_eq h6, h7]
  rfl

/-- The file right after a save. -/
theorem just_saved {fmt : ℝ → Str} (hf : ∀ x, '/' ∉ fmt x) {single : ℝ → ℝ} {f f' : H5File}
    {r : SaveCall} {source : Str} (hs : savedSourceName r.sourceType = some source)
    (h : saveInFile fmt single f r = some f') :
    f' [saveFolder fmt r.problemType r.cv, "solution".toList, saveBody fmt source r] =
        some (.mat (solutionRows single (saveFolder fmt r.problemType r.cv) r)) ∧
      f' [saveBody fmt source r, "psi".toList] = some (.mat r.psi) ∧
      f' [saveBody fmt source r, "mus".toList] = some (.vec r.mus) ∧
      f' [saveFolder fmt r.problemType r.cv, "weights".toList, saveBody fmt source r] =
        some (.vec r.ws) ∧
      f' [saveFolder fmt r.problemType r.cv, "edges".toList, saveBody fmt source r] =
        some (.vec r.edges) ∧
      f' [saveFolder fmt r.problemType r.cv, "coefficients".toList, saveBody fmt source r] =
        some (.cube r.coeffs) := by
  rw [saveInFile_eq hf single f r hs (saveInFile_some h).2 rfl rfl] at h
  have h := (Option.some.inj h).symm
  generalize saveFolder fmt r.problemType r.cv = a at *
  generalize saveBody fmt source r = b at *
  have l2 : ∀ x y z u v : Str, ([x, y] : H5Path) ≠ [z, u, v] := fun x y z u v h =>
    List.cons_ne_nil _ _ (List.cons.inj (List.cons.inj h).2).2.symm
  have l3 : ∀ x y z u v : Str, ([z, u, v] : H5Path) ≠ [x, y] := fun x y z u v h =>
    List.cons_ne_nil _ _ (List.cons.inj (List.cons.inj h).2).2
  have m : ∀ x y z u v : Str, x ≠ u → ([z, x, y] : H5Path) ≠ [z, u, v] := fun x y z u v hn h =>
    hn (List.cons.inj (List.cons.inj h).2).1
  have m2 : ∀ x y z : Str, x ≠ y → ([z, x] : H5Path) ≠ [z, y] := fun x y z hn h =>
    hn (List.cons.inj (List.cons.inj h).2).1
  rw [h]
  refine ⟨?_, ?_, ?_, ?_, ?_, ?_⟩
  · simp only [if_neg (l3 _ _ _ _ _), if_neg (m "solution".toList b a "edges".toList b (by decide)),
      if_neg (m "solution".toList b a "weights".toList b (by decide)),
      if_neg (m "solution".toList b a "coefficients".toList b (by decide)), if_true]
  · simp only [if_neg (l2 _ _ _ _ _), if_neg (m2 "psi".toList "mus".toList b (by decide)), if_true]
  · simp only [if_neg (l2 _ _ _ _ _), if_true]
  · simp only [if_neg (m "weights".toList b a "edges".toList b (by decide)), if_true]
  · simp only [if_true]
  · simp only [if_neg (m "coefficients".toList b a "edges".toList b (by decide)),
      if_neg (m "coefficients".toList b a "weights".toList b (by decide)), if_true]

/-- A history split at a run: the file right after that run and the history that follows. -/
theorem history_split {fmt : ℝ → Str} {single : ℝ → ℝ} {d d' : Disk} {pre post : List SaveCall}
    {r : SaveCall} (h : saveAll fmt single d (pre ++ r :: post) = some d') :
    ∃ d1 f0 f1, d1 "run_data.hdf5" = some f1 ∧ saveInFile fmt single f0 r = some f1 ∧
      saveAll fmt single d1 post = some d' := by
  rw [saveAll_append] at h
  obtain ⟨d0, _, h⟩ := Option.bind_eq_some_iff.1 h
  unfold saveAll at h
  obtain ⟨d1, h1, h⟩ := Option.bind_eq_some_iff.1 h
  obtain ⟨f, f', _, hs, hd1, _⟩ := saveSolution_some h1
  exact ⟨d1, f, f', hd1, hs, h⟩

theorem not_touched_folder {fmt : ℝ → Str} {F : Set ℝ} (hf : FmtOk fmt F) {q r : SaveCall}
    (hq : IdFloats F q) (hr : IdFloats F r) {source : Str}
    (hs : savedSourceName r.sourceType = some source)
    (hn : SameId q r → saveFolder fmt q.problemType q.cv ≠ saveFolder fmt r.problemType r.cv)
    (sub : Str) :
    ∀ s, savedSourceName q.sourceType = some s →
      [saveFolder fmt r.problemType r.cv, sub, saveBody fmt source r] ∉ savePaths fmt s q := by
  intro s hs' hmem
  have key : ∀ sub' : Str, [saveFolder fmt r.problemType r.cv, sub, saveBody fmt source r] ≠
      [saveFolder fmt q.problemType q.cv, sub', saveBody fmt s q] := fun sub' h =>
    hn (sameId_of_body hf hq hr hs' hs (List.cons.inj (List.cons.inj (List.cons.inj h).2).2).1.symm)
      (List.cons.inj h).1.symm
  have l3 : ∀ x y z u v : Str, ([z, u, v] : H5Path) ≠ [x, y] := fun x y z u v h =>
    List.cons_ne_nil _ _ (List.cons.inj (List.cons.inj h).2).2
  unfold savePaths at hmem
  simp only [List.mem_cons, List.not_mem_nil, or_false] at hmem
  rcases hmem with h | h | h | h | h | h
  · exact key _ h
  · exact key _ h
  · exact key _ h
  · exact l3 _ _ _ _ _ h
  · exact l3 _ _ _ _ _ h
  · exact key _ h

theorem not_touched_root {fmt : ℝ → Str} {F : Set ℝ} (hf : FmtOk fmt F) {q r : SaveCall}
    (hq : IdFloats F q) (hr : IdFloats F r) {source : Str}
    (hs : savedSourceName r.sourceType = some source) (hn : ¬ SameId q r) (sub : Str) :
    ∀ s, savedSourceName q.sourceType = some s →
      [saveBody fmt source r, sub] ∉ savePaths fmt s q := by
  intro s hs' hmem
  have key : ∀ sub' : Str, [saveBody fmt source r, sub] ≠ [saveBody fmt s q, sub'] := fun sub' h =>
    hn (sameId_of_body hf hq hr hs' hs (List.cons.inj h).1.symm)
  have l2 : ∀ x y z u v : Str, ([x, y] : H5Path) ≠ [z, u, v] := fun x y z u v h =>
    List.cons_ne_nil _ _ (List.cons.inj (List.cons.inj h).2).2.symm
  unfold savePaths at hmem
  simp only [List.mem_cons, List.not_mem_nil, or_false] at hmem
  rcases hmem with h | h | h | h | h | h
  · exact l2 _ _ _ _ _ h
  · exact l2 _ _ _ _ _ h
  · exact l2 _ _ _ _ _ h
  · exact key _ h
  · exact key _ h
  · exact l2 _ _ _ _ _ h

theorem saveFolder_transport {fmt : ℝ → Str} (p : String) (cv : ℝ) :
    saveFolder fmt p cv = "transport".toList ↔ p = "transport" := by
  have h5 : ∀ s : Str, "transfer_const_cv=".toList ++ s ≠ "transport".toList := by
    intro s h
    have e1 : "transfer_const_cv=".toList = "trans".toList ++ "fer_const_cv=".toList := by decide
    have e2 : "transport".toList = "trans".toList ++ "port".toList := by decide
    rw [e1, e2, List.append_assoc] at h
    have := List.append_cancel_left h
    have e3 : "fer_const_cv=".toList = 'f' :: "er_const_cv=".toList := by decide
    have e4 : "port".toList = 'p' :: "ort".toList := by decide
    rw [e3, e4] at this
    exact absurd (List.cons.inj this).1 (by decide)
  constructor
  · intro h
    by_contra hp
    unfold saveFolder at h
    rw [if_neg hp] at h
    simp only [List.append_assoc] at h
    split_ifs at h
    · exact h5 _ h
    · exact h5 _ h
    · exact h5 _ h
    · exact h5 _ h
    · exact absurd h (by decide)
    · exact absurd h (by decide)
    · exact absurd h (by decide)
    · exact absurd h (by decide)
    · exact absurd h (by decide)
  · intro h
    unfold saveFolder
    rw [if_pos h]

/-- What a load of the run `r` should give, apart from the angular flux and the directions: the
points, flux and material energy in single precision (for transport problems the material energy is
not saved and comes back as zero), the weights, edges and coefficients as they are. -/
structure GivesBack (single : ℝ → ℝ) (r : SaveCall) (l : LoadCall) (res : LoadResult) : Prop where
  xs : res.xs = r.xs.map single
  phi : res.phi = r.phi.map single
  e : r.problemType ≠ "transport" → res.e = r.e.map single
  eTransport : r.problemType = "transport" → res.e = List.replicate r.xs.length 0
  ws : res.ws = r.ws
  edges : res.edges = r.edges
  coeffs : coeffView r.coeffs l.radOrTransfer l.matOrRad = some res.coeffs

/-- **C54** (partial).  After any history of saves, a load with the identifiers of a run `r`, from
the file and folder the saver uses, gives back the points, flux, material energy, weights, edges,
coefficients, angular flux and directions of the last save with these identifiers.

Missing from the full claim: points and fluxes come back in single precision only
(`c54_single_precision`); the folder must be the saver's, which for the constant heat capacity
problems needs another problem name than the one used for saving (`c54_constant_cv_not_found`); the
default file of the loader is another one (`c54_default_file`); the angular flux and the directions
are shared between problem types, so a later save with the same identifiers under another problem
type must not exist (`c54_shared_angular_flux`). -/
theorem c54_load_after_save_partial {fmt : ℝ → Str} {F : Set ℝ} (hf : FmtOk fmt F)
    {single : ℝ → ℝ} {d d' : Disk} {pre post : List SaveCall} {r : SaveCall} {l : LoadCall}
    (h : saveAll fmt single d (pre ++ r :: post) = some d')
    (hfl : ∀ q ∈ r :: post, IdFloats F q) (hl : AsksFor fmt l r)
    (hpost : ∀ q ∈ post, ¬ SameId q r) {cv : Option H5Data}
    (hcv : coeffView r.coeffs l.radOrTransfer l.matOrRad = some cv) :
    ∃ res, loadSolution fmt d' l = some res ∧ GivesBack single r l res ∧ res.psi = r.psi ∧
      res.mus = r.mus := by
  obtain ⟨d1, f0, f1, hd1, hsave, hrest⟩ := history_split h
  obtain ⟨p1, p2, p3, p4, p5, p6⟩ := just_saved hf.slash hl.source hsave
  obtain ⟨f', hd', _, hfr⟩ := saveAll_frame hf.slash post hrest hd1
  have hr := hfl r List.mem_cons_self
  have hq : ∀ q ∈ post, IdFloats F q := fun q hm => hfl q (List.mem_cons_of_mem _ hm)
  have fold : ∀ sub, f' [saveFolder fmt r.problemType r.cv, sub, saveBody fmt l.sourceName r] =
      f1 [saveFolder fmt r.problemType r.cv, sub, saveBody fmt l.sourceName r] := fun sub =>
    hfr _ fun q hm => not_touched_folder hf (hq q hm) hr hl.source
      (fun hid => absurd hid (hpost q hm)) sub
  have root : ∀ sub, f' [saveBody fmt l.sourceName r, sub] =
      f1 [saveBody fmt l.sourceName r, sub] := fun sub =>
    hfr _ fun q hm => not_touched_root hf (hq q hm) hr hl.source (hpost q hm) sub
  rw [← fold] at p1 p4 p5 p6
  rw [← root] at p2 p3
  have hfile : d' l.fileName = some f' := by rw [hl.file]; exact hd'
  have hload := loadSolution_eq hf.slash hfile
    (sources_no_slash _ (savedSourceName_mem hl.source))
  rw [hl.folder, saveFolder_group hf.slash, hl.body] at hload
  have hparts := loadParts_of (group := [saveFolder fmt r.problemType r.cv]) p1 p2 p3 p4 p5 p6 hcv
  refine ⟨_, hload.trans hparts, ⟨rfl, rfl, fun hne => if_pos ?_, fun he => if_neg ?_, rfl, rfl,
    hcv⟩, rfl, rfl⟩
  · exact fun hh => hne ((saveFolder_transport _ _).1 hh)
  · exact fun hh => hh ((saveFolder_transport _ _).2 he)

/-- After further saves the angular flux and the directions of a name are still there, though not
necessarily those of the same run. -/
theorem root_stays {fmt : ℝ → Str} (hf : ∀ x, '/' ∉ fmt x) {single : ℝ → ℝ} (body : Str)
    (rs : List SaveCall) : ∀ {d d' : Disk} {f : H5File}, saveAll fmt single d rs = some d' →
    d "run_data.hdf5" = some f → (∃ m, f [body, "psi".toList] = some (.mat m)) →
    (∃ v, f [body, "mus".toList] = some (.vec v)) →
    ∃ f', d' "run_data.hdf5" = some f' ∧ (∃ m, f' [body, "psi".toList] = some (.mat m)) ∧
      ∃ v, f' [body, "mus".toList] = some (.vec v) := by
  induction rs with
  | nil =>
    intro d d' f h hd h1 h2
    have : d' = d := (Option.some.inj h).symm
    exact ⟨f, by rw [this, hd], h1, h2⟩
  | cons r rs ih =>
    intro d d' f h hd h1 h2
    unfold saveAll at h
    obtain ⟨d1, hd1, h⟩ := Option.bind_eq_some_iff.1 h
    obtain ⟨g, g', hg, hs, hd1', _⟩ := saveSolution_some hd1
    have hgf : g = f := Option.some.inj (hg.symm.trans hd)
    obtain ⟨⟨source, hsrc⟩, _⟩ := saveInFile_some hs
    obtain ⟨_, p2, p3, _⟩ := just_saved hf hsrc hs
    by_cases hb : saveBody fmt source r = body
    · rw [hb] at p2 p3
      exact ih h hd1' ⟨_, p2⟩ ⟨_, p3⟩
    · have hfr : ∀ sub, g' [body, sub] = g [body, sub] := by
        intro sub
        apply saveInFile_frame hf hs
        intro s hs' hmem
        have hss : s = source := Option.some.inj (hs'.symm.trans hsrc)
        have l2 : ∀ x y z u v : Str, ([x, y] : H5Path) ≠ [z, u, v] := fun x y z u v h =>
          List.cons_ne_nil _ _ (List.cons.inj (List.cons.inj h).2).2.symm
        unfold savePaths at hmem
        simp only [List.mem_cons, List.not_mem_nil, or_false] at hmem
        rcases hmem with h | h | h | h | h | h
        · exact l2 _ _ _ _ _ h
        · exact l2 _ _ _ _ _ h
        · exact l2 _ _ _ _ _ h
        · exact hb (hss ▸ (List.cons.inj h).1.symm)
        · exact hb (hss ▸ (List.cons.inj h).1.symm)
        · exact l2 _ _ _ _ _ h
      refine ih h hd1' ?_ ?_
      · rw [hfr, hgf]; exact h1
      · rw [hfr, hgf]; exact h2

/-- **C54** (partial), what survives later saves under other problem types: everything but the
angular flux and the directions is that of the last save with these identifiers and this folder. -/
theorem c54_own_folder_partial {fmt : ℝ → Str} {F : Set ℝ} (hf : FmtOk fmt F)
    {single : ℝ → ℝ} {d d' : Disk} {pre post : List SaveCall} {r : SaveCall} {l : LoadCall}
    (h : saveAll fmt single d (pre ++ r :: post) = some d')
    (hfl : ∀ q ∈ r :: post, IdFloats F q) (hl : AsksFor fmt l r)
    (hpost : ∀ q ∈ post, SameId q r →
      saveFolder fmt q.problemType q.cv ≠ saveFolder fmt r.problemType r.cv) {cv : Option H5Data}
    (hcv : coeffView r.coeffs l.radOrTransfer l.matOrRad = some cv) :
    ∃ res, loadSolution fmt d' l = some res ∧ GivesBack single r l res := by
  obtain ⟨d1, f0, f1, hd1, hsave, hrest⟩ := history_split h
  obtain ⟨p1, p2, p3, p4, p5, p6⟩ := just_saved hf.slash hl.source hsave
  obtain ⟨f', hd', _, hfr⟩ := saveAll_frame hf.slash post hrest hd1
  obtain ⟨f2, hf2, ⟨m, hm⟩, ⟨v, hv⟩⟩ := root_stays hf.slash (saveBody fmt l.sourceName r) post hrest
    hd1 ⟨_, p2⟩ ⟨_, p3⟩
  have hff : f2 = f' := Option.some.inj (hf2.symm.trans hd')
  rw [hff] at hm hv
  have hr := hfl r List.mem_cons_self
  have hq : ∀ q ∈ post, IdFloats F q := fun q hm => hfl q (List.mem_cons_of_mem _ hm)
  have fold : ∀ sub, f' [saveFolder fmt r.problemType r.cv, sub, saveBody fmt l.sourceName r] =
      f1 [saveFolder fmt r.problemType r.cv, sub, saveBody fmt l.sourceName r] := fun sub =>
    hfr _ fun q hm => not_touched_folder hf (hq q hm) hr hl.source (hpost q hm) sub
  rw [← fold] at p1 p4 p5 p6
  have hfile : d' l.fileName = some f' := by rw [hl.file]; exact hd'
  have hload := loadSolution_eq hf.slash hfile
    (sources_no_slash _ (savedSourceName_mem hl.source))
  rw [hl.folder, saveFolder_group hf.slash, hl.body] at hload
  have hparts := loadParts_of (group := [saveFolder fmt r.problemType r.cv]) p1 hm hv p4 p5 p6 hcv
  refine ⟨_, hload.trans hparts, ⟨rfl, rfl, fun hne => if_pos ?_, fun he => if_neg ?_, rfl, rfl,
    hcv⟩⟩
  · exact fun hh => hne ((saveFolder_transport _ _).1 hh)
  · exact fun hh => hh ((saveFolder_transport _ _).2 he)

/-- A save succeeds whenever the file exists, the source has a name and the rows fit. -/
theorem c54_save_succeeds {fmt : ℝ → Str} (hf : ∀ x, '/' ∉ fmt x) (single : ℝ → ℝ) {d : Disk}
    {f : H5File} (hd : d "run_data.hdf5" = some f) {r : SaveCall} {source : Str}
    (hs : savedSourceName r.sourceType = some source) (h1 : r.phi.length = r.xs.length)
    (h2 : r.e.length = r.xs.length) : ∃ d', saveSolution fmt single d r = some d' := by
  unfold saveSolution
  rw [hd]
  simp only [Option.bind_eq_bind, Option.bind_some,
    saveInFile_eq hf single f r hs ⟨h1, fun _ => h2⟩ rfl rfl]
  exact ⟨_, rfl⟩

/-! #### A concrete history -/

/-- Whole numbers printed in decimals. -/
noncomputable def wholeFmt (x : ℝ) : Str := (toString ⌊x⌋₊).toList

theorem wholeFmt_ok : FmtOk wholeFmt (Set.range (Nat.cast : ℕ → ℝ)) := by
  refine ⟨?_, fun x => slash_not_digits _, fun x => underscore_not_digits _⟩
  rintro _ ⟨m, rfl⟩ _ ⟨n, rfl⟩ h
  unfold wholeFmt at h
  rw [Nat.floor_natCast, Nat.floor_natCast] at h
  rw [toString_nat_inj h]

/-- An empty solution file. -/
def freshDisk : Disk := fun n => if n = "run_data.hdf5" then some (fun _ => none) else none

/-- A small run. -/
def smallRun (problemType : String) (order : ℕ) (v p : ℝ) : SaveCall where
  problemType := problemType
  sourceType := [1, 0, 0, 0, 0, 0]
  moving := true
  uncollided := true
  tfinal := 1
  c := 1
  cv := 0
  epsilon := 1
  nSpace := 8
  x0 := 0
  order := order
  nAngles := 2
  xs := [v, 3]
  phi := [4, 5]
  e := [6, 7]
  psi := [[p, 0], [0, p]]
  mus := [-1, 1]
  ws := [1, 1]
  edges := [-1, 0, 1]
  coeffs := [[[v]], [[p]]]

/-- A load of the small run. -/
noncomputable def smallLoad (problemName : String) (order : ℕ) : LoadCall where
  fileName := "run_data.hdf5"
  problemName := problemName
  sourceName := "plane_IC".toList
  radOrTransfer := "rad"
  c := 1
  cv0 := 0
  tfinal := 1
  order := order
  x0 := 0
  nSpace := 8
  matOrRad := "rad"
  uncollided := true
  moving := true
  epsilon := 1

theorem small_source (t : String) (o : ℕ) (v p : ℝ) :
    savedSourceName (smallRun t o v p).sourceType = some "plane_IC".toList := by
  change savedSourceName [1, 0, 0, 0, 0, 0] = _
  decide

theorem small_floats (t : String) (o : ℕ) (v p : ℝ) :
    IdFloats (Set.range (Nat.cast : ℕ → ℝ)) (smallRun t o v p) :=
  ⟨⟨1, by simp [smallRun]⟩, ⟨1, by simp [smallRun]⟩, ⟨0, by simp [smallRun]⟩,
    ⟨1, by simp [smallRun]⟩⟩

theorem small_asks (fmt : ℝ → Str) (t : String) (ht : t = "transport" ∨ t = "su_olson")
    (o o' : ℕ) (v p : ℝ) : AsksFor fmt (smallLoad t o') (smallRun t o v p) := by
  refine ⟨rfl, ?_, small_source t o v p, rfl, rfl, rfl, rfl, rfl, rfl, rfl⟩
  change loadFolder fmt t 0 = saveFolder fmt t 0
  rcases ht with rfl | rfl
  · unfold loadFolder saveFolder
    rw [if_neg (by decide), if_neg (by decide), if_pos rfl]
  · unfold loadFolder saveFolder
    rw [if_neg (by decide), if_neg (by decide), if_neg (by decide), if_neg (by decide),
      if_neg (by decide), if_neg (by decide), if_neg (by decide), if_neg (by decide),
      if_neg (by decide), if_neg (by decide), if_pos rfl]

theorem small_sameId (t t' : String) (o o' : ℕ) (v v' p p' : ℝ) :
    SameId (smallRun t o v p) (smallRun t' o' v' p') :=
  ⟨rfl, rfl, rfl, rfl, rfl, rfl, rfl, rfl⟩

theorem small_saves {fmt : ℝ → Str} (hf : ∀ x, '/' ∉ fmt x) (single : ℝ → ℝ) (t : String) (o : ℕ)
    (v p : ℝ) {d : Disk} (hd : ∃ f, d "run_data.hdf5" = some f) :
    ∃ d', saveSolution fmt single d (smallRun t o v p) = some d' ∧
      ∃ f, d' "run_data.hdf5" = some f := by
  obtain ⟨f, hd⟩ := hd
  obtain ⟨d', hd'⟩ := c54_save_succeeds hf single hd (small_source t o v p) rfl rfl
  obtain ⟨_, f', _, _, h, _⟩ := saveSolution_some hd'
  exact ⟨d', hd', f', h⟩

theorem small_history {fmt : ℝ → Str} (hf : ∀ x, '/' ∉ fmt x) (single : ℝ → ℝ) (t t' : String)
    (o o' : ℕ) (v v' p p' : ℝ) :
    ∃ d1 d2, saveSolution fmt single freshDisk (smallRun t o v p) = some d1 ∧
      saveSolution fmt single d1 (smallRun t' o' v' p') = some d2 ∧
      saveAll fmt single freshDisk ([] ++ smallRun t o v p :: []) = some d1 ∧
      saveAll fmt single freshDisk ([smallRun t o v p] ++ smallRun t' o' v' p' :: []) = some d2 := by
  obtain ⟨d1, h1, hd1⟩ := small_saves hf single t o v p (d := freshDisk) ⟨_, if_pos rfl⟩
  obtain ⟨d2, h2, _⟩ := small_saves hf single t' o' v' p' hd1
  refine ⟨d1, d2, h1, h2, ?_, ?_⟩
  · simp only [List.nil_append, saveAll, h1, Option.bind_some]
  · simp only [List.cons_append, List.nil_append, saveAll, h1, h2, Option.bind_some]

/-- The hypotheses of `c54_load_after_save_partial` and `c54_own_folder_partial` are met by a
history of two saves, the first of which is later overwritten. -/
example (single : ℝ → ℝ) : ∃ d' res,
    saveAll wholeFmt single freshDisk
      ([smallRun "su_olson" 2 0 0] ++ smallRun "su_olson" 2 1 1 :: []) = some d' ∧
    loadSolution wholeFmt d' (smallLoad "su_olson" 2) = some res ∧ res.psi = [[1, 0], [0, 1]] ∧
    res.e = [single 6, single 7] ∧ res.coeffs = some (.cube [[[1]], [[1]]]) := by
  obtain ⟨d1, d2, _, _, _, h⟩ := small_history wholeFmt_ok.slash single "su_olson" "su_olson" 2 2
    0 1 0 1
  obtain ⟨res, hres, hg, hpsi, _⟩ := c54_load_after_save_partial wholeFmt_ok h
    (by intro q hq; rw [List.mem_singleton.1 hq]; exact small_floats _ _ _ _)
    (small_asks wholeFmt "su_olson" (Or.inr rfl) 2 2 1 1) (by simp)
    (cv := some (.cube [[[1]], [[1]]])) (by
      change coeffView [[[(1 : ℝ)]], [[1]]] "rad" "rad" = _
      unfold coeffView
      rw [if_neg (by decide)])
  refine ⟨d2, res, h, hres, hpsi, hg.e (by decide), ?_⟩
  have := hg.coeffs
  change coeffView [[[(1 : ℝ)]], [[1]]] "rad" "rad" = _ at this
  unfold coeffView at this
  rw [if_neg (by decide)] at this
  exact (Option.some.inj this).symm

theorem small_view (t : String) (o : ℕ) (v p : ℝ) (t' : String) (o' : ℕ) :
    coeffView (smallRun t o v p).coeffs (smallLoad t' o').radOrTransfer
      (smallLoad t' o').matOrRad = some (some (.cube [[[v]], [[p]]])) := by
  change coeffView [[[v]], [[p]]] "rad" "rad" = _
  unfold coeffView
  rw [if_neg (by decide)]

theorem small_one (single : ℝ → ℝ) (t : String) (ht : t = "transport" ∨ t = "su_olson") (o : ℕ)
    (v p : ℝ) {d' : Disk} {pre : List SaveCall} {d : Disk} (o' : ℕ)
    (h : saveAll wholeFmt single d (pre ++ smallRun t o v p :: []) = some d') :
    ∃ res, loadSolution wholeFmt d' (smallLoad t o') = some res ∧
      GivesBack single (smallRun t o v p) (smallLoad t o') res ∧ res.psi = [[p, 0], [0, p]] := by
  obtain ⟨res, h1, h2, h3, _⟩ := c54_load_after_save_partial wholeFmt_ok h
    (by intro q hq; rw [List.mem_singleton.1 hq]; exact small_floats _ _ _ _)
    (small_asks wholeFmt t ht o o' v p) (by simp) (small_view t o v p t o')
  exact ⟨res, h1, h2, h3⟩

/-- **C54 is false of the code**: whatever number single precision cannot hold, there is a run
whose points are not the points loaded back. -/
theorem c54_single_precision {single : ℝ → ℝ} {v : ℝ} (hv : single v ≠ v) :
    ∃ (r : SaveCall) (l : LoadCall) (d' : Disk) (res : LoadResult), AsksFor wholeFmt l r ∧
      saveAll wholeFmt single freshDisk [r] = some d' ∧ loadSolution wholeFmt d' l = some res ∧
      res.xs ≠ r.xs := by
  obtain ⟨d1, _, _, _, h, _⟩ := small_history wholeFmt_ok.slash single "transport" "transport" 2 2
    v v 0 0
  obtain ⟨res, h1, h2, _⟩ := small_one single "transport" (Or.inl rfl) 2 v 0 2 h
  refine ⟨_, _, d1, res, small_asks wholeFmt "transport" (Or.inl rfl) 2 2 v 0, h, h1, ?_⟩
  rw [h2.xs]
  intro hx
  exact hv (List.cons.inj hx).1

example : ∃ v, (fun x : ℝ => ((⌊x⌋ : ℤ) : ℝ)) v ≠ v := ⟨1 / 2, by norm_num⟩

/-- The angular flux that a load of `r` returns after a later save of `q`, with the same
identifiers, under any problem type: that of `q`. -/
theorem c54_shared_angular_flux {fmt : ℝ → Str} {F : Set ℝ} (hf : FmtOk fmt F)
    {single : ℝ → ℝ} {d d' : Disk} {pre : List SaveCall} {r q : SaveCall} {l : LoadCall}
    (h : saveAll fmt single d (pre ++ r :: [q]) = some d')
    (hr : IdFloats F r) (hq : IdFloats F q) (hl : AsksFor fmt l r) (hid : SameId q r)
    (hfo : saveFolder fmt q.problemType q.cv ≠ saveFolder fmt r.problemType r.cv)
    {cv : Option H5Data}
    (hcv : coeffView r.coeffs l.radOrTransfer l.matOrRad = some cv) :
    ∃ res, loadSolution fmt d' l = some res ∧ GivesBack single r l res ∧ res.psi = q.psi ∧
      res.mus = q.mus := by
  obtain ⟨res, hres, hg⟩ := c54_own_folder_partial hf h
    (by intro x hx; simp only [List.mem_cons, List.not_mem_nil, or_false] at hx
        rcases hx with rfl | rfl <;> assumption) hl
    (by intro x hx _; rw [List.mem_singleton.1 hx]; exact hfo) hcv
  refine ⟨res, hres, hg, ?_⟩
  have h' : saveAll fmt single d ((pre ++ [r]) ++ q :: []) = some d' := by simpa using h
  obtain ⟨d1, f0, f1, hd1, hsave, hrest⟩ := history_split h'
  have hdd : d1 = d' := Option.some.inj hrest
  have hsq : savedSourceName q.sourceType = some l.sourceName := by rw [hid.1]; exact hl.source
  obtain ⟨_, p2, p3, _⟩ := just_saved hf.slash hsq hsave
  have hb : saveBody fmt l.sourceName q = loadBody fmt l := by
    rw [hl.body]
    unfold saveBody
    rw [hid.2.1, hid.2.2.1, hid.2.2.2.1, hid.2.2.2.2.1, hid.2.2.2.2.2.1, hid.2.2.2.2.2.2.1,
      hid.2.2.2.2.2.2.2]
  rw [hb] at p2 p3
  have hfile : d' l.fileName = some f1 := by rw [hl.file, ← hdd]; exact hd1
  rw [loadSolution_eq hf.slash hfile (sources_no_slash _ (savedSourceName_mem hl.source))] at hres
  unfold loadParts at hres
  obtain ⟨_, _, hres⟩ := Option.bind_eq_some_iff.1 hres
  obtain ⟨_, _, hres⟩ := Option.bind_eq_some_iff.1 hres
  obtain ⟨_, _, hres⟩ := Option.bind_eq_some_iff.1 hres
  obtain ⟨_, _, hres⟩ := Option.bind_eq_some_iff.1 hres
  obtain ⟨a, ha, hres⟩ := Option.bind_eq_some_iff.1 hres
  obtain ⟨b, hb', hres⟩ := Option.bind_eq_some_iff.1 hres
  obtain ⟨_, _, hres⟩ := Option.bind_eq_some_iff.1 hres
  obtain ⟨_, _, hres⟩ := Option.bind_eq_some_iff.1 hres
  obtain ⟨_, _, hres⟩ := Option.bind_eq_some_iff.1 hres
  have e1 : a = q.psi := by
    unfold readMat at ha
    rw [p2] at ha
    exact (Option.some.inj ha).symm
  have e2 : b = q.mus := by
    unfold readVec at hb'
    rw [p3] at hb'
    exact (Option.some.inj hb').symm
  rw [← Option.some.inj hres, e1, e2]
  exact ⟨rfl, rfl⟩

theorem small_folders (fmt : ℝ → Str) (o o' : ℕ) (v v' p p' : ℝ) :
    saveFolder fmt (smallRun "su_olson" o v p).problemType (smallRun "su_olson" o v p).cv ≠
      saveFolder fmt (smallRun "transport" o' v' p').problemType
        (smallRun "transport" o' v' p').cv := by
  intro h
  have h2 := (saveFolder_transport (fmt := fmt) "transport" 0).2 rfl
  exact absurd ((saveFolder_transport (fmt := fmt) "su_olson" 0).1 (h.trans h2)) (by decide)

/-- **C54 is false of the code**: a transport run is saved, then a run of another problem type; the
angular flux loaded for the transport run is not the one saved for it. -/
theorem c54_not_own_angular_flux (single : ℝ → ℝ) :
    ∃ (r q : SaveCall) (l : LoadCall) (d' : Disk) (res : LoadResult), AsksFor wholeFmt l r ∧
      q.problemType ≠ r.problemType ∧ saveAll wholeFmt single freshDisk [r, q] = some d' ∧
      loadSolution wholeFmt d' l = some res ∧ res.psi ≠ r.psi := by
  obtain ⟨_, d2, _, _, _, h⟩ := small_history wholeFmt_ok.slash single "transport" "su_olson" 2 2
    0 0 0 1
  obtain ⟨res, h1, _, h2, _⟩ := c54_shared_angular_flux (pre := []) wholeFmt_ok h
    (small_floats _ _ _ _) (small_floats _ _ _ _)
    (small_asks wholeFmt "transport" (Or.inl rfl) 2 2 0 0) (small_sameId _ _ _ _ _ _ _ _)
    (small_folders _ _ _ _ _ _ _) (small_view _ _ _ _ "transport" 2)
  refine ⟨_, _, _, d2, res, small_asks wholeFmt "transport" (Or.inl rfl) 2 2 0 0, by decide, h, h1,
    ?_⟩
  rw [h2]
  intro hx
  have := (List.cons.inj (List.cons.inj hx).1).1
  exact one_ne_zero this

/-- **C54 is false of the code**: a load without a file name does not look at the file the saver
writes, so no history of saves has any effect on it. -/
theorem c54_default_file {fmt : ℝ → Str} (hf : ∀ x, '/' ∉ fmt x) {single : ℝ → ℝ} {d d' : Disk}
    {rs : List SaveCall} (h : saveAll fmt single d rs = some d') {l : LoadCall}
    (hl : l.fileName = "run_data_crc_dec15-3.hdf5") :
    loadSolution fmt d' l = loadSolution fmt d l := by
  have hne : l.fileName ≠ "run_data.hdf5" := by rw [hl]; decide
  have key : d' l.fileName = d l.fileName := by
    cases hd : d "run_data.hdf5" with
    | some f =>
      obtain ⟨_, _, ho, _⟩ := saveAll_frame hf rs h hd
      exact ho _ hne
    | none =>
      cases rs with
      | nil => rw [← Option.some.inj h]
      | cons r rs =>
        unfold saveAll at h
        obtain ⟨d1, h1, _⟩ := Option.bind_eq_some_iff.1 h
        obtain ⟨_, _, hg, _⟩ := saveSolution_some h1
        rw [hd] at hg
        exact absurd hg (Option.some_ne_none _).symm
  unfold loadSolution
  rw [key]

/-- A load call written without a file name, as in `load_sol(problem, source, ...)`. -/
def plainLoad : LoadCall where
  problemName := "transport"
  sourceName := "plane_IC".toList
  radOrTransfer := "rad"
  c := 1
  cv0 := 0
  tfinal := 1
  order := 2
  x0 := 0
  nSpace := 8
  matOrRad := "rad"
  uncollided := true
  moving := true
  epsilon := 1

example : plainLoad.fileName = "run_data_crc_dec15-3.hdf5" := rfl

theorem saveFolder_head (fmt : ℝ → Str) (p : String) (cv : ℝ) :
    (saveFolder fmt p cv).head? ≠ some 'r' := by
  have e : "transfer_const_cv=".toList = 't' :: "ransfer_const_cv=".toList := by decide
  unfold saveFolder
  rw [e]
  split_ifs
  · decide
  · simp only [List.cons_append, List.head?_cons]; decide
  · simp only [List.cons_append, List.head?_cons]; decide
  · simp only [List.cons_append, List.head?_cons]; decide
  · simp only [List.cons_append, List.head?_cons]; decide
  · decide
  · decide
  · decide
  · decide
  · decide

/-- **C54 is false of the code**: runs of the constant heat capacity problems are not found under
the problem name they were saved with, whatever was saved before. -/
theorem c54_constant_cv_not_found {fmt : ℝ → Str} (hf : ∀ x, '/' ∉ fmt x) {single : ℝ → ℝ}
    {d d' : Disk} {rs : List SaveCall} (h : saveAll fmt single d rs = some d')
    (hd : d "run_data.hdf5" = some (fun _ => none)) {l : LoadCall}
    (hfile : l.fileName = "run_data.hdf5") (hs : l.sourceName ∈ sourceNameList)
    (hl : l.problemName ∈ ["rad_transfer_constant_cv", "rad_transfer_constant_cv_s2",
      "rad_transfer_constant_cv_thick", "rad_transfer_constant_cv_thick_s2"]) :
    loadSolution fmt d' l = none := by
  obtain ⟨f', hf', _, hfr⟩ := saveAll_frame hf rs h hd
  have hfo : ∃ rest, splitPath [] (loadFolder fmt l.problemName l.cv0) = [('r' :: rest : Str)] := by
    simp only [List.mem_cons, List.not_mem_nil, or_false] at hl
    unfold loadFolder
    rcases hl with hl | hl | hl | hl <;> rw [hl, if_neg (by decide), if_neg (by decide)]
    · exact ⟨"ad_transfer_constant_cv".toList, by decide⟩
    · exact ⟨"ad_transfer_constant_cv_s2".toList, by decide⟩
    · exact ⟨"ad_transfer_constant_cv_thick".toList, by decide⟩
    · exact ⟨"ad_transfer_constant_cv_thick_s2".toList, by decide⟩
  obtain ⟨rest, hfo⟩ := hfo
  rw [loadSolution_eq hf (f := f') (by rw [hfile]; exact hf') (sources_no_slash _ hs), hfo]
  have hnone : f' [('r' :: rest : Str), "solution".toList, loadBody fmt l] = none := by
    rw [hfr]
    intro q _ s _ hmem
    have key : ∀ a b c : Str, ([('r' :: rest : Str), a, b] : H5Path) ≠
        [saveFolder fmt q.problemType q.cv, c, saveBody fmt s q] := fun a b c h =>
      saveFolder_head fmt q.problemType q.cv (by rw [← (List.cons.inj h).1]; rfl)
    have l3 : ∀ x y z u v : Str, ([z, u, v] : H5Path) ≠ [x, y] := fun x y z u v h =>
      List.cons_ne_nil _ _ (List.cons.inj (List.cons.inj h).2).2
    unfold savePaths at hmem
    simp only [List.mem_cons, List.not_mem_nil, or_false] at hmem
    rcases hmem with h | h | h | h | h | h
    · exact key _ _ _ h
    · exact key _ _ _ h
    · exact key _ _ _ h
    · exact l3 _ _ _ _ _ h
    · exact l3 _ _ _ _ _ h
    · exact key _ _ _ h
  have hread : readMat f' ([('r' :: rest : Str)] ++ ["solution".toList, loadBody fmt l]) = none := by
    unfold readMat
    change (match f' [('r' :: rest : Str), "solution".toList, loadBody fmt l] with
      | some (.mat m) => some m
      | _ => none) = none
    rw [hnone]
  unfold loadParts
  rw [hread]
  rfl

/-- The hypotheses of `c54_constant_cv_not_found` are met after a save of that very problem. -/
example (single : ℝ → ℝ) : ∃ d', saveAll wholeFmt single freshDisk
      [smallRun "rad_transfer_constant_cv" 2 0 0] = some d' ∧
    loadSolution wholeFmt d' (smallLoad "rad_transfer_constant_cv" 2) = none := by
  obtain ⟨d1, _, _, _, h, _⟩ := small_history wholeFmt_ok.slash single "rad_transfer_constant_cv"
    "transport" 2 2 0 0 0 0
  exact ⟨d1, h, c54_constant_cv_not_found wholeFmt_ok.slash h rfl rfl
    (by change "plane_IC".toList ∈ sourceNameList; decide) (by
      change "rad_transfer_constant_cv" ∈ _; decide)⟩

/-! ### C55: different runs and overwriting -/

/-- The load `l` uses the same name as the run `q`. -/
def SameName (l : LoadCall) (q : SaveCall) : Prop :=
  savedSourceName q.sourceType = some l.sourceName ∧ l.uncollided = q.uncollided ∧
    l.moving = q.moving ∧ l.nSpace = q.nSpace ∧ l.tfinal = q.tfinal ∧ l.c = q.c ∧ l.x0 = q.x0 ∧
    l.epsilon = q.epsilon

theorem sameName_of_body {fmt : ℝ → Str} {F : Set ℝ} (hf : FmtOk fmt F) {q : SaveCall}
    {l : LoadCall} (hq : IdFloats F q) (hs : l.sourceName ∈ sourceNameList)
    (hl : l.tfinal ∈ F ∧ l.c ∈ F ∧ l.x0 ∈ F ∧ l.epsilon ∈ F) {s : Str}
    (hs' : savedSourceName q.sourceType = some s)
    (h : loadBody fmt l = saveBody fmt s q) : SameName l q := by
  obtain ⟨h1, h2, h3, h4, h5, h6, h7, h8⟩ := keyBody_inj hf hs
    (savedSourceName_mem hs') hl.1 hq.t hl.2.1 hq.c hl.2.2.1 hq.x0 hl.2.2.2 hq.eps h
  exact ⟨by rw [hs', h1], h2, h3, h4, h5, h6, h7, h8⟩

theorem loadParts_congr {f f' : H5File} {group : H5Path} {body : Str}
    (h1 : ∀ sub, f' (group ++ [sub, body]) = f (group ++ [sub, body]))
    (h2 : ∀ sub, f' [body, sub] = f [body, sub]) (a b : String) :
    loadParts f' group body a b = loadParts f group body a b := by
  have r1 : ∀ sub, readMat f' (group ++ [sub, body]) = readMat f (group ++ [sub, body]) :=
    fun sub => by unfold readMat; rw [h1]
  have r2 : ∀ sub, readVec f' (group ++ [sub, body]) = readVec f (group ++ [sub, body]) :=
    fun sub => by unfold readVec; rw [h1]
  have r3 : ∀ sub, readMat f' [body, sub] = readMat f [body, sub] :=
    fun sub => by unfold readMat; rw [h2]
  have r4 : ∀ sub, readVec f' [body, sub] = readVec f [body, sub] :=
    fun sub => by unfold readVec; rw [h2]
  have r5 : ∀ sub, loadCoeffs f' (group ++ [sub, body]) a b =
      loadCoeffs f (group ++ [sub, body]) a b :=
    fun sub => by unfold loadCoeffs readCube; rw [h1]
  unfold loadParts
  rw [r1, r2, r2, r3, r4, r5]

theorem last_not_touched {fmt : ℝ → Str} {q : SaveCall} {s : Str} {body sub : Str}
    {group : H5Path} (hb : body ≠ saveBody fmt s q) (hmus : body ≠ "mus".toList)
    (hpsi : body ≠ "psi".toList) : group ++ [sub, body] ∉ savePaths fmt s q := by
  intro hmem
  have last : ∀ g : H5Path, (g ++ [sub, body]).getLast? = some body := fun g => by simp
  unfold savePaths at hmem
  simp only [List.mem_cons, List.not_mem_nil, or_false] at hmem
  rcases hmem with h | h | h | h | h | h <;> have hl := last group <;> rw [h] at hl <;>
    have hl := Option.some.inj hl
  · exact hb hl.symm
  · exact hb hl.symm
  · exact hb hl.symm
  · exact hmus hl.symm
  · exact hpsi hl.symm
  · exact hb hl.symm

theorem N_mem_keyBody (fmt : ℝ → Str) (source : Str) (u m : Bool) (n : ℕ) (t c x0 e : ℝ) :
    'N' ∈ keyBody fmt source u m n t c x0 e := by
  unfold keyBody
  exact List.mem_append_right _ List.mem_cons_self

/-- **C55** (partial).  Saving a run does not change what a load returns for a run with another
source name, switches, number of cells, time, scattering ratio, source size or epsilon, in any
problem type and any file.

Missing: the polynomial order and the number of angles are not part of the name, different sources
can share a name and the angular flux is shared between problem types; see
`c55_order_overwrites`, `c55_source_overwrites` and `c54_not_own_angular_flux`. -/
theorem c55_other_name_unchanged_partial {fmt : ℝ → Str} {F : Set ℝ} (hf : FmtOk fmt F)
    {single : ℝ → ℝ} {d d' : Disk} {q : SaveCall} (h : saveSolution fmt single d q = some d')
    (hq : IdFloats F q) {l : LoadCall} (hs : l.sourceName ∈ sourceNameList)
    (hl : l.tfinal ∈ F ∧ l.c ∈ F ∧ l.x0 ∈ F ∧ l.epsilon ∈ F) (hn : ¬ SameName l q) :
    loadSolution fmt d' l = loadSolution fmt d l := by
  obtain ⟨f, f', hd, hsave, hd', hother⟩ := saveSolution_some h
  by_cases hfile : l.fileName = "run_data.hdf5"
  · rw [loadSolution_eq hf.slash (f := f') (by rw [hfile]; exact hd') (sources_no_slash _ hs),
      loadSolution_eq hf.slash (f := f) (by rw [hfile]; exact hd) (sources_no_slash _ hs)]
    have hbody : ∀ s, savedSourceName q.sourceType = some s → loadBody fmt l ≠ saveBody fmt s q :=
      fun s hs' hb => hn (sameName_of_body hf hq hs hl hs' hb)
    have hN : 'N' ∈ loadBody fmt l := N_mem_keyBody _ _ _ _ _ _ _ _ _
    have hmus : loadBody fmt l ≠ "mus".toList := fun hh => by
      rw [hh] at hN; revert hN; decide
    have hpsi : loadBody fmt l ≠ "psi".toList := fun hh => by
      rw [hh] at hN; revert hN; decide
    apply loadParts_congr
    · exact fun sub => saveInFile_frame hf.slash hsave fun s hs' =>
        last_not_touched (hbody s hs') hmus hpsi
    · intro sub
      refine saveInFile_frame hf.slash hsave fun s hs' hmem => ?_
      have l2 : ∀ x y z u v : Str, ([x, y] : H5Path) ≠ [z, u, v] := fun x y z u v h =>
        List.cons_ne_nil _ _ (List.cons.inj (List.cons.inj h).2).2.symm
      unfold savePaths at hmem
      simp only [List.mem_cons, List.not_mem_nil, or_false] at hmem
      rcases hmem with h | h | h | h | h | h
      · exact l2 _ _ _ _ _ h
      · exact l2 _ _ _ _ _ h
      · exact l2 _ _ _ _ _ h
      · exact hbody s hs' (List.cons.inj h).1
      · exact hbody s hs' (List.cons.inj h).1
      · exact l2 _ _ _ _ _ h
  · unfold loadSolution
    rw [hother _ hfile]

/-- Saving a run with 8 cells leaves a load of the run with 16 cells alone. -/
example (single : ℝ → ℝ) {d d' : Disk}
    (h : saveSolution wholeFmt single d (smallRun "transport" 2 0 0) = some d') :
    loadSolution wholeFmt d' { smallLoad "transport" 2 with nSpace := 16 } =
      loadSolution wholeFmt d { smallLoad "transport" 2 with nSpace := 16 } :=
  c55_other_name_unchanged_partial wholeFmt_ok h (small_floats _ _ _ _)
    (by change "plane_IC".toList ∈ sourceNameList; decide)
    ⟨⟨1, by simp [smallLoad]⟩, ⟨1, by simp [smallLoad]⟩, ⟨0, by simp [smallLoad]⟩,
      ⟨1, by simp [smallLoad]⟩⟩
    (fun hn => absurd hn.2.2.2.1 (by decide))

/-- **C55 is false of the code**: two runs that differ in the polynomial order only are saved under
one name; a load of the first, after the second was saved, returns something else than before. -/
theorem c55_order_overwrites (single : ℝ → ℝ) :
    ∃ (r q : SaveCall) (l : LoadCall) (d1 d2 : Disk), AsksFor wholeFmt l r ∧ l.order = r.order ∧
      q.order ≠ r.order ∧ saveSolution wholeFmt single freshDisk r = some d1 ∧
      saveSolution wholeFmt single d1 q = some d2 ∧
      loadSolution wholeFmt d2 l ≠ loadSolution wholeFmt d1 l := by
  obtain ⟨d1, d2, h1, h2, h3, h4⟩ := small_history wholeFmt_ok.slash single "transport"
    "transport" 2 3 0 0 0 1
  obtain ⟨res1, l1, _, p1⟩ := small_one single "transport" (Or.inl rfl) 2 0 0 2 h3
  obtain ⟨res2, l2, _, p2⟩ := small_one single "transport" (Or.inl rfl) 3 0 1 2 h4
  refine ⟨_, _, smallLoad "transport" 2, d1, d2,
    small_asks wholeFmt "transport" (Or.inl rfl) 2 2 0 0, rfl, by decide, h1, h2, ?_⟩
  rw [l1, l2]
  intro hh
  have := congrArg LoadResult.psi (Option.some.inj hh)
  rw [p1, p2] at this
  exact one_ne_zero (List.cons.inj (List.cons.inj this).1).1

/-! ### C58: source names -/

/-- The sources switched on by a source type vector. -/
def selected (st : List ℤ) : Set ℕ := {i | st[i]? = some 1}

/-- Exactly one switch is on, all others are off. -/
structure OneHot (st : List ℤ) (i : ℕ) : Prop where
  on : st[i]? = some 1
  off : ∀ j v, st[j]? = some v → j ≠ i → v = 0

theorem argminFrom_zero (vs : List ℤ) : ∀ k best, argminFrom vs k 0 best = best := by
  induction vs with
  | nil => intro k best; rfl
  | cons v vs ih =>
    intro k best
    rw [argminFrom, if_neg (not_lt.2 (abs_nonneg _)), ih]

theorem argminFrom_one (vs : List ℤ) : ∀ (i k best : ℕ), OneHot vs i →
    argminFrom vs k 1 best = k + i := by
  induction vs with
  | nil => intro i k best h; exact absurd h.on (by simp)
  | cons v vs ih =>
    intro i k best h
    cases i with
    | zero =>
      have hv : v = 1 := by simpa using h.on
      rw [argminFrom, hv, if_pos (by norm_num)]
      norm_num
      exact argminFrom_zero vs _ _
    | succ i =>
      have hv : v = 0 := h.off 0 v rfl (by omega)
      rw [argminFrom, hv, if_neg (by norm_num), ih i (k + 1) best ?_]
      · omega
      · refine ⟨by simpa using h.on, fun j w hj hne => h.off (j + 1) w (by simpa using hj) (by omega)⟩

theorem sourceIndex_oneHot {st : List ℤ} {i : ℕ} (h : OneHot st i) : sourceIndex st = some i := by
  cases st with
  | nil => exact absurd h.on (by simp)
  | cons v vs =>
    unfold sourceIndex
    cases i with
    | zero =>
      have hv : v = 1 := by simpa using h.on
      rw [hv]
      norm_num
      exact argminFrom_zero vs _ _
    | succ i =>
      have hv : v = 0 := h.off 0 v rfl (by omega)
      rw [hv]
      have : OneHot vs i :=
        ⟨by simpa using h.on, fun j w hj hne => h.off (j + 1) w (by simpa using hj) (by omega)⟩
      have := argminFrom_one vs i 1 0 this
      norm_num
      rw [this]; omega

/-- **C58** (partial).  Among vectors with exactly one switch on, different sources are saved under
different names, and the sources beyond the sixth are not saved at all.

Missing: vectors with no switch on or with several switches on, see `c58_no_source_named_plane`. -/
theorem c58_one_hot_partial {st st' : List ℤ} {i j : ℕ} (h : OneHot st i) (h' : OneHot st' j)
    (hij : i ≠ j) :
    (savedSourceName st = none ∧ 6 ≤ i) ∨ savedSourceName st ≠ savedSourceName st' := by
  unfold savedSourceName
  rw [sourceIndex_oneHot h, sourceIndex_oneHot h', Option.bind_some, Option.bind_some]
  by_cases hi : 6 ≤ i
  · left
    exact ⟨List.getElem?_eq_none (by simpa [sourceNameList] using hi), hi⟩
  · right
    intro hh
    have hj : j < 6 := by
      by_contra hj
      push Not at hj hi
      rw [List.getElem?_eq_none (l := sourceNameList) (i := j) (by simpa [sourceNameList] using hj)]
        at hh
      have := List.getElem?_eq_none_iff.1 hh
      simp [sourceNameList] at this
      omega
    push Not at hi
    have key : ∀ i < 6, ∀ j < 6, sourceNameList[i]? = sourceNameList[j]? → i = j := by
      unfold sourceNameList; decide
    exact hij (key i hi j hj hh)

example : OneHot [0, 1, 0, 0, 0, 0] 1 ∧ OneHot [0, 0, 1, 0, 0, 0] 2 ∧
    savedSourceName [0, 1, 0, 0, 0, 0] = some "square_IC".toList := by
  refine ⟨⟨rfl, ?_⟩, ⟨rfl, ?_⟩, by decide⟩
  · intro j v hj hne
    match j with
    | 0 => simpa using hj.symm
    | 1 => exact absurd rfl hne
    | 2 => simpa using hj.symm
    | 3 => simpa using hj.symm
    | 4 => simpa using hj.symm
    | 5 => simpa using hj.symm
    | j + 6 => simp at hj
  · intro j v hj hne
    match j with
    | 0 => simpa using hj.symm
    | 1 => simpa using hj.symm
    | 2 => exact absurd rfl hne
    | 3 => simpa using hj.symm
    | 4 => simpa using hj.symm
    | 5 => simpa using hj.symm
    | j + 6 => simp at hj

theorem argminFrom_off (vs : List ℤ) (h : ∀ v ∈ vs, v = 0) : ∀ k best,
    argminFrom vs k 1 best = best := by
  induction vs with
  | nil => intro k best; rfl
  | cons v vs ih =>
    intro k best
    rw [argminFrom, h v List.mem_cons_self, if_neg (by norm_num),
      ih fun w hw => h w (List.mem_cons_of_mem _ hw)]

/-- **C58 is false of the code**: a run without any source (of which the boundary source problem is
one) is saved under the name of the plane pulse, whatever the length of the vector. -/
theorem c58_no_source_named_plane {st : List ℤ} (hne : st ≠ []) (h : ∀ v ∈ st, v = 0) :
    selected st = ∅ ∧ savedSourceName st = savedSourceName [1, 0, 0, 0, 0, 0] ∧
      selected st ≠ selected [1, 0, 0, 0, 0, 0] := by
  have hsel : selected st = ∅ := by
    ext i
    simp only [selected, Set.mem_ofPred_eq, Set.mem_empty_iff_false, iff_false]
    intro hi
    exact absurd (h 1 (List.mem_of_getElem? hi)) (by norm_num)
  refine ⟨hsel, ?_, ?_⟩
  · cases st with
    | nil => exact absurd rfl hne
    | cons v vs =>
      have : sourceIndex (v :: vs) = some 0 := by
        unfold sourceIndex
        rw [h v List.mem_cons_self]
        norm_num
        exact argminFrom_off vs (fun w hw => h w (List.mem_cons_of_mem _ hw)) _ _
      unfold savedSourceName
      rw [this]
      decide
  · rw [hsel]
    intro hh
    have : (0 : ℕ) ∈ selected [1, 0, 0, 0, 0, 0] := rfl
    rw [← hh] at this
    exact this

example : ([0, 0, 0, 0, 0, 0] : List ℤ) ≠ [] ∧ ∀ v ∈ ([0, 0, 0, 0, 0, 0] : List ℤ), v = 0 := by
  decide

/-- **C55 is false of the code** for sources too: a run without a source and a run with the plane
pulse, otherwise alike, are stored in the same places. -/
theorem c55_source_overwrites (fmt : ℝ → Str) (r : SaveCall)
    (hr : r.sourceType = [1, 0, 0, 0, 0, 0]) :
    ∃ q : SaveCall, q = { r with sourceType := [0, 0, 0, 0, 0, 0] } ∧
      selected q.sourceType ≠ selected r.sourceType ∧ SameId q r ∧
      ∀ s, savedSourceName r.sourceType = some s → savedSourceName q.sourceType = some s ∧
        savePaths fmt s q = savePaths fmt s r := by
  obtain ⟨_, h2, h3⟩ := c58_no_source_named_plane (st := [0, 0, 0, 0, 0, 0]) (by decide) (by decide)
  refine ⟨_, rfl, ?_, ⟨?_, rfl, rfl, rfl, rfl, rfl, rfl, rfl⟩, fun s hs => ⟨?_, rfl⟩⟩
  · rw [hr]; exact h3
  · rw [hr]; exact h2
  · rw [← hs, hr]; exact h2

end Verif.Props
