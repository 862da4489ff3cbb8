import Verif.Model.Saving
import Mathlib.Tactic.Ring
import Mathlib.Tactic.Linarith
import Mathlib.Data.Set.Function

/-!
# Names of datasets and the effect of a save

Facts about the model of saving: how the names of runs are split into path components, when two
names are equal, and the exact content of the file after a save.
-/

namespace Verif.Lemmas

open Verif.Model

/-- Contract of `str` on the floats `F`: different floats print differently, and the text of a
float contains neither a slash nor an underscore. -/
structure FmtOk (fmt : ℝ → Str) (F : Set ℝ) : Prop where
  inj : Set.InjOn fmt F
  slash : ∀ x, '/' ∉ fmt x
  underscore : ∀ x, '_' ∉ fmt x

theorem splitPath_append (a : Str) (h : '/' ∉ a) :
    ∀ cur s, splitPath cur (a ++ s) = splitPath (cur ++ a) s := by
  induction a with
  | nil => intro cur s; simp
  | cons x a ih =>
    intro cur s
    rw [List.mem_cons, not_or] at h
    rw [List.cons_append, splitPath, if_neg (Ne.symm h.1), ih h.2, List.append_assoc]
    rfl

theorem splitPath_end (cur : Str) (h : cur ≠ []) : splitPath cur [] = [cur] := by
  rw [splitPath, if_neg h]

theorem splitPath_single (a : Str) (h : '/' ∉ a) (h0 : a ≠ []) : splitPath [] a = [a] := by
  have := splitPath_append a h [] []
  rw [List.append_nil, List.nil_append] at this
  rw [this, splitPath_end a h0]

theorem splitPath_two (a b : Str) (ha : '/' ∉ a) (ha0 : a ≠ []) (hb : '/' ∉ b) (hb0 : b ≠ []) :
    splitPath [] (a ++ '/' :: '/' :: b) = [a, b] := by
  rw [splitPath_append a ha, List.nil_append, splitPath, if_pos rfl, if_neg ha0, splitPath,
    if_pos rfl, if_pos rfl, splitPath_single b hb hb0]

theorem splitPath_slash (b : Str) (hb : '/' ∉ b) (hb0 : b ≠ []) :
    splitPath [] ('/' :: b) = [b] := by
  rw [splitPath, if_pos rfl, if_pos rfl, splitPath_single b hb hb0]

/-- The name of a run without the leading slash. -/
noncomputable def keyBody (fmt : ℝ → Str) (source : Str) (uncollided moving : Bool) (nSpace : ℕ)
    (t c x0 epsilon : ℝ) : Str :=
  (source ++ (if uncollided then "_uncollided_".toList else []) ++
    (if moving then "moving_mesh_".toList else [])) ++ 'N' :: ("_space = ".toList ++
    ((toString nSpace).toList ++ '_' :: ("t = ".toList ++ (fmt t ++ '_' :: ("c = ".toList ++
    (fmt c ++ '_' :: ("x0_or_sigma = ".toList ++ (fmt x0 ++
    (if epsilon ≠ 1 then '_' :: ("epsilon=".toList ++ fmt epsilon) else []))))))))) 

theorem fullStr_eq (fmt : ℝ → Str) (source : Str) (u m : Bool) (n : ℕ) (t c x0 e : ℝ) :
    fullStr fmt source u m n t c x0 e = '/' :: keyBody fmt source u m n t c x0 e := by
  have h1 : "_t = ".toList = '_' :: "t = ".toList := by decide
  have h2 : "_c = ".toList = '_' :: "c = ".toList := by decide
  have h3 : "_x0_or_sigma = ".toList = '_' :: "x0_or_sigma = ".toList := by decide
  have h4 : "_epsilon=".toList = '_' :: "epsilon=".toList := by decide
  have h5 : "N_space = ".toList = 'N' :: "_space = ".toList := by decide
  have h6 : "/".toList = ['/'] := by decide
  unfold fullStr keyBody
  rw [h1, h2, h3, h4, h5, h6]
  generalize "t = ".toList = s1
  generalize "c = ".toList = s2
  generalize "x0_or_sigma = ".toList = s3
  generalize "epsilon=".toList = s4
  generalize "_space = ".toList = s5
  generalize "_uncollided_".toList = s6
  generalize "moving_mesh_".toList = s7
  generalize (toString n).toList = s8
  simp only [List.append_assoc, List.cons_append, List.nil_append]

theorem digits_ok (n : ℕ) (ch : Char) (h : ch ∈ (toString n).toList) : ch.isDigit = true := by
  have : (toString n).toList = Nat.toDigits 10 n := by
    rw [Nat.toString_eq_ofList_toDigits]; simp
  rw [this] at h
  exact Nat.isDigit_of_mem_toDigits (by norm_num) (by norm_num) h

theorem toString_nat_inj {m n : ℕ} (h : (toString m).toList = (toString n).toList) : m = n := by
  rw [Nat.toString_eq_ofList_toDigits, Nat.toString_eq_ofList_toDigits] at h
  simp only [String.toList_ofList] at h
  rw [← Nat.ofDigitChars_ten_toDigits (n := m), h, Nat.ofDigitChars_ten_toDigits]

theorem slash_not_digits (n : ℕ) : '/' ∉ (toString n).toList := fun h => by
  have := digits_ok n _ h
  revert this; decide

theorem underscore_not_digits (n : ℕ) : '_' ∉ (toString n).toList := fun h => by
  have := digits_ok n _ h
  revert this; decide

theorem keyBody_ne_nil (fmt : ℝ → Str) (source : Str) (u m : Bool) (n : ℕ) (t c x0 e : ℝ) :
    keyBody fmt source u m n t c x0 e ≠ [] := by
  unfold keyBody
  exact List.append_ne_nil_of_right_ne_nil _ (List.cons_ne_nil _ _)

theorem slash_not_keyBody {fmt : ℝ → Str} (hf : ∀ x, '/' ∉ fmt x) {source : Str}
    (hs : '/' ∉ source) (u m : Bool) (n : ℕ) (t c x0 e : ℝ) :
    '/' ∉ keyBody fmt source u m n t c x0 e := by
  have hn := slash_not_digits n
  have h1 := hf t
  have h2 := hf c
  have h3 := hf x0
  have h4 := hf e
  unfold keyBody
  cases u <;> cases m <;> by_cases he : e ≠ 1 <;> simp_all

/-- Texts separated by the first occurrence of a character. -/
theorem split_unique {ch : Char} : ∀ {a a' s s' : Str}, ch ∉ a → ch ∉ a' →
    a ++ ch :: s = a' ++ ch :: s' → a = a' ∧ s = s'
  | [], [], _, _, _, _, h => by simpa using h
  | [], y :: a', _, _, _, h', h => by
    simp only [List.nil_append, List.cons_append, List.cons.injEq] at h
    exact absurd (by rw [h.1]; exact List.mem_cons_self) h'
  | x :: a, [], _, _, h', _, h => by
    simp only [List.nil_append, List.cons_append, List.cons.injEq] at h
    exact absurd (by rw [h.1]; exact List.mem_cons_self) h'
  | x :: a, y :: a', s, s', h1, h2, h => by
    simp only [List.cons_append, List.cons.injEq] at h
    have := split_unique (a := a) (a' := a') (fun hm => h1 (List.mem_cons_of_mem _ hm))
      (fun hm => h2 (List.mem_cons_of_mem _ hm)) h.2
    exact ⟨by rw [h.1, this.1], this.2⟩

theorem sources_no_slash : ∀ s ∈ sourceNameList, '/' ∉ s := by
  unfold sourceNameList; decide

theorem sources_prefix_no_N : ∀ s ∈ sourceNameList, ∀ u m : Bool,
    'N' ∉ s ++ (if u then "_uncollided_".toList else []) ++
      (if m then "moving_mesh_".toList else []) := by
  unfold sourceNameList; decide

theorem sources_prefix_inj : ∀ s ∈ sourceNameList, ∀ s' ∈ sourceNameList, ∀ u m u' m' : Bool,
    s ++ (if u then "_uncollided_".toList else []) ++
      (if m then "moving_mesh_".toList else []) =
    s' ++ (if u' then "_uncollided_".toList else []) ++
      (if m' then "moving_mesh_".toList else []) → s = s' ∧ u = u' ∧ m = m' := by
  unfold sourceNameList
  decide

/-- The name of a run determines everything that goes into it. -/
theorem keyBody_inj {fmt : ℝ → Str} {F : Set ℝ} (hf : FmtOk fmt F) {s s' : Str}
    (hs : s ∈ sourceNameList) (hs' : s' ∈ sourceNameList) {u u' m m' : Bool} {n n' : ℕ}
    {t t' c c' x x' e e' : ℝ} (ht : t ∈ F) (ht' : t' ∈ F) (hc : c ∈ F) (hc' : c' ∈ F)
    (hx : x ∈ F) (hx' : x' ∈ F) (he : e ∈ F) (he' : e' ∈ F)
    (h : keyBody fmt s u m n t c x e = keyBody fmt s' u' m' n' t' c' x' e') :
    s = s' ∧ u = u' ∧ m = m' ∧ n = n' ∧ t = t' ∧ c = c' ∧ x = x' ∧ e = e' := by
  unfold keyBody at h
  obtain ⟨h1, h⟩ := split_unique (sources_prefix_no_N s hs u m) (sources_prefix_no_N s' hs' u' m') h
  obtain ⟨hss, huu, hmm⟩ := sources_prefix_inj s hs s' hs' u m u' m' h1
  have h := List.append_cancel_left h
  obtain ⟨hn, h⟩ := split_unique (underscore_not_digits n) (underscore_not_digits n') h
  have h := List.append_cancel_left h
  obtain ⟨h2, h⟩ := split_unique (hf.underscore t) (hf.underscore t') h
  have h := List.append_cancel_left h
  obtain ⟨h3, h⟩ := split_unique (hf.underscore c) (hf.underscore c') h
  have h := List.append_cancel_left h
  have key : fmt x = fmt x' ∧ e = e' := by
    by_cases h5 : e ≠ 1 <;> by_cases h6 : e' ≠ 1
    · rw [if_pos h5, if_pos h6] at h
      obtain ⟨h4, h⟩ := split_unique (hf.underscore x) (hf.underscore x') h
      exact ⟨h4, hf.inj he he' (List.append_cancel_left h)⟩
    · rw [if_pos h5, if_neg h6, List.append_nil] at h
      exact absurd (h ▸ (by simp : '_' ∈ fmt x ++ '_' :: ("epsilon=".toList ++ fmt e)))
        (hf.underscore x')
    · rw [if_neg h5, if_pos h6, List.append_nil] at h
      exact absurd (h ▸ (by simp : '_' ∈ fmt x' ++ '_' :: ("epsilon=".toList ++ fmt e')))
        (hf.underscore x)
    · rw [if_neg h5, if_neg h6, List.append_nil, List.append_nil] at h
      push Not at h5 h6
      exact ⟨h, h5.trans h6.symm⟩
  exact ⟨hss, huu, hmm, toString_nat_inj hn, hf.inj ht ht' h2, hf.inj hc hc' h3,
    hf.inj hx hx' key.1, key.2⟩

/-! ### Paths -/

theorem resolve_sub {folder body : Str} (sub : Str) (group : H5Path) (hsub : '/' ∉ sub)
    (hsub0 : sub ≠ []) (hb : '/' ∉ body) (hb0 : body ≠ []) (hg : group = [folder]) :
    resolve group (sub ++ '/' :: '/' :: body) = [folder, sub, body] := by
  unfold resolve
  rw [if_neg, splitPath_two sub body hsub hsub0 hb hb0, hg]
  · rfl
  · cases sub with
    | nil => exact absurd rfl hsub0
    | cons a l =>
      simp only [List.cons_append, List.head?_cons, Option.some.injEq]
      rintro rfl
      exact hsub List.mem_cons_self

theorem resolve_key {body : Str} (group : H5Path) (hb : '/' ∉ body) (hb0 : body ≠ []) :
    resolve group ('/' :: body) = [body] := by
  unfold resolve
  rw [if_pos (by simp), splitPath_slash body hb hb0]

theorem resolve_sub_solution {folder body : Str} (group : H5Path) (hb : '/' ∉ body)
    (hb0 : body ≠ []) (hg : group = [folder]) :
    resolve group ("solution/".toList ++ '/' :: body) = [folder, "solution".toList, body] := by
  have := resolve_sub (folder := folder) "solution".toList group (by decide) (by decide) hb hb0 hg
  rw [← this]; simp

theorem resolve_sub_coefficients {folder body : Str} (group : H5Path) (hb : '/' ∉ body)
    (hb0 : body ≠ []) (hg : group = [folder]) :
    resolve group ("coefficients/".toList ++ '/' :: body) =
      [folder, "coefficients".toList, body] := by
  have := resolve_sub (folder := folder) "coefficients".toList group (by decide) (by decide) hb
    hb0 hg
  rw [← this]; simp

theorem resolve_sub_weights {folder body : Str} (group : H5Path) (hb : '/' ∉ body)
    (hb0 : body ≠ []) (hg : group = [folder]) :
    resolve group ("weights/".toList ++ '/' :: body) = [folder, "weights".toList, body] := by
  have := resolve_sub (folder := folder) "weights".toList group (by decide) (by decide) hb hb0 hg
  rw [← this]; simp

theorem resolve_sub_edges {folder body : Str} (group : H5Path) (hb : '/' ∉ body)
    (hb0 : body ≠ []) (hg : group = [folder]) :
    resolve group ("edges/".toList ++ '/' :: body) = [folder, "edges".toList, body] := by
  have := resolve_sub (folder := folder) "edges".toList group (by decide) (by decide) hb hb0 hg
  rw [← this]; simp

theorem resolve_psi (body : Str) : resolve [body] "psi".toList = [body, "psi".toList] := by
  unfold resolve
  rw [if_neg (by decide), splitPath_single _ (by decide) (by decide)]; rfl

theorem resolve_mus (body : Str) : resolve [body] "mus".toList = [body, "mus".toList] := by
  unfold resolve
  rw [if_neg (by decide), splitPath_single _ (by decide) (by decide)]; rfl

/-! ### Folders -/

theorem saveFolder_ok {fmt : ℝ → Str} (hf : ∀ x, '/' ∉ fmt x) (p : String) (cv : ℝ) :
    '/' ∉ saveFolder fmt p cv ∧ saveFolder fmt p cv ≠ [] := by
  have := hf cv
  unfold saveFolder
  split_ifs <;> simp_all

theorem saveFolder_group {fmt : ℝ → Str} (hf : ∀ x, '/' ∉ fmt x) (p : String) (cv : ℝ) :
    splitPath [] (saveFolder fmt p cv) = [saveFolder fmt p cv] :=
  splitPath_single _ (saveFolder_ok hf p cv).1 (saveFolder_ok hf p cv).2

/-! ### One save -/

theorem createDataset_of_none {f : H5File} {p : H5Path} {a : H5Data} (h : f p = none) :
    createDataset f p a = some (fun q => if q = p then some a else f q) := by
  unfold createDataset; rw [h]

/-- The name under which a run is saved, without the leading slash. -/
noncomputable def saveBody (fmt : ℝ → Str) (source : Str) (r : SaveCall) : Str :=
  keyBody fmt source r.uncollided r.moving r.nSpace r.tfinal r.c r.x0 r.epsilon

/-- The rows of the solution dataset of a run. -/
noncomputable def solutionRows (single : ℝ → ℝ) (folder : Str) (r : SaveCall) : List (List ℝ) :=
  [r.xs.map single, r.phi.map single,
    if folder ≠ "transport".toList then r.e.map single
    else List.replicate r.xs.length 0, List.replicate r.xs.length 0]

theorem savedSourceName_mem {st : List ℤ} {s : Str} (h : savedSourceName st = some s) :
    s ∈ sourceNameList := by
  unfold savedSourceName at h
  rw [Option.bind_eq_some_iff] at h
  obtain ⟨i, _, hi⟩ := h
  exact List.mem_of_getElem? hi

/-- The row lengths a save needs. -/
def RowsOk (fmt : ℝ → Str) (r : SaveCall) : Prop :=
  r.phi.length = r.xs.length ∧
    (saveFolder fmt r.problemType r.cv ≠ "transport".toList → r.e.length = r.xs.length)

/-- The exact effect of a save on the file. -/
theorem saveInFile_eq {fmt : ℝ → Str} (hf : ∀ x, '/' ∉ fmt x) (single : ℝ → ℝ) (f : H5File)
    (r : SaveCall) {source : Str} (hs : savedSourceName r.sourceType = some source)
    (hr : RowsOk fmt r) {folder body : Str} (hfo : folder = saveFolder fmt r.problemType r.cv)
    (hbo : body = saveBody fmt source r) :
    saveInFile fmt single f r = some (fun q =>
      if q = [folder, "edges".toList, body] then some (.vec r.edges)
      else if q = [folder, "weights".toList, body] then some (.vec r.ws)
      else if q = [folder, "coefficients".toList, body] then some (.cube r.coeffs)
      else if q = [body, "mus".toList] then some (.vec r.mus)
      else if q = [body, "psi".toList] then some (.mat r.psi)
      else if q = [folder, "solution".toList, body] then
        some (.mat (solutionRows single folder r))
      else f q) := by
  have hb : '/' ∉ body := by
    rw [hbo]
    exact slash_not_keyBody hf (sources_no_slash _ (savedSourceName_mem hs)) _ _ _ _ _ _ _
  have hb0 : body ≠ [] := by rw [hbo]; exact keyBody_ne_nil _ _ _ _ _ _ _ _ _
  have hg : splitPath [] folder = [folder] := by rw [hfo]; exact saveFolder_group hf _ _
  have hkey : fullStr fmt source r.uncollided r.moving r.nSpace r.tfinal r.c r.x0 r.epsilon =
      '/' :: body := by rw [fullStr_eq, hbo, saveBody]
  unfold saveInFile
  rw [hs, Option.bind_some, ← hfo, hkey]
  unfold saveRows
  rw [if_pos (by rw [hfo]; exact hr)]
  simp only [Option.bind_eq_bind, resolve_key _ hb hb0, resolve_psi,
    resolve_mus, resolve_sub_solution _ hb hb0 hg, resolve_sub_coefficients _ hb hb0 hg,
    resolve_sub_weights _ hb hb0 hg, resolve_sub_edges _ hb hb0 hg]
  have e1 : ([folder, "solution".toList, body] : H5Path) ≠ [body, "psi".toList] :=
    fun h => List.cons_ne_nil _ _ (List.cons.inj (List.cons.inj h).2).2
  have e2 : ([folder, "solution".toList, body] : H5Path) ≠ [body, "mus".toList] :=
    fun h => List.cons_ne_nil _ _ (List.cons.inj (List.cons.inj h).2).2
  have e3 : ([body, "psi".toList] : H5Path) ≠ [body, "mus".toList] :=
    fun h => absurd (List.cons.inj (List.cons.inj h).2).1 (by decide)
  generalize ([folder, "solution".toList, body] : H5Path) = p1 at *
  generalize ([body, "psi".toList] : H5Path) = p2 at *
  generalize ([body, "mus".toList] : H5Path) = p3 at *
  generalize ([folder, "coefficients".toList, body] : H5Path) = p4 at *
  generalize ([folder, "weights".toList, body] : H5Path) = p5 at *
  generalize ([folder, "edges".toList, body] : H5Path) = p6 at *
  have e1' := e1.symm
  have e2' := e2.symm
  have e3' := e3.symm
  rw [createDataset_of_none (by simp only [deleteIfPresent, if_true]), Option.bind_some,
    createDataset_of_none
      (by simp only [deleteIfPresent, if_neg e3, if_true]),
    Option.bind_some,
    createDataset_of_none
      (by simp only [deleteIfPresent, if_neg e3', if_true]),
    Option.bind_some,
    createDataset_of_none (by simp only [deleteIfPresent, if_true]), Option.bind_some,
    createDataset_of_none (by simp only [deleteIfPresent, if_true]), Option.bind_some,
    createDataset_of_none (by simp only [deleteIfPresent, if_true])]
  congr 1
  funext q
  simp only [deleteIfPresent, solutionRows]
  by_cases q6 : q = p6
  · simp only [if_pos q6]
  simp only [if_neg q6]
  by_cases q5 : q = p5
  · simp only [if_pos q5]
  simp only [if_neg q5]
  by_cases q4 : q = p4
  · simp only [if_pos q4]
  simp only [if_neg q4]
  by_cases q3 : q = p3
  · simp only [if_pos q3]
  simp only [if_neg q3]
  by_cases q2 : q = p2
  · simp only [if_pos q2]
  simp only [if_neg q2]
  by_cases q1 : q = p1
  · simp only [if_pos q1]
  simp only [if_neg q1]

/-- A save that succeeds had a source name and fitting rows. -/
theorem saveInFile_some {fmt : ℝ → Str} {single : ℝ → ℝ} {f f' : H5File} {r : SaveCall}
    (h : saveInFile fmt single f r = some f') :
    (∃ source, savedSourceName r.sourceType = some source) ∧ RowsOk fmt r := by
  unfold saveInFile at h
  obtain ⟨source, hs, h⟩ := Option.bind_eq_some_iff.1 h
  refine ⟨⟨source, hs⟩, ?_⟩
  by_contra hn
  have : saveRows single f r (saveFolder fmt r.problemType r.cv)
      (fullStr fmt source r.uncollided r.moving r.nSpace r.tfinal r.c r.x0 r.epsilon) = none := by
    unfold saveRows
    exact if_neg hn
  rw [this] at h
  exact Option.some_ne_none _ h.symm

end Verif.Lemmas
