import Verif.Props.SphereTables

/-! Property C106: the reader of the coefficient tables. -/

namespace Verif.Props

open Polynomial Verif.Spec Verif.Model Verif.Lemmas

/-! ### Names of the datasets -/

/-- The value of a digit. -/
def digitVal (c : Char) : ℕ := c.toNat - 48

/-- The indices behind a name, for indices below 11. -/
def decodeName (l : List Char) : ℕ × ℕ :=
  match l.drop 7 with
  | [x, y] => (digitVal x - 1, digitVal y - 1)
  | [x, y, z] =>
    if y = '1' ∧ z = '0' then (digitVal x - 1, 9)
    else if y = '1' ∧ z = '1' ∧ x ≠ '1' then (digitVal x - 1, 10)
    else if y = '0' then (9, digitVal z - 1)
    else (10, digitVal z - 1)
  | [_, y, _, w] => (9 + digitVal y, 9 + digitVal w)
  | _ => (0, 0)

theorem decode_name : ∀ i < 11, ∀ j < 11,
    decodeName (elementName i j) = if i = 0 ∧ j = 10 then (10, 0) else (i, j) := by
  decide

/-- C106: for indices below 11 (orders up to 10) the name determines the entry, except that the
entries `(0, 10)` and `(10, 0)` share the name `Element111`. -/
theorem c106_names {i j i' j' : ℕ} (hi : i < 11) (hj : j < 11) (hi' : i' < 11) (hj' : j' < 11) :
    elementName i j = elementName i' j' ↔
      (i = i' ∧ j = j') ∨ (i = 0 ∧ j = 10 ∧ i' = 10 ∧ j' = 0) ∨
        (i = 10 ∧ j = 0 ∧ i' = 0 ∧ j' = 10) := by
  constructor
  · intro h
    have h1 := decode_name i hi j hj
    have h2 := decode_name i' hi' j' hj'
    rw [h, h2] at h1
    split_ifs at h1 with c1 c2 c2 <;> simp only [Prod.mk.injEq] at h1 <;> omega
  · rintro (⟨rfl, rfl⟩ | ⟨rfl, rfl, rfl, rfl⟩ | ⟨rfl, rfl, rfl, rfl⟩)
    · rfl
    · decide
    · decide

/-! ### Writing and reading -/

/-- A file with given rows. -/
def tableFile (n : ℕ) (denom : ℕ → ℕ → ℤ) (row : ℕ → ℕ → List ℝ) : TableFile where
  size := n
  denominators := denom
  elements name := some (row (decodeName name).1 (decodeName name).2)

theorem tableFile_readRow {n : ℕ} {denom : ℕ → ℕ → ℤ} {row : ℕ → ℕ → List ℝ} {i j m : ℕ}
    (hi : i < 11) (hj : j < 11) (h : i = 0 → j = 10 → row 10 0 = row 0 10)
    (hm : (row i j).length = m) :
    readRow (tableFile n denom row) m i j = some fun k => (row i j).getD k 0 := by
  have e : (tableFile n denom row).elements (elementName i j) = some (row i j) := by
    show some _ = _
    rw [decode_name i hi j hj]
    split_ifs with c
    · rw [h c.1 c.2, c.1, c.2]
    · rfl
  rw [readRow, e, Option.bind_some, fitRow, if_pos hm]

/-- The row of the mass file. -/
def massFileRow (T : SphereTables) (i j : ℕ) : List ℝ :=
  if (i + j + 2) % 2 = 0 then [T.massEven i j 0, T.massEven i j 1, T.massEven i j 2]
  else [T.massOdd i j 0, T.massOdd i j 1]

/-- The row of the file of `J`. -/
def jFileRow (T : SphereTables) (i j : ℕ) : List ℝ := [T.jCoeff i j 0, T.jCoeff i j 1]

/-- The row of the file of `L`. -/
def lFileRow (T : SphereTables) (i j : ℕ) : List ℝ :=
  if (i + j + 2) % 2 = 0 then [T.lEven i j 0, T.lEven i j 1]
  else [T.lOdd i j 0, T.lOdd i j 1, T.lOdd i j 2]

/-- The entries of two tables that are used for indices below `n` agree. -/
structure SameTables (n : ℕ) (T T' : SphereTables) : Prop where
  massSize : T'.massSize = T.massSize
  jSize : T'.jSize = T.jSize
  lSize : T'.lSize = T.lSize
  massDenom : T'.massDenom = T.massDenom
  jDenom : T'.jDenom = T.jDenom
  lDenom : T'.lDenom = T.lDenom
  massEven : ∀ i < n, ∀ j < n, (i + j) % 2 = 0 → ∀ k < 3, T'.massEven i j k = T.massEven i j k
  massOdd : ∀ i < n, ∀ j < n, (i + j) % 2 = 1 → ∀ k < 2, T'.massOdd i j k = T.massOdd i j k
  jCoeff : ∀ i < n, ∀ j < n, ∀ k < 2, T'.jCoeff i j k = T.jCoeff i j k
  lEven : ∀ i < n, 1 ≤ i → ∀ j < n, (i + j) % 2 = 0 → ∀ k < 2, T'.lEven i j k = T.lEven i j k
  lOdd : ∀ i < n, 1 ≤ i → ∀ j < n, (i + j) % 2 = 1 → ∀ k < 3, T'.lOdd i j k = T.lOdd i j k

/-- C106: every set of tables of size at most 11 whose rows `(0, 10)` and `(10, 0)` agree can be
stored in files from which the reader returns the same entries. -/
theorem c106_read_back {n : ℕ} (hn : n ≤ 11) (T : SphereTables) (h1 : T.massSize = n)
    (hm : ∀ k, T.massEven 0 10 k = T.massEven 10 0 k)
    (hj : ∀ k, T.jCoeff 0 10 k = T.jCoeff 10 0 k) :
    ∃ mass j l : TableFile, ∃ T', readTables mass j l = some T' ∧ SameTables n T T' := by
  subst h1
  have rm3 : ∀ i < T.massSize, ∀ j < T.massSize, (i + j + 2) % 2 = 0 →
      readRow (tableFile T.massSize T.massDenom (massFileRow T)) 3 i j =
        some fun k => (massFileRow T i j).getD k 0 := fun i hi j hj' hp =>
    tableFile_readRow (by omega) (by omega) (fun _ _ => by simp [massFileRow, hm])
      (by simp [massFileRow, hp])
  have rm2 : ∀ i < T.massSize, ∀ j < T.massSize, (i + j + 2) % 2 ≠ 0 →
      readRow (tableFile T.massSize T.massDenom (massFileRow T)) 2 i j =
        some fun k => (massFileRow T i j).getD k 0 := fun i hi j hj' hp =>
    tableFile_readRow (by omega) (by omega) (fun _ _ => by simp [massFileRow, hm])
      (by rw [massFileRow, if_neg hp]; rfl)
  have rj : ∀ i < T.massSize, ∀ j < T.massSize,
      readRow (tableFile T.jSize T.jDenom (jFileRow T)) 2 i j =
        some fun k => (jFileRow T i j).getD k 0 := fun i hi j hj' =>
    tableFile_readRow (by omega) (by omega) (fun _ _ => by simp [jFileRow, hj])
      (by simp [jFileRow])
  have rl2 : ∀ i < T.massSize, 0 < i → ∀ j < T.massSize, (i + j + 2) % 2 = 0 →
      readRow (tableFile T.lSize T.lDenom (lFileRow T)) 2 i j =
        some fun k => (lFileRow T i j).getD k 0 := fun i hi h0 j hj' hp =>
    tableFile_readRow (by omega) (by omega) (fun h _ => absurd h h0.ne')
      (by simp [lFileRow, hp])
  have rl3 : ∀ i < T.massSize, 0 < i → ∀ j < T.massSize, (i + j + 2) % 2 ≠ 0 →
      readRow (tableFile T.lSize T.lDenom (lFileRow T)) 3 i j =
        some fun k => (lFileRow T i j).getD k 0 := fun i hi h0 j hj' hp =>
    tableFile_readRow (by omega) (by omega) (fun h _ => absurd h h0.ne')
      (by rw [lFileRow, if_neg hp]; rfl)
  have c1 : ∀ i < T.massSize, ∀ j < T.massSize,
      (readRow (tableFile T.jSize T.jDenom (jFileRow T)) 2 i j).isSome := fun i hi j hj' => by
    rw [rj i hi j hj']; rfl
  have c2 : ∀ i < T.massSize, ∀ j < T.massSize, (i + j + 2) % 2 = 0 →
      (readRow (tableFile T.massSize T.massDenom (massFileRow T)) 3 i j).isSome ∧
        (0 < i → (readRow (tableFile T.lSize T.lDenom (lFileRow T)) 2 i j).isSome) :=
    fun i hi j hj' hp => ⟨by rw [rm3 i hi j hj' hp]; rfl, fun h0 => by
      rw [rl2 i hi h0 j hj' hp]; rfl⟩
  have c3 : ∀ i < T.massSize, ∀ j < T.massSize, (i + j + 2) % 2 ≠ 0 →
      (readRow (tableFile T.massSize T.massDenom (massFileRow T)) 2 i j).isSome ∧
        (0 < i → (readRow (tableFile T.lSize T.lDenom (lFileRow T)) 3 i j).isSome) :=
    fun i hi j hj' hp => ⟨by rw [rm2 i hi j hj' hp]; rfl, fun h0 => by
      rw [rl3 i hi h0 j hj' hp]; rfl⟩
  refine ⟨tableFile T.massSize T.massDenom (massFileRow T), tableFile T.jSize T.jDenom (jFileRow T),
    tableFile T.lSize T.lDenom (lFileRow T), _, if_pos ⟨c1, c2, c3⟩,
    ⟨rfl, rfl, rfl, rfl, rfl, rfl, fun i hi j hj' hp k hk => ?_, fun i hi j hj' hp k hk => ?_,
    fun i hi j hj' k hk => ?_, fun i hi h0 j hj' hp k hk => ?_,
    fun i hi h0 j hj' hp k hk => ?_⟩⟩
  · have hp' : (i + j + 2) % 2 = 0 := by omega
    simp only [if_pos hp', rm3 i hi j hj' hp', Option.getD_some]
    interval_cases k <;> simp [massFileRow, hp]
  · have hp' : (i + j + 2) % 2 ≠ 0 := by omega
    simp only [if_neg hp', rm2 i hi j hj' hp', Option.getD_some]
    interval_cases k <;> simp [massFileRow, hp]
  · simp only [rj i hi j hj', Option.getD_some]
    interval_cases k <;> simp [jFileRow]
  · have hp' : (i + j + 2) % 2 = 0 := by omega
    have h0' : 0 < i ∧ (i + j + 2) % 2 = 0 := ⟨h0, hp'⟩
    simp only [if_pos h0', rl2 i hi h0 j hj' hp', Option.getD_some]
    interval_cases k <;> simp [lFileRow, hp]
  · have hp' : (i + j + 2) % 2 ≠ 0 := by omega
    have h0' : 0 < i ∧ (i + j + 2) % 2 ≠ 0 := ⟨h0, hp'⟩
    simp only [if_pos h0', rl3 i hi h0 j hj' hp', Option.getD_some]
    interval_cases k <;> simp [lFileRow, hp]

theorem SameTables.exact {n : ℕ} {T T' : SphereTables} (h : SameTables n T T')
    (hT : TablesExact T n) : TablesExact T' n where
  massSize := h.massSize.trans hT.massSize
  jSize := h.jSize.trans hT.jSize
  lSize := h.lSize.trans hT.lSize
  massDenom := by rw [h.massDenom]; exact hT.massDenom
  jDenom := by rw [h.jDenom]; exact hT.jDenom
  lDenom := by rw [h.lDenom]; exact hT.lDenom
  mass i hi j hj a b hab := by
    rw [← hT.mass i hi j hj a b hab, massEntry_eq, massEntry_eq, h.massDenom]
    split_ifs with hp
    · rw [h.massEven i hi j hj hp 0 (by norm_num), h.massEven i hi j hj hp 1 (by norm_num),
        h.massEven i hi j hj hp 2 (by norm_num)]
    · rw [h.massOdd i hi j hj (by omega) 0 (by norm_num),
        h.massOdd i hi j hj (by omega) 1 (by norm_num)]
  j i hi j hj a b hab := by
    rw [← hT.j i hi j hj a b hab, jEntry_eq, jEntry_eq, h.jDenom,
      h.jCoeff i hi j hj 0 (by norm_num), h.jCoeff i hi j hj 1 (by norm_num)]
  l i hi h0 j hj a b hab := by
    rw [← hT.l i hi h0 j hj a b hab, lEntry_eq, lEntry_eq, h.lDenom]
    split_ifs with hp
    · rw [h.lEven i hi h0 j hj hp 0 (by norm_num), h.lEven i hi h0 j hj hp 1 (by norm_num)]
    · rw [h.lOdd i hi h0 j hj (by omega) 0 (by norm_num),
        h.lOdd i hi h0 j hj (by omega) 1 (by norm_num),
        h.lOdd i hi h0 j hj (by omega) 2 (by norm_num)]

/-- C106: there are files from which the reader returns tables that give exact matrices for every
order up to 10, after any history of calls. -/
theorem c106_files_exist : ∃ mass j l : TableFile, ∃ T, readTables mass j l = some T ∧
    ∀ M ≤ 10, ∀ calls : List (ℝ × ℝ × ℝ × ℝ), (∀ c ∈ calls, c.1 < c.2.1) →
      ∀ a b ap bp : ℝ, a < b →
      ∃ s, (SphereObject.init M).run T (calls ++ [(a, b, ap, bp)]) = some s ∧
        SphereExact M a b s ∧
        ∀ Minv : ℕ → ℕ → ℝ,
          (∀ x : ℕ → ℝ, ∀ i ≤ M, matVec M s.Mass (matVec M Minv x) i = x i) →
          MatsExact M a b ap bp (s.cellMats Minv) := by
  have e1 : massRow 0 10 = massRow 10 0 := by
    funext k
    simp only [massRow, massRat, ttQ_comm _ 0 10]
    norm_num
  have e2 : jRow 0 10 = jRow 10 0 := by
    funext k
    simp only [jRow, jRat, ttQ_comm _ 0 10]
    norm_num
  obtain ⟨mass, j, l, T, h1, h2⟩ := c106_read_back (le_refl 11) (exactTables 11) rfl
    (fun k => by show (rowNum (massRow 0 10) k : ℝ) = rowNum (massRow 10 0) k; rw [e1])
    (fun k => by show (rowNum (jRow 0 10) k : ℝ) = rowNum (jRow 10 0) k; rw [e2])
  have hE := h2.exact (exactTables_exact 11)
  refine ⟨mass, j, l, T, h1, fun M h10 calls hc a b ap bp hab => ?_⟩
  obtain ⟨s, h1, -, h3, s0, h4, h5⟩ := hE.run calls hc (SphereObject.init M)
    (Nat.lt_succ_of_le h10) h10 (fun _ _ => rfl) a b ap bp hab
  exact ⟨s, h1, h3, fun Minv hi => h3.matsExact h4 h5 Minv hi⟩

/-- The integral behind the entry `(1, 10)` of the mass matrix. -/
theorem tt_one_ten : tt 1 1 10 ≠ 0 := by
  rw [tt, I_X_pow_mul_T_T]
  norm_num [ttMom, xtMom, xuMom, uMom]

/-- A row that fits two different lengths is constant. -/
theorem fitRow_const {m n : ℕ} (h : m ≠ n) (hn : n ≠ 1) {v : List ℝ} (h1 : (fitRow m v).isSome) {f : ℕ → ℝ}
    (h2 : fitRow n v = some f) : ∀ k, f k = f 0 := by
  unfold fitRow at h1 h2
  intro k
  split_ifs at h1 h2 with c1 c2 c2 c3 c4 c5 <;> first | omega | simp_all
  all_goals
    subst h2
    rfl

/-- C106: from 21 rows on the entries `(1, 10)` and `(20, 0)` share the name `Element211` although
their rows have different lengths.  Whatever the files contain, the reader fails or the mass matrix
is wrong on at least one of any two cells with different ratios of the radii. -/
theorem c106_large_files_fail (mass j l : TableFile) (h : 21 ≤ mass.size) (T : SphereTables)
    (hT : readTables mass j l = some T) {a1 b1 a2 b2 : ℝ} (h1 : 0 ≤ a1) (hab1 : a1 < b1)
    (h2 : 0 ≤ a2) (hab2 : a2 < b2) (hr : a1 * b2 ≠ a2 * b1) :
    massEntry T a1 b1 1 10 ≠ sphereMass 1 10 a1 b1 ∨
      massEntry T a2 b2 1 10 ≠ sphereMass 1 10 a2 b2 := by
  unfold readTables at hT
  simp only at hT
  split_ifs at hT with hc
  obtain ⟨-, hc2, hc3⟩ := hc
  have r1 := (hc2 20 (by omega) 0 (by omega) (by norm_num)).1
  have r2 := (hc3 1 (by omega) 10 (by omega) (by norm_num)).1
  obtain ⟨f, hf⟩ := Option.isSome_iff_exists.1 r2
  have en : elementName 20 0 = elementName 1 10 := by decide
  have hconst : f 1 = f 0 := by
    unfold readRow at r1 hf
    rw [en] at r1
    obtain ⟨v, hv, hv2⟩ := Option.bind_eq_some_iff.1 hf
    rw [hv, Option.bind_some] at r1
    exact fitRow_const (by norm_num) (by norm_num) r1 hv2 1
  have hodd : ∀ k, T.massOdd 1 10 k = f k := by
    intro k
    rw [← Option.some_inj.1 hT]
    simp only [hf, Option.getD_some]
    rfl
  by_contra hcon
  push Not at hcon
  obtain ⟨e1, e2⟩ := hcon
  rw [massEntry_eq, mass_odd hab1 (by norm_num), if_neg (by norm_num), hodd, hodd, hconst] at e1
  rw [massEntry_eq, mass_odd hab2 (by norm_num), if_neg (by norm_num), hodd, hodd, hconst] at e2
  have hσ := sqrtTwoMass_ne 1 10
  have hpi := Real.pi_ne_zero
  have hrat : ((massRat 1 10 : ℚ) : ℝ) ≠ 0 := by
    simp [massRat]
  have ht := tt_one_ten
  have hb1 : 0 < b1 := by linarith
  have hb2 : 0 < b2 := by linarith
  set c := f 0 * (1 / (T.massDenom 1 10 : ℝ)) with hcdef
  set q := (massRat 1 10 : ℝ) / 4 * tt 1 1 10 with hq
  have hq0 : q ≠ 0 := mul_ne_zero (div_ne_zero hrat (by norm_num)) ht
  have g1 : c * (a1 ^ 2 + b1 ^ 2) = q * (b1 ^ 2 - a1 ^ 2) := by
    have : (c * (a1 ^ 2 + b1 ^ 2) - q * (b1 ^ 2 - a1 ^ 2)) * (sqrtTwoMass 1 10 / Real.pi) = 0 := by
      rw [hcdef]; linear_combination e1
    exact sub_eq_zero.1 ((mul_eq_zero.1 this).resolve_right (div_ne_zero hσ hpi))
  have g2 : c * (a2 ^ 2 + b2 ^ 2) = q * (b2 ^ 2 - a2 ^ 2) := by
    have : (c * (a2 ^ 2 + b2 ^ 2) - q * (b2 ^ 2 - a2 ^ 2)) * (sqrtTwoMass 1 10 / Real.pi) = 0 := by
      rw [hcdef]; linear_combination e2
    exact sub_eq_zero.1 ((mul_eq_zero.1 this).resolve_right (div_ne_zero hσ hpi))
  have g3 : q * ((a1 * b2 - a2 * b1) * (a1 * b2 + a2 * b1)) = 0 := by
    linear_combination (-1 / 2) * ((a1 ^ 2 + b1 ^ 2) * g2 - (a2 ^ 2 + b2 ^ 2) * g1)
  have g4 := (mul_eq_zero.1 ((mul_eq_zero.1 g3).resolve_left hq0)).resolve_left (sub_ne_zero.2 hr)
  have p1 := mul_nonneg h1 hb2.le
  have p2 := mul_nonneg h2 hb1.le
  exact hr (by linarith)

/-- Files with 21 rows that can be read: all rows have the single entry 0. -/
example : ∃ mass j l : TableFile, 21 ≤ mass.size ∧ ∃ T, readTables mass j l = some T := by
  refine ⟨⟨21, fun _ _ => 1, fun _ => some [0]⟩, ⟨21, fun _ _ => 1, fun _ => some [0]⟩,
    ⟨21, fun _ _ => 1, fun _ => some [0]⟩, le_refl _, _, if_pos ?_⟩
  simp [readRow, fitRow]

end Verif.Props
