import Verif.Lemmas.SphereTables
import Verif.Lemmas.ActiveRhs
import Verif.Props.SphereMatrices
import Verif.Props.SphereUniform

/-!
Properties C105 and C106: the sphere matrices computed from stored tables, and the reader of the
tables.
-/

namespace Verif.Props

open Polynomial Verif.Spec Verif.Model Verif.Lemmas

/-- The three matrices of an object that come from tables are the Galerkin integrals of the cell. -/
structure SphereExact (M : ℕ) (a b : ℝ) (s : SphereObject) : Prop where
  Mass : ∀ i ≤ M, ∀ j ≤ M, s.Mass i j = sphereMass i j a b
  J : ∀ i ≤ M, ∀ j ≤ M, s.J i j = sphereJ i j a b
  L : ∀ i ≤ M, ∀ j ≤ M, s.L i j = sphereL i j a b

/-! ### One call -/

/-- A call succeeds for usable tables and orders up to 10. -/
theorem tables_makeAll (s : SphereObject) (hM : s.M ≤ 10) (T : SphereTables)
    (hm : usable T.massSize s.M T.massDenom 0) (hj : usable T.jSize s.M T.jDenom 0)
    (hl : usable T.lSize s.M T.lDenom 1) (a b ap bp : ℝ) :
    ∃ s', s.makeAll T a b ap bp = some s' ∧ s'.M = s.M ∧
      (∀ i ≤ s.M, ∀ j ≤ s.M, s'.Mass i j = massEntry T a b i j) ∧
      (∀ i ≤ s.M, ∀ j ≤ s.M, s'.J i j = jEntry T a b i j) ∧
      (∀ i ≤ s.M, ∀ j ≤ s.M, s'.L i j = if 1 ≤ i then lEntry T a b i j else s.L i j) ∧
      (⟨s.M, s.G, s.MPRIME⟩ : SphereMatrices).makeAll a b ap bp =
        some ⟨s.M, s'.G, s'.MPRIME⟩ := by
  have hG : ∀ i ≤ s.M, ∀ j ≤ s.M, (gMatrix i j a b ap bp).isSome := fun i hi j hj =>
    gMatrix_isSome (hi.trans hM) (hj.trans hM) a b ap bp
  have hP : ∀ i ≤ s.M, ∀ j ≤ s.M, (mPrime i j a b ap bp).isSome := fun i hi j hj =>
    mPrime_isSome (hi.trans hM) (hj.trans hM) a b ap bp
  refine ⟨{
      M := s.M
      L := fun i j => if 1 ≤ i ∧ i ≤ s.M ∧ j ≤ s.M then lEntry T a b i j else s.L i j
      G := fun i j => if i ≤ s.M ∧ j ≤ s.M then (gMatrix i j a b ap bp).getD 0 / Real.pi
        else s.G i j
      Mass := fun i j => if i ≤ s.M ∧ j ≤ s.M then massEntry T a b i j else s.Mass i j
      J := fun i j => if i ≤ s.M ∧ j ≤ s.M then jEntry T a b i j else s.J i j
      MPRIME := fun i j => if i ≤ s.M ∧ j ≤ s.M then (mPrime i j a b ap bp).getD 0 / Real.pi
        else s.MPRIME i j }, ?_, ?_⟩
  · simp only [SphereObject.makeAll, SphereObject.makeL, SphereObject.makeG,
      SphereObject.makeMass, SphereObject.makeJ, SphereObject.makeMPRIME, fillFromTable, if_pos hl,
      if_pos hG, if_pos hm, if_pos hj, if_pos hP, Option.map_some, Option.bind_eq_bind,
      Option.bind_some]
  · refine ⟨rfl, fun i hi j hj => if_pos ⟨hi, hj⟩, fun i hi j hj => if_pos ⟨hi, hj⟩,
      fun i hi j hj => ?_, ?_⟩
    · by_cases h : 1 ≤ i
      · simp [h, hi, hj]
      · simp [h]
    · simp only [SphereMatrices.makeAll, SphereMatrices.makeG, SphereMatrices.makeMPRIME,
        fillFromTable, if_pos hG, if_pos hP, Option.map_some, Option.bind_some]

/-- A call that succeeds has usable tables. -/
theorem tables_usable {s s' : SphereObject} {T : SphereTables} {a b ap bp : ℝ}
    (h : s.makeAll T a b ap bp = some s') :
    usable T.massSize s.M T.massDenom 0 ∧ usable T.jSize s.M T.jDenom 0 ∧
      usable T.lSize s.M T.lDenom 1 := by
  unfold SphereObject.makeAll at h
  simp only [Option.bind_eq_bind, Option.bind_eq_some_iff] at h
  obtain ⟨s1, h1, s2, h2, s3, h3, s4, h4, -⟩ := h
  unfold SphereObject.makeL at h1
  split_ifs at h1 with hl
  have e1 : s1.M = s.M := by rw [← Option.some_inj.1 h1]
  unfold SphereObject.makeG at h2
  obtain ⟨g, -, hg⟩ := Option.map_eq_some_iff.1 h2
  have e2 : s2.M = s.M := by rw [← hg, ← e1]
  unfold SphereObject.makeMass at h3
  split_ifs at h3 with hm
  have e3 : s3.M = s.M := by rw [← Option.some_inj.1 h3, ← e2]
  unfold SphereObject.makeJ at h4
  split_ifs at h4 with hj
  rw [e2] at hm
  rw [e3] at hj
  exact ⟨hm, hj, hl⟩

/-! ### Exact tables -/

/-- The tables of size `n` give the exact matrices on every cell. -/
structure TablesExact (T : SphereTables) (n : ℕ) : Prop where
  massSize : T.massSize = n
  jSize : T.jSize = n
  lSize : T.lSize = n
  massDenom : ∀ i < n, ∀ j < n, T.massDenom i j ≠ 0
  jDenom : ∀ i < n, ∀ j < n, T.jDenom i j ≠ 0
  lDenom : ∀ i < n, 1 ≤ i → ∀ j < n, T.lDenom i j ≠ 0
  mass : ∀ i < n, ∀ j < n, ∀ a b : ℝ, a < b → massEntry T a b i j = sphereMass i j a b
  j : ∀ i < n, ∀ j < n, ∀ a b : ℝ, a < b → jEntry T a b i j = sphereJ i j a b
  l : ∀ i < n, 1 ≤ i → ∀ j < n, ∀ a b : ℝ, a < b → lEntry T a b i j = sphereL i j a b

theorem TablesExact.usable {T : SphereTables} {n M : ℕ} (h : TablesExact T n) (hM : M < n) :
    usable T.massSize M T.massDenom 0 ∧ usable T.jSize M T.jDenom 0 ∧
      usable T.lSize M T.lDenom 1 :=
  ⟨⟨by rw [h.massSize]; omega, fun i _ hi j hj => h.massDenom i (by omega) j (by omega)⟩,
    ⟨by rw [h.jSize]; omega, fun i _ hi j hj => h.jDenom i (by omega) j (by omega)⟩,
    ⟨by rw [h.lSize]; omega, fun i h1 hi j hj => h.lDenom i (by omega) h1 j (by omega)⟩⟩

/-- One call on an object whose first row of `L` is zero. -/
theorem TablesExact.makeAll {T : SphereTables} {n : ℕ} (h : TablesExact T n) (s : SphereObject)
    (hn : s.M < n) (hM : s.M ≤ 10) (hL : ∀ j ≤ s.M, s.L 0 j = 0) (a b ap bp : ℝ) (hab : a < b) :
    ∃ s', s.makeAll T a b ap bp = some s' ∧ s'.M = s.M ∧ SphereExact s.M a b s' ∧
      (∀ j ≤ s.M, s'.L 0 j = 0) ∧
      (⟨s.M, s.G, s.MPRIME⟩ : SphereMatrices).makeAll a b ap bp =
        some ⟨s.M, s'.G, s'.MPRIME⟩ := by
  obtain ⟨hm, hj, hl⟩ := h.usable hn
  obtain ⟨s', h1, h2, h3, h4, h5, h6⟩ := tables_makeAll s hM T hm hj hl a b ap bp
  refine ⟨s', h1, h2, ⟨fun i hi j hj => ?_, fun i hi j hj => ?_, fun i hi j hj => ?_⟩,
    fun j hj => ?_, h6⟩
  · rw [h3 i hi j hj, h.mass i (by omega) j (by omega) a b hab]
  · rw [h4 i hi j hj, h.j i (by omega) j (by omega) a b hab]
  · rw [h5 i hi j hj]
    split_ifs with h0
    · exact h.l i (by omega) h0 j (by omega) a b hab
    · obtain rfl : i = 0 := by omega
      rw [hL j hj, sphereL_zero hab]
  · rw [h5 0 (Nat.zero_le _) j hj, if_neg (by omega), hL j hj]

/-- Any history of calls followed by one more. -/
theorem TablesExact.run {T : SphereTables} {n : ℕ} (h : TablesExact T n)
    (calls : List (ℝ × ℝ × ℝ × ℝ)) (hc : ∀ c ∈ calls, c.1 < c.2.1) (s : SphereObject)
    (hn : s.M < n) (hM : s.M ≤ 10) (hL : ∀ j ≤ s.M, s.L 0 j = 0) (a b ap bp : ℝ) (hab : a < b) :
    ∃ s', s.run T (calls ++ [(a, b, ap, bp)]) = some s' ∧ s'.M = s.M ∧ SphereExact s.M a b s' ∧
      ∃ s0 : SphereMatrices, s0.M = s.M ∧
        s0.makeAll a b ap bp = some ⟨s.M, s'.G, s'.MPRIME⟩ := by
  induction calls generalizing s with
  | nil =>
    obtain ⟨s', h1, h2, h3, -, h5⟩ := h.makeAll s hn hM hL a b ap bp hab
    refine ⟨s', ?_, h2, h3, _, rfl, h5⟩
    simp only [List.nil_append, SphereObject.run, h1, Option.bind_some]
  | cons c cs ih =>
    obtain ⟨s1, h1, h2, -, h4, -⟩ := h.makeAll s hn hM hL c.1 c.2.1 c.2.2.1 c.2.2.2
      (hc c (by simp))
    obtain ⟨s', g1, g2, g3, g4⟩ := ih (fun c hc' => hc c (by simp [hc'])) s1 (by omega) (by omega)
      (by rw [h2]; exact h4)
    rw [h2] at g2 g3 g4
    refine ⟨s', ?_, g2, g3, g4⟩
    simp only [List.cons_append, SphereObject.run, h1, Option.bind_some]
    exact g1

theorem SphereExact.matsExact {M : ℕ} {a b ap bp : ℝ} {s : SphereObject}
    (h : SphereExact M a b s) {s0 : SphereMatrices} (h0 : s0.M = M)
    (h1 : s0.makeAll a b ap bp = some ⟨M, s.G, s.MPRIME⟩) (Minv : ℕ → ℕ → ℝ)
    (hi : ∀ x : ℕ → ℝ, ∀ i ≤ M, matVec M s.Mass (matVec M Minv x) i = x i) :
    MatsExact M a b ap bp (s.cellMats Minv) where
  L := h.L
  J := h.J
  Mass := h.Mass
  inv := hi
  tables := ⟨s0, _, h0, h1, rfl, rfl⟩

/-! ### Construction of exact tables -/

/-- `tt` as a rational number. -/
noncomputable def ttQ (k i j : ℕ) : ℚ := (tt_rational k i j).choose

theorem ttQ_cast (k i j : ℕ) : (ttQ k i j : ℝ) = tt k i j := (tt_rational k i j).choose_spec.symm

theorem ttQ_comm (k i j : ℕ) : ttQ k i j = ttQ k j i := by
  have : (ttQ k i j : ℝ) = ttQ k j i := by
    rw [ttQ_cast, ttQ_cast, tt, tt, mul_comm (Chebyshev.T ℝ (i : ℤ))]
  exact_mod_cast this

/-- `dt` as a rational number. -/
noncomputable def dtQ (k i j : ℕ) : ℚ := (dt_rational k i j).choose

theorem dtQ_cast (k i j : ℕ) : (dtQ k i j : ℝ) = dt k i j := (dt_rational k i j).choose_spec.symm

/-- A common denominator of three rational numbers. -/
noncomputable def rowDenom (x : ℕ → ℚ) : ℤ := (common_denominator x).choose

/-- The numerators. -/
noncomputable def rowNum (x : ℕ → ℚ) : ℕ → ℤ := (common_denominator x).choose_spec.choose

theorem rowDenom_ne (x : ℕ → ℚ) : rowDenom x ≠ 0 := (common_denominator x).choose_spec.choose_spec.1

theorem row_cast (x : ℕ → ℚ) (k : ℕ) (hk : k < 3) :
    (rowNum x k : ℝ) * (1 / (rowDenom x : ℝ)) = x k :=
  ((common_denominator x).choose_spec.choose_spec.2 k hk).symm

/-- Coefficients of an entry of the mass matrix. -/
noncomputable def massRow (i j k : ℕ) : ℚ :=
  if (i + j) % 2 = 0 then
    if k = 1 then massRat i j / 4 * (ttQ 0 i j - ttQ 2 i j)
    else massRat i j / 8 * (ttQ 0 i j + ttQ 2 i j)
  else if k = 0 then -(massRat i j / 4 * ttQ 1 i j) else massRat i j / 4 * ttQ 1 i j

/-- Coefficients of an entry of `J`. -/
noncomputable def jRow (i j k : ℕ) : ℚ :=
  if k = 0 then jRat i j / 4 * (ttQ 0 i j - ttQ 1 i j)
  else jRat i j / 4 * (ttQ 0 i j + ttQ 1 i j)

/-- Coefficients of an entry of `L`. -/
noncomputable def lRow (i j k : ℕ) : ℚ :=
  if (i + j) % 2 = 0 then lRat j / 2 * dtQ 1 i j
  else if k = 1 then -(lRat j / 2 * (dtQ 0 i j - dtQ 2 i j))
  else -(lRat j / 4 * (dtQ 0 i j + dtQ 2 i j))

/-- Integer tables of size `n`. -/
noncomputable def exactTables (n : ℕ) : SphereTables where
  massSize := n
  jSize := n
  lSize := n
  massDenom i j := rowDenom (massRow i j)
  jDenom i j := rowDenom (jRow i j)
  lDenom i j := rowDenom (lRow i j)
  massEven i j k := rowNum (massRow i j) k
  massOdd i j k := rowNum (massRow i j) k
  jCoeff i j k := rowNum (jRow i j) k
  lEven i j k := rowNum (lRow i j) k
  lOdd i j k := rowNum (lRow i j) k

theorem jEntry_eq (T : SphereTables) (a b : ℝ) (i j : ℕ) :
    jEntry T a b i j = (T.jCoeff i j 0 * a + T.jCoeff i j 1 * b) * jScale i j / Real.pi *
      (1 / (T.jDenom i j : ℝ)) := by
  unfold jEntry jScale
  rcases Nat.eq_zero_or_pos i with rfl | hi <;> rcases Nat.eq_zero_or_pos j with rfl | hj
  · simp
  · simp [Nat.one_le_iff_ne_zero, hj.ne']; left; ring
  · simp [Nat.one_le_iff_ne_zero, hi.ne']; left; ring
  · simp [Nat.one_le_iff_ne_zero, hi.ne', hj.ne']

theorem lEntry_eq (T : SphereTables) (a b : ℝ) (i j : ℕ) :
    lEntry T a b i j = (if (i + j) % 2 = 0 then (T.lEven i j 0 * a + T.lEven i j 1 * b) / Real.pi
      else (T.lOdd i j 0 * a ^ 2 + T.lOdd i j 1 * (a * b) + T.lOdd i j 2 * b ^ 2) / (a - b) /
        Real.pi) * lScale j * (1 / (T.lDenom i j : ℝ)) := by
  have e : (i + j + 2) % 2 = (i + j) % 2 := by omega
  simp only [lEntry, lScale, e]
  split_ifs <;> first | contradiction | ring

theorem massEntry_eq (T : SphereTables) (a b : ℝ) (i j : ℕ) :
    massEntry T a b i j = (if (i + j) % 2 = 0 then
        T.massEven i j 0 * a ^ 2 + T.massEven i j 1 * (a * b) + T.massEven i j 2 * b ^ 2
      else T.massOdd i j 0 * a ^ 2 + T.massOdd i j 1 * b ^ 2) * sqrtTwoMass i j / Real.pi *
      (1 / (T.massDenom i j : ℝ)) := by
  have e : ((i + j + 2) % 2 = 0 ∨ (i = 0 ∧ j = 0)) ↔ (i + j) % 2 = 0 := by omega
  unfold massEntry
  simp only [e]
  split_ifs <;> rfl

theorem exactTables_exact (n : ℕ) : TablesExact (exactTables n) n where
  massSize := rfl
  jSize := rfl
  lSize := rfl
  massDenom _ _ _ _ := rowDenom_ne _
  jDenom _ _ _ _ := rowDenom_ne _
  lDenom _ _ _ _ _ := rowDenom_ne _
  mass i _ j _ a b h := by
    have h0 := row_cast (massRow i j) 0 (by norm_num)
    have h1 := row_cast (massRow i j) 1 (by norm_num)
    have h2 := row_cast (massRow i j) 2 (by norm_num)
    rw [massEntry_eq]
    change (if _ then (rowNum (massRow i j) 0 : ℝ) * _ + (rowNum (massRow i j) 1 : ℝ) * _ +
      (rowNum (massRow i j) 2 : ℝ) * _ else (rowNum (massRow i j) 0 : ℝ) * _ +
      (rowNum (massRow i j) 1 : ℝ) * _) * _ / _ * (1 / (rowDenom (massRow i j) : ℝ)) = _
    rcases Nat.mod_two_eq_zero_or_one (i + j) with hp | hp
    · have e0 : massRow i j 0 = massRat i j / 8 * (ttQ 0 i j + ttQ 2 i j) := by simp [massRow, hp]
      have e1 : massRow i j 1 = massRat i j / 4 * (ttQ 0 i j - ttQ 2 i j) := by simp [massRow, hp]
      have e2 : massRow i j 2 = massRat i j / 8 * (ttQ 0 i j + ttQ 2 i j) := by simp [massRow, hp]
      rw [e0] at h0
      rw [e1] at h1
      rw [e2] at h2
      push_cast [ttQ_cast] at h0 h1 h2
      rw [mass_even h hp, if_pos hp]
      linear_combination (a ^ 2 * sqrtTwoMass i j / Real.pi) * h0 +
        (a * b * sqrtTwoMass i j / Real.pi) * h1 + (b ^ 2 * sqrtTwoMass i j / Real.pi) * h2
    · have e0 : massRow i j 0 = -(massRat i j / 4 * ttQ 1 i j) := by simp [massRow, hp]
      have e1 : massRow i j 1 = massRat i j / 4 * ttQ 1 i j := by simp [massRow, hp]
      rw [e0] at h0
      rw [e1] at h1
      push_cast [ttQ_cast] at h0 h1
      rw [mass_odd h hp, if_neg (by omega)]
      linear_combination (a ^ 2 * sqrtTwoMass i j / Real.pi) * h0 +
        (b ^ 2 * sqrtTwoMass i j / Real.pi) * h1
  j i _ j _ a b h := by
    have h0 := row_cast (jRow i j) 0 (by norm_num)
    have h1 := row_cast (jRow i j) 1 (by norm_num)
    rw [jEntry_eq]
    change ((rowNum (jRow i j) 0 : ℝ) * _ + (rowNum (jRow i j) 1 : ℝ) * _) * _ / _ *
      (1 / (rowDenom (jRow i j) : ℝ)) = _
    have e0 : jRow i j 0 = jRat i j / 4 * (ttQ 0 i j - ttQ 1 i j) := by simp [jRow]
    have e1 : jRow i j 1 = jRat i j / 4 * (ttQ 0 i j + ttQ 1 i j) := by simp [jRow]
    rw [e0] at h0
    rw [e1] at h1
    push_cast [ttQ_cast] at h0 h1
    rw [j_form h]
    linear_combination (a * jScale i j / Real.pi) * h0 + (b * jScale i j / Real.pi) * h1
  l i _ hi j _ a b h := by
    have h0 := row_cast (lRow i j) 0 (by norm_num)
    have h1 := row_cast (lRow i j) 1 (by norm_num)
    have h2 := row_cast (lRow i j) 2 (by norm_num)
    rw [lEntry_eq]
    change (if _ then ((rowNum (lRow i j) 0 : ℝ) * _ + (rowNum (lRow i j) 1 : ℝ) * _) / _ else
      ((rowNum (lRow i j) 0 : ℝ) * _ + (rowNum (lRow i j) 1 : ℝ) * _ +
        (rowNum (lRow i j) 2 : ℝ) * _) / _ / _) * _ * (1 / (rowDenom (lRow i j) : ℝ)) = _
    rcases Nat.mod_two_eq_zero_or_one (i + j) with hp | hp
    · have e0 : lRow i j 0 = lRat j / 2 * dtQ 1 i j := by simp [lRow, hp]
      have e1 : lRow i j 1 = lRat j / 2 * dtQ 1 i j := by simp [lRow, hp]
      rw [e0] at h0
      rw [e1] at h1
      push_cast [dtQ_cast] at h0 h1
      rw [l_even h hi hp, if_pos hp]
      linear_combination (a / Real.pi * lScale j) * h0 + (b / Real.pi * lScale j) * h1
    · have e0 : lRow i j 0 = -(lRat j / 4 * (dtQ 0 i j + dtQ 2 i j)) := by simp [lRow, hp]
      have e1 : lRow i j 1 = -(lRat j / 2 * (dtQ 0 i j - dtQ 2 i j)) := by simp [lRow, hp]
      have e2 : lRow i j 2 = -(lRat j / 4 * (dtQ 0 i j + dtQ 2 i j)) := by simp [lRow, hp]
      rw [e0] at h0
      rw [e1] at h1
      rw [e2] at h2
      push_cast [dtQ_cast] at h0 h1 h2
      rw [l_odd h hi hp, if_neg (by omega)]
      linear_combination (a ^ 2 / (a - b) / Real.pi * lScale j) * h0 +
        (a * b / (a - b) / Real.pi * lScale j) * h1 + (b ^ 2 / (a - b) / Real.pi * lScale j) * h2

/-! ### C105: the tables -/

/-- C105: for every size there are tables of integers, the same for all cells and times, with which
every call of `make_all_matrices` gives exact matrices, whatever calls came before, for every cell,
all edge velocities and every order the tables cover (up to 10, the largest order of the other two
matrices).  With them the assumption on the matrices in the theorems on the active right-hand side
is met by the code. -/
theorem c105_tables_exist (n : ℕ) : ∃ T : SphereTables,
    (T.massSize = n ∧ T.jSize = n ∧ T.lSize = n) ∧
    (∀ i j k, ∃ z : ℤ, T.massEven i j k = z) ∧ (∀ i j k, ∃ z : ℤ, T.massOdd i j k = z) ∧
    (∀ i j k, ∃ z : ℤ, T.jCoeff i j k = z) ∧ (∀ i j k, ∃ z : ℤ, T.lEven i j k = z) ∧
    (∀ i j k, ∃ z : ℤ, T.lOdd i j k = z) ∧
    ∀ M < n, M ≤ 10 → ∀ calls : List (ℝ × ℝ × ℝ × ℝ), (∀ c ∈ calls, c.1 < c.2.1) →
      ∀ a b ap bp : ℝ, a < b →
      ∃ s, (SphereObject.init M).run T (calls ++ [(a, b, ap, bp)]) = some s ∧
        SphereExact M a b s ∧
        ∀ Minv : ℕ → ℕ → ℝ,
          (∀ x : ℕ → ℝ, ∀ i ≤ M, matVec M s.Mass (matVec M Minv x) i = x i) →
          MatsExact M a b ap bp (s.cellMats Minv) := by
  refine ⟨exactTables n, ⟨rfl, rfl, rfl⟩, fun _ _ _ => ⟨_, rfl⟩, fun _ _ _ => ⟨_, rfl⟩,
    fun _ _ _ => ⟨_, rfl⟩, fun _ _ _ => ⟨_, rfl⟩, fun _ _ _ => ⟨_, rfl⟩,
    fun M hM h10 calls hc a b ap bp hab => ?_⟩
  obtain ⟨s, h1, -, h3, s0, h4, h5⟩ := (exactTables_exact n).run calls hc (SphereObject.init M) hM
    h10 (fun _ _ => rfl) a b ap bp hab
  exact ⟨s, h1, h3, fun Minv hi => h3.matsExact h4 h5 Minv hi⟩

/-- A quadratic form that vanishes on three cells with different ratios of the radii is zero. -/
theorem quadratic_zero {x y z : ℝ} {a b : ℕ → ℝ} (hb : ∀ k < 3, 0 < b k)
    (h01 : a 0 * b 1 ≠ a 1 * b 0) (h02 : a 0 * b 2 ≠ a 2 * b 0) (h12 : a 1 * b 2 ≠ a 2 * b 1)
    (h : ∀ k < 3, x * a k ^ 2 + y * (a k * b k) + z * b k ^ 2 = 0) : x = 0 ∧ y = 0 ∧ z = 0 := by
  have e0 := h 0 (by norm_num)
  have e1 := h 1 (by norm_num)
  have e2 := h 2 (by norm_num)
  have b0 := (hb 0 (by norm_num)).ne'
  have b1 := (hb 1 (by norm_num)).ne'
  have f1 : x * (a 0 * b 1 + a 1 * b 0) + y * (b 0 * b 1) = 0 := by
    have : (a 0 * b 1 - a 1 * b 0) * (x * (a 0 * b 1 + a 1 * b 0) + y * (b 0 * b 1)) = 0 := by
      linear_combination b 1 ^ 2 * e0 - b 0 ^ 2 * e1
    exact (mul_eq_zero.1 this).resolve_left (sub_ne_zero.2 h01)
  have f2 : x * (a 0 * b 2 + a 2 * b 0) + y * (b 0 * b 2) = 0 := by
    have : (a 0 * b 2 - a 2 * b 0) * (x * (a 0 * b 2 + a 2 * b 0) + y * (b 0 * b 2)) = 0 := by
      linear_combination b 2 ^ 2 * e0 - b 0 ^ 2 * e2
    exact (mul_eq_zero.1 this).resolve_left (sub_ne_zero.2 h02)
  have hx : x = 0 := by
    have : x * (b 0 * (a 1 * b 2 - a 2 * b 1)) = 0 := by linear_combination b 2 * f1 - b 1 * f2
    exact (mul_eq_zero.1 this).resolve_right (mul_ne_zero b0 (sub_ne_zero.2 h12))
  subst hx
  have hy : y = 0 := by
    have : y * (b 0 * b 1) = 0 := by linear_combination f1
    exact (mul_eq_zero.1 this).resolve_right (mul_ne_zero b0 b1)
  subst hy
  refine ⟨rfl, rfl, ?_⟩
  have : z * b 0 ^ 2 = 0 := by linear_combination e0
  exact (mul_eq_zero.1 this).resolve_right (pow_ne_zero 2 b0)

theorem sqrtTwoMass_ne (i j : ℕ) : sqrtTwoMass i j ≠ 0 := by
  unfold sqrtTwoMass
  split_ifs <;> positivity

theorem jScale_ne (i j : ℕ) : jScale i j ≠ 0 := by
  unfold jScale
  split_ifs <;> positivity

theorem lScale_ne (j : ℕ) : lScale j ≠ 0 := by
  unfold lScale
  split_ifs <;> positivity

/-- C105: three cells with different ratios of inner to outer radius determine the matrices.  If
the tables give exact matrices there, they give exact matrices on every cell. -/
theorem c105_three_cells (T : SphereTables) {M : ℕ} (hM : M ≤ 10) (a b : ℕ → ℝ)
    (hab : ∀ k < 3, 0 ≤ a k ∧ a k < b k)
    (h01 : a 0 * b 1 ≠ a 1 * b 0) (h02 : a 0 * b 2 ≠ a 2 * b 0) (h12 : a 1 * b 2 ≠ a 2 * b 1)
    (hT : ∀ k < 3, ∃ (ap bp : ℝ) (s : SphereObject),
      (SphereObject.init M).makeAll T (a k) (b k) ap bp = some s ∧
        SphereExact M (a k) (b k) s)
    (rL rR rLp rRp : ℝ) (hr : rL < rR) :
    ∃ s, (SphereObject.init M).makeAll T rL rR rLp rRp = some s ∧ SphereExact M rL rR s := by
  have hb : ∀ k < 3, 0 < b k := fun k hk => lt_of_le_of_lt (hab k hk).1 (hab k hk).2
  have hpi := Real.pi_ne_zero
  obtain ⟨ap0, bp0, s0, hs0, -⟩ := hT 0 (by norm_num)
  obtain ⟨hm, hj, hl⟩ := tables_usable hs0
  have key : ∀ k < 3, (∀ i ≤ M, ∀ j ≤ M, massEntry T (a k) (b k) i j = sphereMass i j (a k) (b k)) ∧
      (∀ i ≤ M, ∀ j ≤ M, jEntry T (a k) (b k) i j = sphereJ i j (a k) (b k)) ∧
      (∀ i ≤ M, 1 ≤ i → ∀ j ≤ M, lEntry T (a k) (b k) i j = sphereL i j (a k) (b k)) := by
    intro k hk
    obtain ⟨ap, bp, s, hs, he⟩ := hT k hk
    obtain ⟨s', h1, -, h3, h4, h5, -⟩ := tables_makeAll (SphereObject.init M) hM T hm hj hl (a k)
      (b k) ap bp
    rw [hs] at h1
    obtain rfl := Option.some_inj.1 h1
    refine ⟨fun i hi j hj => ?_, fun i hi j hj => ?_, fun i hi h1 j hj => ?_⟩
    · rw [← h3 i hi j hj, he.Mass i hi j hj]
    · rw [← h4 i hi j hj, he.J i hi j hj]
    · rw [← he.L i hi j hj, h5 i hi j hj, if_pos h1]
  obtain ⟨s, h1, -, h3, h4, h5, -⟩ := tables_makeAll (SphereObject.init M) hM T hm hj hl rL rR
    rLp rRp
  refine ⟨s, h1, ⟨fun i hi j hj => ?_, fun i hi j hj => ?_, fun i hi j hj => ?_⟩⟩
  · rw [h3 i hi j hj, massEntry_eq]
    have hσ := sqrtTwoMass_ne i j
    have hk := fun k (hk : k < 3) => (key k hk).1 i hi j hj
    simp only [massEntry_eq] at hk
    rcases Nat.mod_two_eq_zero_or_one (i + j) with hp | hp
    · rw [mass_even hr hp, if_pos hp]
      set d := (1 / (T.massDenom i j : ℝ))
      obtain ⟨e0, e1, e2⟩ := quadratic_zero
        (x := T.massEven i j 0 * d - massRat i j / 8 * (tt 0 i j + tt 2 i j))
        (y := T.massEven i j 1 * d - massRat i j / 4 * (tt 0 i j - tt 2 i j))
        (z := T.massEven i j 2 * d - massRat i j / 8 * (tt 0 i j + tt 2 i j)) hb h01 h02 h12
        (fun k hk' => by
          have := hk k hk'
          rw [mass_even (hab k hk').2 hp, if_pos hp] at this
          field_simp at this
          linear_combination (1 / 32) * this)
      linear_combination (rL ^ 2 * sqrtTwoMass i j / Real.pi) * e0 +
        (rL * rR * sqrtTwoMass i j / Real.pi) * e1 + (rR ^ 2 * sqrtTwoMass i j / Real.pi) * e2
    · rw [mass_odd hr hp, if_neg (by omega)]
      set d := (1 / (T.massDenom i j : ℝ))
      obtain ⟨e0, -, e2⟩ := quadratic_zero
        (x := T.massOdd i j 0 * d - -(massRat i j / 4 * tt 1 i j)) (y := 0)
        (z := T.massOdd i j 1 * d - massRat i j / 4 * tt 1 i j) hb h01 h02 h12
        (fun k hk' => by
          have := hk k hk'
          rw [mass_odd (hab k hk').2 hp, if_neg (by omega)] at this
          field_simp at this
          linear_combination (1 / 4) * this)
      linear_combination (rL ^ 2 * sqrtTwoMass i j / Real.pi) * e0 +
        (rR ^ 2 * sqrtTwoMass i j / Real.pi) * e2
  · rw [h4 i hi j hj, jEntry_eq, j_form hr]
    have hσ := jScale_ne i j
    set d := (1 / (T.jDenom i j : ℝ)) with hd
    obtain ⟨-, e1, e2⟩ := quadratic_zero (x := 0)
      (y := T.jCoeff i j 0 * d - jRat i j / 4 * (tt 0 i j - tt 1 i j))
      (z := T.jCoeff i j 1 * d - jRat i j / 4 * (tt 0 i j + tt 1 i j)) hb h01 h02 h12
      (fun k hk' => by
        have := (key k hk').2.1 i hi j hj
        rw [jEntry_eq, j_form (hab k hk').2, ← hd] at this
        field_simp at this
        linear_combination (b k / 4) * this)
    linear_combination (rL * jScale i j / Real.pi) * e1 + (rR * jScale i j / Real.pi) * e2
  · rw [h5 i hi j hj]
    split_ifs with hi1
    swap
    · obtain rfl : i = 0 := by omega
      rw [sphereL_zero hr]
      rfl
    rw [lEntry_eq]
    have hσ := lScale_ne j
    have hk := fun k (hk : k < 3) => (key k hk).2.2 i hi hi1 j hj
    simp only [lEntry_eq] at hk
    rcases Nat.mod_two_eq_zero_or_one (i + j) with hp | hp
    · rw [l_even hr hi1 hp, if_pos hp]
      set d := (1 / (T.lDenom i j : ℝ))
      obtain ⟨-, e1, e2⟩ := quadratic_zero (x := 0)
        (y := T.lEven i j 0 * d - lRat j / 2 * dt 1 i j)
        (z := T.lEven i j 1 * d - lRat j / 2 * dt 1 i j) hb h01 h02 h12
        (fun k hk' => by
          have := hk k hk'
          rw [l_even (hab k hk').2 hi1 hp, if_pos hp] at this
          field_simp at this
          linear_combination (b k / 2) * this)
      linear_combination (rL / Real.pi * lScale j) * e1 + (rR / Real.pi * lScale j) * e2
    · rw [l_odd hr hi1 hp, if_neg (by omega)]
      set d := (1 / (T.lDenom i j : ℝ))
      obtain ⟨e0, e1, e2⟩ := quadratic_zero
        (x := T.lOdd i j 0 * d - -(lRat j / 4 * (dt 0 i j + dt 2 i j)))
        (y := T.lOdd i j 1 * d - -(lRat j / 2 * (dt 0 i j - dt 2 i j)))
        (z := T.lOdd i j 2 * d - -(lRat j / 4 * (dt 0 i j + dt 2 i j))) hb h01 h02 h12
        (fun k hk' => by
          have := hk k hk'
          rw [l_odd (hab k hk').2 hi1 hp, if_neg (by omega)] at this
          have h0 : a k - b k ≠ 0 := by have := (hab k hk').2; linarith
          field_simp at this
          linear_combination (1 / 8) * this)
      linear_combination (rL ^ 2 / (rL - rR) / Real.pi * lScale j) * e0 +
        (rL * rR / (rL - rR) / Real.pi * lScale j) * e1 +
        (rR ^ 2 / (rL - rR) / Real.pi * lScale j) * e2

/-- The exact tables with `[b1 b2, -(b1 a2 + b2 a1), a1 a2]` added to one row. -/
noncomputable def spoiledTables (n : ℕ) (a1 b1 a2 b2 : ℝ) : SphereTables :=
  { exactTables n with
    massEven := fun i j k => if i = 0 ∧ j = 0 then
        (exactTables n).massEven i j k +
          (if k = 0 then b1 * b2 else if k = 1 then -(b1 * a2 + b2 * a1) else a1 * a2)
      else (exactTables n).massEven i j k }

/-- C105: two cells do not determine the matrices.  For any two cells there are tables that give
exact matrices on both and a wrong mass matrix on every cell whose
ratio of radii is that of neither. -/
theorem c105_two_cells_not_enough (M : ℕ) (hM : M ≤ 10) (a1 b1 a2 b2 : ℝ) (h1 : a1 < b1)
    (h2 : a2 < b2) : ∃ T : SphereTables,
    (∀ ap bp : ℝ, ∃ s, (SphereObject.init M).makeAll T a1 b1 ap bp = some s ∧
      SphereExact M a1 b1 s) ∧
    (∀ ap bp : ℝ, ∃ s, (SphereObject.init M).makeAll T a2 b2 ap bp = some s ∧
      SphereExact M a2 b2 s) ∧
    ∀ a b ap bp : ℝ, a < b → a * b1 ≠ a1 * b → a * b2 ≠ a2 * b →
      ∃ s, (SphereObject.init M).makeAll T a b ap bp = some s ∧
        s.Mass 0 0 ≠ sphereMass 0 0 a b := by
  have hE := exactTables_exact (M + 1)
  obtain ⟨um, uj, ul⟩ := hE.usable (M := M) (by omega)
  have hne : ((exactTables (M + 1)).massDenom 0 0 : ℝ) ≠ 0 :=
    by exact_mod_cast hE.massDenom 0 (by omega) 0 (by omega)
  have hpi := Real.pi_ne_zero
  have hentry : ∀ a b : ℝ, ∀ i j, massEntry (spoiledTables (M + 1) a1 b1 a2 b2) a b i j =
      massEntry (exactTables (M + 1)) a b i j + if i = 0 ∧ j = 0 then
        (a * b1 - a1 * b) * (a * b2 - a2 * b) / Real.pi *
          (1 / ((exactTables (M + 1)).massDenom 0 0 : ℝ)) else 0 := by
    intro a b i j
    rw [massEntry_eq, massEntry_eq]
    split_ifs with hp h0 h0
    · obtain ⟨rfl, rfl⟩ := h0
      simp only [spoiledTables, if_true, and_self, sqrtTwoMass, true_or, one_ne_zero, if_false,
        OfNat.ofNat_ne_zero, OfNat.ofNat_ne_one]
      ring
    · simp only [spoiledTables, if_neg h0, add_zero]
    · obtain ⟨rfl, rfl⟩ := h0
      simp at hp
    · simp only [spoiledTables, add_zero]
  have good : ∀ a b : ℝ, a < b → (a * b1 - a1 * b) * (a * b2 - a2 * b) = 0 → ∀ ap bp : ℝ,
      ∃ s, (SphereObject.init M).makeAll (spoiledTables (M + 1) a1 b1 a2 b2) a b ap bp = some s ∧
        SphereExact M a b s := by
    intro a b hab h0 ap bp
    obtain ⟨s, e1, -, e3, e4, e5, -⟩ := tables_makeAll (SphereObject.init M) hM
      (spoiledTables (M + 1) a1 b1 a2 b2) um uj ul a b ap bp
    refine ⟨s, e1, ⟨fun i hi j hj => ?_, fun i hi j hj => ?_, fun i hi j hj => ?_⟩⟩
    · rw [e3 i hi j hj, hentry, h0, hE.mass i (by omega) j (by omega) a b hab]
      simp
    · rw [e4 i hi j hj]
      exact hE.j i (by omega) j (by omega) a b hab
    · rw [e5 i hi j hj]
      split_ifs with h0
      · exact hE.l i (by omega) h0 j (by omega) a b hab
      · obtain rfl : i = 0 := by omega
        rw [sphereL_zero hab]
        rfl
  refine ⟨spoiledTables (M + 1) a1 b1 a2 b2, good a1 b1 h1 (by ring), good a2 b2 h2 (by ring),
    fun a b ap bp hab n1 n2 => ?_⟩
  obtain ⟨s, e1, -, e3, -⟩ := tables_makeAll (SphereObject.init M) hM
    (spoiledTables (M + 1) a1 b1 a2 b2) um uj ul a b ap bp
  refine ⟨s, e1, ?_⟩
  rw [e3 0 (Nat.zero_le _) 0 (Nat.zero_le _), hentry, hE.mass 0 (by omega) 0 (by omega) a b hab,
    if_pos ⟨rfl, rfl⟩]
  intro h
  have : (a * b1 - a1 * b) * (a * b2 - a2 * b) / Real.pi *
      (1 / ((exactTables (M + 1)).massDenom 0 0 : ℝ)) ≠ 0 :=
    mul_ne_zero (div_ne_zero (mul_ne_zero (sub_ne_zero.2 n1) (sub_ne_zero.2 n2)) hpi)
      (one_div_ne_zero hne)
  exact this (by linarith)

/-- The hypotheses of `c105_three_cells` are met by cells of the unit interval and exact tables. -/
example : ∃ (T : SphereTables) (a b : ℕ → ℝ), (∀ k < 3, 0 ≤ a k ∧ a k < b k) ∧
    a 0 * b 1 ≠ a 1 * b 0 ∧ a 0 * b 2 ≠ a 2 * b 0 ∧ a 1 * b 2 ≠ a 2 * b 1 ∧
    ∀ k < 3, ∃ (ap bp : ℝ) (s : SphereObject),
      (SphereObject.init 3).makeAll T (a k) (b k) ap bp = some s ∧
        SphereExact 3 (a k) (b k) s := by
  refine ⟨exactTables 4, fun k => k, fun k => k + 1, fun k _ => ⟨by positivity, by simp⟩,
    by norm_num, by norm_num, by norm_num, fun k _ => ⟨9 / 10, 12 / 10, ?_⟩⟩
  obtain ⟨s, h1, -, h3, -⟩ := (exactTables_exact 4).makeAll (SphereObject.init 3)
    (by simp [SphereObject.init]) (by simp [SphereObject.init]) (fun _ _ => rfl) (k : ℝ) (k + 1)
    (9 / 10) (12 / 10) (by simp)
  exact ⟨s, h1, h3⟩

/-- The test in matrices.py 305-312 uses one cell: tables exact on it, and on the cell from 0 to 1,
can be wrong on the cell from 1 to 2. -/
example : ∃ T : SphereTables,
    (∀ ap bp : ℝ, ∃ s, (SphereObject.init 3).makeAll T (2 / 10) (9 / 10) ap bp = some s ∧
      SphereExact 3 (2 / 10) (9 / 10) s) ∧
    ∃ s, (SphereObject.init 3).makeAll T 1 2 0 0 = some s ∧ s.Mass 0 0 ≠ sphereMass 0 0 1 2 := by
  obtain ⟨T, h1, -, h3⟩ := c105_two_cells_not_enough 3 (by norm_num) (2 / 10) (9 / 10) 0 1
    (by norm_num) (by norm_num)
  exact ⟨T, h1, h3 1 2 0 0 (by norm_num) (by norm_num) (by norm_num)⟩

end Verif.Props
