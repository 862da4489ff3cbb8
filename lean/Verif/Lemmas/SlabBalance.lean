import Verif.Lemmas.Advection

/-! Helper facts: projection of boundary values, constant fields, cell balance. -/

namespace Verif.Lemmas

open Polynomial Verif.Spec Verif.Model

theorem natDegree_legendre_le (n : ℕ) : (legendre n).natDegree ≤ n := by
  induction n using Nat.twoStepInduction with
  | zero => simp [legendre_zero]
  | one => simp [legendre_one]
  | more n h0 h1 =>
    unfold legendre
    refine (natDegree_C_mul_le _ _).trans ((natDegree_sub_le _ _).trans (max_le ?_ ?_))
    · rw [mul_assoc]
      refine (natDegree_C_mul_le _ _).trans (natDegree_mul_le.trans ?_)
      rw [natDegree_X]; omega
    · exact (natDegree_C_mul_le _ _).trans (by omega)

/-- Projection of a constant boundary value on a ghost cell by the rule. -/
theorem fluxIntegrateQuad_const (c : FluxConfig) (hq : QuadExact c.quad c.M) (t : ℝ) {a b v : ℝ}
    (h : a < b) (hv : ∀ x, bcFunc c x t = v) {j : ℕ} (hj : j ≤ c.M) :
    fluxIntegrateQuad c t a b j = if j = 0 then v * Real.sqrt (b - a) else 0 := by
  have hb : 0 < b - a := by linarith
  unfold fluxIntegrateQuad
  have e : ∀ r : ℝ × ℝ, r.2 * bcFunc c ((b - a) / 2 * r.1 + (a + b) / 2) t *
      normPn j ((b - a) / 2 * r.1 + (a + b) / 2) a b =
      v * Real.sqrt ((2 * (j : ℝ) + 1) / (b - a)) * (r.2 * (legendre j).eval r.1) := by
    intro r
    rw [hv]
    unfold normPn
    have : zSlab ((b - a) / 2 * r.1 + (a + b) / 2) a b = r.1 := by
      have : a - b ≠ 0 := by linarith
      unfold zSlab; field_simp; ring
    rw [this]; ring
  simp only [e]
  rw [List.sum_map_mul_left, hq _ ((natDegree_legendre_le j).trans hj)]
  have hI : ∫ x in (-1 : ℝ)..1, (legendre j).eval x = if j = 0 then 2 else 0 := by
    have := I_mul 0 j
    rw [legendre_zero, one_mul] at this
    unfold I delta at this
    rw [this]
    by_cases h0 : j = 0
    · subst h0; simp
    · rw [if_neg (by omega), if_neg h0]; ring
  rw [hI]
  split_ifs with h0
  · subst h0
    have h3 : Real.sqrt (b - a) * Real.sqrt (b - a) = b - a := Real.mul_self_sqrt hb.le
    have h4 : Real.sqrt (b - a) ≠ 0 := (Real.sqrt_pos.2 hb).ne'
    simp only [Nat.cast_zero, mul_zero, zero_add, Real.sqrt_div' _ hb.le, Real.sqrt_one]
    field_simp
    rw [pow_two, h3]
    ring
  · ring

/-- The coefficients of the constant field `v` on `[a,b]`: `v √(b-a)` for order zero. -/
theorem constant_field (M : ℕ) (v : ℝ) {a b : ℝ} (h : a < b) (x : ℝ) :
    slabField M (fun j => if j = 0 then v * Real.sqrt (b - a) else 0) a b x = v := by
  have hb : 0 < b - a := by linarith
  have h4 : Real.sqrt (b - a) ≠ 0 := (Real.sqrt_pos.2 hb).ne'
  unfold slabField
  rw [Finset.sum_eq_single 0]
  · simp only [if_true, slabBasis, legendre_zero, eval_one, Nat.cast_zero, mul_zero, zero_add,
      Real.sqrt_div' _ hb.le, Real.sqrt_one]
    field_simp
  · intro j _ hj; simp [hj]
  · intro hn; simp at hn

theorem slabContent_eq (M : ℕ) (U : ℕ → ℝ) {a b : ℝ} (h : a < b) :
    slabContent M U a b = Real.sqrt (b - a) * U 0 := by
  have hpos : 0 < b - a := by linarith
  unfold slabContent
  have e : ∀ x, slabField M U a b x = 1 * (refPoly M U (b - a)).eval (zSlab x a b) := by
    intro x; rw [slabField_eq_refPoly, zSlab_eq_ref x h, one_mul]
  simp_rw [e]
  rw [integral_zSlab_poly h]
  have h1 := I_mul_refPoly M U (b - a) (legendre 0)
  rw [legendre_zero, one_mul] at h1
  rw [h1, Finset.sum_eq_single 0]
  · have hI := I_mul 0 0
    rw [legendre_zero, one_mul] at hI
    rw [legendre_zero, mul_one, hI]
    have h3 : Real.sqrt (b - a) * Real.sqrt (b - a) = b - a := Real.mul_self_sqrt hpos.le
    have h4 : Real.sqrt (b - a) ≠ 0 := (Real.sqrt_pos.2 hpos).ne'
    simp only [delta, if_true, Nat.cast_zero, mul_zero, zero_add, Real.sqrt_div' _ hpos.le,
      Real.sqrt_one]
    field_simp
    rw [pow_two, h3]
    ring
  · intro j _ hj
    have hI := I_mul 0 j
    rw [legendre_zero] at hI
    rw [hI]; unfold delta; rw [if_neg (by omega)]; ring
  · intro hn; simp at hn

/-- Rate of change of the content of one cell: minus the net flux through its edges. -/
theorem cell_balance (c : FluxConfig) (hg : c.geometry = .slab) (t : ℝ) (m : MeshView)
    (hm : ∀ k < c.Nspace, m.edges k < m.edges (k + 1)) (u : ℕ → ℕ → ℝ) (space : ℕ)
    (hs : space < c.Nspace) (mul : ℝ) (uRefl : ℕ → ℝ) (fs : FluxState) :
    Real.sqrt (m.edges (space + 1) - m.edges space) * streamPart c t m u space mul uRefl fs 0 +
      (m.Dedges (space + 1) - m.Dedges space) /
        (2 * Real.sqrt (m.edges (space + 1) - m.edges space)) * u space 0 =
    upwind (mul - m.Dedges space) (leftOuter c t m u space uRefl)
        (slabField c.M (u space) (m.edges space) (m.edges (space + 1)) (m.edges space))
      - upwind (mul - m.Dedges (space + 1))
        (slabField c.M (u space) (m.edges space) (m.edges (space + 1)) (m.edges (space + 1)))
        (rightOuter c t m u space) := by
  have hc := hm space hs
  have hpos : 0 < m.edges (space + 1) - m.edges space := by linarith
  set h := m.edges (space + 1) - m.edges space with hh
  have h3 : Real.sqrt h * Real.sqrt h = h := Real.mul_self_sqrt hpos.le
  have h4 : Real.sqrt h ≠ 0 := (Real.sqrt_pos.2 hpos).ne'
  unfold streamPart
  rw [fluxLU_eq c t m u space mul uRefl fs hs hm (Nat.zero_le _), hg]
  have eG : matVec c.M (cellMatrices c.M m space).G (u space) 0 =
      -(1 / 2) * (m.Dedges (space + 1) - m.Dedges space) / h * u space 0 := by
    unfold matVec
    rw [Finset.sum_eq_single 0]
    · unfold cellMatrices
      rw [makeAll_G _ _ _ _ _ (Nat.zero_le _) (Nat.zero_le _), if_pos rfl]
      simp only [Nat.cast_zero, ← hh]
      ring
    · intro j hj hj0
      have hjM : j ≤ c.M := by simpa [Nat.lt_succ_iff] using hj
      unfold cellMatrices
      rw [makeAll_G _ _ _ _ _ (Nat.zero_le _) hjM, if_neg (by omega), if_neg (by omega)]
      simp [SlabMatrices.init]
    · intro hn; simp at hn
  have eL : matVec c.M (cellMatrices c.M m space).L (u space) 0 = 0 := by
    rw [matVec_L c.M m space hc _ (Nat.zero_le _), legendre_zero]
    simp [I_zero]
  have sB : ∀ x, slabBasis 0 x (m.edges space) (m.edges (space + 1)) = 1 / Real.sqrt h := by
    intro x
    simp only [slabBasis, legendre_zero, eval_one, Nat.cast_zero, mul_zero, zero_add, ← hh,
      Real.sqrt_div' _ hpos.le, Real.sqrt_one, mul_one]
  rw [eG, eL]
  simp only [geomArea, geomBasis, geomField, sB]
  have hk : Real.sqrt h * (-(1 / 2) * (m.Dedges (space + 1) - m.Dedges space) / h * u space 0) +
      (m.Dedges (space + 1) - m.Dedges space) / (2 * Real.sqrt h) * u space 0 = 0 := by
    conv_lhs => rw [← h3]
    field_simp
    rw [Real.sqrt_sq (Real.sqrt_nonneg _)]
    field_simp
    ring
  have hc1 : Real.sqrt h * (1 / Real.sqrt h) = 1 := by field_simp
  linear_combination hk +
    (upwind (mul - m.Dedges space) (leftOuter c t m u space uRefl)
        (slabField c.M (u space) (m.edges space) (m.edges (space + 1)) (m.edges space))
      - upwind (mul - m.Dedges (space + 1))
        (slabField c.M (u space) (m.edges space) (m.edges (space + 1)) (m.edges (space + 1)))
        (rightOuter c t m u space)) * hc1

/-- Flux into the mesh through its left end and out through its right end. -/
noncomputable def inflowLeft (c : FluxConfig) (t : ℝ) (m : MeshView) (u : ℕ → ℕ → ℝ) (mul : ℝ)
    (uRefl : ℕ → ℝ) : ℝ :=
  upwind (mul - m.Dedges 0) (leftOuter c t m u 0 uRefl)
    (slabField c.M (u 0) (m.edges 0) (m.edges 1) (m.edges 0))

noncomputable def outflowRight (c : FluxConfig) (t : ℝ) (m : MeshView) (u : ℕ → ℕ → ℝ)
    (mul : ℝ) : ℝ :=
  upwind (mul - m.Dedges c.Nspace)
    (slabField c.M (u (c.Nspace - 1)) (m.edges (c.Nspace - 1)) (m.edges c.Nspace)
      (m.edges c.Nspace))
    (rightOuter c t m u (c.Nspace - 1))

/-- Telescoping sum over the cells. -/
theorem balance_sum (c : FluxConfig) (hg : c.geometry = .slab) (t : ℝ) (m : MeshView)
    (hN : 1 ≤ c.Nspace)
    (u : ℕ → ℕ → ℝ) (mul : ℝ) (uRefl : ℕ → ℝ) :
    ∑ k ∈ Finset.range c.Nspace,
      (upwind (mul - m.Dedges k) (leftOuter c t m u k uRefl)
        (slabField c.M (u k) (m.edges k) (m.edges (k + 1)) (m.edges k))
      - upwind (mul - m.Dedges (k + 1))
        (slabField c.M (u k) (m.edges k) (m.edges (k + 1)) (m.edges (k + 1)))
        (rightOuter c t m u k)) =
      inflowLeft c t m u mul uRefl - outflowRight c t m u mul := by
  -- partial sums up to `n + 1` cells, `n + 1 ≤ Nspace`
  have key : ∀ n, n + 1 ≤ c.Nspace → ∑ k ∈ Finset.range (n + 1),
      (upwind (mul - m.Dedges k) (leftOuter c t m u k uRefl)
        (slabField c.M (u k) (m.edges k) (m.edges (k + 1)) (m.edges k))
      - upwind (mul - m.Dedges (k + 1))
        (slabField c.M (u k) (m.edges k) (m.edges (k + 1)) (m.edges (k + 1)))
        (rightOuter c t m u k)) =
      inflowLeft c t m u mul uRefl - upwind (mul - m.Dedges (n + 1))
        (slabField c.M (u n) (m.edges n) (m.edges (n + 1)) (m.edges (n + 1)))
        (rightOuter c t m u n) := by
    intro n
    induction n with
    | zero => intro _; simp [inflowLeft]
    | succ n ih =>
      intro hn
      rw [Finset.sum_range_succ, ih (by omega)]
      have e1 : rightOuter c t m u n =
          slabField c.M (u (n + 1)) (m.edges (n + 1)) (m.edges (n + 1 + 1)) (m.edges (n + 1)) := by
        unfold rightOuter; rw [if_pos (by omega), hg]; rfl
      have e2 : leftOuter c t m u (n + 1) uRefl =
          slabField c.M (u n) (m.edges n) (m.edges (n + 1)) (m.edges (n + 1)) := by
        unfold leftOuter; rw [if_pos (by omega), hg]; rfl
      rw [e1, e2]
      ring
  obtain ⟨n, hn⟩ : ∃ n, c.Nspace = n + 1 := ⟨c.Nspace - 1, by omega⟩
  have := key n (by omega)
  rw [hn, this]
  unfold outflowRight
  rw [hn]
  rfl

/-- An active constant boundary value, slab, left end. -/
theorem leftOuter_source (c : FluxConfig) (hg : c.geometry = .slab) (t v : ℝ) (m : MeshView)
    (u : ℕ → ℕ → ℝ) (uRefl : ℕ → ℝ) (hq : QuadExact c.quad c.M) (hc : m.edges 0 < m.edges 1)
    (hact : isBoundarySourceOn c 0 t = true) (hv : ∀ x, bcFunc c x t = v) :
    leftOuter c t m u 0 uRefl = v := by
  unfold leftOuter
  rw [if_neg (by omega), if_pos hact, hg]
  have e : ∀ j ∈ Finset.range (c.M + 1),
      fluxIntegrateQuad c t (m.edges 0 - (m.edges (0 + 1) - m.edges 0)) (m.edges 0) j *
        geomBasis Geometry.slab j (m.edges (0 + 1)) (m.edges 0) (m.edges (0 + 1)) =
      if j = 0 then v else 0 := by
    intro j hj
    rw [fluxIntegrateQuad_const c hq t (by simpa using hc) hv
      (by simpa [Nat.lt_succ_iff] using hj)]
    split_ifs with h0
    · subst h0
      have e1 : m.edges 0 - (m.edges 0 - (m.edges (0 + 1) - m.edges 0)) =
          m.edges (0 + 1) - m.edges 0 := by ring
      have hpos : 0 < m.edges (0 + 1) - m.edges 0 := by simpa using hc
      have h4 : Real.sqrt (m.edges (0 + 1) - m.edges 0) ≠ 0 := (Real.sqrt_pos.2 hpos).ne'
      rw [e1]
      simp only [geomBasis, slabBasis, legendre_zero, eval_one, Nat.cast_zero, mul_zero,
        zero_add, Real.sqrt_div' _ hpos.le, Real.sqrt_one]
      simp only [zero_add] at h4
      field_simp
    · ring
  rw [Finset.sum_congr rfl e, Finset.sum_ite_eq']
  simp

/-- An active constant boundary value, slab, right end. -/
theorem rightOuter_source (c : FluxConfig) (hg : c.geometry = .slab) (t v : ℝ) (m : MeshView)
    (u : ℕ → ℕ → ℝ) (n : ℕ) (hn : n + 1 = c.Nspace) (hq : QuadExact c.quad c.M)
    (hc : m.edges n < m.edges (n + 1))
    (hact : isBoundarySourceOn c n t = true) (hv : ∀ x, bcFunc c x t = v) :
    rightOuter c t m u n = v := by
  have hpos : 0 < m.edges (n + 1) - m.edges n := by linarith
  unfold rightOuter
  rw [if_neg (by omega), if_pos hact, hg, ← hn]
  have e : ∀ j ∈ Finset.range (c.M + 1),
      fluxIntegrateQuad c t (m.edges (n + 1))
          (m.edges (n + 1) + (m.edges (n + 1) - m.edges n)) j *
        geomBasis Geometry.slab j (m.edges n) (m.edges n) (m.edges (n + 1)) =
      if j = 0 then v else 0 := by
    intro j hj
    rw [fluxIntegrateQuad_const c hq t (by linarith) hv
      (by simpa [Nat.lt_succ_iff] using hj)]
    split_ifs with h0
    · subst h0
      have e1 : m.edges (n + 1) + (m.edges (n + 1) - m.edges n) - m.edges (n + 1) =
          m.edges (n + 1) - m.edges n := by ring
      have h4 : Real.sqrt (m.edges (n + 1) - m.edges n) ≠ 0 := (Real.sqrt_pos.2 hpos).ne'
      rw [e1]
      simp only [geomBasis, slabBasis, legendre_zero, eval_one, Nat.cast_zero, mul_zero,
        zero_add, Real.sqrt_div' _ hpos.le, Real.sqrt_one]
      field_simp
    · ring
  rw [Finset.sum_congr rfl e, Finset.sum_ite_eq']
  simp

/-- The discrete streaming operator on one cell, when the field in the cell and both outer states
agree with one polynomial. -/
theorem stream_of_outer (c : FluxConfig) (hg : c.geometry = .slab) (t : ℝ)
    (m : MeshView) (hm : ∀ k < c.Nspace, m.edges k < m.edges (k + 1)) (u : ℕ → ℕ → ℝ)
    (space : ℕ) (h1 : space < c.Nspace) (mul : ℝ) (uRefl : ℕ → ℝ)
    (fs : FluxState) (p : ℝ[X])
    (hp : ∀ x, slabField c.M (u space) (m.edges space) (m.edges (space + 1)) x = p.eval x)
    (hl : leftOuter c t m u space uRefl = p.eval (m.edges space))
    (hr : rightOuter c t m u space = p.eval (m.edges (space + 1)))
    (a b : ℝ → ℝ) (ha : HasDerivAt a (m.Dedges space) t)
    (hb : HasDerivAt b (m.Dedges (space + 1)) t) (ha0 : a t = m.edges space)
    (hb0 : b t = m.edges (space + 1)) (i : ℕ) (hi : i ≤ c.M) :
    HasDerivAt (fun s => ∫ x in (a s)..(b s), p.eval (x - mul * (s - t)) *
        slabBasis i x (a s) (b s))
      (streamPart c t m u space mul uRefl fs i) t := by
  have hc := hm space (by omega)
  have hcore := streaming_core p (mul := mul) ha hb (by rw [ha0, hb0]; exact hc) i
  refine hcore.congr_deriv ?_
  rw [ha0, hb0]
  unfold streamPart
  rw [matVec_G c.M m space hc (u space) hi, matVec_L c.M m space hc (u space) hi,
    refPoly_of_field hc hp, fluxLU_eq c t m u space mul uRefl fs h1 hm hi, hl, hr, hg]
  simp only [geomArea, geomBasis, geomField, one_mul, hp, upwind_same]

/-- Projection of a constant on a moving cell. -/
theorem constant_projection (v : ℝ) (i : ℕ) {a b : ℝ} (hs : a < b) :
    ∫ x in a..b, v * slabBasis i x a b = if i = 0 then v * Real.sqrt (b - a) else 0 := by
  have hpos : 0 < b - a := by linarith
  have e := integral_mul_slabBasis (C v) i hs
  simp only [eval_C] at e
  rw [e]
  simp only [C_comp]
  rw [I_C_mul]
  have hI := I_mul 0 i
  rw [legendre_zero, one_mul] at hI
  rw [hI]
  unfold delta
  by_cases hi0 : i = 0
  · subst hi0
    have h3 : Real.sqrt (b - a) * Real.sqrt (b - a) = b - a :=
      Real.mul_self_sqrt hpos.le
    have h4 : Real.sqrt (b - a) ≠ 0 := (Real.sqrt_pos.2 hpos).ne'
    simp only [if_true, Nat.cast_zero, mul_zero, zero_add, Real.sqrt_div' _ hpos.le,
      Real.sqrt_one]
    field_simp
    rw [pow_two, h3]
  · rw [if_neg hi0, if_neg (by omega)]; ring

end Verif.Lemmas
