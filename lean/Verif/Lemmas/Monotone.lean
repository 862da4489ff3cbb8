import Verif.Props.Stability

/-!
Lemmas for C86: order zero (one constant per cell).
-/

namespace Verif.Lemmas

open Polynomial Verif.Spec Verif.Model Set Verif.Props

/-- Square of the negative part. -/
theorem hasDerivAt_neg_sq (x : ℝ) :
    HasDerivAt (fun y => (max (-y) 0) ^ 2) (-2 * max (-x) 0) x := by
  rw [hasDerivAt_iff_isLittleO]
  have h2 : (fun y : ℝ => (y - x) ^ 2) =o[nhds x] fun y => y - x := by
    have h := Asymptotics.isLittleO_pow_sub_sub (E' := ℝ) x (m := 2) (by norm_num)
    refine h.congr_left fun y => ?_
    simp [Real.norm_eq_abs, sq_abs]
  refine Asymptotics.IsBigO.trans_isLittleO (Asymptotics.IsBigO.of_bound 1 ?_) h2
  refine Filter.Eventually.of_forall fun y => ?_
  rw [one_mul, Real.norm_eq_abs, Real.norm_eq_abs, abs_of_nonneg (sq_nonneg (y - x)), smul_eq_mul]
  rcases le_total 0 x with hx | hx <;> rcases le_total 0 y with hy | hy
  · rw [max_eq_right (by linarith : -x ≤ 0), max_eq_right (by linarith : -y ≤ 0), abs_le]
    constructor <;> nlinarith
  · rw [max_eq_right (by linarith : -x ≤ 0), max_eq_left (by linarith : 0 ≤ -y), abs_le]
    constructor <;> nlinarith
  · rw [max_eq_left (by linarith : 0 ≤ -x), max_eq_right (by linarith : -y ≤ 0), abs_le]
    constructor <;> nlinarith
  · rw [max_eq_left (by linarith : 0 ≤ -x), max_eq_left (by linarith : 0 ≤ -y), abs_le]
    constructor <;> nlinarith

/-- Mean over a cell from its single coefficient. -/
noncomputable def cellMean (e : ℕ → ℝ) (u : ℕ → ℝ) (k : ℕ) : ℝ :=
  u k / Real.sqrt (e (k + 1) - e k)

/-- Upwind flux through edge `j` of an order zero field with outer states `oL` and `oR`. -/
noncomputable def zeroFlux (N : ℕ) (m : MeshView) (mul oL oR : ℝ) (u : ℕ → ℝ) (j : ℕ) : ℝ :=
  upwind (mul - m.Dedges j) (if j = 0 then oL else cellMean m.edges u (j - 1))
    (if j = N then oR else cellMean m.edges u j)

/-- Streaming rate of the coefficient of cell `k`, order zero. -/
noncomputable def zeroRate (N : ℕ) (m : MeshView) (mul oL oR : ℝ) (u : ℕ → ℝ) (k : ℕ) : ℝ :=
  (-((m.Dedges (k + 1) - m.Dedges k) / 2) * cellMean m.edges u k
    - zeroFlux N m mul oL oR u (k + 1) + zeroFlux N m mul oL oR u k) /
    Real.sqrt (m.edges (k + 1) - m.edges k)

theorem slabField_zero (U : ℕ → ℝ) (a b x : ℝ) :
    slabField 0 U a b x = U 0 / Real.sqrt (b - a) := by
  simp [slabField, slabBasis, legendre]
  ring

/-- The program at order zero. -/
theorem streamPart_zero (c : FluxConfig) (hg : c.geometry = .slab) (hM : c.M = 0) (t : ℝ)
    (m : MeshView) (hm : ∀ k < c.Nspace, m.edges k < m.edges (k + 1)) (u : ℕ → ℕ → ℝ) (mul : ℝ)
    (uRefl : ℕ → ℝ) (fs : FluxState) (k : ℕ) (hk : k < c.Nspace) :
    streamPart c t m u k mul uRefl fs 0 =
      zeroRate c.Nspace m mul (leftOuter c t m u 0 uRefl) (rightOuter c t m u (c.Nspace - 1))
        (fun j => u j 0) k := by
  have hh : 0 < m.edges (k + 1) - m.edges k := by linarith [hm k hk]
  have hs := Real.sqrt_pos.2 hh
  have hl : leftOuter c t m u k uRefl = if k = 0 then leftOuter c t m u 0 uRefl else
      cellMean m.edges (fun j => u j 0) (k - 1) := by
    split_ifs with h
    · rw [h]
    · unfold leftOuter
      rw [if_pos h, hg, hM]
      simp only [geomField]
      rw [slabField_zero, cellMean, Nat.sub_add_cancel (by omega)]
  have hr : rightOuter c t m u k = if k + 1 = c.Nspace then rightOuter c t m u (c.Nspace - 1) else
      cellMean m.edges (fun j => u j 0) (k + 1) := by
    split_ifs with h
    · rw [show c.Nspace - 1 = k by omega]
    · unfold rightOuter
      rw [if_pos h, hg, hM]
      simp only [geomField]
      rw [slabField_zero, cellMean]
  unfold streamPart
  rw [matVec_G _ _ _ (hm k hk) _ (by omega), matVec_L _ _ _ (hm k hk) _ (by omega),
    fluxLU_eq c t m u k mul uRefl fs hk hm (by omega), hl, hr, hg, hM]
  simp only [geomArea, geomBasis, geomField, slabField_zero]
  unfold zeroRate zeroFlux
  rw [if_neg (by omega : ¬ k + 1 = 0), if_neg (by omega : ¬ k = c.Nspace), Nat.add_sub_cancel]
  have hb : ∀ x, slabBasis 0 x (m.edges k) (m.edges (k + 1)) =
      1 / Real.sqrt (m.edges (k + 1) - m.edges k) := by
    intro x; simp [slabBasis, legendre]
  have hQ : refPoly 0 (u k) (m.edges (k + 1) - m.edges k) =
      C (u k 0 / Real.sqrt (m.edges (k + 1) - m.edges k)) := by
    refine Polynomial.funext fun x => ?_
    simp [refPoly, legendre]; ring
  rw [hb, hb, hQ]
  have hI : ∀ x : ℝ, I (C x) = 2 * x := fun x => by
    unfold I; simp only [eval_C, intervalIntegral.integral_const, smul_eq_mul]; ring
  have e1 : (C (-(1 / 2) * (m.Dedges (k + 1) - m.Dedges k)) * legendre 0 +
          C (-(m.Dedges k + m.Dedges (k + 1))) * derivative (legendre 0) +
          C (-(m.Dedges (k + 1) - m.Dedges k)) * (X * derivative (legendre 0))) *
          C (u k 0 / Real.sqrt (m.edges (k + 1) - m.edges k)) =
      C (-(1 / 2) * (m.Dedges (k + 1) - m.Dedges k) *
        (u k 0 / Real.sqrt (m.edges (k + 1) - m.edges k))) := by
    simp [legendre]
  rw [e1, hI]
  have e2 : derivative (legendre 0) * C (u k 0 / Real.sqrt (m.edges (k + 1) - m.edges k)) =
      C 0 := by simp [legendre]
  rw [e2, hI]
  simp only [cellMean]
  have e3 : Real.sqrt ((2 * ((0 : ℕ) : ℝ) + 1) / (m.edges (k + 1) - m.edges k)) =
      1 / Real.sqrt (m.edges (k + 1) - m.edges k) := by simp
  rw [e3]
  field_simp
  ring

/-- One edge: the negative parts on both sides against the upwind flux. -/
theorem edge_monotone (w a b : ℝ) :
    2 * max (-a) 0 * upwind w a b + w * max (-a) 0 ^ 2 ≤
      2 * max (-b) 0 * upwind w a b + w * max (-b) 0 ^ 2 := by
  have key : ∀ x y : ℝ, 0 ≤ (max (-y) 0 - max (-x) 0) * (2 * x + max (-x) 0 + max (-y) 0) := by
    intro x y
    rcases le_total 0 x with hx | hx
    · rw [max_eq_right (by linarith : -x ≤ 0)]
      have := le_max_right (-y) 0
      nlinarith
    · rw [max_eq_left (by linarith : 0 ≤ -x)]
      nlinarith [sq_nonneg (max (-y) 0 + x)]
  unfold upwind
  rcases le_total 0 w with h | h
  · rw [max_eq_left h, min_eq_right h]
    nlinarith [mul_nonneg h (key a b)]
  · rw [max_eq_right h, min_eq_left h]
    nlinarith [mul_nonneg (neg_nonneg.2 h) (key b a)]

/-- Streaming does not create negative values. -/
theorem zeroRate_form (N : ℕ) (m : MeshView) (hm : ∀ k < N, m.edges k < m.edges (k + 1))
    (mul oL oR : ℝ) (hL : 0 ≤ oL) (hR : 0 ≤ oR) (u : ℕ → ℝ) :
    ∑ k ∈ Finset.range N, -2 * max (-u k) 0 * zeroRate N m mul oL oR u k ≤ 0 := by
  set n : ℕ → ℝ := fun k => max (-cellMean m.edges u k) 0 with hn
  set F := zeroFlux N m mul oL oR u with hF
  set w : ℕ → ℝ := fun j => mul - m.Dedges j with hw
  have hterm : ∀ k < N, -2 * max (-u k) 0 * zeroRate N m mul oL oR u k =
      (2 * n k * F (k + 1) + w (k + 1) * n k ^ 2) - (2 * n k * F k + w k * n k ^ 2) := by
    intro k hk
    have hh : 0 < m.edges (k + 1) - m.edges k := by linarith [hm k hk]
    have hs := Real.sqrt_pos.2 hh
    set s := Real.sqrt (m.edges (k + 1) - m.edges k) with hsd
    have hq : max (-u k) 0 = s * n k := by
      simp only [hn, cellMean]
      rw [← hsd, mul_max_of_nonneg _ _ hs.le, mul_zero]
      congr 1
      field_simp
    have hna : n k * cellMean m.edges u k = -n k ^ 2 := by
      simp only [hn]
      rcases le_total 0 (cellMean m.edges u k) with h | h
      · rw [max_eq_right (by linarith)]; ring
      · rw [max_eq_left (by linarith)]; ring
    rw [hq]
    unfold zeroRate
    rw [← hsd, ← hF]
    have hsn : s ≠ 0 := hs.ne'
    have : -2 * (s * n k) * ((-((m.Dedges (k + 1) - m.Dedges k) / 2) * cellMean m.edges u k
        - F (k + 1) + F k) / s) = (m.Dedges (k + 1) - m.Dedges k) *
          (n k * cellMean m.edges u k) + 2 * n k * F (k + 1) - 2 * n k * F k := by
      field_simp
      ring
    rw [this, hna]
    simp only [hw]
    ring
  rw [Finset.sum_congr rfl fun k hk => hterm k (Finset.mem_range.1 hk)]
  rcases N with _ | N
  · simp
  have h0 : 0 ≤ 2 * n 0 * F 0 + w 0 * n 0 ^ 2 := by
    have := edge_monotone (w 0) oL (cellMean m.edges u 0)
    rw [max_eq_right (by linarith : -oL ≤ 0)] at this
    have hF0 : F 0 = upwind (w 0) oL (cellMean m.edges u 0) := by
      simp only [hF, zeroFlux, hw]
      rw [if_pos trivial, if_neg (by omega)]
    rw [hF0]
    simpa using this
  have hN : 2 * n N * F (N + 1) + w (N + 1) * n N ^ 2 ≤ 0 := by
    have := edge_monotone (w (N + 1)) (cellMean m.edges u N) oR
    rw [max_eq_right (by linarith : -oR ≤ 0)] at this
    have hF0 : F (N + 1) = upwind (w (N + 1)) (cellMean m.edges u N) oR := by
      simp only [hF, zeroFlux, hw]
      rw [if_neg (by omega), if_pos trivial, Nat.add_sub_cancel]
    rw [hF0]
    simpa using this
  have hind : ∀ j ≤ N, ∑ k ∈ Finset.range (j + 1),
      ((2 * n k * F (k + 1) + w (k + 1) * n k ^ 2) - (2 * n k * F k + w k * n k ^ 2)) ≤
      2 * n j * F (j + 1) + w (j + 1) * n j ^ 2 := by
    intro j
    induction j with
    | zero =>
      intro _
      rw [Finset.sum_range_one]
      linarith
    | succ j ih =>
      intro hj
      rw [Finset.sum_range_succ]
      have h1 := ih (by omega)
      have h2 := edge_monotone (w (j + 1)) (cellMean m.edges u j) (cellMean m.edges u (j + 1))
      have hFj : F (j + 1) = upwind (w (j + 1)) (cellMean m.edges u j)
          (cellMean m.edges u (j + 1)) := by
        simp only [hF, zeroFlux, hw]
        rw [if_neg (by omega), if_neg (by omega), Nat.add_sub_cancel]
      rw [← hFj] at h2
      simp only [hn] at h1 ⊢
      linarith
  exact (hind N le_rfl).trans hN

/-- Collisions do not create negative values. -/
theorem collision_neg_form (n : ℕ) (ws D s : ℕ → ℝ) (c : ℝ) (hp : ∀ l < n, 0 ≤ ws l)
    (hw : ∑ l ∈ Finset.range n, ws l = 1) (hc : 0 ≤ c) (hs : ∀ l < n, 0 ≤ s l) :
    ∑ l ∈ Finset.range n, ws l * (-2 * max (-D l) 0 *
        (-D l + c * angularSum n ws D + s l)) ≤
      2 * (c - 1) * angularSum n ws fun l => max (-D l) 0 ^ 2 := by
  set q : ℕ → ℝ := fun l => max (-D l) 0 with hq
  have hq0 : ∀ l, 0 ≤ q l := fun l => le_max_right _ _
  have hqD : ∀ l, q l * D l = -q l ^ 2 := by
    intro l
    simp only [hq]
    rcases le_total 0 (D l) with h | h
    · rw [max_eq_right (by linarith)]; ring
    · rw [max_eq_left (by linarith)]; ring
  have hge : -angularSum n ws q ≤ angularSum n ws D := by
    unfold angularSum
    rw [← Finset.sum_neg_distrib]
    refine Finset.sum_le_sum fun l hl => ?_
    have h1 := hp l (Finset.mem_range.1 hl)
    have h2 : -D l ≤ q l := le_max_left _ _
    nlinarith
  have hle : ∀ l ∈ Finset.range n, ws l * (-2 * q l * (-D l + c * angularSum n ws D + s l)) ≤
      -2 * (ws l * q l ^ 2) + 2 * c * angularSum n ws q * (ws l * q l) := by
    intro l hl
    have h1 := hp l (Finset.mem_range.1 hl)
    have h2 := hs l (Finset.mem_range.1 hl)
    have h3 : -2 * q l * (-D l + c * angularSum n ws D + s l) ≤
        -2 * q l ^ 2 + 2 * c * angularSum n ws q * q l := by
      have h4 : 0 ≤ c * q l * (angularSum n ws D + angularSum n ws q) :=
        mul_nonneg (mul_nonneg hc (hq0 l)) (by linarith)
      have h5 := mul_nonneg (hq0 l) h2
      nlinarith [hqD l]
    calc _ ≤ ws l * (-2 * q l ^ 2 + 2 * c * angularSum n ws q * q l) :=
          mul_le_mul_of_nonneg_left h3 h1
      _ = _ := by ring
  refine (Finset.sum_le_sum hle).trans ?_
  rw [Finset.sum_add_distrib, ← Finset.mul_sum, ← Finset.mul_sum]
  have hj := angularSum_sq_le n ws q hp hw
  have e1 : ∑ l ∈ Finset.range n, ws l * q l = angularSum n ws q := rfl
  have e2 : ∑ l ∈ Finset.range n, ws l * q l ^ 2 = angularSum n ws fun l => q l ^ 2 := rfl
  rw [e1, e2]
  nlinarith [mul_le_mul_of_nonneg_left hj hc]

/-- Order zero trajectories with nonnegative data stay nonnegative. -/
theorem zero_order_nonneg (p : RhsParams) (hp : ∀ l < p.Nang, 0 < p.ws l)
    (hw : ∑ l ∈ Finset.range p.Nang, p.ws l = 1) (hc : 0 ≤ p.c) (N : ℕ) (a b : ℝ)
    (F : Set ℝ) (hF : F.Finite)
    (mesh : ℝ → MeshView) (hm : ∀ s ∈ Icc a b, ∀ k < N, (mesh s).edges k < (mesh s).edges (k + 1))
    (oL oR : ℝ → ℕ → ℝ) (hL : ∀ s ∈ Ico a b \ F, ∀ l < p.Nang, 0 ≤ oL s l)
    (hR : ∀ s ∈ Ico a b \ F, ∀ l < p.Nang, 0 ≤ oR s l)
    (S : ℝ → ℕ → ℕ → ℝ) (hS : ∀ s ∈ Ico a b \ F, ∀ l < p.Nang, ∀ k < N, 0 ≤ S s l k)
    (W : ℝ → ℕ → ℕ → ℝ)
    (hWc : ∀ l < p.Nang, ∀ k < N, ContinuousOn (fun s => W s l k) (Icc a b))
    (hW : ∀ t ∈ Ico a b \ F, ∀ l < p.Nang, ∀ k < N, HasDerivWithinAt (fun s => W s l k)
      (zeroRate N (mesh t) (p.mus l) (oL t l) (oR t l) (W t l) k
        + (-W t l k + p.c * angularSum p.Nang p.ws (fun l => W t l k) + S t l k)) (Ici t) t)
    (hinit : ∀ l < p.Nang, ∀ k < N, 0 ≤ W a l k) (t : ℝ) (ht : t ∈ Icc a b) :
    ∀ l < p.Nang, ∀ k < N, 0 ≤ W t l k := by
  set E : ℝ → ℝ := fun s => ∑ l ∈ Finset.range p.Nang, p.ws l *
    ∑ k ∈ Finset.range N, max (-W s l k) 0 ^ 2 with hE
  have hp' : ∀ l < p.Nang, 0 ≤ p.ws l := fun l hl => (hp l hl).le
  have hcont : ContinuousOn E (Icc a b) := by
    refine continuousOn_finsetSum _ fun l hl => continuousOn_const.mul ?_
    refine continuousOn_finsetSum _ fun k hk => ?_
    exact ((hWc l (Finset.mem_range.1 hl) k (Finset.mem_range.1 hk)).neg.sup continuousOn_const).pow 2
  have hder : ∀ x ∈ Ico a b \ F, HasDerivWithinAt E (∑ l ∈ Finset.range p.Nang, p.ws l *
      ∑ k ∈ Finset.range N, -2 * max (-W x l k) 0 *
        (zeroRate N (mesh x) (p.mus l) (oL x l) (oR x l) (W x l) k
        + (-W x l k + p.c * angularSum p.Nang p.ws (fun l => W x l k) + S x l k))) (Ici x) x := by
    intro x hx
    refine HasDerivWithinAt.fun_sum fun l hl => HasDerivWithinAt.const_mul _ ?_
    refine HasDerivWithinAt.fun_sum fun k hk => ?_
    exact (hasDerivAt_neg_sq (W x l k)).comp_hasDerivWithinAt x
      (hW x hx l (Finset.mem_range.1 hl) k (Finset.mem_range.1 hk))
  have hbound : ∀ x ∈ Ico a b \ F, ∑ l ∈ Finset.range p.Nang, p.ws l *
      ∑ k ∈ Finset.range N, -2 * max (-W x l k) 0 *
        (zeroRate N (mesh x) (p.mus l) (oL x l) (oR x l) (W x l) k
        + (-W x l k + p.c * angularSum p.Nang p.ws (fun l => W x l k) + S x l k)) ≤
      2 * (p.c - 1) * E x + 0 := by
    intro x hx
    have hsplit : ∀ l, p.ws l * ∑ k ∈ Finset.range N, -2 * max (-W x l k) 0 *
        (zeroRate N (mesh x) (p.mus l) (oL x l) (oR x l) (W x l) k
        + (-W x l k + p.c * angularSum p.Nang p.ws (fun l => W x l k) + S x l k)) =
        p.ws l * (∑ k ∈ Finset.range N, -2 * max (-W x l k) 0 *
          zeroRate N (mesh x) (p.mus l) (oL x l) (oR x l) (W x l) k) +
        ∑ k ∈ Finset.range N, p.ws l * (-2 * max (-W x l k) 0 *
          (-W x l k + p.c * angularSum p.Nang p.ws (fun l => W x l k) + S x l k)) := by
      intro l
      rw [← Finset.mul_sum, ← mul_add, ← Finset.sum_add_distrib]
      congr 1
      exact Finset.sum_congr rfl fun k _ => by ring
    rw [Finset.sum_congr rfl fun l _ => hsplit l, Finset.sum_add_distrib]
    have h1 : ∑ l ∈ Finset.range p.Nang, p.ws l * (∑ k ∈ Finset.range N, -2 * max (-W x l k) 0 *
          zeroRate N (mesh x) (p.mus l) (oL x l) (oR x l) (W x l) k) ≤ 0 := by
      refine Finset.sum_nonpos fun l hl => ?_
      have hl' := Finset.mem_range.1 hl
      exact mul_nonpos_of_nonneg_of_nonpos (hp' l hl') (zeroRate_form N (mesh x)
        (hm x ⟨hx.1.1, hx.1.2.le⟩) _ _ _ (hL x hx l hl') (hR x hx l hl') _)
    have h2 : ∑ l ∈ Finset.range p.Nang, ∑ k ∈ Finset.range N, p.ws l * (-2 * max (-W x l k) 0 *
          (-W x l k + p.c * angularSum p.Nang p.ws (fun l => W x l k) + S x l k)) ≤
        2 * (p.c - 1) * E x := by
      have e : E x = ∑ k ∈ Finset.range N, angularSum p.Nang p.ws fun l => max (-W x l k) 0 ^ 2 := by
        simp only [hE, Finset.mul_sum, angularSum]
        rw [Finset.sum_comm]
      rw [e, Finset.sum_comm, Finset.mul_sum]
      refine Finset.sum_le_sum fun k hk => ?_
      exact collision_neg_form p.Nang p.ws (fun l => W x l k) (fun l => S x l k) p.c hp' hw hc
        fun l hl => hS x hx l hl k (Finset.mem_range.1 hk)
    linarith
  have hz : E a ≤ 0 := by
    refine (Finset.sum_eq_zero fun l hl => ?_).le
    rw [Finset.sum_eq_zero fun k hk => ?_, mul_zero]
    have := hinit l (Finset.mem_range.1 hl) k (Finset.mem_range.1 hk)
    rw [max_eq_right (by linarith)]
    ring
  have hg := gronwall_except hF _ _ (2 * (p.c - 1)) 0 a b _ hcont hder hz hbound t ht
  rw [gronwallBound_ε0, zero_mul] at hg
  have hn : ∀ l ∈ Finset.range p.Nang, 0 ≤ p.ws l * ∑ k ∈ Finset.range N, max (-W t l k) 0 ^ 2 :=
    fun l hl => mul_nonneg (hp' l (Finset.mem_range.1 hl)) (Finset.sum_nonneg fun _ _ => sq_nonneg _)
  have h0 := (Finset.sum_eq_zero_iff_of_nonneg hn).1 (le_antisymm hg (Finset.sum_nonneg hn))
  intro l hl k hk
  have h1 := (mul_eq_zero.1 (h0 l (Finset.mem_range.2 hl))).resolve_left (hp l hl).ne'
  have h2 := (Finset.sum_eq_zero_iff_of_nonneg fun _ _ => sq_nonneg _).1 h1 k (Finset.mem_range.2 hk)
  have h3 := pow_eq_zero_iff (by norm_num) |>.1 h2
  have h4 := le_max_left (-W t l k) 0
  linarith

end Verif.Lemmas
