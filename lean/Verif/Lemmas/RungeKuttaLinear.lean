import Verif.Lemmas.RungeKuttaOrder
import Verif.Spec.RungeKutta

/-! Order of explicit Runge-Kutta steps for linear equations, for all orders and with constants that do
not depend on the coefficients of the method beyond a bound. -/

namespace Verif.Lemmas

open Set Verif.Model Verif.Spec
open scoped ContDiff

variable {E : Type*} [NormedAddCommGroup E] [NormedSpace ℝ E]

/-- Stages between the ends of the step; `α` bounds the sums of the absolute rows. -/
structure StageBound (n : ℕ) (row : ℕ → ℕ → ℝ) (node : ℕ → ℝ) (α : ℝ) : Prop where
  first : node 0 = 0
  nodes : ∀ i ≤ n, 0 ≤ node i ∧ node i ≤ 1
  rows : ∀ i ≤ n, ∑ j ∈ Finset.range i, |row i j| ≤ α
  pos : 0 ≤ α

/-- How far a row is from integrating the power `q - 1`, times `q`. -/
noncomputable def rowMom (row : ℕ → ℕ → ℝ) (node : ℕ → ℝ) (q i : ℕ) : ℝ :=
  node i ^ q - q * ∑ j ∈ Finset.range i, row i j * node j ^ (q - 1)

/-- The defect of the exact solution in a stage. -/
noncomputable def rowDefect (row : ℕ → ℕ → ℝ) (node : ℕ → ℝ) (G : ℕ → ℝ → E) (i : ℕ) (x : ℝ × ℝ) : E :=
  G 0 (x.1 + node i * x.2) - G 0 x.1 -
    x.2 • ∑ j ∈ Finset.range i, row i j • G 1 (x.1 + node j * x.2)

section
variable {T : ℝ} {G : ℕ → ℝ → E} {n : ℕ} {row : ℕ → ℕ → ℝ} {node : ℕ → ℝ} {α : ℝ}

theorem rowDefect_expansion (hτ : StageBound n row node α) (h : Smooth T G) (p : ℕ) {B : ℝ}
    (hB : ∀ t ∈ Icc 0 T, ‖G (p + 1) t‖ ≤ B) {i : ℕ} (hi : i ≤ n) {x : ℝ × ℝ} (hx : StepIn T x) :
    ‖rowDefect row node G i x - ∑ q ∈ Finset.range p,
      (x.2 ^ (q + 1) * (rowMom row node (q + 1) i / ((q + 1).factorial : ℝ))) • G (q + 1) x.1‖ ≤
      (1 + α) * B * x.2 ^ (p + 1) := by
  have hB0 : 0 ≤ B := (norm_nonneg _).trans (hB x.1 ⟨hx.1, by
    have := hx.2.1; have := hx.2.2.2; linarith⟩)
  have hn : ∀ j ≤ n, 0 ≤ node j * x.2 ∧ node j * x.2 ≤ x.2 ∧ x.1 + node j * x.2 ≤ T := fun j hj => by
    have h1 := mul_le_of_le_one_left hx.2.1 (hτ.nodes j hj).2
    exact ⟨mul_nonneg (hτ.nodes j hj).1 hx.2.1, h1, by have := hx.2.2.2; linarith⟩
  have h0 : ‖G 0 (x.1 + node i * x.2) - ∑ q ∈ Finset.range (p + 1),
      ((node i * x.2) ^ q / (q.factorial : ℝ)) • G q x.1‖ ≤ B * x.2 ^ (p + 1) := by
    refine (h.taylor (p + 1) hB hx.1 (hn i hi).1 (hn i hi).2.2).trans ?_
    have := (hn i hi).1
    have := (hn i hi).2.1
    gcongr
  have h1 : ∀ j ∈ Finset.range i, ‖row i j • (G 1 (x.1 + node j * x.2) -
      ∑ q ∈ Finset.range p, ((node j * x.2) ^ q / (q.factorial : ℝ)) • G (1 + q) x.1)‖ ≤
      |row i j| * (B * x.2 ^ p) := fun j hj => by
    have hj : j ≤ n := by have := Finset.mem_range.1 hj; omega
    rw [norm_smul, Real.norm_eq_abs]
    refine mul_le_mul_of_nonneg_left ?_ (abs_nonneg _)
    refine ((h.shift 1).taylor p (B := B) (fun t ht => by rw [add_comm]; exact hB t ht) hx.1 (hn j hj).1
      (hn j hj).2.2).trans ?_
    have := (hn j hj).1
    have := (hn j hj).2.1
    gcongr
  have h2 : ‖x.2 • ∑ j ∈ Finset.range i, row i j • (G 1 (x.1 + node j * x.2) -
      ∑ q ∈ Finset.range p, ((node j * x.2) ^ q / (q.factorial : ℝ)) • G (1 + q) x.1)‖ ≤
      α * B * x.2 ^ (p + 1) := by
    rw [norm_smul, Real.norm_eq_abs, abs_of_nonneg hx.2.1]
    have h3 := (norm_sum_le _ _).trans (Finset.sum_le_sum h1)
    rw [← Finset.sum_mul] at h3
    have h4 : (∑ j ∈ Finset.range i, |row i j|) * (B * x.2 ^ p) ≤ α * (B * x.2 ^ p) :=
      mul_le_mul_of_nonneg_right (hτ.rows i hi) (mul_nonneg hB0 (pow_nonneg hx.2.1 _))
    calc _ ≤ x.2 * (α * (B * x.2 ^ p)) := mul_le_mul_of_nonneg_left (h3.trans h4) hx.2.1
      _ = _ := by ring
  have key : rowDefect row node G i x - ∑ q ∈ Finset.range p,
      (x.2 ^ (q + 1) * (rowMom row node (q + 1) i / ((q + 1).factorial : ℝ))) • G (q + 1) x.1 =
      (G 0 (x.1 + node i * x.2) - ∑ q ∈ Finset.range (p + 1),
        ((node i * x.2) ^ q / (q.factorial : ℝ)) • G q x.1) -
      x.2 • ∑ j ∈ Finset.range i, row i j • (G 1 (x.1 + node j * x.2) -
        ∑ q ∈ Finset.range p, ((node j * x.2) ^ q / (q.factorial : ℝ)) • G (1 + q) x.1) := by
    unfold rowDefect
    simp only [smul_sub, Finset.sum_sub_distrib]
    rw [Finset.sum_range_succ' (fun q => ((node i * x.2) ^ q / (q.factorial : ℝ)) • G q x.1)]
    simp only [pow_zero, Nat.factorial_zero, Nat.cast_one, div_one, one_smul]
    have key : ∑ q ∈ Finset.range p,
        (x.2 ^ (q + 1) * (rowMom row node (q + 1) i / ((q + 1).factorial : ℝ))) • G (q + 1) x.1 =
        ∑ q ∈ Finset.range p, ((node i * x.2) ^ (q + 1) / ((q + 1).factorial : ℝ)) • G (q + 1) x.1 -
        x.2 • ∑ j ∈ Finset.range i, row i j • ∑ q ∈ Finset.range p,
          ((node j * x.2) ^ q / (q.factorial : ℝ)) • G (1 + q) x.1 := by
      have e : x.2 • ∑ j ∈ Finset.range i, row i j • ∑ q ∈ Finset.range p,
          ((node j * x.2) ^ q / (q.factorial : ℝ)) • G (1 + q) x.1 =
          ∑ q ∈ Finset.range p, (x.2 ^ (q + 1) / (q.factorial : ℝ) *
            ∑ j ∈ Finset.range i, row i j * node j ^ q) • G (q + 1) x.1 := by
        simp only [Finset.smul_sum, smul_smul]
        rw [Finset.sum_comm]
        refine Finset.sum_congr rfl fun q _ => ?_
        rw [Finset.mul_sum, Finset.sum_smul, add_comm 1 q]
        refine Finset.sum_congr rfl fun j _ => ?_
        congr 1
        ring
      rw [e, ← Finset.sum_sub_distrib]
      refine Finset.sum_congr rfl fun q _ => ?_
      rw [← sub_smul]
      congr 1
      unfold rowMom
      rw [Nat.add_sub_cancel, Nat.factorial_succ]
      push_cast
      have : (q.factorial : ℝ) ≠ 0 := by exact_mod_cast q.factorial_ne_zero
      rw [mul_pow]
      field_simp
    rw [key]
    simp only [Finset.smul_sum]
    abel
  rw [key]
  refine (norm_sub_le _ _).trans ((add_le_add h0 h2).trans (le_of_eq ?_))
  ring

/-- Weights on the stages, sent one stage back with a power of the node. -/
noncomputable def pushOne (n : ℕ) (row : ℕ → ℕ → ℝ) (node : ℕ → ℝ) (k : ℕ) (w : ℕ → ℝ) (j : ℕ) : ℝ :=
  (∑ i ∈ Finset.range (n + 1), w i * if j < i then row i j else 0) * node j ^ k

/-- The same along a word. -/
noncomputable def pushWord (n : ℕ) (row : ℕ → ℕ → ℝ) (node : ℕ → ℝ) : List ℕ → (ℕ → ℝ) → ℕ → ℝ
  | [], w => w
  | k :: ks, w => pushWord n row node ks (pushOne n row node k w)

/-- The conditions of order up to `r` on weights of the stages, up to `ε`. -/
def Meets (n : ℕ) (row : ℕ → ℕ → ℝ) (node : ℕ → ℝ) (ε : ℝ) (r : ℕ) (w : ℕ → ℝ) : Prop :=
  ∀ ks m, 1 ≤ m → wordOrder ks + m ≤ r →
    |∑ i ∈ Finset.range (n + 1), pushWord n row node ks w i * rowMom row node m i| ≤ ε

theorem Meets.push {ε : ℝ} {r k : ℕ} {w : ℕ → ℝ} (h : Meets n row node ε r w) (hk : k < r) :
    Meets n row node ε (r - (k + 1)) (pushOne n row node k w) := fun ks m hm ho =>
  h (k :: ks) m hm (by rw [wordOrder]; omega)

theorem pushOne_bound (hτ : StageBound n row node α) {β : ℝ} {w : ℕ → ℝ}
    (hw : ∑ i ∈ Finset.range (n + 1), |w i| ≤ β) (k : ℕ) :
    ∑ j ∈ Finset.range (n + 1), |pushOne n row node k w j| ≤ α * β := by
  have h1 : ∀ j ∈ Finset.range (n + 1), |pushOne n row node k w j| ≤
      ∑ i ∈ Finset.range (n + 1), |w i| * if j < i then |row i j| else 0 := fun j hj => by
    have hj : j ≤ n := Nat.lt_succ_iff.1 (Finset.mem_range.1 hj)
    unfold pushOne
    rw [abs_mul, abs_pow, abs_of_nonneg (hτ.nodes j hj).1]
    refine (mul_le_of_le_one_right (abs_nonneg _) (pow_le_one₀ (hτ.nodes j hj).1 (hτ.nodes j hj).2)).trans ?_
    refine (Finset.abs_sum_le_sum_abs _ _).trans (le_of_eq (Finset.sum_congr rfl fun i _ => ?_))
    rw [abs_mul]
    split_ifs <;> simp
  refine (Finset.sum_le_sum h1).trans ?_
  rw [Finset.sum_comm]
  have h2 : ∀ i ∈ Finset.range (n + 1), ∑ j ∈ Finset.range (n + 1),
      (|w i| * if j < i then |row i j| else 0) ≤ |w i| * α := fun i hi => by
    have hi : i ≤ n := Nat.lt_succ_iff.1 (Finset.mem_range.1 hi)
    rw [← Finset.mul_sum, ← Finset.sum_filter]
    refine mul_le_mul_of_nonneg_left (le_trans (le_of_eq ?_) (hτ.rows i hi)) (abs_nonneg _)
    refine Finset.sum_congr (Finset.ext fun j => ?_) fun _ _ => rfl
    simp only [Finset.mem_filter, Finset.mem_range]
    omega
  refine (Finset.sum_le_sum h2).trans ?_
  rw [← Finset.sum_mul, mul_comm]
  exact mul_le_mul_of_nonneg_left hw hτ.pos

/-- Errors of the states in the stages of one step from the exact state. -/
structure StageErrors (T L α : ℝ) (A : ℕ → ℝ → E →L[ℝ] E) (G : ℕ → ℝ → E) (n : ℕ) (row : ℕ → ℕ → ℝ)
    (node : ℕ → ℝ) (x : ℝ × ℝ) (s : ℕ → E) : Prop where
  bound : StageBound n row node α
  step : StepIn T x
  short : L * α * x.2 ≤ 1 / 2
  stages : ∀ i ≤ n, s i = x.2 • ∑ j ∈ Finset.range i, row i j • A 0 (x.1 + node j * x.2) (s j)
    - rowDefect row node G i x

theorem StageErrors.small {L : ℝ} {A : ℕ → ℝ → E →L[ℝ] E} (h : Smooth T G) {B : ℝ}
    (hB : ∀ t ∈ Icc 0 T, ‖G 1 t‖ ≤ B) (hL : ∀ t ∈ Icc 0 T, ‖A 0 t‖ ≤ L) {x : ℝ × ℝ} {s : ℕ → E}
    (hs : StageErrors T L α A G n row node x s) : ∀ i ≤ n, ‖s i‖ ≤ 2 * (1 + α) * B * x.2 := by
  have hx := hs.step
  have hα := hs.bound.pos
  have hB0 : 0 ≤ B := (norm_nonneg _).trans (hB x.1 ⟨hx.1, by
    have := hx.2.1; have := hx.2.2.2; linarith⟩)
  intro i
  induction i using Nat.strong_induction_on with
  | _ i ih =>
    intro hi
    have h1 := rowDefect_expansion hs.bound h 0 hB hi hx
    rw [Finset.sum_range_zero, sub_zero, zero_add, pow_one] at h1
    have h2 : ‖∑ j ∈ Finset.range i, row i j • A 0 (x.1 + node j * x.2) (s j)‖ ≤
        α * (L * (2 * (1 + α) * B * x.2)) := by
      have : ∀ j ∈ Finset.range i, ‖row i j • A 0 (x.1 + node j * x.2) (s j)‖ ≤
          |row i j| * (L * (2 * (1 + α) * B * x.2)) := fun j hj => by
        have hj := Finset.mem_range.1 hj
        rw [norm_smul, Real.norm_eq_abs]
        refine mul_le_mul_of_nonneg_left ?_ (abs_nonneg _)
        refine ((A 0 _).le_opNorm _).trans ?_
        have h3 := hL _ (hx.node (hs.bound.nodes j (by omega)))
        exact mul_le_mul h3 (ih j hj (by omega)) (norm_nonneg _) ((norm_nonneg _).trans h3)
      refine (norm_sum_le _ _).trans ((Finset.sum_le_sum this).trans ?_)
      rw [← Finset.sum_mul]
      have hL0 : 0 ≤ L := (norm_nonneg _).trans (hL x.1 ⟨hx.1, by
        have := hx.2.1; have := hx.2.2.2; linarith⟩)
      have := hx.2.1
      exact mul_le_mul_of_nonneg_right (hs.bound.rows i hi) (by positivity)
    rw [hs.stages i hi]
    refine (norm_sub_le _ _).trans ?_
    rw [norm_smul, Real.norm_eq_abs, abs_of_nonneg hx.2.1]
    have h3 : x.2 * ‖∑ j ∈ Finset.range i, row i j • A 0 (x.1 + node j * x.2) (s j)‖ ≤
        (1 + α) * B * x.2 := by
      calc _ ≤ x.2 * (α * (L * (2 * (1 + α) * B * x.2))) := mul_le_mul_of_nonneg_left h2 hx.2.1
        _ = L * α * x.2 * (2 * (1 + α) * B * x.2) := by ring
        _ ≤ 1 / 2 * (2 * (1 + α) * B * x.2) := by
            have := hx.2.1
            exact mul_le_mul_of_nonneg_right hs.short (by positivity)
        _ = _ := by ring
    linarith

/-- Combinations of the errors in the stages. -/
theorem StageErrors.combine {L : ℝ} {A : ℕ → ℝ → E →L[ℝ] E} {x : ℝ × ℝ} {s : ℕ → E}
    (hs : StageErrors T L α A G n row node x s) (w : ℕ → ℝ) :
    ∑ i ∈ Finset.range (n + 1), w i • s i =
      x.2 • ∑ j ∈ Finset.range (n + 1), pushOne n row node 0 w j • A 0 (x.1 + node j * x.2) (s j)
      - ∑ i ∈ Finset.range (n + 1), w i • rowDefect row node G i x := by
  have h1 : ∀ i ∈ Finset.range (n + 1), w i • s i =
      x.2 • ∑ j ∈ Finset.range (n + 1), (w i * if j < i then row i j else 0) •
        A 0 (x.1 + node j * x.2) (s j) - w i • rowDefect row node G i x := fun i hi => by
    have hi : i ≤ n := Nat.lt_succ_iff.1 (Finset.mem_range.1 hi)
    rw [hs.stages i hi, smul_sub, smul_comm (w i) x.2, Finset.smul_sum]
    congr 2
    have : ∀ j, (w i * if j < i then row i j else 0) • A 0 (x.1 + node j * x.2) (s j) =
        if j < i then w i • row i j • A 0 (x.1 + node j * x.2) (s j) else 0 := fun j => by
      split_ifs
      · rw [smul_smul]
      · rw [mul_zero, zero_smul]
    simp only [this]
    rw [← Finset.sum_filter]
    refine Finset.sum_congr (Finset.ext fun j => ?_) fun _ _ => rfl
    simp only [Finset.mem_filter, Finset.mem_range]
    omega
  rw [Finset.sum_congr rfl h1, Finset.sum_sub_distrib, ← Finset.smul_sum, Finset.sum_comm]
  congr 2
  refine Finset.sum_congr rfl fun j _ => ?_
  unfold pushOne
  rw [pow_zero, mul_one, Finset.sum_smul]

/-- The main estimate. -/
theorem stageErrors_order {A : ℕ → ℝ → E →L[ℝ] E} (h : Smooth T G) (hA : Smooth T A) (hT : 0 ≤ T) {L : ℝ}
    (hL : ∀ t ∈ Icc 0 T, ‖A 0 t‖ ≤ L) (hα : 0 ≤ α) (r : ℕ) : ∀ β : ℝ, 0 ≤ β → ∃ C, 0 ≤ C ∧
    ∀ (n : ℕ) (row : ℕ → ℕ → ℝ) (node : ℕ → ℝ) (x : ℝ × ℝ) (s : ℕ → E),
      StageErrors T L α A G n row node x s → ∀ (w : ℕ → ℝ) (ε : ℝ), 0 ≤ ε →
      ∑ i ∈ Finset.range (n + 1), |w i| ≤ β → Meets n row node ε r w →
      ‖∑ i ∈ Finset.range (n + 1), w i • s i‖ ≤ C * (ε * x.2 + x.2 ^ (r + 1)) := by
  induction r using Nat.strong_induction_on with
  | _ r ih =>
    intro β hβ
    have ih' : ∀ r' < r, _ := fun r' hr' => ih r' hr' (α * β) (by positivity)
    choose! Cf hCf0 hCf using ih'
    obtain ⟨B1, hB1⟩ := h.bounded 1
    obtain ⟨Br, hBr⟩ := h.bounded (r + 1)
    choose Bg hBg using fun q => h.bounded (E := E) q
    choose Ba hBa using fun k => hA.bounded k
    have hBg0 : ∀ q, 0 ≤ Bg q := fun q => (norm_nonneg _).trans (hBg q 0 ⟨le_rfl, hT⟩)
    have hBa0 : ∀ q, 0 ≤ Ba q := fun q => (norm_nonneg _).trans (hBa q 0 ⟨le_rfl, hT⟩)
    have hCk : ∀ k ∈ Finset.range r, 0 ≤ Ba k * Cf (r - (k + 1)) := fun k hk =>
      mul_nonneg (hBa0 k) (hCf0 _ (by have := Finset.mem_range.1 hk; omega))
    refine ⟨∑ k ∈ Finset.range r, Ba k * Cf (r - (k + 1)) + α * β * Ba r * (2 * (1 + α) * Bg 1)
      + (∑ q ∈ Finset.range r, Bg (q + 1) + β * ((1 + α) * Bg (r + 1))), ?_, ?_⟩
    · have h1 := Finset.sum_nonneg hCk
      have h2 : 0 ≤ ∑ q ∈ Finset.range r, Bg (q + 1) := Finset.sum_nonneg fun q _ => hBg0 _
      have h3 := hBa0 r
      have h4 := hBg0 1
      have h5 := hBg0 (r + 1)
      positivity
    intro n row node x s hs w ε hε hw hmeet
    have hx := hs.step
    have hx0 := hx.2.1
    have hx1 := hx.2.2.1
    have hxT : x.1 ∈ Icc 0 T := ⟨hx.1, by have := hx.2.2.2; linarith⟩
    have hsm := hs.small h (hBg 1) hL
    set X := ε * x.2 + x.2 ^ (r + 1) with hX
    have hX0 : 0 ≤ X := by positivity
    -- the defects
    have hdef : ‖∑ i ∈ Finset.range (n + 1), w i • rowDefect row node G i x‖ ≤
        (∑ q ∈ Finset.range r, Bg (q + 1) + β * ((1 + α) * Bg (r + 1))) * X := by
      have e : ∑ i ∈ Finset.range (n + 1), w i • rowDefect row node G i x =
          ∑ i ∈ Finset.range (n + 1), w i • (rowDefect row node G i x - ∑ q ∈ Finset.range r,
            (x.2 ^ (q + 1) * (rowMom row node (q + 1) i / ((q + 1).factorial : ℝ))) • G (q + 1) x.1) +
          ∑ q ∈ Finset.range r, (x.2 ^ (q + 1) / ((q + 1).factorial : ℝ) *
            ∑ i ∈ Finset.range (n + 1), w i * rowMom row node (q + 1) i) • G (q + 1) x.1 := by
        simp only [smul_sub, Finset.sum_sub_distrib, Finset.smul_sum]
        rw [Finset.sum_comm (s := Finset.range (n + 1)) (t := Finset.range r), ← sub_eq_iff_eq_add]
        congr 1
        refine Finset.sum_congr rfl fun q _ => ?_
        rw [Finset.mul_sum, Finset.sum_smul]
        refine Finset.sum_congr rfl fun i _ => ?_
        rw [smul_smul]
        congr 1
        ring
      rw [e]
      refine (norm_add_le _ _).trans ?_
      have p1 : ‖∑ i ∈ Finset.range (n + 1), w i • (rowDefect row node G i x - ∑ q ∈ Finset.range r,
            (x.2 ^ (q + 1) * (rowMom row node (q + 1) i / ((q + 1).factorial : ℝ))) • G (q + 1) x.1)‖ ≤
          β * ((1 + α) * Bg (r + 1)) * X := by
        have : ∀ i ∈ Finset.range (n + 1), ‖w i • (rowDefect row node G i x - ∑ q ∈ Finset.range r,
            (x.2 ^ (q + 1) * (rowMom row node (q + 1) i / ((q + 1).factorial : ℝ))) • G (q + 1) x.1)‖ ≤
            |w i| * ((1 + α) * Bg (r + 1) * X) := fun i hi => by
          rw [norm_smul, Real.norm_eq_abs]
          refine mul_le_mul_of_nonneg_left ((rowDefect_expansion hs.bound h r (hBg (r + 1))
            (Nat.lt_succ_iff.1 (Finset.mem_range.1 hi)) hx).trans ?_) (abs_nonneg _)
          have := hBg0 (r + 1)
          refine mul_le_mul_of_nonneg_left ?_ (by positivity)
          rw [hX]
          have : 0 ≤ ε * x.2 := by positivity
          linarith
        refine (norm_sum_le _ _).trans ((Finset.sum_le_sum this).trans ?_)
        rw [← Finset.sum_mul, mul_assoc β]
        have := hBg0 (r + 1)
        exact mul_le_mul_of_nonneg_right hw (by positivity)
      have p2 : ‖∑ q ∈ Finset.range r, (x.2 ^ (q + 1) / ((q + 1).factorial : ℝ) *
            ∑ i ∈ Finset.range (n + 1), w i * rowMom row node (q + 1) i) • G (q + 1) x.1‖ ≤
          (∑ q ∈ Finset.range r, Bg (q + 1)) * X := by
        refine (norm_sum_le _ _).trans ?_
        rw [Finset.sum_mul]
        refine Finset.sum_le_sum fun q hq => ?_
        rw [norm_smul, Real.norm_eq_abs, abs_mul, mul_comm (Bg _)]
        refine mul_le_mul ?_ (hBg _ _ hxT) (norm_nonneg _) hX0
        have m1 : |x.2 ^ (q + 1) / ((q + 1).factorial : ℝ)| ≤ x.2 := by
          rw [abs_of_nonneg (by positivity)]
          have hf : (1 : ℝ) ≤ ((q + 1).factorial : ℝ) := by exact_mod_cast Nat.one_le_iff_ne_zero.2 (Nat.factorial_ne_zero _)
          refine (div_le_self (by positivity) hf).trans ?_
          exact pow_le_of_le_one hx0 hx1 (by omega)
        have m2 := hmeet [] (q + 1) (by omega) (by rw [wordOrder]; have := Finset.mem_range.1 hq; omega)
        calc _ ≤ x.2 * ε := mul_le_mul m1 m2 (abs_nonneg _) hx0
          _ ≤ X := by rw [hX, mul_comm]; have : 0 ≤ x.2 ^ (r + 1) := by positivity
                      linarith
      refine (add_le_add p1 p2).trans (le_of_eq ?_)
      ring
    -- the operators
    have hop : ‖x.2 • ∑ j ∈ Finset.range (n + 1), pushOne n row node 0 w j •
        A 0 (x.1 + node j * x.2) (s j)‖ ≤ (∑ k ∈ Finset.range r, Ba k * Cf (r - (k + 1))
          + α * β * Ba r * (2 * (1 + α) * Bg 1)) * X := by
      have e : x.2 • ∑ j ∈ Finset.range (n + 1), pushOne n row node 0 w j •
          A 0 (x.1 + node j * x.2) (s j) =
          ∑ k ∈ Finset.range r, (x.2 ^ (k + 1) / (k.factorial : ℝ)) • A k x.1
            (∑ j ∈ Finset.range (n + 1), pushOne n row node k w j • s j) +
          x.2 • ∑ j ∈ Finset.range (n + 1), pushOne n row node 0 w j • (A 0 (x.1 + node j * x.2) -
            ∑ k ∈ Finset.range r, ((node j * x.2) ^ k / (k.factorial : ℝ)) • A k x.1) (s j) := by
        have e1 : ∑ k ∈ Finset.range r, (x.2 ^ (k + 1) / (k.factorial : ℝ)) • A k x.1
            (∑ j ∈ Finset.range (n + 1), pushOne n row node k w j • s j) =
            x.2 • ∑ j ∈ Finset.range (n + 1), pushOne n row node 0 w j •
              (∑ k ∈ Finset.range r, ((node j * x.2) ^ k / (k.factorial : ℝ)) • A k x.1) (s j) := by
          simp only [map_sum, map_smul, sum_apply, smul_apply,
            Finset.smul_sum, smul_smul]
          rw [Finset.sum_comm]
          refine Finset.sum_congr rfl fun j _ => Finset.sum_congr rfl fun k _ => ?_
          congr 1
          unfold pushOne
          rw [pow_zero, mul_one, mul_pow]
          ring
        rw [e1, ← smul_add, ← Finset.sum_add_distrib]
        congr 1
        refine Finset.sum_congr rfl fun j _ => ?_
        rw [sub_apply, smul_sub]
        abel
      rw [e]
      refine (norm_add_le _ _).trans ?_
      have p1 : ‖∑ k ∈ Finset.range r, (x.2 ^ (k + 1) / (k.factorial : ℝ)) • A k x.1
            (∑ j ∈ Finset.range (n + 1), pushOne n row node k w j • s j)‖ ≤
          (∑ k ∈ Finset.range r, Ba k * Cf (r - (k + 1))) * X := by
        refine (norm_sum_le _ _).trans ?_
        rw [Finset.sum_mul]
        refine Finset.sum_le_sum fun k hk => ?_
        have hkr : k < r := Finset.mem_range.1 hk
        have m1 := hCf (r - (k + 1)) (by omega) n row node x s hs (pushOne n row node k w) ε hε
          (pushOne_bound hs.bound hw k) (hmeet.push hkr)
        have hc0 := hCf0 (r - (k + 1)) (by omega)
        rw [norm_smul, Real.norm_eq_abs, abs_of_nonneg (by positivity)]
        have hf : (1 : ℝ) ≤ (k.factorial : ℝ) := by exact_mod_cast Nat.one_le_iff_ne_zero.2 (Nat.factorial_ne_zero _)
        have m2 : ‖A k x.1 (∑ j ∈ Finset.range (n + 1), pushOne n row node k w j • s j)‖ ≤
            Ba k * (Cf (r - (k + 1)) * (ε * x.2 + x.2 ^ (r - (k + 1) + 1))) :=
          ((A k x.1).le_opNorm _).trans (mul_le_mul (hBa k _ hxT) m1 (norm_nonneg _) (hBa0 k))
        have m3 : x.2 ^ (k + 1) / (k.factorial : ℝ) ≤ x.2 ^ (k + 1) := div_le_self (by positivity) hf
        have hba := hBa0 k
        calc _ ≤ x.2 ^ (k + 1) * (Ba k * (Cf (r - (k + 1)) * (ε * x.2 + x.2 ^ (r - (k + 1) + 1)))) :=
              mul_le_mul m3 m2 (norm_nonneg _) (by positivity)
          _ = Ba k * Cf (r - (k + 1)) * (x.2 ^ (k + 1) * (ε * x.2) + x.2 ^ (k + 1) * x.2 ^ (r - (k + 1) + 1)) := by
              ring
          _ ≤ Ba k * Cf (r - (k + 1)) * X := by
              refine mul_le_mul_of_nonneg_left ?_ (by positivity)
              rw [hX, ← pow_add, show k + 1 + (r - (k + 1) + 1) = r + 1 by omega]
              have := mul_le_of_le_one_left (show 0 ≤ ε * x.2 by positivity) (pow_le_one₀ hx0 hx1 (n := k + 1))
              linarith
      have p2 : ‖x.2 • ∑ j ∈ Finset.range (n + 1), pushOne n row node 0 w j • (A 0 (x.1 + node j * x.2) -
            ∑ k ∈ Finset.range r, ((node j * x.2) ^ k / (k.factorial : ℝ)) • A k x.1) (s j)‖ ≤
          α * β * Ba r * (2 * (1 + α) * Bg 1) * X := by
        rw [norm_smul, Real.norm_eq_abs, abs_of_nonneg hx0]
        have hba := hBa0 r
        have hbg := hBg0 1
        have : ∀ j ∈ Finset.range (n + 1), ‖pushOne n row node 0 w j • (A 0 (x.1 + node j * x.2) -
            ∑ k ∈ Finset.range r, ((node j * x.2) ^ k / (k.factorial : ℝ)) • A k x.1) (s j)‖ ≤
            |pushOne n row node 0 w j| * (Ba r * x.2 ^ r * (2 * (1 + α) * Bg 1 * x.2)) := fun j hj => by
          have hj : j ≤ n := Nat.lt_succ_iff.1 (Finset.mem_range.1 hj)
          rw [norm_smul, Real.norm_eq_abs]
          refine mul_le_mul_of_nonneg_left ?_ (abs_nonneg _)
          refine (ContinuousLinearMap.le_opNorm _ _).trans ?_
          have c0 := mul_nonneg (hs.bound.nodes j hj).1 hx0
          have c1 := mul_le_of_le_one_left hx0 (hs.bound.nodes j hj).2
          refine mul_le_mul ((hA.taylor r (hBa r) hx.1 c0 (by have := hx.2.2.2; linarith)).trans ?_)
            (hsm j hj) (norm_nonneg _) (by positivity)
          gcongr
        have q1 := (norm_sum_le _ _).trans (Finset.sum_le_sum this)
        rw [← Finset.sum_mul] at q1
        have q2 := q1.trans (mul_le_mul_of_nonneg_right (pushOne_bound hs.bound hw 0) (by positivity))
        calc _ ≤ x.2 * (α * β * (Ba r * x.2 ^ r * (2 * (1 + α) * Bg 1 * x.2))) :=
              mul_le_mul_of_nonneg_left q2 hx0
          _ = α * β * Ba r * (2 * (1 + α) * Bg 1) * (x.2 * x.2 ^ (r + 1)) := by ring
          _ ≤ α * β * Ba r * (2 * (1 + α) * Bg 1) * X := by
              refine mul_le_mul_of_nonneg_left ?_ (by positivity)
              have := mul_le_of_le_one_left (show 0 ≤ x.2 ^ (r + 1) by positivity) hx1
              have : 0 ≤ ε * x.2 := by positivity
              rw [hX]
              linarith
      refine (add_le_add p1 p2).trans (le_of_eq ?_)
      ring
    rw [hs.combine w]
    refine (norm_sub_le _ _).trans ((add_le_add hop hdef).trans (le_of_eq ?_))
    ring

/-! ### Words -/

/-- A word applied to values in the stages. -/
noncomputable def wordApply (row : ℕ → ℕ → ℝ) (node : ℕ → ℝ) : List ℕ → (ℕ → ℝ) → ℕ → ℝ
  | [], v, i => v i
  | k :: ks, v, i => ∑ j ∈ Finset.range i, row i j * node j ^ k * wordApply row node ks v j

theorem wordApply_one (ks : List ℕ) (i : ℕ) :
    wordApply row node ks (fun _ => 1) i = wordWeight row node ks i := by
  induction ks generalizing i with
  | nil => rfl
  | cons k ks ih => simp only [wordApply, wordWeight, ih]

theorem wordApply_append (ks ls : List ℕ) (v : ℕ → ℝ) (i : ℕ) :
    wordApply row node (ks ++ ls) v i = wordApply row node ks (wordApply row node ls v) i := by
  induction ks generalizing i with
  | nil => rfl
  | cons k ks ih => simp only [List.cons_append, wordApply, ih]

theorem wordApply_combination (ks : List ℕ) (u v : ℕ → ℝ) (c : ℝ) (i : ℕ) :
    wordApply row node ks (fun j => u j - c * v j) i =
      wordApply row node ks u i - c * wordApply row node ks v i := by
  induction ks generalizing i with
  | nil => rfl
  | cons k ks ih =>
    simp only [wordApply, ih]
    rw [Finset.mul_sum, ← Finset.sum_sub_distrib]
    exact Finset.sum_congr rfl fun j _ => by ring

theorem pushWord_apply (ks : List ℕ) (v w : ℕ → ℝ) :
    ∑ j ∈ Finset.range (n + 1), pushWord n row node ks w j * v j =
      ∑ i ∈ Finset.range (n + 1), w i * wordApply row node ks v i := by
  induction ks generalizing w with
  | nil => rfl
  | cons k ks ih =>
    rw [pushWord, ih]
    simp only [pushOne, wordApply, Finset.sum_mul, Finset.mul_sum]
    rw [Finset.sum_comm]
    refine Finset.sum_congr rfl fun i hi => ?_
    have hi := Finset.mem_range.1 hi
    have : ∀ j, (w i * if j < i then row i j else 0) * node j ^ k * wordApply row node ks v j =
        if j < i then w i * (row i j * node j ^ k * wordApply row node ks v j) else 0 := fun j => by
      split_ifs <;> ring
    simp only [this]
    rw [← Finset.sum_filter]
    refine Finset.sum_congr (Finset.ext fun j => ?_) fun _ _ => rfl
    simp only [Finset.mem_filter, Finset.mem_range]
    omega

theorem wordOrder_append (ks ls : List ℕ) : wordOrder (ks ++ ls) = wordOrder ks + wordOrder ls := by
  induction ks with
  | nil => simp [wordOrder]
  | cons k ks ih => rw [List.cons_append, wordOrder, wordOrder, ih]; omega

/-- The two innermost integrals taken together. -/
theorem wordValue_merge (ks : List ℕ) (k : ℕ) {m : ℕ} (hm : 1 ≤ m) :
    wordValue (ks ++ [k + m]) = m * wordValue (ks ++ [k] ++ [m - 1]) := by
  induction ks with
  | nil =>
    have h1 : ((m - 1 + 1 + 0 : ℕ) : ℝ) = m := by congr 1; omega
    have h2 : (0 : ℝ) < m := by exact_mod_cast hm
    simp only [List.nil_append, List.cons_append, wordValue, wordOrder, h1]
    rw [show k + 1 + (m - 1 + 1 + 0) = k + m + 1 + 0 by omega]
    field_simp
  | cons l ks ih =>
    simp only [List.cons_append, wordValue] at ih ⊢
    rw [ih]
    have : wordOrder (ks ++ [k + m]) = wordOrder (ks ++ [k] ++ [m - 1]) := by
      simp only [wordOrder_append, wordOrder]
      omega
    rw [this]
    ring

theorem meets_of_linearOrder {p : ℕ} {ε : ℝ} (hε : 0 ≤ ε) (h : LinearOrder n row node p ε) :
    Meets n row node ((1 + p) * ε) p (Pi.single n 1) := by
  intro ks m hm ho
  rw [pushWord_apply]
  have e1 : ∑ i ∈ Finset.range (n + 1), (Pi.single n 1 : ℕ → ℝ) i * wordApply row node ks (rowMom row node m) i =
      wordApply row node ks (rowMom row node m) n := by
    rw [Finset.sum_eq_single n (fun i _ hi => by rw [Pi.single_eq_of_ne hi, zero_mul])
      (fun hn => absurd (Finset.mem_range.2 (Nat.lt_succ_self n)) hn), Pi.single_eq_same, one_mul]
  rw [e1]
  have e2 : wordApply row node ks (rowMom row node m) n =
      wordApply row node ks (fun i => node i ^ m) n - m * wordWeight row node (ks ++ [m - 1]) n := by
    rw [← wordApply_one, wordApply_append, ← wordApply_combination]
    congr 1
    funext i
    simp [rowMom, wordApply]
  have h1 := h (ks ++ [m - 1]) (by rw [wordOrder_append, wordOrder, wordOrder]; omega)
  rw [wordOrder_append, wordOrder, wordOrder, show wordOrder ks + (m - 1 + 1 + 0) = wordOrder ks + m by omega] at h1
  have h2 : |wordApply row node ks (fun i => node i ^ m) n -
      m * (node n ^ (wordOrder ks + m) * wordValue (ks ++ [m - 1]))| ≤ ε := by
    rcases List.eq_nil_or_concat ks with rfl | ⟨ls, k, rfl⟩
    · have h3 : (0 : ℝ) < m := by exact_mod_cast hm
      have h4 : ((m - 1 + 1 + 0 : ℕ) : ℝ) = m := by congr 1; omega
      have : wordApply row node [] (fun i => node i ^ m) n -
          m * (node n ^ (wordOrder [] + m) * wordValue ([] ++ [m - 1])) = 0 := by
        simp only [wordApply, wordOrder, List.nil_append, wordValue, zero_add, h4]
        field_simp
        ring
      rw [this, abs_zero]
      exact hε
    · rw [List.concat_eq_append] at ho ⊢
      have h3 := h (ls ++ [k + m]) (by
        rw [wordOrder_append, wordOrder, wordOrder] at ho ⊢
        omega)
      have h4 : wordApply row node (ls ++ [k]) (fun i => node i ^ m) n = wordWeight row node (ls ++ [k + m]) n := by
        rw [← wordApply_one, wordApply_append, wordApply_append]
        congr 1
        funext i
        simp only [wordApply]
        exact Finset.sum_congr rfl fun j _ => by rw [pow_add]; ring
      rw [h4]
      have h5 : wordOrder (ls ++ [k + m]) = wordOrder (ls ++ [k]) + m := by
        simp only [wordOrder_append, wordOrder]
        omega
      rw [h5, wordValue_merge ls k hm] at h3
      refine le_trans (le_of_eq ?_) h3
      congr 1
      ring
  rw [e2]
  have hmp : (m : ℝ) ≤ p := by exact_mod_cast (by omega : m ≤ p)
  set u := wordApply row node ks (fun i => node i ^ m) n
  set v := wordWeight row node (ks ++ [m - 1]) n
  set z := node n ^ (wordOrder ks + m) * wordValue (ks ++ [m - 1])
  have h6 : |u - m * v| ≤ |u - m * z| + m * |v - z| := by
    have : u - m * v = (u - m * z) - m * (v - z) := by ring
    rw [this]
    refine (abs_sub _ _).trans (le_of_eq ?_)
    rw [abs_mul (m : ℝ), abs_of_nonneg (Nat.cast_nonneg (α := ℝ) m)]
  have h7 : m * |v - z| ≤ p * ε := mul_le_mul hmp h1 (abs_nonneg _) (Nat.cast_nonneg p)
  linarith

end

/-! ### Steps -/

/-- A linear equation with the derivatives of its operator, and a solution with its derivatives. -/
structure SmoothLinear (T : ℝ) (f : ℝ → E → E) (A : ℕ → ℝ → E →L[ℝ] E) (G : ℕ → ℝ → E) : Prop where
  smooth : Smooth T G
  operator : Smooth T A
  rate : ∀ t ∈ Icc 0 T, G 1 t = f t (G 0 t)
  linear : ∀ t ∈ Icc 0 T, ∀ y z, f t y - f t z = A 0 t (y - z)

section
variable {T : ℝ} {f : ℝ → E → E} {A : ℕ → ℝ → E →L[ℝ] E} {G : ℕ → ℝ → E} {τ : Tableau} {α : ℝ}

theorem TableauBound.stages (h : TableauBound τ α) : StageBound τ.n τ.row τ.node α :=
  ⟨h.first, h.nodes, h.rows, h.pos⟩

/-- The errors of the states at which evaluations `K` are made, whatever comes of the last of them. -/
theorem stageErrors_of_values (hS : SmoothLinear T f A G) {n : ℕ} {row : ℕ → ℕ → ℝ} {node : ℕ → ℝ}
    (hb : StageBound n row node α) {L : ℝ} {x : ℝ × ℝ}
    (hx : StepIn T x) (hLx : L * α * x.2 ≤ 1 / 2) {K : ℕ → E} (hK : ∀ j < n, K j =
      f (x.1 + node j * x.2) (G 0 x.1 + x.2 • ∑ l ∈ Finset.range j, row j l • K l)) :
    StageErrors T L α A G n row node x fun i =>
      G 0 x.1 + x.2 • ∑ j ∈ Finset.range i, row i j • K j - G 0 (x.1 + node i * x.2) := by
  refine ⟨hb, hx, hLx, fun i hi => ?_⟩
  have h1 : ∀ j ∈ Finset.range i, row i j • K j =
      row i j • A 0 (x.1 + node j * x.2)
        (G 0 x.1 + x.2 • ∑ l ∈ Finset.range j, row j l • K l - G 0 (x.1 + node j * x.2)) +
        row i j • G 1 (x.1 + node j * x.2) := fun j hj => by
    have hj := Finset.mem_range.1 hj
    have ht := hx.node (hb.nodes j (by omega))
    rw [← smul_add, hS.rate _ ht, ← hS.linear _ ht, sub_add_cancel, ← hK j (by omega)]
  rw [Finset.sum_congr rfl h1, Finset.sum_add_distrib, smul_add]
  unfold rowDefect
  abel

/-- What comes of evaluations `K` in a step, for all methods with bounded coefficients at once. -/
theorem linear_values (hS : SmoothLinear T f A G) (hT : 0 ≤ T) {L : ℝ} (hL : ∀ t ∈ Icc 0 T, ‖A 0 t‖ ≤ L)
    (hα : 0 ≤ α) (p : ℕ) : ∃ C, 0 ≤ C ∧ ∀ (n : ℕ) (row : ℕ → ℕ → ℝ) (node : ℕ → ℝ),
      StageBound n row node α → ∀ ε, 0 ≤ ε → LinearOrder n row node p ε → ∀ x, StepIn T x →
      L * α * x.2 ≤ 1 / 2 → ∀ K : ℕ → E, (∀ j < n, K j =
        f (x.1 + node j * x.2) (G 0 x.1 + x.2 • ∑ l ∈ Finset.range j, row j l • K l)) →
      ‖G 0 x.1 + x.2 • ∑ j ∈ Finset.range n, row n j • K j - G 0 (x.1 + node n * x.2)‖ ≤
        C * (ε * x.2 + x.2 ^ (p + 1)) := by
  obtain ⟨C, hC0, hC⟩ := stageErrors_order hS.smooth hS.operator hT hL hα p 1 zero_le_one
  refine ⟨C * (1 + p), by positivity, fun n row node hb ε hε ho x hx hLx K hK => ?_⟩
  have h1 := hC n row node x _ (stageErrors_of_values hS hb hx hLx hK) (Pi.single n 1) ((1 + p) * ε)
    (by positivity) ?_ (meets_of_linearOrder hε ho)
  · rw [Finset.sum_eq_single n (fun i _ hi => by rw [Pi.single_eq_of_ne hi, zero_smul])
      (fun hn => absurd (Finset.mem_range.2 (Nat.lt_succ_self n)) hn), Pi.single_eq_same, one_smul] at h1
    refine h1.trans ?_
    rw [mul_assoc C]
    refine mul_le_mul_of_nonneg_left ?_ hC0
    have := pow_nonneg hx.2.1 (p + 1)
    have : (0 : ℝ) ≤ p * x.2 ^ (p + 1) := by positivity
    linarith
  · rw [Finset.sum_eq_single n (fun i _ hi => by rw [Pi.single_eq_of_ne hi, abs_zero])
      (fun hn => absurd (Finset.mem_range.2 (Nat.lt_succ_self n)) hn), Pi.single_eq_same, abs_one]

/-- The error of one step. -/
theorem linear_step (hS : SmoothLinear T f A G) (hT : 0 ≤ T) {L : ℝ} (hL : ∀ t ∈ Icc 0 T, ‖A 0 t‖ ≤ L)
    (hα : 0 ≤ α) (p : ℕ) : ∃ C, 0 ≤ C ∧ ∀ (τ : Tableau), TableauBound τ α → ∀ ε, 0 ≤ ε →
      LinearOrder τ.n τ.row τ.node p ε → ∀ x, StepIn T x → L * α * x.2 ≤ 1 / 2 →
      ‖rkAdvance τ f x.1 x.2 (G 0 x.1) - G 0 (x.1 + x.2)‖ ≤ C * (ε * x.2 + x.2 ^ (p + 1)) := by
  obtain ⟨C, hC0, hC⟩ := linear_values hS hT hL hα p
  refine ⟨C, hC0, fun τ hτ ε hε ho x hx hLx => ?_⟩
  have h1 := hC τ.n τ.row τ.node hτ.stages ε hε ho x hx hLx
    (rkStages τ f x.1 x.2 (G 0 x.1) (f x.1 (G 0 x.1)) τ.n) fun j hj => by
      rcases j with - | j
      · rw [rkStages_zero, hτ.first]
        simp
      · rw [rkStages_succ τ f _ _ _ _ hj.le]
  rw [show τ.node τ.n = 1 from if_neg (lt_irrefl _), one_mul] at h1
  simp only [show ∀ j, τ.row τ.n j = τ.b j from fun j => if_neg (lt_irrefl _)] at h1
  exact h1

/-- The error of a run when every step has an error of at most `κ` times its size. -/
theorem rkRun_steps {L : ℝ} (hτ : TableauBound τ α) (hL0 : 0 ≤ L)
    (hL : ∀ t ∈ Icc 0 T, ∀ y z, ‖f t y - f t z‖ ≤ L * ‖y - z‖) {Y : ℝ → E} {κ η : ℝ} (hκ : 0 ≤ κ)
    (hη : L * α * η ≤ 1 / 2)
    (hY : ∀ t s, 0 ≤ t → 0 ≤ s → s ≤ η → t + s ≤ T → ‖rkAdvance τ f t s (Y t) - Y (t + s)‖ ≤ κ * s) :
    ∀ (hs : List ℝ) (t : ℝ) (y : E), 0 ≤ t → (∀ s ∈ hs, 0 ≤ s ∧ s ≤ η) → t + hs.sum ≤ T →
      ‖(rkRun τ f hs (t, y)).2 - Y (t + hs.sum)‖ ≤ Real.exp (2 * L * α * hs.sum) *
        (‖y - Y t‖ + κ * hs.sum) := by
  have hLα : 0 ≤ L * α := mul_nonneg hL0 hτ.pos
  intro hs
  induction hs with
  | nil =>
    intro t y _ _ _
    simp [rkRun]
  | cons s hs ih =>
    intro t y ht hst hsum
    rw [List.sum_cons] at hsum ⊢
    have hs0 := hst s List.mem_cons_self
    have hrest : ∀ r ∈ hs, 0 ≤ r ∧ r ≤ η := fun r hr => hst r (List.mem_cons_of_mem _ hr)
    have hsn : 0 ≤ hs.sum := List.sum_nonneg fun r hr => (hrest r hr).1
    have hsm : L * α * s ≤ 1 / 2 := (mul_le_mul_of_nonneg_left hs0.2 hLα).trans hη
    have h1 := ih (t + s) (rkAdvance τ f t s y) (by linarith [hs0.1]) hrest (by linarith)
    rw [rkRun, show t + (s + hs.sum) = t + s + hs.sum by ring]
    refine h1.trans ?_
    have h2 := rkAdvance_stability hτ hL0 hL ht hs0.1 (by linarith) hsm y (Y t)
    have h3 := hY t s ht hs0.1 hs0.2 (by linarith)
    have h4 : ‖rkAdvance τ f t s y - Y (t + s)‖ ≤ (1 + 2 * L * α * s) * ‖y - Y t‖ + κ * s := by
      have := norm_add_le (rkAdvance τ f t s y - rkAdvance τ f t s (Y t))
        (rkAdvance τ f t s (Y t) - Y (t + s))
      rw [sub_add_sub_cancel] at this
      linarith
    have h6 : 1 + 2 * L * α * s ≤ Real.exp (2 * L * α * s) := by
      have := Real.add_one_le_exp (2 * L * α * s)
      linarith
    have h7 : (1 : ℝ) ≤ Real.exp (2 * L * α * s) := Real.one_le_exp (by
      have := mul_nonneg hLα hs0.1
      nlinarith)
    have h8 : 0 ≤ κ * s := mul_nonneg hκ hs0.1
    have h9 : 0 ≤ κ * hs.sum := mul_nonneg hκ hsn
    have h10 : ‖rkAdvance τ f t s y - Y (t + s)‖ + κ * hs.sum ≤
        Real.exp (2 * L * α * s) * (‖y - Y t‖ + κ * (s + hs.sum)) := by
      have := mul_le_mul_of_nonneg_right h6 (norm_nonneg (y - Y t))
      rw [mul_add κ]
      nlinarith
    calc _ ≤ Real.exp (2 * L * α * hs.sum) *
          (Real.exp (2 * L * α * s) * (‖y - Y t‖ + κ * (s + hs.sum))) := by
          gcongr
      _ = _ := by
          rw [← mul_assoc, ← Real.exp_add]
          congr 2
          ring

end

/-- Everything that the order theorem needs, from smooth coefficients. -/
theorem smoothLinear_of_smooth {T : ℝ} {s : Set ℝ} {A : ℝ → E →L[ℝ] E} {g : ℝ → E} {f : ℝ → E → E}
    {Y : ℝ → E} (hs : IsOpen s) (hT : Icc 0 T ⊆ s)
    (hA : ContDiffOn ℝ ∞ A s) (hg : ContDiffOn ℝ ∞ g s)
    (hf : ∀ t ∈ Icc 0 T, ∀ y, f t y = A t y + g t) (hYc : ContinuousOn Y (Icc 0 T))
    (hY : ∀ t ∈ Ico 0 T, HasDerivWithinAt Y (f t (Y t)) (Ici t) t) :
    SmoothLinear T f (fun q => deriv^[q] A)
      fun q t => (derivPair A g q).1 t (Y t) + (derivPair A g q).2 t := by
  have h := linearSolution_of_smooth hs hT hA hg hf hYc hY
  exact ⟨h.smooth, smooth_of_contDiffOn hs hT hA, h.rate, h.linear⟩

end Verif.Lemmas
