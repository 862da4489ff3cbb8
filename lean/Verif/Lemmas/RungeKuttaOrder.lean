import Verif.Lemmas.RungeKutta
import Mathlib.Analysis.Normed.Operator.Mul
import Mathlib.Analysis.Calculus.ContDiff.Deriv
import Mathlib.Analysis.Calculus.ContDiff.Operations
import Mathlib.Analysis.Calculus.Deriv.Comp

/-! Order of explicit Runge-Kutta steps for linear equations with time-dependent operators. -/

namespace Verif.Lemmas

open Set Verif.Model
open scoped ContDiff

variable {E : Type*} [NormedAddCommGroup E] [NormedSpace ℝ E]

/-! ### Quantities that vanish with a power of the step -/

/-- Start and size of a step of length at most one within `[0, T]`. -/
def StepIn (T : ℝ) (x : ℝ × ℝ) : Prop := 0 ≤ x.1 ∧ 0 ≤ x.2 ∧ x.2 ≤ 1 ∧ x.1 + x.2 ≤ T

/-- `F` is of order `n` in the step size, uniformly over all steps. -/
def Small (T : ℝ) (n : ℕ) {G : Type*} [NormedAddCommGroup G] (F : ℝ × ℝ → G) : Prop :=
  ∃ C, ∀ x, StepIn T x → ‖F x‖ ≤ C * x.2 ^ n

section
set_option linter.unusedSectionVars false

variable {G H : Type*} [NormedAddCommGroup G] [NormedSpace ℝ G] [NormedAddCommGroup H] [NormedSpace ℝ H]
  {T : ℝ} {n m : ℕ} {F F' : ℝ × ℝ → G}

theorem Small.congr (h : Small T n F) (he : ∀ x, StepIn T x → F' x = F x) : Small T n F' := by
  obtain ⟨C, hC⟩ := h
  exact ⟨C, fun x hx => by rw [he x hx]; exact hC x hx⟩

theorem Small.zero : Small T n (fun _ => (0 : G)) := ⟨0, fun x _ => by simp⟩

theorem Small.bound (h : Small T n F) : ∃ C, 0 ≤ C ∧ ∀ x, StepIn T x → ‖F x‖ ≤ C * x.2 ^ n := by
  obtain ⟨C, hC⟩ := h
  exact ⟨max C 0, le_max_right _ _, fun x hx => (hC x hx).trans
    (mul_le_mul_of_nonneg_right (le_max_left _ _) (pow_nonneg hx.2.1 n))⟩

theorem Small.add (h : Small T n F) (h' : Small T n F') : Small T n (fun x => F x + F' x) := by
  obtain ⟨C, hC⟩ := h
  obtain ⟨C', hC'⟩ := h'
  exact ⟨C + C', fun x hx => (norm_add_le _ _).trans (by have := hC x hx; have := hC' x hx; linarith)⟩

theorem Small.sub (h : Small T n F) (h' : Small T n F') : Small T n (fun x => F x - F' x) := by
  obtain ⟨C, hC⟩ := h
  obtain ⟨C', hC'⟩ := h'
  exact ⟨C + C', fun x hx => (norm_sub_le _ _).trans (by have := hC x hx; have := hC' x hx; linarith)⟩

theorem Small.mono (h : Small T n F) (hm : m ≤ n) : Small T m F := by
  obtain ⟨C, hC0, hC⟩ := h.bound
  exact ⟨C, fun x hx => (hC x hx).trans
    (mul_le_mul_of_nonneg_left (pow_le_pow_of_le_one hx.2.1 hx.2.2.1 hm) hC0)⟩

theorem Small.smul (h : Small T n F) (a : ℝ) : Small T n (fun x => a • F x) := by
  obtain ⟨C, hC⟩ := h
  refine ⟨|a| * C, fun x hx => ?_⟩
  rw [norm_smul, Real.norm_eq_abs, mul_assoc]
  exact mul_le_mul_of_nonneg_left (hC x hx) (abs_nonneg a)

theorem Small.pow_smul (h : Small T n F) (k : ℕ) : Small T (n + k) (fun x => x.2 ^ k • F x) := by
  obtain ⟨C, hC⟩ := h
  refine ⟨C, fun x hx => ?_⟩
  rw [norm_smul, Real.norm_eq_abs, abs_of_nonneg (pow_nonneg hx.2.1 k), pow_add, ← mul_assoc, mul_comm]
  exact mul_le_mul_of_nonneg_right (hC x hx) (pow_nonneg hx.2.1 k)

theorem Small.step_smul (h : Small T n F) : Small T (n + 1) (fun x => x.2 • F x) := by
  simpa using h.pow_smul 1

theorem Small.sum {ι : Type*} (s : Finset ι) {f : ι → ℝ × ℝ → G} (h : ∀ i ∈ s, Small T n (f i)) :
    Small T n (fun x => ∑ i ∈ s, f i x) := by
  classical
  induction s using Finset.induction_on with
  | empty => simpa using Small.zero
  | insert i s hi ih =>
    simp only [Finset.sum_insert hi]
    exact (h i (Finset.mem_insert_self i s)).add (ih fun j hj => h j (Finset.mem_insert_of_mem hj))

theorem Small.apply {A : ℝ × ℝ → G →L[ℝ] H} (hA : Small T m A) (h : Small T n F) :
    Small T (m + n) (fun x => A x (F x)) := by
  obtain ⟨C, hC0, hC⟩ := hA.bound
  obtain ⟨C', hC'⟩ := h
  refine ⟨C * C', fun x hx => ((A x).le_opNorm _).trans ?_⟩
  calc ‖A x‖ * ‖F x‖ ≤ (C * x.2 ^ m) * (C' * x.2 ^ n) :=
        mul_le_mul (hC x hx) (hC' x hx) (norm_nonneg _) (mul_nonneg hC0 (pow_nonneg hx.2.1 m))
    _ = C * C' * x.2 ^ (m + n) := by ring

/-- A function of the start that is bounded on `[0, T]`. -/
theorem Small.of_start {g : ℝ → G} {B : ℝ} (hg : ∀ t ∈ Icc 0 T, ‖g t‖ ≤ B) :
    Small T 0 (fun x => g x.1) :=
  ⟨B, fun x hx => by
    simpa using hg x.1 ⟨hx.1, by have := hx.2.1; have := hx.2.2.2; linarith⟩⟩
end

/-! ### Taylor expansion along a solution -/

/-- The derivatives of a function on `[0, T]`, from the right. -/
structure Smooth (T : ℝ) (G : ℕ → ℝ → E) : Prop where
  cont : ∀ q, ContinuousOn (G q) (Icc 0 T)
  deriv : ∀ q, ∀ t ∈ Ico 0 T, HasDerivWithinAt (G q) (G (q + 1) t) (Ici t) t

theorem Smooth.shift {T : ℝ} {G : ℕ → ℝ → E} (h : Smooth T G) (m : ℕ) : Smooth T fun q => G (m + q) :=
  ⟨fun _ => h.cont _, fun q t ht => h.deriv (m + q) t ht⟩

theorem Smooth.bounded {T : ℝ} {G : ℕ → ℝ → E} (h : Smooth T G) (q : ℕ) :
    ∃ B, ∀ t ∈ Icc 0 T, ‖G q t‖ ≤ B := isCompact_Icc.exists_bound_of_continuousOn (h.cont q)

theorem Smooth.start {T : ℝ} {G : ℕ → ℝ → E} (h : Smooth T G) (q : ℕ) :
    Small T 0 fun x => G q x.1 := by
  obtain ⟨B, hB⟩ := h.bounded q
  exact Small.of_start hB

/-- Taylor's bound. -/
theorem Smooth.taylor {T : ℝ} {G : ℕ → ℝ → E} (h : Smooth T G) (n : ℕ) {B : ℝ}
    (hB : ∀ t ∈ Icc 0 T, ‖G n t‖ ≤ B) {t s : ℝ} (ht : 0 ≤ t) (hs : 0 ≤ s) (hts : t + s ≤ T) :
    ‖G 0 (t + s) - ∑ q ∈ Finset.range n, (s ^ q / (q.factorial : ℝ)) • G q t‖ ≤ B * s ^ n := by
  induction n generalizing G s with
  | zero => simpa using hB (t + s) ⟨by linarith, hts⟩
  | succ n ih =>
    set F : ℝ → E := fun r => G 0 (t + r) -
      ∑ q ∈ Finset.range (n + 1), (r ^ q / (q.factorial : ℝ)) • G q t with hF
    set F' : ℝ → E := fun r => G 1 (t + r) -
      ∑ q ∈ Finset.range n, (r ^ q / (q.factorial : ℝ)) • G (q + 1) t with hF'
    have hsub : MapsTo (fun r => t + r) (Icc 0 s) (Icc 0 T) := fun r hr =>
      ⟨by have := hr.1; linarith, by have := hr.2; linarith⟩
    have hc : ContinuousOn F (Icc 0 s) := by
      refine ((h.cont 0).comp (by fun_prop) hsub).sub ?_
      fun_prop
    have hd : ∀ r ∈ Ico 0 s, HasDerivWithinAt F (F' r) (Ici r) r := by
      intro r hr
      refine HasDerivWithinAt.sub ?_ ?_
      · have h1 := h.deriv 0 (t + r) ⟨by have := hr.1; linarith, by have := hr.2; linarith⟩
        have h2 : HasDerivWithinAt (fun r : ℝ => t + r) 1 (Ici r) r :=
          (hasDerivWithinAt_id r _).const_add t
        have := h1.scomp r h2 fun z hz => by
          have : r ≤ z := hz
          show t + r ≤ t + z
          linarith
        rw [one_smul] at this
        exact this
      · have : ∀ q ∈ Finset.range (n + 1), HasDerivWithinAt
            (fun r : ℝ => (r ^ q / (q.factorial : ℝ)) • G q t)
            (((q : ℝ) * r ^ (q - 1) / (q.factorial : ℝ)) • G q t) (Ici r) r := fun q _ =>
          (((hasDerivAt_pow q r).div_const _).hasDerivWithinAt).smul_const _
        refine (HasDerivWithinAt.fun_sum this).congr_deriv ?_
        rw [Finset.sum_range_succ', Nat.cast_zero, zero_mul, zero_div, zero_smul, add_zero]
        refine Finset.sum_congr rfl fun q _ => ?_
        congr 1
        rw [Nat.add_sub_cancel, Nat.factorial_succ]
        push_cast
        have : (q.factorial : ℝ) ≠ 0 := by exact_mod_cast q.factorial_ne_zero
        field_simp
    have hb : ∀ r ∈ Ico 0 s, ‖F' r‖ ≤ B * s ^ n := by
      intro r hr
      have h1 := ih (G := fun q => G (q + 1))
        ⟨fun _ => h.cont _, fun q t ht => h.deriv (q + 1) t ht⟩ (s := r)
        (fun t ht => hB t ht) hr.1 (by have := hr.2; linarith)
      refine h1.trans ?_
      have hB0 : 0 ≤ B := (norm_nonneg _).trans (hB t ⟨ht, by linarith⟩)
      have := hr.1
      have := hr.2.le
      gcongr
    have h0 : F 0 = 0 := by
      rw [hF]
      simp only [Finset.sum_range_succ', add_zero]
      simp
    have := norm_image_sub_le_of_norm_deriv_right_le_segment hc hd hb s ⟨hs, le_rfl⟩
    rw [h0, sub_zero, sub_zero] at this
    refine this.trans (le_of_eq ?_)
    ring

/-- Taylor expansion at a node of a step. -/
theorem Smooth.small {T : ℝ} {G : ℕ → ℝ → E} (h : Smooth T G) (n : ℕ) {c : ℝ} (hc : c ∈ Icc (0 : ℝ) 1) :
    Small T n fun x => G 0 (x.1 + c * x.2) -
      ∑ q ∈ Finset.range n, ((c * x.2) ^ q / (q.factorial : ℝ)) • G q x.1 := by
  obtain ⟨B, hB⟩ := h.bounded n
  refine ⟨B, fun x hx => ?_⟩
  have h1 : c * x.2 ≤ x.2 := mul_le_of_le_one_left hx.2.1 hc.2
  have h0 : 0 ≤ c * x.2 := mul_nonneg hc.1 hx.2.1
  have hB0 : 0 ≤ B := (norm_nonneg _).trans (hB x.1 ⟨hx.1, by
    have := hx.2.1; have := hx.2.2.2; linarith⟩)
  exact (h.taylor n hB hx.1 h0 (by have := hx.2.2.2; linarith)).trans (by gcongr)

/-! ### Defects of the stages -/

/-- The moment conditions of a row: zero up to `q` if the row integrates powers below `q` exactly. -/
noncomputable def rowMoment (τ : Tableau) (q i : ℕ) : ℝ :=
  τ.node i ^ q - q * ∑ j ∈ Finset.range i, τ.row i j * τ.node j ^ (q - 1)

/-- The defect of the exact solution in a stage. -/
noncomputable def defect (τ : Tableau) (G : ℕ → ℝ → E) (i : ℕ) (x : ℝ × ℝ) : E :=
  G 0 (x.1 + τ.node i * x.2) - G 0 x.1 -
    x.2 • ∑ j ∈ Finset.range i, τ.row i j • G 1 (x.1 + τ.node j * x.2)

theorem defect_expansion {τ : Tableau} (hτ : ∀ i ≤ τ.n, 0 ≤ τ.node i ∧ τ.node i ≤ 1) {T : ℝ}
    {G : ℕ → ℝ → E} (h : Smooth T G) (n : ℕ) {i : ℕ} (hi : i ≤ τ.n) :
    Small T (n + 1) fun x => defect τ G i x - ∑ q ∈ Finset.range n,
      (x.2 ^ (q + 1) * (rowMoment τ (q + 1) i / ((q + 1).factorial : ℝ))) • G (q + 1) x.1 := by
  have h0 := h.small (n + 1) (hτ i hi)
  have h1 : ∀ j ∈ Finset.range i, Small T n fun x => τ.row i j • (G 1 (x.1 + τ.node j * x.2) -
      ∑ q ∈ Finset.range n, ((τ.node j * x.2) ^ q / (q.factorial : ℝ)) • G (1 + q) x.1) := fun j hj =>
    Small.smul ((h.shift 1).small n (hτ j (by have := Finset.mem_range.1 hj; omega))) _
  refine (h0.sub (Small.sum _ h1).step_smul).congr fun x _ => ?_
  unfold defect
  simp only [smul_sub, Finset.sum_sub_distrib]
  rw [Finset.sum_range_succ' (fun q => ((τ.node i * x.2) ^ q / (q.factorial : ℝ)) • G q x.1)]
  simp only [pow_zero, Nat.factorial_zero, Nat.cast_one, div_one, one_smul]
  have key : ∑ q ∈ Finset.range n,
      (x.2 ^ (q + 1) * (rowMoment τ (q + 1) i / ((q + 1).factorial : ℝ))) • G (q + 1) x.1 =
      ∑ q ∈ Finset.range n, ((τ.node i * x.2) ^ (q + 1) / ((q + 1).factorial : ℝ)) • G (q + 1) x.1 -
      x.2 • ∑ j ∈ Finset.range i, τ.row i j • ∑ q ∈ Finset.range n,
        ((τ.node j * x.2) ^ q / (q.factorial : ℝ)) • G (1 + q) x.1 := by
    have e : x.2 • ∑ j ∈ Finset.range i, τ.row i j • ∑ q ∈ Finset.range n,
        ((τ.node j * x.2) ^ q / (q.factorial : ℝ)) • G (1 + q) x.1 =
        ∑ q ∈ Finset.range n, (x.2 ^ (q + 1) / (q.factorial : ℝ) *
          ∑ j ∈ Finset.range i, τ.row i j * τ.node j ^ q) • G (q + 1) x.1 := by
      simp only [Finset.smul_sum, smul_smul]
      rw [Finset.sum_comm]
      refine Finset.sum_congr rfl fun q _ => ?_
      rw [Finset.mul_sum, Finset.sum_smul, add_comm 1 q]
      refine Finset.sum_congr rfl fun j _ => ?_
      congr 1
      ring
    rw [e, ← Finset.sum_sub_distrib]
    refine Finset.sum_congr rfl fun q _ => ?_
    rw [← sub_smul]
    congr 1
    unfold rowMoment
    rw [Nat.add_sub_cancel, Nat.factorial_succ]
    push_cast
    have : (q.factorial : ℝ) ≠ 0 := by exact_mod_cast q.factorial_ne_zero
    rw [mul_pow]
    field_simp
  rw [key]
  simp only [Finset.smul_sum]
  abel

/-- A linear equation with its operator, and a solution with its derivatives. -/
structure LinearSolution (T : ℝ) (f : ℝ → E → E) (A : ℝ → E →L[ℝ] E) (A' : ℝ → E →L[ℝ] E)
    (G : ℕ → ℝ → E) : Prop where
  smooth : Smooth T G
  rate : ∀ t ∈ Icc 0 T, G 1 t = f t (G 0 t)
  linear : ∀ t ∈ Icc 0 T, ∀ y z, f t y - f t z = A t (y - z)
  start : Small T 0 fun x => A x.1
  start' : Small T 0 fun x => A' x.1
  expand : ∀ c ∈ Icc (0 : ℝ) 1, Small T 2 fun x => A (x.1 + c * x.2) - A x.1 - (c * x.2) • A' x.1

/-- Error of the rate in a stage, from the exact state. -/
noncomputable def stageError (τ : Tableau) (f : ℝ → E → E) (G : ℕ → ℝ → E) (i : ℕ) (x : ℝ × ℝ) : E :=
  rkStages τ f x.1 x.2 (G 0 x.1) (f x.1 (G 0 x.1)) τ.n i - G 1 (x.1 + τ.node i * x.2)

section
variable {T : ℝ} {f : ℝ → E → E} {A A' : ℝ → E →L[ℝ] E} {G : ℕ → ℝ → E} {τ : Tableau}

theorem StepIn.node {x : ℝ × ℝ} (hx : StepIn T x) {c : ℝ} (hc : 0 ≤ c ∧ c ≤ 1) :
    x.1 + c * x.2 ∈ Icc 0 T := by
  have h1 : c * x.2 ≤ x.2 := mul_le_of_le_one_left hx.2.1 hc.2
  have h0 : 0 ≤ c * x.2 := mul_nonneg hc.1 hx.2.1
  have := hx.1
  have := hx.2.2.2
  exact ⟨by linarith, by linarith⟩

theorem stageError_zero (hL : LinearSolution T f A A' G) (h0 : τ.node 0 = 0) {x : ℝ × ℝ}
    (hx : StepIn T x) : stageError τ f G 0 x = 0 := by
  unfold stageError
  rw [rkStages_zero, h0, zero_mul, add_zero, hL.rate x.1 ⟨hx.1, by
    have := hx.2.1; have := hx.2.2.2; linarith⟩, sub_self]

theorem stageError_succ (hL : LinearSolution T f A A' G)
    (hτ : ∀ i ≤ τ.n, 0 ≤ τ.node i ∧ τ.node i ≤ 1) {i : ℕ} (hi : i + 1 ≤ τ.n) {x : ℝ × ℝ}
    (hx : StepIn T x) : stageError τ f G (i + 1) x = A (x.1 + τ.node (i + 1) * x.2)
      (x.2 • ∑ j ∈ Finset.range (i + 1), τ.row (i + 1) j • stageError τ f G j x -
        defect τ G (i + 1) x) := by
  have ht := hx.node (hτ (i + 1) hi)
  unfold stageError defect
  rw [rkStages_succ τ f _ _ _ _ hi, hL.rate _ ht, hL.linear _ ht]
  congr 1
  simp only [smul_sub, Finset.sum_sub_distrib]
  abel

theorem advance_error (f : ℝ → E → E) (G : ℕ → ℝ → E) (x : ℝ × ℝ) :
    rkAdvance τ f x.1 x.2 (G 0 x.1) - G 0 (x.1 + x.2) =
      x.2 • ∑ j ∈ Finset.range τ.n, τ.b j • stageError τ f G j x - defect τ G τ.n x := by
  have e1 : τ.node τ.n = 1 := if_neg (lt_irrefl _)
  have e2 : ∀ j, τ.row τ.n j = τ.b j := fun j => if_neg (lt_irrefl _)
  unfold rkAdvance stageError defect
  rw [e1, one_mul]
  simp only [smul_sub, Finset.sum_sub_distrib, e2]
  abel

/-- Application of the operator at a node to a quantity of which two terms are known. -/
theorem LinearSolution.apply_node (hL : LinearSolution T f A A' G) {c : ℝ} (hc : c ∈ Icc (0 : ℝ) 1)
    {k : ℕ} {v p q : ℝ × ℝ → E} (hp : Small T 0 p) (hq : Small T 0 q)
    (hv : Small T (k + 2) fun x => v x - (x.2 ^ k • p x + x.2 ^ (k + 1) • q x)) :
    Small T (k + 2) fun x => A (x.1 + c * x.2) (v x) -
      (x.2 ^ k • A x.1 (p x) + x.2 ^ (k + 1) • (c • A' x.1 (p x) + A x.1 (q x))) := by
  have hA2 := hL.expand c hc
  have hA1 : Small T 1 fun x : ℝ × ℝ => A (x.1 + c * x.2) - A x.1 := by
    have h1 : Small T 1 fun x : ℝ × ℝ => x.2 • (c • A' x.1) := (hL.start'.smul c).step_smul
    refine ((hA2.mono one_le_two).add h1).congr fun x _ => ?_
    rw [smul_smul, mul_comm x.2 c]
    abel
  have hA0 : Small T 0 fun x : ℝ × ℝ => A (x.1 + c * x.2) := by
    refine ((hA1.mono zero_le_one).add hL.start).congr fun x _ => ?_
    abel
  have t1 : Small T (k + 2) fun x => A (x.1 + c * x.2)
      (v x - (x.2 ^ k • p x + x.2 ^ (k + 1) • q x)) := by
    simpa using hA0.apply hv
  have t2 : Small T (k + 2) fun x : ℝ × ℝ => x.2 ^ k •
      (A (x.1 + c * x.2) - A x.1 - (c * x.2) • A' x.1) (p x) :=
    ((hA2.apply hp).pow_smul k).mono (by omega)
  have t3 : Small T (k + 2) fun x : ℝ × ℝ => x.2 ^ (k + 1) • (A (x.1 + c * x.2) - A x.1) (q x) :=
    ((hA1.apply hq).pow_smul (k + 1)).mono (by omega)
  refine ((t1.add t2).add t3).congr fun x _ => ?_
  simp only [map_sub, map_add, map_smul, sub_apply, smul_apply]
  module

/-! ### Third order -/

/-- Enough for third order on linear equations. -/
structure ThirdOrder (τ : Tableau) : Prop where
  first : τ.node 0 = 0
  nodes : ∀ i ≤ τ.n, 0 ≤ τ.node i ∧ τ.node i ≤ 1
  rows : ∀ i ≤ τ.n, rowMoment τ 1 i = 0
  weights : ∀ q < 3, rowMoment τ (q + 1) τ.n = 0
  second : ∑ i ∈ Finset.range τ.n, τ.b i * rowMoment τ 2 i = 0

theorem final_defect (hτ : ∀ i ≤ τ.n, 0 ≤ τ.node i ∧ τ.node i ≤ 1) (h : Smooth T G) {n : ℕ}
    (hw : ∀ q < n, rowMoment τ (q + 1) τ.n = 0) : Small T (n + 1) (defect τ G τ.n) := by
  refine (defect_expansion hτ h n le_rfl).congr fun x _ => ?_
  rw [Finset.sum_eq_zero fun q hq => by
    rw [hw q (Finset.mem_range.1 hq), zero_div, mul_zero, zero_smul], sub_zero]

theorem third_order_stage (hτ : ThirdOrder τ) (hL : LinearSolution T f A A' G) (i : ℕ) (hi : i ≤ τ.n) :
    Small T 3 fun x => stageError τ f G i x + (x.2 ^ 2 * (rowMoment τ 2 i / 2)) • A x.1 (G 2 x.1) := by
  induction i using Nat.strong_induction_on with
  | _ i ih =>
    rcases i with - | i
    · refine Small.zero.congr fun x hx => ?_
      rw [stageError_zero hL hτ.first hx]
      simp [rowMoment, hτ.first]
    have hG := hL.smooth.start 2
    have hAG : Small T 0 fun x => A x.1 (G 2 x.1) := hL.start.apply hG
    have he : ∀ j ∈ Finset.range (i + 1), Small T 2 fun x => τ.row (i + 1) j • stageError τ f G j x := by
      intro j hj
      have hj := Finset.mem_range.1 hj
      refine Small.smul (((ih j hj (by omega)).mono (by norm_num)).sub
        ((hAG.pow_smul 2).smul (rowMoment τ 2 j / 2)) |>.congr fun x _ => ?_) _
      module
    have hd := defect_expansion hτ.nodes hL.smooth 2 hi
    have hv := (Small.sum _ he).step_smul.sub hd
    have := hL.apply_node (hτ.nodes (i + 1) hi) (k := 1)
      (v := fun x => x.2 • ∑ j ∈ Finset.range (i + 1), τ.row (i + 1) j • stageError τ f G j x -
        defect τ G (i + 1) x) (p := fun _ => 0)
      (q := fun x => (-(rowMoment τ 2 (i + 1) / 2)) • G 2 x.1) Small.zero (hG.smul _)
      (hv.congr fun x _ => by
        simp only [Finset.sum_range_succ, Finset.sum_range_zero, hτ.rows (i + 1) hi]
        norm_num
        module)
    refine this.congr fun x hx => ?_
    rw [stageError_succ hL hτ.nodes hi hx]
    simp only [map_zero, smul_zero, map_smul]
    module

theorem third_order_step (hτ : ThirdOrder τ) (hL : LinearSolution T f A A' G) :
    Small T 4 fun x => rkAdvance τ f x.1 x.2 (G 0 x.1) - G 0 (x.1 + x.2) := by
  have h1 : ∀ j ∈ Finset.range τ.n, Small T 3 fun x => τ.b j • (stageError τ f G j x +
      (x.2 ^ 2 * (rowMoment τ 2 j / 2)) • A x.1 (G 2 x.1)) := fun j hj =>
    Small.smul (third_order_stage hτ hL j (Finset.mem_range.1 hj).le) _
  refine ((Small.sum _ h1).step_smul.sub (final_defect hτ.nodes hL.smooth hτ.weights)).congr
    fun x _ => ?_
  rw [advance_error]
  congr 2
  simp only [smul_add, Finset.sum_add_distrib, smul_smul]
  rw [← Finset.sum_smul]
  have : ∑ i ∈ Finset.range τ.n, τ.b i * (x.2 ^ 2 * (rowMoment τ 2 i / 2)) =
      x.2 ^ 2 / 2 * ∑ i ∈ Finset.range τ.n, τ.b i * rowMoment τ 2 i := by
    rw [Finset.mul_sum]
    exact Finset.sum_congr rfl fun i _ => by ring
  rw [this, hτ.second, mul_zero, zero_smul, add_zero]

/-! ### Fifth order -/

/-- Weight of the first inner stage, from the third stage on. -/
noncomputable def stageOne (τ : Tableau) (i : ℕ) : ℝ := if i < 2 then 0 else τ.row i 1

/-- The same, through another stage. -/
noncomputable def stageOneTwice (τ : Tableau) (i : ℕ) : ℝ :=
  ∑ j ∈ Finset.range i, τ.row i j * stageOne τ j

/-- Fourth moment condition, from the third stage on. -/
noncomputable def fourthMoment (τ : Tableau) (i : ℕ) : ℝ := if i < 2 then 0 else rowMoment τ 4 i

/-- Enough for fifth order on linear equations; the conditions of Dormand and Prince. -/
structure FifthOrder (τ : Tableau) : Prop where
  first : τ.node 0 = 0
  nodes : ∀ i ≤ τ.n, 0 ≤ τ.node i ∧ τ.node i ≤ 1
  rows : ∀ i ≤ τ.n, rowMoment τ 1 i = 0
  rows2 : ∀ i ≤ τ.n, 2 ≤ i → rowMoment τ 2 i = 0 ∧ rowMoment τ 3 i = 0
  weights : ∀ q < 5, rowMoment τ (q + 1) τ.n = 0
  weightOne : τ.b 1 = 0
  one : ∑ i ∈ Finset.range τ.n, τ.b i * stageOne τ i = 0
  oneNode : ∑ i ∈ Finset.range τ.n, τ.b i * (τ.node i * stageOne τ i) = 0
  oneTwice : ∑ i ∈ Finset.range τ.n, τ.b i * stageOneTwice τ i = 0
  fourth : ∑ i ∈ Finset.range τ.n, τ.b i * fourthMoment τ i = 0

/-- The two leading terms of the error of the first inner stage. -/
noncomputable def leadOne (τ : Tableau) (A : ℝ → E →L[ℝ] E) (G : ℕ → ℝ → E) (x : ℝ × ℝ) : E :=
  (-(rowMoment τ 2 1 / 2)) • A x.1 (G 2 x.1)

/-- See `leadOne`. -/
noncomputable def leadTwo (τ : Tableau) (A A' : ℝ → E →L[ℝ] E) (G : ℕ → ℝ → E) (x : ℝ × ℝ) : E :=
  τ.node 1 • A' x.1 ((-(rowMoment τ 2 1 / 2)) • G 2 x.1) + A x.1 ((-(rowMoment τ 3 1 / 6)) • G 3 x.1)

theorem fifth_order_first (hτ : FifthOrder τ) (hL : LinearSolution T f A A' G) (h1 : 1 ≤ τ.n) :
    Small T 4 fun x => stageError τ f G 1 x -
      (x.2 ^ 2 • leadOne τ A G x + x.2 ^ 3 • leadTwo τ A A' G x) := by
  have hd := defect_expansion hτ.nodes hL.smooth 3 h1
  have := hL.apply_node (hτ.nodes 1 h1) (k := 2) (v := fun x => -defect τ G 1 x)
    (p := fun x => (-(rowMoment τ 2 1 / 2)) • G 2 x.1)
    (q := fun x => (-(rowMoment τ 3 1 / 6)) • G 3 x.1) ((hL.smooth.start 2).smul _)
    ((hL.smooth.start 3).smul _) ((Small.zero.sub hd).congr fun x _ => by
      simp only [Finset.sum_range_succ, Finset.sum_range_zero, hτ.rows 1 h1]
      norm_num [Nat.factorial]
      module)
  refine this.congr fun x hx => ?_
  rw [stageError_succ hL hτ.nodes h1 hx, leadOne, leadTwo]
  simp only [Finset.sum_range_one, stageError_zero hL hτ.first hx, smul_zero, zero_sub, zero_add,
    map_smul]

theorem fifth_order_stage (hτ : FifthOrder τ) (hL : LinearSolution T f A A' G) (i : ℕ) (hi : i ≤ τ.n)
    (h1 : i ≠ 1) : Small T 5 fun x => stageError τ f G i x -
      (x.2 ^ 3 • (stageOne τ i • A x.1 (leadOne τ A G x)) +
        x.2 ^ 4 • ((τ.node i * stageOne τ i) • A' x.1 (leadOne τ A G x) +
          stageOne τ i • A x.1 (leadTwo τ A A' G x) +
          stageOneTwice τ i • A x.1 (A x.1 (leadOne τ A G x)) -
          (fourthMoment τ i / 24) • A x.1 (G 4 x.1))) := by
  induction i using Nat.strong_induction_on with
  | _ i ih =>
    rcases i with - | i
    · refine Small.zero.congr fun x hx => ?_
      rw [stageError_zero hL hτ.first hx]
      simp [stageOne, stageOneTwice, fourthMoment]
    have hi2 : 2 ≤ i + 1 := by omega
    have s1 : stageOne τ (i + 1) = τ.row (i + 1) 1 := if_neg (by omega)
    have s2 : fourthMoment τ (i + 1) = rowMoment τ 4 (i + 1) := if_neg (by omega)
    have hl1 : Small T 0 (leadOne τ A G) := (hL.start.apply (hL.smooth.start 2)).smul _
    have hl2 : Small T 0 (leadTwo τ A A' G) :=
      ((hL.start'.apply ((hL.smooth.start 2).smul _)).smul _).add
        (hL.start.apply ((hL.smooth.start 3).smul _))
    have hAl1 : Small T 0 fun x => A x.1 (leadOne τ A G x) := hL.start.apply hl1
    have hAl2 : Small T 0 fun x => A x.1 (leadTwo τ A A' G x) := hL.start.apply hl2
    have hA'l1 : Small T 0 fun x => A' x.1 (leadOne τ A G x) := hL.start'.apply hl1
    have hAAl1 : Small T 0 fun x => A x.1 (A x.1 (leadOne τ A G x)) := hL.start.apply hAl1
    have hAG : Small T 0 fun x => A x.1 (G 4 x.1) := hL.start.apply (hL.smooth.start 4)
    have he : ∀ j ∈ Finset.range (i + 1), Small T 4 fun x => τ.row (i + 1) j • (stageError τ f G j x -
        (x.2 ^ 3 • (stageOne τ j • A x.1 (leadOne τ A G x)) +
          (if j = 1 then 1 else (0 : ℝ)) •
            (x.2 ^ 2 • leadOne τ A G x + x.2 ^ 3 • leadTwo τ A A' G x))) := by
      intro j hj
      have hj := Finset.mem_range.1 hj
      refine Small.smul ?_ _
      by_cases hj1 : j = 1
      · subst hj1
        refine (fifth_order_first hτ hL (by omega)).congr fun x _ => ?_
        rw [if_pos rfl, show stageOne τ 1 = 0 from if_pos (by norm_num)]
        module
      · have h2 := ((((hA'l1.smul (τ.node j * stageOne τ j)).add (hAl2.smul (stageOne τ j))).add
          (hAAl1.smul (stageOneTwice τ j))).sub (hAG.smul (fourthMoment τ j / 24))).pow_smul 4
        refine (((ih j hj (by omega) hj1).mono (show 4 ≤ 5 by norm_num)).add h2).congr fun x _ => ?_
        rw [if_neg hj1]
        module
    have hd := defect_expansion hτ.nodes hL.smooth 4 hi
    have hv := (Small.sum _ he).step_smul.sub hd
    obtain ⟨r2, r3⟩ := hτ.rows2 (i + 1) hi hi2
    have := hL.apply_node (hτ.nodes (i + 1) hi) (k := 3)
      (v := fun x => x.2 • ∑ j ∈ Finset.range (i + 1), τ.row (i + 1) j • stageError τ f G j x -
        defect τ G (i + 1) x) (p := fun x => stageOne τ (i + 1) • leadOne τ A G x)
      (q := fun x => stageOne τ (i + 1) • leadTwo τ A A' G x +
        stageOneTwice τ (i + 1) • A x.1 (leadOne τ A G x) - (fourthMoment τ (i + 1) / 24) • G 4 x.1)
      (hl1.smul _) (((hl2.smul _).add (hAl1.smul _)).sub ((hL.smooth.start 4).smul _))
      (hv.congr fun x _ => by
        have e1 : ∑ j ∈ Finset.range (i + 1), τ.row (i + 1) j • (stageError τ f G j x -
            (x.2 ^ 3 • (stageOne τ j • A x.1 (leadOne τ A G x)) +
            (if j = 1 then 1 else (0 : ℝ)) •
              (x.2 ^ 2 • leadOne τ A G x + x.2 ^ 3 • leadTwo τ A A' G x))) =
            ∑ j ∈ Finset.range (i + 1), τ.row (i + 1) j • stageError τ f G j x -
            (x.2 ^ 3 • (stageOneTwice τ (i + 1) • A x.1 (leadOne τ A G x)) +
              stageOne τ (i + 1) • (x.2 ^ 2 • leadOne τ A G x + x.2 ^ 3 • leadTwo τ A A' G x)) := by
          simp only [smul_sub, smul_add (τ.row _ _), Finset.sum_sub_distrib, Finset.sum_add_distrib]
          congr 2
          · unfold stageOneTwice
            rw [Finset.sum_smul, Finset.smul_sum]
            exact Finset.sum_congr rfl fun j _ => by module
          · rw [s1, Finset.sum_eq_single 1 (fun j _ hj => by rw [if_neg hj, zero_smul, smul_zero])
              (fun h => absurd (Finset.mem_range.2 (by omega)) h), if_pos rfl, one_smul]
        rw [e1]
        simp only [Finset.sum_range_succ, Finset.sum_range_zero, hτ.rows (i + 1) hi, r2, r3, s2]
        norm_num [Nat.factorial]
        module)
    refine this.congr fun x hx => ?_
    rw [stageError_succ hL hτ.nodes hi hx]
    simp only [map_add, map_sub, map_smul]
    module

theorem fifth_order_step (hτ : FifthOrder τ) (hL : LinearSolution T f A A' G) :
    Small T 6 fun x => rkAdvance τ f x.1 x.2 (G 0 x.1) - G 0 (x.1 + x.2) := by
  set R : ℕ → ℝ × ℝ → E := fun i x => x.2 ^ 3 • (stageOne τ i • A x.1 (leadOne τ A G x)) +
        x.2 ^ 4 • ((τ.node i * stageOne τ i) • A' x.1 (leadOne τ A G x) +
          stageOne τ i • A x.1 (leadTwo τ A A' G x) +
          stageOneTwice τ i • A x.1 (A x.1 (leadOne τ A G x)) -
          (fourthMoment τ i / 24) • A x.1 (G 4 x.1)) with hR
  have h1 : ∀ j ∈ Finset.range τ.n, Small T 5 fun x => τ.b j • (stageError τ f G j x - R j x) := by
    intro j hj
    by_cases hj1 : j = 1
    · refine Small.zero.congr fun x _ => ?_
      rw [hj1, hτ.weightOne, zero_smul]
    · exact Small.smul (fifth_order_stage hτ hL j (Finset.mem_range.1 hj).le hj1) _
  refine ((Small.sum _ h1).step_smul.sub (final_defect hτ.nodes hL.smooth hτ.weights)).congr
    fun x _ => ?_
  rw [advance_error]
  congr 2
  simp only [smul_sub, Finset.sum_sub_distrib]
  have e : ∑ j ∈ Finset.range τ.n, τ.b j • R j x =
      x.2 ^ 3 • ((∑ j ∈ Finset.range τ.n, τ.b j * stageOne τ j) • A x.1 (leadOne τ A G x)) +
        x.2 ^ 4 • ((∑ j ∈ Finset.range τ.n, τ.b j * (τ.node j * stageOne τ j)) •
            A' x.1 (leadOne τ A G x) +
          (∑ j ∈ Finset.range τ.n, τ.b j * stageOne τ j) • A x.1 (leadTwo τ A A' G x) +
          (∑ j ∈ Finset.range τ.n, τ.b j * stageOneTwice τ j) • A x.1 (A x.1 (leadOne τ A G x)) -
          ((∑ j ∈ Finset.range τ.n, τ.b j * fourthMoment τ j) / 24) • A x.1 (G 4 x.1)) := by
    simp only [Finset.sum_smul, Finset.smul_sum, div_eq_mul_inv, Finset.sum_mul, ← Finset.sum_add_distrib,
      ← Finset.sum_sub_distrib, hR]
    exact Finset.sum_congr rfl fun j _ => by module
  rw [e, hτ.one, hτ.oneNode, hτ.oneTwice, hτ.fourth]
  simp

/-! ### Whole runs -/

theorem rkStages_stability {α L : ℝ} (hτ : TableauBound τ α) (hL0 : 0 ≤ L)
    (hL : ∀ t ∈ Icc 0 T, ∀ y z, ‖f t y - f t z‖ ≤ L * ‖y - z‖) {t h : ℝ} (ht : 0 ≤ t)
    (hh : 0 ≤ h) (hT : t + h ≤ T) (hα : L * α * h ≤ 1 / 2) (y z : E) (i : ℕ) (hi : i ≤ τ.n) :
    ‖rkStages τ f t h y (f t y) τ.n i - rkStages τ f t h z (f t z) τ.n i‖ ≤ 2 * L * ‖y - z‖ := by
  have hd := norm_nonneg (y - z)
  induction i using Nat.strong_induction_on with
  | _ i ih =>
    rcases i with - | i
    · rw [rkStages_zero, rkStages_zero]
      refine (hL t ⟨ht, by linarith⟩ y z).trans ?_
      nlinarith
    have hn := hτ.nodes (i + 1) hi
    have hmem : t + τ.node (i + 1) * h ∈ Icc 0 T := by
      have h1 : τ.node (i + 1) * h ≤ h := mul_le_of_le_one_left hh hn.2
      have h0 : 0 ≤ τ.node (i + 1) * h := mul_nonneg hn.1 hh
      exact ⟨by linarith, by linarith⟩
    rw [rkStages_succ τ f _ _ _ _ hi, rkStages_succ τ f _ _ _ _ hi]
    refine (hL _ hmem _ _).trans ?_
    have hb : ‖∑ j ∈ Finset.range (i + 1), τ.row (i + 1) j •
        (rkStages τ f t h y (f t y) τ.n j - rkStages τ f t h z (f t z) τ.n j)‖ ≤
        α * (2 * L * ‖y - z‖) := by
      refine (norm_sum_le _ _).trans ?_
      calc _ ≤ ∑ j ∈ Finset.range (i + 1), |τ.row (i + 1) j| * (2 * L * ‖y - z‖) :=
            Finset.sum_le_sum fun j hj => by
              have hj := Finset.mem_range.1 hj
              rw [norm_smul, Real.norm_eq_abs]
              exact mul_le_mul_of_nonneg_left (ih j hj (by omega)) (abs_nonneg _)
        _ ≤ _ := by
            rw [← Finset.sum_mul]
            exact mul_le_mul_of_nonneg_right (hτ.rows (i + 1) hi) (by positivity)
    have e : y + h • ∑ j ∈ Finset.range (i + 1), τ.row (i + 1) j •
          rkStages τ f t h y (f t y) τ.n j - (z + h • ∑ j ∈ Finset.range (i + 1), τ.row (i + 1) j •
          rkStages τ f t h z (f t z) τ.n j) = (y - z) + h • ∑ j ∈ Finset.range (i + 1), τ.row (i + 1) j •
        (rkStages τ f t h y (f t y) τ.n j - rkStages τ f t h z (f t z) τ.n j) := by
      simp only [smul_sub, Finset.sum_sub_distrib]
      abel
    rw [e]
    have h2 := norm_add_le (y - z) (h • ∑ j ∈ Finset.range (i + 1), τ.row (i + 1) j •
        (rkStages τ f t h y (f t y) τ.n j - rkStages τ f t h z (f t z) τ.n j))
    rw [norm_smul, Real.norm_eq_abs, abs_of_nonneg hh] at h2
    have h3 : h * ‖∑ j ∈ Finset.range (i + 1), τ.row (i + 1) j •
        (rkStages τ f t h y (f t y) τ.n j - rkStages τ f t h z (f t z) τ.n j)‖ ≤ ‖y - z‖ := by
      calc _ ≤ h * (α * (2 * L * ‖y - z‖)) := mul_le_mul_of_nonneg_left hb hh
        _ = 2 * (L * α * h) * ‖y - z‖ := by ring
        _ ≤ 1 * ‖y - z‖ := mul_le_mul_of_nonneg_right (by linarith) hd
        _ = _ := one_mul _
    calc L * _ ≤ L * (2 * ‖y - z‖) := mul_le_mul_of_nonneg_left (by linarith) hL0
      _ = _ := by ring

theorem rkAdvance_stability {α L : ℝ} (hτ : TableauBound τ α) (hL0 : 0 ≤ L)
    (hL : ∀ t ∈ Icc 0 T, ∀ y z, ‖f t y - f t z‖ ≤ L * ‖y - z‖) {t h : ℝ} (ht : 0 ≤ t)
    (hh : 0 ≤ h) (hT : t + h ≤ T) (hα : L * α * h ≤ 1 / 2) (y z : E) :
    ‖rkAdvance τ f t h y - rkAdvance τ f t h z‖ ≤ (1 + 2 * L * α * h) * ‖y - z‖ := by
  have hb : ‖∑ j ∈ Finset.range τ.n, τ.b j •
      (rkStages τ f t h y (f t y) τ.n j - rkStages τ f t h z (f t z) τ.n j)‖ ≤
      α * (2 * L * ‖y - z‖) := by
    refine (norm_sum_le _ _).trans ?_
    calc _ ≤ ∑ j ∈ Finset.range τ.n, |τ.b j| * (2 * L * ‖y - z‖) :=
          Finset.sum_le_sum fun j hj => by
            rw [norm_smul, Real.norm_eq_abs]
            exact mul_le_mul_of_nonneg_left (rkStages_stability hτ hL0 hL ht hh hT hα y z j
              (Finset.mem_range.1 hj).le) (abs_nonneg _)
      _ ≤ _ := by
          rw [← Finset.sum_mul]
          exact mul_le_mul_of_nonneg_right hτ.weights (by positivity)
  have e : rkAdvance τ f t h y - rkAdvance τ f t h z = (y - z) + h • ∑ j ∈ Finset.range τ.n, τ.b j •
      (rkStages τ f t h y (f t y) τ.n j - rkStages τ f t h z (f t z) τ.n j) := by
    unfold rkAdvance
    simp only [smul_sub, Finset.sum_sub_distrib]
    abel
  rw [e]
  refine (norm_add_le _ _).trans ?_
  rw [norm_smul, Real.norm_eq_abs, abs_of_nonneg hh]
  have := mul_le_mul_of_nonneg_left hb hh
  nlinarith

/-- The error of a run when every step has an error of order `m + 1`. -/
theorem rkRun_order {α L : ℝ} (hτ : TableauBound τ α) (hL0 : 0 ≤ L)
    (hL : ∀ t ∈ Icc 0 T, ∀ y z, ‖f t y - f t z‖ ≤ L * ‖y - z‖) {Y : ℝ → E} {m : ℕ}
    (hY : Small T (m + 1) fun x => rkAdvance τ f x.1 x.2 (Y x.1) - Y (x.1 + x.2)) :
    ∃ C, 0 ≤ C ∧ ∃ η₀ > 0, ∀ (hs : List ℝ) (η t : ℝ) (y : E), 0 ≤ t → η ≤ η₀ →
      (∀ s ∈ hs, 0 ≤ s ∧ s ≤ η) → t + hs.sum ≤ T →
      ‖(rkRun τ f hs (t, y)).2 - Y (t + hs.sum)‖ ≤ Real.exp (2 * L * α * hs.sum) *
        (‖y - Y t‖ + C * hs.sum * η ^ m) := by
  obtain ⟨C, hC0, hC⟩ := hY.bound
  have hLα : 0 ≤ L * α := mul_nonneg hL0 hτ.pos
  refine ⟨C, hC0, min 1 (1 / (2 * (L * α) + 1)), by positivity, ?_⟩
  intro hs
  induction hs with
  | nil =>
    intro η t y _ _ _ _
    simp [rkRun]
  | cons s hs ih =>
    intro η t y ht hη hst hsum
    rw [List.sum_cons] at hsum ⊢
    have hs0 := hst s List.mem_cons_self
    have hrest : ∀ r ∈ hs, 0 ≤ r ∧ r ≤ η := fun r hr => hst r (List.mem_cons_of_mem _ hr)
    have hsn : 0 ≤ hs.sum := List.sum_nonneg fun r hr => (hrest r hr).1
    have hη1 : s ≤ 1 := hs0.2.trans (hη.trans (min_le_left _ _))
    have hη2 : s ≤ 1 / (2 * (L * α) + 1) := hs0.2.trans (hη.trans (min_le_right _ _))
    have hsm : L * α * s ≤ 1 / 2 := by
      rw [le_div_iff₀ (by positivity)] at hη2
      nlinarith
    have h1 := ih η (t + s) (rkAdvance τ f t s y) (by linarith) hη hrest (by linarith)
    rw [rkRun]
    rw [show t + (s + hs.sum) = t + s + hs.sum by ring]
    refine h1.trans ?_
    have h2 := rkAdvance_stability hτ hL0 hL ht hs0.1 (by linarith) hsm y (Y t)
    have h3 := hC (t, s) ⟨ht, hs0.1, hη1, by show t + s ≤ T; linarith⟩
    have h4 : ‖rkAdvance τ f t s y - Y (t + s)‖ ≤ (1 + 2 * L * α * s) * ‖y - Y t‖ + C * s ^ (m + 1) := by
      have := norm_add_le (rkAdvance τ f t s y - rkAdvance τ f t s (Y t))
        (rkAdvance τ f t s (Y t) - Y (t + s))
      rw [sub_add_sub_cancel] at this
      simp only at h3
      linarith
    have h5 : C * s ^ (m + 1) ≤ C * s * η ^ m := by
      rw [pow_succ, mul_comm (s ^ m) s, ← mul_assoc]
      have := pow_le_pow_left₀ hs0.1 hs0.2 m
      have := mul_nonneg hC0 hs0.1
      gcongr
    have h6 : 1 + 2 * L * α * s ≤ Real.exp (2 * L * α * s) := by
      have := Real.add_one_le_exp (2 * L * α * s)
      linarith
    have h7 : (1 : ℝ) ≤ Real.exp (2 * L * α * s) := Real.one_le_exp (by
      have := mul_nonneg hLα hs0.1
      nlinarith)
    have hη0 : 0 ≤ η := hs0.1.trans hs0.2
    have h8 : 0 ≤ C * s * η ^ m := by have := hs0.1; positivity
    have h9 : 0 ≤ C * hs.sum * η ^ m := by positivity
    have h10 : ‖rkAdvance τ f t s y - Y (t + s)‖ + C * hs.sum * η ^ m ≤
        Real.exp (2 * L * α * s) * (‖y - Y t‖ + C * (s + hs.sum) * η ^ m) := by
      have := mul_le_mul_of_nonneg_right h6 (norm_nonneg (y - Y t))
      have h11 : C * (s + hs.sum) * η ^ m = C * s * η ^ m + C * hs.sum * η ^ m := by ring
      rw [h11]
      nlinarith
    calc _ ≤ Real.exp (2 * L * α * hs.sum) *
          (Real.exp (2 * L * α * s) * (‖y - Y t‖ + C * (s + hs.sum) * η ^ m)) := by
          gcongr
      _ = _ := by
          rw [← mul_assoc, ← Real.exp_add]
          congr 2
          ring

/-! ### Dense output -/

/-- The weights of the dense output reproduce polynomials up to degree `m`. -/
def DenseMoments (τ : Tableau) (D : ℕ → ℕ → ℝ) (m : ℕ) : Prop :=
  ∀ p < m, ∀ q < m, ∑ i ∈ Finset.range (τ.n + 1), D i p * τ.node i ^ q = if q = p then 1 / ((q : ℝ) + 1) else 0

/-- The dense output from the exact state, one power of the fraction at a time. -/
theorem dense_column (hτ : ∀ i ≤ τ.n, 0 ≤ τ.node i ∧ τ.node i ≤ 1) (hL : LinearSolution T f A A' G)
    {D : ℕ → ℕ → ℝ} {m r : ℕ} (hD : DenseMoments τ D m) (hr : r ≤ m)
    (he : ∀ p < m, Small T r fun x => ∑ i ∈ Finset.range (τ.n + 1), D i p • stageError τ f G i x)
    {p : ℕ} (hp : p < m) :
    Small T (r + 1) fun x => x.2 • ∑ i ∈ Finset.range (τ.n + 1), D i p •
        rkStages τ f x.1 x.2 (G 0 x.1) (f x.1 (G 0 x.1)) τ.n i -
      (x.2 ^ (p + 1) / ((p + 1).factorial : ℝ)) • G (p + 1) x.1 := by
  have h1 : Small T m fun x => ∑ i ∈ Finset.range (τ.n + 1), D i p • (G 1 (x.1 + τ.node i * x.2) -
      ∑ q ∈ Finset.range m, ((τ.node i * x.2) ^ q / (q.factorial : ℝ)) • G (1 + q) x.1) :=
    Small.sum _ fun i hi => Small.smul ((hL.smooth.shift 1).small m
      (hτ i (Nat.lt_succ_iff.1 (Finset.mem_range.1 hi)))) _
  refine ((he p hp).add (h1.mono hr)).step_smul.congr fun x _ => ?_
  have h2 : ∑ i ∈ Finset.range (τ.n + 1), D i p •
      ∑ q ∈ Finset.range m, ((τ.node i * x.2) ^ q / (q.factorial : ℝ)) • G (1 + q) x.1 =
      (x.2 ^ p / ((p + 1).factorial : ℝ)) • G (p + 1) x.1 := by
    simp only [Finset.smul_sum, smul_smul]
    rw [Finset.sum_comm, Finset.sum_eq_single p]
    · rw [← Finset.sum_smul, add_comm 1 p]
      congr 1
      have : ∀ i, D i p * ((τ.node i * x.2) ^ p / (p.factorial : ℝ)) =
          D i p * τ.node i ^ p * (x.2 ^ p / (p.factorial : ℝ)) := fun i => by rw [mul_pow]; ring
      simp only [this]
      rw [← Finset.sum_mul, hD p hp p hp, if_pos rfl, Nat.factorial_succ]
      push_cast
      have h3 : (p.factorial : ℝ) ≠ 0 := by exact_mod_cast p.factorial_ne_zero
      have h4 : (p : ℝ) + 1 ≠ 0 := by positivity
      field_simp
    · intro q hq hqp
      have : ∀ i, D i p * ((τ.node i * x.2) ^ q / (q.factorial : ℝ)) =
          D i p * τ.node i ^ q * (x.2 ^ q / (q.factorial : ℝ)) := fun i => by rw [mul_pow]; ring
      rw [← Finset.sum_smul]
      simp only [this]
      rw [← Finset.sum_mul, hD p hp q (Finset.mem_range.1 hq), if_neg hqp, zero_mul, zero_smul]
    · exact fun h => absurd (Finset.mem_range.2 hp) h
  have h3 : ∑ i ∈ Finset.range (τ.n + 1), D i p • stageError τ f G i x +
      ∑ i ∈ Finset.range (τ.n + 1), D i p • (G 1 (x.1 + τ.node i * x.2) -
      ∑ q ∈ Finset.range m, ((τ.node i * x.2) ^ q / (q.factorial : ℝ)) • G (1 + q) x.1) =
      ∑ i ∈ Finset.range (τ.n + 1), D i p • rkStages τ f x.1 x.2 (G 0 x.1) (f x.1 (G 0 x.1)) τ.n i -
        (x.2 ^ p / ((p + 1).factorial : ℝ)) • G (p + 1) x.1 := by
    rw [← h2, ← Finset.sum_add_distrib, ← Finset.sum_sub_distrib]
    refine Finset.sum_congr rfl fun i _ => ?_
    unfold stageError
    module
  rw [h3, smul_sub, smul_smul]
  congr 2
  ring

/-- The dense output from the exact state, at all fractions of a step. -/
theorem dense_exact (hτ : ∀ i ≤ τ.n, 0 ≤ τ.node i ∧ τ.node i ≤ 1) (hL : LinearSolution T f A A' G)
    {D : ℕ → ℕ → ℝ} {m r : ℕ} (hD : DenseMoments τ D m) (hr : r ≤ m)
    (he : ∀ p < m, Small T r fun x => ∑ i ∈ Finset.range (τ.n + 1), D i p • stageError τ f G i x) :
    ∃ C, 0 ≤ C ∧ ∀ x, StepIn T x → ∀ θ ∈ Icc (0 : ℝ) 1,
      ‖rkCombine τ f x.1 x.2 (G 0 x.1) (fun i => ∑ p ∈ Finset.range m, D i p * θ ^ (p + 1)) -
        G 0 (x.1 + θ * x.2)‖ ≤ C * x.2 ^ (r + 1) := by
  have h1 : ∀ p, ∃ C, 0 ≤ C ∧ ∀ x, StepIn T x → p < m → ‖x.2 • ∑ i ∈ Finset.range (τ.n + 1), D i p •
        rkStages τ f x.1 x.2 (G 0 x.1) (f x.1 (G 0 x.1)) τ.n i -
      (x.2 ^ (p + 1) / ((p + 1).factorial : ℝ)) • G (p + 1) x.1‖ ≤ C * x.2 ^ (r + 1) := by
    intro p
    by_cases hp : p < m
    · obtain ⟨C, h0, hC⟩ := (dense_column hτ hL hD hr he hp).bound
      exact ⟨C, h0, fun x hx _ => hC x hx⟩
    · exact ⟨0, le_rfl, fun x hx h => absurd h hp⟩
  choose C hC0 hC using h1
  obtain ⟨B, hB⟩ := hL.smooth.bounded (m + 1)
  have hB' : ∀ t ∈ Icc 0 T, ‖G (m + 1) t‖ ≤ max B 0 := fun t ht => (hB t ht).trans (le_max_left _ _)
  refine ⟨∑ p ∈ Finset.range m, C p + max B 0, add_nonneg (Finset.sum_nonneg fun p _ => hC0 p)
    (le_max_right _ _), fun x hx θ hθ => ?_⟩
  obtain ⟨x0, x1, x2, x3⟩ := hx
  have hθx : 0 ≤ θ * x.2 := mul_nonneg hθ.1 x1
  have hθ1 : θ * x.2 ≤ x.2 := mul_le_of_le_one_left x1 hθ.2
  have ht := hL.smooth.taylor (m + 1) hB' x0 hθx (by linarith)
  have key : rkCombine τ f x.1 x.2 (G 0 x.1) (fun i => ∑ p ∈ Finset.range m, D i p * θ ^ (p + 1)) -
        G 0 (x.1 + θ * x.2) = ∑ p ∈ Finset.range m, θ ^ (p + 1) •
          (x.2 • ∑ i ∈ Finset.range (τ.n + 1), D i p •
            rkStages τ f x.1 x.2 (G 0 x.1) (f x.1 (G 0 x.1)) τ.n i -
          (x.2 ^ (p + 1) / ((p + 1).factorial : ℝ)) • G (p + 1) x.1) -
        (G 0 (x.1 + θ * x.2) - ∑ q ∈ Finset.range (m + 1), ((θ * x.2) ^ q / (q.factorial : ℝ)) • G q x.1) := by
    rw [Finset.sum_range_succ' (fun q => ((θ * x.2) ^ q / (q.factorial : ℝ)) • G q x.1) m]
    have e1 : rkCombine τ f x.1 x.2 (G 0 x.1) (fun i => ∑ p ∈ Finset.range m, D i p * θ ^ (p + 1)) =
        G 0 x.1 + ∑ p ∈ Finset.range m, θ ^ (p + 1) • (x.2 • ∑ i ∈ Finset.range (τ.n + 1), D i p •
            rkStages τ f x.1 x.2 (G 0 x.1) (f x.1 (G 0 x.1)) τ.n i) := by
      unfold rkCombine
      simp only [Finset.sum_smul, Finset.smul_sum]
      rw [Finset.sum_comm]
      congr 1
      exact Finset.sum_congr rfl fun p _ => Finset.sum_congr rfl fun i _ => by module
    have e2 : ∑ p ∈ Finset.range m, ((θ * x.2) ^ (p + 1) / ((p + 1).factorial : ℝ)) • G (p + 1) x.1 =
        ∑ p ∈ Finset.range m, θ ^ (p + 1) • ((x.2 ^ (p + 1) / ((p + 1).factorial : ℝ)) • G (p + 1) x.1) :=
      Finset.sum_congr rfl fun p _ => by rw [smul_smul, mul_pow, mul_div_assoc]
    rw [e1, e2]
    simp only [smul_sub, Finset.sum_sub_distrib, pow_zero, Nat.factorial_zero, Nat.cast_one, div_one,
      one_smul]
    abel
  rw [key, add_mul]
  refine (norm_sub_le _ _).trans (add_le_add ?_ ?_)
  · rw [Finset.sum_mul]
    refine (norm_sum_le _ _).trans (Finset.sum_le_sum fun p hp => ?_)
    rw [norm_smul, Real.norm_eq_abs, abs_of_nonneg (pow_nonneg hθ.1 _)]
    calc _ ≤ 1 * (C p * x.2 ^ (r + 1)) := mul_le_mul (pow_le_one₀ hθ.1 hθ.2)
          (hC p x ⟨x0, x1, x2, x3⟩ (Finset.mem_range.1 hp)) (norm_nonneg _) zero_le_one
      _ = _ := one_mul _
  · refine ht.trans ?_
    have h5 : (θ * x.2) ^ (m + 1) ≤ x.2 ^ (r + 1) :=
      (pow_le_pow_left₀ hθx hθ1 _).trans (pow_le_pow_of_le_one x1 x2 (by omega))
    exact mul_le_mul_of_nonneg_left h5 (le_max_right _ _)

/-- The dense output depends continuously on the state it starts from. -/
theorem rkCombine_stability {α L β : ℝ} (hτ : TableauBound τ α) (hL0 : 0 ≤ L)
    (hL : ∀ t ∈ Icc 0 T, ∀ y z, ‖f t y - f t z‖ ≤ L * ‖y - z‖) {t h : ℝ} (ht : 0 ≤ t)
    (hh : 0 ≤ h) (hT : t + h ≤ T) (hα : L * α * h ≤ 1 / 2) (y z : E) {w : ℕ → ℝ}
    (hw : ∑ i ∈ Finset.range (τ.n + 1), |w i| ≤ β) :
    ‖rkCombine τ f t h y w - rkCombine τ f t h z w‖ ≤ (1 + 2 * L * β * h) * ‖y - z‖ := by
  have hb : ‖∑ j ∈ Finset.range (τ.n + 1), w j •
      (rkStages τ f t h y (f t y) τ.n j - rkStages τ f t h z (f t z) τ.n j)‖ ≤
      β * (2 * L * ‖y - z‖) := by
    refine (norm_sum_le _ _).trans ?_
    calc _ ≤ ∑ j ∈ Finset.range (τ.n + 1), |w j| * (2 * L * ‖y - z‖) :=
          Finset.sum_le_sum fun j hj => by
            rw [norm_smul, Real.norm_eq_abs]
            exact mul_le_mul_of_nonneg_left (rkStages_stability hτ hL0 hL ht hh hT hα y z j
              (Nat.lt_succ_iff.1 (Finset.mem_range.1 hj))) (abs_nonneg _)
      _ ≤ _ := by
          rw [← Finset.sum_mul]
          exact mul_le_mul_of_nonneg_right hw (by positivity)
  have e : rkCombine τ f t h y w - rkCombine τ f t h z w = (y - z) + h • ∑ j ∈ Finset.range (τ.n + 1),
      w j • (rkStages τ f t h y (f t y) τ.n j - rkStages τ f t h z (f t z) τ.n j) := by
    unfold rkCombine
    simp only [smul_sub, Finset.sum_sub_distrib]
    abel
  rw [e]
  refine (norm_add_le _ _).trans ?_
  rw [norm_smul, Real.norm_eq_abs, abs_of_nonneg hh]
  have := mul_le_mul_of_nonneg_left hb hh
  nlinarith

/-- The weights of the dense output at all fractions. -/
theorem dense_weights_bound (n : ℕ) (D : ℕ → ℕ → ℝ) (m : ℕ) {θ : ℝ} (hθ : θ ∈ Icc (0 : ℝ) 1) :
    ∑ i ∈ Finset.range n, |∑ p ∈ Finset.range m, D i p * θ ^ (p + 1)| ≤
      ∑ i ∈ Finset.range n, ∑ p ∈ Finset.range m, |D i p| := by
  refine Finset.sum_le_sum fun i _ => (Finset.abs_sum_le_sum_abs _ _).trans
    (Finset.sum_le_sum fun p _ => ?_)
  rw [abs_mul, abs_of_nonneg (pow_nonneg hθ.1 (p + 1))]
  exact mul_le_of_le_one_right (abs_nonneg _) (pow_le_one₀ hθ.1 hθ.2)

/-- Stage errors in the dense output of a method of fifth order. -/
theorem fifth_order_dense (hτ : FifthOrder τ) (hL : LinearSolution T f A A' G) {w : ℕ → ℝ}
    (h1 : w 1 = 0) (hw : ∑ i ∈ Finset.range (τ.n + 1), w i * stageOne τ i = 0) :
    Small T 4 fun x => ∑ i ∈ Finset.range (τ.n + 1), w i • stageError τ f G i x := by
  have hl1 : Small T 0 (leadOne τ A G) := (hL.start.apply (hL.smooth.start 2)).smul _
  have hl2 : Small T 0 (leadTwo τ A A' G) :=
    ((hL.start'.apply ((hL.smooth.start 2).smul _)).smul _).add
      (hL.start.apply ((hL.smooth.start 3).smul _))
  have hAl1 : Small T 0 fun x => A x.1 (leadOne τ A G x) := hL.start.apply hl1
  have hAl2 : Small T 0 fun x => A x.1 (leadTwo τ A A' G x) := hL.start.apply hl2
  have hA'l1 : Small T 0 fun x => A' x.1 (leadOne τ A G x) := hL.start'.apply hl1
  have hAAl1 : Small T 0 fun x => A x.1 (A x.1 (leadOne τ A G x)) := hL.start.apply hAl1
  have hAG : Small T 0 fun x => A x.1 (G 4 x.1) := hL.start.apply (hL.smooth.start 4)
  have he : ∀ j ∈ Finset.range (τ.n + 1), Small T 4 fun x => w j • (stageError τ f G j x -
      x.2 ^ 3 • (stageOne τ j • A x.1 (leadOne τ A G x))) := by
    intro j hj
    by_cases hj1 : j = 1
    · refine Small.zero.congr fun x _ => ?_
      rw [hj1, h1, zero_smul]
    refine Small.smul ?_ _
    have h2 := ((((hA'l1.smul (τ.node j * stageOne τ j)).add (hAl2.smul (stageOne τ j))).add
      (hAAl1.smul (stageOneTwice τ j))).sub (hAG.smul (fourthMoment τ j / 24))).pow_smul 4
    refine (((fifth_order_stage hτ hL j (Nat.lt_succ_iff.1 (Finset.mem_range.1 hj)) hj1).mono
      (show 4 ≤ 5 by norm_num)).add h2).congr fun x _ => ?_
    module
  refine (Small.sum _ he).congr fun x _ => ?_
  simp only [smul_sub, Finset.sum_sub_distrib]
  have e : ∑ j ∈ Finset.range (τ.n + 1), w j • x.2 ^ 3 • (stageOne τ j • A x.1 (leadOne τ A G x)) =
      (x.2 ^ 3 * ∑ j ∈ Finset.range (τ.n + 1), w j * stageOne τ j) • A x.1 (leadOne τ A G x) := by
    rw [Finset.mul_sum, Finset.sum_smul]
    exact Finset.sum_congr rfl fun j _ => by module
  rw [e, hw, mul_zero, zero_smul, sub_zero]

end

/-! ### Solutions of smooth linear equations -/

section Generic
variable {T : ℝ} {s : Set ℝ} {A : ℝ → E →L[ℝ] E} {g : ℝ → E}

theorem smooth_iterate {F : Type*} [NormedAddCommGroup F] [NormedSpace ℝ F] {f : ℝ → F}
    (hs : IsOpen s) (hf : ContDiffOn ℝ ∞ f s) (q : ℕ) : ContDiffOn ℝ ∞ (deriv^[q] f) s := by
  induction q with
  | zero => exact hf
  | succ q ih =>
    rw [Function.iterate_succ_apply']
    exact ((contDiffOn_infty_iff_deriv_of_isOpen hs).1 ih).2

theorem hasDerivAt_of_smooth {F : Type*} [NormedAddCommGroup F] [NormedSpace ℝ F] {f : ℝ → F}
    (hs : IsOpen s) (hf : ContDiffOn ℝ ∞ f s) {t : ℝ} (ht : t ∈ s) : HasDerivAt f (deriv f t) t :=
  ((hf.differentiableOn (by norm_num)).differentiableAt (hs.mem_nhds ht)).hasDerivAt

theorem smooth_of_contDiffOn {F : Type*} [NormedAddCommGroup F] [NormedSpace ℝ F] {f : ℝ → F}
    (hs : IsOpen s) (hT : Icc 0 T ⊆ s) (hf : ContDiffOn ℝ ∞ f s) : Smooth T fun q => deriv^[q] f :=
  ⟨fun q => (smooth_iterate hs hf q).continuousOn.mono hT, fun q t ht => by
    rw [Function.iterate_succ_apply']
    exact (hasDerivAt_of_smooth hs (smooth_iterate hs hf q) (hT ⟨ht.1, ht.2.le⟩)).hasDerivWithinAt⟩

theorem small_of_continuousOn {F : Type*} [NormedAddCommGroup F] [NormedSpace ℝ F] {φ : ℝ → F}
    (h : ContinuousOn φ (Icc 0 T)) : Small T 0 fun x => φ x.1 := by
  obtain ⟨B, hB⟩ := isCompact_Icc.exists_bound_of_continuousOn h
  exact Small.of_start hB

/-- The derivatives of a solution of `y' = A y + g`, as operators on the solution plus a remainder. -/
noncomputable def derivPair (A : ℝ → E →L[ℝ] E) (g : ℝ → E) : ℕ → (ℝ → E →L[ℝ] E) × (ℝ → E)
  | 0 => (fun _ => ContinuousLinearMap.id ℝ E, fun _ => 0)
  | q + 1 => (fun t => deriv (derivPair A g q).1 t + (derivPair A g q).1 t ∘L A t,
      fun t => deriv (derivPair A g q).2 t + (derivPair A g q).1 t (g t))

theorem derivPair_smooth (hs : IsOpen s) (hA : ContDiffOn ℝ ∞ A s) (hg : ContDiffOn ℝ ∞ g s) (q : ℕ) :
    ContDiffOn ℝ ∞ (derivPair A g q).1 s ∧ ContDiffOn ℝ ∞ (derivPair A g q).2 s := by
  induction q with
  | zero => exact ⟨contDiffOn_const, contDiffOn_const⟩
  | succ q ih =>
    exact ⟨((contDiffOn_infty_iff_deriv_of_isOpen hs).1 ih.1).2.add (ih.1.clm_comp hA),
      ((contDiffOn_infty_iff_deriv_of_isOpen hs).1 ih.2).2.add (ih.1.clm_apply hg)⟩

/-- Everything that the order theorems need, from smooth coefficients. -/
theorem linearSolution_of_smooth {f : ℝ → E → E} {Y : ℝ → E} (hs : IsOpen s) (hT : Icc 0 T ⊆ s)
    (hA : ContDiffOn ℝ ∞ A s) (hg : ContDiffOn ℝ ∞ g s)
    (hf : ∀ t ∈ Icc 0 T, ∀ y, f t y = A t y + g t) (hYc : ContinuousOn Y (Icc 0 T))
    (hY : ∀ t ∈ Ico 0 T, HasDerivWithinAt Y (f t (Y t)) (Ici t) t) :
    LinearSolution T f A (deriv A)
      fun q t => (derivPair A g q).1 t (Y t) + (derivPair A g q).2 t := by
  have hB := derivPair_smooth hs hA hg
  refine ⟨⟨fun q => ?_, fun q t ht => ?_⟩, fun t ht => ?_, fun t ht y z => ?_,
    small_of_continuousOn (hA.continuousOn.mono hT), small_of_continuousOn (((contDiffOn_infty_iff_deriv_of_isOpen hs).1 hA).2.continuousOn.mono
    hT), fun c hc => ?_⟩
  · exact (((hB q).1.continuousOn.mono hT).clm_apply hYc).add ((hB q).2.continuousOn.mono hT)
  · have ht' : t ∈ s := hT ⟨ht.1, ht.2.le⟩
    have h1 := (hasDerivAt_of_smooth hs (hB q).1 ht').hasDerivWithinAt (s := Ici t)
    have h2 := (hasDerivAt_of_smooth hs (hB q).2 ht').hasDerivWithinAt (s := Ici t)
    refine ((h1.clm_apply (hY t ht)).add h2).congr_deriv ?_
    rw [hf t ⟨ht.1, ht.2.le⟩]
    simp only [derivPair, map_add, add_apply, ContinuousLinearMap.comp_apply]
    abel
  · simp only [derivPair, deriv_const, zero_add, ContinuousLinearMap.id_comp,
      ContinuousLinearMap.id_apply, add_zero]
    exact (hf t ht _).symm
  · rw [hf t ht, hf t ht, map_sub]
    abel
  · refine ((smooth_of_contDiffOn hs hT hA).small 2 hc).congr fun x _ => ?_
    simp only [Finset.sum_range_succ, Finset.sum_range_zero, Function.iterate_zero, id,
      Function.iterate_one]
    norm_num
    module

end Generic

end Verif.Lemmas
