import Verif.Model.Spline
import Mathlib.LinearAlgebra.Matrix.ToLinearEquiv
import Mathlib.LinearAlgebra.Matrix.NonsingularInverse
import Mathlib.Tactic.Linarith
import Mathlib.Tactic.FieldSimp
import Mathlib.Tactic.LinearCombination
import Mathlib.Tactic.NormNum

/-!
Property C52: Gaussian elimination solves the system.
-/

namespace Verif.Props

open Verif.Model

/-- `x` solves the system whose right-hand side is column `N`. -/
def Solves (N : ℕ) (A : Mat) (x : ℕ → ℝ) : Prop :=
  ∀ r < N, ∑ c ∈ Finset.range N, A r c * x c = A r N

/-- Zero below the diagonal in the first `k` columns. -/
def UpperTri (N k : ℕ) (A : Mat) : Prop := ∀ r < N, ∀ c < k, c < r → A r c = 0

/-! ### Pivot choice -/

theorem argmax_fold (f : ℕ → ℝ) (l : List ℕ) (b : ℕ) :
    let m := l.foldl (fun best r => open Classical in if f best < f r then r else best) b
    (m = b ∨ m ∈ l) ∧ f b ≤ f m ∧ ∀ r ∈ l, f r ≤ f m := by
  induction l generalizing b with
  | nil => simp
  | cons a l ih =>
    simp only [List.foldl_cons]
    by_cases h : f b < f a
    · rw [if_pos h]
      obtain ⟨h1, h2, h3⟩ := ih a
      refine ⟨?_, h.le.trans h2, ?_⟩
      · rcases h1 with h1 | h1
        · right; rw [h1]; simp
        · right; simp [h1]
      · intro r hr
        rcases List.mem_cons.1 hr with hr | hr
        · rw [hr]; exact h2
        · exact h3 r hr
    · rw [if_neg h]
      obtain ⟨h1, h2, h3⟩ := ih b
      refine ⟨?_, h2, ?_⟩
      · rcases h1 with h1 | h1
        · left; exact h1
        · right; simp [h1]
      · intro r hr
        rcases List.mem_cons.1 hr with hr | hr
        · rw [hr]; exact (not_lt.1 h).trans h2
        · exact h3 r hr

theorem argmaxFrom_spec (f : ℕ → ℝ) {lo hi : ℕ} (h : lo < hi) :
    lo ≤ argmaxFrom f lo hi ∧ argmaxFrom f lo hi < hi ∧
      ∀ r, lo ≤ r → r < hi → f r ≤ f (argmaxFrom f lo hi) := by
  obtain ⟨h1, h2, h3⟩ := argmax_fold f (List.range' (lo + 1) (hi - lo - 1)) lo
  have hm : ∀ r, r ∈ List.range' (lo + 1) (hi - lo - 1) ↔ lo < r ∧ r < hi := by
    intro r; rw [List.mem_range'_1]; omega
  have e : argmaxFrom f lo hi = (List.range' (lo + 1) (hi - lo - 1)).foldl
      (fun best r => open Classical in if f best < f r then r else best) lo := rfl
  rw [e]
  refine ⟨?_, ?_, ?_⟩
  · rcases h1 with h1 | h1
    · exact h1.ge
    · exact ((hm _).1 h1).1.le
  · rcases h1 with h1 | h1
    · rw [h1]; exact h
    · exact ((hm _).1 h1).2
  · intro r hr hr'
    by_cases hrl : r = lo
    · rw [hrl]; exact h2
    · exact h3 r ((hm r).2 ⟨by omega, hr'⟩)

/-! ### Row operations -/

theorem swapRows_solves {N a b : ℕ} (ha : a < N) (hb : b < N) (A : Mat) (x : ℕ → ℝ) :
    Solves N (swapRows A a b) x ↔ Solves N A x := by
  unfold Solves swapRows
  constructor
  · intro h r hr
    by_cases h1 : r = a
    · by_cases h2 : b = a
      · have := h a ha; simp only [if_true] at this; rw [h2] at this; rw [h1]; exact this
      · have := h b hb; simp only [if_neg h2, if_true] at this; rw [h1]; exact this
    · by_cases h2 : r = b
      · have := h a ha; simp only [if_true] at this; rw [h2]; exact this
      · have := h r hr; simp only [if_neg h1, if_neg h2] at this; exact this
  · intro h r hr
    split_ifs
    · exact h b hb
    · exact h a ha
    · exact h r hr

theorem eliminate_solves {N col : ℕ} (hc : col < N) {A A' : Mat} (h : eliminate N col A = some A')
    (x : ℕ → ℝ) : Solves N A' x ↔ Solves N A x := by
  unfold eliminate at h
  split_ifs at h with hz
  rw [Option.some.injEq] at h
  subst h
  have hsum : ∀ r, ∑ c ∈ Finset.range N, (A r c - A r col / A col col * A col c) * x c =
      ∑ c ∈ Finset.range N, A r c * x c -
        A r col / A col col * ∑ c ∈ Finset.range N, A col c * x c := by
    intro r
    rw [Finset.mul_sum, ← Finset.sum_sub_distrib]
    exact Finset.sum_congr rfl fun c _ => by ring
  unfold Solves
  constructor
  · intro h r hr
    have hp : ∑ c ∈ Finset.range N, A col c * x c = A col N := by
      have := h col hc
      simpa using this
    have := h r hr
    by_cases hr2 : col < r
    · simp only [hr2, hr, and_self, if_true, hsum, hp] at this
      linarith
    · simp only [hr2, false_and, if_false] at this
      exact this
  · intro h r hr
    by_cases hr2 : col < r
    · simp only [hr2, hr, and_self, if_true, hsum, h r hr, h col hc]
    · simp only [hr2, false_and, if_false]
      exact h r hr

theorem swapRows_upper {N k p : ℕ} (hk : k ≤ p) (hp : p < N) {A : Mat} (h : UpperTri N k A) :
    UpperTri N k (swapRows A k p) := by
  intro r hr c hc hcr
  unfold swapRows
  split_ifs
  · exact h p hp c hc (by omega)
  · exact h k (by omega) c hc (by omega)
  · exact h r hr c hc hcr

theorem eliminate_upper {N k : ℕ} {A A' : Mat} (h : UpperTri N k A)
    (he : eliminate N k A = some A') : UpperTri N (k + 1) A' := by
  unfold eliminate at he
  split_ifs at he with hz
  rw [Option.some.injEq] at he
  subst he
  intro r hr c hc hcr
  simp only
  by_cases h1 : k < r
  · rw [if_pos ⟨h1, hr⟩]
    have hp : A k k ≠ 0 := fun hp => hz ⟨by omega, hp⟩
    by_cases h2 : c = k
    · subst h2
      rw [div_mul_cancel₀ _ hp, sub_self]
    · rw [h r hr c (by omega) hcr, h k (by omega) c (by omega) (by omega)]
      ring
  · rw [if_neg (by tauto)]
    exact h r hr c (by omega) hcr

theorem elimLoop_spec {N : ℕ} (k : ℕ) : ∀ (col : ℕ) (A : Mat) (s : ℕ → ℝ) (A' : Mat),
    col + k = N → UpperTri N col A → elimLoop N k col A s = some A' →
    UpperTri N N A' ∧ ∀ x, Solves N A' x ↔ Solves N A x := by
  induction k with
  | zero =>
    intro col A s A' hN hu h
    have h : A = A' := by simpa [elimLoop] using h
    subst h
    have : col = N := by omega
    subst this
    exact ⟨hu, fun _ => Iff.rfl⟩
  | succ k ih =>
    intro col A s A' hN hu h
    have hp := argmaxFrom_spec (fun r => |A r col / s col|) (by omega : col < N)
    unfold elimLoop at h
    rw [Option.bind_eq_some_iff] at h
    obtain ⟨B, hB, h⟩ := h
    have hu2 := eliminate_upper (swapRows_upper hp.1 hp.2.1 hu) hB
    obtain ⟨h1, h2⟩ := ih (col + 1) B _ A' (by omega) hu2 h
    refine ⟨h1, fun x => (h2 x).trans ?_⟩
    rw [eliminate_solves (by omega) hB]
    exact swapRows_solves (by omega) hp.2.1 A x

/-! ### Back substitution -/

theorem backSub_spec {N : ℕ} {A : Mat} (hu : UpperTri N N A) (k : ℕ) :
    ∀ (x x' : ℕ → ℝ), k ≤ N →
      (∀ r, k ≤ r → r < N → ∑ c ∈ Finset.range N, A r c * x c = A r N) →
      backSub N A k x = some x' → Solves N A x' := by
  induction k with
  | zero =>
    intro x x' _ hx h
    have : x = x' := by simpa [backSub] using h
    subst this
    exact fun r hr => hx r (Nat.zero_le _) hr
  | succ row ih =>
    intro x x' hk hx h
    unfold backSub at h
    split_ifs at h with hz
    refine ih _ x' (by omega) ?_ h
    intro r hr hrN
    obtain ⟨v, hv⟩ : ∃ v, v = (A row N - ∑ c ∈ Finset.Ico (row + 1) N, x c * A row c) /
      A row row := ⟨_, rfl⟩
    rw [← hv]
    by_cases h1 : r = row
    · subst h1
      have hsplit : ∑ c ∈ Finset.range N, A r c * Function.update x r v c =
          A r r * v + ∑ c ∈ Finset.Ico (r + 1) N, x c * A r c := by
        rw [Finset.range_eq_Ico, ← Finset.sum_Ico_consecutive _ (Nat.zero_le (r + 1)) hk,
          Finset.sum_Ico_succ_top (Nat.zero_le r)]
        have e1 : ∑ c ∈ Finset.Ico 0 r, A r c * Function.update x r v c = 0 := by
          refine Finset.sum_eq_zero fun c hc => ?_
          have hc := Finset.mem_Ico.1 hc
          rw [hu r hrN c (by omega) hc.2, zero_mul]
        have e2 : ∑ c ∈ Finset.Ico (r + 1) N, A r c * Function.update x r v c =
            ∑ c ∈ Finset.Ico (r + 1) N, x c * A r c := by
          refine Finset.sum_congr rfl fun c hc => ?_
          have hc := Finset.mem_Ico.1 hc
          rw [Function.update_of_ne (by omega), mul_comm]
        rw [e1, e2, Function.update_self, zero_add]
      rw [hsplit, hv, mul_div_cancel₀ _ hz]
      ring
    · have : ∀ c ∈ Finset.range N, A r c * Function.update x row v c = A r c * x c := by
        intro c hc
        by_cases hcr : c = row
        · subst hcr
          rw [hu r hrN c (Finset.mem_range.1 hc) (by omega)]
          ring
        · rw [Function.update_of_ne hcr]
      rw [Finset.sum_congr rfl this]
      exact hx r (by omega) hrN

theorem backSub_isSome {N : ℕ} {A : Mat} (k : ℕ) (x : ℕ → ℝ) :
    (backSub N A k x).isSome ↔ ∀ r < k, A r r ≠ 0 := by
  induction k generalizing x with
  | zero => simp [backSub]
  | succ k ih =>
    unfold backSub
    split_ifs with h
    · simp only [Option.isSome_none, Bool.false_eq_true, false_iff]
      intro hc
      exact hc k (by omega) h
    · rw [ih]
      constructor
      · intro h2 r hr
        by_cases hrk : r = k
        · rw [hrk]; exact h
        · exact h2 r (by omega)
      · intro h2 r hr
        exact h2 r (by omega)

theorem augment_solves (N : ℕ) (A : Mat) (b x : ℕ → ℝ) :
    Solves N (augment N A b) x ↔ ∀ r < N, ∑ c ∈ Finset.range N, A r c * x c = b r := by
  unfold Solves augment
  refine forall₂_congr fun r _ => ?_
  rw [if_neg (lt_irrefl N)]
  rw [Finset.sum_congr rfl fun c hc => by rw [if_pos (Finset.mem_range.1 hc)]]

/-- C52: whenever the elimination meets no zero pivot, so that it returns a vector, this vector
solves the original system. -/
theorem c52_elimination_solves (N : ℕ) (A : Mat) (b x : ℕ → ℝ) (h : gaussElim N A b = some x) :
    ∀ r < N, ∑ c ∈ Finset.range N, A r c * x c = b r := by
  rw [← augment_solves]
  unfold gaussElim at h
  rw [Option.bind_eq_some_iff] at h
  obtain ⟨A', h1, h2⟩ := h
  obtain ⟨hu, hs⟩ := elimLoop_spec N 0 _ _ A' (by omega) (fun r _ c hc => by omega) h1
  rw [← hs]
  exact backSub_spec hu N b x le_rfl (fun r hr hr' => by omega) h2

/-! ### Nonsingular systems -/

/-- Only the zero vector is mapped to zero. -/
def TrivialKer (N : ℕ) (A : Mat) : Prop :=
  ∀ y : ℕ → ℝ, (∀ r < N, ∑ c ∈ Finset.range N, A r c * y c = 0) → ∀ c < N, y c = 0

theorem trivialKer_iff_det (N : ℕ) (A : Mat) :
    TrivialKer N A ↔ (Matrix.of fun i j : Fin N => A i j).det ≠ 0 := by
  rw [Ne, ← Matrix.exists_mulVec_eq_zero_iff]
  constructor
  · rintro h ⟨v, hv, hz⟩
    apply hv
    funext i
    have := h (fun c => if hc : c < N then v ⟨c, hc⟩ else 0) (by
      intro r hr
      have := congrFun hz ⟨r, hr⟩
      simp only [Matrix.mulVec, dotProduct, Matrix.of_apply, Pi.zero_apply] at this
      rw [← this, Finset.sum_range]
      exact Finset.sum_congr rfl fun c _ => by simp) i i.2
    simpa using this
  · intro h y hy c hc
    by_contra hne
    apply h
    refine ⟨fun i => y i, fun hz => hne (congrFun hz ⟨c, hc⟩), ?_⟩
    funext i
    have := hy i i.2
    rw [Finset.sum_range] at this
    simpa [Matrix.mulVec, dotProduct] using this

/-- The same matrix with right-hand side zero. -/
def homog (N : ℕ) (A : Mat) : Mat := fun r c => if c < N then A r c else 0

theorem homog_solves (N : ℕ) (A : Mat) (x : ℕ → ℝ) :
    Solves N (homog N A) x ↔ ∀ r < N, ∑ c ∈ Finset.range N, A r c * x c = 0 := by
  unfold Solves homog
  refine forall₂_congr fun r _ => ?_
  rw [if_neg (lt_irrefl N)]
  rw [Finset.sum_congr rfl fun c hc => by rw [if_pos (Finset.mem_range.1 hc)]]

theorem trivialKer_swap {N a b : ℕ} (ha : a < N) (hb : b < N) (A : Mat) :
    TrivialKer N (swapRows A a b) ↔ TrivialKer N A := by
  have e : homog N (swapRows A a b) = swapRows (homog N A) a b := by
    funext r c
    simp only [homog, swapRows]
    split_ifs <;> simp_all [homog]
  unfold TrivialKer
  refine forall_congr' fun y => ?_
  rw [← homog_solves, ← homog_solves, e, swapRows_solves ha hb]

theorem trivialKer_eliminate {N col : ℕ} (hc : col < N) {A A' : Mat}
    (h : eliminate N col A = some A') : TrivialKer N A' ↔ TrivialKer N A := by
  have e : eliminate N col (homog N A) = some (homog N A') := by
    unfold eliminate at h ⊢
    split_ifs at h with hz
    have h0 : ∀ r, homog N A r col = A r col := fun r => by unfold homog; rw [if_pos hc]
    rw [if_neg (by rw [h0]; exact hz), ← Option.some.inj h]
    congr 1
    funext r c
    simp only [h0]
    unfold homog
    by_cases hcN : c < N
    · simp only [if_pos hcN]
    · simp only [if_neg hcN]; split_ifs <;> ring
  unfold TrivialKer
  refine forall_congr' fun y => ?_
  rw [← homog_solves, ← homog_solves, eliminate_solves hc e]

/-- If the first `k` pivots are not zero and column `k` vanishes from row `k` down, the kernel is
not trivial. -/
theorem not_trivialKer {N k : ℕ} (hk : k < N) {A : Mat} (hu : UpperTri N k A)
    (hd : ∀ r < k, A r r ≠ 0) (hz : ∀ r, k ≤ r → r < N → A r k = 0) : ¬ TrivialKer N A := by
  intro ht
  obtain ⟨B, hB⟩ : ∃ B : Mat, B = fun r c => if c = k then -A r k else A r c := ⟨_, rfl⟩
  have hBd : ∀ r < k, B r r ≠ 0 := by
    intro r hr; rw [hB]; simp only [if_neg hr.ne]; exact hd r hr
  obtain ⟨y, hy⟩ := Option.isSome_iff_exists.1 ((backSub_isSome (N := k) k (fun _ => 0)).2 hBd)
  have hBu : UpperTri k k B := by
    intro r hr c hc hcr
    rw [hB]; simp only [if_neg hc.ne]; exact hu r (by omega) c hc hcr
  have hs := backSub_spec hBu k (fun _ => 0) y le_rfl (fun r hr hr' => by omega) hy
  have h1 := ht (fun c => if c < k then y c else if c = k then 1 else 0) (by
    intro r hr
    have hsplit : ∑ c ∈ Finset.range N, A r c * (if c < k then y c else if c = k then 1 else 0) =
        ∑ c ∈ Finset.range k, A r c * y c + A r k := by
      rw [Finset.range_eq_Ico, ← Finset.sum_Ico_consecutive _ (Nat.zero_le (k + 1)) hk,
        Finset.sum_Ico_succ_top (Nat.zero_le k)]
      have e1 : ∑ c ∈ Finset.Ico (k + 1) N,
          A r c * (if c < k then y c else if c = k then 1 else 0) = 0 := by
        refine Finset.sum_eq_zero fun c hc => ?_
        have hc := Finset.mem_Ico.1 hc
        rw [if_neg (by omega), if_neg (by omega), mul_zero]
      rw [e1, if_neg (lt_irrefl k), if_pos rfl, mul_one, add_zero, Finset.range_eq_Ico]
      congr 1
      refine Finset.sum_congr rfl fun c hc => ?_
      rw [if_pos (Finset.mem_Ico.1 hc).2]
    rw [hsplit]
    by_cases hrk : r < k
    · have := hs r hrk
      rw [hB] at this
      simp only [if_true] at this
      rw [Finset.sum_congr rfl fun c hc => by
        rw [if_neg (Finset.mem_range.1 hc).ne]] at this
      linarith
    · rw [hz r (by omega) hr, add_zero]
      refine Finset.sum_eq_zero fun c hc => ?_
      have hc := Finset.mem_range.1 hc
      rw [hu r hr c hc (by omega), zero_mul]) k hk
  simp at h1

theorem swapRows_diag {k p : ℕ} (hk : k ≤ p) {A : Mat} {r : ℕ} (hr : r < k) :
    swapRows A k p r r = A r r := by
  unfold swapRows
  rw [if_neg (by omega), if_neg (by omega)]

theorem elimLoop_some {N : ℕ} (k : ℕ) : ∀ (col : ℕ) (A : Mat) (s : ℕ → ℝ),
    col + k = N → UpperTri N col A → TrivialKer N A → (∀ r < col, A r r ≠ 0) →
    (∀ r < N, s r ≠ 0) →
    ∃ A', elimLoop N k col A s = some A' ∧ ∀ r < N, A' r r ≠ 0 := by
  induction k with
  | zero =>
    intro col A s hN _ _ hd _
    exact ⟨A, rfl, fun r hr => hd r (by omega)⟩
  | succ k ih =>
    intro col A s hN hu ht hd hs
    have hp := argmaxFrom_spec (fun r => |A r col / s col|) (by omega : col < N)
    have hpv : A (pivotRow N col A s) col ≠ 0 := by
      intro h0
      refine not_trivialKer (by omega : col < N) hu hd ?_ ht
      intro r hr hrN
      have h1 := hp.2.2 r hr hrN
      have h2 : |A (argmaxFrom (fun r => |A r col / s col|) col N) col / s col| = 0 := by
        show |A (pivotRow N col A s) col / s col| = 0
        rw [h0]; simp
      rw [h2] at h1
      have h3 := abs_nonpos_iff.1 h1
      rcases div_eq_zero_iff.1 h3 with h4 | h4
      · exact h4
      · exact absurd h4 (hs col (by omega))
    obtain ⟨p, hpd⟩ : ∃ p, p = pivotRow N col A s := ⟨_, rfl⟩
    rw [← hpd] at hpv
    have hp1 : col ≤ p := by rw [hpd]; exact hp.1
    have hp2 : p < N := by rw [hpd]; exact hp.2.1
    have hpiv : swapRows A col p col col ≠ 0 := by
      unfold swapRows; rw [if_pos rfl]; exact hpv
    obtain ⟨B, hB⟩ : ∃ B, eliminate N col (swapRows A col p) = some B := by
      unfold eliminate
      rw [if_neg (fun h => hpiv h.2)]
      exact ⟨_, rfl⟩
    have hBd : ∀ r < col + 1, B r r ≠ 0 := by
      intro r hr
      have e : B r r = swapRows A col p r r := by
        unfold eliminate at hB
        rw [if_neg (fun h => hpiv h.2), Option.some.injEq] at hB
        rw [← hB]
        simp only
        rw [if_neg (by omega)]
      rw [e]
      by_cases hrc : r = col
      · rw [hrc]; exact hpiv
      · rw [swapRows_diag hp1 (by omega)]; exact hd r (by omega)
    have hs' : ∀ r < N, swapRows s col p r ≠ 0 := by
      intro r hr
      unfold swapRows
      split_ifs
      · exact hs p hp2
      · exact hs col (by omega)
      · exact hs r hr
    obtain ⟨A', h1, h2⟩ := ih (col + 1) B _ (by omega)
      (eliminate_upper (swapRows_upper hp1 hp2 hu) hB)
      ((trivialKer_eliminate (by omega) hB).2 ((trivialKer_swap (by omega) hp2 A).2 ht)) hBd hs'
    refine ⟨A', ?_, h2⟩
    unfold elimLoop
    rw [← hpd, hB]
    exact h1

theorem fold_max_pos (f : ℕ → ℝ) (l : List ℕ) (b : ℝ) :
    b ≤ l.foldl (fun m c => max m |f c|) b ∧ ∀ c ∈ l, |f c| ≤ l.foldl (fun m c => max m |f c|) b := by
  induction l generalizing b with
  | nil => simp
  | cons a l ih =>
    obtain ⟨h1, h2⟩ := ih (max b |f a|)
    refine ⟨(le_max_left _ _).trans h1, fun c hc => ?_⟩
    rcases List.mem_cons.1 hc with h | h
    · rw [h]; exact (le_max_right _ _).trans h1
    · exact h2 c h

/-- C52: every system with a nonsingular matrix is solved. -/
theorem c52_nonsingular_solved (N : ℕ) (A : Mat) (b : ℕ → ℝ)
    (hdet : (Matrix.of fun i j : Fin N => A i j).det ≠ 0) :
    ∃ x, gaussElim N A b = some x ∧ ∀ r < N, ∑ c ∈ Finset.range N, A r c * x c = b r := by
  have ht := (trivialKer_iff_det N A).2 hdet
  have hta : TrivialKer N (augment N A b) := by
    intro y hy
    refine ht y fun r hr => ?_
    rw [← hy r hr]
    refine Finset.sum_congr rfl fun c hc => ?_
    unfold augment
    rw [if_pos (Finset.mem_range.1 hc)]
  have hs : ∀ r < N, scaleFactor N A r ≠ 0 := by
    intro r hr h0
    have hrow : ∀ c < N, A r c = 0 := by
      intro c hc
      have := (fold_max_pos (A r) (List.range N) 0).2 c (List.mem_range.2 hc)
      unfold scaleFactor at h0
      rw [h0] at this
      exact abs_nonpos_iff.1 this
    apply hdet
    exact Matrix.det_eq_zero_of_row_eq_zero ⟨r, hr⟩ fun j => hrow j j.2
  obtain ⟨A', h1, h2⟩ := elimLoop_some N 0 (augment N A b) (scaleFactor N A) (by omega)
    (fun r _ c hc => by omega) hta (fun r hr => by omega) hs
  obtain ⟨x, hx⟩ := Option.isSome_iff_exists.1 ((backSub_isSome (N := N) N b).2 h2)
  have hg : gaussElim N A b = some x := by
    unfold gaussElim
    rw [h1]
    exact hx
  exact ⟨x, hg, c52_elimination_solves N A b x hg⟩

/-- C52: a system with a singular matrix makes the elimination fail, it never returns a vector. -/
theorem c52_singular_fails (N : ℕ) (A : Mat) (b : ℕ → ℝ)
    (hdet : (Matrix.of fun i j : Fin N => A i j).det = 0) : gaussElim N A b = none := by
  by_contra hne
  obtain ⟨x, hx⟩ := Option.ne_none_iff_exists'.1 hne
  have hx' := hx
  unfold gaussElim at hx'
  rw [Option.bind_eq_some_iff] at hx'
  obtain ⟨A', h1, h2⟩ := hx'
  obtain ⟨hu, hs⟩ := elimLoop_spec N 0 _ _ A' (by omega) (fun r _ c hc => by omega) h1
  have hd := (backSub_isSome (N := N) N b).1 (Option.isSome_iff_exists.2 ⟨x, h2⟩)
  -- the solution of the triangular system is unique
  have huniq : ∀ y z, Solves N A' y → Solves N A' z → ∀ c < N, y c = z c := by
    intro y z hy hz
    have key : ∀ m ≤ N, ∀ c, N - m ≤ c → c < N → y c = z c := by
      intro m
      induction m with
      | zero => intro _ c hc hc'; omega
      | succ m ih =>
        intro hm c hc hc'
        by_cases hcm : N - m ≤ c
        · exact ih (by omega) c hcm hc'
        · have e : ∀ w, Solves N A' w → A' c c * w c + ∑ i ∈ Finset.Ico (c + 1) N, A' c i * w i =
              A' c N := by
            intro w hw
            rw [← hw c hc', Finset.range_eq_Ico, ← Finset.sum_Ico_consecutive _
              (Nat.zero_le (c + 1)) hc', Finset.sum_Ico_succ_top (Nat.zero_le c)]
            have e1 : ∑ i ∈ Finset.Ico 0 c, A' c i * w i = 0 :=
              Finset.sum_eq_zero fun i hi => by
                have hi := Finset.mem_Ico.1 hi
                rw [hu c hc' i (by omega) hi.2, zero_mul]
            rw [e1, zero_add]
          have e3 : ∑ i ∈ Finset.Ico (c + 1) N, A' c i * y i =
              ∑ i ∈ Finset.Ico (c + 1) N, A' c i * z i := by
            refine Finset.sum_congr rfl fun i hi => ?_
            have hi := Finset.mem_Ico.1 hi
            rw [ih (by omega) i (by omega) hi.2]
          have h3 := e y hy
          have h4 := e z hz
          rw [e3] at h3
          exact mul_left_cancel₀ (hd c hc') (by linarith)
    exact fun c hc => key N le_rfl c (by omega) hc
  have hnt : ¬ TrivialKer N A := fun h => (trivialKer_iff_det N A).1 h hdet
  unfold TrivialKer at hnt
  push Not at hnt
  obtain ⟨y, hy, c, hc, hyc⟩ := hnt
  have hsx := c52_elimination_solves N A b x hx
  have hsxy : ∀ r < N, ∑ c ∈ Finset.range N, A r c * (x c + y c) = b r := by
    intro r hr
    rw [Finset.sum_congr rfl fun c _ => mul_add (A r c) (x c) (y c), Finset.sum_add_distrib,
      hsx r hr, hy r hr, add_zero]
  have := huniq x (fun c => x c + y c) ((hs _).2 ((augment_solves _ _ _ _).2 hsx))
    ((hs _).2 ((augment_solves _ _ _ _).2 hsxy)) c hc
  apply hyc
  linarith

/-- A system that needs a row swap: `[[0, 2], [3, 1]] x = [4, 5]`. -/
def exampleSystem : Mat := fun r c =>
  if r = 0 then (if c = 0 then 0 else 2) else (if c = 0 then 3 else 1)

theorem exampleSystem_det : (Matrix.of fun i j : Fin 2 => exampleSystem i j).det ≠ 0 := by
  rw [Matrix.det_fin_two]
  norm_num [exampleSystem]

example : ∃ x, gaussElim 2 exampleSystem (fun r => 4 + r) = some x ∧
    ∀ r < 2, ∑ c ∈ Finset.range 2, exampleSystem r c * x c = 4 + r :=
  c52_nonsingular_solved 2 exampleSystem _ exampleSystem_det

example : ∃ x : ℕ → ℝ, (∀ r < 2, ∑ c ∈ Finset.range 2, exampleSystem r c * x c = 4 + r) := by
  obtain ⟨x, hx, _⟩ := c52_nonsingular_solved 2 exampleSystem (fun r => 4 + r) exampleSystem_det
  exact ⟨x, c52_elimination_solves 2 exampleSystem _ x hx⟩

example : gaussElim 2 (fun _ _ => 1) (fun r => 4 + r) = none :=
  c52_singular_fails 2 _ _ (by rw [Matrix.det_fin_two]; simp)

end Verif.Props
