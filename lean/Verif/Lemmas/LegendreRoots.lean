import Verif.Lemmas.Lobatto
import Mathlib.Algebra.Order.BigOperators.Ring.Finset
import Mathlib.Topology.Order.IntermediateValue
import Mathlib.Topology.Algebra.Polynomial

/-! Legendre polynomials have as many roots between `-1` and `1` as their order, and between two
neighbours there is exactly one root of the derivative. -/

namespace Verif.Lemmas

open Polynomial Verif.Spec

/-- `x 0 < ... < x (n - 1)` are roots of `p`. -/
structure RootList (p : ℝ[X]) (n : ℕ) (x : ℕ → ℝ) : Prop where
  root : ∀ i < n, p.eval (x i) = 0
  inc : ∀ i, i + 1 < n → x i < x (i + 1)

theorem inc_lt {n : ℕ} {x : ℕ → ℝ} (h : ∀ i, i + 1 < n → x i < x (i + 1)) {i j : ℕ} (hij : i < j)
    (hj : j < n) : x i < x j := by
  induction j with
  | zero => omega
  | succ j ih =>
    rcases Nat.lt_succ_iff_lt_or_eq.1 hij with h1 | h1
    · exact (ih h1 (by omega)).trans (h j hj)
    · subst h1; exact h i hj

theorem inc_inj {n : ℕ} {x : ℕ → ℝ} (h : ∀ i, i + 1 < n → x i < x (i + 1)) {i j : ℕ} (hi : i < n)
    (hj : j < n) (hx : x i = x j) : i = j := by
  rcases lt_trichotomy i j with h1 | h1 | h1
  · exact absurd hx (inc_lt h h1 hj).ne
  · exact h1
  · exact absurd hx (inc_lt h h1 hi).ne'

/-- A polynomial with as many roots as its degree is a product. -/
theorem RootList.prod {p : ℝ[X]} {n : ℕ} {x : ℕ → ℝ} (h : RootList p n x) (hd : p.natDegree = n) :
    p = C (p.coeff n) * ∏ i ∈ Finset.range n, (X - C (x i)) := by
  classical
  have hcard : ((Finset.range n).image x).card = n := by
    rw [Finset.card_image_of_injOn, Finset.card_range]
    intro i hi j hj hij
    exact inc_inj h.inc (by simpa using hi) (by simpa using hj) hij
  have hmon : (∏ i ∈ Finset.range n, (X - C (x i))).Monic := monic_prod_X_sub_C _ _
  have hdp : (∏ i ∈ Finset.range n, (X - C (x i))).natDegree = n := by
    rw [natDegree_prod_of_monic _ _ fun i _ => monic_X_sub_C _]
    simp
  by_cases hn : n = 0
  · subst hn
    rw [Finset.range_zero, Finset.prod_empty, mul_one]
    exact eq_C_of_natDegree_eq_zero hd
  refine eq_of_degree_sub_lt_of_eval_finset_eq ((Finset.range n).image x) ?_ ?_
  · rw [hcard]
    refine (degree_le_of_natDegree_le (n := n - 1) ?_).trans_lt (by exact_mod_cast (by omega : n - 1 < n))
    have h1 : (p - C (p.coeff n) * ∏ i ∈ Finset.range n, (X - C (x i))).natDegree ≤ n :=
      (natDegree_sub_le _ _).trans (max_le hd.le ((natDegree_C_mul_le _ _).trans hdp.le))
    have h2 : (p - C (p.coeff n) * ∏ i ∈ Finset.range n, (X - C (x i))).coeff n = 0 := by
      have := hmon.coeff_natDegree
      rw [hdp] at this
      rw [coeff_sub, coeff_C_mul, this, mul_one, sub_self]
    rcases Nat.lt_or_ge (p - C (p.coeff n) * ∏ i ∈ Finset.range n, (X - C (x i))).natDegree n with
      h3 | h3
    · omega
    · have h4 := le_antisymm h1 h3
      have h5 : (p - C (p.coeff n) * ∏ i ∈ Finset.range n, (X - C (x i))).leadingCoeff = 0 := by
        rw [leadingCoeff, h4, h2]
      rw [leadingCoeff_eq_zero.1 h5, natDegree_zero]
      omega
  · intro y hy
    obtain ⟨i, hi, rfl⟩ := Finset.mem_image.1 hy
    rw [h.root i (Finset.mem_range.1 hi), eval_mul, eval_prod,
      Finset.prod_eq_zero hi (by simp), mul_zero]

/-- It has no other roots. -/
theorem RootList.mem {p : ℝ[X]} {n : ℕ} {x : ℕ → ℝ} (h : RootList p n x) (hd : p.natDegree = n)
    (h0 : p ≠ 0) {y : ℝ} (hy : p.eval y = 0) : ∃ i < n, y = x i := by
  have hc : p.coeff n ≠ 0 := by rw [← hd]; exact leadingCoeff_ne_zero.2 h0
  rw [h.prod hd, eval_mul, eval_C, eval_prod] at hy
  obtain ⟨i, hi, h1⟩ := Finset.prod_eq_zero_iff.1 ((mul_eq_zero.1 hy).resolve_left hc)
  exact ⟨i, Finset.mem_range.1 hi, by simpa [sub_eq_zero] using h1⟩

/-- Two lists of all roots are the same. -/
theorem RootList.unique {p : ℝ[X]} {n : ℕ} {x y : ℕ → ℝ} (h : RootList p n x) (h' : RootList p n y)
    (hd : p.natDegree = n) (h0 : p ≠ 0) : ∀ i < n, x i = y i := by
  classical
  have hc : ∀ z : ℕ → ℝ, RootList p n z → (Finset.univ.image fun i : Fin n => z i).card = n := by
    intro z hz
    rw [Finset.card_image_of_injective, Finset.card_univ, Fintype.card_fin]
    intro i j hij
    exact Fin.ext (inc_inj hz.inc i.2 j.2 hij)
  have hm : ∀ z : ℕ → ℝ, RootList p n z → StrictMono fun i : Fin n => z i :=
    fun z hz i j hij => inc_lt hz.inc hij j.2
  have e : (Finset.univ.image fun i : Fin n => y i) = Finset.univ.image fun i : Fin n => x i := by
    refine Finset.eq_of_subset_of_card_le ?_ (by rw [hc x h, hc y h'])
    intro z hz
    obtain ⟨i, -, rfl⟩ := Finset.mem_image.1 hz
    obtain ⟨j, hj, h1⟩ := h.mem hd h0 (h'.root i i.2)
    exact Finset.mem_image.2 ⟨⟨j, hj⟩, Finset.mem_univ _, h1.symm⟩
  have h1 := Finset.orderEmbOfFin_unique (hc x h) (f := fun i : Fin n => x i)
    (fun i => Finset.mem_image_of_mem _ (Finset.mem_univ i)) (hm x h)
  have h2 := Finset.orderEmbOfFin_unique (hc x h) (f := fun i : Fin n => y i)
    (fun i => by rw [← e]; exact Finset.mem_image_of_mem _ (Finset.mem_univ i)) (hm y h')
  intro i hi
  exact (congrFun h1 ⟨i, hi⟩).trans (congrFun h2 ⟨i, hi⟩).symm

/-- The roots of an even or odd polynomial are symmetric. -/
theorem RootList.symm {p : ℝ[X]} {n : ℕ} {x : ℕ → ℝ} (h : RootList p n x) (hd : p.natDegree = n)
    (h0 : p ≠ 0) {s : ℝ} (hs : ∀ y, p.eval (-y) = s * p.eval y) : ∀ i < n, x (n - 1 - i) = -x i := by
  have h' : RootList p n fun i => -x (n - 1 - i) := by
    refine ⟨fun i hi => ?_, fun i hi => ?_⟩
    · rw [hs, h.root _ (by omega), mul_zero]
    · have := h.inc (n - 1 - (i + 1)) (by omega)
      rw [show n - 1 - (i + 1) + 1 = n - 1 - i by omega] at this
      simpa using this
  intro i hi
  have := h.unique h' hd h0 i hi
  linarith

theorem sign_prod {n : ℕ} {x : ℕ → ℝ} {y : ℝ} {j : ℕ} (hj : j ≤ n) (h1 : ∀ i < j, x i < y)
    (h2 : ∀ i < n, j ≤ i → y < x i) :
    0 < (-1 : ℝ) ^ (n + j) * ∏ i ∈ Finset.range n, (y - x i) := by
  induction n with
  | zero =>
    have : j = 0 := by omega
    subst this; simp
  | succ n ih =>
    rcases Nat.lt_or_ge n j with h | h
    · have : j = n + 1 := by omega
      subst this
      rw [← two_mul, pow_mul]
      simp only [even_two, Even.neg_pow, one_pow, one_mul]
      exact Finset.prod_pos fun i hi => sub_pos.2 (h1 i (Finset.mem_range.1 hi))
    · have := ih h fun i hi => h2 i (by omega)
      rw [Finset.prod_range_succ, show n + 1 + j = n + j + 1 by ring, pow_succ]
      have h3 := h2 n (by omega) h
      nlinarith [mul_pos this (sub_pos.2 h3)]

/-- A polynomial of opposite signs at `a` and `b` has a root in between. -/
theorem root_between (p : ℝ[X]) {a b : ℝ} (hab : a < b) {s : ℝ} (ha : 0 < s * p.eval a)
    (hb : 0 < -s * p.eval b) : ∃ y, a < y ∧ y < b ∧ p.eval y = 0 := by
  have hs : s ≠ 0 := by rintro rfl; simp at ha
  have hc : ContinuousOn (fun y => s * p.eval y) (Set.Icc a b) :=
    (continuous_const.mul p.continuous).continuousOn
  obtain ⟨y, hy, h⟩ := intermediate_value_Ioo' hab.le hc
    (show (0 : ℝ) ∈ Set.Ioo (s * p.eval b) (s * p.eval a) from ⟨by linarith, ha⟩)
  exact ⟨y, hy.1, hy.2, (mul_eq_zero.1 h).resolve_left hs⟩

/-- The Legendre polynomial of order `n + 1` has `n + 1` roots between `-1` and `1`, at which the
one before alternates in sign. -/
theorem legendre_roots_aux (n : ℕ) : ∃ x, RootList (legendre (n + 1)) (n + 1) x ∧
    (∀ i < n + 1, -1 < x i ∧ x i < 1) ∧
    ∀ i < n + 1, 0 < (-1 : ℝ) ^ (n + i) * (legendre n).eval (x i) := by
  induction n with
  | zero =>
    refine ⟨fun _ => 0, ⟨fun i _ => by simp [legendre_one], fun i hi => by omega⟩,
      fun i _ => by norm_num, fun i hi => ?_⟩
    have : i = 0 := by omega
    subst this
    simp [legendre_zero]
  | succ n ih =>
    obtain ⟨x, hr, hin, hs⟩ := ih
    -- points between which the next polynomial changes sign
    set e : ℕ → ℝ := fun j => if j = 0 then -1 else if j = n + 2 then 1 else x (j - 1) with he
    have he0 : e 0 = -1 := by simp [he]
    have he1 : e (n + 2) = 1 := by simp [he]
    have hem : ∀ i < n + 1, e (i + 1) = x i := by
      intro i hi
      simp only [he, Nat.add_sub_cancel]
      rw [if_neg (by omega), if_neg (by omega)]
    have hinc : ∀ j, j < n + 2 → e j < e (j + 1) := by
      intro j hj
      rcases Nat.eq_zero_or_pos j with rfl | h0
      · rw [he0, hem 0 (by omega)]; exact (hin 0 (by omega)).1
      · obtain ⟨i, rfl⟩ : ∃ i, j = i + 1 := ⟨j - 1, by omega⟩
        rw [hem i (by omega)]
        rcases Nat.lt_or_ge (i + 1) (n + 1) with h1 | h1
        · rw [hem (i + 1) h1]; exact hr.inc i h1
        · rw [show i + 1 + 1 = n + 2 by omega, he1]; exact (hin i (by omega)).2
    have hsg : ∀ j ≤ n + 2, 0 < (-1 : ℝ) ^ (n + j) * (legendre (n + 2)).eval (e j) := by
      intro j hj
      rcases Nat.eq_zero_or_pos j with rfl | h0
      · rw [he0, legendre_eval_neg_one, ← pow_add, show n + 0 + (n + 2) = 2 * (n + 1) by ring,
          pow_mul]
        simp
      · rcases Nat.eq_or_lt_of_le hj with rfl | h1
        · rw [he1, legendre_eval_one, show n + (n + 2) = 2 * (n + 1) by ring, pow_mul]
          simp
        · obtain ⟨i, rfl⟩ : ∃ i, j = i + 1 := ⟨j - 1, by omega⟩
          rw [hem i (by omega)]
          have hb := congrArg (fun p => p.eval (x i)) (bonnet n)
          simp only [eval_mul, eval_C, eval_sub, eval_X, hr.root i (by omega), mul_zero,
            zero_sub] at hb
          have h2 := hs i (by omega)
          have h3 : (legendre (n + 2)).eval (x i) =
              -(((n : ℝ) + 1) / ((n : ℝ) + 2)) * (legendre n).eval (x i) := by
            have : ((n : ℝ) + 2) ≠ 0 := by positivity
            field_simp
            linarith
          rw [h3, show n + (i + 1) = n + i + 1 by ring, pow_succ]
          have : 0 < ((n : ℝ) + 1) / ((n : ℝ) + 2) * ((-1) ^ (n + i) * (legendre n).eval (x i)) :=
            mul_pos (by positivity) h2
          linarith
    have hex : ∀ j, ∃ y, j < n + 2 → e j < y ∧ y < e (j + 1) ∧ (legendre (n + 2)).eval y = 0 := by
      intro j
      by_cases hj : j < n + 2
      · obtain ⟨y, h1⟩ := root_between (legendre (n + 2)) (hinc j hj) (hsg j hj.le) (by
          have := hsg (j + 1) hj
          rwa [show n + (j + 1) = n + j + 1 by ring, pow_succ, mul_neg_one] at this)
        exact ⟨y, fun _ => h1⟩
      · exact ⟨0, fun h => absurd h hj⟩
    choose y hy using hex
    have hle : ∀ j k, j ≤ k → k ≤ n + 2 → e j ≤ e k := by
      intro j k hjk hk
      induction k with
      | zero => rw [Nat.le_zero.1 hjk]
      | succ k ih =>
        rcases Nat.of_le_succ hjk with h | h
        · exact (ih h (by omega)).trans (hinc k (by omega)).le
        · rw [h]
    refine ⟨y, ⟨fun j hj => (hy j hj).2.2, fun j hj => ?_⟩, fun j hj => ⟨?_, ?_⟩, fun j hj => ?_⟩
    · exact (hy j (by omega)).2.1.trans (hy (j + 1) hj).1
    · exact lt_of_le_of_lt (by rw [← he0]; exact hle 0 j (by omega) (by omega)) (hy j hj).1
    · exact lt_of_lt_of_le (hy j hj).2.1 (by rw [← he1]; exact hle (j + 1) (n + 2) hj le_rfl)
    · have hp := hr.prod (legendre_natDegree_eq (n + 1))
      have h1 : (legendre (n + 1)).eval (y j) = (legendre (n + 1)).coeff (n + 1) *
          ∏ i ∈ Finset.range (n + 1), (y j - x i) := by
        conv_lhs => rw [hp]
        simp [eval_prod]
      rw [h1]
      have h2 := sign_prod (n := n + 1) (x := x) (y := y j) (j := j) (by omega)
        (fun i hi => by
          rw [← hem i (by omega)]
          exact lt_of_le_of_lt (hle (i + 1) j hi (by omega)) (hy j hj).1)
        (fun i hi hji => by
          rw [← hem i hi]
          exact lt_of_lt_of_le (hy j hj).2.1 (hle (j + 1) (i + 1) (by omega) (by omega)))
      have := mul_pos (legendre_coeff (n + 1)) h2
      linarith

/-- The Legendre polynomial of order `n` has `n` roots between `-1` and `1`. -/
theorem legendre_roots (n : ℕ) :
    ∃ x, RootList (legendre n) n x ∧ ∀ i < n, -1 < x i ∧ x i < 1 := by
  cases n with
  | zero => exact ⟨fun _ => 0, ⟨fun i hi => by omega, fun i hi => by omega⟩, fun i hi => by omega⟩
  | succ n =>
    obtain ⟨x, h1, h2, -⟩ := legendre_roots_aux n
    exact ⟨x, h1, h2⟩

theorem derivative_legendre_natDegree (n : ℕ) :
    (derivative (legendre (n + 1))).natDegree = n ∧ derivative (legendre (n + 1)) ≠ 0 := by
  have hc : (derivative (legendre (n + 1))).coeff n ≠ 0 := by
    rw [coeff_derivative]
    exact mul_ne_zero (legendre_coeff (n + 1)).ne' (by positivity)
  refine ⟨le_antisymm ?_ (le_natDegree_of_ne_zero hc), fun h => hc (by rw [h, coeff_zero])⟩
  exact (natDegree_derivative_le _).trans (by rw [legendre_natDegree_eq]; simp)

/-- Between neighbours in a list of all roots of the Legendre polynomial there is a root of the
derivative; these are all its roots. -/
theorem derivative_roots {n : ℕ} {x : ℕ → ℝ} (h : RootList (legendre (n + 1)) (n + 1) x) :
    ∃ z, RootList (derivative (legendre (n + 1))) n z ∧ ∀ i < n, x i < z i ∧ z i < x (i + 1) := by
  have hex : ∀ i, ∃ z, i < n → x i < z ∧ z < x (i + 1) ∧
      (derivative (legendre (n + 1))).eval z = 0 := by
    intro i
    by_cases hi : i < n
    · obtain ⟨z, hz, h1⟩ := exists_hasDerivAt_eq_zero (h.inc i (by omega))
        (legendre (n + 1)).continuous.continuousOn
        ((h.root i (by omega)).trans (h.root (i + 1) (by omega)).symm)
        (fun z _ => (legendre (n + 1)).hasDerivAt z)
      exact ⟨z, fun _ => ⟨hz.1, hz.2, h1⟩⟩
    · exact ⟨0, fun h => absurd h hi⟩
  choose z hz using hex
  exact ⟨z, ⟨fun i hi => (hz i hi).2.2, fun i hi =>
    (hz i (by omega)).2.1.trans (hz (i + 1) hi).1⟩, fun i hi => ⟨(hz i hi).1, (hz i hi).2.1⟩⟩

theorem derivative_legendre_neg (n : ℕ) (y : ℝ) :
    (derivative (legendre n)).eval (-y) = -(-1) ^ n * (derivative (legendre n)).eval y := by
  have h : (legendre n).comp (-X) = C ((-1) ^ n) * legendre n := by
    apply Polynomial.funext
    intro r
    simp only [eval_comp, eval_neg, eval_X, eval_mul, eval_C]
    exact legendre_eval_neg n r
  have h1 := congrArg (fun p => (derivative p).eval y) h
  simp only [derivative_comp, derivative_neg, derivative_X, derivative_C_mul, eval_mul, eval_neg,
    eval_one, eval_comp, eval_X, eval_C] at h1
  linarith

end Verif.Lemmas
