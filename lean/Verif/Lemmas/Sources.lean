import Verif.Model.Sources
import Verif.Lemmas.Flux
import Verif.Lemmas.SlabBasis
import Verif.Props.Numerics
import Verif.Props.SlabBasis
import Mathlib.Analysis.SpecialFunctions.Trigonometric.Chebyshev.Orthogonality

/-! Helper facts: quadrature moments of polynomial fields. -/

namespace Verif.Lemmas

open Polynomial Verif.Spec Verif.Model

theorem list_sum_finset {α : Type*} (l : List α) (s : Finset ℕ) (f : ℕ → α → ℝ) :
    (l.map fun r => ∑ i ∈ s, f i r).sum = ∑ i ∈ s, (l.map (f i)).sum := by
  induction l with
  | nil => simp
  | cons r l ih => simp [ih, Finset.sum_add_distrib]

theorem list_sum_mul_left {α : Type*} (l : List α) (k : ℝ) (f : α → ℝ) :
    (l.map fun r => k * f r).sum = k * (l.map f).sum := by
  induction l with
  | nil => simp
  | cons r l ih => simp [ih]; ring

theorem legendre_natDegree (n : ℕ) : (legendre n).natDegree ≤ n := by
  induction n using Nat.strong_induction_on with
  | _ n ih =>
    match n with
    | 0 => simp [legendre]
    | 1 => simp [legendre]
    | n + 2 =>
      unfold legendre
      refine (natDegree_C_mul_le _ _).trans ((natDegree_sub_le _ _).trans (max_le ?_ ?_))
      · refine (natDegree_mul_le).trans ?_
        have h1 := ih (n + 1) (by omega)
        have h2 : (C (2 * (n : ℝ) + 3) * X).natDegree ≤ 1 :=
          (natDegree_C_mul_le _ _).trans natDegree_X_le
        omega
      · exact (natDegree_C_mul_le _ _).trans ((ih n (by omega)).trans (by omega))

theorem zSlab_quadPoint {a b : ℝ} (h : a < b) (x : ℝ) : zSlab (quadPoint a b x) a b = x := by
  have : a - b ≠ 0 := by linarith
  unfold zSlab quadPoint; field_simp; ring

theorem ref_quadPoint {a b : ℝ} (h : a < b) (x : ℝ) : ref (quadPoint a b x) a b = x := by
  have : b - a ≠ 0 := by linarith
  unfold ref quadPoint; field_simp; ring

theorem zSphere_quadPoint {a b : ℝ} (h : a < b) (x : ℝ) : zSphere (quadPoint a b x) a b = x := by
  have : b - a ≠ 0 := by linarith
  unfold zSphere quadPoint; field_simp; ring

theorem quad_normPn {q : List (ℝ × ℝ)} {i j n : ℕ} (hq : QuadExact q n) (hn : i + j ≤ n)
    {a b : ℝ} (h : a < b) :
    (b - a) / 2 * (q.map fun r => r.2 * normPn i (quadPoint a b r.1) a b *
      normPn j (quadPoint a b r.1) a b).sum = if i = j then 1 else 0 := by
  have hd : (legendre i * legendre j).natDegree ≤ n :=
    natDegree_mul_le.trans ((add_le_add (legendre_natDegree i) (legendre_natDegree j)).trans hn)
  have e := hq _ hd
  have hI := I_mul i j
  unfold I at hI
  rw [hI] at e
  have e2 : (q.map fun r => r.2 * normPn i (quadPoint a b r.1) a b *
      normPn j (quadPoint a b r.1) a b).sum =
      (√((2 * (i : ℝ) + 1) / (b - a)) * √((2 * (j : ℝ) + 1) / (b - a))) *
        (q.map fun r => r.2 * (legendre i * legendre j).eval r.1).sum := by
    rw [← list_sum_mul_left]
    congr 1
    apply List.map_congr_left
    intro r _
    simp only [normPn, zSlab_quadPoint h, eval_mul]
    ring
  have hb : b - a ≠ 0 := by linarith
  rw [e2, e]
  by_cases hij : i = j
  · subst hij
    have hs : √((2 * (i : ℝ) + 1) / (b - a)) * √((2 * (i : ℝ) + 1) / (b - a)) =
        (2 * (i : ℝ) + 1) / (b - a) :=
      Real.mul_self_sqrt (div_nonneg (by positivity) (by linarith))
    have : (2 * (i : ℝ) + 1) ≠ 0 := by positivity
    rw [hs]
    simp [delta]
    field_simp
  · simp [delta, hij]

/-- Moments by an exact rule of a polynomial field are its coefficients. -/
theorem slabMoment_field {q : List (ℝ × ℝ)} {M : ℕ} (hq : QuadExact q (2 * M)) {a b : ℝ}
    (h : a < b) (U : ℕ → ℝ) (f : ℝ → ℝ)
    (hf : ∀ r ∈ q, f (quadPoint a b r.1) = slabField M U a b (quadPoint a b r.1)) {j : ℕ}
    (hj : j ≤ M) : slabMoment q f a b j = U j := by
  have e : (q.map fun r => r.2 * f (quadPoint a b r.1) * normPn j (quadPoint a b r.1) a b) =
      q.map fun r => ∑ i ∈ Finset.range (M + 1), U i * (r.2 * normPn i (quadPoint a b r.1) a b *
        normPn j (quadPoint a b r.1) a b) := by
    apply List.map_congr_left
    intro r hr
    rw [hf r hr]
    unfold slabField
    rw [Finset.mul_sum, Finset.sum_mul]
    refine Finset.sum_congr rfl fun i _ => ?_
    rw [normPn_eq_slabBasis i _ h]
    ring
  unfold slabMoment
  rw [e, list_sum_finset, Finset.mul_sum]
  have e2 : ∀ i ∈ Finset.range (M + 1), (b - a) / 2 * (q.map fun r => U i *
      (r.2 * normPn i (quadPoint a b r.1) a b * normPn j (quadPoint a b r.1) a b)).sum =
      if i = j then U i else 0 := by
    intro i hi
    rw [list_sum_mul_left, mul_left_comm,
      quad_normPn hq (by have := Finset.mem_range.1 hi; omega) h]
    split_ifs <;> simp
  rw [Finset.sum_congr rfl e2, Finset.sum_ite_eq']
  simp [Nat.lt_succ_of_le hj]

theorem slabMoment_const_mul (q : List (ℝ × ℝ)) (k : ℝ) (f g : ℝ → ℝ) (hf : ∀ x, f x = k * g x)
    (a b : ℝ) (j : ℕ) : slabMoment q f a b j = k * slabMoment q g a b j := by
  unfold slabMoment
  rw [mul_left_comm k, ← list_sum_mul_left q k]
  congr 2
  apply List.map_congr_left
  intro r _
  rw [hf]
  ring

/-- The rule `quadrature(n, 'chebyshev')` as a list of nodes and weights. -/
noncomputable def chebRule (n : ℕ) : List (ℝ × ℝ) :=
  (List.range n).map fun i => (chebNode n i, chebWeight n i)

theorem chebRule_sum {n : ℕ} (hn : 1 ≤ n) (p : ℝ[X]) (hp : p.natDegree < 2 * n) :
    ((chebRule n).map fun r => r.2 * p.eval r.1).sum =
      ∫ x, p.eval x ∂Chebyshev.measureT := by
  have h := Verif.Props.c32_chebyshev_exact hn p
    (lt_of_le_of_lt degree_le_natDegree (by exact_mod_cast hp))
  rw [Chebyshev.integral_measureT]
  simp only [Real.sqrt_inv]
  rw [← h, chebRule, List.map_map, Finset.sum_range]
  rw [← List.sum_ofFn]
  congr 1
  apply List.ext_getElem <;> simp

theorem normTn_quadPoint {j : ℕ} (hj : j ≤ 12) {a b : ℝ} (h : a < b) (x : ℝ) :
    (normTn j (quadPoint a b x) a b).getD 0 = sphereBasis j (quadPoint a b x) a b := by
  have hb : 0 < b - a := by linarith
  unfold normTn normTnFactor sphereBasis
  rw [zSphere_quadPoint h, ref_quadPoint h, Verif.Props.c03_chebyshev_table j hj]
  simp only [Option.map_some, Option.getD_some]
  congr 1
  have hpi := Real.pi_pos
  have e1 : ∀ k : ℝ, √(k / (Real.pi * (b - a))) = √k / (√Real.pi * √(b - a)) := fun k => by
    rw [Real.sqrt_div' _ (by positivity), Real.sqrt_mul hpi.le]
  rw [e1, Real.sqrt_div' _ hb.le, Real.sqrt_one]
  have h1 : √(b - a) ≠ 0 := (Real.sqrt_pos.2 hb).ne'
  have h2 : √Real.pi ≠ 0 := (Real.sqrt_pos.2 hpi).ne'
  have h3 : √(2 : ℝ) ≠ 0 := by positivity
  by_cases h0 : j = 0
  · subst h0; simp [kronecker]; field_simp
  · simp [kronecker, h0]; field_simp

theorem quad_sphereBasis {n i j : ℕ} (hn : i + j < 2 * n) {a b : ℝ} (h : a < b) :
    (b - a) * ((chebRule n).map fun r => r.2 * sphereBasis i (quadPoint a b r.1) a b *
      sphereBasis j (quadPoint a b r.1) a b).sum = if i = j then 1 else 0 := by
  have hb : 0 < b - a := by linarith
  have hpi := Real.pi_pos
  have hd : (Chebyshev.T ℝ i * Chebyshev.T ℝ j).natDegree < 2 * n := by
    refine lt_of_le_of_lt natDegree_mul_le ?_
    rw [Chebyshev.natDegree_T, Chebyshev.natDegree_T]
    simpa using hn
  have e := chebRule_sum (by omega) _ hd
  have e2 : ((chebRule n).map fun r => r.2 * sphereBasis i (quadPoint a b r.1) a b *
      sphereBasis j (quadPoint a b r.1) a b).sum =
      (√((if i = 0 then 1 else 2) / (Real.pi * (b - a))) *
        √((if j = 0 then 1 else 2) / (Real.pi * (b - a)))) *
        ((chebRule n).map fun r => r.2 * (Chebyshev.T ℝ i * Chebyshev.T ℝ j).eval r.1).sum := by
    rw [← list_sum_mul_left]
    congr 1
    apply List.map_congr_left
    intro r _
    simp only [sphereBasis, ref_quadPoint h, eval_mul]
    ring
  rw [e2, e]
  simp only [eval_mul]
  by_cases hij : i = j
  · subst hij
    rw [Real.mul_self_sqrt (div_nonneg (by split_ifs <;> norm_num) (by positivity))]
    by_cases h0 : i = 0
    · subst h0
      have := Chebyshev.integral_eval_T_real_mul_self_measureT_zero
      simp only [Nat.cast_zero]
      rw [this]
      simp
      field_simp
    · rw [Chebyshev.integral_T_real_mul_self_measureT_of_ne_zero h0]
      simp [h0]
      field_simp
  · rw [Chebyshev.integral_eval_T_real_mul_eval_T_real_measureT_of_ne hij]
    simp [hij]

/-- Projection with the Chebyshev rule of a polynomial field gives its coefficients. -/
theorem sphereProjection_field {n M : ℕ} (hn : M < n) {a b : ℝ} (h : a < b) (hM : M ≤ 12)
    (U : ℕ → ℝ) (f : ℝ → ℝ)
    (hf : ∀ r ∈ chebRule n, f (quadPoint a b r.1) = sphereField M U a b (quadPoint a b r.1)) {j : ℕ}
    (hj : j ≤ M) : sphereProjection (chebRule n) f a b j = some (U j) := by
  have e : ((chebRule n).map fun q => q.2 * f (quadPoint a b q.1) * 2 *
      (normTn j (quadPoint a b q.1) a b).getD 0) =
      (chebRule n).map fun r => ∑ i ∈ Finset.range (M + 1), (2 * U i) *
        (r.2 * sphereBasis i (quadPoint a b r.1) a b * sphereBasis j (quadPoint a b r.1) a b) := by
    apply List.map_congr_left
    intro r hr
    rw [hf r hr, normTn_quadPoint (by omega) h]
    unfold sphereField
    rw [Finset.mul_sum, Finset.sum_mul, Finset.sum_mul]
    refine Finset.sum_congr rfl fun i _ => ?_
    ring
  unfold sphereProjection
  rw [if_pos (by omega), e, list_sum_finset, Finset.mul_sum]
  have e2 : ∀ i ∈ Finset.range (M + 1), 1 / 2 * (b - a) * ((chebRule n).map fun r => (2 * U i) *
      (r.2 * sphereBasis i (quadPoint a b r.1) a b * sphereBasis j (quadPoint a b r.1) a b)).sum =
      if i = j then U i else 0 := by
    intro i hi
    have hi := Finset.mem_range.1 hi
    have e3 := quad_sphereBasis (n := n) (i := i) (j := j) (by omega) h
    rw [list_sum_mul_left]
    have : ∀ x : ℝ, 1 / 2 * (b - a) * (2 * U i * x) = U i * ((b - a) * x) := fun x => by ring
    rw [this, e3]
    split_ifs <;> simp
  rw [Finset.sum_congr rfl e2, Finset.sum_ite_eq']
  simp [Nat.lt_succ_of_le hj]

end Verif.Lemmas
