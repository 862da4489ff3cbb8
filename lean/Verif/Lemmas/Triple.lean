import Verif.Lemmas.Sources
import Verif.Model.Opacity

/-! Helper facts: integrals of products of three Legendre polynomials. -/

namespace Verif.Lemmas

open Polynomial Verif.Spec Verif.Model

theorem I_legendre_X_pow (m : ℕ) : ∀ i, m < i → I (legendre i * X ^ m) = 0 := by
  induction m with
  | zero =>
    intro i hi
    have h := I_mul i 0
    rw [delta, if_neg (by omega), zero_mul] at h
    simpa [legendre_zero] using h
  | succ m ih =>
    intro i hi
    obtain ⟨n, rfl⟩ : ∃ n, i = n + 1 := ⟨i - 1, by omega⟩
    have hb := bonnet n
    have hne : (2 * (n : ℝ) + 3) ≠ 0 := by positivity
    have e : C (2 * (n : ℝ) + 3) * (legendre (n + 1) * X ^ (m + 1)) =
        C ((n : ℝ) + 2) * (legendre (n + 2) * X ^ m) +
          C ((n : ℝ) + 1) * (legendre n * X ^ m) := by
      rw [pow_succ]
      linear_combination (-X ^ m) * hb
    have e2 := congrArg I e
    rw [I_add, I_C_mul, I_C_mul, I_C_mul, ih (n + 2) (by omega), ih n (by omega)] at e2
    apply mul_left_cancel₀ hne
    rw [e2]
    ring

theorem I_finset_sum (s : Finset ℕ) (f : ℕ → ℝ[X]) : I (∑ m ∈ s, f m) = ∑ m ∈ s, I (f m) := by
  induction s using Finset.induction_on with
  | empty => simp [I_zero]
  | insert a s ha ih => rw [Finset.sum_insert ha, Finset.sum_insert ha, I_add, ih]

/-- A Legendre polynomial is orthogonal to everything of lower degree. -/
theorem I_legendre_lower {i : ℕ} (p : ℝ[X]) (hp : p.natDegree < i) : I (legendre i * p) = 0 := by
  conv_lhs => rw [p.as_sum_range_C_mul_X_pow]
  rw [Finset.mul_sum, I_finset_sum]
  refine Finset.sum_eq_zero fun m hm => ?_
  have : m < i := by have := Finset.mem_range.1 hm; omega
  rw [show legendre i * (C (p.coeff m) * X ^ m) = C (p.coeff m) * (legendre i * X ^ m) by ring,
    I_C_mul, I_legendre_X_pow m i this, mul_zero]

/-- The integral of an odd polynomial vanishes. -/
theorem I_odd (p : ℝ[X]) (hp : ∀ x, p.eval (-x) = -p.eval x) : I p = 0 := by
  have h := intervalIntegral.integral_comp_neg (fun x => p.eval x) (a := (-1 : ℝ)) (b := 1)
  simp only [hp, neg_neg, intervalIntegral.integral_neg] at h
  unfold I
  linarith

theorem I_triple_lower {i j k : ℕ} (h : j + k < i) :
    I (legendre i * legendre j * legendre k) = 0 := by
  rw [mul_assoc]
  refine I_legendre_lower _ (lt_of_le_of_lt natDegree_mul_le ?_)
  exact lt_of_le_of_lt (add_le_add (legendre_natDegree j) (legendre_natDegree k)) h

theorem I_triple_odd {i j k : ℕ} (h : (i + j + k) % 2 = 1) :
    I (legendre i * legendre j * legendre k) = 0 := by
  refine I_odd _ fun x => ?_
  simp only [eval_mul, legendre_eval_neg]
  have : (-1 : ℝ) ^ i * (-1) ^ j * (-1) ^ k = -1 := by
    rw [← pow_add, ← pow_add]
    exact Odd.neg_one_pow (Nat.odd_iff.2 h)
  linear_combination (eval x (legendre i) * eval x (legendre j) * eval x (legendre k)) * this

theorem slabBasis_zSlab (n : ℕ) (x a b : ℝ) (h : a < b) :
    slabBasis n x a b = √(2 * (n : ℝ) + 1) / √(b - a) * (legendre n).eval (zSlab x a b) := by
  rw [← normPn_eq_slabBasis n x h, normPn, sqrt_split h]
  ring

/-- The integral of three basis functions over a cell. -/
theorem integral_triple (i j k : ℕ) {a b : ℝ} (h : a < b) :
    ∫ x in a..b, slabBasis i x a b * slabBasis j x a b * slabBasis k x a b =
      √(2 * (i : ℝ) + 1) * √(2 * (j : ℝ) + 1) * √(2 * (k : ℝ) + 1) / 2 *
        I (legendre i * legendre j * legendre k) / √(b - a) := by
  have hb : 0 < √(b - a) := Real.sqrt_pos.2 (by linarith)
  have hs : √(b - a) * √(b - a) = b - a := Real.mul_self_sqrt (by linarith)
  have e : ∀ x, slabBasis i x a b * slabBasis j x a b * slabBasis k x a b =
      (√(2 * (i : ℝ) + 1) / √(b - a) * (√(2 * (j : ℝ) + 1) / √(b - a)) *
        (√(2 * (k : ℝ) + 1) / √(b - a))) *
        (legendre i * legendre j * legendre k).eval (zSlab x a b) := by
    intro x
    simp only [slabBasis_zSlab _ _ _ _ h, eval_mul]
    ring
  simp_rw [e]
  rw [integral_zSlab_poly h]
  generalize √(b - a) = d at *
  rw [← hs]
  field_simp

theorem quadPoint_ref (x : ℝ) : quadPoint (-1) 1 x = x := by unfold quadPoint; ring

theorem tripleQuad_exact {q : List (ℝ × ℝ)} {n i j k : ℕ} (hq : QuadExact q n)
    (hn : i + j + k ≤ n) :
    tripleQuad q i j k = √(2 * (i : ℝ) + 1) * √(2 * (j : ℝ) + 1) * √(2 * (k : ℝ) + 1) / 2 *
        I (legendre i * legendre j * legendre k) := by
  have hd : (legendre i * legendre j * legendre k).natDegree ≤ n := by
    refine natDegree_mul_le.trans (le_trans (add_le_add natDegree_mul_le
      (legendre_natDegree k)) ?_)
    have h1 := legendre_natDegree i
    have h2 := legendre_natDegree j
    omega
  have e := hq _ hd
  have e2 : (q.map fun r => r.2 * Pn i (quadPoint (-1) 1 r.1) (-1) 1 *
      Pn j (quadPoint (-1) 1 r.1) (-1) 1 * Pn k (quadPoint (-1) 1 r.1) (-1) 1) =
      q.map fun r => r.2 * (legendre i * legendre j * legendre k).eval r.1 := by
    apply List.map_congr_left
    intro r _
    simp only [Pn, quadPoint_ref, eval_mul]
    ring
  unfold tripleQuad
  rw [e2, e]
  unfold I
  ring

end Verif.Lemmas
