import Verif.Lemmas.SlabBasis
import Verif.Lemmas.SlabMatrices
import Verif.Model.Flux
import Verif.Model.Matrices
import Mathlib.RingTheory.Polynomial.Chebyshev

/-!
Properties C01 - C05: basis functions, edge values and the slab matrices.
-/

namespace Verif.Props

open Polynomial Verif.Spec Verif.Model Verif.Lemmas

/-! ### C01 -/

/-- C01: the slab basis is orthonormal on every cell, for all orders. -/
theorem c01_slab_basis_orthonormal (n m : ℕ) {a b : ℝ} (h : a < b) :
    ∫ x in a..b, normPn n x a b * normPn m x a b = if n = m then 1 else 0 := by
  have hb : (0 : ℝ) < b - a := by linarith
  have e : ∀ x, normPn n x a b * normPn m x a b =
      Real.sqrt (2 * (n : ℝ) + 1) * Real.sqrt (2 * (m : ℝ) + 1) / (b - a) *
        (legendre n * legendre m).eval (zSlab x a b) := by
    intro x
    simp only [eval_mul, ← sqrt_mul_sqrt h, normPn]
    ring
  simp_rw [e]
  rw [integral_zSlab_poly h, I_mul]
  unfold delta
  split_ifs with hnm
  · subst hnm
    rw [Real.mul_self_sqrt (by positivity)]
    field_simp
  · ring

/-- A concrete instance of C01: third and fifth basis function on the cell `[0.25, 2]`. -/
example : ∫ x in (1 / 4 : ℝ)..2, normPn 3 x (1 / 4) 2 * normPn 5 x (1 / 4) 2 = 0 := by
  simpa using c01_slab_basis_orthonormal 3 5 (a := 1 / 4) (b := 2) (by norm_num)

/-! ### C02 -/

/-- C02, slab: the edge values used by the flux are the basis function at the two edges. -/
theorem c02_slab_edge_values (i : ℕ) {xL xR : ℝ} (h : xL < xR) :
    bLR .slab i (Real.sqrt (xR - xL)) = (normPn i xL xL xR, normPn i xR xL xR) := by
  unfold normPn
  rw [zSlab_left h, zSlab_right h, legendre_eval_one, legendre_eval_neg_one, sqrt_split h]
  unfold bLR
  rcases Nat.eq_zero_or_pos i with h0 | h0
  · subst h0; simp
  · rw [if_neg (by omega)]
    rcases Nat.even_or_odd i with he | ho
    · rw [if_pos (Nat.even_iff.1 he), he.neg_one_pow]; simp
    · rw [if_neg (by rw [Nat.odd_iff.1 ho]; norm_num), ho.neg_one_pow]; simp [neg_div]

/-- C02, sphere: same for the Chebyshev basis, whenever the basis function is implemented. -/
theorem c02_sphere_edge_values (i : ℕ) (hi : i ≤ 12) {xL xR : ℝ} (h : xL < xR) :
    normTn i xL xL xR = some (bLR .sphere i (Real.sqrt (xR - xL))).1 ∧
    normTn i xR xL xR = some (bLR .sphere i (Real.sqrt (xR - xL))).2 := by
  have hb : (0 : ℝ) < xR - xL := by linarith
  have hne : xR - xL ≠ 0 := hb.ne'
  have zl : zSphere xL xL xR = -1 := by unfold zSphere; field_simp; ring
  have zr : zSphere xR xL xR = 1 := by unfold zSphere; field_simp; ring
  unfold normTn normTnFactor
  rw [zl, zr, Real.sqrt_div' _ hb.le, Real.sqrt_one]
  have h2 : Real.sqrt 2 ≠ 0 := by positivity
  have hs : Real.sqrt (xR - xL) ≠ 0 := (Real.sqrt_pos.2 hb).ne'
  have hpi : Real.sqrt Real.pi ≠ 0 := (Real.sqrt_pos.2 Real.pi_pos).ne'
  interval_cases i <;>
    (simp only [evalTn, bLR, kronecker, Option.map_some, Option.some.injEq]; norm_num
     field_simp)

example : bLR .slab 3 (Real.sqrt (5 - 1)) = (normPn 3 1 1 5, normPn 3 5 1 5) :=
  c02_slab_edge_values 3 (by norm_num)

/-! ### C03 -/

/-- C03: the table is the Chebyshev polynomial of the first kind up to order 12. -/
theorem c03_chebyshev_table (n : ℕ) (hn : n ≤ 12) (x : ℝ) :
    evalTn n x = some ((Chebyshev.T ℝ n).eval x) := by
  have h2 : ∀ k : ℤ, Chebyshev.T ℝ (k + 2) = 2 * X * Chebyshev.T ℝ (k + 1) - Chebyshev.T ℝ k :=
    Chebyshev.T_add_two ℝ
  have e0 : (Chebyshev.T ℝ 0).eval x = 1 := by simp
  have e1 : (Chebyshev.T ℝ 1).eval x = x := by simp
  have step : ∀ k : ℤ, (Chebyshev.T ℝ (k + 2)).eval x =
      2 * x * (Chebyshev.T ℝ (k + 1)).eval x - (Chebyshev.T ℝ k).eval x := by
    intro k; rw [h2]; simp
  have e2 := step 0
  have e3 := step 1
  have e4 := step 2
  have e5 := step 3
  have e6 := step 4
  have e7 := step 5
  have e8 := step 6
  have e9 := step 7
  have e10 := step 8
  have e11 := step 9
  have e12 := step 10
  norm_num at e2 e3 e4 e5 e6 e7 e8 e9 e10 e11 e12
  rw [e2] at e3
  rw [e3, e2] at e4
  rw [e4, e3] at e5
  rw [e5, e4] at e6
  rw [e6, e5] at e7
  rw [e7, e6] at e8
  rw [e8, e7] at e9
  rw [e9, e8] at e10
  rw [e10, e9] at e11
  rw [e11, e10] at e12
  interval_cases n <;> simp only [evalTn, Option.some.injEq, Nat.cast_ofNat, Nat.cast_zero,
    Nat.cast_one]
  · simp
  · simp
  · rw [e2]; ring
  · rw [e3]; ring
  · rw [e4]; ring
  · rw [e5]; ring
  · rw [e6]; ring
  · rw [e7]; ring
  · rw [e8]; ring
  · rw [e9]; ring
  · rw [e10]; ring
  · rw [e11]; ring
  · rw [e12]; ring

/-- C03: above order 12 evaluation fails instead of returning a value. -/
theorem c03_chebyshev_table_rejects (n : ℕ) (hn : 12 < n) (x : ℝ) : evalTn n x = none := by
  unfold evalTn
  split <;> first | omega | rfl

example : evalTn 4 (1 / 2) = some (-(1 / 2)) := by norm_num [evalTn]

/-! ### C04 -/

/-- C04: after any history of calls, the streaming matrix of the last requested cell is the
Galerkin integral of (basis i)' times (basis j). -/
theorem c04_slab_streaming_matrix (M : ℕ) (calls : List MatrixCall) (c : MatrixCall)
    (h : c.xL < c.xR) (i j : ℕ) (hi : i ≤ M) (hj : j ≤ M) :
    ((SlabMatrices.init M).run (calls ++ [c])).L i j =
      ∫ x in c.xL..c.xR, deriv (fun y => normPn i y c.xL c.xR) x * normPn j x c.xL c.xR := by
  have hb : (0 : ℝ) < c.xR - c.xL := by linarith
  rw [run_L_eq_I M calls c hi hj]
  have e : ∀ x, deriv (fun y => normPn i y c.xL c.xR) x * normPn j x c.xL c.xR =
      (Real.sqrt (2 * (i : ℝ) + 1) * Real.sqrt (2 * (j : ℝ) + 1) / (c.xR - c.xL) *
        (2 / (c.xR - c.xL))) *
        (derivative (legendre i) * legendre j).eval (zSlab x c.xL c.xR) := by
    intro x
    rw [(hasDerivAt_normPn h i x).deriv, ← sqrt_mul_sqrt h, eval_mul]
    unfold normPn
    ring
  simp_rw [e]
  rw [integral_zSlab_poly h]
  field_simp

/-- Instance of C04: after two other cells, the entry (2,1) on `[0,2]`. -/
example : ((SlabMatrices.init 3).run
      ([⟨-1, 1, 0, 0⟩, ⟨1, 4, 2, 3⟩] ++ [⟨0, 2, 1, 1⟩])).L 2 1 =
    ∫ x in (0 : ℝ)..2, deriv (fun y => normPn 2 y 0 2) x * normPn 1 x 0 2 :=
  c04_slab_streaming_matrix 3 _ ⟨0, 2, 1, 1⟩ (by norm_num) 2 1 (by norm_num) (by norm_num)

/-! ### C05 -/

/-- C05: after any history of calls, the mesh-motion matrix of the last requested cell is the
Galerkin integral of (time derivative of basis i at fixed x) times (basis j), for any edge
motion with the requested positions and velocities. -/
theorem c05_slab_mesh_motion_matrix (M : ℕ) (calls : List MatrixCall) (a b : ℝ → ℝ)
    (a' b' t : ℝ) (ha : HasDerivAt a a' t) (hb : HasDerivAt b b' t) (h : a t < b t)
    (i j : ℕ) (hi : i ≤ M) (hj : j ≤ M) :
    ((SlabMatrices.init M).run (calls ++ [⟨a t, b t, a', b'⟩])).G i j =
      ∫ x in (a t)..(b t), deriv (fun s => normPn i x (a s) (b s)) t *
        normPn j x (a t) (b t) := by
  have hpos : (0 : ℝ) < b t - a t := by linarith
  have e : ∀ x, deriv (fun s => normPn i x (a s) (b s)) t * normPn j x (a t) (b t) =
      (Real.sqrt (2 * (i : ℝ) + 1) * Real.sqrt (2 * (j : ℝ) + 1) / (b t - a t) /
        (b t - a t)) *
        (C (-(1 / 2) * (b' - a')) * (legendre i * legendre j) +
          C (-(a' + b')) * (derivative (legendre i) * legendre j) +
          C (-(b' - a')) * (X * derivative (legendre i) * legendre j)).eval
            (zSlab x (a t) (b t)) := by
    intro x
    rw [(hasDerivAt_normPn_time ha hb h i x).deriv, ← sqrt_mul_sqrt h]
    simp only [eval_add, eval_mul, eval_C, eval_X, normPn]
    ring
  simp_rw [e]
  rw [integral_zSlab_poly h, run_G_eq_I M calls ⟨a t, b t, a', b'⟩ h hi hj]
  field_simp

/-- Instance of C05: an expanding cell `[-1-t, 2+3t]` at `t = 0`, entry (2,0). -/
example : ((SlabMatrices.init 2).run ([] ++ [⟨-1, 2, -1, 3⟩])).G 2 0 =
    ∫ x in (-1 : ℝ)..2, deriv (fun s => normPn 2 x (-1 - s) (2 + 3 * s)) 0 *
      normPn 0 x (-1) 2 := by
  have ha : HasDerivAt (fun s : ℝ => -1 - s) (-1) 0 := by
    simpa using (hasDerivAt_id (0 : ℝ)).const_sub (-1)
  have hb : HasDerivAt (fun s : ℝ => 2 + 3 * s) 3 0 := by
    simpa using ((hasDerivAt_id (0 : ℝ)).const_mul 3).const_add 2
  simpa using c05_slab_mesh_motion_matrix 2 [] _ _ _ _ 0 ha hb (by norm_num) 2 0
    (by norm_num) (by norm_num)

end Verif.Props
