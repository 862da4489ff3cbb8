import Verif.Lemmas.SphereMatrices
import Verif.Lemmas.GmatEntries
import Verif.Model.SphereMatrices

/-! Property theorems: the sphere mesh-motion and mass-derivative tables (C17, C18). -/

namespace Verif.Props

open Verif.Model Verif.Spec Verif.Lemmas

/-- C17: every entry of the table, divided by `π` as the code does, is the Galerkin integral of
the time derivative (at fixed radius) of basis function `i` against basis function `j`. -/
theorem c17_sphere_mesh_motion_table {i j : ℕ} (hi : i ≤ 10) (hj : j ≤ 10) (a b : ℝ → ℝ)
    (a' b' t : ℝ) (ha : HasDerivAt a a' t) (hb : HasDerivAt b b' t) (h : a t < b t) :
    ∃ g, gMatrix i j (a t) (b t) a' b' = some g ∧
      g = Real.pi * ∫ r in (a t)..(b t), r ^ 2 *
        (deriv (fun s => sphereBasis i r (a s) (b s)) t * sphereBasis j r (a t) (b t)) := by
  refine ⟨_, gMatrix_eq hi hj _ _ _ _ h, ?_⟩
  rw [sphereG_eq ha hb h, mul_div_cancel₀ _ Real.pi_ne_zero]

/-- C18: every entry of the table is `π` times the time derivative of the mass matrix of the
moving cell. -/
theorem c18_sphere_mass_derivative_table {i j : ℕ} (hi : i ≤ 10) (hj : j ≤ 10) (a b : ℝ → ℝ)
    (a' b' t : ℝ) (ha : HasDerivAt a a' t) (hb : HasDerivAt b b' t) (h : a t < b t) :
    ∃ m, mPrime i j (a t) (b t) a' b' = some m ∧
      HasDerivAt (fun s => Real.pi * sphereMass i j (a s) (b s)) m t := by
  refine ⟨_, mPrime_eq hi hj _ _ _ _, ?_⟩
  have := (hasDerivAt_sphereMass ha hb h i j).const_mul Real.pi
  rwa [mul_div_cancel₀ _ Real.pi_ne_zero] at this

theorem gMatrix_isSome {i j : ℕ} (hi : i ≤ 10) (hj : j ≤ 10) (a b ap bp : ℝ) :
    (gMatrix i j a b ap bp).isSome := by
  interval_cases i <;> interval_cases j <;> rfl

theorem mPrime_isSome {i j : ℕ} (hi : i ≤ 10) (hj : j ≤ 10) (a b ap bp : ℝ) :
    (mPrime i j a b ap bp).isSome := by
  rw [mPrime_eq hi hj]; rfl

theorem makeAll_of_le (s : SphereMatrices) (hM : s.M ≤ 10) (a b ap bp : ℝ) :
    ∃ s', s.makeAll a b ap bp = some s' ∧ s'.M = s.M ∧
      ∀ i ≤ s.M, ∀ j ≤ s.M,
        s'.G i j = (gMatrix i j a b ap bp).getD 0 / Real.pi ∧
        s'.MPRIME i j = (mPrime i j a b ap bp).getD 0 / Real.pi := by
  have hg : ∀ i ≤ s.M, ∀ j ≤ s.M, (gMatrix i j a b ap bp).isSome := fun i hi j hj =>
    gMatrix_isSome (hi.trans hM) (hj.trans hM) _ _ _ _
  have hm : ∀ i ≤ s.M, ∀ j ≤ s.M, (mPrime i j a b ap bp).isSome := fun i hi j hj =>
    mPrime_isSome (hi.trans hM) (hj.trans hM) _ _ _ _
  refine ⟨{ M := s.M
            G := fun i j => if i ≤ s.M ∧ j ≤ s.M then
              (gMatrix i j a b ap bp).getD 0 / Real.pi else s.G i j
            MPRIME := fun i j => if i ≤ s.M ∧ j ≤ s.M then
              (mPrime i j a b ap bp).getD 0 / Real.pi else s.MPRIME i j }, ?_, rfl, ?_⟩
  · unfold SphereMatrices.makeAll SphereMatrices.makeG SphereMatrices.makeMPRIME fillFromTable
    rw [if_pos hg]
    simp only [Option.map_some, Option.bind_some]
    rw [if_pos hm]
    rfl
  · intro i hi j hj
    exact ⟨if_pos ⟨hi, hj⟩, if_pos ⟨hi, hj⟩⟩

theorem run_of_le (s : SphereMatrices) (hM : s.M ≤ 10) (calls : List (ℝ × ℝ × ℝ × ℝ)) :
    ∃ s', s.run calls = some s' ∧ s'.M = s.M := by
  induction calls generalizing s with
  | nil => exact ⟨s, rfl, rfl⟩
  | cons c cs ih =>
    obtain ⟨s1, h1, h2, -⟩ := makeAll_of_le s hM c.1 c.2.1 c.2.2.1 c.2.2.2
    obtain ⟨s2, h3, h4⟩ := ih s1 (h2 ▸ hM)
    refine ⟨s2, ?_, h4.trans h2⟩
    show (s.makeAll _ _ _ _).bind _ = _
    rw [h1]; exact h3

theorem run_append (s : SphereMatrices) (l m : List (ℝ × ℝ × ℝ × ℝ)) :
    s.run (l ++ m) = (s.run l).bind fun s => s.run m := by
  induction l generalizing s with
  | nil => rfl
  | cons c cs ih =>
    show (s.makeAll _ _ _ _).bind _ = ((s.makeAll _ _ _ _).bind _).bind _
    rw [Option.bind_assoc]
    congr 1
    funext s'
    exact ih s'

/-- C17 and C18 for the matrices handed to the right-hand side: after any history of earlier calls
the attributes hold the Galerkin integrals of the cell of the last call. -/
theorem c17_c18_matrices_of_last_cell {M : ℕ} (hM : M ≤ 10) (calls : List (ℝ × ℝ × ℝ × ℝ))
    (a b : ℝ → ℝ) (a' b' t : ℝ) (ha : HasDerivAt a a' t) (hb : HasDerivAt b b' t)
    (h : a t < b t) :
    ∃ s, (SphereMatrices.init M).run (calls ++ [(a t, b t, a', b')]) = some s ∧
      ∀ i ≤ M, ∀ j ≤ M,
        (s.G i j = ∫ r in (a t)..(b t), r ^ 2 *
          (deriv (fun s => sphereBasis i r (a s) (b s)) t * sphereBasis j r (a t) (b t))) ∧
        HasDerivAt (fun s => sphereMass i j (a s) (b s)) (s.MPRIME i j) t := by
  obtain ⟨s1, h1, h2⟩ := run_of_le (SphereMatrices.init M) hM calls
  replace h2 : s1.M = M := h2
  obtain ⟨s2, h3, h4, h5⟩ := makeAll_of_le s1 (h2 ▸ hM) (a t) (b t) a' b'
  refine ⟨s2, ?_, ?_⟩
  · rw [run_append, h1]
    show (s1.makeAll _ _ _ _).bind _ = _
    rw [h3]; rfl
  · intro i hi j hj
    obtain ⟨e1, e2⟩ := h5 i (h2 ▸ hi) j (h2 ▸ hj)
    obtain ⟨g, hg, hg'⟩ := c17_sphere_mesh_motion_table (hi.trans hM) (hj.trans hM) a b a' b' t
      ha hb h
    obtain ⟨m, hm, hm'⟩ := c18_sphere_mass_derivative_table (hi.trans hM) (hj.trans hM) a b a' b'
      t ha hb h
    rw [hg] at e1
    rw [hm] at e2
    constructor
    · rw [e1, Option.getD_some, hg', mul_div_cancel_left₀ _ Real.pi_ne_zero]
    · rw [e2, Option.getD_some]
      have := hm'.div_const Real.pi
      refine (this.congr_of_eventuallyEq (Filter.Eventually.of_forall fun s => ?_))
      exact (mul_div_cancel_left₀ _ Real.pi_ne_zero).symm

/-- Above order 10 the tables have no entry and building the matrices fails. -/
theorem c17_order_above_ten_fails {M : ℕ} (hM : 10 < M) (a b ap bp : ℝ) :
    (SphereMatrices.init M).makeAll a b ap bp = none := by
  unfold SphereMatrices.makeAll SphereMatrices.makeG fillFromTable
  rw [if_neg]
  · rfl
  · intro hall
    have := hall 11 hM 0 (Nat.zero_le _)
    simp [gMatrix] at this

/-- Instance: an expanding cell `[1+t, 2+3t]` at `t = 0`, entry (3,2), order 5. -/
example : ∃ s, (SphereMatrices.init 5).run [(0, 1, 0, 1), (1, 2, 1, 3)] = some s ∧
    s.G 3 2 = ∫ r in (1 : ℝ)..2, r ^ 2 *
      (deriv (fun s => sphereBasis 3 r (1 + s) (2 + 3 * s)) 0 * sphereBasis 2 r 1 2) := by
  have ha : HasDerivAt (fun s : ℝ => 1 + s) 1 0 := by
    simpa using (hasDerivAt_id (0 : ℝ)).const_add 1
  have hb : HasDerivAt (fun s : ℝ => 2 + 3 * s) 3 0 := by
    simpa using ((hasDerivAt_id (0 : ℝ)).const_mul 3).const_add 2
  obtain ⟨s, h1, h2⟩ := c17_c18_matrices_of_last_cell (M := 5) (by norm_num) [(0, 1, 0, 1)] _ _ _ _
    0 ha hb (by norm_num)
  refine ⟨s, by simpa using h1, ?_⟩
  simpa using (h2 3 (by norm_num) 2 (by norm_num)).1

end Verif.Props
