import Verif.Props.ActiveRhs
import Mathlib.Algebra.BigOperators.Intervals

/-!
Property C62: particle balance of the active right-hand side in sphere geometry.
-/

namespace Verif.Props

open Polynomial Verif.Spec Verif.Model Verif.Lemmas

/-- Number of particles on the mesh (up to `4π`): angular sum of the shell contents. -/
noncomputable def sphereTotal (p : RhsParams) (c : FluxConfig) (m : MeshView)
    (V : ℕ → ℕ → ℕ → ℝ) : ℝ :=
  angularSum p.Nang p.ws fun l =>
    ∑ k ∈ Finset.range c.Nspace, sphereContent c.M (V l k) (m.edges k) (m.edges (k + 1))

/-- Telescoping sum over the cells of one direction. -/
theorem sphere_balance_sum (c : FluxConfig) (hg : c.geometry = .sphere) (t : ℝ) (m : MeshView)
    (hN : 1 ≤ c.Nspace) (u : ℕ → ℕ → ℝ) (mul : ℝ) (uRefl : ℕ → ℕ → ℝ) :
    ∑ k ∈ Finset.range c.Nspace,
      (m.edges k ^ 2 * upwind (mul - m.Dedges k) (leftOuter c t m u k (uRefl k))
        (sphereField c.M (u k) (m.edges k) (m.edges (k + 1)) (m.edges k))
      - m.edges (k + 1) ^ 2 * upwind (mul - m.Dedges (k + 1))
        (sphereField c.M (u k) (m.edges k) (m.edges (k + 1)) (m.edges (k + 1)))
        (rightOuter c t m u k)) =
      m.edges 0 ^ 2 * upwind (mul - m.Dedges 0) (leftOuter c t m u 0 (uRefl 0))
        (sphereField c.M (u 0) (m.edges 0) (m.edges 1) (m.edges 0))
      - m.edges c.Nspace ^ 2 * upwind (mul - m.Dedges c.Nspace)
        (sphereField c.M (u (c.Nspace - 1)) (m.edges (c.Nspace - 1)) (m.edges c.Nspace)
          (m.edges c.Nspace))
        (rightOuter c t m u (c.Nspace - 1)) := by
  have key : ∀ n, n + 1 ≤ c.Nspace → ∑ k ∈ Finset.range (n + 1),
      (m.edges k ^ 2 * upwind (mul - m.Dedges k) (leftOuter c t m u k (uRefl k))
        (sphereField c.M (u k) (m.edges k) (m.edges (k + 1)) (m.edges k))
      - m.edges (k + 1) ^ 2 * upwind (mul - m.Dedges (k + 1))
        (sphereField c.M (u k) (m.edges k) (m.edges (k + 1)) (m.edges (k + 1)))
        (rightOuter c t m u k)) =
      m.edges 0 ^ 2 * upwind (mul - m.Dedges 0) (leftOuter c t m u 0 (uRefl 0))
        (sphereField c.M (u 0) (m.edges 0) (m.edges 1) (m.edges 0))
      - m.edges (n + 1) ^ 2 * upwind (mul - m.Dedges (n + 1))
        (sphereField c.M (u n) (m.edges n) (m.edges (n + 1)) (m.edges (n + 1)))
        (rightOuter c t m u n) := by
    intro n
    induction n with
    | zero => intro _; simp
    | succ n ih =>
      intro hn
      rw [Finset.sum_range_succ, ih (by omega)]
      have e1 : rightOuter c t m u n = sphereField c.M (u (n + 1)) (m.edges (n + 1))
          (m.edges (n + 1 + 1)) (m.edges (n + 1)) := by
        unfold rightOuter; rw [if_pos (by omega), hg]; rfl
      have e2 : leftOuter c t m u (n + 1) (uRefl (n + 1)) =
          sphereField c.M (u n) (m.edges n) (m.edges (n + 1)) (m.edges (n + 1)) := by
        unfold leftOuter; rw [if_pos (by omega), hg]; rfl
      rw [e1, e2]; ring
  have := key (c.Nspace - 1) (by omega)
  rwa [Nat.sub_add_cancel hN] at this

/-- The content of a shell is linear in the coefficients. -/
theorem sphereContent_angularSum (M n : ℕ) (ws : ℕ → ℝ) (U : ℕ → ℕ → ℝ) {a b : ℝ} (h : a < b) :
    sphereContent M (fun j => angularSum n ws fun l => U l j) a b =
      angularSum n ws fun l => sphereContent M (U l) a b := by
  simp only [sphereContent_eq M _ h]
  rw [angularSum_mul]
  congr 1
  unfold angularSum
  simp only [Finset.mul_sum]
  rw [Finset.sum_comm]
  exact Finset.sum_congr rfl fun _ _ => Finset.sum_congr rfl fun _ _ => by ring

/-- Same for the angular redistribution integral. -/
theorem sphereJ_angularSum (M n : ℕ) (ws : ℕ → ℝ) (U : ℕ → ℕ → ℝ) {a b : ℝ} (h : a < b) :
    ∫ r in a..b, r * sphereField M (fun j => angularSum n ws fun l => U l j) a b r =
      angularSum n ws fun l => ∫ r in a..b, r * sphereField M (U l) a b r := by
  simp only [sphereJ_field M _ h]
  rw [angularSum_mul]
  congr 1
  unfold angularSum
  simp only [Finset.mul_sum]
  rw [Finset.sum_comm]
  exact Finset.sum_congr rfl fun _ _ => Finset.sum_congr rfl fun _ _ => by ring

theorem angularSum_sub (n : ℕ) (ws f g : ℕ → ℝ) :
    angularSum n ws (fun l => f l - g l) = angularSum n ws f - angularSum n ws g := by
  unfold angularSum; rw [← Finset.sum_sub_distrib]; exact Finset.sum_congr rfl fun _ _ => by ring

theorem angularSum_sum (n N : ℕ) (ws : ℕ → ℝ) (f : ℕ → ℕ → ℝ) :
    angularSum n ws (fun l => ∑ k ∈ Finset.range N, f l k) =
      ∑ k ∈ Finset.range N, angularSum n ws fun l => f l k := by
  unfold angularSum
  simp only [Finset.mul_sum]
  rw [Finset.sum_comm]

/-- C62 (general form): rate of change of the particle number in sphere geometry, for every
moving mesh, state and source: inflow at the centre, outflow at the outer surface, defect of the
angular redistribution with respect to the weights, collisions, source. -/
theorem c62_sphere_balance (p : RhsParams) (hw : ∑ l ∈ Finset.range p.Nang, p.ws l = 1)
    (c : FluxConfig) (hg : c.geometry = .sphere) (hM : c.M ≤ 10) (hN : 1 ≤ c.Nspace) (t : ℝ)
    (mesh : ℝ → MeshView) (mats : ℕ → CellMats) (S : ℕ → ℕ → ℝ) (fs : FluxState)
    (V : ℝ → ℕ → ℕ → ℕ → ℝ) (R : ℕ → ℕ → ℕ → ℝ)
    (hm : ∀ k < c.Nspace, (mesh t).edges k < (mesh t).edges (k + 1))
    (hedge : ∀ k ≤ c.Nspace, HasDerivAt (fun s => (mesh s).edges k) ((mesh t).Dedges k) t)
    (hmats : ∀ k < c.Nspace, MatsExact c.M ((mesh t).edges k) ((mesh t).edges (k + 1))
      ((mesh t).Dedges k) ((mesh t).Dedges (k + 1)) (mats k))
    (hR : activeCall p c t (mesh t) mats S fs (V t) = some R)
    (hrate : ∀ l < p.Nang, ∀ k < c.Nspace, ∀ i ≤ c.M,
      HasDerivAt (fun s => V s l k i) (R l k i) t) :
    HasDerivAt (fun s => sphereTotal p c (mesh s) (V s))
      ((mesh t).edges 0 ^ 2 * angularSum p.Nang p.ws (fun l =>
          upwind (p.mus l - (mesh t).Dedges 0)
            (leftOuter c t (mesh t) (V t l) 0 (V t (reflIndex p.Nang l 0) 0))
            (sphereField c.M (V t l 0) ((mesh t).edges 0) ((mesh t).edges 1) ((mesh t).edges 0)))
        - (mesh t).edges c.Nspace ^ 2 * angularSum p.Nang p.ws (fun l =>
          upwind (p.mus l - (mesh t).Dedges c.Nspace)
            (sphereField c.M (V t l (c.Nspace - 1)) ((mesh t).edges (c.Nspace - 1))
              ((mesh t).edges c.Nspace) ((mesh t).edges c.Nspace))
            (rightOuter c t (mesh t) (V t l) (c.Nspace - 1)))
        - ∑ k ∈ Finset.range c.Nspace, (∫ r in ((mesh t).edges k)..((mesh t).edges (k + 1)),
            r * sphereField c.M (fun j => angularSum p.Nang p.ws fun l => dterm p (V t) l k j)
              ((mesh t).edges k) ((mesh t).edges (k + 1)) r)
        + (p.c - 1) * sphereTotal p c (mesh t) (V t)
        + 1 / 2 * p.c * ∑ k ∈ Finset.range c.Nspace,
          Real.sqrt (Real.pi * ((mesh t).edges (k + 1) - (mesh t).edges k)) * S k 0) t := by
  have hRin : ∀ l < p.Nang, ∀ k < c.Nspace, ∀ i ≤ c.M,
      R l k i = sphereRhs p c t (mesh t) mats S fs (V t) l k i := by
    intro l hl k hk i hi
    unfold activeCall at hR
    split_ifs at hR
    rw [hg] at hR
    rw [← Option.some_inj.1 hR]
    exact if_pos ⟨hl, hk, hi⟩
  have hcell : ∀ l < p.Nang, ∀ k < c.Nspace, _ := fun l hl k hk =>
    sphere_cell_balance p c hg hM t mesh mats S fs V l k hk hm hedge (hmats k hk)
      (fun i hi => by rw [← hRin l hl k hk i hi]; exact hrate l hl k hk i hi)
  have hdir : ∀ l < p.Nang, _ := fun l hl =>
    HasDerivAt.fun_sum (u := Finset.range c.Nspace) fun k hk =>
      hcell l hl k (by simpa using hk)
  have htot := HasDerivAt.fun_sum (u := Finset.range p.Nang) fun l hl =>
    (hdir l (by simpa using hl)).const_mul (p.ws l)
  have key : HasDerivAt (fun s => sphereTotal p c (mesh s) (V s)) _ t := htot
  refine key.congr_deriv ?_
  clear key htot hdir hcell
  have e1 : ∀ l, ∑ k ∈ Finset.range c.Nspace,
      ((mesh t).edges k ^ 2 * upwind (p.mus l - (mesh t).Dedges k)
          (leftOuter c t (mesh t) (V t l) k (V t (reflIndex p.Nang l k) 0))
          (sphereField c.M (V t l k) ((mesh t).edges k) ((mesh t).edges (k + 1))
            ((mesh t).edges k))
        - (mesh t).edges (k + 1) ^ 2 * upwind (p.mus l - (mesh t).Dedges (k + 1))
          (sphereField c.M (V t l k) ((mesh t).edges k) ((mesh t).edges (k + 1))
            ((mesh t).edges (k + 1)))
          (rightOuter c t (mesh t) (V t l) k)
        - (∫ r in ((mesh t).edges k)..((mesh t).edges (k + 1)),
            r * sphereField c.M (dterm p (V t) l k) ((mesh t).edges k)
              ((mesh t).edges (k + 1)) r)
        + 1 / 2 * p.c *
          (Real.sqrt (Real.pi * ((mesh t).edges (k + 1) - (mesh t).edges k)) * S k 0)
        + p.c * sphereContent c.M (activePV p (V t) k) ((mesh t).edges k)
          ((mesh t).edges (k + 1))
        - sphereContent c.M (V t l k) ((mesh t).edges k) ((mesh t).edges (k + 1))) =
      ((mesh t).edges 0 ^ 2 * upwind (p.mus l - (mesh t).Dedges 0)
            (leftOuter c t (mesh t) (V t l) 0 (V t (reflIndex p.Nang l 0) 0))
            (sphereField c.M (V t l 0) ((mesh t).edges 0) ((mesh t).edges 1) ((mesh t).edges 0))
        - (mesh t).edges c.Nspace ^ 2 * upwind (p.mus l - (mesh t).Dedges c.Nspace)
            (sphereField c.M (V t l (c.Nspace - 1)) ((mesh t).edges (c.Nspace - 1))
              ((mesh t).edges c.Nspace) ((mesh t).edges c.Nspace))
            (rightOuter c t (mesh t) (V t l) (c.Nspace - 1)))
      + (∑ k ∈ Finset.range c.Nspace, (1 / 2 * p.c *
          (Real.sqrt (Real.pi * ((mesh t).edges (k + 1) - (mesh t).edges k)) * S k 0)
          + p.c * sphereContent c.M (activePV p (V t) k) ((mesh t).edges k)
            ((mesh t).edges (k + 1)))
        - ∑ k ∈ Finset.range c.Nspace, ((∫ r in ((mesh t).edges k)..((mesh t).edges (k + 1)),
            r * sphereField c.M (dterm p (V t) l k) ((mesh t).edges k)
              ((mesh t).edges (k + 1)) r)
          + sphereContent c.M (V t l k) ((mesh t).edges k) ((mesh t).edges (k + 1)))) := by
    intro l
    rw [← sphere_balance_sum c hg t (mesh t) hN (V t l) (p.mus l)
      (fun k => V t (reflIndex p.Nang l k) 0), ← Finset.sum_sub_distrib, ← Finset.sum_add_distrib]
    exact Finset.sum_congr rfl fun _ _ => by ring
  have e2 : ∑ k ∈ Finset.range c.Nspace, p.c * sphereContent c.M (activePV p (V t) k)
      ((mesh t).edges k) ((mesh t).edges (k + 1)) = p.c * sphereTotal p c (mesh t) (V t) := by
    unfold sphereTotal
    rw [← Finset.mul_sum, angularSum_sum]
    by_cases hc : p.c = 0
    · simp [hc]
    · congr 1
      refine Finset.sum_congr rfl fun k hk => ?_
      rw [← sphereContent_angularSum c.M p.Nang p.ws (fun l => V t l k)
        (hm k (by simpa using hk))]
      congr 1
      funext j
      unfold activePV
      rw [if_pos hc, makeP_eq]
  have e3 : ∀ f : ℕ → ℝ, ∑ l ∈ Finset.range p.Nang, p.ws l * f l = angularSum p.Nang p.ws f :=
    fun _ => rfl
  have e4 : ∑ k ∈ Finset.range c.Nspace, (∫ r in ((mesh t).edges k)..((mesh t).edges (k + 1)),
      r * sphereField c.M (fun j => angularSum p.Nang p.ws fun l => dterm p (V t) l k j)
        ((mesh t).edges k) ((mesh t).edges (k + 1)) r) =
      angularSum p.Nang p.ws (fun l => ∑ k ∈ Finset.range c.Nspace,
        (∫ r in ((mesh t).edges k)..((mesh t).edges (k + 1)),
            r * sphereField c.M (dterm p (V t) l k) ((mesh t).edges k)
              ((mesh t).edges (k + 1)) r)) := by
    rw [angularSum_sum]
    exact Finset.sum_congr rfl fun k hk => sphereJ_angularSum c.M p.Nang p.ws
      (fun l => dterm p (V t) l k) (hm k (by simpa using hk))
  rw [e3, e4]
  simp only [e1]
  rw [angularSum_add, angularSum_sub, angularSum_sub, angularSum_const _ _ _ hw,
    angularSum_mul, angularSum_mul, Finset.sum_add_distrib, e2]
  simp only [Finset.sum_add_distrib]
  rw [angularSum_add, ← Finset.mul_sum]
  unfold sphereTotal
  ring

/-! ### Symmetric direction sets -/

/-- Cosines symmetric about zero. -/
def SymmetricSet (n : ℕ) (mus : ℕ → ℝ) : Prop := ∀ k < n, mus (n - 1 - k) = -mus k

theorem angularEdge_symm {n : ℕ} {mus : ℕ → ℝ} (h : SymmetricSet n mus) {k : ℕ} (hk : k ≤ n)
    (hn : n ≠ 0) : angularEdge n mus (n - k) = -angularEdge n mus k := by
  unfold angularEdge
  by_cases h0 : k = 0
  · subst h0; simp [hn]
  · by_cases h1 : k = n
    · subst h1; simp [hn]
    · rw [if_neg (by omega), if_neg (by omega), if_neg h0, if_neg h1]
      have e1 := h k (by omega)
      have e2 := h (k - 1) (by omega)
      rw [show n - 1 - (k - 1) = n - k by omega] at e2
      rw [show n - k - 1 = n - 1 - k by omega, e1, e2]; ring

theorem angularWidth_symm {n : ℕ} {mus : ℕ → ℝ} (h : SymmetricSet n mus) {k : ℕ} (hk : k < n) :
    angularWidth n mus (n - 1 - k) = angularWidth n mus k := by
  unfold angularWidth
  rw [show n - 1 - k + 1 = n - k by omega, angularEdge_symm h hk.le (by omega),
    show n - 1 - k = n - (k + 1) by omega, angularEdge_symm h hk (by omega)]
  ring

/-- With a symmetric, increasing set of directions and symmetric weights, a centre at rest that
reflects lets no particles through. -/
theorem centre_current_zero {n : ℕ} {mus ws F : ℕ → ℝ} (hd : DirectionSet n mus)
    (hs : SymmetricSet n mus) (hw : ∀ k < n, ws (n - 1 - k) = ws k) (G : ℕ → ℝ)
    (hG : ∀ l < n, n ≤ 2 * l → G l = F (n - 1 - l)) :
    angularSum n ws (fun l => upwind (mus l) (G l) (F l)) = 0 := by
  have hpos : ∀ l < n, n ≤ 2 * l → 0 < mus l := by
    intro l hl h2
    have h3 := directionSet_lt hd (i := n - 1 - l) (j := l) (by omega) hl
    rw [hs l hl] at h3
    linarith
  have hval : ∀ l < n, upwind (mus l) (G l) (F l) =
      mus l * (if n ≤ 2 * l then F (n - 1 - l) else F l) := by
    intro l hl
    unfold upwind
    split_ifs with h2
    · rw [max_eq_left (hpos l hl h2).le, min_eq_right (hpos l hl h2).le, hG l hl h2]; ring
    · have : mus l ≤ 0 := by
        by_cases h3 : 2 * l + 1 = n
        · have := hs l hl
          rw [show n - 1 - l = l by omega] at this
          linarith
        · have h4 := hpos (n - 1 - l) (by omega) (by omega)
          rw [hs l hl] at h4
          linarith
      rw [max_eq_right this, min_eq_left this]; ring
  have e : angularSum n ws (fun l => upwind (mus l) (G l) (F l)) =
      ∑ l ∈ Finset.range n, ws l * (mus l * (if n ≤ 2 * l then F (n - 1 - l) else F l)) :=
    Finset.sum_congr rfl fun l hl => congrArg (ws l * ·) (hval l (by simpa using hl))
  have h2 : angularSum n ws (fun l => upwind (mus l) (G l) (F l)) +
      angularSum n ws (fun l => upwind (mus l) (G l) (F l)) = 0 := by
    rw [e]
    nth_rw 1 [← Finset.sum_range_reflect]
    rw [← Finset.sum_add_distrib]
    refine Finset.sum_eq_zero fun l hl => ?_
    have hl' : l < n := by simpa using hl
    rw [hs l hl', hw l hl', show n - 1 - (n - 1 - l) = l by omega]
    by_cases h1 : n ≤ 2 * l
    · rw [if_pos h1, if_neg (by omega)]; ring
    · rw [if_neg h1]
      by_cases h3 : 2 * l + 1 = n
      · have := hs l hl'
        rw [show n - 1 - l = l by omega] at this ⊢
        have h0 : mus l = 0 := by linarith
        rw [h0]; ring
      · rw [if_pos (by omega)]; ring
  linarith

/-- C62: sphere geometry, increasing and symmetric directions, weights proportional to the angular
cells, centre at rest, vacuum outside.  Whatever the state, the motion of the other edges and the
source, the particle number changes only by outflow through the outer surface, collisions and
source; scattering ratio one and no source leave only the outflow. -/
theorem c62_sphere_conserves (p : RhsParams) (hd : DirectionSet p.Nang p.mus)
    (hs : SymmetricSet p.Nang p.mus)
    (hw : ∀ l < p.Nang, p.ws l = angularWidth p.Nang p.mus l / 2)
    (c : FluxConfig) (hg : c.geometry = .sphere) (hM : c.M ≤ 10) (hN : 2 ≤ c.Nspace) (t : ℝ)
    (hofl : ¬ BoundaryActive c true t) (hofr : ¬ BoundaryActive c false t)
    (mesh : ℝ → MeshView) (mats : ℕ → CellMats) (S : ℕ → ℕ → ℝ) (fs : FluxState)
    (V : ℝ → ℕ → ℕ → ℕ → ℝ) (R : ℕ → ℕ → ℕ → ℝ)
    (hcentre : (mesh t).Dedges 0 = 0)
    (hm : ∀ k < c.Nspace, (mesh t).edges k < (mesh t).edges (k + 1))
    (hedge : ∀ k ≤ c.Nspace, HasDerivAt (fun s => (mesh s).edges k) ((mesh t).Dedges k) t)
    (hmats : ∀ k < c.Nspace, MatsExact c.M ((mesh t).edges k) ((mesh t).edges (k + 1))
      ((mesh t).Dedges k) ((mesh t).Dedges (k + 1)) (mats k))
    (hR : activeCall p c t (mesh t) mats S fs (V t) = some R)
    (hrate : ∀ l < p.Nang, ∀ k < c.Nspace, ∀ i ≤ c.M,
      HasDerivAt (fun s => V s l k i) (R l k i) t) :
    HasDerivAt (fun s => sphereTotal p c (mesh s) (V s))
      (-(mesh t).edges c.Nspace ^ 2 * angularSum p.Nang p.ws (fun l =>
          max (p.mus l - (mesh t).Dedges c.Nspace) 0 *
            sphereField c.M (V t l (c.Nspace - 1)) ((mesh t).edges (c.Nspace - 1))
              ((mesh t).edges c.Nspace) ((mesh t).edges c.Nspace))
        + (p.c - 1) * sphereTotal p c (mesh t) (V t)
        + 1 / 2 * p.c * ∑ k ∈ Finset.range c.Nspace,
          Real.sqrt (Real.pi * ((mesh t).edges (k + 1) - (mesh t).edges k)) * S k 0) t := by
  have hn := hd.two
  have hw1 : ∑ l ∈ Finset.range p.Nang, p.ws l = 1 := by
    rw [Finset.sum_congr rfl fun l hl => hw l (by simpa using hl), ← Finset.sum_div,
      c15_widths_sum p.Nang (by omega)]
    norm_num
  refine (c62_sphere_balance p hw1 c hg hM (by omega) t mesh mats S fs V R hm hedge hmats hR
    hrate).congr_deriv ?_
  -- centre
  have ec : angularSum p.Nang p.ws (fun l => upwind (p.mus l - (mesh t).Dedges 0)
      (leftOuter c t (mesh t) (V t l) 0 (V t (reflIndex p.Nang l 0) 0))
      (sphereField c.M (V t l 0) ((mesh t).edges 0) ((mesh t).edges 1) ((mesh t).edges 0))) =
      0 := by
    rw [hcentre]
    simp only [sub_zero]
    refine centre_current_zero (F := fun l => sphereField c.M (V t l 0) ((mesh t).edges 0)
      ((mesh t).edges 1) ((mesh t).edges 0)) hd hs ?_ _ ?_
    · intro l hl
      rw [hw l hl, hw _ (by omega), angularWidth_symm hs hl]
    · intro l _ h2
      rw [← isBoundarySourceOn_left] at hofl
      unfold leftOuter
      rw [if_neg (by omega), if_neg hofl, if_pos hg, hg,
        show reflIndex p.Nang l 0 = p.Nang - 1 - l from
          (if_pos ⟨rfl, h2⟩).trans (by omega)]
      rfl
  -- outer surface
  have er : ∀ l, rightOuter c t (mesh t) (V t l) (c.Nspace - 1) = 0 := by
    intro l
    have h := hofr
    rw [← isBoundarySourceOn_right c t hN] at h
    unfold rightOuter
    rw [if_neg (by omega), if_neg h]
  -- redistribution
  have ea : ∀ k j, angularSum p.Nang p.ws (fun l => dterm p (V t) l k j) = 0 := by
    intro k j
    have := c15_redistribution_telescopes hd (fun l => V t l k j)
    unfold angularSum dterm
    rw [Finset.sum_congr rfl fun l hl => by
      rw [hw l (by simpa using hl), div_mul_eq_mul_div], ← Finset.sum_div, this, zero_div]
  have ej : ∀ k, (∫ r in ((mesh t).edges k)..((mesh t).edges (k + 1)),
      r * sphereField c.M (fun j => angularSum p.Nang p.ws fun l => dterm p (V t) l k j)
        ((mesh t).edges k) ((mesh t).edges (k + 1)) r) = 0 := by
    intro k
    simp only [ea]
    simp [sphereField]
  rw [ec]
  simp only [er, ej, upwind, mul_zero, add_zero, Finset.sum_const_zero]
  ring

end Verif.Props
