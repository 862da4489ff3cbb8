import Verif.Props.Stability

/-!
Property C84: a trajectory that satisfies the slab equations up to a residual stays close to the
exact one.
-/

namespace Verif.Props

open Polynomial Verif.Spec Verif.Model Verif.Lemmas Set

/-- C84: `V` satisfies the slab equations up to a residual `ρ` (for instance the error of the time
integrator), `W` satisfies them exactly, both with the same source and boundary data.  If the
square norm of the residual is at most `R` at all times, the square norm of the difference is at
most the solution of `E' = (2 c - 1) E + R` that starts at the initial difference. -/
theorem c84_residual_bound (p : RhsParams) (hp : ∀ l < p.Nang, 0 ≤ p.ws l)
    (hw : ∑ l ∈ Finset.range p.Nang, p.ws l = 1) (hc : 0 ≤ p.c)
    (c : FluxConfig) (hg : c.geometry = .slab) (a b : ℝ) (F : Set ℝ) (hF : F.Finite)
    (mesh : ℝ → MeshView)
    (hm : ∀ s ∈ Icc a b, ∀ k < c.Nspace, (mesh s).edges k < (mesh s).edges (k + 1))
    (S : ℝ → ℕ → ℕ → ℝ) (uRefl uRefl' : ℝ → ℕ → ℕ → ℝ) (fs fs' : ℝ → ℕ → ℕ → FluxState)
    (V W ρ : ℝ → ℕ → ℕ → ℕ → ℝ) (R : ℝ)
    (hVc : ∀ l < p.Nang, ∀ k < c.Nspace, ∀ i ≤ c.M, ContinuousOn (fun s => V s l k i) (Icc a b))
    (hWc : ∀ l < p.Nang, ∀ k < c.Nspace, ∀ i ≤ c.M, ContinuousOn (fun s => W s l k i) (Icc a b))
    (hV : ∀ t ∈ Ico a b \ F, ∀ l < p.Nang, ∀ k < c.Nspace, ∀ i ≤ c.M,
      HasDerivWithinAt (fun s => V s l k i)
      (slabConstantRhs p c t (mesh t) (S t) (uRefl t l) (fs t l k) (V t) l k i + ρ t l k i)
      (Ici t) t)
    (hW : ∀ t ∈ Ico a b \ F, ∀ l < p.Nang, ∀ k < c.Nspace, ∀ i ≤ c.M,
      HasDerivWithinAt (fun s => W s l k i)
      (slabConstantRhs p c t (mesh t) (S t) (uRefl' t l) (fs' t l k) (W t) l k i) (Ici t) t)
    (hR : ∀ t ∈ Ico a b \ F, angularSqNorm p c.Nspace c.M (mesh t).edges (ρ t) ≤ R)
    (t : ℝ) (ht : t ∈ Icc a b) :
    angularSqNorm p c.Nspace c.M (mesh t).edges (fun l k i => V t l k i - W t l k i) ≤
      gronwallBound
        (angularSqNorm p c.Nspace c.M (mesh a).edges fun l k i => V a l k i - W a l k i)
        (2 * p.c - 1) R (t - a) := by
  set D : ℝ → ℕ → ℕ → ℕ → ℝ := fun s l k i => V s l k i - W s l k i with hD
  have hcont : ContinuousOn (fun s => angularSqNorm p c.Nspace c.M (mesh s).edges (D s))
      (Icc a b) := by
    have h1 : ContinuousOn (fun s => ∑ l ∈ Finset.range p.Nang, p.ws l *
        ∑ k ∈ Finset.range c.Nspace, ∑ i ∈ Finset.range (c.M + 1), D s l k i ^ 2) (Icc a b) := by
      refine continuousOn_finsetSum _ fun l hl => ContinuousOn.mul continuousOn_const ?_
      refine continuousOn_finsetSum _ fun k hk => continuousOn_finsetSum _ fun i hi => ?_
      have hi' : i ≤ c.M := by simpa [Nat.lt_succ_iff] using hi
      exact ((hVc l (Finset.mem_range.1 hl) k (Finset.mem_range.1 hk) i hi').sub
        (hWc l (Finset.mem_range.1 hl) k (Finset.mem_range.1 hk) i hi')).pow 2
    exact h1.congr fun s hs => angularSqNorm_eq p c.Nspace c.M (mesh s).edges (D s) (hm s hs)
  have hev : ∀ x ∈ Ico a b \ F, ∀ᶠ s in nhdsWithin x (Ici x), ∀ k < c.Nspace,
      (mesh s).edges k < (mesh s).edges (k + 1) := by
    intro x hx
    have : Icc x b ∈ nhdsWithin x (Ici x) := Icc_mem_nhdsGE hx.1.2
    exact Filter.mem_of_superset this fun s hs => hm s ⟨hx.1.1.trans hs.1, hs.2⟩
  have hrate : ∀ x ∈ Ico a b \ F, ∀ l < p.Nang, ∀ k < c.Nspace, ∀ i ≤ c.M,
      HasDerivWithinAt (fun s => D s l k i)
      (streamPart (vacuumConfig c) x (mesh x) (D x l) k (p.mus l) (uRefl x l) (fs x l k) i
        + (-D x l k i + p.c * scalarCoef p (D x) k i + ρ x l k i)) (Ici x) x := by
    intro x hx l hl k hk i hi
    refine ((hV x hx l hl k hk i hi).sub (hW x hx l hl k hk i hi)).congr_deriv ?_
    have hmx := hm x ⟨hx.1.1, hx.1.2.le⟩
    have e := streamPart_sub c hg x (mesh x) hmx (uRefl x l) (uRefl' x l) (fs x l k) (fs' x l k)
      (fs x l k) (V x l) (W x l) (p.mus l) k i hk hi
    have e2 : scalarCoef p (D x) k i =
        angularSum p.Nang p.ws (fun l => V x l k i) - angularSum p.Nang p.ws fun l => W x l k i := by
      unfold scalarCoef angularSum
      rw [← Finset.sum_sub_distrib]
      exact Finset.sum_congr rfl fun _ _ => by simp only [hD]; ring
    show _ = streamPart (vacuumConfig c) x (mesh x) (fun k j => V x l k j - W x l k j) k (p.mus l)
      (uRefl x l) (fs x l k) i + _
    rw [← e, e2]
    unfold slabConstantRhs
    rw [makeP_eq, makeP_eq]
    simp only [hD]
    ring
  have hder := fun x (hx : x ∈ Ico a b \ F) => HasDerivWithinAt.fun_sum
    fun l (hl : l ∈ Finset.range p.Nang) =>
    (sq_rate c hg x mesh (hev x hx) (p.mus l) (uRefl x l) (fs x l) (fun s => D s l) _
      (hrate x hx l (Finset.mem_range.1 hl))).const_mul (p.ws l)
  refine gronwall_except hF _ _ _ _ a b _ hcont hder le_rfl (fun x hx => ?_) t ht
  have hmx : ∀ k < c.Nspace, (mesh x).edges k < (mesh x).edges (k + 1) := hm x ⟨hx.1.1, hx.1.2.le⟩
  have h1 := jump_loss_nonneg p hp c.Nspace c.M (mesh x) (D x)
  have h2 := mul_le_mul_of_nonneg_left (scalar_le_angular p hp hw c.Nspace c.M (mesh x).edges hmx
    (D x)) hc
  have h3 := hR x hx
  have hsplit : ∀ w a b : ℝ, w * (-a + 2 * b) = -(w * a) + 2 * (w * b) := fun w a b => by ring
  simp only [hsplit]
  rw [Finset.sum_add_distrib, Finset.sum_neg_distrib, ← Finset.mul_sum]
  -- collision and residual terms
  have h4 : 2 * ∑ l ∈ Finset.range p.Nang, p.ws l * ∑ k ∈ Finset.range c.Nspace,
      ∑ i ∈ Finset.range (c.M + 1), D x l k i *
        (-D x l k i + p.c * scalarCoef p (D x) k i + ρ x l k i) ≤
      -(angularSqNorm p c.Nspace c.M (mesh x).edges (D x))
        + 2 * p.c * meshSqNorm c.Nspace c.M (mesh x).edges (scalarCoef p (D x))
        + angularSqNorm p c.Nspace c.M (mesh x).edges (ρ x) := by
    rw [angularSqNorm_eq _ _ _ _ _ hmx, angularSqNorm_eq _ _ _ _ _ hmx, meshSqNorm_eq _ _ _ _ hmx]
    have hswap : ∀ F : ℕ → ℕ → ℕ → ℝ, ∑ l ∈ Finset.range p.Nang, p.ws l *
        ∑ k ∈ Finset.range c.Nspace, ∑ i ∈ Finset.range (c.M + 1), F l k i =
        ∑ k ∈ Finset.range c.Nspace, ∑ i ∈ Finset.range (c.M + 1),
          angularSum p.Nang p.ws fun l => F l k i := by
      intro F
      simp only [Finset.mul_sum]
      rw [Finset.sum_comm]
      refine Finset.sum_congr rfl fun k _ => ?_
      rw [Finset.sum_comm]
      rfl
    rw [hswap, hswap, hswap]
    simp only [Finset.mul_sum, ← Finset.sum_add_distrib, ← Finset.sum_neg_distrib]
    refine Finset.sum_le_sum fun k _ => Finset.sum_le_sum fun i _ => ?_
    have hc1 := collision_form p fun l => D x l k i
    have hnn : 0 ≤ angularSum p.Nang p.ws fun l => (D x l k i - ρ x l k i) ^ 2 := by
      unfold angularSum
      exact Finset.sum_nonneg fun l hl => mul_nonneg (hp l (Finset.mem_range.1 hl)) (sq_nonneg _)
    have e1 : angularSum p.Nang p.ws (fun l => D x l k i *
        (-D x l k i + p.c * scalarCoef p (D x) k i + ρ x l k i)) =
        ∑ l ∈ Finset.range p.Nang, p.ws l * (D x l k i *
          (-D x l k i + p.c * angularSum p.Nang p.ws fun l => D x l k i)) +
        angularSum p.Nang p.ws fun l => D x l k i * ρ x l k i := by
      unfold angularSum scalarCoef angularSum
      rw [← Finset.sum_add_distrib]
      exact Finset.sum_congr rfl fun l _ => by ring
    have e2 : (angularSum p.Nang p.ws fun l => (D x l k i - ρ x l k i) ^ 2) =
        (angularSum p.Nang p.ws fun l => D x l k i ^ 2)
        - 2 * (angularSum p.Nang p.ws fun l => D x l k i * ρ x l k i)
        + angularSum p.Nang p.ws fun l => ρ x l k i ^ 2 := by
      unfold angularSum
      rw [Finset.mul_sum, ← Finset.sum_sub_distrib, ← Finset.sum_add_distrib]
      exact Finset.sum_congr rfl fun l _ => by ring
    rw [e1, hc1]
    unfold scalarCoef
    rw [e2] at hnn
    linarith
  have hA : ∑ l ∈ Finset.range p.Nang, p.ws l * ∑ k ∈ Finset.range (c.Nspace + 1),
      |p.mus l - (mesh x).Dedges k| * edgeJump c.Nspace c.M (mesh x).edges (D x l) k ^ 2 =
      angularSum p.Nang p.ws fun l => ∑ k ∈ Finset.range (c.Nspace + 1),
      |p.mus l - (mesh x).Dedges k| * edgeJump c.Nspace c.M (mesh x).edges (D x l) k ^ 2 := rfl
  rw [hA]
  show _ ≤ (2 * p.c - 1) * angularSqNorm p c.Nspace c.M (mesh x).edges (D x) + R
  linarith

/-- The explicit solution with half its decay rate satisfies the equations with a residual of
square norm at most one. -/
example (fs : FluxState) (t : ℝ) (ht : t ∈ Icc (0 : ℝ) 3) :=
  c84_residual_bound decayParams (fun _ _ => by simp [decayParams]) (by simp [decayParams])
    (by simp [decayParams]) decayConfig rfl 0 3 ∅ finite_empty (fun _ => decayMesh)
    (fun _ _ k _ => decayMesh_ordered k) (fun _ _ _ => 0) (fun _ _ _ => 0) (fun _ _ _ => 0)
    (fun _ _ _ => fs) (fun _ _ _ => fs)
    (fun s l k i => decaySolution s l k i + if k = 1 then s else 0) decaySolution
    (fun s l k i => if k = 1 then 1 + 5 / 4 * s else 0) 25
    (fun l _ k _ i _ => (decay_continuous l k i _).add (by
      by_cases h : k = 1
      · simp only [if_pos h]; fun_prop
      · simp only [if_neg h]; fun_prop))
    (fun l _ k _ i _ => decay_continuous l k i _)
    (fun t _ l hl k hk i hi => by
      have hl0 : l = 0 := Nat.lt_one_iff.1 hl
      have hi0 : i = 0 := Nat.le_zero.1 hi
      subst hl0 hi0
      have hr := decay_rhs fs t (fun l k i => decaySolution t l k i + if k = 1 then t else 0)
        (by simp [decaySolution])
      have hs := decay_solves fs t 0 k 0 hl hk le_rfl
      have hr0 := decay_rhs fs t (decaySolution t) (by simp [decaySolution])
      have hk2 : k = 0 ∨ k = 1 := by
        have : k < 2 := hk
        omega
      rcases hk2 with rfl | rfl
      · rw [hr.1]
        rw [hr0.1] at hs
        simpa using hs
      · rw [hr.2]
        rw [hr0.2] at hs
        simp only [if_true]
        exact (hs.add (hasDerivWithinAt_id t (Ici t))).congr_deriv (by ring))
    (fun t _ l hl k hk i hi => decay_solves fs t l k i hl hk hi)
    (fun t ht => by
      rw [angularSqNorm_eq _ _ _ _ _ (fun k _ => decayMesh_ordered k)]
      simp only [decayParams, decayConfig, Finset.sum_range_succ, Finset.range_zero,
        Finset.sum_empty]
      norm_num
      nlinarith [ht.1.1, ht.1.2]) t ht

end Verif.Props
