import Verif.Lemmas.Stability
import Verif.Props.SlabCollision
import Verif.Lemmas.GronwallExcept

/-!
Properties C81 - C83: the slab right-hand side dissipates the square norm, so solutions are unique
and errors do not grow.
-/

namespace Verif.Props

open Polynomial Verif.Spec Verif.Model Verif.Lemmas Set

/-- The same configuration without any boundary source. -/
def vacuumConfig (c : FluxConfig) : FluxConfig :=
  { c with mms := false, thermalIsOne := false, boundarySource := false }

theorem vacuumConfig_off (c : FluxConfig) (k : ℕ) (t : ℝ) :
    isBoundarySourceOn (vacuumConfig c) k t = false := by
  simp [isBoundarySourceOn, vacuumConfig]

theorem slabField_sub (M : ℕ) (U W : ℕ → ℝ) (a b x : ℝ) :
    slabField M (fun j => U j - W j) a b x = slabField M U a b x - slabField M W a b x := by
  unfold slabField
  rw [← Finset.sum_sub_distrib]
  exact Finset.sum_congr rfl fun _ _ => by ring

theorem matVec_sub (M : ℕ) (A : ℕ → ℕ → ℝ) (U W : ℕ → ℝ) (i : ℕ) :
    matVec M A (fun j => U j - W j) i = matVec M A U i - matVec M A W i := by
  unfold matVec
  rw [← Finset.sum_sub_distrib]
  exact Finset.sum_congr rfl fun _ _ => by ring

/-- The difference of two states streams like a state with vacuum outside. -/
theorem streamPart_sub (c : FluxConfig) (hg : c.geometry = .slab) (t : ℝ)
    (m : MeshView) (hm : ∀ k < c.Nspace, m.edges k < m.edges (k + 1)) (uRefl uRefl' : ℕ → ℝ)
    (fs fs' fs'' : FluxState) (u w : ℕ → ℕ → ℝ) (mul : ℝ) (space i : ℕ)
    (hs : space < c.Nspace) (hi : i ≤ c.M) :
    streamPart c t m u space mul uRefl fs i - streamPart c t m w space mul uRefl' fs' i =
      streamPart (vacuumConfig c) t m (fun k j => u k j - w k j) space mul uRefl fs'' i := by
  have e1 : leftOuter (vacuumConfig c) t m (fun k j => u k j - w k j) space uRefl =
      leftOuter c t m u space uRefl - leftOuter c t m w space uRefl' := by
    unfold leftOuter
    rw [vacuumConfig_off]
    simp only [hg, show (vacuumConfig c).geometry = .slab from hg,
      show (vacuumConfig c).M = c.M from rfl, geomField]
    split_ifs <;> simp_all [slabField_sub]
  have e2 : rightOuter (vacuumConfig c) t m (fun k j => u k j - w k j) space =
      rightOuter c t m u space - rightOuter c t m w space := by
    unfold rightOuter
    rw [vacuumConfig_off]
    simp only [hg, show (vacuumConfig c).geometry = .slab from hg,
      show (vacuumConfig c).M = c.M from rfl, show (vacuumConfig c).Nspace = c.Nspace from rfl,
      geomField]
    split_ifs <;> simp_all [slabField_sub]
  unfold streamPart
  rw [fluxLU_eq c t m _ space _ uRefl fs hs hm hi, fluxLU_eq c t m _ space _ uRefl' fs' hs hm hi,
    fluxLU_eq (vacuumConfig c) t m _ space _ uRefl fs'' hs hm hi, e1, e2, hg,
    show (vacuumConfig c).geometry = .slab from hg, show (vacuumConfig c).M = c.M from rfl]
  simp only [geomArea, geomBasis, geomField, slabField_sub, matVec_sub]
  unfold upwind
  ring

/-- Square norm of an angular flux: weighted sum over directions. -/
noncomputable def angularSqNorm (p : RhsParams) (N M : ℕ) (e : ℕ → ℝ) (V : ℕ → ℕ → ℕ → ℝ) : ℝ :=
  angularSum p.Nang p.ws fun l => meshSqNorm N M e (V l)

/-- Coefficients of the scalar flux. -/
noncomputable def scalarCoef (p : RhsParams) (V : ℕ → ℕ → ℕ → ℝ) (k j : ℕ) : ℝ :=
  angularSum p.Nang p.ws fun l => V l k j

theorem meshSqNorm_eq (N M : ℕ) (e : ℕ → ℝ) (u : ℕ → ℕ → ℝ) (h : ∀ k < N, e k < e (k + 1)) :
    meshSqNorm N M e u = ∑ k ∈ Finset.range N, ∑ i ∈ Finset.range (M + 1), u k i ^ 2 :=
  Finset.sum_congr rfl fun k hk => integral_slabField_sq M (u k) (h k (Finset.mem_range.1 hk))

theorem angularSqNorm_eq (p : RhsParams) (N M : ℕ) (e : ℕ → ℝ) (V : ℕ → ℕ → ℕ → ℝ)
    (h : ∀ k < N, e k < e (k + 1)) :
    angularSqNorm p N M e V = ∑ l ∈ Finset.range p.Nang, p.ws l *
      ∑ k ∈ Finset.range N, ∑ i ∈ Finset.range (M + 1), V l k i ^ 2 := by
  unfold angularSqNorm angularSum
  exact Finset.sum_congr rfl fun l _ => by simp only [meshSqNorm_eq N M e (V l) h]

/-- Collision terms tested with the state. -/
theorem collision_form (p : RhsParams) (D : ℕ → ℝ) :
    ∑ l ∈ Finset.range p.Nang, p.ws l * (D l *
        (-D l + p.c * angularSum p.Nang p.ws D)) =
      -(angularSum p.Nang p.ws (fun l => D l ^ 2) - p.c * angularSum p.Nang p.ws D ^ 2) := by
  have e : ∀ l, p.ws l * (D l * (-D l + p.c * angularSum p.Nang p.ws D)) =
      -(p.ws l * D l ^ 2) + p.c * angularSum p.Nang p.ws D * (p.ws l * D l) := fun l => by ring
  rw [Finset.sum_congr rfl fun l _ => e l, Finset.sum_add_distrib, ← Finset.mul_sum,
    Finset.sum_neg_distrib]
  unfold angularSum
  ring

/-- Jensen: the square of a weighted mean. -/
theorem angularSum_sq_le (n : ℕ) (ws f : ℕ → ℝ) (hp : ∀ l < n, 0 ≤ ws l)
    (hw : ∑ l ∈ Finset.range n, ws l = 1) :
    angularSum n ws f ^ 2 ≤ angularSum n ws fun l => f l ^ 2 := by
  have h : 0 ≤ ∑ l ∈ Finset.range n, ws l * (f l - angularSum n ws f) ^ 2 :=
    Finset.sum_nonneg fun l hl => mul_nonneg (hp l (Finset.mem_range.1 hl)) (sq_nonneg _)
  have e : ∀ l, ws l * (f l - angularSum n ws f) ^ 2 =
      ws l * f l ^ 2 - 2 * angularSum n ws f * (ws l * f l) + angularSum n ws f ^ 2 * ws l :=
    fun l => by ring
  rw [Finset.sum_congr rfl fun l _ => e l, Finset.sum_add_distrib, Finset.sum_sub_distrib,
    ← Finset.mul_sum, ← Finset.mul_sum, hw] at h
  have h2 : ∑ l ∈ Finset.range n, ws l * f l = angularSum n ws f := rfl
  rw [h2] at h
  unfold angularSum at *
  nlinarith

/-! ### C81 -/

/-- C81, for the difference of two solutions: on any mesh, moving in any way, with the same source
and the same boundary data, the square norm of the difference `D` of two solutions decreases at the
rate `Σ_l w_l (Σ_k |μ_l - v_k| [D_l]_k² + 2 ‖D_l‖²) - 2 c ‖Σ_l w_l D_l‖²`.  Every term but the last
is a loss, at every edge and in every cell. -/
theorem c81_difference_rate (p : RhsParams)
    (c : FluxConfig) (hg : c.geometry = .slab) (t : ℝ) (mesh : ℝ → MeshView)
    (hm : ∀ᶠ s in nhdsWithin t (Ici t), ∀ k < c.Nspace, (mesh s).edges k < (mesh s).edges (k + 1))
    (S : ℕ → ℕ → ℝ) (uRefl uRefl' : ℕ → ℕ → ℝ) (fs fs' : ℕ → ℕ → FluxState)
    (V W : ℝ → ℕ → ℕ → ℕ → ℝ)
    (hV : ∀ l < p.Nang, ∀ k < c.Nspace, ∀ i ≤ c.M, HasDerivWithinAt (fun s => V s l k i)
      (slabConstantRhs p c t (mesh t) S (uRefl l) (fs l k) (V t) l k i) (Ici t) t)
    (hW : ∀ l < p.Nang, ∀ k < c.Nspace, ∀ i ≤ c.M, HasDerivWithinAt (fun s => W s l k i)
      (slabConstantRhs p c t (mesh t) S (uRefl' l) (fs' l k) (W t) l k i) (Ici t) t) :
    HasDerivWithinAt
      (fun s => angularSqNorm p c.Nspace c.M (mesh s).edges
        fun l k i => V s l k i - W s l k i)
      (-(angularSum p.Nang p.ws (fun l => ∑ k ∈ Finset.range (c.Nspace + 1),
          |p.mus l - (mesh t).Dedges k| * edgeJump c.Nspace c.M (mesh t).edges
            (fun k i => V t l k i - W t l k i) k ^ 2)
        + 2 * (angularSqNorm p c.Nspace c.M (mesh t).edges (fun l k i => V t l k i - W t l k i)
          - p.c * meshSqNorm c.Nspace c.M (mesh t).edges
            (scalarCoef p fun l k i => V t l k i - W t l k i)))) (Ici t) t := by
  have hmt : ∀ k < c.Nspace, (mesh t).edges k < (mesh t).edges (k + 1) :=
    hm.self_of_nhdsWithin self_mem_Ici
  set D : ℝ → ℕ → ℕ → ℕ → ℝ := fun s l k i => V s l k i - W s l k i with hD
  -- rate of every coefficient of the difference
  have hrate : ∀ l < p.Nang, ∀ k < c.Nspace, ∀ i ≤ c.M, HasDerivWithinAt (fun s => D s l k i)
      (streamPart (vacuumConfig c) t (mesh t) (D t l) k (p.mus l) (uRefl l) (fs l k) i
        + (-D t l k i + p.c * angularSum p.Nang p.ws fun l => D t l k i)) (Ici t) t := by
    intro l hl k hk i hi
    refine ((hV l hl k hk i hi).sub (hW l hl k hk i hi)).congr_deriv ?_
    have e := streamPart_sub c hg t (mesh t) hmt (uRefl l) (uRefl' l) (fs l k) (fs' l k) (fs l k)
      (V t l) (W t l) (p.mus l) k i hk hi
    have e2 : (angularSum p.Nang p.ws fun l => D t l k i) =
        angularSum p.Nang p.ws (fun l => V t l k i) - angularSum p.Nang p.ws fun l => W t l k i := by
      unfold angularSum
      rw [← Finset.sum_sub_distrib]
      exact Finset.sum_congr rfl fun _ _ => by simp only [hD]; ring
    show _ = streamPart (vacuumConfig c) t (mesh t) (fun k j => V t l k j - W t l k j) k (p.mus l)
      (uRefl l) (fs l k) i + _
    rw [← e, e2]
    unfold slabConstantRhs
    rw [makeP_eq, makeP_eq]
    simp only [hD]
    ring
  have hsum : HasDerivWithinAt (fun s => ∑ l ∈ Finset.range p.Nang, p.ws l *
      ∑ k ∈ Finset.range c.Nspace, ∑ i ∈ Finset.range (c.M + 1), D s l k i ^ 2)
      (∑ l ∈ Finset.range p.Nang, p.ws l *
        ∑ k ∈ Finset.range c.Nspace, ∑ i ∈ Finset.range (c.M + 1), 2 * (D t l k i *
          (streamPart (vacuumConfig c) t (mesh t) (D t l) k (p.mus l) (uRefl l) (fs l k) i
            + (-D t l k i + p.c * angularSum p.Nang p.ws fun l => D t l k i)))) (Ici t) t := by
    refine HasDerivWithinAt.fun_sum fun l hl => HasDerivWithinAt.const_mul _ ?_
    refine HasDerivWithinAt.fun_sum fun k hk => HasDerivWithinAt.fun_sum fun i hi => ?_
    refine ((hrate l (Finset.mem_range.1 hl) k (Finset.mem_range.1 hk) i
      (by simpa [Nat.lt_succ_iff] using hi)).pow 2).congr_deriv ?_
    push_cast
    ring
  refine (hsum.congr_of_eventuallyEq (hm.mono fun s hs => ?_) ?_).congr_deriv ?_
  · exact angularSqNorm_eq p c.Nspace c.M (mesh s).edges (D s) hs
  · exact angularSqNorm_eq p c.Nspace c.M (mesh t).edges (D t) hmt
  · -- streaming and collision parts of the rate
    have hsplit : ∀ l, ∑ k ∈ Finset.range c.Nspace, ∑ i ∈ Finset.range (c.M + 1), 2 * (D t l k i *
          (streamPart (vacuumConfig c) t (mesh t) (D t l) k (p.mus l) (uRefl l) (fs l k) i
            + (-D t l k i + p.c * angularSum p.Nang p.ws fun l => D t l k i))) =
        -(∑ k ∈ Finset.range (c.Nspace + 1), |p.mus l - (mesh t).Dedges k| *
          edgeJump c.Nspace c.M (mesh t).edges (D t l) k ^ 2) +
        ∑ k ∈ Finset.range c.Nspace, ∑ i ∈ Finset.range (c.M + 1), 2 * (D t l k i *
          (-D t l k i + p.c * angularSum p.Nang p.ws fun l => D t l k i)) := by
      intro l
      have hf := mesh_form (vacuumConfig c) hg t (mesh t) hmt (D t l) (p.mus l) (uRefl l) (fs l)
        (vacuumConfig_off c _ t) (vacuumConfig_off c _ t)
      simp only [show (vacuumConfig c).Nspace = c.Nspace from rfl,
        show (vacuumConfig c).M = c.M from rfl] at hf
      have : -(∑ k ∈ Finset.range (c.Nspace + 1), |p.mus l - (mesh t).Dedges k| *
          edgeJump c.Nspace c.M (mesh t).edges (D t l) k ^ 2) =
          2 * ∑ k ∈ Finset.range c.Nspace, ∑ i ∈ Finset.range (c.M + 1),
            D t l k i * streamPart (vacuumConfig c) t (mesh t) (D t l) k (p.mus l) (uRefl l)
              (fs l k) i := by rw [hf]; ring
      rw [this]
      simp only [Finset.mul_sum]
      rw [← Finset.sum_add_distrib]
      refine Finset.sum_congr rfl fun k _ => ?_
      rw [← Finset.sum_add_distrib]
      exact Finset.sum_congr rfl fun i _ => by ring
    have hmul : ∀ w a b : ℝ, w * (-a + b) = -(w * a) + w * b := fun w a b => by ring
    rw [Finset.sum_congr rfl fun l _ => by rw [hsplit l, hmul], Finset.sum_add_distrib]
    have hcol : ∑ l ∈ Finset.range p.Nang, p.ws l * ∑ k ∈ Finset.range c.Nspace,
        ∑ i ∈ Finset.range (c.M + 1), 2 * (D t l k i *
          (-D t l k i + p.c * angularSum p.Nang p.ws fun l => D t l k i)) =
        -(2 * (angularSqNorm p c.Nspace c.M (mesh t).edges (D t)
          - p.c * meshSqNorm c.Nspace c.M (mesh t).edges (scalarCoef p (D t)))) := by
      rw [angularSqNorm_eq _ _ _ _ _ hmt, meshSqNorm_eq _ _ _ _ hmt]
      simp only [Finset.mul_sum]
      rw [Finset.sum_comm]
      have e1 : ∑ l ∈ Finset.range p.Nang, ∑ k ∈ Finset.range c.Nspace,
          ∑ i ∈ Finset.range (c.M + 1), p.ws l * D t l k i ^ 2 =
          ∑ k ∈ Finset.range c.Nspace, ∑ i ∈ Finset.range (c.M + 1),
            angularSum p.Nang p.ws fun l => D t l k i ^ 2 := by
        rw [Finset.sum_comm]
        refine Finset.sum_congr rfl fun k _ => ?_
        rw [Finset.sum_comm]
        rfl
      rw [e1, ← Finset.sum_sub_distrib, Finset.mul_sum, ← Finset.sum_neg_distrib]
      refine Finset.sum_congr rfl fun k _ => ?_
      rw [Finset.sum_comm, ← Finset.sum_sub_distrib, Finset.mul_sum, ← Finset.sum_neg_distrib]
      refine Finset.sum_congr rfl fun i _ => ?_
      have hc := collision_form p fun l => D t l k i
      unfold scalarCoef
      rw [show -(2 * ((angularSum p.Nang p.ws fun l => D t l k i ^ 2) -
        p.c * (angularSum p.Nang p.ws fun l => D t l k i) ^ 2)) =
        2 * -((angularSum p.Nang p.ws fun l => D t l k i ^ 2) -
        p.c * (angularSum p.Nang p.ws fun l => D t l k i) ^ 2) by ring, ← hc, Finset.mul_sum]
      exact Finset.sum_congr rfl fun l _ => by ring
    rw [hcol, Finset.sum_neg_distrib]
    unfold angularSum
    ring

/-- C81: without source and boundary source, the square norm of a solution decreases at the rate
`Σ_l w_l (Σ_k |μ_l - v_k| [ψ_l]_k² + 2 ‖ψ_l‖²) - 2 c ‖φ‖²`. -/
theorem c81_norm_rate (p : RhsParams)
    (c : FluxConfig) (hg : c.geometry = .slab) (t : ℝ) (hN : 2 ≤ c.Nspace)
    (hl : ¬ BoundaryActive c true t) (hr : ¬ BoundaryActive c false t) (mesh : ℝ → MeshView)
    (hm : ∀ᶠ s in nhdsWithin t (Ici t), ∀ k < c.Nspace, (mesh s).edges k < (mesh s).edges (k + 1))
    (uRefl : ℕ → ℕ → ℝ) (fs : ℕ → ℕ → FluxState) (V : ℝ → ℕ → ℕ → ℕ → ℝ)
    (hV : ∀ l < p.Nang, ∀ k < c.Nspace, ∀ i ≤ c.M, HasDerivWithinAt (fun s => V s l k i)
      (slabConstantRhs p c t (mesh t) (fun _ _ => 0) (uRefl l) (fs l k) (V t) l k i) (Ici t) t) :
    HasDerivWithinAt (fun s => angularSqNorm p c.Nspace c.M (mesh s).edges (V s))
      (-(angularSum p.Nang p.ws (fun l => ∑ k ∈ Finset.range (c.Nspace + 1),
          |p.mus l - (mesh t).Dedges k| * edgeJump c.Nspace c.M (mesh t).edges (V t l) k ^ 2)
        + 2 * (angularSqNorm p c.Nspace c.M (mesh t).edges (V t)
          - p.c * meshSqNorm c.Nspace c.M (mesh t).edges (scalarCoef p (V t))))) (Ici t) t := by
  have hmt : ∀ k < c.Nspace, (mesh t).edges k < (mesh t).edges (k + 1) :=
    hm.self_of_nhdsWithin self_mem_Ici
  have h0 : ∀ l < p.Nang, ∀ k < c.Nspace, ∀ i ≤ c.M,
      HasDerivWithinAt (fun s : ℝ => (fun (_ : ℝ) (_ _ _ : ℕ) => (0 : ℝ)) s l k i)
      (slabConstantRhs p c t (mesh t) (fun _ _ => 0) (uRefl l) (fs l k)
        ((fun (_ : ℝ) (_ _ _ : ℕ) => (0 : ℝ)) t) l k i) (Ici t) t := by
    intro l _ k hk i hi
    have e := c14_rhs_linear p c hg t hN hl hr (mesh t) hmt (uRefl l) (fs l k) (fs l k) (fs l k)
      (fun _ _ _ => 0) (fun _ _ _ => 0) 0 0 l k i hk hi
    simp only [zero_mul, add_zero] at e
    rw [e]
    exact hasDerivWithinAt_const _ _ _
  simpa only [sub_zero] using c81_difference_rate p c hg t mesh hm (fun _ _ => 0) uRefl uRefl fs fs
    V (fun _ _ _ _ => 0) hV h0

theorem angularSqNorm_nonneg (p : RhsParams) (N M : ℕ) (e : ℕ → ℝ) (V : ℕ → ℕ → ℕ → ℝ)
    (hp : ∀ l < p.Nang, 0 ≤ p.ws l) (h : ∀ k < N, e k < e (k + 1)) :
    0 ≤ angularSqNorm p N M e V := by
  rw [angularSqNorm_eq p N M e V h]
  exact Finset.sum_nonneg fun l hl => mul_nonneg (hp l (Finset.mem_range.1 hl))
    (Finset.sum_nonneg fun _ _ => Finset.sum_nonneg fun _ _ => sq_nonneg _)

/-- The scalar flux has at most the norm of the angular flux. -/
theorem scalar_le_angular (p : RhsParams) (hp : ∀ l < p.Nang, 0 ≤ p.ws l)
    (hw : ∑ l ∈ Finset.range p.Nang, p.ws l = 1) (N M : ℕ) (e : ℕ → ℝ)
    (h : ∀ k < N, e k < e (k + 1)) (V : ℕ → ℕ → ℕ → ℝ) :
    meshSqNorm N M e (scalarCoef p V) ≤ angularSqNorm p N M e V := by
  rw [meshSqNorm_eq N M e _ h, angularSqNorm_eq p N M e V h]
  have e1 : ∑ l ∈ Finset.range p.Nang, p.ws l * ∑ k ∈ Finset.range N,
      ∑ i ∈ Finset.range (M + 1), V l k i ^ 2 =
      ∑ k ∈ Finset.range N, ∑ i ∈ Finset.range (M + 1),
        angularSum p.Nang p.ws fun l => V l k i ^ 2 := by
    simp only [Finset.mul_sum]
    rw [Finset.sum_comm]
    refine Finset.sum_congr rfl fun k _ => ?_
    rw [Finset.sum_comm]
    rfl
  rw [e1]
  refine Finset.sum_le_sum fun k _ => Finset.sum_le_sum fun i _ => ?_
  exact angularSum_sq_le p.Nang p.ws (fun l => V l k i) hp hw

/-- The jump terms of C81 are losses. -/
theorem jump_loss_nonneg (p : RhsParams) (hp : ∀ l < p.Nang, 0 ≤ p.ws l) (N M : ℕ) (m : MeshView)
    (V : ℕ → ℕ → ℕ → ℝ) :
    0 ≤ angularSum p.Nang p.ws (fun l => ∑ k ∈ Finset.range (N + 1),
      |p.mus l - m.Dedges k| * edgeJump N M m.edges (V l) k ^ 2) := by
  unfold angularSum
  exact Finset.sum_nonneg fun l hl => mul_nonneg (hp l (Finset.mem_range.1 hl))
    (Finset.sum_nonneg fun _ _ => mul_nonneg (abs_nonneg _) (sq_nonneg _))

/-! ### C82 -/

/-- C82: two solutions of the slab right-hand side with the same source and the same boundary data,
on any mesh that keeps its edges in order (nothing is required at
the finitely many times `F`, where sources switch or the mesh velocity jumps): the square norm of the difference grows at most like
`exp (2 (c - 1) t)`.  So for a scattering ratio at most one errors never grow, and below one they
decay. -/
theorem c82_difference_bound (p : RhsParams) (hp : ∀ l < p.Nang, 0 ≤ p.ws l)
    (hw : ∑ l ∈ Finset.range p.Nang, p.ws l = 1) (hc : 0 ≤ p.c)
    (c : FluxConfig) (hg : c.geometry = .slab) (a b : ℝ) (F : Set ℝ) (hF : F.Finite)
    (mesh : ℝ → MeshView)
    (hm : ∀ s ∈ Icc a b, ∀ k < c.Nspace, (mesh s).edges k < (mesh s).edges (k + 1))
    (S : ℝ → ℕ → ℕ → ℝ) (uRefl uRefl' : ℝ → ℕ → ℕ → ℝ) (fs fs' : ℝ → ℕ → ℕ → FluxState)
    (V W : ℝ → ℕ → ℕ → ℕ → ℝ)
    (hVc : ∀ l < p.Nang, ∀ k < c.Nspace, ∀ i ≤ c.M, ContinuousOn (fun s => V s l k i) (Icc a b))
    (hWc : ∀ l < p.Nang, ∀ k < c.Nspace, ∀ i ≤ c.M, ContinuousOn (fun s => W s l k i) (Icc a b))
    (hV : ∀ t ∈ Ico a b \ F, ∀ l < p.Nang, ∀ k < c.Nspace, ∀ i ≤ c.M,
      HasDerivWithinAt (fun s => V s l k i)
      (slabConstantRhs p c t (mesh t) (S t) (uRefl t l) (fs t l k) (V t) l k i) (Ici t) t)
    (hW : ∀ t ∈ Ico a b \ F, ∀ l < p.Nang, ∀ k < c.Nspace, ∀ i ≤ c.M,
      HasDerivWithinAt (fun s => W s l k i)
      (slabConstantRhs p c t (mesh t) (S t) (uRefl' t l) (fs' t l k) (W t) l k i) (Ici t) t)
    (t : ℝ) (ht : t ∈ Icc a b) :
    angularSqNorm p c.Nspace c.M (mesh t).edges (fun l k i => V t l k i - W t l k i) ≤
      angularSqNorm p c.Nspace c.M (mesh a).edges (fun l k i => V a l k i - W a l k i) *
        Real.exp (2 * (p.c - 1) * (t - a)) := by
  set D : ℝ → ℕ → ℕ → ℕ → ℝ := fun s l k i => V s l k i - W s l k i with hD
  have hcont : ContinuousOn (fun s => angularSqNorm p c.Nspace c.M (mesh s).edges (D s))
      (Icc a b) := by
    have h1 : ContinuousOn (fun s => ∑ l ∈ Finset.range p.Nang, p.ws l *
        ∑ k ∈ Finset.range c.Nspace, ∑ i ∈ Finset.range (c.M + 1), D s l k i ^ 2) (Icc a b) := by
      refine continuousOn_finsetSum _ fun l hl => ContinuousOn.mul continuousOn_const ?_
      refine continuousOn_finsetSum _ fun k hk => continuousOn_finsetSum _ fun i hi => ?_
      have hi' : i ≤ c.M := by simpa [Nat.lt_succ_iff] using hi
      exact ((hVc l (Finset.mem_range.1 hl) k (Finset.mem_range.1 hk) i hi').sub
        (hWc l (Finset.mem_range.1 hl) k (Finset.mem_range.1 hk) i hi')).pow 2
    exact h1.congr fun s hs => angularSqNorm_eq p c.Nspace c.M (mesh s).edges (D s) (hm s hs)
  have hev : ∀ x ∈ Ico a b \ F, ∀ᶠ s in nhdsWithin x (Ici x), ∀ k < c.Nspace,
      (mesh s).edges k < (mesh s).edges (k + 1) := by
    intro x hx
    have : Icc x b ∈ nhdsWithin x (Ici x) := Icc_mem_nhdsGE hx.1.2
    exact Filter.mem_of_superset this fun s hs => hm s ⟨hx.1.1.trans hs.1, hs.2⟩
  have hder := fun x (hx : x ∈ Ico a b \ F) => c81_difference_rate p c hg x mesh (hev x hx) (S x)
    (uRefl x) (uRefl' x) (fs x) (fs' x) V W (hV x hx) (hW x hx)
  have := gronwall_except hF _ _ (2 * (p.c - 1)) 0 a b _ hcont hder le_rfl (fun x hx => ?_) t ht
  · rwa [gronwallBound_ε0] at this
  · have hmx : ∀ k < c.Nspace, (mesh x).edges k < (mesh x).edges (k + 1) :=
      hm x ⟨hx.1.1, hx.1.2.le⟩
    have h1 := jump_loss_nonneg p hp c.Nspace c.M (mesh x) (D x)
    have h2 := mul_le_mul_of_nonneg_left (scalar_le_angular p hp hw c.Nspace c.M (mesh x).edges hmx
      (D x)) hc
    simp only [hD] at h1 h2 ⊢
    linarith

/-- C82: with a scattering ratio at most one the distance of two solutions never increases. -/
theorem c82_never_grows (p : RhsParams) (hp : ∀ l < p.Nang, 0 ≤ p.ws l)
    (hw : ∑ l ∈ Finset.range p.Nang, p.ws l = 1) (hc : 0 ≤ p.c) (hc1 : p.c ≤ 1)
    (c : FluxConfig) (hg : c.geometry = .slab) (a b : ℝ) (F : Set ℝ) (hF : F.Finite)
    (mesh : ℝ → MeshView)
    (hm : ∀ s ∈ Icc a b, ∀ k < c.Nspace, (mesh s).edges k < (mesh s).edges (k + 1))
    (S : ℝ → ℕ → ℕ → ℝ) (uRefl uRefl' : ℝ → ℕ → ℕ → ℝ) (fs fs' : ℝ → ℕ → ℕ → FluxState)
    (V W : ℝ → ℕ → ℕ → ℕ → ℝ)
    (hVc : ∀ l < p.Nang, ∀ k < c.Nspace, ∀ i ≤ c.M, ContinuousOn (fun s => V s l k i) (Icc a b))
    (hWc : ∀ l < p.Nang, ∀ k < c.Nspace, ∀ i ≤ c.M, ContinuousOn (fun s => W s l k i) (Icc a b))
    (hV : ∀ t ∈ Ico a b \ F, ∀ l < p.Nang, ∀ k < c.Nspace, ∀ i ≤ c.M,
      HasDerivWithinAt (fun s => V s l k i)
      (slabConstantRhs p c t (mesh t) (S t) (uRefl t l) (fs t l k) (V t) l k i) (Ici t) t)
    (hW : ∀ t ∈ Ico a b \ F, ∀ l < p.Nang, ∀ k < c.Nspace, ∀ i ≤ c.M,
      HasDerivWithinAt (fun s => W s l k i)
      (slabConstantRhs p c t (mesh t) (S t) (uRefl' t l) (fs' t l k) (W t) l k i) (Ici t) t) :
    AntitoneOn (fun t => angularSqNorm p c.Nspace c.M (mesh t).edges
      fun l k i => V t l k i - W t l k i) (Icc a b) := by
  intro s hs t ht hst
  have hsub : Icc s t ⊆ Icc a b := Icc_subset_Icc hs.1 ht.2
  have hsub' : Ico s t \ F ⊆ Ico a b \ F := sdiff_subset_sdiff_left (Ico_subset_Ico hs.1 ht.2)
  have := c82_difference_bound p hp hw hc c hg s t F hF mesh (fun x hx => hm x (hsub hx)) S uRefl uRefl'
    fs fs' V W (fun l hl k hk i hi => (hVc l hl k hk i hi).mono hsub)
    (fun l hl k hk i hi => (hWc l hl k hk i hi).mono hsub) (fun x hx => hV x (hsub' hx))
    (fun x hx => hW x (hsub' hx)) t ⟨hst, le_rfl⟩
  refine this.trans ?_
  have h0 := angularSqNorm_nonneg p c.Nspace c.M (mesh s).edges (fun l k i => V s l k i - W s l k i)
    hp (hm s hs)
  have h1 : Real.exp (2 * (p.c - 1) * (t - s)) ≤ 1 := by
    rw [Real.exp_le_one_iff]
    nlinarith
  nlinarith

/-- C82: the solution is determined by the initial coefficients, the source and the boundary
data. -/
theorem c82_unique (p : RhsParams) (hp : ∀ l < p.Nang, 0 < p.ws l)
    (hw : ∑ l ∈ Finset.range p.Nang, p.ws l = 1) (hc : 0 ≤ p.c)
    (c : FluxConfig) (hg : c.geometry = .slab) (a b : ℝ) (F : Set ℝ) (hF : F.Finite)
    (mesh : ℝ → MeshView)
    (hm : ∀ s ∈ Icc a b, ∀ k < c.Nspace, (mesh s).edges k < (mesh s).edges (k + 1))
    (S : ℝ → ℕ → ℕ → ℝ) (uRefl uRefl' : ℝ → ℕ → ℕ → ℝ) (fs fs' : ℝ → ℕ → ℕ → FluxState)
    (V W : ℝ → ℕ → ℕ → ℕ → ℝ)
    (hVc : ∀ l < p.Nang, ∀ k < c.Nspace, ∀ i ≤ c.M, ContinuousOn (fun s => V s l k i) (Icc a b))
    (hWc : ∀ l < p.Nang, ∀ k < c.Nspace, ∀ i ≤ c.M, ContinuousOn (fun s => W s l k i) (Icc a b))
    (hV : ∀ t ∈ Ico a b \ F, ∀ l < p.Nang, ∀ k < c.Nspace, ∀ i ≤ c.M,
      HasDerivWithinAt (fun s => V s l k i)
      (slabConstantRhs p c t (mesh t) (S t) (uRefl t l) (fs t l k) (V t) l k i) (Ici t) t)
    (hW : ∀ t ∈ Ico a b \ F, ∀ l < p.Nang, ∀ k < c.Nspace, ∀ i ≤ c.M,
      HasDerivWithinAt (fun s => W s l k i)
      (slabConstantRhs p c t (mesh t) (S t) (uRefl' t l) (fs' t l k) (W t) l k i) (Ici t) t)
    (hinit : ∀ l < p.Nang, ∀ k < c.Nspace, ∀ i ≤ c.M, V a l k i = W a l k i)
    (t : ℝ) (ht : t ∈ Icc a b) :
    ∀ l < p.Nang, ∀ k < c.Nspace, ∀ i ≤ c.M, V t l k i = W t l k i := by
  have hb := c82_difference_bound p (fun l hl => (hp l hl).le) hw hc c hg a b F hF mesh hm S uRefl uRefl'
    fs fs' V W hVc hWc hV hW t ht
  have ha : a ∈ Icc a b := ⟨le_rfl, ht.1.trans ht.2⟩
  rw [angularSqNorm_eq _ _ _ _ _ (hm t ht), angularSqNorm_eq _ _ _ _ _ (hm a ha)] at hb
  have hz : ∑ l ∈ Finset.range p.Nang, p.ws l * ∑ k ∈ Finset.range c.Nspace,
      ∑ i ∈ Finset.range (c.M + 1), (V a l k i - W a l k i) ^ 2 = 0 := by
    refine Finset.sum_eq_zero fun l hl => ?_
    rw [Finset.sum_eq_zero fun k hk => Finset.sum_eq_zero fun i hi => ?_, mul_zero]
    rw [hinit l (Finset.mem_range.1 hl) k (Finset.mem_range.1 hk) i
      (by simpa [Nat.lt_succ_iff] using hi)]
    ring
  rw [hz, zero_mul] at hb
  have hn : ∀ l ∈ Finset.range p.Nang, 0 ≤ p.ws l * ∑ k ∈ Finset.range c.Nspace,
      ∑ i ∈ Finset.range (c.M + 1), (V t l k i - W t l k i) ^ 2 := fun l hl =>
    mul_nonneg (hp l (Finset.mem_range.1 hl)).le
      (Finset.sum_nonneg fun _ _ => Finset.sum_nonneg fun _ _ => sq_nonneg _)
  have h0 := (Finset.sum_eq_zero_iff_of_nonneg hn).1 (le_antisymm hb (Finset.sum_nonneg hn))
  intro l hl k hk i hi
  have h1 := (mul_eq_zero.1 (h0 l (Finset.mem_range.2 hl))).resolve_left (hp l hl).ne'
  have h2 := (Finset.sum_eq_zero_iff_of_nonneg fun _ _ =>
    Finset.sum_nonneg fun _ _ => sq_nonneg _).1 h1 k (Finset.mem_range.2 hk)
  have h3 := (Finset.sum_eq_zero_iff_of_nonneg fun _ _ => sq_nonneg _).1 h2 i
    (Finset.mem_range.2 (by omega))
  exact sub_eq_zero.1 (pow_eq_zero_iff (by norm_num) |>.1 h3)

/-! ### C83: coupled problem with linear emission -/

/-- Rate of the square norm of one streaming field with an additional rate `Q`. -/
theorem sq_rate (c : FluxConfig) (hg : c.geometry = .slab) (t : ℝ) (mesh : ℝ → MeshView)
    (hm : ∀ᶠ s in nhdsWithin t (Ici t), ∀ k < c.Nspace, (mesh s).edges k < (mesh s).edges (k + 1))
    (mul : ℝ) (uRefl : ℕ → ℝ) (fs : ℕ → FluxState) (u : ℝ → ℕ → ℕ → ℝ) (Q : ℕ → ℕ → ℝ)
    (hu : ∀ k < c.Nspace, ∀ i ≤ c.M, HasDerivWithinAt (fun s => u s k i)
      (streamPart (vacuumConfig c) t (mesh t) (u t) k mul uRefl (fs k) i + Q k i) (Ici t) t) :
    HasDerivWithinAt (fun s => meshSqNorm c.Nspace c.M (mesh s).edges (u s))
      (-(∑ k ∈ Finset.range (c.Nspace + 1), |mul - (mesh t).Dedges k| *
          edgeJump c.Nspace c.M (mesh t).edges (u t) k ^ 2)
        + 2 * ∑ k ∈ Finset.range c.Nspace, ∑ i ∈ Finset.range (c.M + 1), u t k i * Q k i)
      (Ici t) t := by
  have hmt : ∀ k < c.Nspace, (mesh t).edges k < (mesh t).edges (k + 1) :=
    hm.self_of_nhdsWithin self_mem_Ici
  have hsum : HasDerivWithinAt (fun s => ∑ k ∈ Finset.range c.Nspace,
      ∑ i ∈ Finset.range (c.M + 1), u s k i ^ 2)
      (∑ k ∈ Finset.range c.Nspace, ∑ i ∈ Finset.range (c.M + 1), 2 * (u t k i *
          (streamPart (vacuumConfig c) t (mesh t) (u t) k mul uRefl (fs k) i + Q k i)))
      (Ici t) t := by
    refine HasDerivWithinAt.fun_sum fun k hk => HasDerivWithinAt.fun_sum fun i hi => ?_
    refine ((hu k (Finset.mem_range.1 hk) i
      (by simpa [Nat.lt_succ_iff] using hi)).pow 2).congr_deriv ?_
    push_cast
    ring
  refine (hsum.congr_of_eventuallyEq (hm.mono fun s hs => ?_) ?_).congr_deriv ?_
  · exact meshSqNorm_eq c.Nspace c.M (mesh s).edges (u s) hs
  · exact meshSqNorm_eq c.Nspace c.M (mesh t).edges (u t) hmt
  · have hf := mesh_form (vacuumConfig c) hg t (mesh t) hmt (u t) mul uRefl fs
      (vacuumConfig_off c _ t) (vacuumConfig_off c _ t)
    simp only [show (vacuumConfig c).Nspace = c.Nspace from rfl,
      show (vacuumConfig c).M = c.M from rfl] at hf
    have h2 : -(∑ k ∈ Finset.range (c.Nspace + 1), |mul - (mesh t).Dedges k| *
        edgeJump c.Nspace c.M (mesh t).edges (u t) k ^ 2) =
        2 * ∑ k ∈ Finset.range c.Nspace, ∑ i ∈ Finset.range (c.M + 1),
          u t k i * streamPart (vacuumConfig c) t (mesh t) (u t) k mul uRefl (fs k) i := by
      rw [hf]; ring
    rw [h2, ← mul_add, ← Finset.sum_add_distrib, Finset.mul_sum]
    refine Finset.sum_congr rfl fun k _ => ?_
    rw [← Finset.sum_add_distrib, Finset.mul_sum]
    exact Finset.sum_congr rfl fun i _ => by ring

/-- Exchange and scattering terms tested with the state, one coefficient. -/
theorem exchange_form (p : RhsParams) (hw : ∑ l ∈ Finset.range p.Nang, p.ws l = 1)
    (hc : p.c + p.ca = 1) (D : ℕ → ℝ) (E : ℝ) :
    4 * (2 * angularSum p.Nang p.ws fun l => D l *
        ((-D l + p.c * angularSum p.Nang p.ws D + p.ca * (1 / 2) * E) / p.l))
      + 2 * (E * (p.ca * (2 * angularSum p.Nang p.ws D - E) / p.l)) =
      -(2 / p.l * (4 * angularSum p.Nang p.ws (fun l => (D l - angularSum p.Nang p.ws D) ^ 2)
        + p.ca * (2 * angularSum p.Nang p.ws D - E) ^ 2)) := by
  set φ := angularSum p.Nang p.ws D with hφ
  have e1 : angularSum p.Nang p.ws (fun l => D l * ((-D l + p.c * φ + p.ca * (1 / 2) * E) / p.l)) =
      (-(angularSum p.Nang p.ws fun l => D l ^ 2) + (p.c * φ + p.ca * (1 / 2) * E) * φ) / p.l := by
    have : ∀ l, p.ws l * (D l * ((-D l + p.c * φ + p.ca * (1 / 2) * E) / p.l)) =
        -(1 / p.l) * (p.ws l * D l ^ 2) +
          (p.c * φ + p.ca * (1 / 2) * E) / p.l * (p.ws l * D l) := fun l => by ring
    have h2 : φ = ∑ l ∈ Finset.range p.Nang, p.ws l * D l := rfl
    unfold angularSum
    rw [Finset.sum_congr rfl fun l _ => this l, Finset.sum_add_distrib, ← Finset.mul_sum,
      ← Finset.mul_sum, ← h2]
    ring
  have e2 : angularSum p.Nang p.ws (fun l => (D l - φ) ^ 2) =
      (angularSum p.Nang p.ws fun l => D l ^ 2) - φ ^ 2 := by
    have : ∀ l, p.ws l * (D l - φ) ^ 2 = p.ws l * D l ^ 2 - 2 * φ * (p.ws l * D l) +
        φ ^ 2 * p.ws l := fun l => by ring
    have h2 : φ = ∑ l ∈ Finset.range p.Nang, p.ws l * D l := rfl
    unfold angularSum
    rw [Finset.sum_congr rfl fun l _ => this l, Finset.sum_add_distrib, Finset.sum_sub_distrib,
      ← Finset.mul_sum, ← Finset.mul_sum, ← h2, hw]
    ring
  rw [e1, e2]
  have : p.ca = 1 - p.c := by linarith
  rw [this]
  ring

/-- Square norm of the coupled state: radiation (scaled to the scalar flux of both half spaces) and
material energy. -/
noncomputable def coupledSqNorm (p : RhsParams) (N M : ℕ) (e : ℕ → ℝ) (V : ℕ → ℕ → ℕ → ℝ) : ℝ :=
  4 * angularSqNorm p N M e V + meshSqNorm N M e (V p.Nang)

/-- C83: the coupled problem with emission proportional to the material energy (the emission vector
is the material energy vector itself), for the difference of two solutions with the same source and
boundary data: the square norm decreases, by upwinding at each edge, by the anisotropy of the
radiation and by the imbalance of emission and absorption. -/
theorem c83_coupled_rate (p : RhsParams) (hw : ∑ l ∈ Finset.range p.Nang, p.ws l = 1)
    (hc : p.c + p.ca = 1)
    (c : FluxConfig) (hg : c.geometry = .slab) (t : ℝ) (mesh : ℝ → MeshView)
    (hm : ∀ᶠ s in nhdsWithin t (Ici t), ∀ k < c.Nspace, (mesh s).edges k < (mesh s).edges (k + 1))
    (S : ℕ → ℕ → ℝ) (uRefl uRefl' : ℕ → ℕ → ℝ) (fs fs' : ℕ → ℕ → FluxState)
    (V W : ℝ → ℕ → ℕ → ℕ → ℝ)
    (hV : ∀ l < p.Nang, ∀ k < c.Nspace, ∀ i ≤ c.M, HasDerivWithinAt (fun s => V s l k i)
      (transferRhs p c t (mesh t) S (V t p.Nang) (uRefl l) (fs l k) (V t) l k i) (Ici t) t)
    (hVe : ∀ k < c.Nspace, ∀ i ≤ c.M, HasDerivWithinAt (fun s => V s p.Nang k i)
      (energyRhs p c t (mesh t) (V t p.Nang) (uRefl p.Nang) (fs p.Nang k) (V t) k i) (Ici t) t)
    (hW : ∀ l < p.Nang, ∀ k < c.Nspace, ∀ i ≤ c.M, HasDerivWithinAt (fun s => W s l k i)
      (transferRhs p c t (mesh t) S (W t p.Nang) (uRefl' l) (fs' l k) (W t) l k i) (Ici t) t)
    (hWe : ∀ k < c.Nspace, ∀ i ≤ c.M, HasDerivWithinAt (fun s => W s p.Nang k i)
      (energyRhs p c t (mesh t) (W t p.Nang) (uRefl' p.Nang) (fs' p.Nang k) (W t) k i) (Ici t) t)
    (D : ℝ → ℕ → ℕ → ℕ → ℝ) (hD : ∀ s l k i, D s l k i = V s l k i - W s l k i) :
    HasDerivWithinAt (fun s => coupledSqNorm p c.Nspace c.M (mesh s).edges (D s))
      (-(4 * angularSum p.Nang p.ws (fun l => ∑ k ∈ Finset.range (c.Nspace + 1),
            |p.mus l - (mesh t).Dedges k| *
              edgeJump c.Nspace c.M (mesh t).edges (D t l) k ^ 2)
        + (∑ k ∈ Finset.range (c.Nspace + 1), |(mesh t).Dedges k| *
              edgeJump c.Nspace c.M (mesh t).edges (D t p.Nang) k ^ 2)
        + 2 / p.l * (4 * angularSqNorm p c.Nspace c.M (mesh t).edges
              (fun l k i => D t l k i - scalarCoef p (D t) k i)
            + p.ca * meshSqNorm c.Nspace c.M (mesh t).edges
              (fun k i => 2 * scalarCoef p (D t) k i - D t p.Nang k i)))) (Ici t) t := by
  have hmt : ∀ k < c.Nspace, (mesh t).edges k < (mesh t).edges (k + 1) :=
    hm.self_of_nhdsWithin self_mem_Ici
  have hDf : ∀ s l, D s l = fun k i => V s l k i - W s l k i := fun s l => by
    funext k i; exact hD s l k i
  have hsc : ∀ k i, scalarCoef p (D t) k i =
      angularSum p.Nang p.ws (fun l => V t l k i) - angularSum p.Nang p.ws fun l => W t l k i := by
    intro k i
    unfold scalarCoef angularSum
    rw [← Finset.sum_sub_distrib]
    exact Finset.sum_congr rfl fun l _ => by simp only [hD]; ring
  have hrad : ∀ l < p.Nang, ∀ k < c.Nspace, ∀ i ≤ c.M, HasDerivWithinAt (fun s => D s l k i)
      (streamPart (vacuumConfig c) t (mesh t) (D t l) k (p.mus l) (uRefl l) (fs l k) i
        + (-D t l k i + p.c * scalarCoef p (D t) k i + p.ca * (1 / 2) * D t p.Nang k i) / p.l)
      (Ici t) t := by
    intro l hl k hk i hi
    simp only [hD]
    refine ((hV l hl k hk i hi).sub (hW l hl k hk i hi)).congr_deriv ?_
    have e := streamPart_sub c hg t (mesh t) hmt (uRefl l) (uRefl' l) (fs l k) (fs' l k) (fs l k)
      (V t l) (W t l) (p.mus l) k i hk hi
    rw [hDf t l, ← e, hsc]
    unfold transferRhs
    rw [makeP_eq, makeP_eq]
    ring
  have hmat : ∀ k < c.Nspace, ∀ i ≤ c.M, HasDerivWithinAt (fun s => D s p.Nang k i)
      (streamPart (vacuumConfig c) t (mesh t) (D t p.Nang) k 0 (uRefl p.Nang) (fs p.Nang k) i
        + p.ca * (2 * scalarCoef p (D t) k i - D t p.Nang k i) / p.l) (Ici t) t := by
    intro k hk i hi
    simp only [hD]
    refine ((hVe k hk i hi).sub (hWe k hk i hi)).congr_deriv ?_
    have e := streamPart_sub c hg t (mesh t) hmt (uRefl p.Nang) (uRefl' p.Nang) (fs p.Nang k)
      (fs' p.Nang k) (fs p.Nang k) (V t p.Nang) (W t p.Nang) 0 k i hk hi
    rw [hDf t p.Nang, ← e, hsc]
    unfold energyRhs streamPart
    rw [makeP_eq, makeP_eq]
    ring
  have h1 := HasDerivWithinAt.fun_sum fun l (hl : l ∈ Finset.range p.Nang) =>
    (sq_rate c hg t mesh hm (p.mus l) (uRefl l) (fs l) (fun s => D s l) _
      (hrad l (Finset.mem_range.1 hl))).const_mul (p.ws l)
  have h2 := sq_rate c hg t mesh hm 0 (uRefl p.Nang) (fs p.Nang) (fun s => D s p.Nang) _ hmat
  refine ((h1.const_mul 4).add h2).congr_deriv ?_
  have hexp : 4 * (2 * ∑ l ∈ Finset.range p.Nang, p.ws l * ∑ k ∈ Finset.range c.Nspace,
      ∑ i ∈ Finset.range (c.M + 1), D t l k i *
        ((-D t l k i + p.c * scalarCoef p (D t) k i + p.ca * (1 / 2) * D t p.Nang k i) / p.l))
      + 2 * ∑ k ∈ Finset.range c.Nspace, ∑ i ∈ Finset.range (c.M + 1), D t p.Nang k i *
        (p.ca * (2 * scalarCoef p (D t) k i - D t p.Nang k i) / p.l) =
      -(2 / p.l * (4 * angularSqNorm p c.Nspace c.M (mesh t).edges
              (fun l k i => D t l k i - scalarCoef p (D t) k i)
            + p.ca * meshSqNorm c.Nspace c.M (mesh t).edges
              (fun k i => 2 * scalarCoef p (D t) k i - D t p.Nang k i))) := by
    rw [angularSqNorm_eq _ _ _ _ _ hmt, meshSqNorm_eq _ _ _ _ hmt]
    have hswap : ∀ F : ℕ → ℕ → ℕ → ℝ, ∑ l ∈ Finset.range p.Nang, p.ws l *
        ∑ k ∈ Finset.range c.Nspace, ∑ i ∈ Finset.range (c.M + 1), F l k i =
        ∑ k ∈ Finset.range c.Nspace, ∑ i ∈ Finset.range (c.M + 1),
          angularSum p.Nang p.ws fun l => F l k i := by
      intro F
      simp only [Finset.mul_sum]
      rw [Finset.sum_comm]
      refine Finset.sum_congr rfl fun k _ => ?_
      rw [Finset.sum_comm]
      rfl
    rw [hswap, hswap]
    simp only [Finset.mul_sum, ← Finset.sum_add_distrib, ← Finset.sum_neg_distrib]
    refine Finset.sum_congr rfl fun k _ => Finset.sum_congr rfl fun i _ => ?_
    have := exchange_form p hw hc (fun l => D t l k i) (D t p.Nang k i)
    unfold scalarCoef
    linear_combination this
  have hsplit : ∀ w a b : ℝ, w * (-a + 2 * b) = -(w * a) + 2 * (w * b) := fun w a b => by ring
  simp only [hsplit]
  rw [Finset.sum_add_distrib, Finset.sum_neg_distrib, ← Finset.mul_sum]
  simp only [zero_sub, abs_neg]
  have hA : ∑ l ∈ Finset.range p.Nang, p.ws l * ∑ k ∈ Finset.range (c.Nspace + 1),
      |p.mus l - (mesh t).Dedges k| * edgeJump c.Nspace c.M (mesh t).edges (D t l) k ^ 2 =
      angularSum p.Nang p.ws fun l => ∑ k ∈ Finset.range (c.Nspace + 1),
      |p.mus l - (mesh t).Dedges k| * edgeJump c.Nspace c.M (mesh t).edges (D t l) k ^ 2 := rfl
  rw [hA]
  linear_combination hexp

theorem meshSqNorm_nonneg (N M : ℕ) (e : ℕ → ℝ) (u : ℕ → ℕ → ℝ) (h : ∀ k < N, e k < e (k + 1)) :
    0 ≤ meshSqNorm N M e u := by
  rw [meshSqNorm_eq N M e u h]
  exact Finset.sum_nonneg fun _ _ => Finset.sum_nonneg fun _ _ => sq_nonneg _

/-- C83: two solutions of the coupled problem with linear emission never move apart. -/
theorem c83_coupled_never_grows (p : RhsParams) (hp : ∀ l < p.Nang, 0 ≤ p.ws l)
    (hw : ∑ l ∈ Finset.range p.Nang, p.ws l = 1)
    (hc : p.c + p.ca = 1) (hca : 0 ≤ p.ca) (hl : 0 < p.l)
    (c : FluxConfig) (hg : c.geometry = .slab) (a b : ℝ) (F : Set ℝ) (hF : F.Finite)
    (mesh : ℝ → MeshView)
    (hm : ∀ s ∈ Icc a b, ∀ k < c.Nspace, (mesh s).edges k < (mesh s).edges (k + 1))
    (S : ℝ → ℕ → ℕ → ℝ) (uRefl uRefl' : ℝ → ℕ → ℕ → ℝ) (fs fs' : ℝ → ℕ → ℕ → FluxState)
    (V W : ℝ → ℕ → ℕ → ℕ → ℝ)
    (hVc : ∀ l ≤ p.Nang, ∀ k < c.Nspace, ∀ i ≤ c.M, ContinuousOn (fun s => V s l k i) (Icc a b))
    (hWc : ∀ l ≤ p.Nang, ∀ k < c.Nspace, ∀ i ≤ c.M, ContinuousOn (fun s => W s l k i) (Icc a b))
    (hV : ∀ t ∈ Ico a b \ F, ∀ l < p.Nang, ∀ k < c.Nspace, ∀ i ≤ c.M,
      HasDerivWithinAt (fun s => V s l k i) (transferRhs p c t (mesh t) (S t) (V t p.Nang)
        (uRefl t l) (fs t l k) (V t) l k i) (Ici t) t)
    (hVe : ∀ t ∈ Ico a b \ F, ∀ k < c.Nspace, ∀ i ≤ c.M, HasDerivWithinAt (fun s => V s p.Nang k i)
      (energyRhs p c t (mesh t) (V t p.Nang) (uRefl t p.Nang) (fs t p.Nang k) (V t) k i) (Ici t) t)
    (hW : ∀ t ∈ Ico a b \ F, ∀ l < p.Nang, ∀ k < c.Nspace, ∀ i ≤ c.M,
      HasDerivWithinAt (fun s => W s l k i) (transferRhs p c t (mesh t) (S t) (W t p.Nang)
        (uRefl' t l) (fs' t l k) (W t) l k i) (Ici t) t)
    (hWe : ∀ t ∈ Ico a b \ F, ∀ k < c.Nspace, ∀ i ≤ c.M, HasDerivWithinAt (fun s => W s p.Nang k i)
      (energyRhs p c t (mesh t) (W t p.Nang) (uRefl' t p.Nang) (fs' t p.Nang k) (W t) k i)
      (Ici t) t) :
    AntitoneOn (fun t => coupledSqNorm p c.Nspace c.M (mesh t).edges
      fun l k i => V t l k i - W t l k i) (Icc a b) := by
  set D : ℝ → ℕ → ℕ → ℕ → ℝ := fun s l k i => V s l k i - W s l k i with hD
  have hDc : ∀ l ≤ p.Nang, ∀ k < c.Nspace, ∀ i ≤ c.M,
      ContinuousOn (fun s => D s l k i) (Icc a b) := fun l hl k hk i hi =>
    (hVc l hl k hk i hi).sub (hWc l hl k hk i hi)
  have hcont : ContinuousOn (fun s => coupledSqNorm p c.Nspace c.M (mesh s).edges (D s))
      (Icc a b) := by
    have h1 : ContinuousOn (fun s => 4 * (∑ l ∈ Finset.range p.Nang, p.ws l *
        ∑ k ∈ Finset.range c.Nspace, ∑ i ∈ Finset.range (c.M + 1), D s l k i ^ 2)
        + ∑ k ∈ Finset.range c.Nspace, ∑ i ∈ Finset.range (c.M + 1), D s p.Nang k i ^ 2)
        (Icc a b) := by
      refine ContinuousOn.add (ContinuousOn.mul continuousOn_const ?_) ?_
      · refine continuousOn_finsetSum _ fun l hl => ContinuousOn.mul continuousOn_const ?_
        refine continuousOn_finsetSum _ fun k hk => continuousOn_finsetSum _ fun i hi => ?_
        exact (hDc l (Finset.mem_range.1 hl).le k (Finset.mem_range.1 hk) i
          (by simpa [Nat.lt_succ_iff] using hi)).pow 2
      · refine continuousOn_finsetSum _ fun k hk => continuousOn_finsetSum _ fun i hi => ?_
        exact (hDc p.Nang le_rfl k (Finset.mem_range.1 hk) i
          (by simpa [Nat.lt_succ_iff] using hi)).pow 2
    refine h1.congr fun s hs => ?_
    show coupledSqNorm p c.Nspace c.M (mesh s).edges (D s) = _
    unfold coupledSqNorm
    rw [angularSqNorm_eq p c.Nspace c.M (mesh s).edges (D s) (hm s hs),
      meshSqNorm_eq c.Nspace c.M (mesh s).edges _ (hm s hs)]
  have hev : ∀ x ∈ Ico a b \ F, ∀ᶠ s in nhdsWithin x (Ici x), ∀ k < c.Nspace,
      (mesh s).edges k < (mesh s).edges (k + 1) := by
    intro x hx
    have : Icc x b ∈ nhdsWithin x (Ici x) := Icc_mem_nhdsGE hx.1.2
    exact Filter.mem_of_superset this fun s hs => hm s ⟨hx.1.1.trans hs.1, hs.2⟩
  have hder := fun x (hx : x ∈ Ico a b \ F) => c83_coupled_rate p hw hc c hg x mesh (hev x hx) (S x)
    (uRefl x) (uRefl' x) (fs x) (fs' x) V W (hV x hx) (hVe x hx) (hW x hx) (hWe x hx) D
    (fun _ _ _ _ => rfl)
  intro s hs t ht hst
  have hsub : Ico s t \ F ⊆ Ico a b \ F := sdiff_subset_sdiff_left (Ico_subset_Ico hs.1 ht.2)
  have := gronwall_except hF _ _ 0 0 s t _ (hcont.mono (Icc_subset_Icc hs.1 ht.2))
    (fun x hx => hder x (hsub hx)) le_rfl (fun x hx => ?_) t ⟨hst, le_rfl⟩
  · rw [gronwallBound_ε0, zero_mul, Real.exp_zero, mul_one] at this
    exact this
  · have hx' := hsub hx
    have hmx : ∀ k < c.Nspace, (mesh x).edges k < (mesh x).edges (k + 1) :=
      hm x ⟨hx'.1.1, hx'.1.2.le⟩
    have h1 := jump_loss_nonneg p hp c.Nspace c.M (mesh x) (D x)
    have h2 : 0 ≤ ∑ k ∈ Finset.range (c.Nspace + 1), |(mesh x).Dedges k| *
        edgeJump c.Nspace c.M (mesh x).edges (D x p.Nang) k ^ 2 :=
      Finset.sum_nonneg fun _ _ => mul_nonneg (abs_nonneg _) (sq_nonneg _)
    have h3 := angularSqNorm_nonneg p c.Nspace c.M (mesh x).edges
      (fun l k i => D x l k i - scalarCoef p (D x) k i) hp hmx
    have h4 := meshSqNorm_nonneg c.Nspace c.M (mesh x).edges
      (fun k i => 2 * scalarCoef p (D x) k i - D x p.Nang k i) hmx
    have h5 : 0 ≤ 2 / p.l * (4 * angularSqNorm p c.Nspace c.M (mesh x).edges
              (fun l k i => D x l k i - scalarCoef p (D x) k i)
            + p.ca * meshSqNorm c.Nspace c.M (mesh x).edges
              (fun k i => 2 * scalarCoef p (D x) k i - D x p.Nang k i)) := by positivity
    linarith

/-! ### Examples -/

/-- One direction, two cells of width one at rest, order zero: an explicit solution. -/
noncomputable def decayParams : RhsParams where
  Nang := 1
  mus := fun _ => 1 / 2
  ws := fun _ => 1
  c := 1 / 4
  ca := 0
  l := 1

noncomputable def decayConfig : FluxConfig := { exampleConfig with M := 0, Nspace := 2 }

noncomputable def decayMesh : MeshView where
  edges := fun k => k
  Dedges := fun _ => 0

/-- Particles in the second cell only: they stream out and are absorbed. -/
noncomputable def decaySolution (s : ℝ) (_ k _ : ℕ) : ℝ :=
  if k = 1 then Real.exp (-(5 / 4) * s) else 0

theorem decay_stream (fs : FluxState) (t : ℝ) (u : ℕ → ℕ → ℝ) (h0 : u 0 0 = 0) :
    streamPart decayConfig t decayMesh u 0 (1 / 2) (fun _ => 0) fs 0 = 0 ∧
    streamPart decayConfig t decayMesh u 1 (1 / 2) (fun _ => 0) fs 0 = -(1 / 2) * u 1 0 ∧
    ∀ k < 2, streamPart decayConfig t decayMesh u k 0 (fun _ => 0) fs 0 = 0 := by
  have hm : ∀ k < decayConfig.Nspace, decayMesh.edges k < decayMesh.edges (k + 1) := by
    intro k _; simp [decayMesh]
  have hoff : ∀ k, isBoundarySourceOn decayConfig k t = false := by
    intro k; simp [isBoundarySourceOn, decayConfig, exampleConfig]
  have hG : ∀ k < 2, matVec decayConfig.M (cellMatrices decayConfig.M decayMesh k).G (u k) 0 = 0 := by
    intro k hk
    rw [matVec_G _ _ _ (hm k hk) _ (by decide)]
    simp [decayMesh, legendre, I]
  have hL : ∀ k < 2, matVec decayConfig.M (cellMatrices decayConfig.M decayMesh k).L (u k) 0 = 0 := by
    intro k hk
    rw [matVec_L _ _ _ (hm k hk) _ (by decide)]
    simp [legendre, I]
  have hu : ∀ l r : ℝ, upwind (1 / 2) l r = 1 / 2 * l := fun l r =>
    (c08_upwind_meaning _ _ _).1 (by norm_num)
  refine ⟨?_, ?_, fun k hk => ?_⟩
  · unfold streamPart
    rw [hG 0 (by decide), hL 0 (by decide),
      fluxLU_eq _ _ _ _ _ _ _ _ (by decide) hm (by decide)]
    unfold leftOuter
    rw [if_neg (by decide), hoff 0]
    simp [decayMesh, decayConfig, exampleConfig, geomField, slabField, h0, geomArea, geomBasis,
      upwind]
  · unfold streamPart
    rw [hG 1 (by decide), hL 1 (by decide),
      fluxLU_eq _ _ _ _ _ _ _ _ (by decide) hm (by decide)]
    unfold leftOuter
    rw [if_pos (by decide)]
    simp [decayMesh, decayConfig, exampleConfig, geomField, slabField, h0, geomArea, geomBasis,
      slabBasis, legendre]
    rw [show (2 : ℝ) - 1 = 1 by norm_num, Real.sqrt_one, show (2 : ℝ)⁻¹ = 1 / 2 by norm_num, hu, hu]
    ring
  · unfold streamPart
    rw [hG k hk, hL k hk, fluxLU_eq _ _ _ _ _ _ _ _ hk hm (by decide)]
    simp [decayMesh, upwind]

theorem decay_rhs (fs : FluxState) (t : ℝ) (V : ℕ → ℕ → ℕ → ℝ) (h0 : V 0 0 0 = 0) :
    slabConstantRhs decayParams decayConfig t decayMesh (fun _ _ => 0) (fun _ => 0) fs V 0 0 0 = 0 ∧
    slabConstantRhs decayParams decayConfig t decayMesh (fun _ _ => 0) (fun _ => 0) fs V 0 1 0 =
      -(5 / 4) * V 0 1 0 := by
  obtain ⟨h1, h2, _⟩ := decay_stream fs t (V 0) h0
  unfold slabConstantRhs
  rw [show decayParams.mus 0 = 1 / 2 from rfl, h1, h2]
  constructor
  · simp [decayParams, makeP, h0]
  · simp [decayParams, makeP]; ring

theorem decayMesh_ordered (k : ℕ) : decayMesh.edges k < decayMesh.edges (k + 1) := by
  simp [decayMesh]

theorem decay_solves (fs : FluxState) (t : ℝ) (l k i : ℕ) (hl : l < decayParams.Nang)
    (hk : k < decayConfig.Nspace) (hi : i ≤ decayConfig.M) :
    HasDerivWithinAt (fun s => decaySolution s l k i)
      (slabConstantRhs decayParams decayConfig t decayMesh (fun _ _ => 0) (fun _ => 0) fs
        (decaySolution t) l k i) (Ici t) t := by
  have hl0 : l = 0 := Nat.lt_one_iff.1 hl
  have hi0 : i = 0 := Nat.le_zero.1 hi
  have hr := decay_rhs fs t (decaySolution t) (by simp [decaySolution])
  subst hl0 hi0
  have hk2 : k = 0 ∨ k = 1 := by
    have : k < 2 := hk
    omega
  rcases hk2 with rfl | rfl
  · rw [hr.1]
    simpa [decaySolution] using hasDerivWithinAt_const t (Ici t) (0 : ℝ)
  · rw [hr.2]
    have h := (((hasDerivAt_id t).const_mul (-(5 / 4) : ℝ)).exp).hasDerivWithinAt (s := Ici t)
    simp only [id, mul_one] at h
    simp only [decaySolution, if_true]
    exact h.congr_deriv (by ring)

theorem decay_continuous (l k i : ℕ) (T : Set ℝ) :
    ContinuousOn (fun s => decaySolution s l k i) T := by
  unfold decaySolution
  by_cases h : k = 1
  · simp only [if_pos h]; fun_prop
  · simp only [if_neg h]; fun_prop

theorem decay_not_active (left : Bool) (t : ℝ) : ¬ BoundaryActive decayConfig left t := by
  unfold BoundaryActive; simp [decayConfig, exampleConfig]

/-- The norm of the explicit solution. -/
example (fs : FluxState) (t : ℝ) :=
  c81_norm_rate decayParams decayConfig rfl t le_rfl (decay_not_active true t)
    (decay_not_active false t) (fun _ => decayMesh)
    (Filter.Eventually.of_forall fun _ k _ => decayMesh_ordered k) (fun _ _ => 0) (fun _ _ => fs)
    decaySolution (fun l hl k hk i hi => decay_solves fs t l k i hl hk hi)

/-- Any two states, three moving cells, boundary sources on both sides: straight lines in the
direction of the right-hand side. -/
example (fs : FluxState) (S : ℕ → ℕ → ℝ) (V0 W0 : ℕ → ℕ → ℕ → ℝ) :=
  c81_difference_rate exampleParams exampleSourceConfig rfl 0 exampleMesh
    (Filter.mem_of_superset self_mem_nhdsWithin fun s hs k _ => by
      have hs' : (0 : ℝ) ≤ s := hs
      show (1 + s) * ((k : ℝ) - 3 / 2) < (1 + s) * (((k + 1 : ℕ) : ℝ) - 3 / 2)
      push_cast
      nlinarith) S (fun _ _ => 0) (fun _ _ => 0) (fun _ _ => fs) (fun _ _ => fs)
    (fun s l k i => V0 l k i + s * slabConstantRhs exampleParams exampleSourceConfig 0
      (exampleMesh 0) S (fun _ => 0) fs V0 l k i)
    (fun s l k i => W0 l k i + s * slabConstantRhs exampleParams exampleSourceConfig 0
      (exampleMesh 0) S (fun _ => 0) fs W0 l k i)
    (fun l _ k _ i _ => by
      simpa using (((hasDerivAt_id (0 : ℝ)).mul_const _).const_add (V0 l k i)).hasDerivWithinAt)
    (fun l _ k _ i _ => by
      simpa using (((hasDerivAt_id (0 : ℝ)).mul_const _).const_add (W0 l k i)).hasDerivWithinAt)

/-- The explicit solution and twice the explicit solution approach each other. -/
theorem decay_twice (fs : FluxState) (t : ℝ) (l k i : ℕ) (hl : l < decayParams.Nang)
    (hk : k < decayConfig.Nspace) (hi : i ≤ decayConfig.M) :
    HasDerivWithinAt (fun s => 2 * decaySolution s l k i)
      (slabConstantRhs decayParams decayConfig t decayMesh (fun _ _ => 0) (fun _ => 0) fs
        (fun l k i => 2 * decaySolution t l k i) l k i) (Ici t) t := by
  have h := (decay_solves fs t l k i hl hk hi).const_mul 2
  have e := c14_rhs_linear decayParams decayConfig rfl t le_rfl (decay_not_active true t)
    (decay_not_active false t) decayMesh (fun k _ => decayMesh_ordered k) (fun _ => 0) fs fs fs
    (decaySolution t) (fun _ _ _ => 0) 2 0 l k i hk hi
  simp only [mul_zero, add_zero, zero_mul] at e
  rwa [← e] at h

example (fs : FluxState) (t : ℝ) (ht : t ∈ Icc (0 : ℝ) 3) :=
  c82_difference_bound decayParams (fun _ _ => by simp [decayParams]) (by simp [decayParams])
    (by simp [decayParams]) decayConfig rfl 0 3 ∅ finite_empty (fun _ => decayMesh)
    (fun _ _ k _ => decayMesh_ordered k) (fun _ _ _ => 0) (fun _ _ _ => 0) (fun _ _ _ => 0)
    (fun _ _ _ => fs) (fun _ _ _ => fs) decaySolution (fun s l k i => 2 * decaySolution s l k i)
    (fun l _ k _ i _ => decay_continuous l k i _)
    (fun l _ k _ i _ => continuousOn_const.mul (decay_continuous l k i _))
    (fun t _ l hl k hk i hi => decay_solves fs t l k i hl hk hi)
    (fun t _ l hl k hk i hi => decay_twice fs t l k i hl hk hi) t ht

example (fs : FluxState) :=
  c82_never_grows decayParams (fun _ _ => by simp [decayParams]) (by simp [decayParams])
    (by simp [decayParams]) (by simp only [decayParams]; norm_num) decayConfig rfl 0 3 ∅ finite_empty
    (fun _ => decayMesh)
    (fun _ _ k _ => decayMesh_ordered k) (fun _ _ _ => 0) (fun _ _ _ => 0) (fun _ _ _ => 0)
    (fun _ _ _ => fs) (fun _ _ _ => fs) decaySolution (fun s l k i => 2 * decaySolution s l k i)
    (fun l _ k _ i _ => decay_continuous l k i _)
    (fun l _ k _ i _ => continuousOn_const.mul (decay_continuous l k i _))
    (fun t _ l hl k hk i hi => decay_solves fs t l k i hl hk hi)
    (fun t _ l hl k hk i hi => decay_twice fs t l k i hl hk hi)

/-- Every solution that starts like the explicit one is the explicit one. -/
example (fs fs' : FluxState) (W : ℝ → ℕ → ℕ → ℕ → ℝ)
    (hWc : ∀ l < 1, ∀ k < 2, ∀ i ≤ 0, ContinuousOn (fun s => W s l k i) (Icc 0 3))
    (hW : ∀ t ∈ Ico (0 : ℝ) 3, ∀ l < 1, ∀ k < 2, ∀ i ≤ 0, HasDerivWithinAt (fun s => W s l k i)
      (slabConstantRhs decayParams decayConfig t decayMesh (fun _ _ => 0) (fun _ => 0) fs' (W t)
        l k i) (Ici t) t)
    (h0 : ∀ l < 1, ∀ k < 2, ∀ i ≤ 0, decaySolution 0 l k i = W 0 l k i) (t : ℝ)
    (ht : t ∈ Icc (0 : ℝ) 3) : Real.exp (-(5 / 4) * t) = W t 0 1 0 :=
  c82_unique decayParams (fun _ _ => by simp [decayParams]) (by simp [decayParams])
    (by simp [decayParams]) decayConfig rfl 0 3 ∅ finite_empty (fun _ => decayMesh)
    (fun _ _ k _ => decayMesh_ordered k) (fun _ _ _ => 0) (fun _ _ _ => 0) (fun _ _ _ => 0)
    (fun _ _ _ => fs) (fun _ _ _ => fs') decaySolution W
    (fun l _ k _ i _ => decay_continuous l k i _) hWc
    (fun t _ l hl k hk i hi => decay_solves fs t l k i hl hk hi) (fun t ht => hW t ht.1) h0 t ht 0 one_pos 1 one_lt_two 0
    le_rfl

/-- Coupled problem: any two states. -/
example (fs : FluxState) (S : ℕ → ℕ → ℝ) (V0 W0 : ℕ → ℕ → ℕ → ℝ) :=
  c83_coupled_rate exampleParams exampleParams_weights (by simp only [exampleParams]; norm_num)
    exampleConfig rfl 0 exampleMesh
    (Filter.mem_of_superset self_mem_nhdsWithin fun s hs k _ => by
      have hs' : (0 : ℝ) ≤ s := hs
      show (1 + s) * ((k : ℝ) - 3 / 2) < (1 + s) * (((k + 1 : ℕ) : ℝ) - 3 / 2)
      push_cast
      nlinarith) S (fun _ _ => 0) (fun _ _ => 0) (fun _ _ => fs) (fun _ _ => fs)
    (fun s l k i => V0 l k i + s * if l = 2 then energyRhs exampleParams exampleConfig 0
        (exampleMesh 0) (V0 2) (fun _ => 0) fs V0 k i
      else transferRhs exampleParams exampleConfig 0 (exampleMesh 0) S (V0 2) (fun _ => 0) fs V0
        l k i)
    (fun s l k i => W0 l k i + s * if l = 2 then energyRhs exampleParams exampleConfig 0
        (exampleMesh 0) (W0 2) (fun _ => 0) fs W0 k i
      else transferRhs exampleParams exampleConfig 0 (exampleMesh 0) S (W0 2) (fun _ => 0) fs W0
        l k i)
    (fun l hl k _ i _ => by
      have hl2 : l ≠ 2 := by
        have : l < 2 := hl
        omega
      simpa [hl2, show exampleParams.Nang = 2 from rfl] using
        (((hasDerivAt_id (0 : ℝ)).mul_const _).const_add (V0 l k i)).hasDerivWithinAt)
    (fun k _ i _ => by
      simpa [exampleParams] using
        (((hasDerivAt_id (0 : ℝ)).mul_const _).const_add (V0 2 k i)).hasDerivWithinAt)
    (fun l hl k _ i _ => by
      have hl2 : l ≠ 2 := by
        have : l < 2 := hl
        omega
      simpa [hl2, show exampleParams.Nang = 2 from rfl] using
        (((hasDerivAt_id (0 : ℝ)).mul_const _).const_add (W0 l k i)).hasDerivWithinAt)
    (fun k _ i _ => by
      simpa [exampleParams] using
        (((hasDerivAt_id (0 : ℝ)).mul_const _).const_add (W0 2 k i)).hasDerivWithinAt)
    _ (fun _ _ _ _ => rfl)

/-- Coupled problem on the same mesh. -/
noncomputable def coupledDecayParams : RhsParams :=
  { decayParams with c := 2 / 5, ca := 3 / 5 }

/-- Radiation (row 0) and material energy (row 1) in the second cell, decaying together. -/
noncomputable def coupledDecay (s : ℝ) (l k _ : ℕ) : ℝ :=
  if k = 1 then (if l = 1 then 3 else 1) * Real.exp (-(1 / 5) * s) else 0

theorem coupledDecay_deriv (t : ℝ) (l k i : ℕ) :
    HasDerivWithinAt (fun s => coupledDecay s l k i) (-(1 / 5) * coupledDecay t l k i) (Ici t) t := by
  have h := (((hasDerivAt_id t).const_mul (-(1 / 5) : ℝ)).exp).hasDerivWithinAt (s := Ici t)
  simp only [id, mul_one] at h
  unfold coupledDecay
  by_cases hk : k = 1
  · simp only [if_pos hk]
    exact (h.const_mul _).congr_deriv (by ring)
  · simp only [if_neg hk, mul_zero]
    exact hasDerivWithinAt_const _ _ _

/-- The decaying state and the empty state. -/
example (fs : FluxState) :=
  c83_coupled_never_grows coupledDecayParams (fun _ _ => by simp [coupledDecayParams, decayParams])
    (by simp [coupledDecayParams, decayParams]) (by simp only [coupledDecayParams]; norm_num)
    (by simp only [coupledDecayParams]; norm_num) (by simp [coupledDecayParams, decayParams])
    decayConfig rfl 0 3 ∅ finite_empty (fun _ => decayMesh) (fun _ _ k _ => decayMesh_ordered k) (fun _ _ _ => 0)
    (fun _ _ _ => 0) (fun _ _ _ => 0) (fun _ _ _ => fs) (fun _ _ _ => fs) coupledDecay
    (fun _ _ _ _ => 0)
    (fun l _ k _ i _ => by
      unfold coupledDecay
      by_cases h : k = 1
      · simp only [if_pos h]; fun_prop
      · simp only [if_neg h]; fun_prop)
    (fun _ _ _ _ _ _ => continuousOn_const)
    (fun t _ l hl k hk i hi => by
      have hl0 : l = 0 := Nat.lt_one_iff.1 hl
      have hi0 : i = 0 := Nat.le_zero.1 hi
      subst hl0 hi0
      obtain ⟨h1, h2, _⟩ := decay_stream fs t (coupledDecay t 0) (by simp [coupledDecay])
      refine (coupledDecay_deriv t 0 k 0).congr_deriv ?_
      unfold transferRhs
      have hk2 : k = 0 ∨ k = 1 := by
        have : k < 2 := hk
        omega
      rcases hk2 with rfl | rfl
      · rw [show coupledDecayParams.mus 0 = 1 / 2 from rfl, h1]
        simp [coupledDecay, coupledDecayParams, decayParams, makeP]
      · rw [show coupledDecayParams.mus 0 = 1 / 2 from rfl, h2]
        simp [coupledDecay, coupledDecayParams, decayParams, makeP]
        ring)
    (fun t _ k hk i hi => by
      have hi0 : i = 0 := Nat.le_zero.1 hi
      subst hi0
      obtain ⟨_, _, h3⟩ := decay_stream fs t (coupledDecay t 1) (by simp [coupledDecay])
      have h3 := h3 k hk
      refine (coupledDecay_deriv t 1 k 0).congr_deriv ?_
      unfold streamPart at h3
      unfold energyRhs
      rw [show coupledDecayParams.Nang = 1 from rfl]
      have hk2 : k = 0 ∨ k = 1 := by
        have : k < 2 := hk
        omega
      rw [zero_mul, add_zero] at h3
      rw [h3]
      rcases hk2 with rfl | rfl
      · simp [coupledDecay, coupledDecayParams, decayParams, makeP]
      · simp [coupledDecay, coupledDecayParams, decayParams, makeP]
        ring)
    (fun t _ l hl k hk i hi => by
      have hl0 : l = 0 := Nat.lt_one_iff.1 hl
      have hi0 : i = 0 := Nat.le_zero.1 hi
      subst hl0 hi0
      obtain ⟨h1, h2, _⟩ := decay_stream fs t (fun _ _ => 0) rfl
      have hk2 : k = 0 ∨ k = 1 := by
        have : k < 2 := hk
        omega
      refine (hasDerivWithinAt_const _ _ _).congr_deriv ?_
      unfold transferRhs
      rcases hk2 with rfl | rfl
      · rw [show coupledDecayParams.mus 0 = 1 / 2 from rfl, h1]; simp [makeP]
      · rw [show coupledDecayParams.mus 0 = 1 / 2 from rfl, h2]; simp [makeP])
    (fun t _ k hk i hi => by
      have hi0 : i = 0 := Nat.le_zero.1 hi
      subst hi0
      obtain ⟨_, _, h3⟩ := decay_stream fs t (fun _ _ => 0) rfl
      have h3 := h3 k hk
      unfold streamPart at h3
      rw [zero_mul, add_zero] at h3
      refine (hasDerivWithinAt_const _ _ _).congr_deriv ?_
      unfold energyRhs
      rw [h3]
      simp [makeP])

end Verif.Props
