import Verif.Spec.Mirror
import Verif.Props.Stability

/-!
Property C85: the slab right-hand side commutes with reflection, so symmetric problems stay
symmetric.
-/

namespace Verif.Props

open Polynomial Verif.Spec Verif.Model Verif.Lemmas Set

/-- The reflected mesh. -/
def mirrorMesh (N : ℕ) (m : MeshView) : MeshView where
  edges := mirrorEdges N m.edges
  Dedges := mirrorEdges N m.Dedges

theorem ref_mirror (x a b : ℝ) : ref (-x) (-b) (-a) = -ref x a b := by
  unfold ref
  rw [show -a - -b = b - a by ring, ← neg_div]
  congr 1; ring

theorem slabBasis_mirror (n : ℕ) (x a b : ℝ) :
    slabBasis n (-x) (-b) (-a) = (-1) ^ n * slabBasis n x a b := by
  unfold slabBasis
  rw [ref_mirror, legendre_eval_neg, show -a - -b = b - a by ring]
  ring

theorem slabField_mirror (M : ℕ) (U : ℕ → ℝ) (x a b : ℝ) :
    slabField M (fun j => (-1) ^ j * U j) (-b) (-a) (-x) = slabField M U a b x := by
  unfold slabField
  refine Finset.sum_congr rfl fun j _ => ?_
  rw [slabBasis_mirror]
  have : ((-1 : ℝ) ^ j) * (-1) ^ j = 1 := by rw [← mul_pow]; norm_num
  linear_combination (U j * slabBasis j x a b) * this

/-- C85, meaning of the reflection: the reflected coefficients on the reflected mesh expand to the
reflected field. -/
theorem c85_mirror_field (M N : ℕ) (e : ℕ → ℝ) (u : ℕ → ℕ → ℝ) (k : ℕ) (hk : k < N) (x : ℝ) :
    slabField M (mirrorField N u k) (mirrorEdges N e k) (mirrorEdges N e (k + 1)) (-x) =
      slabField M (u (N - 1 - k)) (e (N - 1 - k)) (e (N - 1 - k + 1)) x := by
  unfold mirrorEdges
  have h1 : N - k = N - 1 - k + 1 := by omega
  have h2 : N - (k + 1) = N - 1 - k := by omega
  rw [h1, h2]
  exact slabField_mirror M (u (N - 1 - k)) x _ _

/-- Integrals do not change under reflection. -/
theorem I_comp_neg (p : ℝ[X]) : I (p.comp (-X)) = I p := by
  unfold I
  simp only [eval_comp, eval_neg, eval_X]
  rw [intervalIntegral.integral_comp_neg fun x => p.eval x]
  norm_num

theorem legendre_comp_neg (n : ℕ) : (legendre n).comp (-X) = C ((-1) ^ n) * legendre n := by
  refine Polynomial.funext fun x => ?_
  rw [eval_comp, eval_neg, eval_X, legendre_eval_neg, eval_mul, eval_C]

theorem derivative_comp_neg (n : ℕ) :
    (derivative (legendre n)).comp (-X) = C (-(-1) ^ n) * derivative (legendre n) := by
  have h := congrArg derivative (legendre_comp_neg n)
  rw [derivative_comp, derivative_C_mul] at h
  simp only [derivative_neg, derivative_X] at h
  have h2 : (derivative (legendre n)).comp (-X) = -(C ((-1) ^ n) * derivative (legendre n)) := by
    rw [← h]; ring
  rw [h2, C_neg]; ring

theorem refPoly_mirror (M : ℕ) (U : ℕ → ℝ) (h : ℝ) :
    refPoly M (fun j => (-1) ^ j * U j) h = (refPoly M U h).comp (-X) := by
  refine Polynomial.funext fun x => ?_
  unfold refPoly
  rw [eval_comp, eval_neg, eval_X, eval_finsetSum, eval_finsetSum]
  refine Finset.sum_congr rfl fun j _ => ?_
  simp only [eval_mul, eval_C, legendre_eval_neg]
  ring

theorem upwind_mirror (v l r : ℝ) : upwind (-v) r l = -upwind v l r := by
  unfold upwind
  rcases le_total 0 v with h | h
  · rw [max_eq_right (by linarith : -v ≤ 0), min_eq_left (by linarith : -v ≤ 0), max_eq_left h,
      min_eq_right h]; ring
  · rw [max_eq_left (by linarith : 0 ≤ -v), min_eq_right (by linarith : 0 ≤ -v), max_eq_right h,
      min_eq_left h]; ring

/-- Streaming commutes with reflection when the outer states are exchanged. -/
theorem stream_mirror (c : FluxConfig) (hg : c.geometry = .slab) (t : ℝ) (m : MeshView)
    (hm : ∀ k < c.Nspace, m.edges k < m.edges (k + 1)) (u : ℕ → ℕ → ℝ) (mul : ℝ)
    (uRefl uRefl' : ℕ → ℝ) (fs fs' : FluxState) (k i : ℕ) (hk : k < c.Nspace) (hi : i ≤ c.M)
    (hl : leftOuter c t (mirrorMesh c.Nspace m) (mirrorField c.Nspace u) k uRefl' =
      rightOuter c t m u (c.Nspace - 1 - k))
    (hr : rightOuter c t (mirrorMesh c.Nspace m) (mirrorField c.Nspace u) k =
      leftOuter c t m u (c.Nspace - 1 - k) uRefl) :
    streamPart c t (mirrorMesh c.Nspace m) (mirrorField c.Nspace u) k (-mul) uRefl' fs' i =
      (-1) ^ i * streamPart c t m u (c.Nspace - 1 - k) mul uRefl fs i := by
  have hkk : c.Nspace - 1 - k < c.Nspace := by omega
  set kk := c.Nspace - 1 - k with hkkd
  have hmm : ∀ j < c.Nspace, (mirrorMesh c.Nspace m).edges j <
      (mirrorMesh c.Nspace m).edges (j + 1) := by
    intro j hj
    have := hm (c.Nspace - (j + 1)) (by omega)
    rw [show c.Nspace - (j + 1) + 1 = c.Nspace - j by omega] at this
    simp only [mirrorMesh, mirrorEdges]
    linarith
  have e0 : (mirrorMesh c.Nspace m).edges k = -m.edges (kk + 1) := by
    simp only [mirrorMesh, mirrorEdges]; rw [show c.Nspace - k = kk + 1 by omega]
  have e1 : (mirrorMesh c.Nspace m).edges (k + 1) = -m.edges kk := by
    simp only [mirrorMesh, mirrorEdges]; rw [show c.Nspace - (k + 1) = kk by omega]
  have v0 : (mirrorMesh c.Nspace m).Dedges k = -m.Dedges (kk + 1) := by
    simp only [mirrorMesh, mirrorEdges]; rw [show c.Nspace - k = kk + 1 by omega]
  have v1 : (mirrorMesh c.Nspace m).Dedges (k + 1) = -m.Dedges kk := by
    simp only [mirrorMesh, mirrorEdges]; rw [show c.Nspace - (k + 1) = kk by omega]
  have hu : mirrorField c.Nspace u k = fun j => (-1) ^ j * u kk j := rfl
  unfold streamPart
  rw [matVec_G _ _ _ (hmm k hk) _ hi, matVec_L _ _ _ (hmm k hk) _ hi,
    matVec_G _ _ _ (hm kk hkk) _ hi, matVec_L _ _ _ (hm kk hkk) _ hi,
    fluxLU_eq c t _ _ k _ uRefl' fs' hk hmm hi, fluxLU_eq c t m u kk mul uRefl fs hkk hm hi, hl, hr,
    hg, e0, e1, v0, v1, hu, show -m.edges kk - -m.edges (kk + 1) = m.edges (kk + 1) - m.edges kk by
      ring]
  simp only [geomArea, geomBasis, geomField, one_mul, slabField_mirror, slabBasis_mirror,
    refPoly_mirror]
  set Q := refPoly c.M (u kk) (m.edges (kk + 1) - m.edges kk) with hQ
  set s := Real.sqrt ((2 * (i : ℝ) + 1) / (m.edges (kk + 1) - m.edges kk)) with hs
  have hLI : I (derivative (legendre i) * Q.comp (-X)) =
      -(-1) ^ i * I (derivative (legendre i) * Q) := by
    rw [← I_comp_neg (derivative (legendre i) * Q.comp (-X)), mul_comp, comp_assoc]
    have : (-X : ℝ[X]).comp (-X) = X := by simp
    rw [this, comp_X, derivative_comp_neg, mul_assoc, I_C_mul]
  have hGI : I ((C (-(1 / 2) * (-m.Dedges kk - -m.Dedges (kk + 1))) * legendre i +
        C (-(-m.Dedges (kk + 1) + -m.Dedges kk)) * derivative (legendre i) +
        C (-(-m.Dedges kk - -m.Dedges (kk + 1))) * (X * derivative (legendre i))) * Q.comp (-X)) =
      (-1) ^ i * I ((C (-(1 / 2) * (m.Dedges (kk + 1) - m.Dedges kk)) * legendre i +
        C (-(m.Dedges kk + m.Dedges (kk + 1))) * derivative (legendre i) +
        C (-(m.Dedges (kk + 1) - m.Dedges kk)) * (X * derivative (legendre i))) * Q) := by
    rw [← I_comp_neg (_ * Q.comp (-X)), mul_comp, comp_assoc, ← I_C_mul]
    have : (-X : ℝ[X]).comp (-X) = X := by simp
    rw [this, comp_X]
    congr 1
    simp only [add_comp, mul_comp, C_comp, X_comp, legendre_comp_neg, derivative_comp_neg]
    refine Polynomial.funext fun x => ?_
    simp only [eval_mul, eval_add, eval_C, eval_neg, eval_X]
    ring
  have hup : ∀ v w l r : ℝ, upwind (-v - -w) r l = -upwind (v - w) l r := fun v w l r => by
    rw [show -v - -w = -(v - w) by ring, upwind_mirror]
  rw [hLI, hGI, hup, hup]
  ring

/-- Boundary data symmetric about zero: nothing comes in at either end, or the same constant source
at both ends. -/
def BoundarySymmetric (c : FluxConfig) (t : ℝ) : Prop :=
  (¬ BoundaryActive c true t ∧ ¬ BoundaryActive c false t) ∨
  (c.mms = false ∧ c.thermalIsOne = false ∧ c.boundaryOnLeft = true ∧ c.boundaryOnRight = true ∧
    QuadExact c.quad c.M)

/-- With symmetric boundary data the outer states are exchanged by the reflection. -/
theorem outer_mirror (c : FluxConfig) (hg : c.geometry = .slab) (t : ℝ) (hN : 2 ≤ c.Nspace)
    (hb : BoundarySymmetric c t) (m : MeshView)
    (hm : ∀ k < c.Nspace, m.edges k < m.edges (k + 1)) (u : ℕ → ℕ → ℝ)
    (uRefl uRefl' : ℕ → ℝ) (k : ℕ) (hk : k < c.Nspace) :
    leftOuter c t (mirrorMesh c.Nspace m) (mirrorField c.Nspace u) k uRefl' =
      rightOuter c t m u (c.Nspace - 1 - k) ∧
    rightOuter c t (mirrorMesh c.Nspace m) (mirrorField c.Nspace u) k =
      leftOuter c t m u (c.Nspace - 1 - k) uRefl := by
  have hmm : ∀ j < c.Nspace, (mirrorMesh c.Nspace m).edges j <
      (mirrorMesh c.Nspace m).edges (j + 1) := by
    intro j hj
    have := hm (c.Nspace - (j + 1)) (by omega)
    rw [show c.Nspace - (j + 1) + 1 = c.Nspace - j by omega] at this
    simp only [mirrorMesh, mirrorEdges]
    linarith
  -- the two ends
  have hends : ∃ v : ℝ, (∀ (m : MeshView) u uRefl, (∀ k < c.Nspace, m.edges k < m.edges (k + 1)) →
      leftOuter c t m u 0 uRefl = v) ∧
      ∀ (m : MeshView) u, (∀ k < c.Nspace, m.edges k < m.edges (k + 1)) →
        rightOuter c t m u (c.Nspace - 1) = v := by
    by_cases hact : BoundaryActive c true t ∨ BoundaryActive c false t
    · obtain ⟨h1, h2, h3, h4, hq⟩ := hb.resolve_left (by tauto)
      have hbs : c.boundarySource = true ∧ c.uncollided = false ∧ t ≤ c.t0 := by
        unfold BoundaryActive at hact
        simp only [h1, h2, h3, h4, Bool.false_eq_true, false_or] at hact
        tauto
      have hv : ∀ x, bcFunc c x t = c.boundaryStrength := by
        intro x; unfold bcFunc; simp [h1, h2, hbs.1]
      have hl := (isBoundarySourceOn_left c t).2
        (Or.inr (Or.inr ⟨hbs.1, hbs.2.1, hbs.2.2, by simpa using h3⟩))
      have hr := (isBoundarySourceOn_right c t hN).2
        (Or.inr (Or.inr ⟨hbs.1, hbs.2.1, hbs.2.2, by simpa using h4⟩))
      refine ⟨c.boundaryStrength, fun m u uRefl hm => ?_, fun m u hm => ?_⟩
      · exact leftOuter_source c hg t _ m u uRefl hq (hm 0 (by omega)) hl hv
      · exact rightOuter_source c hg t _ m u (c.Nspace - 1) (by omega) hq (hm _ (by omega)) hr hv
    · push Not at hact
      have hl := hact.1
      have hr := hact.2
      rw [← isBoundarySourceOn_left] at hl
      rw [← isBoundarySourceOn_right c t hN] at hr
      refine ⟨0, fun m u uRefl _ => ?_, fun m u _ => ?_⟩
      · unfold leftOuter
        rw [if_neg (by omega), if_neg hl, if_neg (by rw [hg]; decide)]
      · unfold rightOuter
        rw [if_neg (by omega), if_neg hr]
  obtain ⟨v, hvl, hvr⟩ := hends
  constructor
  · by_cases h0 : k = 0
    · subst h0
      rw [hvl _ _ _ hmm, Nat.sub_zero, hvr m u hm]
    · unfold leftOuter rightOuter
      rw [if_pos h0, if_pos (by omega), hg]
      have := c85_mirror_field c.M c.Nspace m.edges u (k - 1) (by omega) (m.edges (c.Nspace - k))
      simp only [geomField]
      rw [Nat.sub_add_cancel (by omega : 1 ≤ k), show c.Nspace - 1 - (k - 1) = c.Nspace - k by omega]
        at this
      rw [show c.Nspace - 1 - k + 1 = c.Nspace - k by omega,
        show c.Nspace - 1 - k + 2 = c.Nspace - k + 1 by omega]
      exact this
  · by_cases h0 : k + 1 = c.Nspace
    · have hk' : k = c.Nspace - 1 := by omega
      subst hk'
      rw [hvr _ _ hmm, Nat.sub_self, hvl m u _ hm]
    · unfold leftOuter rightOuter
      rw [if_pos h0, if_pos (by omega), hg]
      have := c85_mirror_field c.M c.Nspace m.edges u (k + 1) (by omega)
        (m.edges (c.Nspace - 1 - k))
      simp only [geomField]
      rw [show c.Nspace - 1 - (k + 1) = c.Nspace - 1 - k - 1 by omega,
        Nat.sub_add_cancel (by omega : 1 ≤ c.Nspace - 1 - k)] at this
      rw [← this]
      simp only [mirrorMesh, mirrorEdges]
      rw [show c.Nspace - (k + 1) = c.Nspace - 1 - k by omega]

/-- The scalar flux of the reflected state. -/
theorem makeP_mirror (p : RhsParams) (hs : SymmetricSet p.Nang p.mus p.ws) (N : ℕ)
    (V : ℕ → ℕ → ℕ → ℝ) (k i : ℕ) :
    makeP p.Nang p.ws (fun l => mirrorState p.Nang N V l k) i =
      (-1) ^ i * makeP p.Nang p.ws (fun l => V l (N - 1 - k)) i := by
  unfold makeP
  rw [← Finset.sum_range_reflect, Finset.mul_sum]
  refine Finset.sum_congr rfl fun l hl => ?_
  have hl' := Finset.mem_range.1 hl
  simp only [mirrorState, mirrorField]
  rw [hs.w l hl', show p.Nang - 1 - (p.Nang - 1 - l) = l by omega]
  ring

/-- C85: reflecting mesh, edge velocities, state and source and then evaluating the right-hand side
is the same as evaluating and then reflecting. -/
theorem c85_rhs_mirror (p : RhsParams) (hs : SymmetricSet p.Nang p.mus p.ws) (c : FluxConfig)
    (hg : c.geometry = .slab) (t : ℝ) (hN : 2 ≤ c.Nspace) (hb : BoundarySymmetric c t)
    (m : MeshView) (hm : ∀ k < c.Nspace, m.edges k < m.edges (k + 1)) (S : ℕ → ℕ → ℝ)
    (uRefl uRefl' : ℕ → ℝ) (fs fs' : FluxState) (V : ℕ → ℕ → ℕ → ℝ) (l k i : ℕ)
    (hl : l < p.Nang) (hk : k < c.Nspace) (hi : i ≤ c.M) :
    slabConstantRhs p c t (mirrorMesh c.Nspace m) (mirrorField c.Nspace S) uRefl' fs'
        (mirrorState p.Nang c.Nspace V) l k i =
      (-1) ^ i * slabConstantRhs p c t m S uRefl fs V (p.Nang - 1 - l) (c.Nspace - 1 - k) i := by
  obtain ⟨h1, h2⟩ := outer_mirror c hg t hN hb m hm (V (p.Nang - 1 - l)) uRefl uRefl' k hk
  have hst := stream_mirror c hg t m hm (V (p.Nang - 1 - l)) (p.mus (p.Nang - 1 - l)) uRefl uRefl'
    fs fs' k i hk hi h1 h2
  rw [hs.mu l hl, neg_neg] at hst
  unfold slabConstantRhs
  rw [makeP_mirror p hs, hs.mu l hl]
  show streamPart c t (mirrorMesh c.Nspace m) (mirrorField c.Nspace (V (p.Nang - 1 - l))) k
    (p.mus l) uRefl' fs' i - _ + _ + _ = _
  rw [hst]
  simp only [mirrorState, mirrorField]
  ring

/-- C85: a symmetric problem has a symmetric solution: mesh, source, boundary data and initial state
symmetric about zero give a symmetric state at all later times. -/
theorem c85_symmetric_solution (p : RhsParams) (hs : SymmetricSet p.Nang p.mus p.ws)
    (hp : ∀ l < p.Nang, 0 < p.ws l) (hw : ∑ l ∈ Finset.range p.Nang, p.ws l = 1) (hc : 0 ≤ p.c)
    (c : FluxConfig) (hg : c.geometry = .slab) (hN : 2 ≤ c.Nspace) (a b : ℝ)
    (F : Set ℝ) (hF : F.Finite)
    (hb : ∀ t ∈ Ico a b \ F, BoundarySymmetric c t) (mesh : ℝ → MeshView)
    (hm : ∀ s ∈ Icc a b, ∀ k < c.Nspace, (mesh s).edges k < (mesh s).edges (k + 1))
    (hsym : ∀ s ∈ Icc a b, ∀ k ≤ c.Nspace, (mesh s).edges (c.Nspace - k) = -(mesh s).edges k ∧
      (mesh s).Dedges (c.Nspace - k) = -(mesh s).Dedges k)
    (S : ℝ → ℕ → ℕ → ℝ) (hS : ∀ t ∈ Ico a b \ F, ∀ k < c.Nspace, ∀ i ≤ c.M,
      S t (c.Nspace - 1 - k) i = (-1) ^ i * S t k i)
    (uRefl : ℝ → ℕ → ℕ → ℝ) (fs : ℝ → ℕ → ℕ → FluxState)
    (V : ℝ → ℕ → ℕ → ℕ → ℝ)
    (hVc : ∀ l < p.Nang, ∀ k < c.Nspace, ∀ i ≤ c.M, ContinuousOn (fun s => V s l k i) (Icc a b))
    (hV : ∀ t ∈ Ico a b \ F, ∀ l < p.Nang, ∀ k < c.Nspace, ∀ i ≤ c.M,
      HasDerivWithinAt (fun s => V s l k i)
      (slabConstantRhs p c t (mesh t) (S t) (uRefl t l) (fs t l k) (V t) l k i) (Ici t) t)
    (hinit : ∀ l < p.Nang, ∀ k < c.Nspace, ∀ i ≤ c.M,
      V a (p.Nang - 1 - l) (c.Nspace - 1 - k) i = (-1) ^ i * V a l k i)
    (t : ℝ) (ht : t ∈ Icc a b) :
    ∀ l < p.Nang, ∀ k < c.Nspace, ∀ i ≤ c.M,
      V t (p.Nang - 1 - l) (c.Nspace - 1 - k) i = (-1) ^ i * V t l k i := by
  have hsq : ∀ i : ℕ, ((-1 : ℝ) ^ i) * (-1) ^ i = 1 := fun i => by rw [← mul_pow]; norm_num
  -- the reflected trajectory solves the same equations
  have hW : ∀ t ∈ Ico a b \ F, ∀ l < p.Nang, ∀ k < c.Nspace, ∀ i ≤ c.M,
      HasDerivWithinAt (fun s => mirrorState p.Nang c.Nspace (V s) l k i)
      (slabConstantRhs p c t (mesh t) (S t) (uRefl t l) (fs t l k)
        (mirrorState p.Nang c.Nspace (V t)) l k i) (Ici t) t := by
    intro t ht l hl k hk i hi
    have ht' : t ∈ Icc a b := ⟨ht.1.1, ht.1.2.le⟩
    have h := (hV t ht (p.Nang - 1 - l) (by omega) (c.Nspace - 1 - k) (by omega) i hi).const_mul
      ((-1 : ℝ) ^ i)
    refine h.congr_deriv ?_
    rw [← c85_rhs_mirror p hs c hg t hN (hb t ht) (mesh t) (hm t ht') (S t) _ (uRefl t l) _
      (fs t l k) (V t) l k i hl hk hi]
    -- the reflected mesh is the mesh on the indices in use
    have hmm : ∀ j < c.Nspace, (mirrorMesh c.Nspace (mesh t)).edges j <
        (mirrorMesh c.Nspace (mesh t)).edges (j + 1) := by
      intro j hj
      have := hm t ht' (c.Nspace - (j + 1)) (by omega)
      rw [show c.Nspace - (j + 1) + 1 = c.Nspace - j by omega] at this
      simp only [mirrorMesh, mirrorEdges]
      linarith
    have hE : ∀ j ≤ c.Nspace, (mirrorMesh c.Nspace (mesh t)).edges j = (mesh t).edges j ∧
        (mirrorMesh c.Nspace (mesh t)).Dedges j = (mesh t).Dedges j := by
      intro j hj
      obtain ⟨q1, q2⟩ := hsym t ht' j hj
      simp only [mirrorMesh, mirrorEdges, q1, q2, neg_neg, and_self]
    have hSk : mirrorField c.Nspace (S t) k i = S t k i := by
      unfold mirrorField
      rw [hS t ht k hk i hi, ← mul_assoc, hsq, one_mul]
    unfold slabConstantRhs streamPart
    rw [hSk, matVec_G _ _ _ (hmm k hk) _ hi, matVec_L _ _ _ (hmm k hk) _ hi,
      matVec_G _ _ _ (hm t ht' k hk) _ hi, matVec_L _ _ _ (hm t ht' k hk) _ hi,
      fluxLU_eq c t _ _ k _ _ _ hk hmm hi, fluxLU_eq c t _ _ k _ _ _ hk (hm t ht') hi]
    have hlo : leftOuter c t (mirrorMesh c.Nspace (mesh t))
        (mirrorState p.Nang c.Nspace (V t) l) k (uRefl t l) =
        leftOuter c t (mesh t) (mirrorState p.Nang c.Nspace (V t) l) k (uRefl t l) := by
      unfold leftOuter
      rw [(hE k (by omega)).1, (hE (k + 1) (by omega)).1, (hE 0 (by omega)).1,
        (hE (k - 1) (by omega)).1]
    have hro : rightOuter c t (mirrorMesh c.Nspace (mesh t))
        (mirrorState p.Nang c.Nspace (V t) l) k =
        rightOuter c t (mesh t) (mirrorState p.Nang c.Nspace (V t) l) k := by
      unfold rightOuter
      rw [(hE k (by omega)).1, (hE (k + 1) (by omega)).1, (hE c.Nspace le_rfl).1]
      by_cases h2 : k + 1 = c.Nspace
      · rw [if_neg (not_not.2 h2), if_neg (not_not.2 h2)]
      · rw [if_pos h2, if_pos h2, (hE (k + 2) (by omega)).1]
    rw [hlo, hro, (hE k (by omega)).1, (hE (k + 1) (by omega)).1, (hE k (by omega)).2,
      (hE (k + 1) (by omega)).2]
  have hWc : ∀ l < p.Nang, ∀ k < c.Nspace, ∀ i ≤ c.M,
      ContinuousOn (fun s => mirrorState p.Nang c.Nspace (V s) l k i) (Icc a b) :=
    fun l hl k hk i hi => continuousOn_const.mul
      (hVc (p.Nang - 1 - l) (by omega) (c.Nspace - 1 - k) (by omega) i hi)
  have huniq := c82_unique p hp hw hc c hg a b F hF mesh hm S uRefl uRefl fs fs V
    (fun s => mirrorState p.Nang c.Nspace (V s)) hVc hWc hV hW
    (fun l hl k hk i hi => by
      unfold mirrorState mirrorField
      rw [hinit l hl k hk i hi, ← mul_assoc, hsq, one_mul]) t ht
  intro l hl k hk i hi
  have := huniq l hl k hk i hi
  unfold mirrorState mirrorField at this
  rw [this, ← mul_assoc, hsq, one_mul]

theorem exampleParams_symmetric : SymmetricSet exampleParams.Nang exampleParams.mus
    exampleParams.ws where
  mu := fun l hl => by
    have : l < 2 := hl
    interval_cases l <;> simp [exampleParams] <;> norm_num
  w := fun l _ => rfl

noncomputable def pairParams : RhsParams where
  Nang := 2
  mus := fun l => if l = 0 then -(1 / 2) else 1 / 2
  ws := fun _ => 1 / 2
  c := 0
  ca := 0
  l := 1

noncomputable def pairMesh : MeshView where
  edges := fun k => k - 1
  Dedges := fun _ => 0

/-- Particles in each half that are moving outwards: they leave and are absorbed. -/
noncomputable def pairSolution (s : ℝ) (l k _ : ℕ) : ℝ :=
  if l = k then Real.exp (-(3 / 2) * s) else 0

theorem pairMesh_ordered (k : ℕ) : pairMesh.edges k < pairMesh.edges (k + 1) := by
  simp [pairMesh]

theorem pairParams_symmetric : SymmetricSet pairParams.Nang pairParams.mus pairParams.ws where
  mu := fun l hl => by
    have : l < 2 := hl
    interval_cases l <;> simp [pairParams]
  w := fun l _ => rfl

theorem pair_stream (fs : FluxState) (t : ℝ) (u : ℕ → ℕ → ℝ) (k : ℕ) (hk : k < 2) :
    (u 0 0 = 0 → streamPart decayConfig t pairMesh u k (1 / 2) (fun _ => 0) fs 0 =
      -(1 / 2) * u k 0) ∧
    (u 1 0 = 0 → streamPart decayConfig t pairMesh u k (-(1 / 2)) (fun _ => 0) fs 0 =
      -(1 / 2) * u k 0) := by
  have hm : ∀ k < decayConfig.Nspace, pairMesh.edges k < pairMesh.edges (k + 1) :=
    fun k _ => pairMesh_ordered k
  have hoff : ∀ k, isBoundarySourceOn decayConfig k t = false := by
    intro k; simp [isBoundarySourceOn, decayConfig, exampleConfig]
  have hG : matVec decayConfig.M (cellMatrices decayConfig.M pairMesh k).G (u k) 0 = 0 := by
    rw [matVec_G _ _ _ (hm k hk) _ (by decide)]
    simp [pairMesh, legendre, I]
  have hL : matVec decayConfig.M (cellMatrices decayConfig.M pairMesh k).L (u k) 0 = 0 := by
    rw [matVec_L _ _ _ (hm k hk) _ (by decide)]
    simp [legendre, I]
  have hu : ∀ l r : ℝ, upwind (1 / 2) l r = 1 / 2 * l := fun l r =>
    (c08_upwind_meaning _ _ _).1 (by norm_num)
  have hu' : ∀ l r : ℝ, upwind (-(1 / 2)) l r = -(1 / 2) * r := fun l r => by
    rw [upwind_mirror, hu]; ring
  have hk2 : k = 0 ∨ k = 1 := by omega
  refine ⟨fun h0 => ?_, fun h0 => ?_⟩
  all_goals
    unfold streamPart
    rw [hG, hL, fluxLU_eq _ _ _ _ _ _ _ _ hk hm (by decide)]
    unfold leftOuter rightOuter
    rw [show pairMesh.Dedges k = 0 from rfl, show pairMesh.Dedges (k + 1) = 0 from rfl, sub_zero]
    simp only [hu, hu', hoff]
    rcases hk2 with rfl | rfl
    all_goals
      simp [pairMesh, decayConfig, exampleConfig, geomField, slabField, h0, geomArea, geomBasis,
        slabBasis, legendre]
      try norm_num

theorem pair_solves (fs : FluxState) (t : ℝ) (l k i : ℕ) (hl : l < pairParams.Nang)
    (hk : k < decayConfig.Nspace) (hi : i ≤ decayConfig.M) :
    HasDerivWithinAt (fun s => pairSolution s l k i)
      (slabConstantRhs pairParams decayConfig t pairMesh (fun _ _ => 0) (fun _ => 0) fs
        (pairSolution t) l k i) (Ici t) t := by
  have hi0 : i = 0 := Nat.le_zero.1 hi
  subst hi0
  have hl2 : l < 2 := hl
  have hk2 : k < 2 := hk
  obtain ⟨h1, h2⟩ := pair_stream fs t (pairSolution t l) k hk2
  have hr : slabConstantRhs pairParams decayConfig t pairMesh (fun _ _ => 0) (fun _ => 0) fs
      (pairSolution t) l k 0 = -(3 / 2) * pairSolution t l k 0 := by
    have hst : streamPart decayConfig t pairMesh (pairSolution t l) k (pairParams.mus l)
        (fun _ => 0) fs 0 = -(1 / 2) * pairSolution t l k 0 := by
      have hl3 : l = 0 ∨ l = 1 := by omega
      rcases hl3 with rfl | rfl
      · exact h2 (by simp [pairSolution])
      · exact h1 (by simp [pairSolution])
    unfold slabConstantRhs
    rw [hst]
    simp [pairParams]
    ring
  rw [hr]
  by_cases h : l = k
  · have h' := (((hasDerivAt_id t).const_mul (-(3 / 2) : ℝ)).exp).hasDerivWithinAt (s := Ici t)
    simp only [id, mul_one] at h'
    simp only [pairSolution, if_pos h]
    exact h'.congr_deriv (by ring)
  · simpa [pairSolution, h] using hasDerivWithinAt_const t (Ici t) (0 : ℝ)

/-- A symmetric pair of outgoing pulses. -/
example (fs : FluxState) (t : ℝ) (ht : t ∈ Icc (0 : ℝ) 3) :=
  c85_symmetric_solution pairParams pairParams_symmetric (fun _ _ => by simp [pairParams])
    (by simp [pairParams]) le_rfl decayConfig rfl le_rfl 0 3 ∅ finite_empty
    (fun t _ => Or.inl ⟨decay_not_active true t, decay_not_active false t⟩) (fun _ => pairMesh)
    (fun _ _ k _ => pairMesh_ordered k)
    (fun _ _ k hk => by
      have : k ≤ 2 := hk
      interval_cases k <;> simp [pairMesh, decayConfig] <;> norm_num)
    (fun _ _ _ => 0) (fun _ _ _ _ _ _ => by simp) (fun _ _ _ => 0) (fun _ _ _ => fs) pairSolution
    (fun l _ k _ i _ => by
      unfold pairSolution
      by_cases h : l = k
      · simp only [if_pos h]; fun_prop
      · simp only [if_neg h]; fun_prop)
    (fun t _ l hl k hk i hi => pair_solves fs t l k i hl hk hi)
    (fun l hl k hk i hi => by
      have h1 : l < 2 := hl
      have h2 : k < 2 := hk
      have h3 : i = 0 := Nat.le_zero.1 hi
      subst h3
      interval_cases l <;> interval_cases k <;> simp [pairSolution, pairParams, decayConfig]) t ht

example (u : ℕ → ℕ → ℝ) := c85_mirror_field 3 4 (fun k => (k : ℝ) ^ 2) u 1 (by norm_num) (1 / 2)

example (fs fs' : FluxState) (S : ℕ → ℕ → ℝ) (V : ℕ → ℕ → ℕ → ℝ) :=
  c85_rhs_mirror exampleParams exampleParams_symmetric exampleConfig rfl 0 (by decide)
    (Or.inl ⟨example_not_active true, example_not_active false⟩) (exampleMesh 0)
    (fun k _ => exampleMesh_ordered k) S (fun _ => 0) (fun _ => 0) fs fs' V 0 0 1 (by decide)
    (by decide) (by decide)

example (fs fs' : FluxState) (S : ℕ → ℕ → ℝ) (V : ℕ → ℕ → ℕ → ℝ) :=
  c85_rhs_mirror exampleParams exampleParams_symmetric exampleSourceConfig rfl 0 (by decide)
    (Or.inr ⟨rfl, rfl, rfl, rfl, example_quad⟩) (exampleMesh 0)
    (fun k _ => exampleMesh_ordered k) S (fun _ => 0) (fun _ => 0) fs fs' V 0 0 1 (by decide)
    (by decide) (by decide)

end Verif.Props
