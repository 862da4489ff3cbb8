import Verif.Spec.Transport
import Verif.Lemmas.SlabBasis
import Verif.Model.Flux

/-! Helper facts: edge values, and the flux object carries no history. -/

namespace Verif.Lemmas

open Polynomial Verif.Spec Verif.Model

theorem zSlab_eq_ref (x : ℝ) {a b : ℝ} (h : a < b) : zSlab x a b = ref x a b := by
  have h1 : b - a ≠ 0 := by linarith
  have h2 : a - b ≠ 0 := by linarith
  unfold zSlab ref; field_simp; ring

theorem normPn_eq_slabBasis (n : ℕ) (x : ℝ) {a b : ℝ} (h : a < b) :
    normPn n x a b = slabBasis n x a b := by
  unfold normPn slabBasis; rw [zSlab_eq_ref x h, mul_comm]

theorem ref_left {a b : ℝ} (h : a < b) : ref a a b = -1 := by
  have h1 : b - a ≠ 0 := by linarith
  unfold ref; field_simp; ring

theorem ref_right {a b : ℝ} (h : a < b) : ref b a b = 1 := by
  have h1 : b - a ≠ 0 := by linarith
  unfold ref; field_simp; ring

theorem bLR_slab (i : ℕ) {a b : ℝ} (h : a < b) :
    bLR .slab i (Real.sqrt (b - a)) = (slabBasis i a a b, slabBasis i b a b) := by
  unfold slabBasis
  rw [ref_left h, ref_right h, legendre_eval_one, legendre_eval_neg_one, sqrt_split h]
  unfold bLR
  rcases Nat.eq_zero_or_pos i with h0 | h0
  · subst h0; simp
  · rw [if_neg (by omega)]
    rcases Nat.even_or_odd i with he | ho
    · rw [if_pos (Nat.even_iff.1 he), he.neg_one_pow]; simp
    · rw [if_neg (by rw [Nat.odd_iff.1 ho]; norm_num), ho.neg_one_pow]; simp [neg_div]

theorem chebT_eval_one (n : ℕ) : (Chebyshev.T ℝ n).eval 1 = 1 := by simp

theorem chebT_eval_neg_one (n : ℕ) : (Chebyshev.T ℝ n).eval (-1) = (-1) ^ n := by
  induction n using Nat.twoStepInduction with
  | zero => simp
  | one => simp
  | more n h0 h1 =>
    have := Chebyshev.T_add_two ℝ (n : ℤ)
    push_cast at h1 ⊢
    rw [this]
    simp only [eval_sub, eval_mul, eval_X, h0, h1]
    norm_num
    ring

theorem bLR_sphere (i : ℕ) {a b : ℝ} (h : a < b) :
    bLR .sphere i (Real.sqrt (b - a)) = (sphereBasis i a a b, sphereBasis i b a b) := by
  have hpi := Real.pi_pos
  have hb : 0 < b - a := by linarith
  unfold sphereBasis
  rw [ref_left h, ref_right h, chebT_eval_one, chebT_eval_neg_one, Real.sqrt_div' _ (by positivity),
    Real.sqrt_mul hpi.le]
  have h1 : Real.sqrt (b - a) ≠ 0 := (Real.sqrt_pos.2 hb).ne'
  have h2 : Real.sqrt Real.pi ≠ 0 := (Real.sqrt_pos.2 hpi).ne'
  unfold bLR
  rcases Nat.eq_zero_or_pos i with h0 | h0
  · subst h0
    simp only [if_true, pow_zero, Real.sqrt_one]
    congr 1 <;> field_simp
  · have hi : i ≠ 0 := by omega
    simp only [if_neg hi]
    rcases Nat.even_or_odd i with he | ho
    · rw [if_pos (Nat.even_iff.1 he), he.neg_one_pow]
      congr 1 <;> field_simp
    · rw [if_neg (by rw [Nat.odd_iff.1 ho]; norm_num), ho.neg_one_pow]
      congr 1 <;> field_simp

/-- The basis used in the given geometry. -/
noncomputable def geomBasis : Geometry → ℕ → ℝ → ℝ → ℝ → ℝ
  | .slab => slabBasis
  | .sphere => sphereBasis

/-- The field expansion used in the given geometry. -/
noncomputable def geomField : Geometry → ℕ → (ℕ → ℝ) → ℝ → ℝ → ℝ → ℝ
  | .slab => slabField
  | .sphere => sphereField

/-- Area factor of the given geometry. -/
noncomputable def geomArea : Geometry → ℝ → ℝ
  | .slab, _ => 1
  | .sphere, x => x ^ 2

theorem geomField_eq (g : Geometry) (M : ℕ) (U : ℕ → ℝ) (a b x : ℝ) :
    geomField g M U a b x = ∑ j ∈ Finset.range (M + 1), U j * geomBasis g j x a b := by
  cases g <;> rfl

theorem bLR_eq (g : Geometry) (i : ℕ) {a b : ℝ} (h : a < b) :
    bLR g i (Real.sqrt (b - a)) = (geomBasis g i a a b, geomBasis g i b a b) := by
  cases g
  · exact bLR_slab i h
  · exact bLR_sphere i h

theorem makeH_h (c : FluxConfig) (m : MeshView) (space : ℕ) (s : FluxState) :
    (makeH c m space s).h = Real.sqrt (m.edges (space + 1) - m.edges space) := by
  unfold makeH; split_ifs <;> rfl

theorem makeH_hp (c : FluxConfig) (m : MeshView) (space : ℕ) (s : FluxState)
    (hs : space + 1 ≠ c.Nspace) :
    (makeH c m space s).hp = Real.sqrt (m.edges (space + 2) - m.edges (space + 1)) := by
  unfold makeH; simp only [if_pos hs]; split_ifs <;> rfl

theorem makeH_hm (c : FluxConfig) (m : MeshView) (space : ℕ) (s : FluxState)
    (hs : space ≠ 0) :
    (makeH c m space s).hm = Real.sqrt (m.edges space - m.edges (space - 1)) := by
  unfold makeH; simp only [if_pos hs]

/-- State on the outer side of the left edge of cell `space`, as `make_sol` computes it. -/
noncomputable def leftOuter (c : FluxConfig) (t : ℝ) (m : MeshView) (u : ℕ → ℕ → ℝ)
    (space : ℕ) (uRefl : ℕ → ℝ) : ℝ :=
  if space ≠ 0 then
    geomField c.geometry c.M (u (space - 1)) (m.edges (space - 1)) (m.edges space) (m.edges space)
  else if isBoundarySourceOn c space t then
    ∑ j ∈ Finset.range (c.M + 1),
      fluxIntegrateQuad c t (m.edges 0 - (m.edges (space + 1) - m.edges space)) (m.edges space) j *
        geomBasis c.geometry j (m.edges (space + 1)) (m.edges space) (m.edges (space + 1))
  else if c.geometry = Geometry.sphere then
    geomField c.geometry c.M uRefl (m.edges space) (m.edges (space + 1)) (m.edges space)
  else 0

/-- State on the outer side of the right edge of cell `space`, as `make_sol` computes it. -/
noncomputable def rightOuter (c : FluxConfig) (t : ℝ) (m : MeshView) (u : ℕ → ℕ → ℝ)
    (space : ℕ) : ℝ :=
  if space + 1 ≠ c.Nspace then
    geomField c.geometry c.M (u (space + 1)) (m.edges (space + 1)) (m.edges (space + 2))
      (m.edges (space + 1))
  else if isBoundarySourceOn c space t then
    ∑ j ∈ Finset.range (c.M + 1),
      fluxIntegrateQuad c t (m.edges (space + 1))
          (m.edges c.Nspace + (m.edges (space + 1) - m.edges space)) j *
        geomBasis c.geometry j (m.edges space) (m.edges space) (m.edges (space + 1))
  else 0

theorem upwind_left (v l r : ℝ) [Decidable (0 ≤ v)] :
    v * (if 0 ≤ v then l else r) = upwind v l r := by
  unfold upwind
  split_ifs with h
  · rw [max_eq_left h, min_eq_right h]; ring
  · have h' : v ≤ 0 := by linarith
    rw [max_eq_right h', min_eq_left h']; ring

/-- Closed form of the flux vector: independent of the previous state of the object. -/
theorem fluxLU_eq (c : FluxConfig) (t : ℝ) (m : MeshView) (u : ℕ → ℕ → ℝ) (space : ℕ)
    (mul : ℝ) (uRefl : ℕ → ℝ) (s : FluxState) (hN : space < c.Nspace)
    (hm : ∀ k < c.Nspace, m.edges k < m.edges (k + 1)) {i : ℕ} (hi : i ≤ c.M) :
    fluxLU c t m u space mul uRefl s i =
      geomArea c.geometry (m.edges (space + 1)) *
        geomBasis c.geometry i (m.edges (space + 1)) (m.edges space) (m.edges (space + 1)) *
        upwind (mul - m.Dedges (space + 1))
          (geomField c.geometry c.M (u space) (m.edges space) (m.edges (space + 1))
            (m.edges (space + 1)))
          (rightOuter c t m u space)
      - geomArea c.geometry (m.edges space) *
        geomBasis c.geometry i (m.edges space) (m.edges space) (m.edges (space + 1)) *
        upwind (mul - m.Dedges space)
          (leftOuter c t m u space uRefl)
          (geomField c.geometry c.M (u space) (m.edges space) (m.edges (space + 1))
            (m.edges space)) := by
  have hc := hm space hN
  set s1 : FluxState := makeH c m space { s with v0 := 0, v1 := 0, v2 := 0, v3 := 0 } with hs1
  have h_h : s1.h = Real.sqrt (m.edges (space + 1) - m.edges space) := makeH_h c m space _
  have v1e : ∑ j ∈ Finset.range (c.M + 1), (bLR c.geometry j s1.h).1 * u space j =
      geomField c.geometry c.M (u space) (m.edges space) (m.edges (space + 1)) (m.edges space) := by
    rw [geomField_eq]
    refine Finset.sum_congr rfl fun j _ => ?_
    rw [h_h, bLR_eq _ _ hc, mul_comm]
  have v2e : ∑ j ∈ Finset.range (c.M + 1), (bLR c.geometry j s1.h).2 * u space j =
      geomField c.geometry c.M (u space) (m.edges space) (m.edges (space + 1))
        (m.edges (space + 1)) := by
    rw [geomField_eq]
    refine Finset.sum_congr rfl fun j _ => ?_
    rw [h_h, bLR_eq _ _ hc, mul_comm]
  set s2 : FluxState := extendMesh c m space s1 with hs2
  have v0e : ∑ j ∈ Finset.range (c.M + 1), v0Term c m s2 space u t uRefl j =
      leftOuter c t m u space uRefl := by
    unfold leftOuter v0Term
    split_ifs with h1 h2 h3
    · rw [geomField_eq]
      refine Finset.sum_congr rfl fun j _ => ?_
      have hmeq : s2.hm = Real.sqrt (m.edges space - m.edges (space - 1)) :=
        makeH_hm c m space { s with v0 := 0, v1 := 0, v2 := 0, v3 := 0 } h1
      have hlt : m.edges (space - 1) < m.edges space := by
        have := hm (space - 1) (by omega)
        rwa [Nat.sub_add_cancel (by omega)] at this
      rw [hmeq, bLR_eq _ _ hlt, mul_comm]
    · refine Finset.sum_congr rfl fun j _ => ?_
      have : s2.h = s1.h := rfl
      rw [this, h_h, bLR_eq _ _ hc]
      rfl
    · rw [geomField_eq]
      refine Finset.sum_congr rfl fun j _ => ?_
      have : s2.h = s1.h := rfl
      rw [this, h_h, bLR_eq _ _ hc, mul_comm]
    · simp
  have v3e : ∑ j ∈ Finset.range (c.M + 1), v3Term c m s2 space u t j =
      rightOuter c t m u space := by
    unfold rightOuter v3Term
    split_ifs with h1 h2
    · rw [geomField_eq]
      refine Finset.sum_congr rfl fun j _ => ?_
      have : s2.hp = Real.sqrt (m.edges (space + 2) - m.edges (space + 1)) :=
        makeH_hp c m space { s with v0 := 0, v1 := 0, v2 := 0, v3 := 0 } h1
      rw [this, bLR_eq _ _ (hm (space + 1) (by omega)), mul_comm]
    · refine Finset.sum_congr rfl fun j _ => ?_
      have : s2.h = s1.h := rfl
      rw [this, h_h, bLR_eq _ _ hc]
      rfl
    · simp
  have hv : s1.v0 = 0 ∧ s1.v1 = 0 ∧ s1.v2 = 0 ∧ s1.v3 = 0 := by
    rw [hs1]; unfold makeH; split_ifs <;> simp
  obtain ⟨z0, z1, z2, z3⟩ := hv
  have e0 : s2.v0 = 0 := z0
  have e1 : s2.v1 = 0 := z1
  have e2 : s2.v2 = 0 := z2
  have e3 : s2.v3 = 0 := z3
  have eh : s2.h = s1.h := rfl
  unfold fluxLU makeLU
  simp only [← hs1, ← hs2, makeSol, e0, e1, e2, e3, eh, zero_add, v0e, v1e, v2e, v3e, if_pos hi,
    fluxSpeed, one_mul]
  rw [h_h, bLR_eq _ _ hc, ← upwind_left, ← upwind_left]
  cases c.geometry
  · simp only [geomArea]; ring
  · simp only [geomArea]; ring

end Verif.Lemmas
