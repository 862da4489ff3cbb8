import Verif.Lemmas.Monotone
import Verif.Props.Existence

/-!
Property C86: with one constant per cell (`M = 0`) the slab scheme keeps nonnegative data
nonnegative, keeps ordered solutions ordered and obeys a maximum principle.
-/

namespace Verif.Props

open Polynomial Verif.Spec Verif.Model Verif.Lemmas Set

/-- A mean of boundary values lies between bounds of the boundary values. -/
theorem quad_mean_bounds (c : FluxConfig) (t a b : ℝ) (h : a < b) (hq : ∀ q ∈ c.quad, 0 ≤ q.2) :
    ((∀ x, 0 ≤ bcFunc c x t) → 0 ≤ fluxIntegrateQuad c t a b 0 * (1 / Real.sqrt (b - a))) ∧
    ∀ K, (∀ x, bcFunc c x t ≤ K) → QuadExact c.quad 0 →
      fluxIntegrateQuad c t a b 0 * (1 / Real.sqrt (b - a)) ≤ K := by
  have hb : 0 < b - a := by linarith
  have hs := Real.sqrt_pos.2 hb
  have hsq : Real.sqrt (b - a) * Real.sqrt (b - a) = b - a := Real.mul_self_sqrt hb.le
  have e : fluxIntegrateQuad c t a b 0 * (1 / Real.sqrt (b - a)) = 1 / 2 *
      (c.quad.map fun q => q.2 * bcFunc c ((b - a) / 2 * q.1 + (a + b) / 2) t).sum := by
    unfold fluxIntegrateQuad
    have : ∀ q : ℝ × ℝ, q.2 * bcFunc c ((b - a) / 2 * q.1 + (a + b) / 2) t *
        normPn 0 ((b - a) / 2 * q.1 + (a + b) / 2) a b = 1 / Real.sqrt (b - a) *
        (q.2 * bcFunc c ((b - a) / 2 * q.1 + (a + b) / 2) t) := by
      intro q
      simp [normPn, legendre]
      ring
    simp only [this]
    rw [List.sum_map_mul_left]
    generalize (c.quad.map fun q => q.2 * bcFunc c ((b - a) / 2 * q.1 + (a + b) / 2) t).sum = z
    rw [show (b - a) / 2 * (1 / Real.sqrt (b - a) * z) * (1 / Real.sqrt (b - a)) =
      (b - a) / (Real.sqrt (b - a) * Real.sqrt (b - a)) * (1 / 2 * z) by field_simp, hsq,
      div_self hb.ne', one_mul]
  rw [e]
  constructor
  · intro h0
    refine mul_nonneg (by norm_num) (List.sum_nonneg fun x hx => ?_)
    obtain ⟨q, hq', rfl⟩ := List.mem_map.1 hx
    exact mul_nonneg (hq q hq') (h0 _)
  · intro K hK hex
    have h2 : (c.quad.map fun q => q.2 * bcFunc c ((b - a) / 2 * q.1 + (a + b) / 2) t).sum ≤
        (c.quad.map fun q => q.2 * (C K : ℝ[X]).eval q.1).sum := by
      refine List.sum_le_sum fun q hq' => ?_
      rw [eval_C]
      exact mul_le_mul_of_nonneg_left (hK _) (hq q hq')
    rw [hex (C K) (by simp)] at h2
    simp only [eval_C, intervalIntegral.integral_const, smul_eq_mul] at h2
    linarith

/-- Outer states at the two ends, order zero. -/
theorem outer_zero_bounds (c : FluxConfig) (hg : c.geometry = .slab) (hM : c.M = 0) (t : ℝ)
    (m : MeshView) (hN : 0 < c.Nspace) (hm : ∀ k < c.Nspace, m.edges k < m.edges (k + 1))
    (u : ℕ → ℕ → ℝ) (uRefl : ℕ → ℝ) (hq : ∀ q ∈ c.quad, 0 ≤ q.2) :
    ((∀ x, 0 ≤ bcFunc c x t) → 0 ≤ leftOuter c t m u 0 uRefl ∧
      0 ≤ rightOuter c t m u (c.Nspace - 1)) ∧
    ∀ K, 0 ≤ K → (∀ x, bcFunc c x t ≤ K) → QuadExact c.quad 0 →
      leftOuter c t m u 0 uRefl ≤ K ∧ rightOuter c t m u (c.Nspace - 1) ≤ K := by
  have h0 := hm 0 hN
  have h1 := hm (c.Nspace - 1) (by omega)
  rw [Nat.sub_add_cancel (by omega : 1 ≤ c.Nspace)] at h1
  have hbas : ∀ x a b, slabBasis 0 x a b = 1 / Real.sqrt (b - a) := by
    intro x a b; simp [slabBasis, legendre]
  have hl : leftOuter c t m u 0 uRefl = if isBoundarySourceOn c 0 t then
      fluxIntegrateQuad c t (m.edges 0 - (m.edges 1 - m.edges 0)) (m.edges 0) 0 *
        (1 / Real.sqrt (m.edges 0 - (m.edges 0 - (m.edges 1 - m.edges 0)))) else 0 := by
    unfold leftOuter
    rw [if_neg (by omega), hg, hM]
    simp [geomBasis, hbas]
  have hr : rightOuter c t m u (c.Nspace - 1) = if isBoundarySourceOn c (c.Nspace - 1) t then
      fluxIntegrateQuad c t (m.edges c.Nspace)
        (m.edges c.Nspace + (m.edges c.Nspace - m.edges (c.Nspace - 1))) 0 *
        (1 / Real.sqrt (m.edges c.Nspace + (m.edges c.Nspace - m.edges (c.Nspace - 1)) -
          m.edges c.Nspace)) else 0 := by
    unfold rightOuter
    rw [Nat.sub_add_cancel (by omega : 1 ≤ c.Nspace), if_neg (by omega), hg, hM]
    simp [geomBasis, hbas]
  have bl := quad_mean_bounds c t (m.edges 0 - (m.edges 1 - m.edges 0)) (m.edges 0)
    (by linarith) hq
  have br := quad_mean_bounds c t (m.edges c.Nspace)
    (m.edges c.Nspace + (m.edges c.Nspace - m.edges (c.Nspace - 1))) (by linarith) hq
  rw [hl, hr]
  constructor
  · intro hb
    constructor
    · split_ifs
      exacts [bl.1 hb, le_rfl]
    · split_ifs
      exacts [br.1 hb, le_rfl]
  · intro K hK hb hex
    constructor
    · split_ifs
      exacts [bl.2 K hb hex, hK]
    · split_ifs
      exacts [br.2 K hb hex, hK]

theorem field_nonneg_iff (U : ℕ → ℝ) (a b : ℝ) (h : a < b) :
    (∀ x, 0 ≤ slabField 0 U a b x) ↔ 0 ≤ U 0 := by
  have hs := Real.sqrt_pos.2 (by linarith : 0 < b - a)
  constructor
  · intro h'
    have := h' 0
    rw [slabField_zero, le_div_iff₀ hs, zero_mul] at this
    exact this
  · intro h' x
    rw [slabField_zero]
    positivity

/-- C86: order zero keeps radiation nonnegative.  Initial field, source and boundary values are
nonnegative, the mesh moves in any way that keeps its edges in order. -/
theorem c86_nonneg (p : RhsParams) (hp : ∀ l < p.Nang, 0 < p.ws l)
    (hw : ∑ l ∈ Finset.range p.Nang, p.ws l = 1) (hc : 0 ≤ p.c)
    (c : FluxConfig) (hg : c.geometry = .slab) (hM : c.M = 0) (a b : ℝ)
    (F : Set ℝ) (hF : F.Finite) (mesh : ℝ → MeshView)
    (hm : ∀ s ∈ Icc a b, ∀ k < c.Nspace, (mesh s).edges k < (mesh s).edges (k + 1))
    (hq : ∀ q ∈ c.quad, 0 ≤ q.2) (hbc : ∀ t ∈ Ico a b \ F, ∀ x, 0 ≤ bcFunc c x t)
    (S : ℝ → ℕ → ℕ → ℝ) (hS : ∀ t ∈ Ico a b \ F, ∀ k < c.Nspace, ∀ x,
      0 ≤ slabField 0 (S t k) ((mesh t).edges k) ((mesh t).edges (k + 1)) x)
    (uRefl : ℝ → ℕ → ℕ → ℝ) (fs : ℝ → ℕ → ℕ → FluxState) (V : ℝ → ℕ → ℕ → ℕ → ℝ)
    (hVc : ∀ l < p.Nang, ∀ k < c.Nspace, ContinuousOn (fun s => V s l k 0) (Icc a b))
    (hV : ∀ t ∈ Ico a b \ F, ∀ l < p.Nang, ∀ k < c.Nspace, HasDerivWithinAt (fun s => V s l k 0)
      (slabConstantRhs p c t (mesh t) (S t) (uRefl t l) (fs t l k) (V t) l k 0) (Ici t) t)
    (hinit : ∀ l < p.Nang, ∀ k < c.Nspace, ∀ x,
      0 ≤ slabField 0 (V a l k) ((mesh a).edges k) ((mesh a).edges (k + 1)) x)
    (t : ℝ) (ht : t ∈ Icc a b) (l : ℕ) (hl : l < p.Nang) (k : ℕ) (hk : k < c.Nspace) (x : ℝ) :
    0 ≤ slabField 0 (V t l k) ((mesh t).edges k) ((mesh t).edges (k + 1)) x := by
  have hN : 0 < c.Nspace := by omega
  have ha : a ∈ Icc a b := ⟨le_rfl, ht.1.trans ht.2⟩
  refine (field_nonneg_iff _ _ _ (hm t ht k hk)).2 ?_ x
  refine zero_order_nonneg p hp hw hc c.Nspace a b F hF mesh hm
    (fun s l => leftOuter c s (mesh s) (V s l) 0 (uRefl s l))
    (fun s l => rightOuter c s (mesh s) (V s l) (c.Nspace - 1))
    (fun s hs l _ => ((outer_zero_bounds c hg hM s (mesh s) hN (hm s ⟨hs.1.1, hs.1.2.le⟩) (V s l)
      (uRefl s l) hq).1 (hbc s hs)).1)
    (fun s hs l _ => ((outer_zero_bounds c hg hM s (mesh s) hN (hm s ⟨hs.1.1, hs.1.2.le⟩) (V s l)
      (uRefl s l) hq).1 (hbc s hs)).2)
    (fun s _ k => 1 / 2 * S s k 0) (fun s hs l _ k hk => ?_) (fun s l k => V s l k 0) hVc
    (fun s hs l hl k hk => ?_) (fun l hl k hk => ?_) t ht l hl k hk
  · have := (field_nonneg_iff _ _ _ (hm s ⟨hs.1.1, hs.1.2.le⟩ k hk)).1 (hS s hs k hk)
    linarith
  · refine (hV s hs l hl k hk).congr_deriv ?_
    unfold slabConstantRhs
    rw [streamPart_zero c hg hM s (mesh s) (hm s ⟨hs.1.1, hs.1.2.le⟩) (V s l) (p.mus l) (uRefl s l)
      (fs s l k) k hk, makeP_eq]
    ring
  · exact (field_nonneg_iff _ _ _ (hm a ha k hk)).1 (hinit l hl k hk)

/-- C86: comparison at order zero.  More source and more initial radiation, with the same boundary
values, give more radiation everywhere at all later times. -/
theorem c86_comparison (p : RhsParams) (hp : ∀ l < p.Nang, 0 < p.ws l)
    (hw : ∑ l ∈ Finset.range p.Nang, p.ws l = 1) (hc : 0 ≤ p.c)
    (c : FluxConfig) (hg : c.geometry = .slab) (hM : c.M = 0) (a b : ℝ)
    (F : Set ℝ) (hF : F.Finite) (mesh : ℝ → MeshView)
    (hm : ∀ s ∈ Icc a b, ∀ k < c.Nspace, (mesh s).edges k < (mesh s).edges (k + 1))
    (S S' : ℝ → ℕ → ℕ → ℝ) (hS : ∀ t ∈ Ico a b \ F, ∀ k < c.Nspace, S' t k 0 ≤ S t k 0)
    (uRefl uRefl' : ℝ → ℕ → ℕ → ℝ) (fs fs' : ℝ → ℕ → ℕ → FluxState) (V W : ℝ → ℕ → ℕ → ℕ → ℝ)
    (hVc : ∀ l < p.Nang, ∀ k < c.Nspace, ContinuousOn (fun s => V s l k 0) (Icc a b))
    (hWc : ∀ l < p.Nang, ∀ k < c.Nspace, ContinuousOn (fun s => W s l k 0) (Icc a b))
    (hV : ∀ t ∈ Ico a b \ F, ∀ l < p.Nang, ∀ k < c.Nspace, HasDerivWithinAt (fun s => V s l k 0)
      (slabConstantRhs p c t (mesh t) (S t) (uRefl t l) (fs t l k) (V t) l k 0) (Ici t) t)
    (hW : ∀ t ∈ Ico a b \ F, ∀ l < p.Nang, ∀ k < c.Nspace, HasDerivWithinAt (fun s => W s l k 0)
      (slabConstantRhs p c t (mesh t) (S' t) (uRefl' t l) (fs' t l k) (W t) l k 0) (Ici t) t)
    (hinit : ∀ l < p.Nang, ∀ k < c.Nspace, W a l k 0 ≤ V a l k 0)
    (t : ℝ) (ht : t ∈ Icc a b) (l : ℕ) (hl : l < p.Nang) (k : ℕ) (hk : k < c.Nspace) (x : ℝ) :
    slabField 0 (W t l k) ((mesh t).edges k) ((mesh t).edges (k + 1)) x ≤
      slabField 0 (V t l k) ((mesh t).edges k) ((mesh t).edges (k + 1)) x := by
  have h := zero_order_nonneg p hp hw hc c.Nspace a b F hF mesh hm (fun _ _ => 0) (fun _ _ => 0)
    (fun _ _ _ _ => le_rfl) (fun _ _ _ _ => le_rfl) (fun s _ k => 1 / 2 * (S s k 0 - S' s k 0))
    (fun s hs l _ k hk => by have := hS s hs k hk; linarith)
    (fun s l k => V s l k 0 - W s l k 0) (fun l hl k hk => (hVc l hl k hk).sub (hWc l hl k hk))
    (fun s hs l hl k hk => ?_) (fun l hl k hk => by have := hinit l hl k hk; linarith) t ht l hl k hk
  · have hs := Real.sqrt_pos.2 (sub_pos.2 (hm t ht k hk))
    rw [slabField_zero, slabField_zero]
    exact div_le_div_of_nonneg_right (by linarith) hs.le
  · have hms := hm s ⟨hs.1.1, hs.1.2.le⟩
    refine ((hV s hs l hl k hk).sub (hW s hs l hl k hk)).congr_deriv ?_
    have e := streamPart_sub c hg s (mesh s) hms (uRefl s l) (uRefl' s l) (fs s l k) (fs' s l k)
      (fs s l k) (V s l) (W s l) (p.mus l) k 0 hk (by omega)
    have hN : 0 < c.Nspace := by omega
    have hol : leftOuter (vacuumConfig c) s (mesh s) (fun k j => V s l k j - W s l k j) 0
        (uRefl s l) = 0 := by
      unfold leftOuter
      rw [if_neg (by omega), vacuumConfig_off, show (vacuumConfig c).geometry = .slab from hg]
      simp
    have hor : rightOuter (vacuumConfig c) s (mesh s) (fun k j => V s l k j - W s l k j)
        ((vacuumConfig c).Nspace - 1) = 0 := by
      unfold rightOuter
      rw [if_neg (by show ¬ (c.Nspace - 1 + 1 ≠ c.Nspace); omega), vacuumConfig_off]
      simp
    rw [streamPart_zero (vacuumConfig c) hg hM s (mesh s) hms _ (p.mus l) (uRefl s l)
      (fs s l k) k hk, hol, hor, show (vacuumConfig c).Nspace = c.Nspace from rfl] at e
    have e2 : (angularSum p.Nang p.ws fun l => V s l k 0 - W s l k 0) =
        angularSum p.Nang p.ws (fun l => V s l k 0) - angularSum p.Nang p.ws fun l => W s l k 0 := by
      unfold angularSum
      rw [← Finset.sum_sub_distrib]
      exact Finset.sum_congr rfl fun _ _ => by ring
    rw [e2, ← e]
    unfold slabConstantRhs
    rw [makeP_eq, makeP_eq]
    ring

/-- C86: maximum principle at order zero.  If the boundary values and the initial field are at most
`K`, and the source replaces at most what absorption removes from a field of value `K`, the field
never exceeds `K`. -/
theorem c86_maximum (p : RhsParams) (hp : ∀ l < p.Nang, 0 < p.ws l)
    (hw : ∑ l ∈ Finset.range p.Nang, p.ws l = 1) (hc : 0 ≤ p.c)
    (c : FluxConfig) (hg : c.geometry = .slab) (hM : c.M = 0) (a b : ℝ)
    (F : Set ℝ) (hF : F.Finite) (mesh : ℝ → MeshView)
    (hm : ∀ s ∈ Icc a b, ∀ k < c.Nspace, (mesh s).edges k < (mesh s).edges (k + 1))
    (hmc : ∀ k ≤ c.Nspace, ContinuousOn (fun s => (mesh s).edges k) (Icc a b))
    (hmd : ∀ t ∈ Ico a b \ F, ∀ k ≤ c.Nspace,
      HasDerivWithinAt (fun s => (mesh s).edges k) ((mesh t).Dedges k) (Ici t) t)
    (K : ℝ) (hK : 0 ≤ K) (hq : ∀ q ∈ c.quad, 0 ≤ q.2) (hex : QuadExact c.quad 0)
    (hbc : ∀ t ∈ Ico a b \ F, ∀ x, bcFunc c x t ≤ K)
    (S : ℝ → ℕ → ℕ → ℝ) (hS : ∀ t ∈ Ico a b \ F, ∀ k < c.Nspace, ∀ x, 1 / 2 *
      slabField 0 (S t k) ((mesh t).edges k) ((mesh t).edges (k + 1)) x ≤ (1 - p.c) * K)
    (uRefl : ℝ → ℕ → ℕ → ℝ) (fs : ℝ → ℕ → ℕ → FluxState) (V : ℝ → ℕ → ℕ → ℕ → ℝ)
    (hVc : ∀ l < p.Nang, ∀ k < c.Nspace, ContinuousOn (fun s => V s l k 0) (Icc a b))
    (hV : ∀ t ∈ Ico a b \ F, ∀ l < p.Nang, ∀ k < c.Nspace, HasDerivWithinAt (fun s => V s l k 0)
      (slabConstantRhs p c t (mesh t) (S t) (uRefl t l) (fs t l k) (V t) l k 0) (Ici t) t)
    (hinit : ∀ l < p.Nang, ∀ k < c.Nspace, ∀ x,
      slabField 0 (V a l k) ((mesh a).edges k) ((mesh a).edges (k + 1)) x ≤ K)
    (t : ℝ) (ht : t ∈ Icc a b) (l : ℕ) (hl : l < p.Nang) (k : ℕ) (hk : k < c.Nspace) (x : ℝ) :
    slabField 0 (V t l k) ((mesh t).edges k) ((mesh t).edges (k + 1)) x ≤ K := by
  have hN : 0 < c.Nspace := by omega
  have ha : a ∈ Icc a b := ⟨le_rfl, ht.1.trans ht.2⟩
  set r : ℝ → ℕ → ℝ := fun s k => Real.sqrt ((mesh s).edges (k + 1) - (mesh s).edges k) with hr
  have hrp : ∀ s ∈ Icc a b, ∀ k < c.Nspace, 0 < r s k := fun s hs k hk =>
    Real.sqrt_pos.2 (sub_pos.2 (hm s hs k hk))
  have hfield : ∀ s ∈ Icc a b, ∀ k < c.Nspace, ∀ (U : ℕ → ℝ) (x y : ℝ),
      slabField 0 U ((mesh s).edges k) ((mesh s).edges (k + 1)) x ≤ y ↔ U 0 ≤ y * r s k := by
    intro s hs k hk U x y
    rw [slabField_zero, div_le_iff₀ (hrp s hs k hk)]
  have h := zero_order_nonneg p hp hw hc c.Nspace a b F hF mesh hm
    (fun s l => K - leftOuter c s (mesh s) (V s l) 0 (uRefl s l))
    (fun s l => K - rightOuter c s (mesh s) (V s l) (c.Nspace - 1))
    (fun s hs l _ => sub_nonneg.2 ((outer_zero_bounds c hg hM s (mesh s) hN
      (hm s ⟨hs.1.1, hs.1.2.le⟩) (V s l) (uRefl s l) hq).2 K hK (hbc s hs) hex).1)
    (fun s hs l _ => sub_nonneg.2 ((outer_zero_bounds c hg hM s (mesh s) hN
      (hm s ⟨hs.1.1, hs.1.2.le⟩) (V s l) (uRefl s l) hq).2 K hK (hbc s hs) hex).2)
    (fun s _ k => (1 - p.c) * K * r s k - 1 / 2 * S s k 0) (fun s hs l _ k hk => ?_)
    (fun s l k => K * r s k - V s l k 0) (fun l hl k hk => ?_)
    (fun s hs l hl k hk => ?_) (fun l hl k hk => ?_) t ht l hl k hk
  · rw [hfield t ht k hk]
    linarith
  · have := hS s hs k hk 0
    rw [slabField_zero, ← mul_div_assoc, div_le_iff₀ (hrp s ⟨hs.1.1, hs.1.2.le⟩ k hk)] at this
    linarith
  · exact (continuousOn_const.mul (((hmc (k + 1) (by omega)).sub (hmc k (by omega))).sqrt)).sub
      (hVc l hl k hk)
  · have hs' : s ∈ Icc a b := ⟨hs.1.1, hs.1.2.le⟩
    have hrs := hrp s hs' k hk
    have hd := (((hmd s hs (k + 1) (by omega)).sub (hmd s hs k (by omega))).sqrt
      (sub_pos.2 (hm s hs' k hk)).ne').const_mul K
    refine (hd.sub (hV s hs l hl k hk)).congr_deriv ?_
    unfold slabConstantRhs
    rw [streamPart_zero c hg hM s (mesh s) (hm s hs') (V s l) (p.mus l) (uRefl s l)
      (fs s l k) k hk, makeP_eq]
    have hmean : ∀ j < c.Nspace, cellMean (mesh s).edges (fun k => K * r s k - V s l k 0) j =
        K - cellMean (mesh s).edges (fun j => V s l j 0) j := by
      intro j hj
      have := hrp s hs' j hj
      unfold cellMean
      rw [sub_div, mul_div_assoc, show r s j / Real.sqrt ((mesh s).edges (j + 1) -
        (mesh s).edges j) = 1 from div_self this.ne', mul_one]
    have hflux : ∀ j ≤ c.Nspace, zeroFlux c.Nspace (mesh s) (p.mus l)
        (K - leftOuter c s (mesh s) (V s l) 0 (uRefl s l))
        (K - rightOuter c s (mesh s) (V s l) (c.Nspace - 1)) (fun k => K * r s k - V s l k 0) j =
        (p.mus l - (mesh s).Dedges j) * K - zeroFlux c.Nspace (mesh s) (p.mus l)
        (leftOuter c s (mesh s) (V s l) 0 (uRefl s l))
        (rightOuter c s (mesh s) (V s l) (c.Nspace - 1)) (fun j => V s l j 0) j := by
      intro j hj
      unfold zeroFlux
      have e1 : (if j = 0 then K - leftOuter c s (mesh s) (V s l) 0 (uRefl s l) else
          cellMean (mesh s).edges (fun k => K * r s k - V s l k 0) (j - 1)) =
          K - if j = 0 then leftOuter c s (mesh s) (V s l) 0 (uRefl s l) else
            cellMean (mesh s).edges (fun j => V s l j 0) (j - 1) := by
        split_ifs with h
        · rfl
        · exact hmean _ (by omega)
      have e2 : (if j = c.Nspace then K - rightOuter c s (mesh s) (V s l) (c.Nspace - 1) else
          cellMean (mesh s).edges (fun k => K * r s k - V s l k 0) j) =
          K - if j = c.Nspace then rightOuter c s (mesh s) (V s l) (c.Nspace - 1) else
            cellMean (mesh s).edges (fun j => V s l j 0) j := by
        split_ifs with h
        · rfl
        · exact hmean _ (by omega)
      rw [e1, e2]
      unfold upwind
      have : max (p.mus l - (mesh s).Dedges j) 0 + min (p.mus l - (mesh s).Dedges j) 0 =
          p.mus l - (mesh s).Dedges j := by rw [max_add_min, add_zero]
      linear_combination K * this
    have e3 : (angularSum p.Nang p.ws fun l => K * r s k - V s l k 0) =
        K * r s k - angularSum p.Nang p.ws fun l => V s l k 0 := by
      unfold angularSum
      rw [Finset.sum_congr rfl fun l _ => mul_sub _ _ _, Finset.sum_sub_distrib, ← Finset.sum_mul,
        hw, one_mul]
    rw [e3]
    unfold zeroRate
    rw [hflux _ (by omega), hflux _ (by omega), hmean k hk]
    have hsq : Real.sqrt ((mesh s).edges (k + 1) - (mesh s).edges k) = r s k := rfl
    simp only [Pi.sub_apply] at *
    rw [hsq]
    field_simp
    ring
  · have := (hfield a ha k hk (V a l k) 0 K).1 (hinit l hl k hk 0)
    linarith

/-! ### Examples, and the failure at order one -/

theorem decay_field_nonneg (s : ℝ) (k : ℕ) (x : ℝ) :
    0 ≤ slabField 0 (decaySolution s 0 k) (decayMesh.edges k) (decayMesh.edges (k + 1)) x := by
  refine (field_nonneg_iff _ _ _ (decayMesh_ordered k)).2 ?_ x
  unfold decaySolution
  split_ifs
  · exact (Real.exp_pos _).le
  · exact le_rfl

example (fs : FluxState) :=
  c86_nonneg decayParams (fun _ _ => by simp [decayParams]) (by simp [decayParams])
    (by simp [decayParams]) decayConfig rfl rfl 0 3 ∅ finite_empty (fun _ => decayMesh)
    (fun _ _ k _ => decayMesh_ordered k)
    (fun q hq => by
      have : q ∈ [((0 : ℝ), (2 : ℝ))] := hq
      rw [List.mem_singleton.1 this]; norm_num)
    (fun t _ x => by simp [bcFunc, decayConfig, exampleConfig]) (fun _ _ _ => 0)
    (fun t _ k _ x => by simp [slabField]) (fun _ _ _ => 0) (fun _ _ _ => fs) decaySolution
    (fun l _ k _ => decay_continuous l k 0 _)
    (fun t _ l hl k hk => decay_solves fs t l k 0 hl hk le_rfl)
    (fun l hl k _ x => by
      rw [Nat.lt_one_iff.1 hl]
      exact decay_field_nonneg 0 k x)

example (fs : FluxState) :=
  c86_comparison decayParams (fun _ _ => by simp [decayParams]) (by simp [decayParams])
    (by simp [decayParams]) decayConfig rfl rfl 0 3 ∅ finite_empty (fun _ => decayMesh)
    (fun _ _ k _ => decayMesh_ordered k) (fun _ _ _ => 0) (fun _ _ _ => 0)
    (fun _ _ _ _ => le_rfl) (fun _ _ _ => 0) (fun _ _ _ => 0) (fun _ _ _ => fs) (fun _ _ _ => fs)
    (fun s l k i => 2 * decaySolution s l k i) decaySolution
    (fun l _ k _ => continuousOn_const.mul (decay_continuous l k 0 _))
    (fun l _ k _ => decay_continuous l k 0 _)
    (fun t _ l hl k hk => decay_twice fs t l k 0 hl hk le_rfl)
    (fun t _ l hl k hk => decay_solves fs t l k 0 hl hk le_rfl)
    (fun l _ k _ => by
      have : 0 ≤ decaySolution 0 l k 0 := by
        unfold decaySolution
        split_ifs
        · exact (Real.exp_pos _).le
        · exact le_rfl
      linarith)

example (fs : FluxState) :=
  c86_maximum decayParams (fun _ _ => by simp [decayParams]) (by simp [decayParams])
    (by simp [decayParams]) decayConfig rfl rfl 0 3 ∅ finite_empty (fun _ => decayMesh)
    (fun _ _ k _ => decayMesh_ordered k) (fun _ _ => continuousOn_const)
    (fun t _ k _ => hasDerivWithinAt_const t (Ici t) (decayMesh.edges k)) 1 zero_le_one
    (fun q hq => by
      have : q ∈ [((0 : ℝ), (2 : ℝ))] := hq
      rw [List.mem_singleton.1 this]; norm_num)
    (fun p hp => example_quad p (hp.trans zero_le_one))
    (fun t _ x => by simp [bcFunc, decayConfig, exampleConfig]) (fun _ _ _ => 0)
    (fun t _ k _ x => by simp [slabField, decayParams]; norm_num) (fun _ _ _ => 0)
    (fun _ _ _ => fs) decaySolution (fun l _ k _ => decay_continuous l k 0 _)
    (fun t _ l hl k hk => decay_solves fs t l k 0 hl hk le_rfl)
    (fun l _ k _ x => by
      rw [slabField_zero]
      unfold decaySolution decayMesh
      split_ifs <;> simp)

/-- Linear elements on two cells of length one. -/
noncomputable def orderOneConfig : FluxConfig := { exampleConfig with Nspace := 2 }

/-- Constant one in the left cell, zero in the right cell. -/
noncomputable def stepState (_ k i : ℕ) : ℝ := if k = 0 ∧ i = 0 then 1 else 0

theorem step_rhs (fs : FluxState) (t : ℝ) (V : ℕ → ℕ → ℕ → ℝ)
    (h : ∀ k < 2, ∀ i ≤ 1, V 0 k i = stepState 0 k i) (i : ℕ) (hi : i ≤ 1) :
    slabConstantRhs decayParams orderOneConfig t decayMesh (fun _ _ => 0) (fun _ => 0) fs V 0 1 i =
      slabBasis i 1 1 2 * (1 / 2) := by
  have hm : ∀ k < orderOneConfig.Nspace, decayMesh.edges k < decayMesh.edges (k + 1) :=
    fun k _ => decayMesh_ordered k
  have hz : ∀ i ≤ 1, V 0 1 i = 0 := fun i hi => by
    rw [h 1 (by norm_num) i hi]; simp [stepState]
  have hG : matVec orderOneConfig.M (cellMatrices orderOneConfig.M decayMesh 1).G (V 0 1) i = 0 := by
    refine Finset.sum_eq_zero fun j hj => ?_
    rw [hz j (Nat.lt_succ_iff.1 (Finset.mem_range.1 hj)), mul_zero]
  have hL : matVec orderOneConfig.M (cellMatrices orderOneConfig.M decayMesh 1).L (V 0 1) i = 0 := by
    refine Finset.sum_eq_zero fun j hj => ?_
    rw [hz j (Nat.lt_succ_iff.1 (Finset.mem_range.1 hj)), mul_zero]
  have hown : ∀ x, slabField 1 (V 0 1) 1 2 x = 0 := fun x =>
    Finset.sum_eq_zero fun j hj => by
      rw [hz j (Nat.lt_succ_iff.1 (Finset.mem_range.1 hj)), zero_mul]
  have hup : slabField 1 (V 0 0) 0 1 1 = 1 := by
    unfold slabField
    rw [Finset.sum_range_succ, Finset.sum_range_succ, Finset.sum_range_zero,
      h 0 (by norm_num) 0 (by norm_num), h 0 (by norm_num) 1 le_rfl]
    simp [stepState, slabBasis, legendre]
  have hlo : leftOuter orderOneConfig t decayMesh (V 0) 1 (fun _ => 0) = 1 := by
    unfold leftOuter
    rw [if_pos (by norm_num)]
    simpa [geomField, orderOneConfig, exampleConfig, decayMesh] using hup
  have hu : ∀ l r : ℝ, upwind (1 / 2) l r = 1 / 2 * l := fun l r =>
    (c08_upwind_meaning _ _ _).1 (by norm_num)
  have hP : makeP decayParams.Nang decayParams.ws (fun l => V l 1) i = 0 := by
    rw [makeP_eq]
    simp [angularSum, decayParams, hz i hi]
  unfold slabConstantRhs streamPart
  rw [hG, hL, fluxLU_eq _ _ _ _ _ _ _ _ (by decide) hm hi, hlo, hP, hz i hi]
  have e1 : decayMesh.edges (1 + 1) = 2 := by simp [decayMesh]
  have e0 : decayMesh.edges 1 = 1 := by simp [decayMesh]
  have ed : ∀ k, decayMesh.Dedges k = 0 := fun _ => rfl
  have emu : decayParams.mus 0 = 1 / 2 := rfl
  have eg : orderOneConfig.geometry = .slab := rfl
  have eM : orderOneConfig.M = 1 := rfl
  rw [e1, e0, ed, ed, emu, eg, eM, show (1 / 2 - 0 : ℝ) = 1 / 2 by norm_num, hu, hu]
  simp only [geomField, geomArea, geomBasis, hown]
  ring

/-- C86 fails for linear elements: a nonnegative initial field (one in the left cell, zero in the
right cell) has a solution, without any source, that is negative at the right end of the right cell
at some later time. -/
theorem c86_order_one_negative :
    ∃ V, SlabSolutionOn decayParams orderOneConfig (fun _ => decayMesh) (fun _ _ _ => 0) 0 1 ∅ V ∧
      (∀ l < 1, ∀ k < 2, ∀ x,
        0 ≤ slabField 1 (V 0 l k) (decayMesh.edges k) (decayMesh.edges (k + 1)) x) ∧
      ∃ t ∈ Ioo (0 : ℝ) 1, slabField 1 (V t 0 1) 1 2 2 < 0 := by
  obtain ⟨V, h1, h2⟩ := exists_continuous_piece decayParams orderOneConfig rfl 0 1 zero_le_one
    (Or.inl rfl) (fun _ => false)
    (fun t _ k => by simp [isBoundarySourceOn, orderOneConfig, exampleConfig])
    (fun _ => decayMesh) (fun _ _ k _ => decayMesh_ordered k) (fun _ _ => continuousOn_const)
    (fun _ _ => continuousOn_const) (fun _ _ _ => 0) (fun _ _ _ _ => continuousOn_const) stepState
  have hinit : ∀ k < 2, ∀ i ≤ 1, V 0 0 k i = stepState 0 k i := h2 0 one_pos
  refine ⟨V, h1, fun l hl k hk x => ?_, ?_⟩
  · rw [Nat.lt_one_iff.1 hl]
    unfold slabField
    rw [Finset.sum_range_succ, Finset.sum_range_succ, Finset.sum_range_zero,
      hinit k hk 0 zero_le_one, hinit k hk 1 le_rfl]
    simp only [stepState, slabBasis, legendre]
    split_ifs <;> simp_all
  · set fs : FluxState := ⟨0, 0, 0, 0, 0, 0, 0, 0, 0, fun _ => 0⟩
    have hd : ∀ i ≤ 1, HasDerivWithinAt (fun s => V s 0 1 i) (slabBasis i 1 1 2 * (1 / 2))
        (Ici 0) 0 := by
      intro i hi
      have := h1.2 0 ⟨⟨le_rfl, one_pos⟩, fun h => h⟩ 0 one_pos 1 one_lt_two i hi (fun _ => 0) fs
      rwa [step_rhs fs 0 (V 0) hinit i hi] at this
    have hf : HasDerivWithinAt (fun s => slabField 1 (V s 0 1) 1 2 2) (-1) (Ici 0) 0 := by
      have h := ((hd 0 zero_le_one).mul_const (slabBasis 0 2 1 2)).add
        ((hd 1 le_rfl).mul_const (slabBasis 1 2 1 2))
      refine (h.congr_of_eventuallyEq (Filter.Eventually.of_forall fun s => ?_) ?_).congr_deriv ?_
      · simp [slabField, Finset.sum_range_succ]
      · simp [slabField, Finset.sum_range_succ]
      · have h3 : Real.sqrt 3 * Real.sqrt 3 = 3 := Real.mul_self_sqrt (by norm_num)
        simp only [slabBasis, legendre, ref]
        norm_num
        nlinarith
    have h0 : slabField 1 (V 0 0 1) 1 2 2 = 0 := by
      unfold slabField
      rw [Finset.sum_range_succ, Finset.sum_range_succ, Finset.sum_range_zero,
        hinit 1 one_lt_two 0 zero_le_one, hinit 1 one_lt_two 1 le_rfl]
      simp [stepState]
    have hs := (hasDerivWithinAt_iff_tendsto_slope' (by simp)).1 (hf.Ioi_of_Ici)
    have hev := hs.eventually (gt_mem_nhds (show (-1 : ℝ) < 0 by norm_num))
    have hev2 : ∀ᶠ s in nhdsWithin (0 : ℝ) (Ioi 0), s ∈ Ioo (0 : ℝ) 1 := Ioo_mem_nhdsGT one_pos
    obtain ⟨s, hs1, hs2⟩ := (hev.and hev2).exists
    refine ⟨s, hs2, ?_⟩
    rw [slope_def_field, h0, sub_zero, sub_zero] at hs1
    by_contra hcon
    exact absurd hs1 (not_lt.2 (div_nonneg (not_lt.1 hcon) hs2.1.le))

end Verif.Props
