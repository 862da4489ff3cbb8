import Verif.Model.Build
import Verif.Props.SlabTransport

/-!
Properties C10 - C12, C14, C61: weights, collisions, energy exchange, linearity and locality of
the slab right-hand side of `rhs_class.py`.
-/

namespace Verif.Props

open Polynomial Verif.Spec Verif.Model Verif.Lemmas

/-! ### C10 -/

/-- C10: the weights used in the solve sum to one. -/
theorem c10_weights_sum_to_one (ws : List ℝ) (h : ws.sum ≠ 0) :
    (normalizedWeights ws).sum = 1 := by
  unfold normalizedWeights
  simp only [div_eq_mul_inv]
  rw [List.sum_map_mul_right, List.map_id']
  exact mul_inv_cancel₀ h

/-- C10: length is kept, and for a positive raw sum, signs and ratios of the raw weights. -/
theorem c10_weights_keep_shape (ws : List ℝ) (h : 0 < ws.sum) :
    (normalizedWeights ws).length = ws.length ∧
    ∀ i (hi : i < ws.length) (hi' : i < (normalizedWeights ws).length),
      (0 < (normalizedWeights ws)[i] ↔ 0 < ws[i]) ∧
      (0 ≤ (normalizedWeights ws)[i] ↔ 0 ≤ ws[i]) ∧
      ∀ j (hj : j < ws.length) (hj' : j < (normalizedWeights ws).length),
        (normalizedWeights ws)[i] * ws[j] = (normalizedWeights ws)[j] * ws[i] := by
  refine ⟨by simp [normalizedWeights], fun i hi hi' => ?_⟩
  simp only [normalizedWeights, List.getElem_map]
  refine ⟨by rw [div_pos_iff_of_pos_right h], ?_, fun j hj hj' => by ring⟩
  constructor
  · intro hq; by_contra hn; push Not at hn
    exact absurd hq (not_le.2 (div_neg_of_neg_of_pos hn h))
  · intro hq; exact div_nonneg hq h.le

example : (normalizedWeights [1, 3]).sum = 1 := c10_weights_sum_to_one _ (by norm_num)
example := c10_weights_keep_shape [1, 0, 3] (by norm_num)

/-! ### C11 -/

/-- The angular sum that defines the scalar flux, with weights `ws` (specification). -/
noncomputable def angularSum (n : ℕ) (ws f : ℕ → ℝ) : ℝ := ∑ l ∈ Finset.range n, ws l * f l

theorem angularSum_add (n : ℕ) (ws f g : ℕ → ℝ) :
    angularSum n ws (fun l => f l + g l) = angularSum n ws f + angularSum n ws g := by
  unfold angularSum; rw [← Finset.sum_add_distrib]; exact Finset.sum_congr rfl fun _ _ => by ring

theorem angularSum_const (n : ℕ) (ws : ℕ → ℝ) (a : ℝ) (h : ∑ l ∈ Finset.range n, ws l = 1) :
    angularSum n ws (fun _ => a) = a := by
  unfold angularSum; rw [← Finset.sum_mul, h, one_mul]

theorem angularSum_mul (n : ℕ) (ws f : ℕ → ℝ) (a : ℝ) :
    angularSum n ws (fun l => a * f l) = a * angularSum n ws f := by
  unfold angularSum; rw [Finset.mul_sum]; exact Finset.sum_congr rfl fun _ _ => by ring

theorem makeP_eq (n : ℕ) (ws : ℕ → ℝ) (V : ℕ → ℕ → ℝ) (i : ℕ) :
    makeP n ws V i = angularSum n ws fun l => V l i := by
  unfold makeP angularSum; exact Finset.sum_congr rfl fun _ _ => by ring

/-- C11: what the full slab right-hand side adds to streaming changes the scalar flux at the rate
`(c - 1) φ + S / 2`, for every state. -/
theorem c11_scattering_balance (p : RhsParams) (hw : ∑ l ∈ Finset.range p.Nang, p.ws l = 1)
    (c : FluxConfig) (t : ℝ) (m : MeshView) (S : ℕ → ℕ → ℝ) (uRefl : ℕ → ℝ) (fs : FluxState)
    (V : ℕ → ℕ → ℕ → ℝ) (space i : ℕ) :
    angularSum p.Nang p.ws (fun l => slabConstantRhs p c t m S uRefl fs V l space i
        - streamPart c t m (V l) space (p.mus l) uRefl fs i) =
      (p.c - 1) * angularSum p.Nang p.ws (fun l => V l space i) + 1 / 2 * S space i := by
  have e : ∀ l, slabConstantRhs p c t m S uRefl fs V l space i
        - streamPart c t m (V l) space (p.mus l) uRefl fs i =
      -1 * V l space i + (p.c * angularSum p.Nang p.ws (fun l => V l space i)
        + 1 / 2 * S space i) := by
    intro l; unfold slabConstantRhs; rw [makeP_eq]; ring
  simp only [e]
  rw [angularSum_add, angularSum_mul, angularSum_const _ _ _ hw]
  ring

/-- C11, uncollided treatment: the source is the scattered uncollided flux, with the same ratio. -/
theorem c11_scattering_balance_uncollided (p : RhsParams)
    (hw : ∑ l ∈ Finset.range p.Nang, p.ws l = 1)
    (c : FluxConfig) (t : ℝ) (m : MeshView) (S : ℕ → ℕ → ℝ) (uRefl : ℕ → ℝ) (fs : FluxState)
    (V : ℕ → ℕ → ℕ → ℝ) (space i : ℕ) :
    angularSum p.Nang p.ws (fun l => slabUncollidedRhs p c t m S uRefl fs V l space i
        - streamPart c t m (V l) space (p.mus l) uRefl fs i) =
      (p.c - 1) * angularSum p.Nang p.ws (fun l => V l space i) + p.c * (1 / 2 * S space i) := by
  have e : ∀ l, slabUncollidedRhs p c t m S uRefl fs V l space i
        - streamPart c t m (V l) space (p.mus l) uRefl fs i =
      -1 * V l space i + (p.c * (angularSum p.Nang p.ws (fun l => V l space i)
        + 1 / 2 * S space i)) := by
    intro l; unfold slabUncollidedRhs; rw [makeP_eq]; ring
  simp only [e]
  rw [angularSum_add, angularSum_mul, angularSum_const _ _ _ hw]
  ring

/-- C11 in the words of the property: no source, ratio one: no change; ratio below one and
positive scalar flux: loss. -/
theorem c11_sign (p : RhsParams) (hw : ∑ l ∈ Finset.range p.Nang, p.ws l = 1)
    (c : FluxConfig) (t : ℝ) (m : MeshView) (uRefl : ℕ → ℝ) (fs : FluxState)
    (V : ℕ → ℕ → ℕ → ℝ) (space i : ℕ) :
    (p.c = 1 → angularSum p.Nang p.ws (fun l => slabConstantRhs p c t m (fun _ _ => 0) uRefl fs V
        l space i - streamPart c t m (V l) space (p.mus l) uRefl fs i) = 0) ∧
    (p.c < 1 → 0 < angularSum p.Nang p.ws (fun l => V l space i) →
      angularSum p.Nang p.ws (fun l => slabConstantRhs p c t m (fun _ _ => 0) uRefl fs V
        l space i - streamPart c t m (V l) space (p.mus l) uRefl fs i) < 0) := by
  rw [c11_scattering_balance p hw]
  constructor
  · intro h; rw [h]; ring
  · intro h h'
    have : (p.c - 1) * angularSum p.Nang p.ws (fun l => V l space i) < 0 :=
      mul_neg_of_neg_of_pos (by linarith) h'
    linarith

/-- Two directions with equal weights. -/
noncomputable def exampleParams : RhsParams where
  Nang := 2
  mus := fun l => if l = 0 then -1 / 2 else 1 / 2
  ws := fun _ => 1 / 2
  c := 1 / 3
  ca := 2 / 3
  l := 2

theorem exampleParams_weights : ∑ l ∈ Finset.range exampleParams.Nang, exampleParams.ws l = 1 := by
  simp [exampleParams]

example (fs : FluxState) (V : ℕ → ℕ → ℕ → ℝ) (S : ℕ → ℕ → ℝ) :=
  c11_scattering_balance exampleParams exampleParams_weights exampleConfig 0 (exampleMesh 0) S
    (fun _ => 0) fs V 1 1

example (fs : FluxState) :
    angularSum 2 exampleParams.ws (fun l => slabConstantRhs exampleParams exampleConfig 0
      (exampleMesh 0) (fun _ _ => 0) (fun _ => 0) fs (fun _ _ _ => 7) l 1 1 -
        streamPart exampleConfig 0 (exampleMesh 0) (fun _ _ => 7) 1 (exampleParams.mus l)
          (fun _ => 0) fs 1) < 0 :=
  (c11_sign exampleParams exampleParams_weights exampleConfig 0 (exampleMesh 0) (fun _ => 0) fs
    (fun _ _ _ => 7) 1 1).2 (by simp only [exampleParams]; norm_num)
    (by rw [angularSum_const _ _ _ exampleParams_weights]; norm_num)

/-! ### C12 -/

/-- C12: the energy the radiation gains from exchange (twice the weighted angular sum) plus the
energy the material gains is what the external source emits, `S / l`. -/
theorem c12_exchange_balance (p : RhsParams) (hw : ∑ l ∈ Finset.range p.Nang, p.ws l = 1)
    (hc : p.c + p.ca = 1) (c : FluxConfig) (t : ℝ) (m : MeshView) (S H : ℕ → ℕ → ℝ)
    (uRefl : ℕ → ℝ) (fs : FluxState) (V : ℕ → ℕ → ℕ → ℝ) (space i : ℕ) :
    2 * angularSum p.Nang p.ws (fun l => transferRhs p c t m S H uRefl fs V l space i
        - streamPart c t m (V l) space (p.mus l) uRefl fs i)
      + (energyRhs p c t m H uRefl fs V space i
        - streamPart c t m (V p.Nang) space 0 uRefl fs i) = S space i / p.l := by
  have e : ∀ l, transferRhs p c t m S H uRefl fs V l space i
        - streamPart c t m (V l) space (p.mus l) uRefl fs i =
      -(1 / p.l) * V l space i + (p.c * angularSum p.Nang p.ws (fun l => V l space i) / p.l
        + S space i * (1 / 2) / p.l + p.ca * (1 / 2) * H space i / p.l) := by
    intro l; unfold transferRhs; rw [makeP_eq]; ring
  simp only [e]
  rw [angularSum_add, angularSum_mul, angularSum_const _ _ _ hw]
  unfold energyRhs streamPart
  rw [makeP_eq]
  have hca : p.ca = 1 - p.c := by linarith
  rw [hca]
  ring

/-- C12 with uncollided treatment: the balance is again `S / l`, where `S` now is the
uncollided scalar flux that is absorbed and scattered. -/
theorem c12_exchange_balance_uncollided (p : RhsParams)
    (hw : ∑ l ∈ Finset.range p.Nang, p.ws l = 1)
    (hc : p.c + p.ca = 1) (c : FluxConfig) (t : ℝ) (m : MeshView) (S H : ℕ → ℕ → ℝ)
    (uRefl : ℕ → ℝ) (fs : FluxState) (V : ℕ → ℕ → ℕ → ℝ) (space i : ℕ) :
    2 * angularSum p.Nang p.ws (fun l => transferUncollidedRhs p c t m S H uRefl fs V l space i
        - streamPart c t m (V l) space (p.mus l) uRefl fs i)
      + (energyUncollidedRhs p c t m S H uRefl fs V space i
        - streamPart c t m (V p.Nang) space 0 uRefl fs i) = S space i / p.l := by
  have e : ∀ l, transferUncollidedRhs p c t m S H uRefl fs V l space i
        - streamPart c t m (V l) space (p.mus l) uRefl fs i =
      -(1 / p.l) * V l space i + (p.c * (angularSum p.Nang p.ws (fun l => V l space i)
        + S space i * (1 / 2)) / p.l + p.ca * (1 / 2) * H space i / p.l) := by
    intro l; unfold transferUncollidedRhs; rw [makeP_eq]; ring
  simp only [e]
  rw [angularSum_add, angularSum_mul, angularSum_const _ _ _ hw]
  unfold energyUncollidedRhs energyRhs streamPart
  rw [makeP_eq]
  have hca : p.ca = 1 - p.c := by linarith
  rw [hca]
  ring

example (fs : FluxState) (V : ℕ → ℕ → ℕ → ℝ) (H : ℕ → ℕ → ℝ) :
    2 * angularSum 2 exampleParams.ws (fun l => transferRhs exampleParams exampleConfig 0
        (exampleMesh 0) (fun _ _ => 0) H (fun _ => 0) fs V l 1 1
        - streamPart exampleConfig 0 (exampleMesh 0) (V l) 1 (exampleParams.mus l)
          (fun _ => 0) fs 1)
      + (energyRhs exampleParams exampleConfig 0 (exampleMesh 0) H (fun _ => 0) fs V 1 1
        - streamPart exampleConfig 0 (exampleMesh 0) (V 2) 1 0 (fun _ => 0) fs 1) = 0 := by
  have := c12_exchange_balance exampleParams exampleParams_weights
    (by simp only [exampleParams]; norm_num) exampleConfig 0 (exampleMesh 0) (fun _ _ => 0) H
    (fun _ => 0) fs V 1 1
  rw [zero_div] at this
  exact this

/-! ### C61: total energy of the coupled problem -/

/-- C61: in the coupled slab problem on a moving mesh with vacuum boundaries and no external
source, the total of material energy and radiation energy changes only by what the radiation and
the moving outer edges carry across the two ends. -/
theorem c61_total_energy_balance (p : RhsParams) (hw : ∑ l ∈ Finset.range p.Nang, p.ws l = 1)
    (hc : p.c + p.ca = 1) (c : FluxConfig) (hg : c.geometry = .slab) (t : ℝ)
    (hN : 2 ≤ c.Nspace) (hl : ¬ BoundaryActive c true t) (hr : ¬ BoundaryActive c false t)
    (mesh : ℝ → MeshView) (V : ℝ → ℕ → ℕ → ℕ → ℝ) (H : ℕ → ℕ → ℝ) (uRefl : ℕ → ℝ)
    (fs : FluxState)
    (hm : ∀ k < c.Nspace, (mesh t).edges k < (mesh t).edges (k + 1))
    (hedge : ∀ k ≤ c.Nspace, HasDerivAt (fun s => (mesh s).edges k) ((mesh t).Dedges k) t)
    (hrad : ∀ l < p.Nang, ∀ k < c.Nspace, HasDerivAt (fun s => V s l k 0)
      (transferRhs p c t (mesh t) (fun _ _ => 0) H uRefl fs (V t) l k 0) t)
    (hmat : ∀ k < c.Nspace, HasDerivAt (fun s => V s p.Nang k 0)
      (energyRhs p c t (mesh t) H uRefl fs (V t) k 0) t) :
    HasDerivAt
      (fun s => ∑ k ∈ Finset.range c.Nspace,
        (2 * angularSum p.Nang p.ws (fun l =>
          slabContent c.M (V s l k) ((mesh s).edges k) ((mesh s).edges (k + 1)))
        + slabContent c.M (V s p.Nang k) ((mesh s).edges k) ((mesh s).edges (k + 1))))
      (2 * angularSum p.Nang p.ws (fun l =>
          upwind (p.mus l - (mesh t).Dedges 0) 0
            (slabField c.M (V t l 0) ((mesh t).edges 0) ((mesh t).edges 1) ((mesh t).edges 0))
          - upwind (p.mus l - (mesh t).Dedges c.Nspace)
            (slabField c.M (V t l (c.Nspace - 1)) ((mesh t).edges (c.Nspace - 1))
              ((mesh t).edges c.Nspace) ((mesh t).edges c.Nspace)) 0)
        + (upwind (0 - (mesh t).Dedges 0) 0
            (slabField c.M (V t p.Nang 0) ((mesh t).edges 0) ((mesh t).edges 1)
              ((mesh t).edges 0))
          - upwind (0 - (mesh t).Dedges c.Nspace)
            (slabField c.M (V t p.Nang (c.Nspace - 1)) ((mesh t).edges (c.Nspace - 1))
              ((mesh t).edges c.Nspace) ((mesh t).edges c.Nspace)) 0)) t := by
  rw [← isBoundarySourceOn_left] at hl
  rw [← isBoundarySourceOn_right c t hN] at hr
  have e1 : ∀ u, leftOuter c t (mesh t) u 0 uRefl = 0 := by
    intro u; unfold leftOuter
    rw [if_neg (by omega), if_neg hl, if_neg (by rw [hg]; decide)]
  have e2 : ∀ u, rightOuter c t (mesh t) u (c.Nspace - 1) = 0 := by
    intro u; unfold rightOuter
    rw [if_neg (by omega), if_neg hr]
  have hsum : ∀ u mul, _ = _ := fun u mul => balance_sum c hg t (mesh t) (by omega) u mul uRefl
  simp only [inflowLeft, outflowRight, e1, e2] at hsum
  simp only [← hsum]
  unfold angularSum
  rw [Finset.mul_sum]
  simp only [Finset.mul_sum]
  rw [Finset.sum_comm, ← Finset.sum_add_distrib]
  refine HasDerivAt.fun_sum fun k hk => ?_
  have hk' : k < c.Nspace := by simpa using hk
  have hpos : 0 < (mesh t).edges (k + 1) - (mesh t).edges k := by linarith [hm k hk']
  have h1 := ((hedge (k + 1) (by omega)).sub (hedge k (by omega))).sqrt hpos.ne'
  have hlt : ∀ᶠ s in nhds t, (mesh s).edges k < (mesh s).edges (k + 1) :=
    (hedge k (by omega)).continuousAt.eventually_lt (hedge (k + 1) (by omega)).continuousAt
      (hm k hk')
  have hA : HasDerivAt (fun s => ∑ l ∈ Finset.range p.Nang, 2 * (p.ws l *
      (Real.sqrt ((mesh s).edges (k + 1) - (mesh s).edges k) * V s l k 0))) _ t :=
    HasDerivAt.fun_sum fun l hl =>
      ((h1.mul (hrad l (by simpa using hl) k hk')).const_mul (p.ws l)).const_mul 2
  have h2 := hA.add (h1.mul (hmat k hk'))
  refine (h2.congr_of_eventuallyEq (hlt.mono fun s hs => ?_)).congr_deriv ?_
  · simp only [slabContent_eq _ _ hs]
    rfl
  · have hx := c12_exchange_balance p hw hc c t (mesh t) (fun _ _ => 0) H uRefl fs (V t) k 0
    unfold angularSum at hx
    rw [Finset.mul_sum, zero_div] at hx
    simp only [← cell_balance c hg t (mesh t) hm _ k hk' _ uRefl fs, Pi.sub_apply]
    set q := Real.sqrt ((mesh t).edges (k + 1) - (mesh t).edges k) with hq
    have hx2 : ∑ l ∈ Finset.range p.Nang, q * (2 * (p.ws l *
        (transferRhs p c t (mesh t) (fun _ _ => 0) H uRefl fs (V t) l k 0 -
          streamPart c t (mesh t) (V t l) k (p.mus l) uRefl fs 0))) =
        - (q * (energyRhs p c t (mesh t) H uRefl fs (V t) k 0
          - streamPart c t (mesh t) (V t p.Nang) k 0 uRefl fs 0)) := by
      rw [← Finset.mul_sum]
      linear_combination q * hx
    have hsplit : ∑ l ∈ Finset.range p.Nang, 2 * (p.ws l *
        (((mesh t).Dedges (k + 1) - (mesh t).Dedges k) / (2 * q) * V t l k 0 +
          q * transferRhs p c t (mesh t) (fun _ _ => 0) H uRefl fs (V t) l k 0)) =
        ∑ l ∈ Finset.range p.Nang, q * (2 * (p.ws l *
        (transferRhs p c t (mesh t) (fun _ _ => 0) H uRefl fs (V t) l k 0 -
          streamPart c t (mesh t) (V t l) k (p.mus l) uRefl fs 0))) +
        ∑ l ∈ Finset.range p.Nang, 2 * (p.ws l *
          (q * streamPart c t (mesh t) (V t l) k (p.mus l) uRefl fs 0 +
          ((mesh t).Dedges (k + 1) - (mesh t).Dedges k) / (2 * q) * V t l k 0)) := by
      rw [← Finset.sum_add_distrib]
      exact Finset.sum_congr rfl fun l _ => by ring
    rw [hsplit, hx2]
    ring

/-! ### C14 -/

theorem slabField_linear (M : ℕ) (U W : ℕ → ℝ) (r s a b x : ℝ) :
    slabField M (fun j => r * U j + s * W j) a b x =
      r * slabField M U a b x + s * slabField M W a b x := by
  unfold slabField
  rw [Finset.mul_sum, Finset.mul_sum, ← Finset.sum_add_distrib]
  exact Finset.sum_congr rfl fun _ _ => by ring

theorem slabField_congr {M : ℕ} {U W : ℕ → ℝ} (h : ∀ j ≤ M, U j = W j) (a b x : ℝ) :
    slabField M U a b x = slabField M W a b x :=
  Finset.sum_congr rfl fun j hj => by rw [h j (by simpa [Nat.lt_succ_iff] using hj)]

theorem upwind_linear (v l l' r r' a b : ℝ) :
    upwind v (a * l + b * l') (a * r + b * r') = a * upwind v l r + b * upwind v l' r' := by
  unfold upwind; ring

theorem matVec_linear (M : ℕ) (A : ℕ → ℕ → ℝ) (U W : ℕ → ℝ) (r s : ℝ) (i : ℕ) :
    matVec M A (fun j => r * U j + s * W j) i = r * matVec M A U i + s * matVec M A W i := by
  unfold matVec
  rw [Finset.mul_sum, Finset.mul_sum, ← Finset.sum_add_distrib]
  exact Finset.sum_congr rfl fun _ _ => by ring

/-- C14, linearity: without source and with vacuum boundaries the right-hand side of a linear
combination of states is the linear combination of the right-hand sides, and no history of the
shared flux object matters. -/
theorem c14_rhs_linear (p : RhsParams) (c : FluxConfig) (hg : c.geometry = .slab) (t : ℝ)
    (hN : 2 ≤ c.Nspace) (hl : ¬ BoundaryActive c true t) (hr : ¬ BoundaryActive c false t)
    (m : MeshView) (hm : ∀ k < c.Nspace, m.edges k < m.edges (k + 1)) (uRefl : ℕ → ℝ)
    (fs fs1 fs2 : FluxState) (V W : ℕ → ℕ → ℕ → ℝ) (a b : ℝ) (angle space i : ℕ)
    (hs : space < c.Nspace) (hi : i ≤ c.M) :
    slabConstantRhs p c t m (fun _ _ => 0) uRefl fs
        (fun l k j => a * V l k j + b * W l k j) angle space i =
      a * slabConstantRhs p c t m (fun _ _ => 0) uRefl fs1 V angle space i +
      b * slabConstantRhs p c t m (fun _ _ => 0) uRefl fs2 W angle space i := by
  rw [← isBoundarySourceOn_left] at hl
  rw [← isBoundarySourceOn_right c t hN] at hr
  have e1 : ∀ u : ℕ → ℕ → ℝ, leftOuter c t m u space uRefl = if space = 0 then 0 else
      slabField c.M (u (space - 1)) (m.edges (space - 1)) (m.edges space) (m.edges space) := by
    intro u
    unfold leftOuter
    by_cases h0 : space = 0
    · subst h0
      rw [if_neg (by omega), if_neg hl, if_neg (by rw [hg]; decide), if_pos rfl]
    · rw [if_pos h0, if_neg h0, hg]; rfl
  have e2 : ∀ u : ℕ → ℕ → ℝ, rightOuter c t m u space = if space + 1 = c.Nspace then 0 else
      slabField c.M (u (space + 1)) (m.edges (space + 1)) (m.edges (space + 2))
        (m.edges (space + 1)) := by
    intro u
    unfold rightOuter
    by_cases h0 : space + 1 = c.Nspace
    · have : space = c.Nspace - 1 := by omega
      rw [if_neg (by omega), if_neg (by rw [this]; exact hr), if_pos h0]
    · rw [if_pos h0, if_neg h0, hg]; rfl
  have hP : makeP p.Nang p.ws (fun l => (fun l k j => a * V l k j + b * W l k j) l space) i =
      a * makeP p.Nang p.ws (fun l => V l space) i +
        b * makeP p.Nang p.ws (fun l => W l space) i := by
    unfold makeP
    rw [Finset.mul_sum, Finset.mul_sum, ← Finset.sum_add_distrib]
    exact Finset.sum_congr rfl fun _ _ => by ring
  unfold slabConstantRhs streamPart
  rw [hP, fluxLU_eq c t m _ space _ uRefl fs hs hm hi, fluxLU_eq c t m _ space _ uRefl fs1 hs hm hi,
    fluxLU_eq c t m _ space _ uRefl fs2 hs hm hi, e1, e1, e1, e2, e2, e2, hg]
  simp only [geomArea, geomBasis, geomField, slabField_linear, matVec_linear]
  unfold upwind
  split_ifs <;> ring

/-- C14, locality: the rate in a cell depends only on the state in that cell and its two
neighbours (for any boundary data and source). -/
theorem c14_rhs_local (p : RhsParams) (c : FluxConfig) (hg : c.geometry = .slab) (t : ℝ)
    (m : MeshView) (hm : ∀ k < c.Nspace, m.edges k < m.edges (k + 1)) (S : ℕ → ℕ → ℝ)
    (uRefl : ℕ → ℝ) (fs fs' : FluxState) (V W : ℕ → ℕ → ℕ → ℝ) (angle space i : ℕ)
    (ha : angle < p.Nang) (hs : space < c.Nspace) (hi : i ≤ c.M)
    (hVW : ∀ l < p.Nang, ∀ k < c.Nspace, k ≤ space + 1 → space ≤ k + 1 → ∀ j ≤ c.M,
      V l k j = W l k j) :
    slabConstantRhs p c t m S uRefl fs V angle space i =
      slabConstantRhs p c t m S uRefl fs' W angle space i := by
  have hP : makeP p.Nang p.ws (fun l => V l space) i =
      makeP p.Nang p.ws (fun l => W l space) i :=
    Finset.sum_congr rfl fun l hl => by
      show V l space i * p.ws l = W l space i * p.ws l
      rw [hVW l (by simpa using hl) space hs (by omega) (by omega) i hi]
  have hcell : ∀ j ≤ c.M, V angle space j = W angle space j :=
    hVW angle ha space hs (by omega) (by omega)
  have hMat : ∀ A : ℕ → ℕ → ℝ, matVec c.M A (V angle space) i = matVec c.M A (W angle space) i :=
    fun A => Finset.sum_congr rfl fun j hj => by rw [hcell j (by simpa [Nat.lt_succ_iff] using hj)]
  have e1 : leftOuter c t m (V angle) space uRefl = leftOuter c t m (W angle) space uRefl := by
    unfold leftOuter
    rw [hg]
    split_ifs with h0
    · exact slabField_congr (hVW angle ha (space - 1) (by omega) (by omega) (by omega)) _ _ _
    all_goals rfl
  have e2 : rightOuter c t m (V angle) space = rightOuter c t m (W angle) space := by
    unfold rightOuter
    rw [hg]
    split_ifs with h0
    · exact slabField_congr (hVW angle ha (space + 1) (by omega) (by omega) (by omega)) _ _ _
    · rfl
    · rfl
  unfold slabConstantRhs streamPart
  rw [hP, hMat, hMat, hcell i hi, fluxLU_eq c t m _ space _ uRefl fs hs hm hi,
    fluxLU_eq c t m _ space _ uRefl fs' hs hm hi, e1, e2, hg]
  simp only [geomField, slabField_congr hcell]

example (fs : FluxState) (V W : ℕ → ℕ → ℕ → ℝ) :=
  c14_rhs_linear exampleParams exampleConfig rfl 0 (by decide) (example_not_active true)
    (example_not_active false) (exampleMesh 0) (fun k _ => exampleMesh_ordered k) (fun _ => 0)
    fs fs fs V W 2 (-3) 0 0 1 (by decide) (by decide)

/-- Two states that differ only in cell 2 give the same rate in cell 0. -/
example (fs : FluxState) (S : ℕ → ℕ → ℝ) (V : ℕ → ℕ → ℕ → ℝ) :=
  c14_rhs_local exampleParams exampleConfig rfl 0 (exampleMesh 0)
    (fun k _ => exampleMesh_ordered k) S (fun _ => 0) fs fs V
    (fun l k j => if k = 2 then 9 else V l k j) 0 0 1 (by decide) (by decide) (by decide)
    (fun l _ k _ h1 _ j _ => by rw [if_neg (by omega)])

end Verif.Props
