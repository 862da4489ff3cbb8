import Verif.Lemmas.Flux
import Verif.Lemmas.Advection
import Verif.Model.SlabRhs

/-! The streaming part of the slab scheme depends continuously on edges, velocities, time and
coefficients. -/

namespace Verif.Lemmas

open Polynomial Verif.Spec Verif.Model Set

variable {Y : Type*} [TopologicalSpace Y] {s : Set Y}

theorem continuousOn_slabBasis {x a b : Y → ℝ} (hx : ContinuousOn x s) (ha : ContinuousOn a s)
    (hb : ContinuousOn b s) (h : ∀ q ∈ s, a q < b q) (n : ℕ) :
    ContinuousOn (fun q => slabBasis n (x q) (a q) (b q)) s := by
  have hd : ∀ q ∈ s, b q - a q ≠ 0 := fun q hq => (sub_pos.2 (h q hq)).ne'
  unfold slabBasis ref
  refine ContinuousOn.mul (ContinuousOn.sqrt (continuousOn_const.div (hb.sub ha) hd)) ?_
  exact (legendre n).continuous.comp_continuousOn
    ((((continuousOn_const.mul hx).sub ha).sub hb).div (hb.sub ha) hd)

theorem continuousOn_slabField {U : ℕ → Y → ℝ} {x a b : Y → ℝ} (M : ℕ)
    (hU : ∀ j ≤ M, ContinuousOn (U j) s) (hx : ContinuousOn x s) (ha : ContinuousOn a s)
    (hb : ContinuousOn b s) (h : ∀ q ∈ s, a q < b q) :
    ContinuousOn (fun q => slabField M (fun j => U j q) (a q) (b q) (x q)) s := by
  unfold slabField
  exact continuousOn_finsetSum _ fun j hj =>
    (hU j (Nat.lt_succ_iff.1 (Finset.mem_range.1 hj))).mul (continuousOn_slabBasis hx ha hb h j)

theorem continuousOn_upwind {v l r : Y → ℝ} (hv : ContinuousOn v s) (hl : ContinuousOn l s)
    (hr : ContinuousOn r s) : ContinuousOn (fun q => upwind (v q) (l q) (r q)) s := by
  unfold upwind
  exact ((ContinuousOn.sup hv continuousOn_const).mul hl).add ((ContinuousOn.inf hv continuousOn_const).mul hr)

theorem continuousOn_bcFunc (c : FluxConfig) {x t : Y → ℝ} (hx : ContinuousOn x s)
    (ht : ContinuousOn t s) (h : c.mms = false ∨ ∀ q ∈ s, t q ≠ -1) :
    ContinuousOn (fun q => bcFunc c (x q) (t q)) s := by
  unfold bcFunc
  split_ifs with h1 h2 h3
  · have h' : ∀ q ∈ s, t q + 1 ≠ 0 := by
      intro q hq e
      rcases h with h | h
      · rw [h] at h1; exact absurd h1 (by simp)
      · exact h q hq (by linarith)
    exact ((Real.continuous_exp.comp_continuousOn ((hx.neg.mul hx).div_const 2)).div
      (ht.add continuousOn_const) h').div_const 2
  · exact continuousOn_const
  · exact continuousOn_const
  · exact hx.mul continuousOn_const

theorem continuousOn_listSum {α : Type*} (l : List α) (f : α → Y → ℝ)
    (h : ∀ a ∈ l, ContinuousOn (f a) s) : ContinuousOn (fun q => (l.map fun a => f a q).sum) s := by
  induction l with
  | nil => simpa using continuousOn_const
  | cons a l ih =>
    simp only [List.map_cons, List.sum_cons]
    exact (h a (by simp)).add (ih fun b hb => h b (by simp [hb]))

theorem continuousOn_fluxIntegrateQuad (c : FluxConfig) {t a b : Y → ℝ} (ht : ContinuousOn t s)
    (ha : ContinuousOn a s) (hb : ContinuousOn b s) (h : ∀ q ∈ s, a q < b q)
    (hmms : c.mms = false ∨ ∀ q ∈ s, t q ≠ -1) (j : ℕ) :
    ContinuousOn (fun q => fluxIntegrateQuad c (t q) (a q) (b q) j) s := by
  unfold fluxIntegrateQuad
  refine ((hb.sub ha).div_const 2).mul ?_
  refine continuousOn_listSum c.quad (fun w q => w.2 * bcFunc c ((b q - a q) / 2 * w.1 +
    (a q + b q) / 2) (t q) * normPn j ((b q - a q) / 2 * w.1 + (a q + b q) / 2) (a q) (b q))
    fun w _ => ?_
  have harg : ContinuousOn (fun q => (b q - a q) / 2 * w.1 + (a q + b q) / 2) s :=
    (((hb.sub ha).div_const 2).mul continuousOn_const).add ((ha.add hb).div_const 2)
  refine (continuousOn_const.mul (continuousOn_bcFunc c harg ht hmms)).mul ?_
  exact (continuousOn_slabBasis harg ha hb h j).congr fun q hq =>
    normPn_eq_slabBasis j _ (h q hq)

theorem continuousOn_I_refPoly {U : ℕ → Y → ℝ} {h : Y → ℝ} (M : ℕ) (p : ℝ[X])
    (hU : ∀ j ≤ M, ContinuousOn (U j) s) (hh : ContinuousOn h s) (h0 : ∀ q ∈ s, h q ≠ 0) :
    ContinuousOn (fun q => I (p * refPoly M (fun j => U j q) (h q))) s := by
  simp only [I_mul_refPoly]
  exact continuousOn_finsetSum _ fun j hj =>
    ((hU j (Nat.lt_succ_iff.1 (Finset.mem_range.1 hj))).mul
      (ContinuousOn.sqrt (continuousOn_const.div hh h0))).mul continuousOn_const

/-- Continuity of the streaming part while no boundary source is switched. -/
theorem continuousOn_streamPart (c : FluxConfig) (hg : c.geometry = .slab) {t : Y → ℝ}
    (ht : ContinuousOn t s) (hmms : c.mms = false ∨ ∀ q ∈ s, t q ≠ -1)
    (sw : ℕ → Bool) (hsw : ∀ q ∈ s, ∀ k, isBoundarySourceOn c k (t q) = sw k)
    {m : Y → MeshView} (hm : ∀ q ∈ s, ∀ k < c.Nspace, (m q).edges k < (m q).edges (k + 1))
    (he : ∀ k ≤ c.Nspace, ContinuousOn (fun q => (m q).edges k) s)
    (hv : ∀ k ≤ c.Nspace, ContinuousOn (fun q => (m q).Dedges k) s)
    {u : Y → ℕ → ℕ → ℝ}
    (hu : ∀ k < c.Nspace, ∀ j ≤ c.M, ContinuousOn (fun q => u q k j) s)
    (mul : ℝ) (uRefl : Y → ℕ → ℝ) (fs : Y → FluxState) {k i : ℕ} (hk : k < c.Nspace)
    (hi : i ≤ c.M) :
    ContinuousOn (fun q => streamPart c (t q) (m q) (u q) k mul (uRefl q) (fs q) i) s := by
  have e0 := he k hk.le
  have e1 := he (k + 1) hk
  have hd : ∀ q ∈ s, (m q).edges (k + 1) - (m q).edges k ≠ 0 :=
    fun q hq => (sub_pos.2 (hm q hq k hk)).ne'
  have hsq : ∀ i : ℕ, ContinuousOn (fun q => Real.sqrt ((2 * (i : ℝ) + 1) /
      ((m q).edges (k + 1) - (m q).edges k))) s := fun i =>
    ContinuousOn.sqrt (continuousOn_const.div (e1.sub e0) hd)
  have hleft : ContinuousOn (fun q => leftOuter c (t q) (m q) (u q) k (uRefl q)) s := by
    unfold leftOuter
    by_cases h0 : k ≠ 0
    · simp only [if_pos h0, hg, geomField]
      refine continuousOn_slabField (U := fun j q => u q (k - 1) j) c.M
        (fun j hj => hu (k - 1) (by omega) j hj) e0 (he (k - 1) (by omega)) e0 fun q hq => ?_
      have := hm q hq (k - 1) (by omega)
      rwa [Nat.sub_add_cancel (by omega)] at this
    · simp only [if_neg h0, hg]
      have h00 := he 0 (by omega)
      cases hs0 : sw k
      · exact continuousOn_const.congr fun q hq => by
          show (if isBoundarySourceOn c k (t q) = true then _ else _) = (0 : ℝ)
          rw [hsw q hq, hs0]; simp
      · refine ContinuousOn.congr (f := fun q => ∑ j ∈ Finset.range (c.M + 1),
          fluxIntegrateQuad c (t q) ((m q).edges 0 - ((m q).edges (k + 1) - (m q).edges k))
            ((m q).edges k) j * slabBasis j ((m q).edges (k + 1)) ((m q).edges k)
              ((m q).edges (k + 1))) ?_ fun q hq => by
            show (if isBoundarySourceOn c k (t q) = true then _ else _) = _
            rw [hsw q hq, hs0, if_pos rfl]; rfl
        refine continuousOn_finsetSum _ fun j _ => ?_
        refine (continuousOn_fluxIntegrateQuad c ht (h00.sub (e1.sub e0)) e0 (fun q hq => ?_)
          hmms j).mul (continuousOn_slabBasis e1 e0 e1 (fun q hq => hm q hq k hk) j)
        have := hm q hq k hk
        have hk0 : k = 0 := not_not.1 h0
        subst hk0
        simp only [Pi.sub_apply]
        linarith
  have hright : ContinuousOn (fun q => rightOuter c (t q) (m q) (u q) k) s := by
    unfold rightOuter
    by_cases h0 : k + 1 ≠ c.Nspace
    · simp only [if_pos h0, hg, geomField]
      exact continuousOn_slabField (U := fun j q => u q (k + 1) j) c.M
        (fun j hj => hu (k + 1) (by omega) j hj) e1 e1 (he (k + 2) (by omega)) fun q hq =>
          hm q hq (k + 1) (by omega)
    · simp only [if_neg h0, hg]
      have h00 := he c.Nspace le_rfl
      cases hs0 : sw k
      · exact continuousOn_const.congr fun q hq => by
          show (if isBoundarySourceOn c k (t q) = true then _ else _) = (0 : ℝ)
          rw [hsw q hq, hs0]; simp
      · refine ContinuousOn.congr (f := fun q => ∑ j ∈ Finset.range (c.M + 1),
          fluxIntegrateQuad c (t q) ((m q).edges (k + 1))
            ((m q).edges c.Nspace + ((m q).edges (k + 1) - (m q).edges k)) j *
              slabBasis j ((m q).edges k) ((m q).edges k) ((m q).edges (k + 1))) ?_ fun q hq => by
            show (if isBoundarySourceOn c k (t q) = true then _ else _) = _
            rw [hsw q hq, hs0, if_pos rfl]; rfl
        refine continuousOn_finsetSum _ fun j _ => ?_
        refine (continuousOn_fluxIntegrateQuad c ht e1 (h00.add (e1.sub e0)) (fun q hq => ?_)
          hmms j).mul (continuousOn_slabBasis e0 e0 e1 (fun q hq => hm q hq k hk) j)
        have := hm q hq k hk
        have hk0 : k + 1 = c.Nspace := not_not.1 h0
        simp only [Pi.add_apply, Pi.sub_apply]
        rw [← hk0]
        linarith
  have hown : ∀ x : Y → ℝ, ContinuousOn x s → ContinuousOn (fun q =>
      slabField c.M (u q k) ((m q).edges k) ((m q).edges (k + 1)) (x q)) s := fun x hx =>
    continuousOn_slabField (U := fun j q => u q k j) c.M (fun j hj => hu k hk j hj) hx e0 e1
      fun q hq => hm q hq k hk
  have hI : ∀ p : ℝ[X], ContinuousOn (fun q => I (p * refPoly c.M (u q k)
      ((m q).edges (k + 1) - (m q).edges k))) s := fun p =>
    continuousOn_I_refPoly (U := fun j q => u q k j) c.M p (fun j hj => hu k hk j hj)
      (e1.sub e0) hd
  have hv0 := hv k hk.le
  have hv1 := hv (k + 1) hk
  refine ContinuousOn.congr (f := fun q =>
    Real.sqrt ((2 * (i : ℝ) + 1) / ((m q).edges (k + 1) - (m q).edges k)) / 2 *
      (-(1 / 2) * ((m q).Dedges (k + 1) - (m q).Dedges k) *
          I (legendre i * refPoly c.M (u q k) ((m q).edges (k + 1) - (m q).edges k)) +
        -((m q).Dedges k + (m q).Dedges (k + 1)) * I (derivative (legendre i) *
          refPoly c.M (u q k) ((m q).edges (k + 1) - (m q).edges k)) +
        -((m q).Dedges (k + 1) - (m q).Dedges k) * I (X * derivative (legendre i) *
          refPoly c.M (u q k) ((m q).edges (k + 1) - (m q).edges k))) -
      (slabBasis i ((m q).edges (k + 1)) ((m q).edges k) ((m q).edges (k + 1)) *
        upwind (mul - (m q).Dedges (k + 1))
          (slabField c.M (u q k) ((m q).edges k) ((m q).edges (k + 1)) ((m q).edges (k + 1)))
          (rightOuter c (t q) (m q) (u q) k) -
       slabBasis i ((m q).edges k) ((m q).edges k) ((m q).edges (k + 1)) *
        upwind (mul - (m q).Dedges k) (leftOuter c (t q) (m q) (u q) k (uRefl q))
          (slabField c.M (u q k) ((m q).edges k) ((m q).edges (k + 1)) ((m q).edges k))) +
      mul * (Real.sqrt ((2 * (i : ℝ) + 1) / ((m q).edges (k + 1) - (m q).edges k)) *
        I (derivative (legendre i) * refPoly c.M (u q k)
          ((m q).edges (k + 1) - (m q).edges k)))) ?_ fun q hq => ?_
  · refine ContinuousOn.add (ContinuousOn.sub (((hsq i).div_const 2).mul ?_) ?_)
      (continuousOn_const.mul ((hsq i).mul (hI _)))
    · exact (((continuousOn_const.mul (hv1.sub hv0)).mul (hI _)).add
        ((hv0.add hv1).neg.mul (hI _))).add ((hv1.sub hv0).neg.mul (hI _))
    · exact ((continuousOn_slabBasis e1 e0 e1 (fun q hq => hm q hq k hk) i).mul
        (continuousOn_upwind (continuousOn_const.sub hv1) (hown _ e1) hright)).sub
        ((continuousOn_slabBasis e0 e0 e1 (fun q hq => hm q hq k hk) i).mul
        (continuousOn_upwind (continuousOn_const.sub hv0) hleft (hown _ e0)))
  · unfold streamPart
    rw [fluxLU_eq c (t q) (m q) (u q) k mul (uRefl q) (fs q) hk (hm q hq) hi, hg,
      matVec_G _ _ _ (hm q hq k hk) _ hi, matVec_L _ _ _ (hm q hq k hk) _ hi]
    simp only [geomArea, geomBasis, geomField, one_mul]
    have e : ∀ (α β γ : ℝ) (R : ℝ[X]), I ((C α * legendre i + C β * derivative (legendre i) +
        C γ * (X * derivative (legendre i))) * R) = α * I (legendre i * R) +
        β * I (derivative (legendre i) * R) + γ * I (X * derivative (legendre i) * R) := by
      intro α β γ R
      rw [← I_C_mul, ← I_C_mul, ← I_C_mul, ← I_add, ← I_add]
      congr 1; ring
    rw [e]

end Verif.Lemmas
