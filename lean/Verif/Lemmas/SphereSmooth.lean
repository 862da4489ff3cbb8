import Verif.Lemmas.SphereContinuity
import Mathlib.Analysis.Calculus.ContDiff.Polynomial
import Mathlib.Analysis.Calculus.ContDiff.Operations
import Mathlib.Analysis.SpecialFunctions.Sqrt
import Mathlib.Analysis.SpecialFunctions.ExpDeriv

/-! Smooth dependence of the right-hand side of the sphere scheme on time, while the edges move
smoothly with velocities that do not change. -/

namespace Verif.Lemmas

open Polynomial Verif.Spec Verif.Model Set

variable {s : Set ℝ} {n : WithTop ℕ∞}

theorem contDiff_eval (p : ℝ[X]) : ContDiff ℝ n fun x : ℝ => p.eval x := by
  simpa [Polynomial.coe_aeval_eq_eval] using p.contDiff_aeval (𝕜 := ℝ) n

theorem contDiffOn_sphereBasis {x a b : ℝ → ℝ} (hx : ContDiffOn ℝ n x s) (ha : ContDiffOn ℝ n a s)
    (hb : ContDiffOn ℝ n b s) (h : ∀ q ∈ s, a q < b q) (m : ℕ) :
    ContDiffOn ℝ n (fun q => sphereBasis m (x q) (a q) (b q)) s := by
  have hd : ∀ q ∈ s, b q - a q ≠ 0 := fun q hq => (sub_pos.2 (h q hq)).ne'
  have hd' : ∀ q ∈ s, Real.pi * (b q - a q) ≠ 0 := fun q hq => mul_ne_zero Real.pi_ne_zero (hd q hq)
  unfold sphereBasis ref
  refine ContDiffOn.mul (ContDiffOn.sqrt (contDiffOn_const.div (contDiffOn_const.mul (hb.sub ha)) hd')
    fun q hq => div_ne_zero ?_ (hd' q hq)) ?_
  · split_ifs <;> norm_num
  · exact (contDiff_eval _).comp_contDiffOn
      ((((contDiffOn_const.mul hx).sub ha).sub hb).div (hb.sub ha) hd)

theorem contDiffOn_slabBasis {x a b : ℝ → ℝ} (hx : ContDiffOn ℝ n x s) (ha : ContDiffOn ℝ n a s)
    (hb : ContDiffOn ℝ n b s) (h : ∀ q ∈ s, a q < b q) (m : ℕ) :
    ContDiffOn ℝ n (fun q => slabBasis m (x q) (a q) (b q)) s := by
  have hd : ∀ q ∈ s, b q - a q ≠ 0 := fun q hq => (sub_pos.2 (h q hq)).ne'
  unfold slabBasis ref
  refine ContDiffOn.mul (ContDiffOn.sqrt (contDiffOn_const.div (hb.sub ha) hd)
    fun q hq => div_ne_zero (by positivity) (hd q hq)) ?_
  exact (contDiff_eval _).comp_contDiffOn
    ((((contDiffOn_const.mul hx).sub ha).sub hb).div (hb.sub ha) hd)

theorem contDiffOn_sphereField {U : ℕ → ℝ} {x a b : ℝ → ℝ} (M : ℕ) (hx : ContDiffOn ℝ n x s)
    (ha : ContDiffOn ℝ n a s) (hb : ContDiffOn ℝ n b s) (h : ∀ q ∈ s, a q < b q) :
    ContDiffOn ℝ n (fun q => sphereField M U (a q) (b q) (x q)) s := by
  unfold sphereField
  exact ContDiffOn.sum fun j _ => contDiffOn_const.mul (contDiffOn_sphereBasis hx ha hb h j)

theorem contDiffOn_rho2 {m d : ℝ → ℝ} (hm : ContDiffOn ℝ n m s) (hd : ContDiffOn ℝ n d s)
    (f : ℕ → ℝ) (k : ℕ) : ContDiffOn ℝ n (fun q => rho2 (m q) (d q) f k) s := by
  unfold rho2
  fun_prop

theorem contDiffOn_sphereMass {a b : ℝ → ℝ} (ha : ContDiffOn ℝ n a s) (hb : ContDiffOn ℝ n b s)
    (h : ∀ q ∈ s, a q < b q) (i j : ℕ) : ContDiffOn ℝ n (fun q => sphereMass i j (a q) (b q)) s :=
  ContDiffOn.congr (contDiffOn_const.mul (contDiffOn_rho2 ((ha.add hb).div_const 2)
    ((hb.sub ha).div_const 2) _ _)) fun q hq => sphereMass_eq (h q hq) i j

theorem contDiffOn_sphereJ {a b : ℝ → ℝ} (ha : ContDiffOn ℝ n a s) (hb : ContDiffOn ℝ n b s)
    (h : ∀ q ∈ s, a q < b q) (i j : ℕ) : ContDiffOn ℝ n (fun q => sphereJ i j (a q) (b q)) s :=
  ContDiffOn.congr (contDiffOn_const.mul ((((ha.add hb).div_const 2).mul contDiffOn_const).add
    (((hb.sub ha).div_const 2).mul contDiffOn_const))) fun q hq => sphereJ_closed (h q hq) i j

theorem contDiffOn_sphereL {a b : ℝ → ℝ} (ha : ContDiffOn ℝ n a s) (hb : ContDiffOn ℝ n b s)
    (h : ∀ q ∈ s, a q < b q) (i j : ℕ) : ContDiffOn ℝ n (fun q => sphereL i j (a q) (b q)) s :=
  ContDiffOn.congr ((contDiffOn_const.div (contDiffOn_const.mul (hb.sub ha)) fun q hq =>
    mul_ne_zero Real.pi_ne_zero (sub_pos.2 (h q hq)).ne').mul
      (contDiffOn_rho2 ((ha.add hb).div_const 2) ((hb.sub ha).div_const 2) _ _))
    fun q hq => sphereL_closed (h q hq) i j

theorem contDiffOn_gExact {a b : ℝ → ℝ} (ha : ContDiffOn ℝ n a s) (hb : ContDiffOn ℝ n b s)
    (ap bp : ℝ) (h : ∀ q ∈ s, a q < b q) (i j : ℕ) :
    ContDiffOn ℝ n (fun q => gExact i j (a q) (b q) ap bp) s := by
  have hr := fun f k => contDiffOn_rho2 ((ha.add hb).div_const 2) ((hb.sub ha).div_const 2) f k
  unfold gExact
  refine (contDiffOn_const.div (contDiffOn_const.mul (hb.sub ha)) fun q hq =>
    mul_ne_zero two_ne_zero (sub_pos.2 (h q hq)).ne').mul ?_
  exact ((contDiffOn_const.mul (hr _ _)).sub (contDiffOn_const.mul (hr _ _))).sub
    (contDiffOn_const.mul (hr _ _))

theorem contDiffOn_mpExact {a b : ℝ → ℝ} (ha : ContDiffOn ℝ n a s) (hb : ContDiffOn ℝ n b s)
    (ap bp : ℝ) (i j : ℕ) : ContDiffOn ℝ n (fun q => mpExact i j (a q) (b q) ap bp) s := by
  unfold mpExact
  fun_prop

theorem contDiffOn_det {m : ℕ} {A : ℝ → Matrix (Fin m) (Fin m) ℝ}
    (h : ∀ i j, ContDiffOn ℝ n (fun q => A q i j) s) : ContDiffOn ℝ n (fun q => (A q).det) s := by
  simp only [Matrix.det_apply']
  exact ContDiffOn.sum fun σ _ => contDiffOn_const.mul (contDiffOn_prod fun i _ => h _ _)

theorem contDiffOn_massInv {a b : ℝ → ℝ} (ha : ContDiffOn ℝ n a s) (hb : ContDiffOn ℝ n b s)
    (h : ∀ q ∈ s, a q < b q) (M : ℕ) (i j : Fin (M + 1)) :
    ContDiffOn ℝ n (fun q => (massMatrix M (a q) (b q))⁻¹ i j) s := by
  have hA : ∀ i j, ContDiffOn ℝ n (fun q => massMatrix M (a q) (b q) i j) s := fun i j =>
    contDiffOn_sphereMass ha hb h i j
  have hadj : ContDiffOn ℝ n (fun q => (massMatrix M (a q) (b q)).adjugate i j) s := by
    simp only [Matrix.adjugate_apply]
    refine contDiffOn_det fun k l => ?_
    by_cases hk : k = j
    · subst hk
      simp only [Matrix.updateRow_self]
      exact contDiffOn_const
    · simp only [Matrix.updateRow_ne hk]
      exact hA k l
  refine ((contDiffOn_det hA).inv fun q hq => massMatrix_det_ne (h q hq)).mul hadj |>.congr
    fun q _ => ?_
  rw [Matrix.inv_def, Matrix.smul_apply, smul_eq_mul, Ring.inverse_eq_inv']
  rfl

theorem contDiffOn_bcFunc (c : FluxConfig) {x t : ℝ → ℝ} (hx : ContDiffOn ℝ n x s)
    (ht : ContDiffOn ℝ n t s) (hmms : c.mms = false ∨ ∀ q ∈ s, t q ≠ -1) :
    ContDiffOn ℝ n (fun q => bcFunc c (x q) (t q)) s := by
  unfold bcFunc
  by_cases h1 : c.mms = true
  · simp only [h1, if_true]
    rcases hmms with h | h
    · rw [h] at h1; exact absurd h1 (by simp)
    · refine ContDiffOn.div_const (ContDiffOn.div ?_ (ht.add contDiffOn_const) fun q hq e =>
        h q hq (by linarith)) 2
      exact ((hx.neg.mul hx).div_const 2).exp
  · simp only [if_neg h1]
    split_ifs
    · exact contDiffOn_const
    · exact contDiffOn_const
    · exact hx.mul contDiffOn_const

theorem contDiffOn_listSum {α : Type*} (l : List α) (f : α → ℝ → ℝ)
    (h : ∀ a ∈ l, ContDiffOn ℝ n (f a) s) : ContDiffOn ℝ n (fun q => (l.map fun a => f a q).sum) s := by
  induction l with
  | nil => simpa using contDiffOn_const
  | cons a l ih =>
    simp only [List.map_cons, List.sum_cons]
    exact (h a (by simp)).add (ih fun b hb => h b (by simp [hb]))

theorem contDiffOn_fluxIntegrateQuad (c : FluxConfig) {t a b : ℝ → ℝ} (ht : ContDiffOn ℝ n t s)
    (ha : ContDiffOn ℝ n a s) (hb : ContDiffOn ℝ n b s) (h : ∀ q ∈ s, a q < b q)
    (hmms : c.mms = false ∨ ∀ q ∈ s, t q ≠ -1) (j : ℕ) :
    ContDiffOn ℝ n (fun q => fluxIntegrateQuad c (t q) (a q) (b q) j) s := by
  unfold fluxIntegrateQuad
  refine ((hb.sub ha).div_const 2).mul ?_
  refine contDiffOn_listSum c.quad (fun w q => w.2 * bcFunc c ((b q - a q) / 2 * w.1 +
    (a q + b q) / 2) (t q) * normPn j ((b q - a q) / 2 * w.1 + (a q + b q) / 2) (a q) (b q))
    fun w _ => ?_
  have harg : ContDiffOn ℝ n (fun q => (b q - a q) / 2 * w.1 + (a q + b q) / 2) s :=
    (((hb.sub ha).div_const 2).mul contDiffOn_const).add ((ha.add hb).div_const 2)
  refine (contDiffOn_const.mul (contDiffOn_bcFunc c harg ht hmms)).mul ?_
  exact (contDiffOn_slabBasis harg ha hb h j).congr fun q hq =>
    normPn_eq_slabBasis j _ (h q hq)

/-- Smoothness of the closed form for a fixed state while no boundary source is switched. -/
theorem contDiffOn_sphereFlow (p : RhsParams) (c : FluxConfig) (hg : c.geometry = .sphere)
    {t : ℝ → ℝ} (ht : ContDiffOn ℝ n t s) (hmms : c.mms = false ∨ ∀ q ∈ s, t q ≠ -1)
    (sw : ℕ → Bool) (hsw : ∀ q ∈ s, ∀ k, isBoundarySourceOn c k (t q) = sw k)
    {m : ℝ → MeshView} (hm : ∀ q ∈ s, ∀ k < c.Nspace, (m q).edges k < (m q).edges (k + 1))
    (he : ∀ k ≤ c.Nspace, ContDiffOn ℝ n (fun q => (m q).edges k) s) (v : ℕ → ℝ)
    (hv : ∀ k ≤ c.Nspace, ∀ q ∈ s, (m q).Dedges k = v k)
    {S : ℝ → ℕ → ℕ → ℝ} (hS : ∀ k < c.Nspace, ∀ i ≤ c.M, ContDiffOn ℝ n (fun q => S q k i) s)
    (u : ℕ → ℕ → ℕ → ℝ) (l : ℕ) {k i : ℕ} (hk : k < c.Nspace) (hi : i ≤ c.M) :
    ContDiffOn ℝ n (fun q => sphereFlow p c (t q) (m q) (S q) u l k i) s := by
  have e0 := he k hk.le
  have e1 := he (k + 1) hk
  have hord : ∀ q ∈ s, (m q).edges k < (m q).edges (k + 1) := fun q hq => hm q hq k hk
  have hright : ContDiffOn ℝ n (fun q => rightOuter c (t q) (m q) (u l) k) s := by
    unfold rightOuter
    by_cases h0 : k + 1 ≠ c.Nspace
    · simp only [if_pos h0, hg, geomField]
      exact contDiffOn_sphereField c.M e1 e1 (he (k + 2) (by omega)) fun q hq =>
        hm q hq (k + 1) (by omega)
    · simp only [if_neg h0, hg]
      have h00 := he c.Nspace le_rfl
      cases hs0 : sw k
      · exact contDiffOn_const.congr fun q hq => by
          show (if isBoundarySourceOn c k (t q) = true then _ else _) = (0 : ℝ)
          rw [hsw q hq, hs0]; simp
      · refine ContDiffOn.congr (f := fun q => ∑ j ∈ Finset.range (c.M + 1),
          fluxIntegrateQuad c (t q) ((m q).edges (k + 1))
            ((m q).edges c.Nspace + ((m q).edges (k + 1) - (m q).edges k)) j *
              sphereBasis j ((m q).edges k) ((m q).edges k) ((m q).edges (k + 1))) ?_ fun q hq => by
            show (if isBoundarySourceOn c k (t q) = true then _ else _) = _
            rw [hsw q hq, hs0, if_pos rfl]; rfl
        refine ContDiffOn.sum fun j _ => ?_
        refine (contDiffOn_fluxIntegrateQuad c ht e1 (h00.add (e1.sub e0)) (fun q hq => ?_)
          hmms j).mul (contDiffOn_sphereBasis e0 e0 e1 hord j)
        have := hm q hq k hk
        have hk0 : k + 1 = c.Nspace := not_not.1 h0
        rw [← hk0]
        linarith
  have hown : ∀ x : ℝ → ℝ, ContDiffOn ℝ n x s → ContDiffOn ℝ n (fun q =>
      sphereField c.M (u l k) ((m q).edges k) ((m q).edges (k + 1)) (x q)) s := fun x hx =>
    contDiffOn_sphereField c.M hx e0 e1 hord
  have hup : ∀ (k' : ℕ), k' ≤ c.Nspace → ∀ f g : ℝ → ℝ, ContDiffOn ℝ n f s → ContDiffOn ℝ n g s →
      ContDiffOn ℝ n (fun q => upwind (p.mus l - (m q).Dedges k') (f q) (g q)) s := by
    intro k' hk' f g hf hg'
    refine ContDiffOn.congr (f := fun q => max (p.mus l - v k') 0 * f q + min (p.mus l - v k') 0 * g q)
      ((contDiffOn_const.mul hf).add (contDiffOn_const.mul hg')) fun q hq => ?_
    rw [hv k' hk' q hq]
    rfl
  unfold sphereFlow
  refine ContDiffOn.sub (ContDiffOn.add (ContDiffOn.add (ContDiffOn.sub (ContDiffOn.add
    (ContDiffOn.neg (ContDiffOn.sub ?_ ?_)) ?_) ?_) ?_) ?_) ?_
  · exact ((e1.pow 2).mul (contDiffOn_sphereBasis e1 e0 e1 hord i)).mul
      (hup _ hk _ _ (hown _ e1) hright)
  · by_cases hk0 : k = 0
    · simp only [if_pos hk0]
      exact contDiffOn_const
    · simp only [if_neg hk0]
      refine ((e0.pow 2).mul (contDiffOn_sphereBasis e0 e0 e1 hord i)).mul
        (hup _ hk.le _ _ ?_ (hown _ e0))
      refine contDiffOn_sphereField c.M e0 (he (k - 1) (by omega)) e0 fun q hq => ?_
      have := hm q hq (k - 1) (by omega)
      rwa [Nat.sub_add_cancel (by omega)] at this
  · exact contDiffOn_const.mul (ContDiffOn.sum fun j _ =>
      (contDiffOn_sphereL e0 e1 hord i j).mul contDiffOn_const)
  · exact ContDiffOn.sum fun j _ => (contDiffOn_sphereJ e0 e1 hord i j).mul contDiffOn_const
  · refine ContDiffOn.sum fun j _ => ((contDiffOn_gExact e0 e1 (v k) (v (k + 1)) hord i j).div_const
      Real.pi).mul (contDiffOn_const (c := u l k j)) |>.congr fun q hq => ?_
    rw [hv k hk.le q hq, hv (k + 1) hk q hq]
  · exact (contDiffOn_const.mul (hS k hk i hi)).mul contDiffOn_const
  · refine ContDiffOn.sum fun j _ => ((contDiffOn_mpExact e0 e1 (v k) (v (k + 1)) i j).div_const
      Real.pi).mul (contDiffOn_const (c := u l k j)) |>.congr fun q hq => ?_
    rw [hv k hk.le q hq, hv (k + 1) hk q hq]

end Verif.Lemmas
