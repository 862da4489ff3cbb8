import Verif.Lemmas.SphereContinuity
import Verif.Props.Existence
import Verif.Props.SphereStability
import Mathlib.Topology.Algebra.Module.Basic

/-!
Property C104: the equations of the active sphere right-hand side have exactly one solution from
every initial state.
-/

namespace Verif.Props

open Verif.Spec Verif.Model Verif.Lemmas Set
open scoped NNReal

/-! ### Linear equations with finitely many exceptional times -/

/-- A jointly continuous additive map is bounded by a multiple of the norm. -/
theorem additive_bound {E : Type*} [NormedAddCommGroup E] [NormedSpace ℝ E] [ProperSpace E]
    (A : ℝ → E → E) (a b : ℝ) (hA : ContinuousOn (fun q : ℝ × E => A q.1 q.2) (Icc a b ×ˢ univ))
    (hadd : ∀ t ∈ Icc a b, ∀ D D', A t (D + D') = A t D + A t D') :
    ∃ K : ℝ≥0, ∀ t ∈ Icc a b, ∀ D, ‖A t D‖ ≤ K * ‖D‖ := by
  refine homogeneous_bound A a b hA fun t ht r D => ?_
  have h0 : A t 0 = 0 := by
    have := hadd t ht 0 0
    rw [add_zero] at this
    simpa using this
  have hc : Continuous (A t) := by
    have h1 : ContinuousOn (fun D : E => A t D) univ :=
      hA.comp (f := fun D : E => (t, D)) (by fun_prop) fun D _ => ⟨ht, mem_univ _⟩
    exact continuousOn_univ.1 h1
  exact map_real_smul (G := E →+ E) ⟨⟨A t, h0⟩, hadd t ht⟩ hc r D

/-- A solution of a linear equation that starts at zero stays zero, also if it violates the
equation at finitely many times. -/
theorem linear_zero {ι : Type*} [Fintype ι] (a b K : ℝ) (hK : 0 ≤ K) (F : Set ℝ) (hF : F.Finite)
    (D A : ℝ → ι → ℝ) (hcont : ∀ q, ContinuousOn (fun s => D s q) (Icc a b))
    (hder : ∀ t ∈ Ico a b \ F, ∀ q, HasDerivWithinAt (fun s => D s q) (A t q) (Ici t) t)
    (hA : ∀ t ∈ Ico a b \ F, ‖A t‖ ≤ K * ‖D t‖) (h0 : D a = 0) : ∀ t ∈ Icc a b, D t = 0 := by
  intro t ht
  have hsum : ∀ s q, |D s q| ≤ ‖D s‖ := fun s q => norm_le_pi_norm (D s) q
  have hsq : ∀ s, ‖D s‖ ^ 2 ≤ ∑ q, D s q ^ 2 := by
    intro s
    have hnn : 0 ≤ ∑ q, D s q ^ 2 := Finset.sum_nonneg fun q _ => sq_nonneg _
    have : ‖D s‖ ≤ Real.sqrt (∑ q, D s q ^ 2) := by
      refine (pi_norm_le_iff_of_nonneg (Real.sqrt_nonneg _)).2 fun q => ?_
      rw [Real.norm_eq_abs]
      refine Real.abs_le_sqrt ?_
      exact Finset.single_le_sum (f := fun q => D s q ^ 2) (fun q _ => sq_nonneg _)
        (Finset.mem_univ q)
    calc ‖D s‖ ^ 2 ≤ Real.sqrt (∑ q, D s q ^ 2) ^ 2 := by gcongr
      _ = _ := Real.sq_sqrt hnn
  have := gronwall_except hF (fun s => ∑ q, D s q ^ 2) (fun s => ∑ q, 2 * (D s q * A s q))
    (2 * K * Fintype.card ι) 0 a b 0
    (continuousOn_finsetSum _ fun q _ => (hcont q).pow 2)
    (fun x hx => HasDerivWithinAt.fun_sum fun q _ => ((hder x hx q).pow 2).congr_deriv (by
      simp; ring))
    (by rw [h0]; simp)
    (fun x hx => by
      have h1 : ∀ q, 2 * (D x q * A x q) ≤ 2 * K * ∑ q, D x q ^ 2 := by
        intro q
        have h2 : |A x q| ≤ K * ‖D x‖ := (norm_le_pi_norm (A x) q).trans (hA x hx)
        have h3 : D x q * A x q ≤ ‖D x‖ * (K * ‖D x‖) :=
          (le_abs_self _).trans (by
            rw [abs_mul]
            exact mul_le_mul (hsum x q) h2 (abs_nonneg _) (norm_nonneg _))
        nlinarith [mul_le_mul_of_nonneg_left (hsq x) hK]
      calc ∑ q, 2 * (D x q * A x q) ≤ ∑ _q : ι, 2 * K * ∑ q, D x q ^ 2 :=
            Finset.sum_le_sum fun q _ => h1 q
        _ = _ := by
            rw [Finset.sum_const, Finset.card_univ, nsmul_eq_mul]; ring) t ht
  rw [gronwallBound_ε0, zero_mul] at this
  funext q
  have h1 := Finset.single_le_sum (f := fun q => D t q ^ 2) (fun q _ => sq_nonneg _)
    (Finset.mem_univ q)
  have h2 : D t q ^ 2 ≤ 0 := h1.trans this
  exact pow_eq_zero_iff (two_ne_zero) |>.1 (le_antisymm h2 (sq_nonneg _))

/-! ### The sphere equations as a linear system -/

/-- Closed form of the right-hand side. -/
noncomputable def sphereField0 (p : RhsParams) (c : FluxConfig) (t : ℝ) (m : MeshView)
    (S : ℕ → ℕ → ℝ) (V : ℕ → ℕ → ℕ → ℝ) (l k : ℕ) (i : Fin (c.M + 1)) : ℝ :=
  ∑ j : Fin (c.M + 1), (massMatrix c.M (m.edges k) (m.edges (k + 1)))⁻¹ i j *
      sphereFlow p c t m S V l k j
    + p.c * scalarCoef p V k i - V l k i

theorem sphereRhs_closed (p : RhsParams) (c : FluxConfig) (hg : c.geometry = .sphere)
    (hM : c.M ≤ 10) (t : ℝ) (m : MeshView) (h0 : m.edges 0 = 0)
    (hm : ∀ k < c.Nspace, m.edges k < m.edges (k + 1)) (mats : ℕ → CellMats) (S : ℕ → ℕ → ℝ)
    (fs : FluxState) (V : ℕ → ℕ → ℕ → ℝ) (l k : ℕ) (i : Fin (c.M + 1)) (hk : k < c.Nspace)
    (hmats : MatsExact c.M (m.edges k) (m.edges (k + 1)) (m.Dedges k) (m.Dedges (k + 1)) (mats k)) :
    sphereRhs p c t m mats S fs V l k i = sphereField0 p c t m S V l k i := by
  unfold sphereRhs sphereField0
  rw [matVec_minv (hm k hk) hmats, mul_comm (activePV p V k i), c_activePV]
  congr 2
  refine Finset.sum_congr rfl fun j _ => ?_
  rw [sphereWeak_eq_flow p c hg hM t m h0 hm (mats k) S fs V l k j hk (Nat.lt_succ_iff.1 j.2) hmats]

/-- Differences of the closed form. -/
theorem sphereField0_sub (p : RhsParams) (c : FluxConfig) (hg : c.geometry = .sphere)
    (hM : c.M ≤ 10) (t : ℝ) (m : MeshView) (h0 : m.edges 0 = 0)
    (hm : ∀ k < c.Nspace, m.edges k < m.edges (k + 1)) (S : ℕ → ℕ → ℝ)
    (V W : ℕ → ℕ → ℕ → ℝ) (l k : ℕ) (i : Fin (c.M + 1)) (hk : k < c.Nspace) :
    sphereField0 p c t m S V l k i - sphereField0 p c t m S W l k i =
      sphereField0 p (vacuumConfig c) t m (fun _ _ => 0) (fun l k i => V l k i - W l k i) l k i := by
  obtain ⟨mats, hmats⟩ := c65_matrices_exist hM (hm k hk) (m.Dedges k) (m.Dedges (k + 1))
  set fs : FluxState := ⟨0, 0, 0, 0, 0, 0, 0, 0, 0, fun _ => 0⟩
  have e : ∀ j : Fin (c.M + 1), sphereFlow p c t m S V l k j - sphereFlow p c t m S W l k j =
      sphereFlow p (vacuumConfig c) t m (fun _ _ => 0) (fun l k i => V l k i - W l k i) l k j := by
    intro j
    have hj : (j : ℕ) ≤ c.M := Nat.lt_succ_iff.1 j.2
    have h1 := sphereWeak_sub p c hg t m h0 hm mats S S fs fs fs V W l k j hk hj
    simp only [sub_self] at h1
    rw [sphereWeak_eq_flow p c hg hM t m h0 hm mats S fs V l k j hk hj hmats,
      sphereWeak_eq_flow p c hg hM t m h0 hm mats S fs W l k j hk hj hmats,
      sphereWeak_eq_flow p (vacuumConfig c) hg hM t m h0 hm mats _ fs _ l k j hk hj hmats] at h1
    exact h1
  have e2 : scalarCoef p (fun l k i => V l k i - W l k i) k i =
      scalarCoef p V k i - scalarCoef p W k i := by
    unfold scalarCoef angularSum
    rw [← Finset.sum_sub_distrib]
    exact Finset.sum_congr rfl fun l _ => by ring
  have e3 : ∑ j : Fin (c.M + 1), (massMatrix c.M (m.edges k) (m.edges (k + 1)))⁻¹ i j *
      sphereFlow p (vacuumConfig c) t m (fun _ _ => 0) (fun l k i => V l k i - W l k i) l k j =
      ∑ j : Fin (c.M + 1), (massMatrix c.M (m.edges k) (m.edges (k + 1)))⁻¹ i j *
        sphereFlow p c t m S V l k j -
      ∑ j : Fin (c.M + 1), (massMatrix c.M (m.edges k) (m.edges (k + 1)))⁻¹ i j *
        sphereFlow p c t m S W l k j := by
    rw [← Finset.sum_sub_distrib]
    exact Finset.sum_congr rfl fun j _ => by rw [← e j, mul_sub]
  have e4 : sphereField0 p (vacuumConfig c) t m (fun _ _ => 0) (fun l k i => V l k i - W l k i)
      l k i = ∑ j : Fin (c.M + 1), (massMatrix c.M (m.edges k) (m.edges (k + 1)))⁻¹ i j *
      sphereFlow p (vacuumConfig c) t m (fun _ _ => 0) (fun l k i => V l k i - W l k i) l k j
      + p.c * scalarCoef p (fun l k i => V l k i - W l k i) k i - (V l k i - W l k i) := rfl
  rw [e4, e3, e2]
  unfold sphereField0
  ring

/-- The linear part on coefficient vectors. -/
noncomputable def sphereOp (p : RhsParams) (c : FluxConfig) (mesh : ℝ → MeshView) (t : ℝ)
    (D : Coefs p c) : Coefs p c := fun q =>
  sphereField0 p (vacuumConfig c) t (mesh t) (fun _ _ => 0) (spread p c D) q.1 q.2.1 q.2.2

theorem continuousOn_sphereField0 (p : RhsParams) (c : FluxConfig) (hg : c.geometry = .sphere)
    {Y : Type*} [TopologicalSpace Y] {s : Set Y}
    {t : Y → ℝ} (ht : ContinuousOn t s) (hmms : c.mms = false ∨ ∀ q ∈ s, t q ≠ -1)
    (sw : ℕ → Bool) (hsw : ∀ q ∈ s, ∀ k, isBoundarySourceOn c k (t q) = sw k)
    {m : Y → MeshView} (hm : ∀ q ∈ s, ∀ k < c.Nspace, (m q).edges k < (m q).edges (k + 1))
    (he : ∀ k ≤ c.Nspace, ContinuousOn (fun q => (m q).edges k) s)
    (hv : ∀ k ≤ c.Nspace, ContinuousOn (fun q => (m q).Dedges k) s)
    {S : Y → ℕ → ℕ → ℝ} (hS : ∀ k < c.Nspace, ∀ i ≤ c.M, ContinuousOn (fun q => S q k i) s)
    {u : Y → ℕ → ℕ → ℕ → ℝ} (hu : ∀ l k j, ContinuousOn (fun q => u q l k j) s)
    (l : ℕ) {k : ℕ} (i : Fin (c.M + 1)) (hk : k < c.Nspace) :
    ContinuousOn (fun q => sphereField0 p c (t q) (m q) (S q) (u q) l k i) s := by
  unfold sphereField0 scalarCoef angularSum
  refine ContinuousOn.sub (ContinuousOn.add (continuousOn_finsetSum _ fun j _ => ?_)
    (continuousOn_const.mul (continuousOn_finsetSum _ fun l _ =>
      continuousOn_const.mul (hu l k i)))) (hu l k i)
  exact (continuousOn_massInv (he k hk.le) (he (k + 1) hk) (fun q hq => hm q hq k hk) c.M i j).mul
    (continuousOn_sphereFlow p c hg ht hmms sw hsw hm he hv hS hu l hk (Nat.lt_succ_iff.1 j.2))

/-- The linear part is bounded while edges and velocities are continuous. -/
theorem sphereOp_bound (p : RhsParams) (c : FluxConfig) (hg : c.geometry = .sphere) (hM : c.M ≤ 10)
    (a b : ℝ) (mesh : ℝ → MeshView) (h0 : ∀ s ∈ Icc a b, (mesh s).edges 0 = 0)
    (hm : ∀ s ∈ Icc a b, ∀ k < c.Nspace, (mesh s).edges k < (mesh s).edges (k + 1))
    (he : ∀ k ≤ c.Nspace, ContinuousOn (fun s => (mesh s).edges k) (Icc a b))
    (hv : ∀ k ≤ c.Nspace, ContinuousOn (fun s => (mesh s).Dedges k) (Icc a b)) :
    ∃ K : ℝ≥0, ∀ t ∈ Icc a b, ∀ D, ‖sphereOp p c mesh t D‖ ≤ K * ‖D‖ := by
  have hfst : ContinuousOn (fun q : ℝ × Coefs p c => q.1) (Icc a b ×ˢ univ) :=
    continuous_fst.continuousOn
  have hmap : MapsTo (fun q : ℝ × Coefs p c => q.1) (Icc a b ×ˢ univ) (Icc a b) :=
    fun q hq => hq.1
  refine additive_bound (sphereOp p c mesh) a b (continuousOn_pi.2 fun j => ?_) fun t ht D D' => ?_
  · exact continuousOn_sphereField0 p (vacuumConfig c) hg hfst (Or.inl rfl) (fun _ => false)
      (fun q _ k => vacuumConfig_off c k _) (m := fun q => mesh q.1)
      (fun q hq => hm q.1 hq.1) (fun k hk => (he k hk).comp hfst hmap)
      (fun k hk => (hv k hk).comp hfst hmap) (S := fun _ _ _ => 0)
      (fun _ _ _ _ => continuousOn_const) (u := fun q => spread p c q.2)
      (fun l k i => ((spread_continuous p c l k i).comp continuous_snd).continuousOn) _ _ j.2.1.2
  · funext j
    have h1 : sphereField0 p (vacuumConfig c) t (mesh t) (fun _ _ => 0) (spread p c (D + D'))
          j.1 j.2.1 j.2.2 -
        sphereField0 p (vacuumConfig c) t (mesh t) (fun _ _ => 0) (spread p c D') j.1 j.2.1 j.2.2 =
        sphereField0 p (vacuumConfig c) t (mesh t) (fun _ _ => 0)
          (fun l k i => spread p c (D + D') l k i - spread p c D' l k i) j.1 j.2.1 j.2.2 :=
      sphereField0_sub p (vacuumConfig c) hg hM t (mesh t) (h0 t ht) (hm t ht)
        (fun _ _ => 0) (spread p c (D + D')) (spread p c D') j.1 j.2.1 j.2.2 j.2.1.2
    have e : (fun l k i => spread p c (D + D') l k i - spread p c D' l k i) = spread p c D := by
      funext l k i
      rw [← spread_sub, add_sub_cancel_right]
    rw [e] at h1
    simp only [sphereOp, Pi.add_apply]
    linarith

/-- Existence and uniqueness over one piece: everything is continuous and the boundary source is not
switched. -/
theorem sphere_continuous_piece (p : RhsParams) (c : FluxConfig) (hg : c.geometry = .sphere)
    (hM : c.M ≤ 10) (a b : ℝ) (hab : a ≤ b) (hmms : c.mms = false ∨ -1 < a)
    (sw : ℕ → Bool) (hsw : ∀ t ∈ Icc a b, ∀ k, isBoundarySourceOn c k t = sw k)
    (mesh : ℝ → MeshView) (h0 : ∀ s ∈ Icc a b, (mesh s).edges 0 = 0)
    (hm : ∀ s ∈ Icc a b, ∀ k < c.Nspace, (mesh s).edges k < (mesh s).edges (k + 1))
    (he : ∀ k ≤ c.Nspace, ContinuousOn (fun s => (mesh s).edges k) (Icc a b))
    (hv : ∀ k ≤ c.Nspace, ContinuousOn (fun s => (mesh s).Dedges k) (Icc a b))
    (S : ℝ → ℕ → ℕ → ℝ)
    (hS : ∀ k < c.Nspace, ∀ i ≤ c.M, ContinuousOn (fun s => S s k i) (Icc a b))
    (V0 : ℕ → ℕ → ℕ → ℝ) :
    ∃ α : ℝ → Coefs p c, ContinuousOn α (Icc a b) ∧ (∀ q, α a q = V0 q.1 q.2.1 q.2.2) ∧
      ∀ t ∈ Ico a b, ∀ q, HasDerivWithinAt (fun s => α s q)
        (sphereField0 p c t (mesh t) (S t) (spread p c (α t)) q.1 q.2.1 q.2.2) (Ici t) t := by
  obtain ⟨K, hK⟩ := sphereOp_bound p c hg hM a b mesh h0 hm he hv
  set f : ℝ → Coefs p c → Coefs p c := fun t U q =>
    sphereField0 p c t (mesh t) (S t) (spread p c U) q.1 q.2.1 q.2.2 with hf
  have hdiff : ∀ t ∈ Icc a b, ∀ U W, f t U - f t W = sphereOp p c mesh t (U - W) := by
    intro t ht U W
    funext j
    have h1 := sphereField0_sub p c hg hM t (mesh t) (h0 t ht) (hm t ht) (S t) (spread p c U)
      (spread p c W) j.1 j.2.1 j.2.2 j.2.1.2
    have e : (fun l k i => spread p c U l k i - spread p c W l k i) = spread p c (U - W) := by
      funext l k i; rw [spread_sub]
    rw [e] at h1
    exact h1
  obtain ⟨α, h1, h2⟩ := exists_solution f a b hab K
    (fun t ht => LipschitzWith.of_dist_le_mul fun U W => by
      rw [dist_eq_norm, dist_eq_norm, hdiff t ht]
      exact hK t ht _)
    (fun U => by
      refine continuousOn_pi.2 fun j => ?_
      refine continuousOn_sphereField0 p c hg continuousOn_id ?_ sw hsw hm he hv hS
        (u := fun _ => spread p c U) (fun _ _ _ => continuousOn_const) _ _ j.2.1.2
      rcases hmms with h | h
      · exact Or.inl h
      · exact Or.inr fun t ht e => by
          have := ht.1
          simp only [id] at e
          rw [e] at this
          linarith)
    (fun q => V0 q.1 q.2.1 q.2.2)
  exact ⟨α, h2.1, fun q => congrFun h1 q, fun t ht q => hasDerivWithinAt_pi.1 (h2.2 t ht) q⟩

theorem angularTerm_congr {n : ℕ} (hn : 2 ≤ n) (mus : ℕ → ℝ) {x y : ℕ → ℝ}
    (h : ∀ l < n, x l = y l) {l : ℕ} (hl : l < n) :
    angularTerm n mus x l = angularTerm n mus y l := by
  unfold angularTerm finiteDiffUneven
  have h1 := h l hl
  split_ifs with h2 h3
  · have h3 : ¬ l + 1 = n := by simpa using h2.2
    rw [h1, h (l + 1) (by omega), h (l - 1) (by omega)]
  · have h4 : l = 0 := by simpa using h3
    rw [h1, h (l + 1) (by omega)]
  · rw [h1, h (l - 1) (by omega)]

/-- The closed form depends only on the unknowns of the scheme, on the edges, the edge velocities,
the source and on whether the boundary source is switched on. -/
theorem sphereField0_congr (p : RhsParams) (hn : 2 ≤ p.Nang) (c c' : FluxConfig) (t0' t : ℝ)
    (hc' : c' = { c with t0 := t0' })
    (hsw : ∀ k, isBoundarySourceOn c k t = isBoundarySourceOn c' k t)
    (m m' : MeshView) (hE : m.edges = m'.edges) (hD : ∀ k ≤ c.Nspace, m.Dedges k = m'.Dedges k)
    (S S' : ℕ → ℕ → ℝ) (hS : ∀ k < c.Nspace, ∀ i ≤ c.M, S k i = S' k i)
    (V V' : ℕ → ℕ → ℕ → ℝ)
    (hV : ∀ l < p.Nang, ∀ k < c.Nspace, ∀ i ≤ c.M, V l k i = V' l k i) {l k i : ℕ}
    (hl : l < p.Nang) (hk : k < c.Nspace) (hi : i < c.M + 1) (hi' : i < c'.M + 1) :
    sphereField0 p c t m S V l k ⟨i, hi⟩ = sphereField0 p c' t m' S' V' l k ⟨i, hi'⟩ := by
  subst hc'
  have hle : ∀ j ∈ Finset.range (c.M + 1), j ≤ c.M := fun j hj => by
    simpa [Nat.lt_succ_iff] using hj
  have hf : ∀ k < c.Nspace, ∀ a b x, sphereField c.M (V l k) a b x =
      sphereField c.M (V' l k) a b x := by
    intro k hk a b x
    unfold sphereField
    exact Finset.sum_congr rfl fun j hj => by rw [hV l hl k hk j (hle j hj)]
  have hr : rightOuter c t m (V l) k = rightOuter { c with t0 := t0' } t m' (V' l) k := by
    unfold rightOuter
    rw [hsw, hE]
    by_cases h1 : k + 1 ≠ c.Nspace
    · rw [if_pos h1]
      refine Eq.trans ?_ (if_pos h1).symm
      cases hg : c.geometry
      · unfold geomField slabField
        exact Finset.sum_congr rfl fun j hj => by rw [hV l hl (k + 1) (by omega) j (hle j hj)]
      · exact hf (k + 1) (by omega) _ _ _
    · rw [if_neg h1]
      refine Eq.trans ?_ (if_neg h1).symm
      rfl
  have hflow : ∀ j ≤ c.M, sphereFlow p c t m S V l k j =
      sphereFlow p { c with t0 := t0' } t m' S' V' l k j := by
    intro j hj
    have e1 : ∀ B : ℕ → ℝ, ∑ j ∈ Finset.range (c.M + 1), B j * V l k j =
        ∑ j ∈ Finset.range (c.M + 1), B j * V' l k j := fun B =>
      Finset.sum_congr rfl fun j hj => by rw [hV l hl k hk j (hle j hj)]
    have e2 : ∀ B : ℕ → ℝ, ∑ j ∈ Finset.range (c.M + 1),
        B j * angularTerm p.Nang p.mus (fun l => V l k j) l =
        ∑ j ∈ Finset.range (c.M + 1), B j * angularTerm p.Nang p.mus (fun l => V' l k j) l :=
      fun B => Finset.sum_congr rfl fun j hj => by
        rw [angularTerm_congr hn p.mus (fun l hl => hV l hl k hk j (hle j hj)) hl]
    have e3 : (if k = 0 then 0 else m.edges k ^ 2 *
        sphereBasis j (m.edges k) (m.edges k) (m.edges (k + 1)) * upwind (p.mus l - m.Dedges k)
          (sphereField c.M (V l (k - 1)) (m.edges (k - 1)) (m.edges k) (m.edges k))
          (sphereField c.M (V l k) (m.edges k) (m.edges (k + 1)) (m.edges k))) =
        (if k = 0 then 0 else m.edges k ^ 2 *
        sphereBasis j (m.edges k) (m.edges k) (m.edges (k + 1)) * upwind (p.mus l - m.Dedges k)
          (sphereField c.M (V' l (k - 1)) (m.edges (k - 1)) (m.edges k) (m.edges k))
          (sphereField c.M (V' l k) (m.edges k) (m.edges (k + 1)) (m.edges k))) := by
      rw [hf (k - 1) (by omega), hf k hk]
    unfold sphereFlow
    rw [e3, hr, e1, e2, e1, e1, hf k hk, hS k hk j hj, hD k hk.le, hD (k + 1) hk, hE]
  unfold sphereField0
  have e4 : scalarCoef p V k i = scalarCoef p V' k i := by
    unfold scalarCoef angularSum
    exact Finset.sum_congr rfl fun l hl =>
      congrArg (p.ws l * ·) (hV l (Finset.mem_range.1 hl) k hk i (Nat.lt_succ_iff.1 hi))
  have e5 : ∑ j : Fin (c.M + 1), (massMatrix c.M (m.edges k) (m.edges (k + 1)))⁻¹ ⟨i, hi⟩ j *
      sphereFlow p c t m S V l k j =
      ∑ j : Fin (c.M + 1), (massMatrix c.M (m'.edges k) (m'.edges (k + 1)))⁻¹ ⟨i, hi⟩ j *
      sphereFlow p { c with t0 := t0' } t m' S' V' l k j := by
    rw [hE]
    exact Finset.sum_congr rfl fun j _ => by rw [hflow j (Nat.lt_succ_iff.1 j.2)]
  simp only
  rw [e5, e4, hV l hl k hk i (Nat.lt_succ_iff.1 hi)]

/-- What a solution satisfies, in closed form. -/
theorem SphereSolutionOn.rate {p : RhsParams} {c : FluxConfig} {mesh : ℝ → MeshView}
    {mats : ℝ → ℕ → CellMats} {S : ℝ → ℕ → ℕ → ℝ} {a b : ℝ} {F : Set ℝ}
    {V : ℝ → ℕ → ℕ → ℕ → ℝ} (h : SphereSolutionOn p c mesh mats S a b F V)
    (hg : c.geometry = .sphere) (hM : c.M ≤ 10) {t : ℝ} (ht : t ∈ Ico a b \ F)
    (h0 : (mesh t).edges 0 = 0)
    (hm : ∀ k < c.Nspace, (mesh t).edges k < (mesh t).edges (k + 1))
    (hmats : ∀ k < c.Nspace, MatsExact c.M ((mesh t).edges k) ((mesh t).edges (k + 1))
      ((mesh t).Dedges k) ((mesh t).Dedges (k + 1)) (mats t k)) {l k i : ℕ} (hl : l < p.Nang)
    (hk : k < c.Nspace) (hi : i < c.M + 1) :
    HasDerivWithinAt (fun s => V s l k i)
      (sphereField0 p c t (mesh t) (S t) (V t) l k ⟨i, hi⟩) (Ici t) t := by
  set fs : FluxState := ⟨0, 0, 0, 0, 0, 0, 0, 0, 0, fun _ => 0⟩
  obtain ⟨R, hR, hd⟩ := h.2 t ht fs
  refine (hd l hl k hk i (Nat.lt_succ_iff.1 hi)).congr_deriv ?_
  rw [activeCall_sphere hg hR hl hk (Nat.lt_succ_iff.1 hi)]
  exact sphereRhs_closed p c hg hM t (mesh t) h0 hm (mats t) (S t) fs (V t) l k ⟨i, hi⟩ hk
    (hmats k hk)

/-- Existence and uniqueness over one piece, at whose ends velocity, source and boundary source may
jump. -/
theorem sphere_open_piece (p : RhsParams) (hn : 2 ≤ p.Nang) (hcc : centreChecks p.Nang p.mus)
    (c : FluxConfig) (hg : c.geometry = .sphere) (hM : c.M ≤ 10)
    (a b : ℝ) (hab : a ≤ b) (hmms : c.mms = false ∨ -1 < a) (ht0 : b ≤ c.t0 ∨ c.t0 ≤ a)
    (mesh : ℝ → MeshView) (h0 : ∀ s ∈ Icc a b, (mesh s).edges 0 = 0)
    (hm : ∀ s ∈ Icc a b, ∀ k < c.Nspace, (mesh s).edges k < (mesh s).edges (k + 1))
    (he : ∀ k ≤ c.Nspace, ContinuousOn (fun s => (mesh s).edges k) (Icc a b))
    (hv : ∀ k ≤ c.Nspace, ∃ g : ℝ → ℝ, ContinuousOn g (Icc a b) ∧
      ∀ t ∈ Ioo a b, (mesh t).Dedges k = g t)
    (mats : ℝ → ℕ → CellMats)
    (hmats : ∀ t ∈ Ioo a b, ∀ k < c.Nspace, MatsExact c.M ((mesh t).edges k)
      ((mesh t).edges (k + 1)) ((mesh t).Dedges k) ((mesh t).Dedges (k + 1)) (mats t k))
    (S : ℝ → ℕ → ℕ → ℝ)
    (hS : ∀ k < c.Nspace, ∀ i ≤ c.M, ∃ g : ℝ → ℝ, ContinuousOn g (Icc a b) ∧
      ∀ t ∈ Ioo a b, S t k i = g t)
    (V0 : ℕ → ℕ → ℕ → ℝ) :
    ∃ V, (SphereSolutionOn p c mesh mats S a b {a} V ∧
      ∀ l < p.Nang, ∀ k < c.Nspace, ∀ i ≤ c.M, V a l k i = V0 l k i) ∧
      ∀ (G : Set ℝ) (W : ℝ → ℕ → ℕ → ℕ → ℝ), G.Finite →
        SphereSolutionOn p c mesh mats S a b G W →
        (∀ l < p.Nang, ∀ k < c.Nspace, ∀ i ≤ c.M, W a l k i = V0 l k i) →
        ∀ t ∈ Icc a b, ∀ l < p.Nang, ∀ k < c.Nspace, ∀ i ≤ c.M, W t l k i = V t l k i := by
  have hv' : ∀ k, ∃ g : ℝ → ℝ, k ≤ c.Nspace → ContinuousOn g (Icc a b) ∧
      ∀ t ∈ Ioo a b, (mesh t).Dedges k = g t := by
    intro k
    by_cases hk : k ≤ c.Nspace
    · obtain ⟨g, hg⟩ := hv k hk
      exact ⟨g, fun _ => hg⟩
    · exact ⟨fun _ => 0, fun h => absurd h hk⟩
  have hS' : ∀ k i, ∃ g : ℝ → ℝ, k < c.Nspace → i ≤ c.M → ContinuousOn g (Icc a b) ∧
      ∀ t ∈ Ioo a b, S t k i = g t := by
    intro k i
    by_cases hk : k < c.Nspace ∧ i ≤ c.M
    · obtain ⟨g, hg⟩ := hS k hk.1 i hk.2
      exact ⟨g, fun _ _ => hg⟩
    · exact ⟨fun _ => 0, fun h h' => absurd ⟨h, h'⟩ hk⟩
  choose g hg1 using hv'
  choose σ hσ using hS'
  set t0' : ℝ := if b ≤ c.t0 then b else a - 1 with ht0'
  set c' : FluxConfig := { c with t0 := t0' } with hc'
  have hconst : ∀ t ∈ Icc a b, ∀ k, isBoundarySourceOn c' k t = isBoundarySourceOn c' k a := by
    intro t ht k
    unfold isBoundarySourceOn
    have e : t ≤ c'.t0 ↔ a ≤ c'.t0 := by
      show t ≤ t0' ↔ a ≤ t0'
      rw [ht0']
      split_ifs
      · exact ⟨fun _ => hab, fun _ => ht.2⟩
      · exact ⟨fun h => ht.1.trans h, fun h => by linarith⟩
    simp only [e]
  have hsame : ∀ t ∈ Ioo a b, ∀ k, isBoundarySourceOn c k t = isBoundarySourceOn c' k t := by
    intro t ht k
    unfold isBoundarySourceOn
    have e : t ≤ c.t0 ↔ t ≤ c'.t0 := by
      show t ≤ c.t0 ↔ t ≤ t0'
      rw [ht0']
      split_ifs with h
      · exact ⟨fun _ => ht.2.le, fun _ => ht.2.le.trans h⟩
      · have := ht0.resolve_left h
        exact ⟨fun h' => by linarith [ht.1], fun h' => by linarith [ht.1]⟩
    simp only [e]
    rfl
  set mesh' : ℝ → MeshView := fun t => ⟨(mesh t).edges, fun k => g k t⟩ with hmesh'
  have hD : ∀ t ∈ Ioo a b, ∀ k ≤ c.Nspace, (mesh t).Dedges k = (mesh' t).Dedges k :=
    fun t ht k hk => (hg1 k hk).2 t ht
  obtain ⟨α, h1, h2, h3⟩ := sphere_continuous_piece p c' hg hM a b hab hmms _ hconst mesh' h0 hm he
    (fun k hk => (hg1 k hk).1) (fun t k i => σ k i t) (fun k hk i hi => (hσ k i hk hi).1) V0
  obtain ⟨K, hK⟩ := sphereOp_bound p c hg hM a b mesh' h0 hm he (fun k hk => (hg1 k hk).1)
  have hval : ∀ (U : Coefs p c) l (hl : l < p.Nang) k (hk : k < c.Nspace) i (h : i ≤ c.M),
      spread p c U l k i = U (⟨l, hl⟩, ⟨k, hk⟩, ⟨i, Nat.lt_succ_of_le h⟩) :=
    fun U l hl k hk i h => spread_at p c U (⟨l, hl⟩, ⟨k, hk⟩, ⟨i, Nat.lt_succ_of_le h⟩)
  have hIoo : ∀ t ∈ Ico a b \ {a}, t ∈ Ioo a b := fun t ht =>
    ⟨lt_of_le_of_ne ht.1.1 fun e => ht.2 e.symm, ht.1.2⟩
  have hsol : SphereSolutionOn p c mesh mats S a b {a} (fun t => spread p c (α t)) := by
    refine ⟨fun l hl k hk i h => (spread_continuous p c l k i).comp_continuousOn h1,
      fun t ht fs => ?_⟩
    have hta := hIoo t ht
    obtain ⟨R, hR⟩ : ∃ R, activeCall p c t (mesh t) (mats t) (S t) fs (spread p c (α t)) =
        some R := by
      unfold activeCall
      rw [if_neg (fun h => h.2 hcc), hg]
      exact ⟨_, rfl⟩
    refine ⟨R, hR, fun l hl k hk i h => ?_⟩
    have hd := h3 t ht.1 (⟨l, hl⟩, ⟨k, hk⟩, ⟨i, Nat.lt_succ_of_le h⟩)
    simp only [hval _ l hl k hk i h]
    refine hd.congr_deriv ?_
    rw [activeCall_sphere hg hR hl hk h]
    refine Eq.trans ?_ (sphereRhs_closed p c hg hM t (mesh t) (h0 t ⟨hta.1.le, hta.2.le⟩)
      (hm t ⟨hta.1.le, hta.2.le⟩) (mats t) (S t) fs _ l k ⟨i, Nat.lt_succ_of_le h⟩ hk
      (hmats t hta k hk)).symm
    exact (sphereField0_congr p hn c c' t0' t hc' (hsame t hta) (mesh t) (mesh' t) rfl (hD t hta)
      (S t) _ (fun k hk i hi => (hσ k i hk hi).2 t hta) _ _ (fun _ _ _ _ _ _ => rfl) hl hk _ _).symm
  refine ⟨fun t => spread p c (α t), ⟨hsol, fun l hl k hk i h => ?_⟩, fun G W hG hW hW0 => ?_⟩
  · show spread p c (α a) l k i = V0 l k i
    rw [hval _ l hl k hk i h, h2]
  · set D : ℝ → Coefs p c := fun s q => W s q.1 q.2.1 q.2.2 - α s q with hDd
    have hi : ∀ i : Fin (c.M + 1), (i : ℕ) ≤ c.M := fun i => Nat.lt_succ_iff.1 i.2
    have hz := linear_zero a b K K.2 (G ∪ {a}) (hG.union (finite_singleton a)) D
      (fun t => sphereOp p c mesh' t (D t))
      (fun q => (hW.1 q.1 q.1.2 q.2.1 q.2.1.2 q.2.2 (hi _)).sub (continuousOn_pi.1 h1 q))
      (fun t ht q => ?_)
      (fun t ht => hK t ⟨ht.1.1, ht.1.2.le⟩ _)
      (by
        funext q
        show W a q.1 q.2.1 q.2.2 - α a q = 0
        rw [hW0 q.1 q.1.2 q.2.1 q.2.1.2 q.2.2 (hi _), h2 q, sub_self])
    · intro t ht l hl k hk i h
      have := congrFun (hz t ht) (⟨l, hl⟩, ⟨k, hk⟩, ⟨i, Nat.lt_succ_of_le h⟩)
      show W t l k i = spread p c (α t) l k i
      rw [hval _ l hl k hk i h]
      exact sub_eq_zero.1 this
    · have hta := hIoo t ⟨ht.1, fun h => ht.2 (Or.inr h)⟩
      have hti : t ∈ Icc a b := ⟨hta.1.le, hta.2.le⟩
      have d1 := hW.rate hg hM ⟨ht.1, fun h => ht.2 (Or.inl h)⟩ (h0 t hti) (hm t hti)
        (hmats t hta) q.1.2 q.2.1.2 q.2.2.2
      have d2 := hsol.rate hg hM ⟨ht.1, fun h => ht.2 (Or.inr h)⟩ (h0 t hti) (hm t hti)
        (hmats t hta) q.1.2 q.2.1.2 q.2.2.2
      have e0 : (fun s => spread p c (α s) q.1 q.2.1 q.2.2) = fun s => α s q := by
        funext s; exact spread_at p c (α s) q
      simp only [e0] at d2
      refine (d1.sub d2).congr_deriv ?_
      have e1 := sphereField0_sub p c hg hM t (mesh t) (h0 t hti) (hm t hti) (S t) (W t)
        (spread p c (α t)) q.1 q.2.1 q.2.2 q.2.1.2
      refine e1.trans ?_
      exact sphereField0_congr p hn (vacuumConfig c) (vacuumConfig c) (vacuumConfig c).t0 t rfl
        (fun _ => rfl) (mesh t) (mesh' t) rfl (hD t hta) _ _ (fun _ _ _ _ => rfl) _ _
        (fun l hl k hk i h => by
          rw [hval _ l hl k hk i h, hval _ l hl k hk i h]) q.1.2 q.2.1.2 _ _

/-- Two pieces give a solution over both, with the common time excepted. -/
theorem SphereSolutionOn.glue {p : RhsParams} {c : FluxConfig} {mesh : ℝ → MeshView}
    {mats : ℝ → ℕ → CellMats} {S : ℝ → ℕ → ℕ → ℝ} {a d b : ℝ} (had : a ≤ d) (hdb : d ≤ b)
    {F G : Set ℝ} {V W : ℝ → ℕ → ℕ → ℕ → ℝ} (hV : SphereSolutionOn p c mesh mats S a d F V)
    (hW : SphereSolutionOn p c mesh mats S d b G W)
    (h : ∀ l < p.Nang, ∀ k < c.Nspace, ∀ i ≤ c.M, W d l k i = V d l k i) (hd : d ∈ F ∪ G) :
    SphereSolutionOn p c mesh mats S a b (F ∪ G) (fun t => if t ≤ d then V t else W t) := by
  refine ⟨fun l hl k hk i hi => ?_, fun t ht fs => ?_⟩
  · rw [← Icc_union_Icc_eq_Icc had hdb]
    refine ContinuousOn.union_of_isClosed ?_ ?_ isClosed_Icc isClosed_Icc
    · refine (hV.1 l hl k hk i hi).congr fun t ht => ?_
      simp only [if_pos ht.2]
    · refine (hW.1 l hl k hk i hi).congr fun t ht => ?_
      by_cases h1 : t ≤ d
      · have : t = d := le_antisymm h1 ht.1
        subst this
        simp only [if_pos h1, h l hl k hk i hi]
      · simp only [if_neg h1]
  · rcases lt_trichotomy t d with htd | htd | htd
    · obtain ⟨R, hR, h1⟩ := hV.2 t ⟨⟨ht.1.1, htd⟩, fun hF => ht.2 (Or.inl hF)⟩ fs
      refine ⟨R, by simp only [if_pos htd.le]; exact hR, fun l hl k hk i hi => ?_⟩
      refine (h1 l hl k hk i hi).congr_of_eventuallyEq ?_ (by simp only [if_pos htd.le])
      filter_upwards [mem_nhdsWithin_of_mem_nhds (Iio_mem_nhds htd)] with s hs
      simp only [if_pos (le_of_lt (show s < d from hs))]
    · subst htd
      exact absurd hd ht.2
    · obtain ⟨R, hR, h1⟩ := hW.2 t ⟨⟨htd.le, ht.1.2⟩, fun hF => ht.2 (Or.inr hF)⟩ fs
      refine ⟨R, by simp only [if_neg (not_le.2 htd)]; exact hR, fun l hl k hk i hi => ?_⟩
      refine (h1 l hl k hk i hi).congr (fun s hs => ?_) (by simp only [if_neg (not_le.2 htd)])
      simp only [if_neg (not_le.2 (lt_of_lt_of_le htd hs))]

/-- C104: the interval is divided by finitely many times `τ 0 ≤ … ≤ τ n`, among them the final time
of the boundary source.  Between them edges, edge velocities and source coefficients are
continuous; at them velocities and source may jump.  Then the equations of the active sphere
right-hand side have a solution from every initial state, and any other solution, even one that may
violate the equations at finitely many further times, agrees with it.  Directions and weights are
arbitrary apart from the checks of the program. -/
theorem c104_wellposed (p : RhsParams) (hn : 2 ≤ p.Nang) (hcc : centreChecks p.Nang p.mus)
    (c : FluxConfig) (hg : c.geometry = .sphere) (hM : c.M ≤ 10) (n : ℕ) (τ : ℕ → ℝ)
    (hτ : ∀ j < n, τ j ≤ τ (j + 1)) (hmms : c.mms = false ∨ -1 < τ 0)
    (ht0 : ∀ j < n, τ (j + 1) ≤ c.t0 ∨ c.t0 ≤ τ j) (mesh : ℝ → MeshView)
    (h0 : ∀ s ∈ Icc (τ 0) (τ n), (mesh s).edges 0 = 0)
    (hm : ∀ s ∈ Icc (τ 0) (τ n), ∀ k < c.Nspace, (mesh s).edges k < (mesh s).edges (k + 1))
    (he : ∀ k ≤ c.Nspace, ContinuousOn (fun s => (mesh s).edges k) (Icc (τ 0) (τ n)))
    (hv : ∀ j < n, ∀ k ≤ c.Nspace, ∃ g : ℝ → ℝ, ContinuousOn g (Icc (τ j) (τ (j + 1))) ∧
      ∀ t ∈ Ioo (τ j) (τ (j + 1)), (mesh t).Dedges k = g t)
    (mats : ℝ → ℕ → CellMats)
    (hmats : ∀ j < n, ∀ t ∈ Ioo (τ j) (τ (j + 1)), ∀ k < c.Nspace, MatsExact c.M
      ((mesh t).edges k) ((mesh t).edges (k + 1)) ((mesh t).Dedges k) ((mesh t).Dedges (k + 1))
      (mats t k))
    (S : ℝ → ℕ → ℕ → ℝ)
    (hS : ∀ j < n, ∀ k < c.Nspace, ∀ i ≤ c.M, ∃ g : ℝ → ℝ,
      ContinuousOn g (Icc (τ j) (τ (j + 1))) ∧ ∀ t ∈ Ioo (τ j) (τ (j + 1)), S t k i = g t)
    (V0 : ℕ → ℕ → ℕ → ℝ) :
    ∃ V, (SphereSolutionOn p c mesh mats S (τ 0) (τ n) {t | ∃ j < n, t = τ j} V ∧
      ∀ l < p.Nang, ∀ k < c.Nspace, ∀ i ≤ c.M, V (τ 0) l k i = V0 l k i) ∧
      ∀ (G : Set ℝ) (W : ℝ → ℕ → ℕ → ℕ → ℝ), G.Finite →
        SphereSolutionOn p c mesh mats S (τ 0) (τ n) G W →
        (∀ l < p.Nang, ∀ k < c.Nspace, ∀ i ≤ c.M, W (τ 0) l k i = V0 l k i) →
        ∀ t ∈ Icc (τ 0) (τ n), ∀ l < p.Nang, ∀ k < c.Nspace, ∀ i ≤ c.M, W t l k i = V t l k i := by
  induction n with
  | zero =>
    refine ⟨fun _ => V0, ⟨⟨fun _ _ _ _ _ _ => continuousOn_const, fun t ht => ?_⟩,
      fun _ _ _ _ _ _ => rfl⟩, fun G W _ _ hW0 t ht => ?_⟩
    · exact absurd ht.1.2 (not_lt.2 ht.1.1)
    · rw [le_antisymm ht.2 ht.1]
      exact hW0
  | succ n ih =>
    have hmono : ∀ j ≤ n, τ 0 ≤ τ j := by
      intro j
      induction j with
      | zero => exact fun _ => le_rfl
      | succ j ihj => exact fun hj => (ihj (by omega)).trans (hτ j (by omega))
    have h0n := hmono n le_rfl
    have hn1 := hτ n (by omega)
    have hsub : Icc (τ 0) (τ n) ⊆ Icc (τ 0) (τ (n + 1)) := Icc_subset_Icc_right hn1
    have hsub' : Icc (τ n) (τ (n + 1)) ⊆ Icc (τ 0) (τ (n + 1)) := Icc_subset_Icc_left h0n
    obtain ⟨V, ⟨h1, h2⟩, hu1⟩ := ih (fun j hj => hτ j (by omega)) (fun j hj => ht0 j (by omega))
      (fun s hs => h0 s (hsub hs)) (fun s hs => hm s (hsub hs)) (fun k hk => (he k hk).mono hsub)
      (fun j hj => hv j (by omega)) (fun j hj => hmats j (by omega)) (fun j hj => hS j (by omega))
    obtain ⟨W, ⟨h3, h4⟩, hu2⟩ := sphere_open_piece p hn hcc c hg hM (τ n) (τ (n + 1)) hn1
      (hmms.imp_right fun h => lt_of_lt_of_le h h0n) (ht0 n (by omega)) mesh
      (fun s hs => h0 s (hsub' hs)) (fun s hs => hm s (hsub' hs))
      (fun k hk => (he k hk).mono hsub') (hv n (by omega)) mats (hmats n (by omega)) S
      (hS n (by omega)) (V (τ n))
    have hset : {t | ∃ j < n + 1, t = τ j} = {t | ∃ j < n, t = τ j} ∪ {τ n} := by
      ext t
      constructor
      · rintro ⟨j, hj, rfl⟩
        by_cases hjn : j = n
        · exact Or.inr (by rw [hjn]; rfl)
        · exact Or.inl ⟨j, by omega, rfl⟩
      · rintro (⟨j, hj, rfl⟩ | h)
        · exact ⟨j, by omega, rfl⟩
        · exact ⟨n, by omega, h⟩
    refine ⟨fun t => if t ≤ τ n then V t else W t, ⟨?_, fun l hl k hk i hi => ?_⟩,
      fun G U hG hU hU0 t ht l hl k hk i hi => ?_⟩
    · rw [hset]
      exact h1.glue h0n hn1 h3 h4 (Or.inr rfl)
    · simp only [if_pos h0n]
      exact h2 l hl k hk i hi
    · have q1 := hu1 G U hG (hU.mono le_rfl hn1) hU0
      by_cases htn : t ≤ τ n
      · simp only [if_pos htn]
        exact q1 t ⟨ht.1, htn⟩ l hl k hk i hi
      · simp only [if_neg htn]
        exact hu2 G U hG (hU.mono h0n le_rfl) (q1 (τ n) ⟨h0n, le_rfl⟩) t
          ⟨(not_le.1 htn).le, ht.2⟩ l hl k hk i hi

theorem exampleSphere_checks : centreChecks exampleSphereParams.Nang exampleSphereParams.mus :=
  centreChecks_pair (1 / 2) (by norm_num)

/-- The growing example mesh, any weights: a solution on `[0, 1]` from every initial state. -/
theorem exampleSphere_solution_weights {mats : ℝ → ℕ → CellMats}
    (h : SphereMeshOn exampleSphereConfig exampleSphereMesh mats 0 1 ∅) (w : ℕ → ℝ)
    (V0 : ℕ → ℕ → ℕ → ℝ) :
    ∃ V, SphereSolutionOn { exampleSphereParams with ws := w } exampleSphereConfig exampleSphereMesh mats
      (fun _ _ _ => 1) 0 1 {0} V ∧
      ∀ l < exampleSphereParams.Nang, ∀ k < exampleSphereConfig.Nspace,
        ∀ i ≤ exampleSphereConfig.M, V 0 l k i = V0 l k i := by
  have hIoo : ∀ t ∈ Ioo ((0 : ℕ) : ℝ) ((0 + 1 : ℕ) : ℝ), t ∈ Ico (0 : ℝ) 1 \ ∅ := fun t ht =>
    ⟨⟨by have := ht.1.le; simpa using this, by have := ht.2; simpa using this⟩, fun h => h⟩
  obtain ⟨V, hV, -⟩ := c104_wellposed { exampleSphereParams with ws := w } le_rfl
    exampleSphere_checks exampleSphereConfig rfl (by simp [exampleSphereConfig, exampleConfig]) 1
    (fun j => (j : ℝ))
    (fun j _ => by push_cast; linarith) (Or.inl rfl)
    (fun j hj => by
      have : j = 0 := by omega
      subst this
      show ((0 + 1 : ℕ) : ℝ) ≤ exampleConfig.t0 ∨ exampleConfig.t0 ≤ ((0 : ℕ) : ℝ)
      norm_num [exampleConfig])
    exampleSphereMesh (by simpa using h.centre) (by simpa using h.ordered)
    (by simpa using h.cont)
    (fun j _ k _ => ⟨fun _ => (k : ℝ), continuousOn_const, fun _ _ => rfl⟩) mats
    (fun j hj t ht => by
      have : j = 0 := by omega
      subst this
      exact h.mats t (hIoo t ht))
    (fun _ _ _ => 1) (fun _ _ _ _ _ _ => ⟨fun _ => 1, continuousOn_const, fun _ _ => rfl⟩) V0
  refine ⟨V, ?_⟩
  simpa using hV

theorem exampleSphere_solution {mats : ℝ → ℕ → CellMats}
    (h : SphereMeshOn exampleSphereConfig exampleSphereMesh mats 0 1 ∅) (V0 : ℕ → ℕ → ℕ → ℝ) :
    ∃ V, SphereSolutionOn exampleSphereParams exampleSphereConfig exampleSphereMesh mats
      (fun _ _ _ => 1) 0 1 {0} V ∧
      ∀ l < exampleSphereParams.Nang, ∀ k < exampleSphereConfig.Nspace,
        ∀ i ≤ exampleSphereConfig.M, V 0 l k i = V0 l k i :=
  exampleSphere_solution_weights h (fun _ => 1 / 2) V0

/-- The hypotheses of C103 are met by the solutions of C104 from two different initial states. -/
example (V0 W0 : ℕ → ℕ → ℕ → ℝ) : ∃ V W : ℝ → ℕ → ℕ → ℕ → ℝ,
    (∀ l < 2, ∀ k < 3, ∀ i ≤ 1, V 0 l k i = V0 l k i ∧ W 0 l k i = W0 l k i) ∧
    AntitoneOn (fun t => sphereAngularSq exampleSphereParams 3 1 (exampleSphereMesh t).edges
      fun l k i => V t l k i - W t l k i) (Icc 0 1) := by
  obtain ⟨mats, h⟩ := exampleSphere_meshOn
  obtain ⟨V, hV, hV0⟩ := exampleSphere_solution h V0
  obtain ⟨W, hW, hW0⟩ := exampleSphere_solution h W0
  have h' : SphereMeshOn exampleSphereConfig exampleSphereMesh mats 0 1 {0} :=
    { h with
      velocity := fun t ht => h.velocity t ⟨ht.1, fun h => h⟩
      mats := fun t ht => h.mats t ⟨ht.1, fun h => h⟩ }
  exact ⟨V, W, fun l hl k hk i hi => ⟨hV0 l hl k hk i hi, hW0 l hl k hk i hi⟩,
    c103_sphere_never_grows_partial exampleSphereParams exampleSphere_directions
      exampleSphere_weights (by simp [exampleSphereParams]) (by simp [exampleSphereParams])
      exampleSphere_midpoints exampleSphereConfig rfl
      (by simp [exampleSphereConfig, exampleConfig]) (by simp [exampleSphereConfig, exampleConfig])
      0 1 {0} (finite_singleton 0) exampleSphereMesh mats h' (fun _ _ _ => 1) V W hV hW⟩

/-- C103 for unequal weights `1/3` and `2/3`. -/
example (V0 W0 : ℕ → ℕ → ℕ → ℝ) : ∃ V W : ℝ → ℕ → ℕ → ℕ → ℝ,
    (∀ l < 2, ∀ k < 3, ∀ i ≤ 1, V 0 l k i = V0 l k i ∧ W 0 l k i = W0 l k i) ∧
    ∀ t ∈ Icc (0 : ℝ) 1, sphereAngularSq (cellParams exampleSphereParams) 3 1
        (exampleSphereMesh t).edges (fun l k i => V t l k i - W t l k i) ≤
      sphereAngularSq (cellParams exampleSphereParams) 3 1 (exampleSphereMesh 0).edges
        (fun l k i => V 0 l k i - W 0 l k i) * Real.exp (1 / 9 * t) := by
  obtain ⟨mats, h⟩ := exampleSphere_meshOn
  set w : ℕ → ℝ := fun l => if l = 0 then 1 / 3 else 2 / 3 with hw
  obtain ⟨V, hV, hV0⟩ := exampleSphere_solution_weights h w V0
  obtain ⟨W, hW, hW0⟩ := exampleSphere_solution_weights h w W0
  have h' : SphereMeshOn exampleSphereConfig exampleSphereMesh mats 0 1 {0} :=
    { h with
      velocity := fun t ht => h.velocity t ⟨ht.1, fun h => h⟩
      mats := fun t ht => h.mats t ⟨ht.1, fun h => h⟩ }
  obtain ⟨C, -, hC⟩ := c103_sphere_difference_bound_weights 1 (by norm_num)
  refine ⟨V, W, fun l hl k hk i hi => ⟨hV0 l hl k hk i hi, hW0 l hl k hk i hi⟩, fun t ht => ?_⟩
  have := hC { exampleSphereParams with ws := w } exampleSphereConfig exampleSphereMesh mats
    (fun _ _ _ => 1) 0 1 0 1 (10 / 9) {0} V W exampleSphere_directions
    (by norm_num [exampleSphereParams, hw, Finset.sum_range_succ, angularWidth, angularEdge])
    (by simp [exampleSphereParams]) rfl rfl (finite_singleton 0) h' le_rfl
    (fun l hl => by linarith [exampleSphere_midpoints l hl]) one_pos
    (fun s hs => by simp only [exampleSphereMesh]; push_cast; linarith [hs.1]) hV hW t ht
  refine this.trans_eq ?_
  have e : ((exampleSphereParams.c * (1 + 10 / 9) - 2 + 2 * 0 * C / 1) * (t - 0)) = 1 / 9 * t := by
    simp only [exampleSphereParams]; ring
  simp only [e]
  rfl

end Verif.Props
