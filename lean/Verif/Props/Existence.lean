import Verif.Lemmas.LinearODE
import Verif.Lemmas.StreamContinuity
import Verif.Props.Stability

/-!
Property C87: the slab equations have exactly one solution from every initial state.
-/

namespace Verif.Props

open Verif.Spec Verif.Model Verif.Lemmas Set
open scoped NNReal

/-- `V` is continuous on `[a, b]` and solves the equations of the slab problem with constant
opacity at every time of `[a, b)` outside `F`, whatever the scratch fields of the flux object
hold. -/
def SlabSolutionOn (p : RhsParams) (c : FluxConfig) (mesh : ℝ → MeshView) (S : ℝ → ℕ → ℕ → ℝ)
    (a b : ℝ) (F : Set ℝ) (V : ℝ → ℕ → ℕ → ℕ → ℝ) : Prop :=
  (∀ l < p.Nang, ∀ k < c.Nspace, ∀ i ≤ c.M, ContinuousOn (fun s => V s l k i) (Icc a b)) ∧
  ∀ t ∈ Ico a b \ F, ∀ l < p.Nang, ∀ k < c.Nspace, ∀ i ≤ c.M, ∀ (uRefl : ℕ → ℝ) (fs : FluxState),
    HasDerivWithinAt (fun s => V s l k i)
      (slabConstantRhs p c t (mesh t) (S t) uRefl fs (V t) l k i) (Ici t) t

/-- The streaming part does not depend on the scratch fields. -/
theorem streamPart_scratch (c : FluxConfig) (hg : c.geometry = .slab) (t : ℝ)
    (m : MeshView) (hm : ∀ k < c.Nspace, m.edges k < m.edges (k + 1)) (uRefl uRefl' : ℕ → ℝ)
    (fs fs' : FluxState) (u : ℕ → ℕ → ℝ) (mul : ℝ) (k i : ℕ) (hk : k < c.Nspace) (hi : i ≤ c.M) :
    streamPart c t m u k mul uRefl fs i = streamPart c t m u k mul uRefl' fs' i := by
  have h1 := streamPart_sub c hg t m hm uRefl uRefl' fs fs' fs u u mul k i hk hi
  have h2 := streamPart_sub c hg t m hm uRefl uRefl fs fs fs u u mul k i hk hi
  linarith

theorem slabConstantRhs_scratch (p : RhsParams) (c : FluxConfig) (hg : c.geometry = .slab) (t : ℝ)
    (m : MeshView) (hm : ∀ k < c.Nspace, m.edges k < m.edges (k + 1)) (S : ℕ → ℕ → ℝ)
    (uRefl uRefl' : ℕ → ℝ) (fs fs' : FluxState) (V : ℕ → ℕ → ℕ → ℝ) (l k i : ℕ)
    (hk : k < c.Nspace) (hi : i ≤ c.M) :
    slabConstantRhs p c t m S uRefl fs V l k i = slabConstantRhs p c t m S uRefl' fs' V l k i := by
  unfold slabConstantRhs
  rw [streamPart_scratch c hg t m hm uRefl uRefl' fs fs' (V l) (p.mus l) k i hk hi]

/-- The streaming part sees the final time `t0` of the source only through the switch, and the mesh
only through its edges and velocities at this time. -/
theorem streamPart_switch (c c' : FluxConfig) (t0 : ℝ) (hc' : c' = { c with t0 := t0 })
    (t : ℝ) (hsw : ∀ k, isBoundarySourceOn c k t = isBoundarySourceOn c' k t)
    (m : MeshView) (hm : ∀ k < c.Nspace, m.edges k < m.edges (k + 1))
    (uRefl : ℕ → ℝ) (fs : FluxState) (u : ℕ → ℕ → ℝ) (mul : ℝ) (k i : ℕ) (hk : k < c.Nspace)
    (hi : i ≤ c.M) :
    streamPart c t m u k mul uRefl fs i = streamPart c' t m u k mul uRefl fs i := by
  have hl : leftOuter c t m u k uRefl = leftOuter c' t m u k uRefl := by
    unfold leftOuter
    rw [hsw]
    subst hc'
    rfl
  have hr : rightOuter c t m u k = rightOuter c' t m u k := by
    unfold rightOuter
    rw [hsw]
    subst hc'
    rfl
  have hm' : ∀ k < c'.Nspace, m.edges k < m.edges (k + 1) := by subst hc'; exact hm
  unfold streamPart
  rw [fluxLU_eq c t m u k mul uRefl fs hk hm hi,
    fluxLU_eq c' t m u k mul uRefl fs (by subst hc'; exact hk) hm' (by subst hc'; exact hi), hl, hr]
  subst hc'
  rfl

theorem streamPart_vacuum_smul (c : FluxConfig) (hg : c.geometry = .slab) (t : ℝ)
    (m : MeshView) (hm : ∀ k < c.Nspace, m.edges k < m.edges (k + 1)) (uRefl : ℕ → ℝ)
    (fs : FluxState) (u : ℕ → ℕ → ℝ) (mul r : ℝ) (k i : ℕ)
    (hk : k < c.Nspace) (hi : i ≤ c.M) :
    streamPart (vacuumConfig c) t m (fun k j => r * u k j) k mul uRefl fs i =
      r * streamPart (vacuumConfig c) t m u k mul uRefl fs i := by
  have hfield : ∀ (U : ℕ → ℝ) a b x, slabField c.M (fun j => r * U j) a b x =
      r * slabField c.M U a b x := by
    intro U a b x
    simpa using slabField_linear c.M U U r 0 a b x
  have hmat : ∀ (A : ℕ → ℕ → ℝ) (U : ℕ → ℝ), matVec c.M A (fun j => r * U j) i =
      r * matVec c.M A U i := by
    intro A U
    simpa using matVec_linear c.M A U U r 0 i
  have e1 : leftOuter (vacuumConfig c) t m (fun k j => r * u k j) k uRefl =
      r * leftOuter (vacuumConfig c) t m u k uRefl := by
    unfold leftOuter
    rw [vacuumConfig_off]
    simp only [show (vacuumConfig c).geometry = .slab from hg,
      show (vacuumConfig c).M = c.M from rfl, geomField]
    split_ifs <;> simp_all
  have e2 : rightOuter (vacuumConfig c) t m (fun k j => r * u k j) k =
      r * rightOuter (vacuumConfig c) t m u k := by
    unfold rightOuter
    rw [vacuumConfig_off]
    simp only [show (vacuumConfig c).geometry = .slab from hg,
      show (vacuumConfig c).M = c.M from rfl, show (vacuumConfig c).Nspace = c.Nspace from rfl,
      geomField]
    split_ifs <;> simp_all
  unfold streamPart
  rw [fluxLU_eq (vacuumConfig c) t m _ k _ uRefl fs hk hm hi,
    fluxLU_eq (vacuumConfig c) t m u k _ uRefl fs hk hm hi, e1, e2,
    show (vacuumConfig c).geometry = .slab from hg, show (vacuumConfig c).M = c.M from rfl]
  simp only [geomArea, geomBasis, geomField, hfield, hmat]
  unfold upwind
  ring

/-- The coefficients that the scheme uses, as a point of a finite-dimensional space. -/
abbrev Coefs (p : RhsParams) (c : FluxConfig) : Type :=
  Fin p.Nang × Fin c.Nspace × Fin (c.M + 1) → ℝ

/-- Coefficients as functions of all indices, zero outside. -/
noncomputable def spread (p : RhsParams) (c : FluxConfig) (U : Coefs p c) (l k i : ℕ) : ℝ :=
  if h : l < p.Nang ∧ k < c.Nspace ∧ i < c.M + 1 then
    U (⟨l, h.1⟩, ⟨k, h.2.1⟩, ⟨i, h.2.2⟩) else 0

theorem spread_continuous (p : RhsParams) (c : FluxConfig) (l k i : ℕ) :
    Continuous fun U : Coefs p c => spread p c U l k i := by
  unfold spread
  by_cases h : l < p.Nang ∧ k < c.Nspace ∧ i < c.M + 1
  · simp only [dif_pos h]; exact continuous_apply _
  · simp only [dif_neg h]; exact continuous_const

theorem spread_at (p : RhsParams) (c : FluxConfig) (U : Coefs p c) (q : Fin p.Nang × Fin c.Nspace ×
    Fin (c.M + 1)) : spread p c U q.1 q.2.1 q.2.2 = U q := by
  unfold spread
  rw [dif_pos ⟨q.1.2, q.2.1.2, q.2.2.2⟩]

theorem spread_sub (p : RhsParams) (c : FluxConfig) (U W : Coefs p c) (l k i : ℕ) :
    spread p c (U - W) l k i = spread p c U l k i - spread p c W l k i := by
  unfold spread
  split_ifs <;> simp

theorem spread_smul (p : RhsParams) (c : FluxConfig) (r : ℝ) (U : Coefs p c) (l k i : ℕ) :
    spread p c (r • U) l k i = r * spread p c U l k i := by
  unfold spread
  split_ifs <;> simp

/-- A jointly continuous homogeneous map is bounded by a multiple of the norm. -/
theorem homogeneous_bound {E : Type*} [NormedAddCommGroup E] [NormedSpace ℝ E] [ProperSpace E]
    (A : ℝ → E → E) (a b : ℝ) (hA : ContinuousOn (fun q : ℝ × E => A q.1 q.2) (Icc a b ×ˢ univ))
    (hh : ∀ t ∈ Icc a b, ∀ (r : ℝ) D, A t (r • D) = r • A t D) :
    ∃ K : ℝ≥0, ∀ t ∈ Icc a b, ∀ D, ‖A t D‖ ≤ K * ‖D‖ := by
  obtain ⟨B, hB⟩ := (isCompact_Icc.prod (isCompact_closedBall (0 : E) 1)).exists_bound_of_continuousOn
    (hA.mono (prod_mono_right (subset_univ _)))
  refine ⟨⟨max B 0, le_max_right _ _⟩, fun t ht D => ?_⟩
  show ‖A t D‖ ≤ max B 0 * ‖D‖
  by_cases hD : D = 0
  · have := hh t ht 0 0
    rw [zero_smul, zero_smul] at this
    rw [hD, this, norm_zero, mul_zero]
  · have hn : ‖D‖ ≠ 0 := norm_ne_zero_iff.2 hD
    have h1 := hB (t, ‖D‖⁻¹ • D) ⟨ht, by
      rw [mem_closedBall_zero_iff, norm_smul, norm_inv, norm_norm, inv_mul_cancel₀ hn]⟩
    have h2 : A t D = ‖D‖ • A t (‖D‖⁻¹ • D) := by
      rw [← hh t ht, smul_smul, mul_inv_cancel₀ hn, one_smul]
    rw [h2, norm_smul, norm_norm, mul_comm]
    exact mul_le_mul_of_nonneg_right (h1.trans (le_max_left _ _)) (norm_nonneg _)

/-- Existence over one piece: everything is continuous and the source is not switched. -/
theorem exists_continuous_piece (p : RhsParams) (c : FluxConfig) (hg : c.geometry = .slab)
    (a b : ℝ) (hab : a ≤ b) (hmms : c.mms = false ∨ -1 < a)
    (sw : ℕ → Bool) (hsw : ∀ t ∈ Icc a b, ∀ k, isBoundarySourceOn c k t = sw k)
    (mesh : ℝ → MeshView)
    (hm : ∀ s ∈ Icc a b, ∀ k < c.Nspace, (mesh s).edges k < (mesh s).edges (k + 1))
    (he : ∀ k ≤ c.Nspace, ContinuousOn (fun s => (mesh s).edges k) (Icc a b))
    (hv : ∀ k ≤ c.Nspace, ContinuousOn (fun s => (mesh s).Dedges k) (Icc a b))
    (S : ℝ → ℕ → ℕ → ℝ)
    (hS : ∀ k < c.Nspace, ∀ i ≤ c.M, ContinuousOn (fun s => S s k i) (Icc a b))
    (V0 : ℕ → ℕ → ℕ → ℝ) :
    ∃ V, SlabSolutionOn p c mesh S a b ∅ V ∧
      ∀ l < p.Nang, ∀ k < c.Nspace, ∀ i ≤ c.M, V a l k i = V0 l k i := by
  set fs : FluxState := ⟨0, 0, 0, 0, 0, 0, 0, 0, 0, fun _ => 0⟩
  set f : ℝ → Coefs p c → Coefs p c := fun t U q =>
    slabConstantRhs p c t (mesh t) (S t) (fun _ => 0) fs (spread p c U) q.1 q.2.1 q.2.2 with hf
  set A : ℝ → Coefs p c → Coefs p c := fun t D q =>
    streamPart (vacuumConfig c) t (mesh t) (spread p c D q.1) q.2.1 (p.mus q.1) (fun _ => 0) fs
      q.2.2 - spread p c D q.1 q.2.1 q.2.2 +
      p.c * makeP p.Nang p.ws (fun l => spread p c D l q.2.1) q.2.2 with hAd
  have hi : ∀ i : Fin (c.M + 1), (i : ℕ) ≤ c.M := fun i => Nat.lt_succ_iff.1 i.2
  have hfst : ContinuousOn (fun q : ℝ × Coefs p c => q.1) (Icc a b ×ˢ univ) :=
    continuous_fst.continuousOn
  have hmap : MapsTo (fun q : ℝ × Coefs p c => q.1) (Icc a b ×ˢ univ) (Icc a b) :=
    fun q hq => hq.1
  have hspread : ∀ l k i, ContinuousOn (fun q : ℝ × Coefs p c => spread p c q.2 l k i)
      (Icc a b ×ˢ univ) := fun l k i =>
    ((spread_continuous p c l k i).comp continuous_snd).continuousOn
  have hP : ∀ k i, ContinuousOn (fun q : ℝ × Coefs p c =>
      makeP p.Nang p.ws (fun l => spread p c q.2 l k) i) (Icc a b ×ˢ univ) := by
    intro k i
    simp only [makeP_eq]
    unfold angularSum
    exact continuousOn_finsetSum _ fun l _ => continuousOn_const.mul (hspread l k i)
  have hmms' : c.mms = false ∨ ∀ q ∈ (Icc a b ×ˢ univ : Set (ℝ × Coefs p c)), q.1 ≠ -1 := by
    rcases hmms with h | h
    · exact Or.inl h
    · exact Or.inr fun q hq e => by have := hq.1.1; rw [e] at this; linarith
  have hA : ContinuousOn (fun q : ℝ × Coefs p c => A q.1 q.2) (Icc a b ×ˢ univ) := by
    refine continuousOn_pi.2 fun j => ?_
    refine ((continuousOn_streamPart (vacuumConfig c) hg hfst (Or.inl rfl) (fun _ => false)
      (fun q _ k => vacuumConfig_off c k _) (m := fun q => mesh q.1)
      (fun q hq => hm q.1 hq.1) (fun k hk => (he k hk).comp hfst hmap)
      (fun k hk => (hv k hk).comp hfst hmap) (u := fun q => spread p c q.2 j.1)
      (fun k _ i _ => hspread _ _ _) _ (fun _ _ => 0) (fun _ => fs) j.2.1.2 (hi j.2.2)).sub
      (hspread _ _ _)).add (continuousOn_const.mul (hP _ _))
  have hdiff : ∀ t ∈ Icc a b, ∀ U W, f t U - f t W = A t (U - W) := by
    intro t ht U W
    funext j
    have e := streamPart_sub c hg t (mesh t) (hm t ht) (fun _ => 0) (fun _ => 0) fs fs fs
      (spread p c U j.1) (spread p c W j.1) (p.mus j.1) j.2.1 j.2.2 j.2.1.2 (hi j.2.2)
    have e1 : spread p c (U - W) j.1 = fun k i => spread p c U j.1 k i - spread p c W j.1 k i := by
      funext k i; exact spread_sub p c U W j.1 k i
    have e2 : makeP p.Nang p.ws (fun l => spread p c (U - W) l j.2.1) j.2.2 =
        makeP p.Nang p.ws (fun l => spread p c U l j.2.1) j.2.2 -
          makeP p.Nang p.ws (fun l => spread p c W l j.2.1) j.2.2 := by
      simp only [makeP_eq]
      unfold angularSum
      rw [← Finset.sum_sub_distrib]
      exact Finset.sum_congr rfl fun l _ => by
        simp only [spread_sub]; ring
    simp only [hf, hAd, Pi.sub_apply]
    rw [e2, e1, ← e]
    unfold slabConstantRhs
    ring
  have hhom : ∀ t ∈ Icc a b, ∀ (r : ℝ) D, A t (r • D) = r • A t D := by
    intro t ht r D
    funext j
    have e1 : spread p c (r • D) j.1 = fun k i => r * spread p c D j.1 k i := by
      funext k i; exact spread_smul p c r D j.1 k i
    have e2 : makeP p.Nang p.ws (fun l => spread p c (r • D) l j.2.1) j.2.2 =
        r * makeP p.Nang p.ws (fun l => spread p c D l j.2.1) j.2.2 := by
      simp only [makeP_eq]
      unfold angularSum
      rw [Finset.mul_sum]
      exact Finset.sum_congr rfl fun l _ => by
        simp only [spread_smul]; ring
    have e3 : streamPart (vacuumConfig c) t (mesh t) (fun k i => r * spread p c D j.1 k i) j.2.1
        (p.mus j.1) (fun _ => 0) fs j.2.2 = r * streamPart (vacuumConfig c) t (mesh t)
          (spread p c D j.1) j.2.1 (p.mus j.1) (fun _ => 0) fs j.2.2 :=
      streamPart_vacuum_smul c hg t (mesh t) (hm t ht) _ fs _ _ r _ _ j.2.1.2 (hi j.2.2)
    simp only [hAd, Pi.smul_apply, smul_eq_mul]
    rw [e2, e1, e3]
    ring
  obtain ⟨K, hK⟩ := homogeneous_bound A a b hA hhom
  obtain ⟨α, h1, h2⟩ := exists_solution f a b hab K
    (fun t ht => LipschitzWith.of_dist_le_mul fun U W => by
      rw [dist_eq_norm, dist_eq_norm, hdiff t ht]
      exact hK t ht _)
    (fun U => by
      refine continuousOn_pi.2 fun j => ?_
      simp only [hf]
      unfold slabConstantRhs
      refine (((continuousOn_streamPart c hg continuousOn_id ?_ sw hsw hm he hv
        (u := fun _ => spread p c U j.1) (fun k _ i _ => continuousOn_const) _ (fun _ _ => 0)
        (fun _ => fs) j.2.1.2 (hi j.2.2)).sub continuousOn_const).add continuousOn_const).add
        (continuousOn_const.mul (hS j.2.1 j.2.1.2 j.2.2 (hi j.2.2)))
      rcases hmms with h | h
      · exact Or.inl h
      · exact Or.inr fun t ht e => by
          have := ht.1
          simp only [id] at e
          rw [e] at this
          linarith)
    (fun q => V0 q.1 q.2.1 q.2.2)
  have hval : ∀ (U : Coefs p c) l (hl : l < p.Nang) k (hk : k < c.Nspace) i (h : i ≤ c.M),
      spread p c U l k i = U (⟨l, hl⟩, ⟨k, hk⟩, ⟨i, Nat.lt_succ_of_le h⟩) :=
    fun U l hl k hk i h => spread_at p c U (⟨l, hl⟩, ⟨k, hk⟩, ⟨i, Nat.lt_succ_of_le h⟩)
  refine ⟨fun t => spread p c (α t), ⟨fun l hl k hk i h => ?_, fun t ht l hl k hk i h uRefl fs' => ?_⟩,
    fun l hl k hk i h => ?_⟩
  · exact (spread_continuous p c l k i).comp_continuousOn h2.1
  · have hd := hasDerivWithinAt_pi.1 (h2.2 t ht.1) (⟨l, hl⟩, ⟨k, hk⟩, ⟨i, Nat.lt_succ_of_le h⟩)
    simp only [hf] at hd
    simp only [hval _ l hl k hk i h]
    rw [slabConstantRhs_scratch p c hg t (mesh t) (hm t ⟨ht.1.1, ht.1.2.le⟩) (S t) uRefl (fun _ => 0)
      fs' fs _ l k i hk h]
    exact hd
  · show spread p c (α a) l k i = V0 l k i
    rw [hval _ l hl k hk i h, h1]

/-- Two pieces give a solution over both, with the common time excepted. -/
theorem SlabSolutionOn.glue {p : RhsParams} {c : FluxConfig} {mesh : ℝ → MeshView}
    {S : ℝ → ℕ → ℕ → ℝ} {a d b : ℝ} (had : a ≤ d) (hdb : d ≤ b) {F G : Set ℝ}
    {V W : ℝ → ℕ → ℕ → ℕ → ℝ} (hV : SlabSolutionOn p c mesh S a d F V)
    (hW : SlabSolutionOn p c mesh S d b G W)
    (h : ∀ l < p.Nang, ∀ k < c.Nspace, ∀ i ≤ c.M, W d l k i = V d l k i) (hd : d ∈ F ∪ G) :
    SlabSolutionOn p c mesh S a b (F ∪ G) (fun t => if t ≤ d then V t else W t) := by
  refine ⟨fun l hl k hk i hi => ?_, fun t ht l hl k hk i hi uRefl fs => ?_⟩
  · rw [← Icc_union_Icc_eq_Icc had hdb]
    refine ContinuousOn.union_of_isClosed ?_ ?_ isClosed_Icc isClosed_Icc
    · refine (hV.1 l hl k hk i hi).congr fun t ht => ?_
      simp only [if_pos ht.2]
    · refine (hW.1 l hl k hk i hi).congr fun t ht => ?_
      by_cases h1 : t ≤ d
      · have : t = d := le_antisymm h1 ht.1
        subst this
        simp only [if_pos h1, h l hl k hk i hi]
      · simp only [if_neg h1]
  · rcases lt_trichotomy t d with htd | htd | htd
    · have h1 := hV.2 t ⟨⟨ht.1.1, htd⟩, fun hF => ht.2 (Or.inl hF)⟩ l hl k hk i hi uRefl fs
      simp only [if_pos htd.le]
      refine h1.congr_of_eventuallyEq ?_ (by simp only [if_pos htd.le])
      filter_upwards [mem_nhdsWithin_of_mem_nhds (Iio_mem_nhds htd)] with s hs
      simp only [if_pos (le_of_lt (show s < d from hs))]
    · subst htd
      exact absurd hd ht.2
    · have h1 := hW.2 t ⟨⟨htd.le, ht.1.2⟩, fun hF => ht.2 (Or.inr hF)⟩ l hl k hk i hi uRefl fs
      simp only [if_neg (not_le.2 htd)]
      refine h1.congr (fun s hs => ?_) (by simp only [if_neg (not_le.2 htd)])
      simp only [if_neg (not_le.2 (lt_of_lt_of_le htd hs))]

/-- Existence over one piece, at whose ends velocity, source and boundary source may jump. -/
theorem exists_open_piece (p : RhsParams) (c : FluxConfig) (hg : c.geometry = .slab)
    (a b : ℝ) (hab : a ≤ b) (hmms : c.mms = false ∨ -1 < a) (ht0 : b ≤ c.t0 ∨ c.t0 ≤ a)
    (mesh : ℝ → MeshView)
    (hm : ∀ s ∈ Icc a b, ∀ k < c.Nspace, (mesh s).edges k < (mesh s).edges (k + 1))
    (he : ∀ k ≤ c.Nspace, ContinuousOn (fun s => (mesh s).edges k) (Icc a b))
    (hv : ∀ k ≤ c.Nspace, ∃ g : ℝ → ℝ, ContinuousOn g (Icc a b) ∧
      ∀ t ∈ Ioo a b, (mesh t).Dedges k = g t)
    (S : ℝ → ℕ → ℕ → ℝ)
    (hS : ∀ k < c.Nspace, ∀ i ≤ c.M, ∃ g : ℝ → ℝ, ContinuousOn g (Icc a b) ∧
      ∀ t ∈ Ioo a b, S t k i = g t)
    (V0 : ℕ → ℕ → ℕ → ℝ) :
    ∃ V, SlabSolutionOn p c mesh S a b {a} V ∧
      ∀ l < p.Nang, ∀ k < c.Nspace, ∀ i ≤ c.M, V a l k i = V0 l k i := by
  have hv' : ∀ k, ∃ g : ℝ → ℝ, k ≤ c.Nspace → ContinuousOn g (Icc a b) ∧
      ∀ t ∈ Ioo a b, (mesh t).Dedges k = g t := by
    intro k
    by_cases hk : k ≤ c.Nspace
    · obtain ⟨g, hg⟩ := hv k hk
      exact ⟨g, fun _ => hg⟩
    · exact ⟨fun _ => 0, fun h => absurd h hk⟩
  have hS' : ∀ k i, ∃ g : ℝ → ℝ, k < c.Nspace → i ≤ c.M → ContinuousOn g (Icc a b) ∧
      ∀ t ∈ Ioo a b, S t k i = g t := by
    intro k i
    by_cases hk : k < c.Nspace ∧ i ≤ c.M
    · obtain ⟨g, hg⟩ := hS k hk.1 i hk.2
      exact ⟨g, fun _ _ => hg⟩
    · exact ⟨fun _ => 0, fun h h' => absurd ⟨h, h'⟩ hk⟩
  choose g hg1 using hv'
  choose σ hσ using hS'
  set t0' : ℝ := if b ≤ c.t0 then b else a - 1 with ht0'
  set c' : FluxConfig := { c with t0 := t0' } with hc'
  have hconst : ∀ t ∈ Icc a b, ∀ k, isBoundarySourceOn c' k t = isBoundarySourceOn c' k a := by
    intro t ht k
    unfold isBoundarySourceOn
    have e : t ≤ c'.t0 ↔ a ≤ c'.t0 := by
      show t ≤ t0' ↔ a ≤ t0'
      rw [ht0']
      split_ifs
      · exact ⟨fun _ => hab, fun _ => ht.2⟩
      · exact ⟨fun h => ht.1.trans h, fun h => by linarith⟩
    simp only [e]
  have hsame : ∀ t ∈ Ioo a b, ∀ k, isBoundarySourceOn c k t = isBoundarySourceOn c' k t := by
    intro t ht k
    unfold isBoundarySourceOn
    have e : t ≤ c.t0 ↔ t ≤ c'.t0 := by
      show t ≤ c.t0 ↔ t ≤ t0'
      rw [ht0']
      split_ifs with h
      · exact ⟨fun _ => ht.2.le, fun _ => ht.2.le.trans h⟩
      · have := ht0.resolve_left h
        exact ⟨fun h' => by linarith [ht.1], fun h' => by linarith [ht.1]⟩
    simp only [e]
    rfl
  set mesh' : ℝ → MeshView := fun t => ⟨(mesh t).edges, fun k => g k t⟩ with hmesh'
  obtain ⟨V, h1, h2⟩ := exists_continuous_piece p c' hg a b hab hmms _ hconst mesh' hm he
    (fun k hk => (hg1 k hk).1) (fun t k i => σ k i t) (fun k hk i hi => (hσ k i hk hi).1) V0
  refine ⟨V, ⟨h1.1, fun t ht l hl k hk i hi uRefl fs => ?_⟩, h2⟩
  have hta : t ∈ Ioo a b := ⟨lt_of_le_of_ne ht.1.1 fun e => ht.2 e.symm, ht.1.2⟩
  have hmt := hm t ⟨ht.1.1, ht.1.2.le⟩
  refine (h1.2 t ⟨ht.1, fun h => h⟩ l hl k hk i hi uRefl fs).congr_deriv ?_
  unfold slabConstantRhs
  have e1 : streamPart c' t (mesh' t) (V t l) k (p.mus l) uRefl fs i =
      streamPart c' t (mesh t) (V t l) k (p.mus l) uRefl fs i := by
    have hd : ∀ k ≤ c.Nspace, (mesh' t).Dedges k = (mesh t).Dedges k := fun k hk =>
      ((hg1 k hk).2 t hta).symm
    unfold streamPart
    rw [fluxLU_eq c' t (mesh' t) _ k _ uRefl fs hk hmt hi,
      fluxLU_eq c' t (mesh t) _ k _ uRefl fs hk hmt hi,
      matVec_G _ _ _ (hmt k hk) _ hi, matVec_G _ (mesh' t) _ (hmt k hk) _ hi,
      matVec_L _ _ _ (hmt k hk) _ hi, matVec_L _ (mesh' t) _ (hmt k hk) _ hi,
      hd k hk.le, hd (k + 1) hk]
    rfl
  rw [e1, ← streamPart_switch c c' t0' rfl t (hsame t hta) (mesh t) hmt uRefl fs (V t l) (p.mus l) k
    i hk hi, (hσ k i hk hi).2 t hta]

/-- C87, existence: the interval is divided by finitely many times `τ 0 ≤ … ≤ τ n`, among them the
final time of the source.  Between them edges, edge velocities and source coefficients are
continuous; at them velocities and source may jump.  Then there is a solution from every initial
state. -/
theorem c87_exists (p : RhsParams) (c : FluxConfig) (hg : c.geometry = .slab) (n : ℕ) (τ : ℕ → ℝ)
    (hτ : ∀ j < n, τ j ≤ τ (j + 1)) (hmms : c.mms = false ∨ -1 < τ 0)
    (ht0 : ∀ j < n, τ (j + 1) ≤ c.t0 ∨ c.t0 ≤ τ j) (mesh : ℝ → MeshView)
    (hm : ∀ s ∈ Icc (τ 0) (τ n), ∀ k < c.Nspace, (mesh s).edges k < (mesh s).edges (k + 1))
    (he : ∀ k ≤ c.Nspace, ContinuousOn (fun s => (mesh s).edges k) (Icc (τ 0) (τ n)))
    (hv : ∀ j < n, ∀ k ≤ c.Nspace, ∃ g : ℝ → ℝ, ContinuousOn g (Icc (τ j) (τ (j + 1))) ∧
      ∀ t ∈ Ioo (τ j) (τ (j + 1)), (mesh t).Dedges k = g t)
    (S : ℝ → ℕ → ℕ → ℝ)
    (hS : ∀ j < n, ∀ k < c.Nspace, ∀ i ≤ c.M, ∃ g : ℝ → ℝ,
      ContinuousOn g (Icc (τ j) (τ (j + 1))) ∧ ∀ t ∈ Ioo (τ j) (τ (j + 1)), S t k i = g t)
    (V0 : ℕ → ℕ → ℕ → ℝ) :
    ∃ V, SlabSolutionOn p c mesh S (τ 0) (τ n) {t | ∃ j < n, t = τ j} V ∧
      ∀ l < p.Nang, ∀ k < c.Nspace, ∀ i ≤ c.M, V (τ 0) l k i = V0 l k i := by
  induction n with
  | zero =>
    refine ⟨fun _ => V0, ⟨fun _ _ _ _ _ _ => continuousOn_const, fun t ht => ?_⟩,
      fun _ _ _ _ _ _ => rfl⟩
    exact absurd ht.1.2 (not_lt.2 ht.1.1)
  | succ n ih =>
    have hmono : ∀ j ≤ n, τ 0 ≤ τ j := by
      intro j
      induction j with
      | zero => exact fun _ => le_rfl
      | succ j ihj => exact fun hj => (ihj (by omega)).trans (hτ j (by omega))
    have h0n := hmono n le_rfl
    have hn1 := hτ n (by omega)
    have hsub : Icc (τ 0) (τ n) ⊆ Icc (τ 0) (τ (n + 1)) := Icc_subset_Icc_right hn1
    have hsub' : Icc (τ n) (τ (n + 1)) ⊆ Icc (τ 0) (τ (n + 1)) := Icc_subset_Icc_left h0n
    obtain ⟨V, h1, h2⟩ := ih (fun j hj => hτ j (by omega)) (fun j hj => ht0 j (by omega))
      (fun s hs => hm s (hsub hs)) (fun k hk => (he k hk).mono hsub)
      (fun j hj => hv j (by omega)) (fun j hj => hS j (by omega))
    obtain ⟨W, h3, h4⟩ := exists_open_piece p c hg (τ n) (τ (n + 1)) hn1
      (hmms.imp_right fun h => lt_of_lt_of_le h h0n) (ht0 n (by omega)) mesh
      (fun s hs => hm s (hsub' hs)) (fun k hk => (he k hk).mono hsub')
      (hv n (by omega)) S (hS n (by omega)) (V (τ n))
    have hset : {t | ∃ j < n + 1, t = τ j} = {t | ∃ j < n, t = τ j} ∪ {τ n} := by
      ext t
      constructor
      · rintro ⟨j, hj, rfl⟩
        by_cases hjn : j = n
        · exact Or.inr (by rw [hjn]; rfl)
        · exact Or.inl ⟨j, by omega, rfl⟩
      · rintro (⟨j, hj, rfl⟩ | h)
        · exact ⟨j, by omega, rfl⟩
        · exact ⟨n, by omega, h⟩
    refine ⟨fun t => if t ≤ τ n then V t else W t, ?_, fun l hl k hk i hi => ?_⟩
    · rw [hset]
      exact h1.glue h0n hn1 h3 h4 (Or.inr rfl)
    · simp only [if_pos h0n]
      exact h2 l hl k hk i hi

/-- C87: under the same conditions and with quadrature weights as the program uses them, the
solution is the only one; any other solution, even one that may violate the equations at finitely
many further times, agrees with it. -/
theorem c87_wellposed (p : RhsParams) (hp : ∀ l < p.Nang, 0 < p.ws l)
    (hw : ∑ l ∈ Finset.range p.Nang, p.ws l = 1) (hc : 0 ≤ p.c)
    (c : FluxConfig) (hg : c.geometry = .slab) (n : ℕ) (τ : ℕ → ℝ)
    (hτ : ∀ j < n, τ j ≤ τ (j + 1)) (hmms : c.mms = false ∨ -1 < τ 0)
    (ht0 : ∀ j < n, τ (j + 1) ≤ c.t0 ∨ c.t0 ≤ τ j) (mesh : ℝ → MeshView)
    (hm : ∀ s ∈ Icc (τ 0) (τ n), ∀ k < c.Nspace, (mesh s).edges k < (mesh s).edges (k + 1))
    (he : ∀ k ≤ c.Nspace, ContinuousOn (fun s => (mesh s).edges k) (Icc (τ 0) (τ n)))
    (hv : ∀ j < n, ∀ k ≤ c.Nspace, ∃ g : ℝ → ℝ, ContinuousOn g (Icc (τ j) (τ (j + 1))) ∧
      ∀ t ∈ Ioo (τ j) (τ (j + 1)), (mesh t).Dedges k = g t)
    (S : ℝ → ℕ → ℕ → ℝ)
    (hS : ∀ j < n, ∀ k < c.Nspace, ∀ i ≤ c.M, ∃ g : ℝ → ℝ,
      ContinuousOn g (Icc (τ j) (τ (j + 1))) ∧ ∀ t ∈ Ioo (τ j) (τ (j + 1)), S t k i = g t)
    (V0 : ℕ → ℕ → ℕ → ℝ) :
    ∃ V, (SlabSolutionOn p c mesh S (τ 0) (τ n) {t | ∃ j < n, t = τ j} V ∧
      ∀ l < p.Nang, ∀ k < c.Nspace, ∀ i ≤ c.M, V (τ 0) l k i = V0 l k i) ∧
      ∀ (G : Set ℝ) (W : ℝ → ℕ → ℕ → ℕ → ℝ), G.Finite → SlabSolutionOn p c mesh S (τ 0) (τ n) G W →
        (∀ l < p.Nang, ∀ k < c.Nspace, ∀ i ≤ c.M, W (τ 0) l k i = V0 l k i) →
        ∀ t ∈ Icc (τ 0) (τ n), ∀ l < p.Nang, ∀ k < c.Nspace, ∀ i ≤ c.M, W t l k i = V t l k i := by
  obtain ⟨V, h1, h2⟩ := c87_exists p c hg n τ hτ hmms ht0 mesh hm he hv S hS V0
  refine ⟨V, ⟨h1, h2⟩, fun G W hG hW hW0 t ht => ?_⟩
  have hfin : ({t | ∃ j < n, t = τ j} : Set ℝ).Finite :=
    ((finite_lt_nat n).image τ).subset (by rintro t ⟨j, hj, rfl⟩; exact ⟨j, hj, rfl⟩)
  set fs : FluxState := ⟨0, 0, 0, 0, 0, 0, 0, 0, 0, fun _ => 0⟩
  exact c82_unique p hp hw hc c hg (τ 0) (τ n) (G ∪ {t | ∃ j < n, t = τ j}) (hG.union hfin) mesh hm S
    (fun _ _ _ => 0) (fun _ _ _ => 0) (fun _ _ _ => fs) (fun _ _ _ => fs) W V hW.1 h1.1
    (fun s hs l hl k hk i hi => hW.2 s ⟨hs.1, fun h => hs.2 (Or.inl h)⟩ l hl k hk i hi _ _)
    (fun s hs l hl k hk i hi => h1.2 s ⟨hs.1, fun h => hs.2 (Or.inr h)⟩ l hl k hk i hi _ _)
    (fun l hl k hk i hi => by rw [hW0 l hl k hk i hi, h2 l hl k hk i hi]) t ht

/-- Three moving cells, sources on both sides that end at time 1, any initial state: one solution
on `[0, 3]`, which need not satisfy the equations at times 0 and 1 only. -/
example (V0 : ℕ → ℕ → ℕ → ℝ) :=
  c87_wellposed exampleParams (fun _ _ => by simp [exampleParams]) exampleParams_weights
    (by simp [exampleParams]) exampleSourceConfig rfl 2
    (fun j => if j = 0 then 0 else if j = 1 then 1 else 3)
    (fun j hj => by interval_cases j <;> norm_num) (Or.inl rfl)
    (fun j hj => by
      show _ ≤ (1 : ℝ) ∨ (1 : ℝ) ≤ _
      interval_cases j <;> norm_num) exampleMesh
    (fun s hs k _ => by
      have hs' : (0 : ℝ) ≤ s := by simpa using hs.1
      show (1 + s) * ((k : ℝ) - 3 / 2) < (1 + s) * (((k + 1 : ℕ) : ℝ) - 3 / 2)
      push_cast
      nlinarith)
    (fun k _ => by simp only [exampleMesh]; fun_prop)
    (fun j _ k _ => ⟨fun _ => (k : ℝ) - 3 / 2, continuousOn_const, fun _ _ => rfl⟩)
    (fun t _ _ => if t ≤ 1 then 1 else 0)
    (fun j hj k _ i _ => by
      interval_cases j
      · refine ⟨fun _ => 1, continuousOn_const, fun t ht => if_pos ?_⟩
        have : t < 1 := by simpa using ht.2
        exact this.le
      · refine ⟨fun _ => 0, continuousOn_const, fun t ht => if_neg ?_⟩
        have : 1 < t := by simpa using ht.1
        exact not_le.2 this) V0

end Verif.Props
