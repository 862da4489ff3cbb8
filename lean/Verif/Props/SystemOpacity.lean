import Verif.Props.SystemSphere

/-!
Property C111: non-constant opacity in the sphere solver.
-/

namespace Verif.Props

open Set Filter Verif.Spec Verif.Model Verif.Lemmas

/-- The same problem without opacity function and scattering. -/
def absorber (P : Problem) : Problem := { P with sigmaS := 0, sigmaFunc := .constant }

/-- C111: without scattering the returned array does not depend on the opacity: not on the opacity
function, not on the total cross section, not on the order of its expansion.  Every direction loses
particles at rate one. -/
theorem c111_absorption_ignores_opacity {P : Problem} (hg : P.mesh.geometry = .sphere)
    (hT : TablesUsable P.tables P.M) (hn : NoHistory P.mesh) (h0 : P.sigmaS = 0)
    (hf : SteadyOpacity P) (f : SigmaFunc) (hf' : f ≠ .fakeSedov ∧ f ≠ .other) (sigmaT : ℝ)
    (Msigma : ℕ) {o o' : Objects} (ho : Reached P o)
    (ho' : Reached { P with sigmaFunc := f, sigmaT := sigmaT, Msigma := Msigma } o') (t : ℝ)
    (V : ℕ → ℕ → ℕ → ℝ) :
    answer { P with sigmaFunc := f, sigmaT := sigmaT, Msigma := Msigma } o' t V =
      answer P o t V := by
  rw [answer_eq hg hT hf hn ho,
    answer_eq (P := { P with sigmaFunc := f, sigmaT := sigmaT, Msigma := Msigma }) hg hT hf' hn ho']
  have e : ∀ m a q i, entryOf { P with sigmaFunc := f, sigmaT := sigmaT, Msigma := Msigma } m t V
      a q i = entryOf P m t V a q i := by
    intro m a q i
    have e1 : scalarOf P m.edges V q i = 0 := if_neg (not_not.2 h0)
    have e2 : scalarOf { P with sigmaFunc := f, sigmaT := sigmaT, Msigma := Msigma } m.edges V q i
        = 0 := if_neg (not_not.2 h0)
    unfold entryOf
    rw [e1, e2]
    rfl
  simp only [e]
  rfl

/-- A Gaussian opacity and a tenfold cross section change nothing. -/
example (inv : (ℕ → ℕ → ℝ) → ℕ → ℕ → ℝ) (t : ℝ) (V : ℕ → ℕ → ℕ → ℝ) {o o' : Objects}
    (ho : { exampleShell inv with sigmaS := 0 }.objects = some o)
    (ho' : { exampleShell inv with
      sigmaS := 0, sigmaFunc := .gaussian, sigmaT := 10, Msigma := 3 }.objects = some o') :
    answer { exampleShell inv with
      sigmaS := 0, sigmaFunc := .gaussian, sigmaT := 10, Msigma := 3 } o' t V =
    answer { exampleShell inv with sigmaS := 0 } o t V :=
  c111_absorption_ignores_opacity (P := { exampleShell inv with sigmaS := 0 }) rfl
    (exampleShell_tables inv) (Or.inl rfl) rfl (steady_of_constant rfl) .gaussian
    ⟨SigmaFunc.noConfusion, SigmaFunc.noConfusion⟩ 10 3 ⟨o, [], ho, rfl⟩ ⟨o', [], ho', rfl⟩ t V

/-- The scattering vector of the program for a cell: opacity moments and triple products. -/
noncomputable def programScatter (P : Problem) (e : ℕ → ℝ) (V : ℕ → ℕ → ℕ → ℝ) (k i : ℕ) : ℝ :=
  scatterVector P.opacityConfig P.Nang P.ws (momentsOf P e) (fun l => V l k) k (e k) (e (k + 1)) i

theorem scatterVector_zero {P : Problem} (h : P.sigmaS = 0) (cs : ℕ → ℕ → ℝ) (u : ℕ → ℕ → ℝ)
    (k : ℕ) (a b : ℝ) (i : ℕ) : scatterVector P.opacityConfig P.Nang P.ws cs u k a b i = 0 := by
  unfold scatterVector
  have : P.opacityConfig.sigmaS = 0 := h
  simp [this]

theorem entry_scatter {P : Problem} (hf : P.sigmaFunc ≠ .constant) (hs : ¬ SourceAsked P)
    (m : MeshView) (t : ℝ) (V : ℕ → ℕ → ℕ → ℝ) (a k i : ℕ) :
    entryOf P m t V a k i = entryOf (absorber P) m t V a k i
      + P.sigmaS * programScatter P m.edges V k i := by
  have h1 : scalarOf P m.edges V k i = programScatter P m.edges V k i := by
    unfold scalarOf programScatter scalarFluxTerm
    have : P.opacityConfig.func ≠ .constant := hf
    rw [if_neg this]
    by_cases h : P.sigmaS = 0
    · rw [if_neg (not_not.2 h), scatterVector_zero h]
    · rw [if_pos h]
  have h2 : scalarOf (absorber P) m.edges V k i = 0 := by
    unfold scalarOf
    rw [if_neg]
    simp [absorber]
  have hS : ∀ Q : Problem, ¬ SourceAsked Q → ∀ t a b j, sourceOf Q t a b j = 0 :=
    fun Q hQ t a b j => if_neg hQ
  have hs' : ¬ SourceAsked (absorber P) := hs
  unfold entryOf
  rw [h1, h2]
  have h3 : ∀ j, sphereWeak P.params P.fluxConfig t m (matsOf P m k)
      (fun k => sourceOf P t (m.edges k) (m.edges (k + 1))) fluxInit V a k j =
      sphereWeak (absorber P).params (absorber P).fluxConfig t m (matsOf (absorber P) m k)
      (fun k => sourceOf (absorber P) t (m.edges k) (m.edges (k + 1))) fluxInit V a k j := by
    intro j
    unfold sphereWeak
    simp only [hS P hs, hS _ hs', mul_zero, zero_mul]
    rfl
  rw [show sphereWeak P.params P.fluxConfig t m (matsOf P m k)
      (fun k => sourceOf P t (m.edges k) (m.edges (k + 1))) fluxInit V a k = _ from funext h3]
  have h4 : (absorber P).M = P.M := rfl
  have h5 : (matsOf (absorber P) m k) = matsOf P m k := rfl
  rw [h4, h5]
  ring

/-! ### Particle balance -/

theorem sphereContent_add (M : ℕ) (U W : ℕ → ℝ) (x : ℝ) {a b : ℝ} (h : a < b) :
    sphereContent M (fun i => U i + x * W i) a b =
      sphereContent M U a b + x * sphereContent M W a b := by
  rw [sphereContent_eq M _ h, sphereContent_eq M _ h, sphereContent_eq M _ h]
  have : ∑ j ∈ Finset.range (M + 1), sphereMass 0 j a b * (U j + x * W j) =
      ∑ j ∈ Finset.range (M + 1), sphereMass 0 j a b * U j
        + x * ∑ j ∈ Finset.range (M + 1), sphereMass 0 j a b * W j := by
    rw [Finset.mul_sum, ← Finset.sum_add_distrib]
    exact Finset.sum_congr rfl fun j _ => by ring
  rw [this]
  ring

theorem sphereTotal_add (p : RhsParams) (c : FluxConfig) (m : MeshView)
    (ho : ∀ k < c.Nspace, m.edges k < m.edges (k + 1)) (V : ℕ → ℕ → ℕ → ℝ) (X : ℕ → ℕ → ℝ) (x : ℝ)
    (hw : ∑ l ∈ Finset.range p.Nang, p.ws l = 1) :
    sphereTotal p c m (fun l k i => V l k i + x * X k i) = sphereTotal p c m V
      + x * ∑ k ∈ Finset.range c.Nspace, sphereContent c.M (X k) (m.edges k) (m.edges (k + 1)) := by
  unfold sphereTotal
  have e : ∀ l, ∑ k ∈ Finset.range c.Nspace, sphereContent c.M (fun i => V l k i + x * X k i)
      (m.edges k) (m.edges (k + 1)) =
      ∑ k ∈ Finset.range c.Nspace, sphereContent c.M (V l k) (m.edges k) (m.edges (k + 1)) +
      x * ∑ k ∈ Finset.range c.Nspace, sphereContent c.M (X k) (m.edges k) (m.edges (k + 1)) := by
    intro l
    rw [Finset.mul_sum, ← Finset.sum_add_distrib]
    exact Finset.sum_congr rfl fun k hk =>
      sphereContent_add _ _ _ _ (ho k (Finset.mem_range.1 hk))
  unfold angularSum
  simp only [e, mul_add]
  rw [Finset.sum_add_distrib, ← Finset.sum_mul, hw, one_mul]

/-- C111: with a non-constant opacity the particle number changes by outflow, by absorption at rate
one everywhere, and by the scattering vector of the program times the scattering ratio. -/
theorem c111_balance {P : Problem} {e d : ℕ → ℝ} (h : SphereSetup P e d) (hf : SteadyOpacity P)
    (hf' : P.sigmaFunc ≠ .constant) (hs : ¬ SourceAsked P) (hN : 2 ≤ P.mesh.N)
    (hd : DirectionSet P.Nang P.mus) (hsym : SymmetricSet P.Nang P.mus)
    (hw : CellWeights P)
    (hb : P.boundarySource = false) (hmms : P.mesh.st 4 ≠ 1) {t : ℝ} (ht : 0 ≤ t) {o : Objects}
    (ho : Reached P o) {V : ℝ → ℕ → ℕ → ℕ → ℝ} {R : ℕ → ℕ → ℕ → ℝ}
    (hR : answer P o t (V t) = some R)
    (hrate : ∀ l < P.Nang, ∀ k < P.mesh.N, ∀ i ≤ P.M,
      HasDerivWithinAt (fun s => V s l k i) (R l k i) (Ici t) t) :
    HasDerivWithinAt (fun s => programTotal P s (V s))
      (-(meshAt P t).edges P.mesh.N ^ 2 * angularSum P.Nang P.ws (fun l =>
          max (P.mus l - (meshAt P t).Dedges P.mesh.N) 0 *
            sphereField P.M (V t l (P.mesh.N - 1)) ((meshAt P t).edges (P.mesh.N - 1))
              ((meshAt P t).edges P.mesh.N) ((meshAt P t).edges P.mesh.N))
        - programTotal P t (V t)
        + P.sigmaS * ∑ k ∈ Finset.range P.mesh.N, sphereContent P.M
            (programScatter P (meshAt P t).edges (V t) k) ((meshAt P t).edges k)
            ((meshAt P t).edges (k + 1))) (Ici t) t := by
  set Q := absorber P with hQ
  set X : ℕ → ℕ → ℝ := fun k i => P.sigmaS * programScatter P (meshAt P t).edges (V t) k i with hX
  have hsQ : SphereSetup Q e d :=
    ⟨h.sphere, h.mesh, h.order, h.tables, h.inverse, h.directions, h.checks⟩
  have hTu := h.tables.usable' (Nat.lt_succ_self _) h.order
  have hmesh := programMesh hsQ ht (b := t + 1) ∅
  have hordered : ∀ s ∈ Ici t, ∀ k < P.mesh.N,
      (meshAt P s).edges k < (meshAt P s).edges (k + 1) := fun s hs k hk =>
    (programMesh hsQ ht (b := s) ∅).ordered s ⟨hs, le_rfl⟩ k hk
  have hw1 : ∑ l ∈ Finset.range P.params.Nang, P.params.ws l = 1 := (cell_weights hd (hw.ws h.directions)).2
  have hact : ∀ left t, ¬ BoundaryActive Q.fluxConfig left t := by
    intro left t
    simp [BoundaryActive, Problem.fluxConfig, hQ, absorber, hmms, hb]
  -- the call of the problem without scattering
  have hno : ¬ (0 < P.mesh.N ∧ ¬ centreChecks P.Nang P.mus) := fun h' => h'.2 h.checks
  obtain ⟨o', ho'⟩ := reached_exists hsQ.mesh
  have hans := answer_eq hsQ.sphere hTu (steady_of_constant (P := Q) rfl) h.mesh.noHistory ho' t (V t)
  have hno' : ¬ (0 < Q.mesh.N ∧ ¬ centreChecks Q.Nang Q.mus) := hno
  rw [if_neg hno'] at hans
  rw [answer_eq_activeCall hsQ.sphere hTu (P := Q) rfl h.mesh.noHistory ho' t (V t) fluxInit] at hans
  rw [answer_eq h.sphere hTu hf h.mesh.noHistory ho, if_neg hno] at hR
  have hRe := Option.some_inj.1 hR
  set V' : ℝ → ℕ → ℕ → ℕ → ℝ := fun s l k i => V s l k i + -(s - t) * X k i with hV'
  have hVt : V' t = V t := by
    funext l k i
    simp [hV']
  have hlin : ∀ k i, HasDerivAt (fun s : ℝ => -(s - t) * X k i) (-(X k i)) t := by
    intro k i
    have := (((hasDerivAt_id t).sub_const t).neg).mul_const (X k i)
    refine this.congr_deriv ?_
    ring
  have hbal := sphere_conserves_right Q.params hd hsym (hw.ws h.directions) Q.fluxConfig h.sphere h.order hN t
    (hact _ _) (hact _ _) (meshAt P) _ _ fluxInit V' _
    (by rw [(meshAt_linear h.mesh t).2 0 (Nat.zero_le _), h.mesh.rest])
    (hmesh.ordered t ⟨le_rfl, by linarith⟩)
    (hmesh.velocity t ⟨⟨le_rfl, by linarith⟩, notMem_empty _⟩)
    (hmesh.mats t ⟨⟨le_rfl, by linarith⟩, notMem_empty _⟩) (by rw [hVt]; exact hans)
    (fun l hl k hk i hi => by
      refine ((hrate l hl k hk i hi).add (hlin k i).hasDerivWithinAt).congr_deriv ?_
      have hcond : l < P.Nang ∧ k < P.mesh.N ∧ i ≤ P.M := ⟨hl, hk, hi⟩
      have hcond' : l < Q.Nang ∧ k < Q.mesh.N ∧ i ≤ Q.M := ⟨hl, hk, hi⟩
      rw [← hRe]
      simp only [if_pos hcond, if_pos hcond']
      rw [entry_scatter hf' hs]
      simp only [hX]
      have : meshAt Q t = meshAt P t := rfl
      rw [this]
      ring)
  rw [hVt] at hbal
  -- back to the original trajectory
  have hcontent : ContinuousWithinAt (fun s => ∑ k ∈ Finset.range P.mesh.N, sphereContent P.M (X k)
      ((meshAt P s).edges k) ((meshAt P s).edges (k + 1))) (Ici t) t := by
    have hcont : ∀ k ≤ P.mesh.N, ContinuousOn (fun s => (meshAt P s).edges k) (Ici t) := by
      intro k hk
      have : (fun s => (meshAt P s).edges k) = fun s => e k + d k * s :=
        funext fun s => (meshAt_linear h.mesh s).1 k hk
      rw [this]
      fun_prop
    refine ContinuousOn.continuousWithinAt (s := Ici t) ?_ (mem_Ici.2 le_rfl)
    refine continuousOn_finsetSum _ fun k hk => ?_
    have hk := Finset.mem_range.1 hk
    refine ContinuousOn.congr ?_ fun s hs => sphereContent_eq P.M (X k) (hordered s hs k hk)
    refine ContinuousOn.mul (ContinuousOn.sqrt (continuousOn_const.mul
      ((hcont _ hk).sub (hcont _ hk.le)))) (continuousOn_finsetSum _ fun j _ => ?_)
    exact (continuousOn_sphereMass (hcont _ hk.le) (hcont _ hk)
      (fun s hs => hordered s hs k hk) 0 j).mul continuousOn_const
  have hprod : HasDerivWithinAt (fun s => (s - t) * ∑ k ∈ Finset.range P.mesh.N,
      sphereContent P.M (X k) ((meshAt P s).edges k) ((meshAt P s).edges (k + 1)))
      (∑ k ∈ Finset.range P.mesh.N, sphereContent P.M (X k) ((meshAt P t).edges k)
        ((meshAt P t).edges (k + 1))) (Ici t) t := by
    rw [hasDerivWithinAt_iff_tendsto_slope]
    refine (hcontent.mono_left (nhdsWithin_mono _ diff_subset)).congr' ?_
    filter_upwards [self_mem_nhdsWithin] with s hs
    have hst : s - t ≠ 0 := sub_ne_zero.2 hs.2
    rw [slope_def_field]
    simp only [sub_self, zero_mul, sub_zero]
    field_simp
  have key : ∀ s ∈ Ici t, programTotal P s (V s) = sphereTotal Q.params Q.fluxConfig (meshAt P s)
      (V' s) + (s - t) * ∑ k ∈ Finset.range P.mesh.N,
      sphereContent P.M (X k) ((meshAt P s).edges k) ((meshAt P s).edges (k + 1)) := by
    intro s hs
    have := sphereTotal_add Q.params Q.fluxConfig (meshAt P s) (hordered s hs) (V s) X (-(s - t)) hw1
    have e1 : sphereTotal Q.params Q.fluxConfig (meshAt P s) (V' s) = _ := this
    have e2 : programTotal P s (V s) = sphereTotal Q.params Q.fluxConfig (meshAt P s) (V s) := rfl
    have e3 : Q.fluxConfig.Nspace = P.mesh.N := rfl
    have e4 : Q.fluxConfig.M = P.M := rfl
    rw [e1, e2, e3, e4]
    ring
  refine ((hbal.add hprod).congr key (key t (mem_Ici.2 le_rfl))).congr_deriv ?_
  have hXc : ∑ k ∈ Finset.range P.mesh.N, sphereContent P.M (X k) ((meshAt P t).edges k)
      ((meshAt P t).edges (k + 1)) = P.sigmaS * ∑ k ∈ Finset.range P.mesh.N, sphereContent P.M
        (programScatter P (meshAt P t).edges (V t) k) ((meshAt P t).edges k)
        ((meshAt P t).edges (k + 1)) := by
    rw [Finset.mul_sum]
    refine Finset.sum_congr rfl fun k hk => ?_
    have hk := hordered t (mem_Ici.2 le_rfl) k (Finset.mem_range.1 hk)
    have := sphereContent_add P.M (fun _ => 0) (programScatter P (meshAt P t).edges (V t) k)
      P.sigmaS hk
    simp only [zero_add] at this
    have h0 : sphereContent P.M (fun _ => 0) ((meshAt P t).edges k) ((meshAt P t).edges (k + 1)) = 0 := by
      rw [sphereContent_eq _ _ hk]; simp
    rw [h0, zero_add] at this
    exact this
  rw [hXc]
  have e1 : Q.params.c = 0 := rfl
  rw [e1]
  have e2 : programTotal P t (V t) = sphereTotal Q.params Q.fluxConfig (meshAt P t) (V t) := rfl
  rw [e2]
  have e3 : Q.fluxConfig.Nspace = P.mesh.N := rfl
  have e4 : Q.fluxConfig.M = P.M := rfl
  have e5 : Q.params.Nang = P.Nang := rfl
  have e6 : Q.params.ws = P.ws := rfl
  have e7 : Q.params.mus = P.mus := rfl
  rw [e3, e4, e5, e6, e7]
  ring

/-! ### Order zero -/

/-- Sum of the weights of a rule. -/
noncomputable def ruleWeight (q : List (ℝ × ℝ)) : ℝ := (q.map fun z => z.2).sum

/-- The opacity of a cell, summed with the rule. -/
noncomputable def ruleOpacity (P : Problem) (a b : ℝ) : ℝ :=
  (P.quad.map fun z => z.2 * sigmaFunction P.opacityConfig (quadPoint a b z.1) 0).sum

/-- C111, order zero: the scattering vector is the scalar flux times half the weights of the rule
times half the opacity summed with the rule. -/
theorem c111_scatter_order_zero {P : Problem} (hM : P.M = 0) (hMs : P.Msigma = 0) (e : ℕ → ℝ)
    (V : ℕ → ℕ → ℕ → ℝ) {k : ℕ} (hk : e k < e (k + 1)) :
    programScatter P e V k 0 = P.sigmaS * (ruleWeight P.quad / 2 * (ruleOpacity P (e k) (e (k + 1)) / 2))
      * angularSum P.Nang P.ws fun l => V l k 0 := by
  have hpos : 0 < e (k + 1) - e k := sub_pos.2 hk
  have hsq : Real.sqrt (e (k + 1) - e k) * Real.sqrt (e (k + 1) - e k) = e (k + 1) - e k :=
    Real.mul_self_sqrt hpos.le
  have hs0 : Real.sqrt (e (k + 1) - e k) ≠ 0 := (Real.sqrt_pos.2 hpos).ne'
  have e1 : tripleTensor P.opacityConfig 0 0 0 = ruleWeight P.quad / 2 := by
    simp only [tripleTensor, bothEvenOrOdd, tripleQuad, Pn, ruleWeight, legendre_zero,
      Polynomial.eval_one, mul_one]
    norm_num
    have : P.opacityConfig.quad = P.quad := rfl
    rw [this]
    ring
  have e2 : momentsOf P e k 0 = Real.sqrt (e (k + 1) - e k) * (ruleOpacity P (e k) (e (k + 1)) / 2) := by
    have : momentsOf P e k 0 = (e (k + 1) - e k) / 2 *
        (ruleOpacity P (e k) (e (k + 1)) / Real.sqrt (e (k + 1) - e k)) := by
      unfold momentsOf slabMoment ruleOpacity
      congr 1
      rw [div_eq_mul_inv, ← List.sum_map_mul_right]
      refine congrArg List.sum (List.map_congr_left fun z _ => ?_)
      simp only [normPn, legendre_zero, Polynomial.eval_one, Nat.cast_zero, mul_zero, zero_add,
        one_mul, one_div, Real.sqrt_inv]
    rw [this]
    field_simp
    linear_combination (-(ruleOpacity P (e k) (e (k + 1)))) * hsq
  unfold programScatter scatterVector
  have hM' : P.opacityConfig.M = 0 := hM
  have hMs' : P.opacityConfig.Msigma = 0 := hMs
  have hS : P.opacityConfig.sigmaS = P.sigmaS := rfl
  simp only [hM', hMs', zero_add, Finset.sum_range_one, e1, e2, hS]
  unfold angularSum
  rw [Finset.sum_div, Finset.mul_sum]
  refine Finset.sum_congr rfl fun l _ => ?_
  field_simp

/-! ### A pure scatterer that makes particles -/

/-- A pure scatterer with the Gaussian opacity of the program, order zero, the one-point Chebyshev
rule, no source of any kind. -/
noncomputable def exampleScatterer (inv : (ℕ → ℕ → ℝ) → ℕ → ℕ → ℝ) : Problem :=
  { exampleShell inv with
    M := 0, sigmaS := 1, quad := [(0, Real.pi)], uncollided := false, sigmaFunc := .gaussian
    tables := exactTables 1 }

theorem exampleScatterer_setup {inv : (ℕ → ℕ → ℝ) → ℕ → ℕ → ℝ} (hi : InverseCorrect 0 inv) :
    SphereSetup (exampleScatterer inv) (shellEdges exampleShellMesh).get
      (shellState exampleShellMesh).DedgesConst where
  sphere := rfl
  mesh := shell_linear exampleShell_mesh rfl rfl rfl (Nat.le_of_ble_eq_true rfl)
    (by norm_num [exampleScatterer, exampleShell, exampleShellMesh, exampleSquareMesh])
    (by norm_num [exampleScatterer, exampleShell, exampleShellMesh, exampleSquareMesh])
  order := Nat.zero_le _
  tables := exactTables_exact 1
  inverse := hi
  directions := le_rfl
  checks := exampleShell_checks

theorem sphereContent_pos {a b : ℝ} (ha : 0 ≤ a) (h : a < b) :
    0 < sphereContent 0 (fun _ => 1) a b := by
  unfold sphereContent
  refine intervalIntegral.intervalIntegral_pos_of_pos_on ?_ (fun r hr => ?_) h
  · refine (Continuous.intervalIntegrable ?_ _ _)
    unfold sphereField
    exact (continuous_id.pow 2).mul (continuous_finsetSum _ fun j _ =>
      continuous_const.mul (continuous_sphereBasis h j))
  · have hr0 : 0 < r := ha.trans_lt hr.1
    have hba : 0 < b - a := sub_pos.2 h
    have hpi := Real.pi_pos
    simp only [sphereField, zero_add, Finset.sum_range_one, sphereBasis]
    simp
    positivity

/-- C111: the property is false.  For the example, a pure scatterer without source in a sphere whose
outer edge no particle overtakes, the program makes the particle number grow from the state that is
one everywhere. -/
theorem c111_pure_scatterer_gains {inv : (ℕ → ℕ → ℝ) → ℕ → ℕ → ℝ} (hi : InverseCorrect 0 inv) :
    (exampleScatterer inv).sigmaS = (exampleScatterer inv).sigmaT ∧
    ∀ o, Reached (exampleScatterer inv) o → ∃ R x,
      answer (exampleScatterer inv) o 0 (fun _ _ _ => 1) = some R ∧
      HasDerivWithinAt (fun s => programTotal (exampleScatterer inv) s
        (fun l k i => 1 + s * R l k i)) x (Ici 0) 0 ∧ 0 < x := by
  refine ⟨rfl, fun o ho => ?_⟩
  set P := exampleScatterer inv with hP
  have h := exampleScatterer_setup hi
  have hf : SteadyOpacity P := ⟨SigmaFunc.noConfusion, SigmaFunc.noConfusion⟩
  have hs : ¬ SourceAsked P := fun h => Bool.false_ne_true h.1
  have hno : ¬ (0 < P.mesh.N ∧ ¬ centreChecks P.Nang P.mus) := fun h' => h'.2 h.checks
  have hans := answer_eq h.sphere (h.tables.usable' (Nat.lt_succ_self _) h.order) hf
    h.mesh.noHistory ho 0 (fun _ _ _ => 1)
  rw [if_neg hno] at hans
  obtain ⟨R, hR⟩ : ∃ R, answer P o 0 (fun _ _ _ => 1) = some R := ⟨_, hans⟩
  have hw := exampleShell_weights inv
  have hbal := c111_balance h hf SigmaFunc.noConfusion hs (Nat.le_of_ble_eq_true rfl)
    exampleSphere_directions exampleSphere_symmetric hw rfl
    (by simp [exampleScatterer, exampleShell, exampleShellMesh, exampleSquareMesh,
      MeshConfig.st]) (le_refl (0 : ℝ)) ho (V := fun s l k i => 1 + s * R l k i) (R := R)
    (by simpa using hR) (fun l _ k _ i _ => by
      have := (((hasDerivAt_id (0 : ℝ)).mul_const (R l k i)).const_add 1).hasDerivWithinAt
        (s := Ici 0)
      simpa using this)
  refine ⟨R, _, hR, hbal, ?_⟩
  simp only [zero_mul, add_zero]
  have hN : P.mesh.N = 4 := rfl
  have hl := meshAt_linear h.mesh 0
  have hord := (programMesh h (le_refl (0 : ℝ)) (b := 0) ∅).ordered 0 ⟨le_rfl, le_rfl⟩
  set ed := (meshAt P 0).edges with hed
  have hgrid : ∀ k ≤ 4, ed k = shellGrid (1 / 2) (1 / 10 ^ 5) 4 3 k := by
    intro k hk
    rw [hl.1 k hk, mul_zero, add_zero, shell_get (c := exampleShellMesh) hk]
    rfl
  have hrange : ∀ k ≤ 4, 0 ≤ ed k ∧ ed k ≤ 1 := by
    intro k hk
    rw [hgrid k hk]
    interval_cases k <;> norm_num [shellGrid]
  -- nothing leaves
  have hout : angularSum P.Nang P.ws (fun l => max (P.mus l - (meshAt P 0).Dedges P.mesh.N) 0 *
      sphereField P.M (fun _ => 1) (ed (P.mesh.N - 1)) (ed P.mesh.N) (ed P.mesh.N)) = 0 := by
    unfold angularSum
    refine Finset.sum_eq_zero fun l hl' => ?_
    have h2 : (meshAt P 0).Dedges P.mesh.N = 1 := by
      rw [hl.2 P.mesh.N le_rfl]
      have e1 := shell_outer_speed (c := exampleShellMesh) (by decide)
      have e2 : exampleShellMesh.speed = 1 := by
        norm_num [MeshConfig.speed, exampleShellMesh, exampleSquareMesh]
      exact e1.trans e2
    have h3 : P.mus l ≤ 1 := by
      have h4 : P.mus = exampleSphereParams.mus := rfl
      rw [h4]
      simp only [exampleSphereParams]
      split_ifs <;> norm_num
    simp only [h2, max_eq_right (sub_nonpos.2 h3), zero_mul, mul_zero]
  rw [hout, mul_zero, zero_sub]
  -- collisions
  have hw1 : ∑ l ∈ Finset.range P.Nang, P.ws l = 1 :=
    (cell_weights (p := P.params) exampleSphere_directions (hw.ws le_rfl)).2
  have htot : programTotal P 0 (fun _ _ _ => 1) =
      ∑ k ∈ Finset.range 4, sphereContent 0 (fun _ => 1) (ed k) (ed (k + 1)) := by
    unfold programTotal sphereTotal angularSum
    rw [← Finset.sum_mul]
    have : ∑ l ∈ Finset.range P.params.Nang, P.params.ws l = 1 := hw1
    rw [this, one_mul]
    rfl
  have hS : P.sigmaS = 1 := rfl
  rw [htot, hS, one_mul, hN, neg_add_eq_sub, ← Finset.sum_sub_distrib]
  refine Finset.sum_pos (fun k hk => ?_) ⟨0, by simp⟩
  have hk := Finset.mem_range.1 hk
  have hek : ed k < ed (k + 1) := hord k hk
  have hsc := c111_scatter_order_zero (P := P) rfl rfl ed (fun _ _ _ => 1) hek
  have hang : angularSum P.Nang P.ws (fun _ => (1 : ℝ)) = 1 := by
    unfold angularSum
    simpa using hw1
  rw [hang, hS, one_mul, mul_one] at hsc
  set κ := ruleWeight P.quad / 2 * (ruleOpacity P (ed k) (ed (k + 1)) / 2) with hκ
  have hcont : sphereContent P.M (programScatter P ed (fun _ _ _ => 1) k) (ed k) (ed (k + 1)) =
      κ * sphereContent 0 (fun _ => 1) (ed k) (ed (k + 1)) := by
    have hM : P.M = 0 := rfl
    rw [hM, sphereContent_eq _ _ hek, sphereContent_eq _ _ hek]
    simp only [zero_add, Finset.sum_range_one, hsc]
    ring
  have hpos := sphereContent_pos (hrange k (by omega)).1 hek
  have hκ1 : 1 < κ := by
    have hq : P.quad = [(0, Real.pi)] := rfl
    have hff : P.opacityConfig.func = .gaussian := rfl
    simp only [hκ, ruleWeight, ruleOpacity, hq, List.map_cons, List.map_nil, List.sum_cons,
      List.sum_nil, add_zero, sigmaFunction, hff]
    set y := quadPoint (ed k) (ed (k + 1)) 0 with hy
    have hy0 : 0 ≤ y := by
      simp only [hy, quadPoint, mul_zero, zero_add]
      linarith [(hrange k (by omega)).1, (hrange (k + 1) (by omega)).1]
    have hy1 : y ≤ 1 := by
      simp only [hy, quadPoint, mul_zero, zero_add]
      linarith [(hrange k (by omega)).2, (hrange (k + 1) (by omega)).2]
    have hexp : 7 / 8 ≤ Real.exp (-y ^ 2 / (2 * 2 ^ 2)) := by
      have := Real.add_one_le_exp (-y ^ 2 / (2 * 2 ^ 2))
      nlinarith
    have hpi := Real.pi_gt_three
    nlinarith [mul_pos Real.pi_pos Real.pi_pos, mul_le_mul_of_nonneg_left hexp Real.pi_pos.le]
  rw [hcont]
  nlinarith

end Verif.Props
