import Verif.Lemmas.Triple
import Verif.Props.Sources
import Mathlib.Analysis.Complex.ExponentialBounds

/-!
Properties C47 - C49 and C77: opacity moments, triple products, absorption and scattering vectors.
-/

namespace Verif.Props

open Polynomial Verif.Spec Verif.Model Verif.Lemmas

/-! ### C47 -/

theorem slabMoment_degenerate (q : List (ℝ × ℝ)) (f : ℝ → ℝ) (a : ℝ) (j : ℕ) :
    slabMoment q f a a j = 0 := by simp [slabMoment]

/-- Every opacity function but the moving shock is the same at all times. -/
theorem sigmaFunction_static (c : OpacityConfig) (hf : c.func ≠ .fakeSedov) (x t t' : ℝ) :
    sigmaFunction c x t = sigmaFunction c x t' := by
  unfold sigmaFunction
  cases h : c.func <;> first | rfl | exact absurd h hf

/-- Invariant of a `sigma_integrator` object: its moments are those on the cached edges. -/
def MomentInv (c : OpacityConfig) (s : OpacityState) : Prop :=
  ∀ i < c.Nspace, ∀ j ≤ c.Msigma, ∀ t,
    s.cs i j = slabMoment c.quad (fun x => sigmaFunction c x t) (s.edges i) (s.edges (i + 1)) j

theorem momentInv_step (c : OpacityConfig) (hf : c.func ≠ .fakeSedov) (s : OpacityState)
    (hs : MomentInv c s) (op : OpacityOp) : MomentInv c (opacityStep c s op) := by
  cases op with
  | moments e t =>
    intro i hi j hj t'
    show (if _ then _ else _) = slabMoment c.quad _ (e i) (e (i + 1)) j
    split_ifs with h
    · congr 1
      funext x
      exact sigmaFunction_static c hf x t t'
    · have h1 : e i = s.edges i := by
        by_contra h1; exact h ⟨hi, Or.inl h1, hj⟩
      have h2 : e (i + 1) = s.edges (i + 1) := by
        by_contra h2; exact h ⟨hi, Or.inr h2, hj⟩
      rw [h1, h2]
      exact hs i hi j hj t'
  | vectors e u k =>
    intro i hi j hj t'
    have h1 : (makeVectors c e u k s).cs = s.cs := by
      unfold makeVectors; split_ifs <;> rfl
    have h2 : (makeVectors c e u k s).edges = s.edges := by
      unfold makeVectors; split_ifs <;> rfl
    show (makeVectors c e u k s).cs i j = slabMoment c.quad _ ((makeVectors c e u k s).edges i)
      ((makeVectors c e u k s).edges (i + 1)) j
    rw [h1, h2]
    exact hs i hi j hj t'

theorem momentInv_run (c : OpacityConfig) (hf : c.func ≠ .fakeSedov) (ops : List OpacityOp) :
    MomentInv c (opacityRun c ops) := by
  unfold opacityRun
  have h0 : MomentInv c opacityInit := by
    intro i _ j _ t
    show (0 : ℝ) = slabMoment _ _ 0 0 j
    rw [slabMoment_degenerate]
  induction ops using List.reverseRecOn with
  | nil => exact h0
  | append_singleton ops op ih =>
    rw [List.foldl_append]
    exact momentInv_step c hf _ ih op

/-- C47 for the opacities that do not depend on time: after any sequence of requests, a request for
moments leaves in every cell the moments of the opacity on the requested edges.

Missing from the full claim: the time-dependent opacity `fake_sedov`, for which it is false,
`c47_moving_shock_stale`. -/
theorem c47_moments_current_partial (c : OpacityConfig) (hf : c.func ≠ .fakeSedov)
    (ops : List OpacityOp) (edges : ℕ → ℝ) (t : ℝ) {i j : ℕ} (hi : i < c.Nspace)
    (hj : j ≤ c.Msigma) :
    (opacityRun c (ops ++ [.moments edges t])).cs i j =
      slabMoment c.quad (fun x => sigmaFunction c x t) (edges i) (edges (i + 1)) j := by
  have h := momentInv_run c hf (ops ++ [.moments edges t]) i hi j hj t
  have he : (opacityRun c (ops ++ [.moments edges t])).edges = edges := by
    unfold opacityRun; rw [List.foldl_append]; rfl
  rw [he] at h
  exact h

/-- C47 for every opacity, the time-dependent one included: the moments of a cell one of whose
edges moved since the previous request are those at the requested time. -/
theorem c47_moved_cell_current (c : OpacityConfig) (ops : List OpacityOp) (edges : ℕ → ℝ) (t : ℝ)
    {i j : ℕ} (hi : i < c.Nspace) (hj : j ≤ c.Msigma)
    (hm : edges i ≠ (opacityRun c ops).edges i ∨ edges (i + 1) ≠ (opacityRun c ops).edges (i + 1)) :
    (opacityRun c (ops ++ [.moments edges t])).cs i j =
      slabMoment c.quad (fun x => sigmaFunction c x t) (edges i) (edges (i + 1)) j := by
  have e : opacityRun c (ops ++ [.moments edges t]) = sigmaMoments c edges t (opacityRun c ops) := by
    unfold opacityRun; rw [List.foldl_append]; rfl
  rw [e]
  exact if_pos ⟨hi, hm, hj⟩

/-- A cell `[-2,0]`, a shock moving with speed 1, the midpoint rule. -/
noncomputable def exampleShock : OpacityConfig where
  sigmaT := 1
  sigmaS := 1
  func := .fakeSedov
  M := 0
  Msigma := 0
  quad := [(0, 2)]
  Nspace := 1
  sigmaV := 1

/-- The edges `-2, 0`. -/
def exampleShockEdges (i : ℕ) : ℝ := if i = 0 then -2 else 0

/-- C47 is false for the moving shock on a mesh that stands still: the moments after the request at
time 2 are those of time 0. -/
theorem c47_moving_shock_stale :
    ∃ (c : OpacityConfig) (edges : ℕ → ℝ) (t : ℝ) (ops : List OpacityOp) (i j : ℕ),
      i < c.Nspace ∧ j ≤ c.Msigma ∧ edges i < edges (i + 1) ∧
      (opacityRun c (ops ++ [.moments edges t])).cs i j ≠
        slabMoment c.quad (fun x => sigmaFunction c x t) (edges i) (edges (i + 1)) j := by
  refine ⟨exampleShock, exampleShockEdges, 2, [.moments exampleShockEdges 0], 0, 0,
    by show 0 < 1; norm_num, le_rfl, by norm_num [exampleShockEdges], ?_⟩
  have e1 : (opacityRun exampleShock [.moments exampleShockEdges 0, .moments exampleShockEdges 2]).cs
      0 0 = slabMoment exampleShock.quad (fun x => sigmaFunction exampleShock x 0) (-2) 0 0 := by
    show (if _ then _ else (if _ then _ else _)) = _
    rw [if_neg (by rintro ⟨_, h, _⟩; rcases h with h | h <;> exact h rfl)]
    rw [if_pos ⟨by show 0 < 1; norm_num, Or.inl (by
      show exampleShockEdges 0 ≠ 0; norm_num [exampleShockEdges]), le_rfl⟩]
    simp [exampleShockEdges]
  show (opacityRun exampleShock [.moments exampleShockEdges 0,
    .moments exampleShockEdges 2]).cs 0 0 ≠ _
  rw [e1]
  have h0 : sigmaFunction exampleShock (-1) 0 = 1 / 5 := by
    norm_num [sigmaFunction, exampleShock, xi2, heavisideVec]
  have h2 : sigmaFunction exampleShock (-1) 2 = Real.exp (-1) := by
    norm_num [sigmaFunction, exampleShock, xi2, heavisideVec]
  have hq : quadPoint (-2) 0 0 = -1 := by norm_num [quadPoint]
  have hn : normPn 0 (-1) (-2) 0 ≠ 0 := by
    unfold normPn
    simp [legendre_zero]
  have hs : ∀ t, slabMoment exampleShock.quad (fun x => sigmaFunction exampleShock x t) (-2) 0 0 =
      2 * sigmaFunction exampleShock (-1) t * normPn 0 (-1) (-2) 0 := by
    intro t
    unfold slabMoment
    simp [exampleShock, hq]
  have hE : exampleShockEdges 0 = -2 ∧ exampleShockEdges (0 + 1) = 0 := by
    simp [exampleShockEdges]
  rw [hE.1, hE.2, hs, hs, h0, h2]
  intro h
  have h3 := mul_right_cancel₀ hn h
  have h4 : Real.exp (-1) = 1 / 5 := by linarith
  have h5 := Real.exp_neg_one_gt_d9
  rw [h4] at h5
  norm_num at h5

/-- A Gaussian opacity on two cells, with the two-point rule. -/
noncomputable def exampleOpacity : OpacityConfig where
  sigmaT := 2
  sigmaS := 1
  func := .gaussian
  M := 1
  Msigma := 1
  quad := [(-(√3)⁻¹, 1), ((√3)⁻¹, 1)]
  Nspace := 2
  sigmaV := 0

example := c47_moments_current_partial exampleOpacity (by decide)
  [.moments (fun i => (i : ℝ)) 0, .vectors (fun i => (i : ℝ)) (fun _ => 1) 0]
  (fun i => 2 * (i : ℝ)) 1 (i := 1) (j := 1) (by decide) (by decide)

example := c47_moved_cell_current exampleShock [.moments exampleShockEdges 0]
  (fun i => (i : ℝ)) 1 (i := 0) (j := 0) (by decide) (by decide)
  (Or.inl (by show ((0 : ℕ) : ℝ) ≠ exampleShockEdges 0; norm_num [exampleShockEdges]))

/-! ### C49 -/

/-- C49: on every cell, for all orders, every triple product of basis functions that
`create_integral_matrices` does not compute is zero. -/
theorem c49_skipped_zero (i j k : ℕ) (h : ¬ (j + k ≥ i ∧ bothEvenOrOdd i j k = true)) {a b : ℝ}
    (hab : a < b) :
    ∫ x in a..b, slabBasis i x a b * slabBasis j x a b * slabBasis k x a b = 0 := by
  rw [integral_triple i j k hab]
  have h0 : I (legendre i * legendre j * legendre k) = 0 := by
    by_cases h1 : j + k < i
    · exact I_triple_lower h1
    · refine I_triple_odd ?_
      have h2 : bothEvenOrOdd i j k ≠ true := fun h2 => h ⟨by omega, h2⟩
      unfold bothEvenOrOdd at h2
      split_ifs at h2 <;> first | omega | exact absurd rfl h2
  rw [h0]
  simp

/-- C49: with a rule exact to the degree of the product, the whole tensor `AAA` divided by the root
of the cell width holds the triple products of the basis functions on the cell. -/
theorem c49_tensor_exact (c : OpacityConfig) {n : ℕ} (hq : QuadExact c.quad n) {i j k : ℕ}
    (hn : i + j + k ≤ n) {a b : ℝ} (hab : a < b) :
    tripleTensor c i j k / √(b - a) =
      ∫ x in a..b, slabBasis i x a b * slabBasis j x a b * slabBasis k x a b := by
  unfold tripleTensor
  split_ifs with h
  · rw [tripleQuad_exact hq hn, integral_triple i j k hab]
  · rw [c49_skipped_zero i j k h hab]
    simp

example : ∫ x in (1 : ℝ)..3, slabBasis 5 x 1 3 * slabBasis 2 x 1 3 * slabBasis 1 x 1 3 = 0 :=
  c49_skipped_zero 5 2 1 (by decide) (by norm_num)

example := c49_tensor_exact exampleOpacity two_point_exact (i := 1) (j := 1) (k := 0) (by norm_num)
  (a := 1) (b := 3) (by norm_num)

/-! ### C48 and C77 -/

/-- The vector a fresh object computes is the projection of opacity times flux. -/
theorem tensor_projection (c : OpacityConfig) (hq : QuadExact c.quad (2 * c.M + c.Msigma))
    {a b : ℝ} (hab : a < b) (s : ℝ) (σ u : ℕ → ℝ) {i : ℕ} (hi : i ≤ c.M) :
    ∑ j ∈ Finset.range (c.M + 1), ∑ k ∈ Finset.range (c.Msigma + 1),
        s * σ k * u j * tripleTensor c i j k / √(b - a) =
      ∫ x in a..b, s * slabField c.Msigma σ a b x * slabField c.M u a b x * slabBasis i x a b := by
  have hcont : ∀ n, Continuous fun x => slabBasis n x a b := by
    intro n
    unfold slabBasis ref
    exact continuous_const.mul ((legendre n).continuous.comp (by fun_prop))
  have e : ∀ x, s * slabField c.Msigma σ a b x * slabField c.M u a b x * slabBasis i x a b =
      ∑ j ∈ Finset.range (c.M + 1), ∑ k ∈ Finset.range (c.Msigma + 1),
        s * σ k * u j * (slabBasis i x a b * slabBasis j x a b * slabBasis k x a b) := by
    intro x
    unfold slabField
    rw [Finset.mul_sum, Finset.mul_sum, Finset.sum_mul]
    refine Finset.sum_congr rfl fun j _ => ?_
    rw [Finset.sum_mul, Finset.sum_mul]
    refine Finset.sum_congr rfl fun k _ => ?_
    ring
  simp_rw [e]
  rw [intervalIntegral.integral_finsetSum]
  · refine Finset.sum_congr rfl fun j hj => ?_
    rw [intervalIntegral.integral_finsetSum]
    · refine Finset.sum_congr rfl fun k hk => ?_
      rw [intervalIntegral.integral_const_mul, ← c49_tensor_exact c hq (by
        have := Finset.mem_range.1 hj
        have := Finset.mem_range.1 hk
        omega) hab]
      ring
    · intro k _
      exact (continuous_const.mul (((hcont i).mul (hcont j)).mul (hcont k))).intervalIntegrable _ _
  · intro j _
    refine Continuous.intervalIntegrable ?_ _ _
    refine continuous_finsetSum _ fun k _ => ?_
    exact continuous_const.mul (((hcont i).mul (hcont j)).mul (hcont k))

/-- The request is one for moments. -/
def _root_.Verif.Model.OpacityOp.isMoments : OpacityOp → Prop
  | .moments _ _ => True
  | .vectors _ _ _ => False

theorem run_moments_VV (c : OpacityConfig) (ops : List OpacityOp)
    (h : ∀ op ∈ ops, op.isMoments) : (opacityRun c ops).VV = fun _ => 0 := by
  unfold opacityRun
  induction ops using List.reverseRecOn with
  | nil => rfl
  | append_singleton ops op ih =>
    rw [List.foldl_append]
    have h1 := ih fun o ho => h o (by simp [ho])
    have h2 := h op (by simp)
    cases op with
    | moments e t => exact h1
    | vectors e u k => exact absurd h2 (by simp [OpacityOp.isMoments])

theorem opacityRun_snoc (c : OpacityConfig) (ops : List OpacityOp) (op : OpacityOp) :
    opacityRun c (ops ++ [op]) = opacityStep c (opacityRun c ops) op := by
  unfold opacityRun; rw [List.foldl_append]; rfl

/-- C77, absorption: the first absorption vector that an object computes for a non-constant opacity
is, order by order, the integral over the cell of total cross section times projected opacity times
angular flux times basis function. -/
theorem c77_absorption_projection (c : OpacityConfig) (hc : c.func ≠ .constant)
    (hq : QuadExact c.quad (2 * c.M + c.Msigma)) (ops : List OpacityOp)
    (hops : ∀ op ∈ ops, op.isMoments) (edges u : ℕ → ℝ) (space : ℕ)
    (he : edges space < edges (space + 1)) {i : ℕ} (hi : i ≤ c.M) :
    (opacityRun c (ops ++ [.vectors edges u space])).VV i =
      ∫ x in edges space..edges (space + 1),
        c.sigmaT * slabField c.Msigma ((opacityRun c ops).cs space) (edges space)
          (edges (space + 1)) x * slabField c.M u (edges space) (edges (space + 1)) x *
          slabBasis i x (edges space) (edges (space + 1)) := by
  rw [opacityRun_snoc]
  show (makeVectors c edges u space (opacityRun c ops)).VV i = _
  unfold makeVectors
  rw [if_neg hc]
  show (if i ≤ c.M then _ else _) = _
  rw [if_pos hi, run_moments_VV c ops hops, zero_add,
    show c.sigmaT - c.sigmaS + c.sigmaS = c.sigmaT by ring]
  exact tensor_projection c hq he c.sigmaT _ u hi

/-- C77, scattering: for a non-constant opacity the scattering term is, order by order, the integral
over the cell of scattering cross section times projected opacity times scalar flux times basis
function, whatever was computed before. -/
theorem c77_scattering_projection (c : OpacityConfig) (hc : c.func ≠ .constant) (g : Geometry)
    (hq : QuadExact c.quad (2 * c.M + c.Msigma)) (Nang : ℕ) (ws : ℕ → ℝ) (cs u : ℕ → ℕ → ℝ)
    (space : ℕ) {xL xR : ℝ} (h : xL < xR) {i : ℕ} (hi : i ≤ c.M) :
    scalarFluxTerm c g Nang ws cs u space xL xR i =
      ∫ x in xL..xR, c.sigmaS * slabField c.Msigma (cs space) xL xR x *
        (∑ l ∈ Finset.range Nang, ws l * slabField c.M (u l) xL xR x) *
        slabBasis i x xL xR := by
  have e : ∀ x, (∑ l ∈ Finset.range Nang, ws l * slabField c.M (u l) xL xR x) =
      slabField c.M (fun j => ∑ l ∈ Finset.range Nang, u l j * ws l) xL xR x := by
    intro x
    unfold slabField
    simp_rw [Finset.mul_sum, Finset.sum_mul]
    rw [Finset.sum_comm]
    refine Finset.sum_congr rfl fun j _ => Finset.sum_congr rfl fun l _ => ?_
    ring
  simp_rw [e]
  rw [← tensor_projection c hq h c.sigmaS _ _ hi]
  unfold scalarFluxTerm
  rw [if_neg hc]
  unfold scatterVector
  rw [Finset.sum_comm, Finset.sum_div]
  refine Finset.sum_congr rfl fun j _ => ?_
  rw [Finset.sum_comm, Finset.sum_div]
  refine Finset.sum_congr rfl fun k _ => ?_
  rw [Finset.mul_sum, Finset.sum_mul]
  congr 1
  refine Finset.sum_congr rfl fun l _ => ?_
  ring

example := c77_absorption_projection { exampleOpacity with M := 1, Msigma := 1 } (by decide)
  two_point_exact [.moments (fun i => (i : ℝ)) 0] (by simp [OpacityOp.isMoments])
  (fun i => (i : ℝ)) (fun j => 1 + j) 1 (by norm_num) (i := 1) le_rfl

example := c77_scattering_projection exampleOpacity (by decide) .slab two_point_exact 2
  (fun _ => 1) (fun _ _ => 1) (fun l j => l + j) 0 (xL := 0) (xR := 3) (by norm_num) (i := 1)
  le_rfl

/-- C48 for a constant opacity: whatever was requested before, the absorption vector is the total
cross section times the coefficients of the angular flux.

Missing from the full claim: non-constant opacities, for which it is false,
`c48_absorption_accumulates` and `c48_depends_on_history`. -/
theorem c48_constant_partial (c : OpacityConfig) (hc : c.func = .constant) (ops : List OpacityOp)
    (edges u : ℕ → ℝ) (space i : ℕ) :
    (opacityRun c (ops ++ [.vectors edges u space])).VV i = c.sigmaT * u i := by
  rw [opacityRun_snoc]
  show (makeVectors c edges u space (opacityRun c ops)).VV i = _
  unfold makeVectors
  rw [if_pos hc]
  show u i * c.sigmaT = _
  ring

/-- Every non-constant opacity: a request for the absorption vector adds to the previous one what a
fresh object would compute from the same moments. -/
theorem c48_absorption_accumulates (c : OpacityConfig) (hc : c.func ≠ .constant)
    (hq : QuadExact c.quad (2 * c.M + c.Msigma)) (ops : List OpacityOp) (edges u : ℕ → ℝ)
    (space : ℕ) (he : edges space < edges (space + 1)) {i : ℕ} (hi : i ≤ c.M) :
    (opacityRun c (ops ++ [.vectors edges u space])).VV i = (opacityRun c ops).VV i +
      ∫ x in edges space..edges (space + 1),
        c.sigmaT * slabField c.Msigma ((opacityRun c ops).cs space) (edges space)
          (edges (space + 1)) x * slabField c.M u (edges space) (edges (space + 1)) x *
          slabBasis i x (edges space) (edges (space + 1)) := by
  rw [opacityRun_snoc]
  show (makeVectors c edges u space (opacityRun c ops)).VV i = _
  unfold makeVectors
  rw [if_neg hc]
  show (if i ≤ c.M then _ else _) = _
  rw [if_pos hi, show c.sigmaT - c.sigmaS + c.sigmaS = c.sigmaT by ring]
  congr 1
  exact tensor_projection c hq he c.sigmaT _ u hi

example := c48_absorption_accumulates exampleOpacity (by decide) two_point_exact
  [.moments (fun i => (i : ℝ)) 0, .vectors (fun i => (i : ℝ)) (fun _ => 1) 0]
  (fun i => (i : ℝ)) (fun j => 1 + j) 1 (by norm_num) (i := 1) le_rfl

/-- A Gaussian opacity on the cell `[-1,1]`, orders zero, midpoint rule. -/
noncomputable def exampleGaussian : OpacityConfig where
  sigmaT := 1
  sigmaS := 0
  func := .gaussian
  M := 0
  Msigma := 0
  quad := [(0, 2)]
  Nspace := 1
  sigmaV := 0

/-- The edges `-1, 1`. -/
def exampleGaussianEdges (i : ℕ) : ℝ := if i = 0 then -1 else 1

/-- C48 is false for a non-constant opacity: the vector computed for the same cell and the same
flux the second time differs from the first. -/
theorem c48_depends_on_history :
    ∃ (c : OpacityConfig) (edges u : ℕ → ℝ) (space i : ℕ) (ops : List OpacityOp),
      QuadExact c.quad (2 * c.M + c.Msigma) ∧ space < c.Nspace ∧ i ≤ c.M ∧
      edges space < edges (space + 1) ∧
      (opacityRun c (ops ++ [.vectors edges u space, .vectors edges u space])).VV i ≠
        (opacityRun c (ops ++ [.vectors edges u space])).VV i := by
  have hq : QuadExact exampleGaussian.quad (2 * exampleGaussian.M + exampleGaussian.Msigma) := by
    intro p hp
    have hp0 : p.natDegree = 0 := by
      have : p.natDegree ≤ 0 := hp
      omega
    rw [Polynomial.eq_C_of_natDegree_eq_zero hp0]
    simp [exampleGaussian]
    left; norm_num
  refine ⟨exampleGaussian, exampleGaussianEdges, fun _ => 1, 0, 0,
    [.moments exampleGaussianEdges 0], hq, by decide, le_rfl,
    by norm_num [exampleGaussianEdges], ?_⟩
  have hs : ∀ ops, opacityRun exampleGaussian (ops ++ [.vectors exampleGaussianEdges (fun _ => 1) 0,
      .vectors exampleGaussianEdges (fun _ => 1) 0]) = opacityRun exampleGaussian
      ((ops ++ [.vectors exampleGaussianEdges (fun _ => 1) 0]) ++
        [.vectors exampleGaussianEdges (fun _ => 1) 0]) := by simp
  rw [hs, c48_absorption_accumulates exampleGaussian (by decide) hq _ _ _ 0
    (by norm_num [exampleGaussianEdges]) (i := 0) (Nat.zero_le _)]
  intro h
  have h0 : (opacityRun exampleGaussian ([.moments exampleGaussianEdges 0] ++
      [.vectors exampleGaussianEdges (fun _ => 1) 0])).cs 0 0 = √2 := by
    have e : (opacityRun exampleGaussian ([.moments exampleGaussianEdges 0] ++
      [.vectors exampleGaussianEdges (fun _ => 1) 0])).cs =
      (opacityRun exampleGaussian ([] ++ [.moments exampleGaussianEdges 0])).cs := by
      rw [opacityRun_snoc]
      show (makeVectors _ _ _ _ _).cs = _
      unfold makeVectors
      split_ifs <;> rfl
    rw [e, c47_moments_current_partial exampleGaussian (by decide) [] _ 0 (i := 0) (j := 0)
      (by decide) (Nat.zero_le _)]
    have h2 : √(2 : ℝ) * √2 = 2 := Real.mul_self_sqrt (by norm_num)
    have h3 : √(2 : ℝ) ≠ 0 := by positivity
    norm_num [slabMoment, exampleGaussian, exampleGaussianEdges, sigmaFunction, quadPoint, normPn,
      legendre_zero]
    field_simp
    linarith
  rw [← tensor_projection exampleGaussian hq (by norm_num [exampleGaussianEdges]) _ _ _ (i := 0)
    (Nat.zero_le _)] at h
  rw [add_eq_left] at h
  have h1 : tripleTensor exampleGaussian 0 0 0 = 1 := by
    unfold tripleTensor
    rw [if_pos (by decide)]
    norm_num [tripleQuad, exampleGaussian, Pn, legendre_zero]
  simp only [exampleGaussian] at h h0 h1
  simp [h1, exampleGaussianEdges] at h
  have h2 := h0.symm.trans h
  simp at h2

example := c48_constant_partial { exampleOpacity with func := .constant } rfl
  [.vectors (fun i => (i : ℝ)) (fun _ => 1) 0] (fun i => (i : ℝ)) (fun j => 1 + j) 1 1

end Verif.Props
