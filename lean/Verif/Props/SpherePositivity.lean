import Verif.Props.SphereProgram
import Verif.Lemmas.Monotone

/-!
Property C119: with one constant per shell (`M = 0`) the sphere solver keeps nonnegative data
nonnegative exactly if scattering makes up for what the redistribution term takes from a direction.
-/

namespace Verif.Props

open Set Filter Topology Verif.Spec Verif.Model Verif.Lemmas

/-! ### Quasi-positive equations -/

/-- A trajectory that starts nonnegative stays nonnegative if every component that is negative falls
no faster than a multiple of the negative part. -/
theorem quasi_nonneg {ι : Type*} [Fintype ι] (a b K : ℝ) (hK : 0 ≤ K) (F : Set ℝ) (hF : F.Finite)
    (D r : ℝ → ι → ℝ) (hcont : ∀ q, ContinuousOn (fun s => D s q) (Icc a b))
    (hder : ∀ t ∈ Ico a b \ F, ∀ q, HasDerivWithinAt (fun s => D s q) (r t q) (Ici t) t)
    (hr : ∀ t ∈ Ico a b \ F, ∀ q, D t q < 0 → -(K * ‖fun q => max (-D t q) 0‖) ≤ r t q)
    (h0 : ∀ q, 0 ≤ D a q) : ∀ t ∈ Icc a b, ∀ q, 0 ≤ D t q := by
  intro t ht
  set n : ℝ → ι → ℝ := fun s q => max (-D s q) 0 with hn
  have hn0 : ∀ s q, 0 ≤ n s q := fun s q => le_max_right _ _
  have hsum : ∀ s q, n s q ≤ ‖n s‖ := fun s q => by
    have := norm_le_pi_norm (n s) q
    rwa [Real.norm_eq_abs, abs_of_nonneg (hn0 s q)] at this
  have hsq : ∀ s, ‖n s‖ ^ 2 ≤ ∑ q, n s q ^ 2 := by
    intro s
    have hnn : 0 ≤ ∑ q, n s q ^ 2 := Finset.sum_nonneg fun q _ => sq_nonneg _
    have : ‖n s‖ ≤ Real.sqrt (∑ q, n s q ^ 2) := by
      refine (pi_norm_le_iff_of_nonneg (Real.sqrt_nonneg _)).2 fun q => ?_
      rw [Real.norm_eq_abs]
      refine Real.abs_le_sqrt ?_
      exact Finset.single_le_sum (f := fun q => n s q ^ 2) (fun q _ => sq_nonneg _)
        (Finset.mem_univ q)
    calc ‖n s‖ ^ 2 ≤ Real.sqrt (∑ q, n s q ^ 2) ^ 2 := by gcongr
      _ = _ := Real.sq_sqrt hnn
  have h := gronwall_except hF (fun s => ∑ q, n s q ^ 2) (fun s => ∑ q, -2 * n s q * r s q)
    (2 * K * Fintype.card ι) 0 a b 0
    (continuousOn_finsetSum _ fun q _ => ((hcont q).neg.sup continuousOn_const).pow 2)
    (fun x hx => HasDerivWithinAt.fun_sum fun q _ =>
      (hasDerivAt_neg_sq (D x q)).comp_hasDerivWithinAt x (hder x hx q))
    (by
      refine (Finset.sum_eq_zero fun q _ => ?_).le
      have : n a q = 0 := max_eq_right (by have := h0 q; linarith)
      rw [this]; ring)
    (fun x hx => by
      have h1 : ∀ q, -2 * n x q * r x q ≤ 2 * K * ∑ q, n x q ^ 2 := by
        intro q
        have hp : 0 ≤ ∑ q, n x q ^ 2 := Finset.sum_nonneg fun q _ => sq_nonneg _
        by_cases hq : D x q < 0
        · have h2 := hr x hx q hq
          have h3 : n x q * -(r x q) ≤ ‖n x‖ * (K * ‖n x‖) :=
            (mul_le_mul_of_nonneg_left (by linarith : -(r x q) ≤ K * ‖n x‖) (hn0 x q)).trans
              (mul_le_mul_of_nonneg_right (hsum x q) (mul_nonneg hK (norm_nonneg _)))
          nlinarith [mul_le_mul_of_nonneg_left (hsq x) hK]
        · have : n x q = 0 := max_eq_right (by linarith)
          rw [this]
          have := mul_nonneg hK hp
          linarith
      calc ∑ q, -2 * n x q * r x q ≤ ∑ _q : ι, 2 * K * ∑ q, n x q ^ 2 :=
            Finset.sum_le_sum fun q _ => h1 q
        _ = _ := by
            rw [Finset.sum_const, Finset.card_univ, nsmul_eq_mul]; ring) t ht
  rw [gronwallBound_ε0, zero_mul] at h
  intro q
  have h1 := Finset.single_le_sum (f := fun q => n t q ^ 2) (fun q _ => sq_nonneg _)
    (Finset.mem_univ q)
  have h2 : n t q = 0 := pow_eq_zero_iff (two_ne_zero) |>.1 (le_antisymm (h1.trans h) (sq_nonneg _))
  have h3 : -D t q ≤ n t q := le_max_left _ _
  linarith

/-! ### One constant per shell -/

/-- Mean of `1 / r` over a shell, with the volume weight. -/
noncomputable def inverseRadius (a b : ℝ) : ℝ := 3 * (a + b) / (2 * (a ^ 2 + a * b + b ^ 2))

theorem sphereMass_zero_zero {a b : ℝ} (h : a < b) :
    sphereMass 0 0 a b = (a ^ 2 + a * b + b ^ 2) / (3 * Real.pi) := by
  obtain ⟨hs, h2⟩ := sqrt_pi_mul h
  unfold sphereMass
  simp only [sphereBasis_zero]
  rw [intervalIntegral.integral_mul_const, integral_pow]
  have hb : b - a ≠ 0 := by linarith
  have h3 : Real.sqrt (Real.pi * (b - a)) * Real.sqrt (Real.pi * (b - a)) = Real.pi * (b - a) :=
    Real.mul_self_sqrt (mul_pos Real.pi_pos (by linarith)).le
  rw [div_mul_div_comm, h3]
  have := Real.pi_ne_zero
  field_simp
  push_cast
  ring

theorem sphereJ_zero_zero {a b : ℝ} (h : a < b) :
    sphereJ 0 0 a b = (a + b) / (2 * Real.pi) := by
  unfold sphereJ
  simp only [sphereBasis_zero]
  rw [intervalIntegral.integral_mul_const, integral_id]
  have hb : b - a ≠ 0 := by linarith
  have h3 : Real.sqrt (Real.pi * (b - a)) * Real.sqrt (Real.pi * (b - a)) = Real.pi * (b - a) :=
    Real.mul_self_sqrt (mul_pos Real.pi_pos (by linarith)).le
  rw [div_mul_div_comm, h3]
  have := Real.pi_ne_zero
  field_simp
  ring

theorem shell_pos {a b : ℝ} (ha : 0 ≤ a) (h : a < b) : 0 < a ^ 2 + a * b + b ^ 2 := by
  have hb : 0 < b := ha.trans_lt h
  positivity

theorem sphereField_zero (U : ℕ → ℝ) (a b x : ℝ) :
    sphereField 0 U a b x = U 0 / Real.sqrt (Real.pi * (b - a)) := by
  unfold sphereField
  simp [sphereBasis_zero, div_eq_mul_inv]

/-- The right-hand side for order zero: one division instead of the inverse matrix. -/
theorem sphereField0_zero (p : RhsParams) (c : FluxConfig) (hg : c.geometry = .sphere) (hM : c.M = 0)
    (t : ℝ) (m : MeshView) (h0 : m.edges 0 = 0)
    (hm : ∀ k < c.Nspace, m.edges k < m.edges (k + 1)) (S : ℕ → ℕ → ℝ) (V : ℕ → ℕ → ℕ → ℝ) (l k : ℕ)
    (i : Fin (c.M + 1)) (hk : k < c.Nspace) :
    sphereField0 p c t m S V l k i = sphereFlow p c t m S V l k 0 /
      sphereMass 0 0 (m.edges k) (m.edges (k + 1)) + p.c * scalarCoef p V k 0 - V l k 0 := by
  have hM' : c.M ≤ 10 := by omega
  have hi : (i : ℕ) = 0 := by have := i.2; omega
  obtain ⟨mats, hmats⟩ := c65_matrices_exist hM' (hm k hk) (m.Dedges k) (m.Dedges (k + 1))
  set fs : FluxState := ⟨0, 0, 0, 0, 0, 0, 0, 0, 0, fun _ => 0⟩
  rw [← sphereRhs_closed p c hg hM' t m h0 hm (fun _ => mats) S fs V l k i hk hmats, hi]
  unfold sphereRhs
  rw [mul_comm (activePV p V k 0), c_activePV]
  congr 2
  have h1 := hmats.inv (sphereWeak p c t m mats S fs V l k) 0 (Nat.zero_le _)
  have h2 := hmats.Mass 0 (Nat.zero_le _) 0 (Nat.zero_le _)
  have h3 : matVec c.M mats.Mass (matVec c.M mats.Minv (sphereWeak p c t m mats S fs V l k)) 0 =
      mats.Mass 0 0 * matVec c.M mats.Minv (sphereWeak p c t m mats S fs V l k) 0 := by
    rw [hM]
    simp [matVec]
  have ha : 0 ≤ m.edges k := by
    rw [← h0]
    exact edges_mono hm (Nat.zero_le k) hk.le
  have hpos : 0 < sphereMass 0 0 (m.edges k) (m.edges (k + 1)) := by
    rw [sphereMass_zero_zero (hm k hk)]
    have := shell_pos ha (hm k hk)
    have := Real.pi_pos
    positivity
  rw [h3, h2, sphereWeak_eq_flow p c hg hM' t m h0 hm mats S fs V l k 0 hk (Nat.zero_le _) hmats] at h1
  rw [eq_div_iff hpos.ne', ← h1]
  ring

/-- Weight with which the redistribution term takes from direction `l` what direction `l + 1` has. -/
noncomputable def forwardLoss (n : ℕ) (mus : ℕ → ℝ) (l : ℕ) : ℝ :=
  (1 - angularEdge n mus (l + 1) ^ 2) / (2 * angularWidth n mus l)

/-- In a shell that is empty in direction `l` the rate of direction `l` comes from the neighbours. -/
theorem empty_rate (p : RhsParams) (hn : 2 ≤ p.Nang) (c : FluxConfig) (hg : c.geometry = .sphere)
    (hM : c.M = 0) (t : ℝ) (m : MeshView) (h0 : m.edges 0 = 0)
    (hm : ∀ k < c.Nspace, m.edges k < m.edges (k + 1)) (S : ℕ → ℕ → ℝ) (V : ℕ → ℕ → ℕ → ℝ)
    {l k : ℕ} (i : Fin (c.M + 1)) (hl : l < p.Nang) (hk : k < c.Nspace) (hV : V l k 0 = 0) :
    sphereField0 p c t m S V l k i =
      (m.edges (k + 1) ^ 2 / Real.sqrt (Real.pi * (m.edges (k + 1) - m.edges k)) *
          max (m.Dedges (k + 1) - p.mus l) 0 * rightOuter c t m (V l) k
        + (if k = 0 then 0 else m.edges k ^ 2 / Real.sqrt (Real.pi * (m.edges (k + 1) - m.edges k)) *
          max (p.mus l - m.Dedges k) 0 *
            (V l (k - 1) 0 / Real.sqrt (Real.pi * (m.edges k - m.edges (k - 1)))))
        + 1 / 2 * S k 0 * p.c) / sphereMass 0 0 (m.edges k) (m.edges (k + 1))
      - inverseRadius (m.edges k) (m.edges (k + 1)) * (forwardLoss p.Nang p.mus l * V (l + 1) k 0)
      + inverseRadius (m.edges k) (m.edges (k + 1)) *
        ((1 - angularEdge p.Nang p.mus l ^ 2) / (2 * angularWidth p.Nang p.mus l) * V (l - 1) k 0)
      + p.c * scalarCoef p V k 0 := by
  have ha : 0 ≤ m.edges k := by
    rw [← h0]
    exact edges_mono hm (Nat.zero_le k) hk.le
  have hpos := shell_pos ha (hm k hk)
  have hpi := Real.pi_pos
  have hJ : sphereJ 0 0 (m.edges k) (m.edges (k + 1)) =
      inverseRadius (m.edges k) (m.edges (k + 1)) * sphereMass 0 0 (m.edges k) (m.edges (k + 1)) := by
    rw [sphereJ_zero_zero (hm k hk), sphereMass_zero_zero (hm k hk), inverseRadius]
    have := hpos.ne'
    rw [div_mul_div_comm, div_eq_div_iff (by positivity) (by positivity)]
    ring
  have hMp : sphereMass 0 0 (m.edges k) (m.edges (k + 1)) ≠ 0 := by
    rw [sphereMass_zero_zero (hm k hk)]
    positivity
  rw [sphereField0_zero p c hg hM t m h0 hm S V l k i hk, hV]
  unfold sphereFlow
  simp only [← angularDifference_eq hn _ hl, hM]
  simp only [zero_add, Finset.sum_range_one, hV, mul_zero, sphereField_zero, sphereBasis_zero,
    zero_div, angularDifference, upwind, hJ, forwardLoss]
  have hmin : min (p.mus l - m.Dedges (k + 1)) 0 = -max (m.Dedges (k + 1) - p.mus l) 0 := by
    rw [← neg_zero, ← neg_sub, min_neg_neg, neg_zero]
  rw [hmin]
  by_cases hk0 : k = 0
  · simp only [if_pos hk0]
    field_simp
    ring
  · simp only [if_neg hk0]
    field_simp
    ring

/-! ### Nonnegative data give nonnegative rates -/

theorem inverseRadius_pos {a b : ℝ} (ha : 0 ≤ a) (h : a < b) : 0 < inverseRadius a b := by
  have := shell_pos ha h
  have : 0 < a + b := by linarith
  unfold inverseRadius
  positivity

theorem forwardLoss_pos {n : ℕ} {mus : ℕ → ℝ} (hd : DirectionSet n mus) {l : ℕ} (hl : l + 1 < n) :
    0 < forwardLoss n mus l := by
  have h1 := angularEdge_inner hd (Nat.succ_pos l) hl
  have h2 := angularWidth_pos hd (show l < n by omega)
  unfold forwardLoss
  have : 0 < 1 - angularEdge n mus (l + 1) ^ 2 := by nlinarith [h1.1, h1.2]
  positivity

theorem angularEdge_sq_le {n : ℕ} {mus : ℕ → ℝ} (hd : DirectionSet n mus) {k : ℕ} (hk : k ≤ n) :
    0 ≤ 1 - angularEdge n mus k ^ 2 := by
  rcases Nat.eq_zero_or_pos k with rfl | h0
  · simp [angularEdge]
  rcases hk.eq_or_lt with rfl | hk
  · simp [angularEdge]
  · have h1 := angularEdge_inner hd h0 hk
    nlinarith [h1.1, h1.2]

/-- Scattering gives direction `l` at least what the redistribution term takes from it, in the shell
from `a` to `b`. -/
def ScatteringFills (n : ℕ) (mus ws : ℕ → ℝ) (scat a b : ℝ) : Prop :=
  ∀ l, l + 1 < n → inverseRadius a b * forwardLoss n mus l ≤ scat * ws (l + 1)

theorem rightOuter_nonneg (c : FluxConfig) (hg : c.geometry = .sphere) (hM : c.M = 0) (t : ℝ)
    (m : MeshView) {k : ℕ} (hoff : isBoundarySourceOn c k t = false) (u : ℕ → ℕ → ℝ)
    (hu : k + 1 ≠ c.Nspace → 0 ≤ u (k + 1) 0) : 0 ≤ rightOuter c t m u k := by
  unfold rightOuter
  rw [hoff, hg, hM]
  by_cases h : k + 1 ≠ c.Nspace
  · rw [if_pos h]
    have : geomField .sphere 0 (u (k + 1)) (m.edges (k + 1)) (m.edges (k + 2)) (m.edges (k + 1)) =
        sphereField 0 (u (k + 1)) (m.edges (k + 1)) (m.edges (k + 2)) (m.edges (k + 1)) := rfl
    rw [this, sphereField_zero]
    exact div_nonneg (hu h) (Real.sqrt_nonneg _)
  · rw [if_neg h]
    simp

theorem empty_rate_nonneg (p : RhsParams) (hd : DirectionSet p.Nang p.mus) (hc : 0 ≤ p.c)
    (hw : ∀ l < p.Nang, 0 ≤ p.ws l) (c : FluxConfig) (hg : c.geometry = .sphere)
    (hM : c.M = 0) (t : ℝ) (m : MeshView) (h0 : m.edges 0 = 0)
    (hm : ∀ k < c.Nspace, m.edges k < m.edges (k + 1)) (S : ℕ → ℕ → ℝ) (V : ℕ → ℕ → ℕ → ℝ)
    {l k : ℕ} (i : Fin (c.M + 1)) (hl : l < p.Nang) (hk : k < c.Nspace)
    (hoff : isBoundarySourceOn c k t = false) (hS : 0 ≤ S k 0)
    (hfill : ScatteringFills p.Nang p.mus p.ws p.c (m.edges k) (m.edges (k + 1)))
    (hpos : ∀ l < p.Nang, ∀ k < c.Nspace, 0 ≤ V l k 0) (hV : V l k 0 = 0) :
    0 ≤ sphereField0 p c t m S V l k i := by
  have ha : 0 ≤ m.edges k := by
    rw [← h0]
    exact edges_mono hm (Nat.zero_le k) hk.le
  have hMp : 0 < sphereMass 0 0 (m.edges k) (m.edges (k + 1)) := by
    rw [sphereMass_zero_zero (hm k hk)]
    have := shell_pos ha (hm k hk)
    have := Real.pi_pos
    positivity
  have hr := inverseRadius_pos ha (hm k hk)
  rw [empty_rate p hd.two c hg hM t m h0 hm S V i hl hk hV]
  have h1 : 0 ≤ rightOuter c t m (V l) k :=
    rightOuter_nonneg c hg hM t m hoff (V l) fun h => hpos l hl (k + 1) (by omega)
  have h2 : 0 ≤ (if k = 0 then 0 else m.edges k ^ 2 /
      Real.sqrt (Real.pi * (m.edges (k + 1) - m.edges k)) * max (p.mus l - m.Dedges k) 0 *
        (V l (k - 1) 0 / Real.sqrt (Real.pi * (m.edges k - m.edges (k - 1))))) := by
    split_ifs with h
    · exact le_rfl
    · have := hpos l hl (k - 1) (by omega)
      have := le_max_right (p.mus l - m.Dedges k) 0
      positivity
  have h3 : 0 ≤ m.edges (k + 1) ^ 2 / Real.sqrt (Real.pi * (m.edges (k + 1) - m.edges k)) *
      max (m.Dedges (k + 1) - p.mus l) 0 * rightOuter c t m (V l) k := by
    have := le_max_right (m.Dedges (k + 1) - p.mus l) 0
    positivity
  have h4 : 0 ≤ 1 / 2 * S k 0 * p.c := by positivity
  have h5 : 0 ≤ inverseRadius (m.edges k) (m.edges (k + 1)) *
      ((1 - angularEdge p.Nang p.mus l ^ 2) / (2 * angularWidth p.Nang p.mus l) * V (l - 1) k 0) := by
    have := angularEdge_sq_le hd hl.le
    have := angularWidth_pos hd hl
    have := hpos (l - 1) (by omega) k hk
    positivity
  have h6 : inverseRadius (m.edges k) (m.edges (k + 1)) *
      (forwardLoss p.Nang p.mus l * V (l + 1) k 0) ≤ p.c * scalarCoef p V k 0 := by
    unfold scalarCoef angularSum
    have hnn : ∀ j ∈ Finset.range p.Nang, 0 ≤ p.ws j * V j k 0 := fun j hj =>
      mul_nonneg (hw j (Finset.mem_range.1 hj)) (hpos j (Finset.mem_range.1 hj) k hk)
    by_cases h : l + 1 < p.Nang
    · have e1 := Finset.single_le_sum hnn (Finset.mem_range.2 h)
      have e2 := mul_le_mul_of_nonneg_right (hfill l h) (hpos (l + 1) h k hk)
      have e3 := mul_le_mul_of_nonneg_left e1 hc
      linarith
    · have : angularEdge p.Nang p.mus (l + 1) = 1 := by
        unfold angularEdge
        rw [if_neg (by omega), if_pos (by omega)]
      unfold forwardLoss
      rw [this]
      simp only [one_pow, sub_self, zero_div, zero_mul, mul_zero]
      exact mul_nonneg hc (Finset.sum_nonneg hnn)
  have h7 := div_nonneg (add_nonneg (add_nonneg h3 h2) h4) hMp.le
  linarith

/-! ### C119, one-call model -/

/-- The coefficients of a solution as a vector. -/
noncomputable def gather (p : RhsParams) (c : FluxConfig) (V : ℕ → ℕ → ℕ → ℝ) : Coefs p c :=
  fun q => V q.1 q.2.1 q.2.2

theorem spread_nonneg (p : RhsParams) (c : FluxConfig) {U : Coefs p c} (h : ∀ q, 0 ≤ U q)
    (l k i : ℕ) : 0 ≤ spread p c U l k i := by
  unfold spread
  split_ifs
  exacts [h _, le_rfl]

theorem spread_gather (p : RhsParams) (c : FluxConfig) (V : ℕ → ℕ → ℕ → ℝ) {l k i : ℕ}
    (hl : l < p.Nang) (hk : k < c.Nspace) (hi : i ≤ c.M) :
    spread p c (gather p c V) l k i = V l k i := by
  unfold spread gather
  rw [dif_pos ⟨hl, hk, Nat.lt_succ_iff.2 hi⟩]

theorem sphere_nonneg (p : RhsParams) (hd : DirectionSet p.Nang p.mus) (hc : 0 ≤ p.c)
    (hw : ∀ l < p.Nang, 0 ≤ p.ws l) (c : FluxConfig) (hg : c.geometry = .sphere) (hM : c.M = 0)
    (a b : ℝ) (F : Set ℝ) (hF : F.Finite) (mesh : ℝ → MeshView) (mats : ℝ → ℕ → CellMats)
    (hmesh : SphereMeshOn c mesh mats a b F)
    (hv : ∀ k ≤ c.Nspace, ContinuousOn (fun s => (mesh s).Dedges k) (Icc a b))
    (S : ℝ → ℕ → ℕ → ℝ) (hS : ∀ t ∈ Ico a b \ F, ∀ k < c.Nspace, 0 ≤ S t k 0)
    (hoff : ∀ t ∈ Ico a b \ F, ∀ k, isBoundarySourceOn c k t = false)
    (hfill : ∀ t ∈ Ico a b \ F, ∀ k < c.Nspace, ScatteringFills p.Nang p.mus p.ws p.c
      ((mesh t).edges k) ((mesh t).edges (k + 1)))
    (V : ℝ → ℕ → ℕ → ℕ → ℝ) (h : SphereSolutionOn p c mesh mats S a b F V)
    (h0 : ∀ l < p.Nang, ∀ k < c.Nspace, 0 ≤ V a l k 0) :
    ∀ t ∈ Icc a b, ∀ l < p.Nang, ∀ k < c.Nspace, 0 ≤ V t l k 0 := by
  have hM' : c.M ≤ 10 := by omega
  obtain ⟨K, hK⟩ := sphereOp_bound p c hg hM' a b mesh hmesh.centre hmesh.ordered hmesh.cont hv
  have hi0 : ∀ i : Fin (c.M + 1), (i : ℕ) = 0 := fun i => by have := i.2; omega
  have main := quasi_nonneg a b K K.2 F hF (fun s => gather p c (V s))
    (fun s q => sphereField0 p c s (mesh s) (S s) (V s) q.1 q.2.1 q.2.2)
    (fun q => h.1 q.1 q.1.2 q.2.1 q.2.1.2 q.2.2 (Nat.lt_succ_iff.1 q.2.2.2))
    (fun t ht q => h.rate hg hM' ht (hmesh.centre t ⟨ht.1.1, ht.1.2.le⟩)
      (hmesh.ordered t ⟨ht.1.1, ht.1.2.le⟩) (hmesh.mats t ht) q.1.2 q.2.1.2 q.2.2.2)
    (fun t ht q hq => ?_)
    (fun q => by
      have := h0 q.1 q.1.2 q.2.1 q.2.1.2
      rw [← hi0 q.2.2] at this
      exact this)
  · intro t ht l hl k hk
    have := main t ht (⟨l, hl⟩, ⟨k, hk⟩, ⟨0, by omega⟩)
    exact this
  · have htc : t ∈ Icc a b := ⟨ht.1.1, ht.1.2.le⟩
    have m0 := hmesh.centre t htc
    have hm := hmesh.ordered t htc
    set N : Coefs p c := fun q => max (-gather p c (V t) q) 0 with hN
    set Z : Coefs p c := fun q => gather p c (V t) q + N q with hZ
    have hZ0 : ∀ q, 0 ≤ Z q := fun q => by
      have : -gather p c (V t) q ≤ N q := le_max_left _ _
      simp only [hZ]
      linarith
    have hZq : Z q = 0 := by
      simp only [hZ, hN]
      rw [max_eq_left (by linarith)]
      ring
    have e1 : sphereField0 p c t (mesh t) (S t) (V t) q.1 q.2.1 q.2.2 =
        sphereField0 p c t (mesh t) (S t) (spread p c (gather p c (V t))) q.1 q.2.1 q.2.2 :=
      sphereField0_congr p hd.two c c c.t0 t rfl (fun _ => rfl) (mesh t) (mesh t) rfl
        (fun _ _ => rfl) (S t) (S t) (fun _ _ _ _ => rfl) _ _
        (fun l hl k hk i hi => (spread_gather p c (V t) hl hk hi).symm) q.1.2 q.2.1.2 q.2.2.2
        q.2.2.2
    have e2 := sphereField0_sub p c hg hM' t (mesh t) m0 hm (S t) (spread p c (gather p c (V t)))
      (spread p c Z) q.1 q.2.1 q.2.2 q.2.1.2
    have e3 : (fun l k i => spread p c (gather p c (V t)) l k i - spread p c Z l k i) =
        spread p c (fun q => -N q) := by
      funext l k i
      unfold spread
      split_ifs
      · simp only [hZ]; ring
      · ring
    rw [e3] at e2
    have e4 : 0 ≤ sphereField0 p c t (mesh t) (S t) (spread p c Z) q.1 q.2.1 q.2.2 := by
      refine empty_rate_nonneg p hd hc hw c hg hM t (mesh t) m0 hm (S t) _ q.2.2 q.1.2 q.2.1.2
        (hoff t ht _) (hS t ht _ q.2.1.2) (hfill t ht _ q.2.1.2)
        (fun l _ k _ => spread_nonneg p c hZ0 l k 0) ?_
      have := spread_at p c Z q
      rwa [hi0 q.2.2, hZq] at this
    have e5 : -(K * ‖N‖) ≤ sphereOp p c mesh t (fun q => -N q) q := by
      have h1 := hK t htc (fun q => -N q)
      have h2 := norm_le_pi_norm (sphereOp p c mesh t (fun q => -N q)) q
      have h3 : ‖(fun q => -N q : Coefs p c)‖ = ‖N‖ := norm_neg N
      rw [h3] at h1
      rw [Real.norm_eq_abs] at h2
      have h4 := (abs_le.1 (h2.trans h1)).1
      exact h4
    have e6 : sphereOp p c mesh t (fun q => -N q) q = sphereField0 p (vacuumConfig c) t (mesh t)
      (fun _ _ => 0) (spread p c (fun q => -N q)) q.1 q.2.1 q.2.2 := rfl
    show -(K * ‖N‖) ≤ sphereField0 p c t (mesh t) (S t) (V t) q.1 q.2.1 q.2.2
    rw [e1]
    rw [e6, ← e2] at e5
    linarith

/-! ### What happens if scattering does not make up for the loss -/

theorem negative_soon {a b : ℝ} (hab : a < b) {F : Set ℝ} (hF : F.Finite) {f r : ℝ → ℝ}
    (hf : ContinuousOn f (Icc a b)) (hr : ContinuousOn r (Icc a b))
    (hd : ∀ t ∈ Ico a b \ F, HasDerivWithinAt f (r t) (Ici t) t) (h0 : f a ≤ 0) (hr0 : r a < 0) :
    ∃ δ, 0 < δ ∧ a + δ ≤ b ∧ ∀ t ∈ Ioc a (a + δ), f t < 0 := by
  have hev : ∀ᶠ t in 𝓝[Icc a b] a, r t < r a / 2 :=
    (hr a ⟨le_rfl, hab.le⟩).eventually_lt_const (by linarith)
  obtain ⟨ε, hε, hball⟩ := Metric.mem_nhdsWithin_iff.1 hev
  refine ⟨min (ε / 2) (b - a), lt_min (by linarith) (by linarith), ?_, ?_⟩
  · have := min_le_right (ε / 2) (b - a)
    linarith
  intro t ht
  have hδ := min_le_left (ε / 2) (b - a)
  have hδ' := min_le_right (ε / 2) (b - a)
  have htb : t ≤ b := by linarith [ht.2]
  have h := gronwall_except hF f r 0 (r a / 2) a t 0 (hf.mono (Icc_subset_Icc_right htb))
    (fun x hx => hd x ⟨⟨hx.1.1, hx.1.2.trans_le htb⟩, hx.2⟩) h0
    (fun x hx => by
      have : r x < r a / 2 := hball ⟨by
        rw [Metric.mem_ball, Real.dist_eq, abs_of_nonneg (by linarith [hx.1.1])]
        linarith [hx.1.2, ht.2], hx.1.1, hx.1.2.le.trans htb⟩
      linarith) t ⟨ht.1.le, le_rfl⟩
  rw [gronwallBound_K0] at h
  nlinarith [ht.1]

theorem sphere_negative (p : RhsParams) (hd : DirectionSet p.Nang p.mus)
    (c : FluxConfig) (hg : c.geometry = .sphere) (hM : c.M = 0)
    {a b : ℝ} (hab : a < b) (F : Set ℝ) (hF : F.Finite) (mesh : ℝ → MeshView)
    (mats : ℝ → ℕ → CellMats) (hmesh : SphereMeshOn c mesh mats a b F)
    (hv : ∀ k ≤ c.Nspace, ContinuousOn (fun s => (mesh s).Dedges k) (Icc a b))
    (hms : c.mms = false) (hoff : ∀ t ∈ Icc a b, ∀ k, isBoundarySourceOn c k t = false)
    (V : ℝ → ℕ → ℕ → ℕ → ℝ)
    (h : SphereSolutionOn p c mesh mats (fun _ _ _ => 0) a b F V) {l k : ℕ} (hl : l + 1 < p.Nang)
    (hk : k < c.Nspace)
    (hlack : p.c * p.ws (l + 1) < inverseRadius ((mesh a).edges k) ((mesh a).edges (k + 1)) *
      forwardLoss p.Nang p.mus l) {β : ℝ} (hβ : 0 < β)
    (h0 : ∀ l' < p.Nang, ∀ k' < c.Nspace, V a l' k' 0 = if l' = l + 1 ∧ k' = k then β else 0) :
    ∃ δ, 0 < δ ∧ a + δ ≤ b ∧ ∀ t ∈ Ioc a (a + δ), V t l k 0 < 0 := by
  have hM' : c.M ≤ 10 := by omega
  have hl' : l < p.Nang := by omega
  have ht0 : a ∈ Icc a b := ⟨le_rfl, hab.le⟩
  have e1 : ∀ t, sphereField0 p c t (mesh t) (fun _ _ => 0) (V t) l k ⟨0, Nat.succ_pos _⟩ =
      sphereField0 p c t (mesh t) (fun _ _ => 0) (spread p c (gather p c (V t))) l k
        ⟨0, Nat.succ_pos _⟩ := fun t =>
    sphereField0_congr p hd.two c c c.t0 t rfl (fun _ => rfl) (mesh t) (mesh t) rfl
      (fun _ _ => rfl) _ _ (fun _ _ _ _ => rfl) _ _
      (fun l hl k hk i hi => (spread_gather p c (V t) hl hk hi).symm) hl' hk (Nat.succ_pos _)
      (Nat.succ_pos _)
  have hg' : ContinuousOn (fun t => gather p c (V t)) (Icc a b) :=
    continuousOn_pi.2 fun q => h.1 q.1 q.1.2 q.2.1 q.2.1.2 q.2.2 (Nat.lt_succ_iff.1 q.2.2.2)
  refine negative_soon hab hF
    (r := fun t => sphereField0 p c t (mesh t) (fun _ _ => 0) (V t) l k ⟨0, Nat.succ_pos _⟩)
    (h.1 l hl' k hk 0 (Nat.zero_le _)) ?_ (fun t ht => h.rate hg hM' ht
      (hmesh.centre t ⟨ht.1.1, ht.1.2.le⟩) (hmesh.ordered t ⟨ht.1.1, ht.1.2.le⟩)
      (hmesh.mats t ht) hl' hk (Nat.succ_pos _)) ?_ ?_
  · simp only [e1]
    exact continuousOn_sphereField0 p c hg continuousOn_id (Or.inl hms) (fun _ => false)
      (fun q hq k => hoff q hq k) hmesh.ordered hmesh.cont hv (S := fun _ _ _ => 0)
      (fun _ _ _ _ => continuousOn_const)
      (fun l k j => (spread_continuous p c l k j).comp_continuousOn hg') l _ hk
  · rw [h0 l hl' k hk, if_neg (by omega)]
  · have hz : V a l k 0 = 0 := by rw [h0 l hl' k hk, if_neg (by omega)]
    have hr : rightOuter c a (mesh a) (V a l) k = 0 := by
      unfold rightOuter
      rw [hoff a ht0 k, hg, hM]
      by_cases hN : k + 1 ≠ c.Nspace
      · rw [if_pos hN]
        have : geomField .sphere 0 (V a l (k + 1)) ((mesh a).edges (k + 1))
            ((mesh a).edges (k + 2)) ((mesh a).edges (k + 1)) =
            sphereField 0 (V a l (k + 1)) ((mesh a).edges (k + 1)) ((mesh a).edges (k + 2))
              ((mesh a).edges (k + 1)) := rfl
        rw [this, sphereField_zero, h0 l hl' (k + 1) (by omega), if_neg (by omega), zero_div]
      · rw [if_neg hN]
        simp
    have hl1 : (if k = 0 then 0 else (mesh a).edges k ^ 2 /
        Real.sqrt (Real.pi * ((mesh a).edges (k + 1) - (mesh a).edges k)) *
          max (p.mus l - (mesh a).Dedges k) 0 * (V a l (k - 1) 0 /
            Real.sqrt (Real.pi * ((mesh a).edges k - (mesh a).edges (k - 1))))) = 0 := by
      split_ifs with hk0
      · rfl
      · rw [h0 l hl' (k - 1) (by omega), if_neg (by omega)]
        simp
    have hs : scalarCoef p (V a) k 0 = p.ws (l + 1) * β := by
      unfold scalarCoef angularSum
      rw [Finset.sum_eq_single (l + 1)]
      · simp [h0 (l + 1) hl k hk]
      · intro j hj hne
        simp only [h0 j (Finset.mem_range.1 hj) k hk, if_neg (fun h => hne (And.left h)), mul_zero]
      · intro h
        exact absurd (Finset.mem_range.2 hl) h
    rw [empty_rate p hd.two c hg hM a (mesh a) (hmesh.centre a ht0) (hmesh.ordered a ht0) _ (V a)
      _ hl' hk hz, hr, hl1, hs, h0 (l + 1) hl k hk, if_pos ⟨rfl, rfl⟩,
      h0 (l - 1) (by omega) k hk, if_neg (by omega)]
    have := mul_lt_mul_of_pos_right hlack hβ
    simp only [mul_zero, zero_mul, add_zero, zero_div, zero_sub]
    linarith

/-! ### C119 -/

/-- Arguments of `solve` with one constant per shell and without boundary source. -/
structure ConstantShells (P : Problem) (e d : ℕ → ℝ) : Prop where
  problem : SphereProblem P e d
  order : P.M = 0
  directions : DirectionSet P.Nang P.mus
  noBoundary : P.boundarySource = false
  noManufactured : P.mesh.st 4 ≠ 1

theorem ConstantShells.off {P : Problem} {e d : ℕ → ℝ} (h : ConstantShells P e d) (k : ℕ) (t : ℝ) :
    isBoundarySourceOn P.fluxConfig k t = false := by
  simp [isBoundarySourceOn, Problem.fluxConfig, h.noManufactured, h.noBoundary]

theorem ConstantShells.velocities {P : Problem} {e d : ℕ → ℝ} (h : ConstantShells P e d)
    (A : Set ℝ) : ∀ k ≤ P.fluxConfig.Nspace, ContinuousOn (fun s => (meshAt P s).Dedges k) A := by
  intro k hk
  have : (fun s => (meshAt P s).Dedges k) = fun _ => d k :=
    funext fun s => (meshAt_linear h.problem.mesh s).2 k hk
  rw [this]
  exact continuousOn_const

/-- The source of the shell, with a rule of nonnegative weights, is not negative. -/
theorem programSource_nonneg {P : Problem} {e d : ℕ → ℝ} (h : SphereProblem P e d)
    (h0 : P.mesh.st 0 ≠ 1) (hx : 0 ≤ P.mesh.x0) (hq : ∀ z ∈ P.quad, 0 ≤ z.2) {t : ℝ} (ht : 0 ≤ t)
    {k : ℕ} (hk : k < P.mesh.N) : 0 ≤ programSource P t k 0 := by
  unfold programSource sourceOf
  by_cases ha : SourceAsked P
  · rw [if_pos ha]
    have hu : P.uncollidedConfig.uncollided = true := ha.1
    have hg : P.uncollidedConfig.geometry = .sphere := h.sphere
    have h0' : P.uncollidedConfig.st 0 ≠ 1 := h0
    have h1' : P.uncollidedConfig.st 1 = 1 := ha.2
    have hx0 : 0 ≤ P.uncollidedConfig.x0 := by
      show 0 ≤ P.builtX0
      unfold Problem.builtX0
      cases meshInit P.mesh with
      | none => exact hx
      | some m =>
        simp only [BuildConfig.adjustedX0]
        rw [if_neg (fun hc => by
          have : P.uncollided = false := hc.2.2.1
          rw [ha.1] at this
          exact Bool.noConfusion this)]
        exact hx
    have hle := (meshAt_linear h.mesh t).1
    have hab : (meshAt P t).edges k < (meshAt P t).edges (k + 1) := by
      rw [hle k hk.le, hle (k + 1) hk]
      exact h.mesh.ordered t ht k hk
    simp only [sphereMoment, if_pos (Nat.zero_le 12), Option.getD_some, uncollidedSolution, hu, hg,
      h0', h1', if_true, if_false, List.map_cons, List.getD_cons_zero]
    have hsum : ∀ q : List (ℝ × ℝ), (∀ z ∈ q, 0 ≤ z.2) → ∀ x y s : ℝ, x < y →
        0 ≤ (q.map fun z => quadPoint x y z.1 ^ 2 * √(1 - z.1 ^ 2) * z.2 *
          (shellIC P.uncollidedConfig.x0 (quadPoint x y z.1) t * s) * 1 *
          (normTn 0 (quadPoint x y z.1) x y).getD 0).sum * s := by
      intro q hq x y s hxy
      rw [← List.sum_map_mul_right]
      refine List.sum_nonneg fun w hw => ?_
      obtain ⟨z, hz, rfl⟩ := List.mem_map.1 hw
      have h1 := hq z hz
      have h2 : 0 ≤ shellIC P.uncollidedConfig.x0 (quadPoint x y z.1) t := by
        unfold shellIC
        have := min_le_left (1 : ℝ) (max (-1) (0.5 * ((t + 1e-12) / quadPoint x y z.1 +
          quadPoint x y z.1 / (t + 1e-12) - P.uncollidedConfig.x0 ^ 2 /
            (quadPoint x y z.1 * (t + 1e-12)))))
        have h3 : 0 ≤ 1 - min (1 : ℝ) (max (-1) (0.5 * ((t + 1e-12) / quadPoint x y z.1 +
          quadPoint x y z.1 / (t + 1e-12) - P.uncollidedConfig.x0 ^ 2 /
            (quadPoint x y z.1 * (t + 1e-12))))) := by linarith
        have hpi := Real.pi_pos
        exact mul_nonneg (mul_nonneg (by positivity) h3) (Real.exp_pos _).le
      have h3 : 0 ≤ (normTn 0 (quadPoint x y z.1) x y).getD 0 := by
        have : (normTn 0 (quadPoint x y z.1) x y).getD 0 = normTnFactor 0 x y := by
          simp [normTn, evalTn]
        rw [this]
        unfold normTnFactor
        positivity
      have e : quadPoint x y z.1 ^ 2 * √(1 - z.1 ^ 2) * z.2 *
          (shellIC P.uncollidedConfig.x0 (quadPoint x y z.1) t * s) * 1 *
          (normTn 0 (quadPoint x y z.1) x y).getD 0 * s = quadPoint x y z.1 ^ 2 *
            √(1 - z.1 ^ 2) * z.2 * shellIC P.uncollidedConfig.x0 (quadPoint x y z.1) t *
          (normTn 0 (quadPoint x y z.1) x y).getD 0 * s ^ 2 := by ring
      rw [e]
      positivity
    have := hsum P.quad hq _ _ P.strength hab
    have hb : 0 ≤ 1 / 2 * ((meshAt P t).edges (k + 1) - (meshAt P t).edges k) := by linarith
    rw [mul_assoc]
    exact mul_nonneg hb this
  · rw [if_neg ha]

theorem sphere_field_nonneg_iff {a b : ℝ} (h : a < b) (U : ℕ → ℝ) (r : ℝ) :
    0 ≤ sphereField 0 U a b r ↔ 0 ≤ U 0 := by
  have : 0 < Real.sqrt (Real.pi * (b - a)) :=
    Real.sqrt_pos.2 (mul_pos Real.pi_pos (by linarith))
  rw [sphereField_zero, le_div_iff₀ this, zero_mul]

/-- C119: with one constant per shell, scattering and weights that are not negative and, at every
time and in every shell, scattering that makes up for the loss by redistribution, every run of the
program from nonnegative fields has nonnegative fields at all times. -/
theorem c119_nonneg {P : Problem} {e d : ℕ → ℝ} (h : ConstantShells P e d) (hs : 0 ≤ P.sigmaS)
    (hw : ∀ l < P.Nang, 0 ≤ P.ws l)
    (hq : ¬ SourceAsked P ∨ (P.mesh.st 0 ≠ 1 ∧ 0 ≤ P.mesh.x0 ∧ ∀ z ∈ P.quad, 0 ≤ z.2))
    {a T : ℝ} (ha : 0 ≤ a) {F : Set ℝ} (hF : F.Finite)
    (hfill : ∀ t ∈ Ico a T \ F, ∀ k < P.mesh.N, ScatteringFills P.Nang P.mus P.ws P.sigmaS
      (e k + d k * t) (e (k + 1) + d (k + 1) * t))
    {V : ℝ → ℕ → ℕ → ℕ → ℝ} (hV : ProgramSolutionOn P a T F V)
    (h0 : ∀ l < P.Nang, ∀ k < P.mesh.N, ∀ r, 0 ≤
      sphereField P.M (V a l k) (e k + d k * a) (e (k + 1) + d (k + 1) * a) r) :
    ∀ t ∈ Icc a T, ∀ l < P.Nang, ∀ k < P.mesh.N, ∀ r,
      0 ≤ sphereField P.M (V t l k) (e k + d k * t) (e (k + 1) + d (k + 1) * t) r := by
  have hl := fun t => meshAt_linear h.problem.mesh t
  have hord := h.problem.mesh.ordered
  rw [h.order] at h0 ⊢
  intro t ht l hl' k hk r
  rw [sphere_field_nonneg_iff (hord t (ha.trans ht.1) k hk)]
  refine sphere_nonneg P.params h.directions hs hw P.fluxConfig h.problem.sphere h.order a T F hF
    (meshAt P) (programMats P) (programMesh h.problem.toSphereSetup ha F) (h.velocities _)
    (programSource P) (fun t ht k hk => ?_) (fun t _ k => h.off k t) (fun t ht k hk => ?_) V
    ((programSolution_iff h.problem _ _ _ _).1 hV) (fun l hl k hk => ?_) t ht l hl' k hk
  · rcases hq with hq | hq
    · simp [programSource, sourceOf, if_neg hq]
    · exact programSource_nonneg h.problem hq.1 hq.2.1 hq.2.2 (ha.trans ht.1.1) hk
  · have hk : k < P.mesh.N := hk
    rw [(hl t).1 k hk.le, (hl t).1 (k + 1) hk]
    exact hfill t ht k hk
  · exact (sphere_field_nonneg_iff (hord a ha k hk) (V a l k) 0).1 (h0 l hl k hk 0)

/-- C119: if at the first time scattering does not make up for the loss of direction `l` in shell
`k`, the run that starts with a positive field in direction `l + 1` of that shell and nothing else has
a negative field in direction `l` of that shell from then on, for some time. -/
theorem c119_negative {P : Problem} {e d : ℕ → ℝ} (h : ConstantShells P e d)
    (hq : ¬ SourceAsked P) {a T : ℝ} (ha : 0 ≤ a) (hT : a < T) {F : Set ℝ} (hF : F.Finite)
    {l k : ℕ} (hl : l + 1 < P.Nang) (hk : k < P.mesh.N)
    (hlack : P.sigmaS * P.ws (l + 1) <
      inverseRadius (e k + d k * a) (e (k + 1) + d (k + 1) * a) * forwardLoss P.Nang P.mus l)
    {β : ℝ} (hβ : 0 < β) {V : ℝ → ℕ → ℕ → ℕ → ℝ} (hV : ProgramSolutionOn P a T F V)
    (h0 : ∀ l' < P.Nang, ∀ k' < P.mesh.N, V a l' k' 0 = if l' = l + 1 ∧ k' = k then β else 0) :
    ∃ δ, 0 < δ ∧ a + δ ≤ T ∧ ∀ t ∈ Ioc a (a + δ), ∀ r,
      sphereField P.M (V t l k) (e k + d k * t) (e (k + 1) + d (k + 1) * t) r < 0 := by
  have hl' := fun t => meshAt_linear h.problem.mesh t
  have hsol := (programSolution_iff h.problem _ _ _ _).1 hV
  have hS : programSource P = fun _ _ _ => 0 := by
    funext t k i
    simp [programSource, sourceOf, if_neg hq]
  rw [hS] at hsol
  obtain ⟨δ, hδ, hδT, hneg⟩ := sphere_negative P.params h.directions P.fluxConfig h.problem.sphere
    h.order hT F hF (meshAt P) (programMats P) (programMesh h.problem.toSphereSetup ha F)
    (h.velocities _) (by simp [Problem.fluxConfig, h.noManufactured]) (fun t _ k => h.off k t) V hsol
    hl hk (by rw [(hl' a).1 k hk.le, (hl' a).1 (k + 1) hk]; exact hlack) hβ h0
  refine ⟨δ, hδ, hδT, fun t ht r => ?_⟩
  rw [h.order]
  have := (sphere_field_nonneg_iff (h.problem.mesh.ordered t (ha.trans ht.1.le) k hk) (V t l k) r).not.2
    (not_le.2 (hneg t ht))
  exact not_le.1 this

/-- C119, mesh at rest, no source: nonnegative data stay nonnegative exactly if scattering makes up
for the loss in every shell. -/
theorem c119_iff {P : Problem} {e : ℕ → ℝ} (h : ConstantShells P e fun _ => 0)
    (hq : ¬ SourceAsked P) (hs : 0 ≤ P.sigmaS) (hw : ∀ l < P.Nang, 0 ≤ P.ws l) :
    (∀ (T : ℝ) (F : Set ℝ) (V : ℝ → ℕ → ℕ → ℕ → ℝ), F.Finite → ProgramSolutionOn P 0 T F V →
      (∀ l < P.Nang, ∀ k < P.mesh.N, ∀ r, 0 ≤ sphereField P.M (V 0 l k) (e k) (e (k + 1)) r) →
      ∀ t ∈ Icc 0 T, ∀ l < P.Nang, ∀ k < P.mesh.N, ∀ r,
        0 ≤ sphereField P.M (V t l k) (e k) (e (k + 1)) r) ↔
    ∀ k < P.mesh.N, ScatteringFills P.Nang P.mus P.ws P.sigmaS (e k) (e (k + 1)) := by
  constructor
  · intro hpos k hk l hl
    by_contra hlack
    obtain ⟨V, ⟨hV, hV0⟩, -⟩ := c110_wellposed_partial h.problem (Or.inl hq) (T := 1) zero_le_one
      (fun l' k' _ => if l' = l + 1 ∧ k' = k then 1 else 0)
    have hF : ({0, max 0 (min P.mesh.t0 1)} : Set ℝ).Finite := by simp
    obtain ⟨δ, hδ, hδT, hneg⟩ := c119_negative h hq le_rfl one_pos hF hl hk
      (by simpa using hlack) one_pos hV fun l' hl' k' hk' => hV0 l' hl' k' hk' 0 (Nat.zero_le _)
    have hord := fun k hk => h.problem.mesh.ordered 0 le_rfl k hk
    have h1 := hpos 1 _ V hF hV (fun l' hl' k' hk' r => by
      have := hord k' hk'
      simp only [mul_zero, add_zero] at this
      rw [h.order, sphere_field_nonneg_iff this, hV0 l' hl' k' hk' 0 (Nat.zero_le _)]
      split_ifs <;> norm_num) δ ⟨hδ.le, by linarith⟩ l (by omega) k hk 0
    have h2 := hneg δ ⟨hδ, by linarith⟩ 0
    simp only [zero_mul, add_zero] at h2
    linarith
  · intro hfill T F V hF hV h0 t ht l hl k hk r
    have := c119_nonneg h hs hw (Or.inl hq) le_rfl hF (fun t _ k hk => by
      simpa using hfill k hk) hV (fun l hl k hk r => by simpa using h0 l hl k hk r) t ht l hl k hk r
    simpa using this

/-- C119: without scattering the criterion fails in every shell and every direction but the last. -/
theorem c119_pure_absorber {n : ℕ} {mus : ℕ → ℝ} (hd : DirectionSet n mus) (ws : ℕ → ℝ) {a b : ℝ}
    (ha : 0 ≤ a) (hab : a < b) : ¬ ScatteringFills n mus ws 0 a b := fun h => by
  have h1 := h 0 (by have := hd.two; omega)
  have h2 := mul_pos (inverseRadius_pos ha hab) (forwardLoss_pos hd (l := 0)
    (by have := hd.two; omega))
  linarith

/-- C119: at the centre the criterion asks for a shell that is not too thin: whatever the scattering,
it fails for every finer mesh. -/
theorem c119_central_shell {n : ℕ} {mus : ℕ → ℝ} (ws : ℕ → ℝ) {scat b : ℝ} (hb : 0 < b) :
    ScatteringFills n mus ws scat 0 b ↔
      ∀ l, l + 1 < n → 3 * forwardLoss n mus l ≤ 2 * scat * ws (l + 1) * b := by
  unfold ScatteringFills inverseRadius
  have e : ∀ l, 3 * (0 + b) / (2 * (0 ^ 2 + 0 * b + b ^ 2)) * forwardLoss n mus l
      ≤ scat * ws (l + 1) ↔ 3 * forwardLoss n mus l ≤ 2 * scat * ws (l + 1) * b := by
    intro l
    have : 3 * (0 + b) / (2 * (0 ^ 2 + 0 * b + b ^ 2)) * forwardLoss n mus l
        = 3 * forwardLoss n mus l / (2 * b) := by
      field_simp
      ring
    rw [this, div_le_iff₀ (by positivity)]
    constructor <;> intro h <;> linarith
  simp only [e]

/-! ### Examples -/

theorem example_loss : forwardLoss 2 exampleSphereParams.mus 0 = 1 / 2 := by
  norm_num [forwardLoss, angularEdge, angularWidth, exampleSphereParams]

/-- `N` shells of equal width up to radius `1/2`, at rest, one constant per shell. -/
noncomputable def exampleConstant (inv : (ℕ → ℕ → ℝ) → ℕ → ℕ → ℝ) (N : ℕ) (s : ℝ) : Problem :=
  { exampleCritical inv N with M := 0, tables := exactTables 1, sigmaS := s }

theorem exampleConstant_setting {inv : (ℕ → ℕ → ℝ) → ℕ → ℕ → ℝ} (hi : InverseCorrect 0 inv) {N : ℕ}
    (hN : 1 ≤ N) (s : ℝ) :
    ConstantShells (exampleConstant inv N s) (evenEdges N (1 / 2)) fun _ => 0 where
  problem :=
    { sphere := rfl
      mesh := by
        have := exampleCritical_mesh hN
        have e : evenEdges N 0 = fun _ => 0 := by funext k; simp [evenEdges]
        rwa [e] at this
      order := by norm_num [exampleConstant]
      tables := exactTables_exact 1
      inverse := hi
      directions := le_rfl
      checks := exampleShell_checks
      opacity := rfl }
  order := rfl
  directions := exampleSphere_directions
  noBoundary := rfl
  noManufactured := by simp [exampleConstant, exampleCritical, exampleCriticalMesh, MeshConfig.st]

theorem exampleConstant_ws {inv : (ℕ → ℕ → ℝ) → ℕ → ℕ → ℝ} (N : ℕ) (s : ℝ) :
    ∀ l < 2, (exampleConstant inv N s).ws l = 1 / 2 := by
  intro l hl
  have h1 := (exampleShell_weights inv).ws le_rfl l hl
  have h2 : (1 / 2 : ℝ) = angularWidth 2 exampleSphereParams.mus l / 2 := exampleSphere_weights l hl
  exact h1.trans h2.symm

/-- With two directions and `N` equal shells up to radius `1/2` nonnegative data stay nonnegative
exactly if the scattering ratio is at least `3 N`. -/
example {inv : (ℕ → ℕ → ℝ) → ℕ → ℕ → ℝ} (hi : InverseCorrect 0 inv) {N : ℕ} (hN : 1 ≤ N) {s : ℝ}
    (hs : 0 ≤ s) :
    (∀ (T : ℝ) (F : Set ℝ) (V : ℝ → ℕ → ℕ → ℕ → ℝ), F.Finite →
      ProgramSolutionOn (exampleConstant inv N s) 0 T F V →
      (∀ l < 2, ∀ k < N, ∀ r, 0 ≤ sphereField 0 (V 0 l k) (evenEdges N (1 / 2) k)
        (evenEdges N (1 / 2) (k + 1)) r) →
      ∀ t ∈ Icc 0 T, ∀ l < 2, ∀ k < N, ∀ r, 0 ≤ sphereField 0 (V t l k) (evenEdges N (1 / 2) k)
        (evenEdges N (1 / 2) (k + 1)) r) ↔ 3 * (N : ℝ) ≤ s := by
  have hw := exampleConstant_ws (inv := inv) N s
  have hN0 : (0 : ℝ) < N := by exact_mod_cast hN
  refine (c119_iff (exampleConstant_setting hi hN s)
    (by simp [SourceAsked, exampleConstant, exampleCritical]) hs
    (fun l hl => by rw [hw l hl]; norm_num)).trans ?_
  have e : ∀ k : ℕ, inverseRadius (evenEdges N (1 / 2) k) (evenEdges N (1 / 2) (k + 1)) =
      3 * N * ((2 * k + 1) / (3 * k ^ 2 + 3 * k + 1)) := by
    intro k
    unfold inverseRadius evenEdges
    have h1 : (3 * (k : ℝ) ^ 2 + 3 * k + 1) ≠ 0 := by positivity
    have h2 : ((k : ℝ) / N * (1 / 2)) ^ 2 + (k : ℝ) / N * (1 / 2) * (((k + 1 : ℕ) : ℝ) / N * (1 / 2))
        + (((k + 1 : ℕ) : ℝ) / N * (1 / 2)) ^ 2 = (3 * (k : ℝ) ^ 2 + 3 * k + 1) / (4 * N ^ 2) := by
      push_cast
      field_simp
      ring
    rw [h2]
    push_cast
    field_simp
    ring
  constructor
  · intro h
    have h1 := h 0 hN 0 (show 0 + 1 < 2 by norm_num)
    have h2 : (exampleConstant inv N s).ws (0 + 1) = 1 / 2 := hw 1 (by norm_num)
    have h3 : forwardLoss (exampleConstant inv N s).Nang (exampleConstant inv N s).mus 0 = 1 / 2 :=
      example_loss
    have h4 : (exampleConstant inv N s).sigmaS = s := rfl
    rw [h2, h3, h4, e 0] at h1
    norm_num at h1
    linarith
  · intro h k hk l hl
    have hl : l + 1 < 2 := hl
    obtain rfl : l = 0 := by omega
    have h2 : (exampleConstant inv N s).ws (0 + 1) = 1 / 2 := hw 1 (by norm_num)
    have h3 : forwardLoss (exampleConstant inv N s).Nang (exampleConstant inv N s).mus 0 = 1 / 2 :=
      example_loss
    have h4 : (exampleConstant inv N s).sigmaS = s := rfl
    rw [h2, h3, h4, e k]
    have h5 : (2 * (k : ℝ) + 1) / (3 * k ^ 2 + 3 * k + 1) ≤ 1 := by
      rw [div_le_one (by positivity)]
      nlinarith [sq_nonneg (k : ℝ), (Nat.cast_nonneg k : (0 : ℝ) ≤ k)]
    have h6 := mul_le_mul_of_nonneg_left h5 (by positivity : 0 ≤ 3 * (N : ℝ))
    linarith

theorem inverseRadius_le {a b : ℝ} (ha : 0 ≤ a) (hab : a < b) : inverseRadius a b ≤ 3 / (2 * b) := by
  have hb : 0 < b := ha.trans_lt hab
  have := shell_pos ha hab
  unfold inverseRadius
  rw [div_le_div_iff₀ (by positivity) (by positivity)]
  nlinarith [mul_nonneg ha hb.le, sq_nonneg a]

/-- The shell source on its moving mesh, with enough scattering: the answer is nonnegative. -/
example : ∃ inv, InverseCorrect 0 inv ∧ ∃ s : ℝ, ∃ V : ℝ → ℕ → ℕ → ℕ → ℝ,
    ProgramSolutionOn { exampleShell inv with M := 0, tables := exactTables 1, sigmaS := s } 0 2 {0, 1} V
    ∧ (∀ l < 2, ∀ k < 4, V 0 l k 0 = 0) ∧ ∀ t ∈ Icc (0 : ℝ) 2, ∀ l < 2, ∀ k < 4, 0 ≤ V t l k 0 := by
  obtain ⟨inv, hi⟩ := inverse_exists 0
  refine ⟨inv, hi, ?_⟩
  set e := (shellEdges exampleShellMesh).get with he
  set d := (shellState exampleShellMesh).DedgesConst with hd
  have hm : MovesLinearly exampleShellMesh e d :=
    shell_linear exampleShell_mesh rfl rfl rfl (Nat.le_of_ble_eq_true rfl)
      (by norm_num [exampleShellMesh, exampleSquareMesh])
      (by norm_num [exampleShellMesh, exampleSquareMesh])
  have hnn : ∀ t, 0 ≤ t → ∀ k ≤ 4, 0 ≤ e k + d k * t := by
    intro t ht k
    induction k with
    | zero => intro _; rw [hm.centre, hm.rest]; simp
    | succ n ih => intro hn; exact (ih (by omega)).trans (hm.ordered t ht n hn).le
  have hbd : ∀ k < 4, ∃ B, 0 ≤ B ∧ ∀ t ∈ Icc (0 : ℝ) 2,
      inverseRadius (e k + d k * t) (e (k + 1) + d (k + 1) * t) ≤ B := by
    intro k hk
    have hpos : ∀ t ∈ Icc (0 : ℝ) 2, 0 < e (k + 1) + d (k + 1) * t := fun t ht =>
      (hnn t ht.1 k hk.le).trans_lt (hm.ordered t ht.1 k hk)
    have hc : ContinuousOn (fun t => 3 / (2 * (e (k + 1) + d (k + 1) * t))) (Icc (0 : ℝ) 2) :=
      continuousOn_const.div (by fun_prop) fun t ht => by
        have := hpos t ht
        positivity
    obtain ⟨B, hB⟩ := isCompact_Icc.exists_bound_of_continuousOn hc
    refine ⟨max B 0, le_max_right _ _, fun t ht => ?_⟩
    have h1 := inverseRadius_le (hnn t ht.1 k hk.le) (hm.ordered t ht.1 k hk)
    have h2 := hB t ht
    rw [Real.norm_eq_abs] at h2
    exact h1.trans ((le_abs_self _).trans (h2.trans (le_max_left _ _)))
  choose! B hB0 hB using hbd
  set s : ℝ := ∑ k ∈ Finset.range 4, B k with hs
  have hBs : ∀ k < 4, B k ≤ s := fun k hk =>
    Finset.single_le_sum (f := B) (fun j hj => hB0 j (Finset.mem_range.1 hj)) (Finset.mem_range.2 hk)
  have hs0 : 0 ≤ s := (hB0 0 (by norm_num)).trans (hBs 0 (by norm_num))
  set P : Problem := { exampleShell inv with M := 0, tables := exactTables 1, sigmaS := s } with hP
  have hp : ConstantShells P e d :=
    { problem :=
        { sphere := rfl
          mesh := hm
          order := by norm_num [hP]
          tables := exactTables_exact 1
          inverse := hi
          directions := le_rfl
          checks := exampleShell_checks
          opacity := rfl }
      order := rfl
      directions := exampleSphere_directions
      noBoundary := rfl
      noManufactured := by
        simp [hP, exampleShell, exampleShellMesh, exampleSquareMesh, MeshConfig.st] }
  have hsrc := exampleShell_source inv
  have hws : ∀ l < 2, P.ws l = 1 / 2 := fun l hl =>
    ((exampleShell_weights inv).ws le_rfl l hl).trans (exampleSphere_weights l hl).symm
  obtain ⟨V, ⟨hV, hV0⟩, -⟩ := c110_wellposed_partial hp.problem (Or.inr hsrc) (T := 2) (by norm_num)
    fun _ _ _ => 0
  have ht : max 0 (min P.mesh.t0 2) = 1 := by
    have : P.mesh.t0 = 1 := rfl
    rw [this]; norm_num
  rw [ht] at hV
  have hz : ∀ l < 2, ∀ k < 4, V 0 l k 0 = 0 := fun l hl k hk => hV0 l hl k hk 0 (Nat.zero_le _)
  refine ⟨s, V, hV, hz, fun t ht l hl k hk => ?_⟩
  have := c119_nonneg hp hs0 (fun l hl => by rw [hws l hl]; norm_num)
    (Or.inr ⟨hsrc.1, by norm_num [hP, exampleShell, exampleShellMesh, exampleSquareMesh],
      fun z hz => by
        simp only [hP, exampleShell, List.mem_cons, List.not_mem_nil, or_false] at hz
        rcases hz with rfl | rfl <;> norm_num⟩) le_rfl (by simp)
    (fun t ht k hk l hl => by
      have hl : l + 1 < 2 := hl
      obtain rfl : l = 0 := by omega
      have h2 : P.ws (0 + 1) = 1 / 2 := hws 1 (by norm_num)
      have h3 : forwardLoss P.Nang P.mus 0 = 1 / 2 := example_loss
      have h4 : P.sigmaS = s := rfl
      rw [h2, h3, h4]
      have := (hB k hk t ⟨ht.1.1, ht.1.2.le⟩).trans (hBs k hk)
      linarith) hV
    (fun l hl k hk r => by
      have h1 : P.M = 0 := rfl
      rw [h1, sphere_field_nonneg_iff (hm.ordered 0 le_rfl k hk), hz l hl k hk]) t ht l hl k hk 0
  have h1 : P.M = 0 := rfl
  rwa [h1, sphere_field_nonneg_iff (hm.ordered t ht.1 k hk)] at this

end Verif.Props
