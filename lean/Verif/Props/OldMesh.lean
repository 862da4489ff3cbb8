import Verif.Model.OldMesh
import Verif.Props.Driver
import Verif.Lemmas.Mesh
import Mathlib.Analysis.SpecialFunctions.Sqrt
import Mathlib.Algebra.Order.BigOperators.Group.Finset

/-! C147: the mesh before `mesh.py`, the heat fronts that the right-hand side could store, and the coefficients of
plots. -/

namespace Verif.Props

open Verif.Model Verif.Lemmas

/-! ### Moving -/

/-- C147: a mesh of the first or third kind grows evenly: at time `t` all edges are the first ones times
`1 + speed t / x0`. -/
theorem c147_grows {c : OldMeshConfig} (hm : c.moving = true) (h4 : c.moveType 4 ≠ 1)
    (hk : c.moveType 0 = 1 ∨ c.moveType 2 = 1) (hN : 1 ≤ c.N) (hx : 0 < c.x0) :
    ∃ m, oldInit c = some m ∧ m.edges 0 = -c.x0 ∧ m.edges c.N = c.x0 ∧
      (∀ t k, (oldMove c m t).edges k = m.edges k * (1 + c.speed * t / c.x0)) ∧
      ∀ t, 0 < c.x0 + c.speed * t → ∀ k, k < c.N → (oldMove c m t).edges k < (oldMove c m t).edges (k + 1) := by
  have h3 : c.moveType 0 = 1 ∨ c.moveType 2 = 1 ∨ c.N + 1 = 3 := hk.elim Or.inl (fun h => Or.inr (Or.inl h))
  have hl : (linspace (-c.x0) c.x0 (c.N + 1)).get c.N = c.x0 := linspace_last _ _ hN
  have hg : ∀ t k, (linspace (-c.x0) c.x0 (c.N + 1)).get k +
      (linspace (-c.x0) c.x0 (c.N + 1)).get k / (linspace (-c.x0) c.x0 (c.N + 1)).get c.N * c.speed * t =
      (linspace (-c.x0) c.x0 (c.N + 1)).get k * (1 + c.speed * t / c.x0) := by
    intro t k
    rw [hl]
    ring
  refine ⟨_, by rw [oldInit, if_pos hm, if_pos h3], linspace_zero _ _ _, hl, ?_, ?_⟩
  · intro t k
    rw [oldMove, if_pos hm, if_pos h4]
    exact hg t k
  · intro t ht k hk'
    rw [oldMove, if_pos hm, if_pos h4]
    show _ + _ * t < _ + _ * t
    rw [hg, hg]
    refine mul_lt_mul_of_pos_right (linspace_strict (by linarith) hN (Nat.lt_succ_self k)) ?_
    rw [show 1 + c.speed * t / c.x0 = (c.x0 + c.speed * t) / c.x0 by field_simp]
    exact div_pos ht hx

/-- C147: the velocities are the rates of change of the edges, with the root of the time only from `1e-10` on. -/
theorem c147_velocity {c : OldMeshConfig} (hm : c.moving = true) (m : OldMesh) (k : ℕ) (t : ℝ) :
    (c.moveType 4 ≠ 1 → HasDerivAt (fun s => (oldMove c m s).edges k) ((oldMove c m t).Dedges k) t) ∧
    (c.moveType 4 = 1 → 1 / 10 ^ 10 < t →
      HasDerivAt (fun s => (oldMove c m s).edges k) ((oldMove c m t).Dedges k) t) ∧
    (c.moveType 4 = 1 → t < 1 / 10 ^ 10 → HasDerivAt (fun s => (oldMove c m s).edges k) 0 t ∧
      (oldMove c m t).Dedges k = m.Dconst k * 400000) := by
  refine ⟨fun h4 => ?_, fun h4 ht => ?_, fun h4 ht => ⟨?_, ?_⟩⟩
  · have e : ∀ s, oldMove c m s = { m with edges := fun k => m.edges0 k + m.Dedges k * s } := fun s => by
      rw [oldMove, if_pos hm, if_pos h4]
    simp only [e]
    simpa using ((hasDerivAt_id t).const_mul (m.Dedges k)).const_add (m.edges0 k)
  · have ht0 : 0 < t := lt_trans (by norm_num) ht
    have e : ∀ s, 1 / 10 ^ 10 < s → (oldMove c m s).edges k = m.edges0 k + m.Dconst k * 8 * √s := fun s hs => by
      rw [oldMove, if_pos hm, if_neg (not_not.2 h4)]
      simp only [if_pos hs]
    have d : (oldMove c m t).Dedges k = m.Dconst k * 8 * (1 / (2 * √t)) := by
      rw [oldMove, if_pos hm, if_neg (not_not.2 h4)]
      simp only [if_pos ht]
      have := (Real.sqrt_pos.2 ht0).ne'
      field_simp
      ring
    rw [d]
    refine HasDerivAt.congr_of_eventuallyEq
      (((Real.hasDerivAt_sqrt ht0.ne').const_mul (m.Dconst k * 8)).const_add (m.edges0 k)) ?_
    filter_upwards [lt_mem_nhds ht] with s hs using e s hs
  · refine HasDerivAt.congr_of_eventuallyEq
      (hasDerivAt_const t (m.edges0 k + m.Dconst k * 8 * √(1 / 10 ^ 10))) ?_
    filter_upwards [gt_mem_nhds ht] with s hs
    rw [oldMove, if_pos hm, if_neg (not_not.2 h4)]
    simp only [if_neg (not_lt.2 (le_of_lt hs))]
  · have hr : √(1 / 10 ^ 10 : ℝ) = 1 / 10 ^ 5 := by
      rw [show (1 / 10 ^ 10 : ℝ) = (1 / 10 ^ 5) ^ 2 by norm_num]
      exact Real.sqrt_sq (by norm_num)
    rw [oldMove, if_pos hm, if_neg (not_not.2 h4)]
    simp only [if_neg (not_lt.2 ht.le), hr]
    ring

/-! ### Square sources -/

theorem oldSquare_size (c : OldMeshConfig) : (oldSquareEdges c).size = c.N / 2 / 2 + c.N / 2 + (c.N / 2 / 2 + 1) := by
  simp [oldSquareEdges, Arr.append, Arr.dropLast, linspace]

/-- C147: the moving mesh for square sources exists for multiples of four only; the edges of the source stand still
and the outer edges start `1e-11` outside of it and move with the speed of edges. -/
theorem c147_square {c : OldMeshConfig} (hm : c.moving = true) (h4 : c.moveType 4 ≠ 1) (h0 : c.moveType 0 ≠ 1)
    (h2 : c.moveType 2 ≠ 1) (h1 : c.moveType 1 = 1) (hN : 3 ≤ c.N) :
    (oldInit c ≠ none ↔ c.N % 4 = 0) ∧ ∀ m, oldInit c = some m → ∀ t,
      (oldMove c m t).edges (c.N / 4) = -c.x0 ∧ (oldMove c m t).edges (c.N / 4 + c.N / 2) = c.x0 ∧
      (oldMove c m t).edges 0 = -(c.x0 + 1 / 10 ^ 11 + c.speed * t) ∧
      (oldMove c m t).edges c.N = c.x0 + 1 / 10 ^ 11 + c.speed * t := by
  have h3 : ¬ (c.moveType 0 = 1 ∨ c.moveType 2 = 1 ∨ c.N + 1 = 3) := by
    rintro (h | h | h)
    · exact h0 h
    · exact h2 h
    · omega
  have hi : oldInit c = if (oldSquareEdges c).size = c.N + 1 then
      some ⟨(oldSquareEdges c).get, (oldSquareEdges c).get, oldSquareD c, oldSquareD c⟩ else none := by
    rw [oldInit, if_pos hm, if_neg h3, if_pos h1]
  rw [hi]
  constructor
  · rw [oldSquare_size]
    split_ifs with h
    · simp; omega
    · simp; omega
  · intro m hmm t
    split_ifs at hmm with hs
    simp only [Option.some.injEq] at hmm
    subst hmm
    obtain ⟨n, hn⟩ : ∃ n, c.N = 4 * n := ⟨c.N / 4, by rw [oldSquare_size] at hs; omega⟩
    have hn1 : 1 ≤ n := by omega
    have hn0 : (0 : ℝ) < n := by exact_mod_cast hn1
    have e1 : 2 * n / 2 = n := by omega
    have e2 : 4 * n / 2 = 2 * n := by omega
    have e3 : 4 * n / 4 = n := by omega
    have g : ∀ k, (oldSquareEdges c).get k = if k < n + 2 * n then
        (if k < n then -c.x0 - 1 / 10 ^ 11 + k * ((-c.x0 - (-c.x0 - 1 / 10 ^ 11)) / n)
          else -c.x0 + ((k - n : ℕ) : ℝ) * ((c.x0 - -c.x0) / ((2 * n : ℕ) : ℝ)))
        else c.x0 + ((k - (n + 2 * n) : ℕ) : ℝ) * ((c.x0 + 1 / 10 ^ 11 - c.x0) / n) := by
      intro k
      simp only [oldSquareEdges, Arr.append, Arr.dropLast, linspace, hn, e1, e2, Nat.add_sub_cancel, Nat.cast_add,
        Nat.cast_one, add_sub_cancel_right]
    have gl : (oldSquareEdges c).get (4 * n) = c.x0 + 1 / 10 ^ 11 := by
      rw [g, if_neg (by omega), show 4 * n - (n + 2 * n) = n by omega]
      field_simp
      ring
    have gz : (oldSquareEdges c).get 0 = -c.x0 - 1 / 10 ^ 11 := by
      rw [g, if_pos (by omega), if_pos (by omega)]
      simp
    have ga : (oldSquareEdges c).get n = -c.x0 := by
      rw [g, if_pos (by omega), if_neg (by omega)]
      simp
    have gb : (oldSquareEdges c).get (n + 2 * n) = c.x0 := by
      rw [g, if_neg (by omega)]
      simp
    have hlast : (oldSquareEdges c).get ((oldSquareEdges c).size - 1) = c.x0 + 1 / 10 ^ 11 := by
      rw [oldSquare_size, hn, e2, e1, show n + 2 * n + (n + 1) - 1 = 4 * n by omega, gl]
    have D : ∀ k, oldSquareD c k = (if k < n then ((oldSquareEdges c).get k + c.x0) / (1 / 10 ^ 11)
        else if 2 * n + n + 1 ≤ k then ((oldSquareEdges c).get k - c.x0) / (1 / 10 ^ 11) else 0) * c.speed := by
      intro k
      rw [oldSquareD]
      simp only [hlast, hn, e1, e2, add_sub_cancel_left]
    rw [oldMove, if_pos hm, if_pos h4]
    simp only [hn, e3, e2]
    refine ⟨?_, ?_, ?_, ?_⟩
    · rw [D, if_neg (by omega), if_neg (by omega), ga]
      ring
    · rw [D, if_neg (by omega), if_neg (by omega), gb]
      ring
    · rw [D, if_pos (by omega), gz]
      ring
    · rw [D, if_neg (by omega), if_pos (by omega), gl]
      ring

/-! ### Meshes that stand still -/

/-- C147: the mesh that stands still is even, symmetric and reaches as far as the wave goes until `tfinal`. -/
theorem c147_still {c : OldMeshConfig} (hm : c.moving = false) (h4 : c.moveType 4 ≠ 1) (hN : 1 ≤ c.N)
    (hs : 0 < (c.tfinal + c.x0) * c.speed) :
    ∃ m, oldInit c = some m ∧ m.edges 0 = -((c.tfinal + c.x0) * c.speed) ∧
      m.edges c.N = (c.tfinal + c.x0) * c.speed ∧ (∀ k < c.N, m.edges k < m.edges (k + 1)) ∧
      ∀ t, oldMove c m t = m := by
  refine ⟨_, by rw [oldInit, if_neg (by rw [hm]; simp), if_pos h4]; exact if_pos rfl, ?_, linspace_last _ _ hN, ?_, ?_⟩
  · show (linspace _ _ _).get 0 = _
    rw [linspace_zero]
    ring
  · exact fun k _ => linspace_strict (by linarith) hN (Nat.lt_succ_self k)
  · intro t
    rw [oldMove, if_neg (by rw [hm]; simp)]

/-- C147: the thick mesh that stands still for Gaussian sources is even and symmetric and ends `4 √tfinal speed` outside
of `x0`. -/
theorem c147_thick_gaussian {c : OldMeshConfig} (hm : c.moving = false) (h4 : c.moveType 4 = 1)
    (h5 : c.sourceType 5 = 1) (hN : 1 ≤ c.N) (hs : 0 < c.x0 + 4 * √c.tfinal * c.speed) :
    ∃ m, oldInit c = some m ∧ m.edges 0 = -(c.x0 + 4 * √c.tfinal * c.speed) ∧
      m.edges c.N = c.x0 + 4 * √c.tfinal * c.speed ∧ ∀ k < c.N, m.edges k < m.edges (k + 1) := by
  refine ⟨_, by
    rw [oldInit, if_neg (by rw [hm]; simp), if_neg (not_not.2 h4), if_pos h5]
    exact if_pos rfl, ?_, ?_, ?_⟩
  · show (linspace _ _ _).get 0 = _
    rw [linspace_zero]
    ring
  · show (linspace _ _ _).get c.N = _
    rw [linspace_last _ _ hN]
    ring
  · exact fun k _ => linspace_strict (by linarith) hN (Nat.lt_succ_self k)

example : ∃ m, oldInit ⟨4, 1, 9, false, fun _ => 1, fun _ => 1, 2⟩ = some m ∧ m.edges 0 = -(1 + 4 * √9 * 2) ∧
    m.edges 4 = 1 + 4 * √9 * 2 ∧ ∀ k < 4, m.edges k < m.edges (k + 1) :=
  c147_thick_gaussian rfl rfl rfl (by norm_num) (by positivity)

/-- C147: with four cells the thick mesh for square sources that stands still has its edges at the origin, at the edges
of the source and `8 √tfinal speed` outside of them. -/
theorem c147_thick_four {c : OldMeshConfig} (hm : c.moving = false) (h4 : c.moveType 4 = 1) (h5 : c.sourceType 5 ≠ 1)
    (hs : c.sourceType 2 = 1 ∨ c.sourceType 1 = 1) (hN : c.N = 4) :
    ∃ m, oldInit c = some m ∧ m.edges 0 = -(c.x0 + 8 * √c.tfinal * c.speed) ∧ m.edges 1 = -c.x0 ∧ m.edges 2 = 0 ∧
      m.edges 3 = c.x0 ∧ m.edges 4 = c.x0 + 8 * √c.tfinal * c.speed := by
  refine ⟨_, by
    rw [oldInit, if_neg (by rw [hm]; simp), if_neg (not_not.2 h4), if_neg h5, if_pos hs, if_pos hN]
    exact if_pos (by simp [oldThick4, Arr.append, Arr.dropLast, Arr.tail, linspace, hN]), ?_⟩
  simp only [oldThick4, Arr.append, Arr.dropLast, Arr.tail, linspace, hN]
  norm_num
  refine ⟨by ring, by ring⟩

example : ∃ m, oldInit ⟨4, 1, 9, false, fun _ => 1, fun i => if i = 2 then 1 else 0, 2⟩ = some m ∧
    m.edges 0 = -(1 + 8 * √9 * 2) ∧ m.edges 1 = -1 ∧ m.edges 2 = 0 ∧ m.edges 3 = 1 ∧ m.edges 4 = 1 + 8 * √9 * 2 :=
  c147_thick_four rfl rfl (by simp) (Or.inl (by simp)) rfl

theorem oldThickMore_size (c : OldMeshConfig) {n : ℕ} (hn : c.N = 4 * n) (h2 : 2 ≤ n) :
    (oldThickMore c).size = c.N + 1 := by
  have e1 : 4 * n / 2 / 2 = n := by omega
  have e2 : (4 * n / 2 - 2) / 2 = n - 1 := by omega
  simp only [oldThickMore, Arr.append, Arr.dropLast, Arr.tail, linspace, hn, e1, e2]
  omega

/-- C147: with more than four cells the thick mesh for square sources is not symmetric: its middle edge is at
`√tfinal speed` and not at the origin. -/
theorem c147_not_symmetric {c : OldMeshConfig} (hm : c.moving = false) (h4 : c.moveType 4 = 1)
    (h5 : c.sourceType 5 ≠ 1) (hs : c.sourceType 2 = 1 ∨ c.sourceType 1 = 1) {n : ℕ} (hn : c.N = 4 * n) (h2 : 2 ≤ n) :
    ∃ m, oldInit c = some m ∧ m.edges (c.N / 2) = √c.tfinal * c.speed ∧
      m.edges 0 = -(c.x0 + 8 * √c.tfinal * c.speed) ∧ m.edges c.N = c.x0 + 8 * √c.tfinal * c.speed := by
  refine ⟨_, by
    rw [oldInit, if_neg (by rw [hm]; simp), if_neg (not_not.2 h4), if_neg h5, if_pos hs, if_neg (by omega),
      if_pos (by omega)]
    exact if_pos (oldThickMore_size c hn h2), ?_, ?_, ?_⟩
  all_goals
    have e1 : 2 * n / 2 = n := by omega
    have e0 : 4 * n / 2 = 2 * n := by omega
    have e2 : (2 * n - 2) / 2 = n - 1 := by omega
    have hn0 : (0 : ℝ) < n := by exact_mod_cast (by omega : 0 < n)
    simp only [oldThickMore, Arr.append, Arr.dropLast, Arr.tail, linspace, hn, e0, e1, e2, Nat.add_sub_cancel]
  · rw [if_pos (by omega), if_pos (by omega), if_neg (by omega), show 2 * n - (n + (n - 1)) = 1 by omega]
    push_cast
    ring
  · rw [if_pos (by omega), if_pos (by omega), if_pos (by omega), if_pos (by omega)]
    push_cast
    ring
  · rw [if_neg (by omega), show 4 * n - (n + (n - 1) + 2 + (n - 1 + 1)) + 1 = n by omega]
    push_cast
    rw [add_sub_cancel_right]
    field_simp
    ring

/-! ### Heat fronts -/

/-- C147: `derivative_saver` stores the place whose energy is nearest to the largest derivative. -/
theorem c147_saver (n : ℕ) (xs e : ℕ → ℝ) :
    (∀ i ≤ n, |saverDeriv n xs e i| ≤ saverMax n xs e) ∧ (∃ i ≤ n, saverMax n xs e = |saverDeriv n xs e i|) ∧
    ∃ i ≤ n, saverFront n xs e = |xs i| ∧ ∀ k ≤ n, |(|e i|) - saverMax n xs e| ≤ |(|e k|) - saverMax n xs e| := by
  refine ⟨fun i hi => ?_, ⟨_, firstMin_le _ n, rfl⟩, ⟨_, firstMin_le _ n, rfl, fun k hk => ?_⟩⟩
  · have := firstMin_min (fun i => -|saverDeriv n xs e i|) n i hi
    simp only [neg_le_neg_iff] at this
    exact this
  · exact firstMin_min (fun i => |(|e i|) - saverMax n xs e|) n k hk

/-- C147: so the front is not found: if the energy is one up to point `m` and zero from there on, the first point is
stored, wherever the front is. -/
theorem c147_saver_wrong {n m : ℕ} (h1 : 1 ≤ m) (hm : m < n) {h : ℝ} (h0 : 0 < h) (h2 : h < 2) (a : ℝ) {xs e : ℕ → ℝ}
    (hx : ∀ i, xs i = a + i * h) (he : ∀ i, e i = if 1 ≤ i ∧ i ≤ m then 1 else 0) : saverFront n xs e = |a + h| := by
  have hd : ∀ i, saverDeriv n xs e i = if i = m then -(1 / h) else 0 := by
    intro i
    have hxx : xs (i + 1) - xs i = h := by rw [hx, hx]; push_cast; ring
    rw [saverDeriv, hxx, he, he]
    split_ifs <;> first | omega | simp [neg_div]
  have hmax : saverMax n xs e = 1 / h := by
    obtain ⟨b, ⟨i, hi, hi'⟩, -⟩ := c147_saver n xs e
    refine le_antisymm ?_ ?_
    · rw [hi', hd]
      split_ifs
      · rw [abs_neg, abs_of_pos (by positivity)]
      · rw [abs_zero]; positivity
    · have := b m hm.le
      rwa [hd, if_pos rfl, abs_neg, abs_of_pos (by positivity)] at this
  have hlt : |1 - 1 / h| < 1 / h := by
    have : 1 / 2 < 1 / h := one_div_lt_one_div_of_lt h0 h2
    rw [abs_lt]
    constructor <;> linarith
  unfold saverFront
  rw [hmax]
  set f : ℕ → ℝ := fun i => |(|e i|) - 1 / h| with hf
  have v1 : ∀ i, 1 ≤ i → i ≤ m → f i = |1 - 1 / h| := fun i p q => by
    simp only [hf, he, if_pos (And.intro p q), abs_one]
  have v0 : ∀ i, ¬ (1 ≤ i ∧ i ≤ m) → f i = 1 / h := fun i p => by
    simp only [hf, he, if_neg p, abs_zero, zero_sub, abs_neg]
    exact abs_of_pos (by positivity)
  have hmin := firstMin_min f n 1 (by omega)
  have hk : 1 ≤ firstMin f n ∧ firstMin f n ≤ m := by
    by_contra hc
    rw [v0 _ hc, v1 1 le_rfl h1] at hmin
    linarith
  have hone : firstMin f n = 1 := by
    by_contra hne
    have := firstMin_first f n 1 (by omega)
    rw [v1 _ hk.1 hk.2, v1 1 le_rfl h1] at this
    exact lt_irrefl _ this
  rw [hone, hx]
  simp

/-! ### Coefficients -/

/-- C147: `coeff_con` is a mean over the directions: it is between bounds of the coefficients, and equal to them if
they do not depend on the direction. -/
theorem c147_mean {Nang : ℕ} {ws : ℕ → ℝ} (hw : ∀ l < Nang, 0 ≤ ws l) (hs : 0 < ∑ l ∈ Finset.range Nang, ws l)
    {sol : ℕ → ℕ → ℕ → ℝ} {k j : ℕ} {lo hi : ℝ} (hb : ∀ l < Nang, lo ≤ sol l k j ∧ sol l k j ≤ hi) :
    lo ≤ coeffCon Nang ws sol k j ∧ coeffCon Nang ws sol k j ≤ hi := by
  unfold coeffCon
  rw [le_div_iff₀ hs, div_le_iff₀ hs, Finset.mul_sum, Finset.mul_sum]
  constructor
  · refine Finset.sum_le_sum fun l hl => ?_
    rw [mul_comm]
    exact mul_le_mul_of_nonneg_left (hb l (Finset.mem_range.1 hl)).1 (hw l (Finset.mem_range.1 hl))
  · refine Finset.sum_le_sum fun l hl => ?_
    rw [mul_comm hi]
    exact mul_le_mul_of_nonneg_left (hb l (Finset.mem_range.1 hl)).2 (hw l (Finset.mem_range.1 hl))

/-! ### Examples -/

/-- A source of half width 1/2, eight cells, thick, at rest. -/
example : ∃ m, oldInit ⟨8, 1 / 2, 1 / 100, false, fun i => if i = 4 then 1 else 0, fun i => if i = 2 then 1 else 0, 1 / 5⟩
    = some m ∧ m.edges 4 = 1 / 50 := by
  obtain ⟨m, h, hmid, -⟩ := c147_not_symmetric
    (c := ⟨8, 1 / 2, 1 / 100, false, fun i => if i = 4 then 1 else 0, fun i => if i = 2 then 1 else 0, 1 / 5⟩) (n := 2)
    rfl rfl (by decide) (Or.inl rfl) rfl le_rfl
  refine ⟨m, h, ?_⟩
  have hr : √(1 / 100 : ℝ) = 1 / 10 := by
    rw [show (1 / 100 : ℝ) = (1 / 10) ^ 2 by norm_num]
    exact Real.sqrt_sq (by norm_num)
  have : m.edges 4 = √(1 / 100 : ℝ) * (1 / 5) := hmid
  rw [this, hr]
  norm_num

/-- A front at 3/10, stored as 1/10. -/
example : saverFront 6 (fun i => 0 + i * (1 / 10)) (fun i => if 1 ≤ i ∧ i ≤ 3 then 1 else 0) = |0 + 1 / 10| :=
  c147_saver_wrong (by norm_num) (by norm_num) (by norm_num) (by norm_num) 0 (fun _ => rfl) (fun _ => rfl)

end Verif.Props
