import Verif.Model.OldFunctions
import Mathlib.Algebra.BigOperators.Intervals
import Mathlib.Tactic.FieldSimp
import Mathlib.Tactic.IntervalCases
import Mathlib.Tactic.Linarith

/-!
C142: the functions of functions.py that were replaced, against what replaced them.
-/

namespace Verif.Props

open Verif.Model Real

/-- Value at the right end of a cell of width `w` of the expansion with coefficients `v`. -/
noncomputable def rightTrace (M : ℕ) (v : ℕ → ℝ) (w : ℝ) : ℝ :=
  ∑ j ∈ Finset.range (M + 1), √(2 * (j : ℝ) + 1) / √w * v j

/-- Value at the left end. -/
noncomputable def leftTrace (M : ℕ) (v : ℕ → ℝ) (w : ℝ) : ℝ :=
  ∑ j ∈ Finset.range (M + 1), (-1) ^ j * √(2 * (j : ℝ) + 1) / √w * v j

theorem edge_right (j : ℕ) (h : ℝ) : (if j = 0 then 1 / h else √(2 * (j : ℝ) + 1) / h) = √(2 * (j : ℝ) + 1) / h := by
  split_ifs with h0
  · subst h0; simp
  · rfl

theorem edge_left (j : ℕ) (h : ℝ) :
    (if j = 0 then 1 / h else if j % 2 = 0 then √(2 * (j : ℝ) + 1) / h else -√(2 * (j : ℝ) + 1) / h) =
      (-1) ^ j * √(2 * (j : ℝ) + 1) / h := by
  split_ifs with h0 h2
  · subst h0; simp
  · simp [(Nat.even_iff.2 h2).neg_one_pow]
  · simp [(Nat.odd_iff.2 (by omega : j % 2 = 1)).neg_one_pow]

theorem bLR_slab (j : ℕ) (h : ℝ) :
    bLR .slab j h = ((-1) ^ j * √(2 * (j : ℝ) + 1) / h, √(2 * (j : ℝ) + 1) / h) := by
  rw [← edge_left, ← edge_right]
  simp only [bLR]
  split_ifs <;> rfl

theorem sqrt_trace {w v : ℝ} (hw : 0 < w) (hv : 0 < v) (a : ℝ) : a / √w = √(v / w) * (a / √v) := by
  rw [sqrt_div hv.le]
  have := (sqrt_pos.2 hv).ne'
  have := (sqrt_pos.2 hw).ne'
  field_simp

theorem rightTrace_scale (M : ℕ) (v : ℕ → ℝ) {w w' : ℝ} (hw : 0 < w) (hw' : 0 < w') :
    rightTrace M v w = √(w' / w) * rightTrace M v w' := by
  unfold rightTrace
  rw [Finset.mul_sum]
  refine Finset.sum_congr rfl fun j _ => ?_
  rw [sqrt_trace hw hw']
  ring

theorem leftTrace_scale (M : ℕ) (v : ℕ → ℝ) {w w' : ℝ} (hw : 0 < w) (hw' : 0 < w') :
    leftTrace M v w = √(w' / w) * leftTrace M v w' := by
  unfold leftTrace
  rw [Finset.mul_sum]
  refine Finset.sum_congr rfl fun j _ => ?_
  rw [sqrt_trace hw hw']
  ring

/-- The state that `LU_surf_func` takes at the right end of a cell of width `w`. -/
noncomputable def oldRightState (u : ℕ → ℕ → ℝ) (space N M : ℕ) (w speed : ℝ) : ℝ :=
  if speed = 0 then 0 else if 0 < speed then rightTrace M (u space) w
  else if space + 1 ≠ N then leftTrace M (u (space + 1)) w else 0

/-- The state that `LU_surf_func` takes at the left end of a cell of width `w`. -/
noncomputable def oldLeftState (u : ℕ → ℕ → ℝ) (space M : ℕ) (w speed : ℝ) : ℝ :=
  if speed = 0 then 0 else if 0 < speed then (if space ≠ 0 then rightTrace M (u (space - 1)) w else 0)
  else leftTrace M (u space) w

theorem surf_right (u : ℕ → ℕ → ℝ) (space N M : ℕ) (xL xR speed : ℝ) :
    ∑ j ∈ Finset.range (M + 1), surfFunc speed u space j .R xL xR N = oldRightState u space N M (xR - xL) speed := by
  unfold oldRightState rightTrace leftTrace surfFunc
  simp only [edge_right, edge_left]
  split_ifs
  · simp
  · exact Finset.sum_congr rfl fun j _ => mul_comm _ _
  · exact Finset.sum_congr rfl fun j _ => mul_comm _ _
  · simp

theorem surf_left (u : ℕ → ℕ → ℝ) (space N M : ℕ) (xL xR speed : ℝ) :
    ∑ j ∈ Finset.range (M + 1), surfFunc speed u space j .L xL xR N = oldLeftState u space M (xR - xL) speed := by
  unfold oldLeftState rightTrace leftTrace surfFunc
  simp only [edge_right, edge_left]
  split_ifs
  · simp
  · exact Finset.sum_congr rfl fun j _ => mul_comm _ _
  · simp
  · exact Finset.sum_congr rfl fun j _ => mul_comm _ _

theorem luSurf_eq (u : ℕ → ℕ → ℝ) (space N : ℕ) (mul : ℝ) (M : ℕ) (xL xR dxL dxR : ℝ) {i : ℕ} (hi : i ≤ M) :
    luSurfFunc u space N mul M xL xR dxL dxR i =
      √(2 * (i : ℝ) + 1) / √(xR - xL) * ((mul - dxR) * oldRightState u space N M (xR - xL) (mul - dxR)) -
      (-1) ^ i * √(2 * (i : ℝ) + 1) / √(xR - xL) * ((mul - dxL) * oldLeftState u space M (xR - xL) (mul - dxL)) := by
  rw [← edge_left, ← edge_right]
  unfold luSurfFunc
  simp only [surf_right, surf_left]
  rcases Nat.eq_zero_or_pos i with h0 | h0
  · simp only [h0, if_true]; ring
  · simp only [if_neg h0.ne', if_pos (show 0 < M by omega)]; ring

/-! ### The flux of the class -/

/-- A slab without anything that enters through the ends. -/
structure PlainSlab (c : FluxConfig) : Prop where
  slab : c.geometry = .slab
  mms : c.mms = false
  thermal : c.thermalIsOne = false
  source : c.boundarySource = false

/-- Width of cell `k`. -/
def cellW (m : MeshView) (k : ℕ) : ℝ := m.edges (k + 1) - m.edges k

/-- The state of `make_LU` at the right end of a cell. -/
noncomputable def newRightState (c : FluxConfig) (m : MeshView) (u : ℕ → ℕ → ℝ) (space : ℕ) (speed : ℝ) : ℝ :=
  if 0 ≤ speed then rightTrace c.M (u space) (cellW m space)
  else if space + 1 ≠ c.Nspace then leftTrace c.M (u (space + 1)) (cellW m (space + 1)) else 0

/-- The state of `make_LU` at the left end of a cell. -/
noncomputable def newLeftState (c : FluxConfig) (m : MeshView) (u : ℕ → ℕ → ℝ) (space : ℕ) (speed : ℝ) : ℝ :=
  if 0 ≤ speed then (if space ≠ 0 then rightTrace c.M (u (space - 1)) (cellW m (space - 1)) else 0)
  else leftTrace c.M (u space) (cellW m space)

theorem fluxLU_eq {c : FluxConfig} (hc : PlainSlab c) (t : ℝ) (m : MeshView) (u : ℕ → ℕ → ℝ) (space : ℕ) (mul : ℝ)
    (uRefl : ℕ → ℝ) (s : FluxState) {i : ℕ} (hi : i ≤ c.M) :
    fluxLU c t m u space mul uRefl s i =
      √(2 * (i : ℝ) + 1) / √(cellW m space) *
        ((mul - m.Dedges (space + 1)) * newRightState c m u space (mul - m.Dedges (space + 1))) -
      (-1) ^ i * √(2 * (i : ℝ) + 1) / √(cellW m space) *
        ((mul - m.Dedges space) * newLeftState c m u space (mul - m.Dedges space)) := by
  have hb : ∀ t, isBoundarySourceOn c space t = false := by
    intro t; simp [isBoundarySourceOn, hc.mms, hc.thermal, hc.source]
  unfold fluxLU makeLU newRightState newLeftState rightTrace leftTrace
  simp only [if_pos hi, hc.slab, bLR_slab, makeSol, extendMesh, fluxSpeed, one_mul]
  have hh : (makeH c m space { s with v0 := 0, v1 := 0, v2 := 0, v3 := 0 }).h = √(cellW m space) := by
    unfold makeH cellW; split_ifs <;> rfl
  have hm : space ≠ 0 → (makeH c m space { s with v0 := 0, v1 := 0, v2 := 0, v3 := 0 }).hm =
      √(cellW m (space - 1)) := by
    intro h0
    unfold makeH cellW
    rw [show space - 1 + 1 = space by omega]
    split_ifs <;> rfl
  have hp : space + 1 ≠ c.Nspace → (makeH c m space { s with v0 := 0, v1 := 0, v2 := 0, v3 := 0 }).hp =
      √(cellW m (space + 1)) := by
    intro h0
    unfold makeH cellW
    split_ifs <;> rfl
  have e0 : ∀ S : FluxState, S.hm = (makeH c m space { s with v0 := 0, v1 := 0, v2 := 0, v3 := 0 }).hm → ∀ j,
      v0Term c m S space u t uRefl j =
        if space ≠ 0 then √(2 * (j : ℝ) + 1) / √(cellW m (space - 1)) * u (space - 1) j else 0 := by
    intro S hS j
    unfold v0Term
    rw [hb, hc.slab]
    split_ifs with h0
    · rw [bLR_slab, hS, hm h0]
    all_goals simp_all
  have e3 : ∀ S : FluxState, S.hp = (makeH c m space { s with v0 := 0, v1 := 0, v2 := 0, v3 := 0 }).hp → ∀ j,
      v3Term c m S space u t j = if space + 1 ≠ c.Nspace then
        (-1) ^ j * √(2 * (j : ℝ) + 1) / √(cellW m (space + 1)) * u (space + 1) j else 0 := by
    intro S hS j
    unfold v3Term
    rw [hb, hc.slab]
    split_ifs with h0
    · rw [bLR_slab, hS, hp h0]
    all_goals simp_all
  have hv : (makeH c m space { s with v0 := 0, v1 := 0, v2 := 0, v3 := 0 }).v0 = 0 ∧
      (makeH c m space { s with v0 := 0, v1 := 0, v2 := 0, v3 := 0 }).v1 = 0 ∧
      (makeH c m space { s with v0 := 0, v1 := 0, v2 := 0, v3 := 0 }).v2 = 0 ∧
      (makeH c m space { s with v0 := 0, v1 := 0, v2 := 0, v3 := 0 }).v3 = 0 := by
    unfold makeH; split_ifs <;> exact ⟨rfl, rfl, rfl, rfl⟩
  rw [hv.1, hv.2.1, hv.2.2.1, hv.2.2.2, hh]
  simp only [zero_add]
  have hs : ∀ (p : Prop) [Decidable p] (f : ℕ → ℝ),
      (∑ j ∈ Finset.range (c.M + 1), if p then f j else 0) = if p then ∑ j ∈ Finset.range (c.M + 1), f j else 0 := by
    intro p _ f; split_ifs <;> simp
  have E0 := fun S hS => (Finset.sum_congr rfl fun j (_ : j ∈ Finset.range (c.M + 1)) => e0 S hS j).trans (hs _ _)
  have E3 := fun S hS => (Finset.sum_congr rfl fun j (_ : j ∈ Finset.range (c.M + 1)) => e3 S hS j).trans (hs _ _)
  rw [E0, E3]
  · ring
  · rfl
  · rfl

/-- C142: next to cells of the same width `LU_surf_func` is the flux of the class. -/
theorem c142_same_width {c : FluxConfig} (hc : PlainSlab c) (t : ℝ) (m : MeshView) (u : ℕ → ℕ → ℝ) (k : ℕ) (mul : ℝ)
    (uRefl : ℕ → ℝ) (s : FluxState) (hl : k ≠ 0 → m.edges k - m.edges (k - 1) = m.edges (k + 1) - m.edges k)
    (hr : k + 1 ≠ c.Nspace → m.edges (k + 2) - m.edges (k + 1) = m.edges (k + 1) - m.edges k) {i : ℕ} (hi : i ≤ c.M) :
    luSurfFunc u k c.Nspace mul c.M (m.edges k) (m.edges (k + 1)) (m.Dedges k) (m.Dedges (k + 1)) i =
      fluxLU c t m u k mul uRefl s i := by
  rw [luSurf_eq _ _ _ _ _ _ _ _ _ hi, fluxLU_eq hc t m u k mul uRefl s hi]
  have hR : ∀ v, v * oldRightState u k c.Nspace c.M (m.edges (k + 1) - m.edges k) v = v * newRightState c m u k v := by
    intro v
    unfold oldRightState newRightState
    rcases lt_trichotomy v 0 with h | h | h
    · rw [if_neg h.ne, if_neg h.not_gt, if_neg h.not_ge]
      split_ifs with h1
      · rw [show cellW m (k + 1) = m.edges (k + 1) - m.edges k from hr h1]
      · rfl
    · rw [h, zero_mul, zero_mul]
    · rw [if_neg h.ne', if_pos h, if_pos h.le]; rfl
  have hL : ∀ v, v * oldLeftState u k c.M (m.edges (k + 1) - m.edges k) v = v * newLeftState c m u k v := by
    intro v
    unfold oldLeftState newLeftState
    rcases lt_trichotomy v 0 with h | h | h
    · rw [if_neg h.ne, if_neg h.not_gt, if_neg h.not_ge]; rfl
    · rw [h, zero_mul, zero_mul]
    · rw [if_neg h.ne', if_pos h, if_pos h.le]
      split_ifs with h1
      · rw [show cellW m (k - 1) = m.edges (k + 1) - m.edges k by
          rw [← hl h1]; unfold cellW; rw [show k - 1 + 1 = k by omega]]
      · rfl
  rw [hR, hL]
  rfl

/-- Particles that appear per time at the inner edge `k + 1`: speed of the particles against the edge, times the
state of the cell they leave, times a factor for the widths of the two cells. -/
noncomputable def createdAt (m : MeshView) (u : ℕ → ℕ → ℝ) (M : ℕ) (mul : ℝ) (k : ℕ) : ℝ :=
  if 0 ≤ mul - m.Dedges (k + 1) then
    (mul - m.Dedges (k + 1)) * (√(cellW m k / cellW m (k + 1)) - 1) * rightTrace M (u k) (cellW m k)
  else -(mul - m.Dedges (k + 1)) * (√(cellW m (k + 1) / cellW m k) - 1) *
    leftTrace M (u (k + 1)) (cellW m (k + 1))

/-- C142: compared with the flux of the class, which keeps particles (C07), `LU_surf_func` makes particles at
every inner edge between cells of different widths. -/
theorem c142_created {c : FluxConfig} (hc : PlainSlab c) (t : ℝ) {m : MeshView} (u : ℕ → ℕ → ℝ) (mul : ℝ)
    (uRefl : ℕ → ℝ) (s : FluxState) {n : ℕ} (hN : c.Nspace = n + 1) (hw : ∀ k ≤ n, m.edges k < m.edges (k + 1)) :
    (∑ k ∈ Finset.range (n + 1), √(m.edges (k + 1) - m.edges k) * fluxLU c t m u k mul uRefl s 0) -
      ∑ k ∈ Finset.range (n + 1), √(m.edges (k + 1) - m.edges k) *
        luSurfFunc u k c.Nspace mul c.M (m.edges k) (m.edges (k + 1)) (m.Dedges k) (m.Dedges (k + 1)) 0 =
      ∑ k ∈ Finset.range n, createdAt m u c.M mul k := by
  have hw' : ∀ k ≤ n, 0 < cellW m k := fun k hk => sub_pos.2 (hw k hk)
  set A : ℕ → ℝ := fun k => (mul - m.Dedges (k + 1)) * newRightState c m u k (mul - m.Dedges (k + 1)) -
    (mul - m.Dedges (k + 1)) * oldRightState u k c.Nspace c.M (cellW m k) (mul - m.Dedges (k + 1)) with hA
  set B : ℕ → ℝ := fun k => (mul - m.Dedges k) * newLeftState c m u k (mul - m.Dedges k) -
    (mul - m.Dedges k) * oldLeftState u k c.M (cellW m k) (mul - m.Dedges k) with hB
  have h1 : ∀ k ∈ Finset.range (n + 1), √(m.edges (k + 1) - m.edges k) * fluxLU c t m u k mul uRefl s 0 -
      √(m.edges (k + 1) - m.edges k) *
        luSurfFunc u k c.Nspace mul c.M (m.edges k) (m.edges (k + 1)) (m.Dedges k) (m.Dedges (k + 1)) 0 =
      A k - B k := by
    intro k hk
    have hp := (sqrt_pos.2 (hw' k (by have := Finset.mem_range.1 hk; omega))).ne'
    rw [luSurf_eq _ _ _ _ _ _ _ _ _ (Nat.zero_le _), fluxLU_eq hc t m u k mul uRefl s (Nat.zero_le _), hA, hB]
    change √(cellW m k) * _ - √(cellW m k) * (_ / √(cellW m k) * _ - _ / √(cellW m k) * _) = _
    have e : √(2 * ((0 : ℕ) : ℝ) + 1) = 1 := by simp
    rw [e]
    change √(cellW m k) * (_ - _) - √(cellW m k) * (1 / √(cellW m k) * ((mul - m.Dedges (k + 1)) *
      oldRightState u k c.Nspace c.M (cellW m k) (mul - m.Dedges (k + 1))) - _ * ((mul - m.Dedges k) *
      oldLeftState u k c.M (cellW m k) (mul - m.Dedges k))) = _
    field_simp
    ring
  rw [← Finset.sum_sub_distrib, Finset.sum_congr rfl h1, Finset.sum_sub_distrib, Finset.sum_range_succ,
    Finset.sum_range_succ' B]
  have hAn : A n = 0 := by
    simp only [hA, newRightState, oldRightState, hN]
    rcases lt_trichotomy (mul - m.Dedges (n + 1)) 0 with h | h | h
    · simp [h.ne, h.not_gt, h.not_ge]
    · simp [h]
    · simp [h.ne', h, h.le]
  have hB0 : B 0 = 0 := by
    simp only [hB, newLeftState, oldLeftState]
    rcases lt_trichotomy (mul - m.Dedges 0) 0 with h | h | h
    · simp [h.ne, h.not_gt, h.not_ge]
    · simp [h]
    · simp [h.ne', h, h.le]
  rw [hAn, hB0, add_zero, add_zero, ← Finset.sum_sub_distrib]
  refine Finset.sum_congr rfl fun k hk => ?_
  have hk := Finset.mem_range.1 hk
  have hne : k + 1 ≠ c.Nspace := by omega
  simp only [hA, hB, newRightState, oldRightState, newLeftState, oldLeftState, createdAt, if_pos hne,
    if_pos (Nat.succ_ne_zero k), Nat.add_sub_cancel]
  rcases lt_trichotomy (mul - m.Dedges (k + 1)) 0 with h | h | h
  · simp only [h.ne, h.not_gt, h.not_ge, if_false]
    rw [leftTrace_scale c.M (u (k + 1)) (hw' k (by omega)) (hw' (k + 1) (by omega))]
    ring
  · simp [h]
  · simp only [h.ne', h, h.le, if_true, if_false]
    rw [rightTrace_scale c.M (u k) (hw' (k + 1) (by omega)) (hw' k (by omega))]
    ring

/-- Two cells of widths 1 and 4 with speed one to the right: half of the particles that cross are lost. -/
theorem c142_half_lost (a b : ℝ) :
    let m : MeshView := ⟨fun k => if k = 0 then 0 else if k = 1 then 1 else 5, fun _ => 0⟩
    let u : ℕ → ℕ → ℝ := fun k _ => if k = 0 then a else b
    luSurfFunc u 0 2 1 0 (m.edges 0) (m.edges 1) 0 0 0 = a ∧
      2 * luSurfFunc u 1 2 1 0 (m.edges 1) (m.edges 2) 0 0 0 = b / 2 - a / 2 := by
  have h4 : √(5 - 1) = 2 := by
    rw [show (5 : ℝ) - 1 = 2 ^ 2 by norm_num, sqrt_sq (by norm_num)]
  constructor
  · simp [luSurfFunc, surfFunc]
  · simp [luSurfFunc, surfFunc, h4]
    ring

/-- The hypotheses can be met: three moving cells, of widths 1, 1 and 4. -/
example : ∃ (c : FluxConfig) (m : MeshView) (u : ℕ → ℕ → ℝ), PlainSlab c ∧ c.Nspace = 2 + 1 ∧ c.M = 1 ∧
    (∀ k ≤ 2, m.edges k < m.edges (k + 1)) ∧ m.edges 2 - m.edges 1 = m.edges 1 - m.edges 0 ∧
    createdAt m u c.M 1 0 = 0 ∧ createdAt m u c.M 1 1 = -1 / 4 := by
  refine ⟨⟨1, 3, false, false, true, 0, false, false, false, 0, false, 0, .slab, []⟩,
    ⟨fun k => if k ≤ 2 then (k : ℝ) else 6, fun _ => 1 / 2⟩, fun _ j => if j = 0 then 1 else 0,
    ⟨rfl, rfl, rfl, rfl⟩, rfl, rfl, ?_, by norm_num, ?_, ?_⟩
  · intro k hk
    interval_cases k <;> norm_num
  · norm_num [createdAt, cellW]
  · have h4 : √4 = 2 := by rw [show (4 : ℝ) = 2 ^ 2 by norm_num, sqrt_sq (by norm_num)]
    norm_num [createdAt, cellW, rightTrace, Finset.sum_range_succ, h4]

/-! ### Output -/

/-- C142: inside of the mesh `make_phi` of functions.py gives what the class gives. -/
theorem c142_output_inside (M : ℕ) {N : ℕ} (Nang : ℕ) (ws edges : ℕ → ℝ) (u : ℕ → ℕ → ℕ → ℝ) (unc : ℝ → ℝ → ℝ) (t : ℝ)
    {x : ℝ} (h0 : edges 0 ≤ x) (hN : x ≤ edges N) :
    phiOut .slab M N Nang ws edges u false unc t x = some (oldMakePhi Nang ws x u M N edges) := by
  have h : ∀ ang, psiOut .slab M N edges (u ang) x = some (∑ i ∈ Finset.range (M + 1),
      u ang (outIndex N edges x - 1) i * normPn i x (edges (outIndex N edges x - 1)) (edges (outIndex N edges x))) := by
    intro ang
    unfold psiOut
    rw [if_pos ⟨h0, hN⟩]
    rfl
  unfold phiOut
  simp only [h, Option.isSome_some, implies_true, if_true, Option.getD_some]
  simp [oldMakePhi, outIndex]

/-- C142: right of the mesh it continues the polynomials of the last cell, where the class gives zero. -/
theorem c142_output_right (M : ℕ) {N : ℕ} (Nang : ℕ) (ws : ℕ → ℝ) {edges : ℕ → ℝ}
    (hm : ∀ k < N, edges k < edges (k + 1)) (u : ℕ → ℕ → ℕ → ℝ) (unc : ℝ → ℝ → ℝ) (t : ℝ) {x : ℝ} (hx : edges N < x) :
    phiOut .slab M N Nang ws edges u false unc t x = some 0 ∧
      oldMakePhi Nang ws x u M N edges = ∑ ang ∈ Finset.range Nang, (∑ i ∈ Finset.range (M + 1),
        u ang (N - 1) i * normPn i x (edges (N - 1)) (edges N)) * ws ang := by
  have hle : ∀ k ≤ N, edges k ≤ edges N := by
    intro k hk
    induction hk using Nat.decreasingInduction with
    | self => exact le_rfl
    | of_succ j hj ih => exact (hm j hj).le.trans ih
  constructor
  · have h : ∀ ang, psiOut .slab M N edges (u ang) x = some 0 := by
      intro ang; unfold psiOut; rw [if_neg fun h => absurd h.2 hx.not_ge]
    unfold phiOut
    simp [h]
  · have hs : searchsorted N edges x = N + 1 := by
      unfold searchsorted
      rw [Finset.filter_true_of_mem fun i hi => (hle i (by have := Finset.mem_range.1 hi; omega)).trans_lt hx,
        Finset.card_range]
    unfold oldMakePhi
    simp [hs]

/-- C142: and left of the mesh those of the first cell. -/
theorem c142_output_left (M : ℕ) {N : ℕ} (hN : 1 ≤ N) (Nang : ℕ) (ws : ℕ → ℝ) {edges : ℕ → ℝ}
    (hm : ∀ k < N, edges k < edges (k + 1)) (u : ℕ → ℕ → ℕ → ℝ) (unc : ℝ → ℝ → ℝ) (t : ℝ) {x : ℝ} (hx : x < edges 0) :
    phiOut .slab M N Nang ws edges u false unc t x = some 0 ∧
      oldMakePhi Nang ws x u M N edges = ∑ ang ∈ Finset.range Nang, (∑ i ∈ Finset.range (M + 1),
        u ang 0 i * normPn i x (edges 0) (edges 1)) * ws ang := by
  have hle : ∀ k ≤ N, edges 0 ≤ edges k := by
    intro k hk
    induction k with
    | zero => exact le_rfl
    | succ j ih => exact (ih (by omega)).trans (hm j (by omega)).le
  constructor
  · have h : ∀ ang, psiOut .slab M N edges (u ang) x = some 0 := by
      intro ang; unfold psiOut; rw [if_neg fun h => absurd h.1 hx.not_ge]
    unfold phiOut
    simp [h]
  · have hs : searchsorted N edges x = 0 := by
      unfold searchsorted
      rw [Finset.filter_false_of_mem fun i hi => (hx.trans_le (hle i (by have := Finset.mem_range.1 hi; omega))).not_gt,
        Finset.card_empty]
    unfold oldMakePhi
    simp [hs, show ¬ N + 1 ≤ 1 by omega]

/-- One cell with constant flux: one mean free path beyond the end of the mesh the flux is still reported. -/
example (unc : ℝ → ℝ → ℝ) : let edges : ℕ → ℝ := fun k => k
    phiOut .slab 0 1 1 (fun _ => 1) edges (fun _ _ _ => 1) false unc 0 2 = some 0 ∧
    oldMakePhi 1 (fun _ => 1) 2 (fun _ _ _ => 1) 0 1 edges = 1 := by
  intro edges
  have h := c142_output_right 0 (N := 1) 1 (fun _ => 1) (edges := edges) (fun k _ => by simp [edges])
    (fun _ _ _ => 1) unc 0 (x := 2) (by norm_num [edges])
  refine ⟨h.1, h.2.trans ?_⟩
  norm_num [edges, normPn, Verif.Spec.legendre]

/-! ### The square source of two directions -/

theorem sqrt3_scale (a : ℝ) : √3 * a / 3 * 3 / √3 = a := by
  have : √3 ≠ 0 := by positivity
  field_simp

theorem late_mul {a b : ℝ} (h : a ≤ √3 * b / 3) : a * 3 / √3 ≤ b := by
  rw [← sqrt3_scale b]
  gcongr

theorem late_mul' {a b : ℝ} (h : √3 * b / 3 < a) : b < a * 3 / √3 := by
  rw [← sqrt3_scale b]
  gcongr

/-- C142: while the source is on the second version returns zero. -/
theorem c142_s2_on (x x0 : ℝ) {t t0 : ℝ} (h : t ≤ t0) : suOlsonS2Second x t x0 t0 = some 0 := by
  unfold suOlsonS2Second
  rw [if_neg h.not_gt]

/-- C142: after that, well inside of the source, the two versions agree. -/
theorem c142_s2_inner {x x0 t t0 : ℝ} (h : t0 < t) (hx : |x| < x0 - √3 * (t - t0) / 3) :
    suOlsonS2Second x t x0 t0 = suOlsonS2 x t x0 t0 := by
  have hm : min t t0 = t0 := min_eq_right h.le
  have hnot : ¬(x0 - √3 * (t - t0) / 3 ≤ |x| ∧ |x| ≤ x0 + √3 * (t - t0) / 3) := fun h => absurd h.1 hx.not_ge
  have hpos : 0 ≤ √3 * (t - t0) / 3 := by have := sub_pos.2 h; positivity
  have hnot2 : ¬ x0 + √3 * (t - t0) / 3 < |x| := by intro h; linarith
  have harg : t - (x0 - |x|) * 3 / √3 < t0 := by
    have := late_mul' (b := t - t0) (a := x0 - |x|) (by linarith)
    linarith
  unfold suOlsonS2Second suOlsonS2 suOlsonS2Late
  simp only [hm, if_pos h, if_neg h.not_ge, abs_abs, if_neg hnot, if_pos hx, if_neg hnot2]
  split_ifs with h1 h2
  · rfl
  · rfl
  · exact absurd ⟨by linarith, harg⟩ h2

/-- C142: elsewhere the second version forgets that the far end of the source goes out of sight. -/
theorem c142_s2_outer {x x0 t t0 : ℝ} (ht0 : 0 ≤ t0) (h : t0 < t) (hx : x0 - √3 * (t - t0) / 3 ≤ |x|) :
    ∃ v v', suOlsonS2 x t x0 t0 = some v ∧ suOlsonS2Second x t x0 t0 = some v' ∧
      v' - v = s2F t (min (max (t - (|x| + x0) * 3 / √3) 0) t0) - s2F t 0 ∧
      v ≤ v' ∧ (0 < t0 → (v = v' ↔ t ≤ (|x| + x0) * 3 / √3)) := by
  have hm : min t t0 = t0 := min_eq_right h.le
  have hmono : ∀ a b, s2F t a ≤ s2F t b ↔ a ≤ b := by
    intro a b; unfold s2F
    rw [mul_le_mul_iff_of_pos_left (by norm_num), exp_le_exp]; constructor <;> intro h <;> linarith
  have hinj : ∀ a b, s2F t a = s2F t b ↔ a = b := by
    intro a b
    rw [le_antisymm_iff, le_antisymm_iff, hmono, hmono]
  set z := min (max (t - (|x| + x0) * 3 / √3) 0) t0 with hz
  have hz0 : 0 ≤ z := le_min (le_max_right _ _) ht0
  have key : ∀ w, w ≤ w - s2F t 0 + s2F t z ∧ (0 < t0 → (w - s2F t z = w - s2F t 0 ↔ t ≤ (|x| + x0) * 3 / √3)) := by
    intro w
    refine ⟨by linarith [(hmono 0 z).2 hz0], fun hp => ?_⟩
    rw [sub_right_inj, hinj]
    constructor
    · intro h0
      by_contra hc
      push Not at hc
      have : 0 < z := lt_min (lt_max_of_lt_left (by linarith)) hp
      linarith
    · intro h0
      rw [hz, max_eq_right (by linarith), min_eq_left ht0]
  by_cases h1 : |x| ≤ x0 + √3 * (t - t0) / 3
  · have harg : min (max (t - (|x| - x0) * 3 / √3) 0) t0 = t0 := by
      refine min_eq_right (le_max_of_le_left ?_)
      have := late_mul (a := |x| - x0) (b := t - t0) (by linarith)
      linarith
    refine ⟨s2F t t0 - s2F t z, s2F t t0 - s2F t 0, ?_, ?_, by ring, ?_, (key _).2⟩
    · unfold suOlsonS2 suOlsonS2Late
      simp only [hm, if_neg h.not_ge, if_pos h, if_pos (And.intro hx h1), harg, hz]
    · unfold suOlsonS2Second
      simp only [hm, if_pos h, abs_abs, if_pos (And.intro hx h1)]
    · linarith [(key 0).1]
  · have h2 := not_le.1 h1
    have harg : min (max (t - (|x| - x0) * 3 / √3) 0) t0 = max (t - (|x| - x0) * 3 / √3) 0 := by
      refine min_eq_left (max_le ?_ ht0)
      have := late_mul' (a := |x| - x0) (b := t - t0) (by linarith)
      linarith
    refine ⟨s2F t (max (t - (|x| - x0) * 3 / √3) 0) - s2F t z, s2F t (max (t - (|x| - x0) * 3 / √3) 0) - s2F t 0,
      ?_, ?_, by ring, ?_, (key _).2⟩
    · unfold suOlsonS2 suOlsonS2Late
      simp only [hm, if_neg h.not_ge, if_pos h, if_neg fun q : _ ∧ _ => h1 q.2, if_pos h2, harg, hz]
    · unfold suOlsonS2Second
      simp only [hm, if_pos h, abs_abs, if_neg fun q : _ ∧ _ => h1 q.2, if_neg hx.not_gt, if_pos h2]
    · linarith [(key 0).1]

/-- The difference occurs: at the edge of a source of half width 1/2 that was on until 1, at time 3. -/
example : ∃ v v', suOlsonS2 (1 / 2) 3 (1 / 2) 1 = some v ∧ suOlsonS2Second (1 / 2) 3 (1 / 2) 1 = some v' ∧ v < v' := by
  have hx : (1 / 2 : ℝ) - √3 * (3 - 1) / 3 ≤ |1 / 2| := by
    rw [abs_of_pos (by norm_num)]; have := sqrt_nonneg (3 : ℝ); linarith
  obtain ⟨v, v', h, h', -, hle, hiff⟩ := c142_s2_outer (x := 1 / 2) (x0 := 1 / 2) (t := 3) (t0 := 1) (by norm_num)
    (by norm_num) hx
  refine ⟨v, v', h, h', lt_of_le_of_ne hle fun e => ?_⟩
  have := (hiff (by norm_num)).1 e
  rw [abs_of_pos (by norm_num), le_div_iff₀ (by positivity)] at this
  have h3 : (1 : ℝ) < √3 := by rw [lt_sqrt (by norm_num)]; norm_num
  linarith

/-! ### Names of problems, sizes -/

/-- C142: only the first five sources have a name; for any other the function fails. -/
theorem c142_names (a b c d e : ℤ) (st : List ℤ) :
    problemIdentifier (a :: b :: c :: d :: e :: st) = none ↔ a ≠ 1 ∧ b ≠ 1 ∧ c ≠ 1 ∧ d ≠ 1 ∧ e ≠ 1 := by
  simp only [problemIdentifier]
  by_cases ha : a = 1
  · simp [ha]
  by_cases hb : b = 1
  · simp [ha, hb]
  by_cases hc : c = 1
  · simp [ha, hb, hc]
  by_cases hd : d = 1
  · simp [ha, hb, hc, hd]
  by_cases he : e = 1
  · simp [ha, hb, hc, hd, he]
  simp [ha, hb, hc, hd, he]

/-- The names: a plane pulse is found before anything else; a Gaussian source (position 5) has no name, because
position 4, the manufactured source, has its name. -/
example : problemIdentifier [1, 0, 0, 0, 1, 0] = some "plane_IC" ∧ problemIdentifier [0, 0, 1, 0, 0, 0] = some "square_source" ∧
    problemIdentifier [0, 0, 0, 0, 1, 0] = some "gaussian_source" ∧ problemIdentifier [0, 0, 0, 0, 0, 1] = none := by
  decide

/-- C142: the sizes that the right-hand side stores belong to one order more than the state has. -/
theorem c142_stored_shape (Nang Nspace M : ℕ) (thermal : Bool) :
    (storedShape Nang Nspace M thermal).prod = (if thermal then Nang + 1 else Nang) * Nspace * (M + 1 + 1) := by
  cases thermal <;> simp [storedShape, shaper, mul_assoc]

end Verif.Props
