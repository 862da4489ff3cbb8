import Verif.Model.Mesh
import Mathlib.Tactic.FieldSimp
import Mathlib.Tactic.Linarith
import Mathlib.Tactic.Ring
import Mathlib.Tactic.Positivity

/-!
Lemmas about `linspace`, the initial meshes and single moves.
-/

namespace Verif.Lemmas

open Verif.Model

theorem linspace_get (a b : ℝ) (N i : ℕ) :
    (linspace a b (N + 1)).get i = a + (i : ℝ) * ((b - a) / N) := by
  simp [linspace]

theorem linspace_zero (a b : ℝ) (n : ℕ) : (linspace a b n).get 0 = a := by
  simp [linspace]

theorem linspace_last (a b : ℝ) {N : ℕ} (hN : 1 ≤ N) : (linspace a b (N + 1)).get N = b := by
  have : (N : ℝ) ≠ 0 := by positivity
  rw [linspace_get]
  field_simp
  ring

theorem linspace_strict {a b : ℝ} (h : a < b) {N : ℕ} (hN : 1 ≤ N) {i j : ℕ} (hij : i < j) :
    (linspace a b (N + 1)).get i < (linspace a b (N + 1)).get j := by
  have hN' : (0 : ℝ) < N := by positivity
  rw [linspace_get, linspace_get]
  have h1 : 0 < (b - a) / N := div_pos (by linarith) hN'
  have h2 : (i : ℝ) < j := by exact_mod_cast hij
  nlinarith

theorem linspace_symm (a : ℝ) {N : ℕ} (hN : 1 ≤ N) {k : ℕ} (hk : k ≤ N) :
    (linspace (-a) a (N + 1)).get (N - k) = -(linspace (-a) a (N + 1)).get k := by
  have : (N : ℝ) ≠ 0 := by positivity
  rw [linspace_get, linspace_get, Nat.cast_sub hk]
  field_simp
  ring

/-! ### Joined arrays -/

theorem append_left {x y : Arr} {i : ℕ} (h : i < x.size) : (x.append y).get i = x.get i := by
  simp [Arr.append, h]

theorem append_right {x y : Arr} {i : ℕ} (h : x.size ≤ i) :
    (x.append y).get i = y.get (i - x.size) := by
  simp [Arr.append, not_lt.mpr h]

/-- Joining three increasing arrays with increasing junctions. -/
theorem append_strict {x y : Arr} (hx : ∀ i j, i < j → j < x.size → x.get i < x.get j)
    (hy : ∀ i j, i < j → j < y.size → y.get i < y.get j)
    (hxy : ∀ i j, i < x.size → j < y.size → x.get i < y.get j) {i j : ℕ} (hij : i < j)
    (hj : j < (x.append y).size) : (x.append y).get i < (x.append y).get j := by
  have hj' : j < x.size + y.size := hj
  rcases lt_or_ge j x.size with h | h
  · rw [append_left h, append_left (hij.trans h)]
    exact hx i j hij h
  · rw [append_right h]
    rcases lt_or_ge i x.size with h' | h'
    · rw [append_left h']
      exact hxy i _ h' (by omega)
    · rw [append_right h']
      exact hy _ _ (by omega) (by omega)

/-! ### Moves keep the reference data -/

theorem move_static {c : MeshConfig} {s : MeshState} (h : s.moving = false) (t : ℝ) :
    meshMove c s t = some s := by
  simp [meshMove, h]

theorem run_static {c : MeshConfig} {s : MeshState} (h : s.moving = false) (ts : List ℝ) :
    meshRun c s ts = some s := by
  induction ts with
  | nil => rfl
  | cons t ts ih => simp [meshRun, move_static h, ih]

/-- A move keeps `moving`, `edges0` and `Dedges_const`. -/
theorem move_keeps {c : MeshConfig} {s s' : MeshState} {t : ℝ} (h : meshMove c s t = some s') :
    s'.moving = s.moving ∧ s'.edges0 = s.edges0 ∧ s'.DedgesConst = s.DedgesConst := by
  unfold meshMove at h
  split_ifs at h
  all_goals try (injection h with h; subst h; exact ⟨rfl, rfl, rfl⟩)
  · unfold accelMove at h
    split_ifs at h
    · unfold moveMiddleEdges at h
      split_ifs at h
      · injection h with h; subst h; exact ⟨rfl, rfl, rfl⟩
      · simp only [Option.map_eq_some_iff] at h
        obtain ⟨a, -, rfl⟩ := h
        exact ⟨rfl, rfl, rfl⟩
    · injection h with h; subst h; exact ⟨rfl, rfl, rfl⟩

theorem run_keeps {c : MeshConfig} {s s' : MeshState} {ts : List ℝ}
    (h : meshRun c s ts = some s') :
    s'.moving = s.moving ∧ s'.edges0 = s.edges0 ∧ s'.DedgesConst = s.DedgesConst := by
  induction ts generalizing s with
  | nil => injection h with h; subst h; exact ⟨rfl, rfl, rfl⟩
  | cons t ts ih =>
    simp only [meshRun, Option.bind_eq_some_iff] at h
    obtain ⟨s1, h1, h2⟩ := h
    have k1 := move_keeps h1
    have k2 := ih h2
    exact ⟨k2.1.trans k1.1, k2.2.1.trans k1.2.1, k2.2.2.trans k1.2.2⟩

theorem meshRun_append {c : MeshConfig} {s : MeshState} {ts us : List ℝ} :
    meshRun c s (ts ++ us) = (meshRun c s ts).bind fun s' => meshRun c s' us := by
  induction ts generalizing s with
  | nil => rfl
  | cons t ts ih =>
    simp only [List.cons_append, meshRun, Option.bind_assoc]
    congr 1
    funext s'
    exact ih

theorem not_allZero {c : MeshConfig} {i : ℕ} (h : c.st i ≠ 0) : ¬ c.allZero := by
  intro hz
  apply h
  unfold MeshConfig.st
  rcases lt_or_ge i c.sourceType.length with hi | hi
  · simpa [List.getD, List.getElem?_eq_getElem hi] using hz _ (List.getElem_mem hi)
  · simp [List.getD, List.getElem?_eq_none hi]

theorem st_of_allZero {c : MeshConfig} (h : c.allZero) (i : ℕ) : c.st i = 0 := by
  by_contra hi
  exact not_allZero hi h

theorem init_moving {c : MeshConfig} (h : c.moving = true) :
    meshInit c = (chooseInit c).map fun s => { s with DedgesConst := s.Dedges } := by
  unfold meshInit
  cases chooseInit c <;> simp [finishInit, h]

theorem speed_of_not_allZero {c : MeshConfig} (h : ¬ c.allZero) : c.speed = c.edgeV := by
  simp [MeshConfig.speed, h]

end Verif.Lemmas
