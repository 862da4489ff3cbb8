import Verif.Model.UnusedMesh

/-!
Model: `thick_square_moving_func` of `solver_classes/mesh_functions.py` (27-86), a mesh that follows both heat fronts,
marked as not to be used any more.

Simplifications: the table of times is in order, `N_space` is at least four.  `none` is an index outside the table or a
failed assignment to a slice of another length.
-/

namespace Verif.Model

/-- `wave_loc_array[0]` with the positions of both fronts: rows 0, 1 and 2 -/
structure FrontTable extends WaveTable where
  left : ℕ → ℝ

/-- The attributes of the mesh that the function changes. -/
structure FrontState where
  edges : ℕ → ℝ
  edges0 : ℕ → ℝ
  Dedges : ℕ → ℝ
  told : ℝ
  deltaT : ℝ
  rightSpeed : ℝ
  leftSpeed : ℝ

/-- The attributes that it only reads; nothing in it changes `index_old`. -/
structure FrontConfig where
  N : ℕ
  tfinal : ℝ
  tactual : ℝ
  speed : ℝ
  Dconst : ℕ → ℝ
  indexOld : ℕ

/-- mesh_functions.py 43-48 -/
noncomputable def frontPad (t : ℝ) : ℝ := open Classical in if t = 1 then 0.5 else if t = 100 then 2 else 0

/-- mesh_functions.py 53-59 and 75-82: the velocities.  The second halves are the first ones reversed with the other
sign; edges between the slices keep their velocity. -/
noncomputable def frontD (c : FrontConfig) (right left : ℝ) (D : ℕ → ℝ) (k : ℕ) : ℝ :=
  let half := c.N / 2
  let q := half / 2
  let front (i : ℕ) : ℝ := c.Dconst i * right / c.speed * (-1)
  let back (i : ℕ) : ℝ := c.Dconst (q + 1 + i) * left / c.speed
  if k < q then front k
  else if q + 1 ≤ k ∧ k < half then back (k - (q + 1))
  else if half + 1 ≤ k ∧ k < half + q then -back (half - (q + 1) - 1 - (k - (half + 1)))
  else if half + q + 1 ≤ k then -front (q - 1 - (k - (half + q + 1)))
  else D k

/-- The lengths of the slices of lines 58-59 and 81-82 fit; numpy spreads arrays with one entry. -/
def FrontConfig.fits (c : FrontConfig) : Prop :=
  (c.N / 2 - (c.N / 2 / 2 + 1) = c.N / 2 / 2 - 1 ∨ c.N / 2 - (c.N / 2 / 2 + 1) = 1) ∧
    (c.N + 1 - (c.N / 2 + c.N / 2 / 2 + 1) = c.N / 2 / 2 ∨ c.N / 2 / 2 = 1)

open Classical in
/-- mesh_functions.py 27-86 `thick_square_moving_func` -/
noncomputable def frontMove (c : FrontConfig) (w : FrontTable) (s : FrontState) (t : ℝ) : Option FrontState :=
  let i := w.index t
  let half := c.N / 2
  if ¬ c.fits then none
  else if c.tactual = 0 then
    if w.n ≤ i then none
    else
      let right := (-w.right i - frontPad t - s.edges 0) / c.tfinal
      let left := (-w.left i - s.edges (half - 1)) / c.tfinal
      let D := frontD c right left s.Dedges
      some { s with
        deltaT := c.tfinal, rightSpeed := right, leftSpeed := left, Dedges := D
        edges := fun k => s.edges0 k + D k * c.tfinal }
  else if (i ≠ c.indexOld ∨ i = 0) ∧ w.n ≤ i + 1 then none
  else
    let again : Prop := i ≠ c.indexOld ∨ i = 0
    let dt := if again then w.times (i + 1) - w.times i else s.deltaT
    let right := if again then (w.right (i + 1) - w.right i) / dt * (-1) else s.rightSpeed
    let left := if again then (w.left (i + 1) - w.left i) / dt * (-1) else s.leftSpeed
    let D := frontD c right left s.Dedges
    let e : ℕ → ℝ := fun k => s.edges0 k + D k * (t - s.told)
    some { edges := e, edges0 := e, Dedges := D, told := t, deltaT := dt, rightSpeed := right, leftSpeed := left }

end Verif.Model
