import Verif.Model.Mesh
import Verif.Model.Driver

/-!
Model: `solver_classes/mesh_old.py`, the mesh before `mesh.py`; `derivative_saver` of the right-hand side
(`rhs_class_1.py`), which nothing calls; `coeff_con` of the plots.

Simplifications: the time is not negative.  A mesh that has not `N_space + 1` edges is `none`: it does not fit its
velocities or the cells.  Attributes without value are zero.
-/

namespace Verif.Model

/-- Arguments of `mesh_class.__init__`, mesh_old.py 39-52. -/
structure OldMeshConfig where
  N : ℕ
  x0 : ℝ
  tfinal : ℝ
  moving : Bool
  moveType : ℕ → ℤ
  sourceType : ℕ → ℤ
  /-- `edge_v` -/
  speed : ℝ

structure OldMesh where
  edges : ℕ → ℝ
  edges0 : ℕ → ℝ
  Dedges : ℕ → ℝ
  Dconst : ℕ → ℝ

/-- mesh_old.py 65-73, the edges of `square_source_init_func` -/
noncomputable def oldSquareEdges (c : OldMeshConfig) : Arr :=
  ((linspace (-c.x0 - 1 / 10 ^ 11) (-c.x0) (c.N / 2 / 2 + 1)).dropLast.append
    (linspace (-c.x0) c.x0 (c.N / 2 + 1)).dropLast).append (linspace c.x0 (c.x0 + 1 / 10 ^ 11) (c.N / 2 / 2 + 1))

/-- mesh_old.py 75-79, its velocities -/
noncomputable def oldSquareD (c : OldMeshConfig) (k : ℕ) : ℝ :=
  let e := oldSquareEdges c
  let last := e.get (e.size - 1)
  (if k < c.N / 2 / 2 then (e.get k + c.x0) / (last - c.x0)
    else if c.N / 2 + c.N / 2 / 2 + 1 ≤ k then (e.get k - c.x0) / (last - c.x0)
    else 0) * c.speed

/-- mesh_old.py 194-200: four cells that stand still, square source, thick -/
noncomputable def oldThick4 (c : OldMeshConfig) : Arr :=
  let left := -8 * √c.tfinal * c.speed - c.x0
  ((linspace left (-c.x0) (c.N / 2 / 2 + 1)).dropLast.append (linspace (-c.x0) c.x0 (c.N / 2 + 1))).append
    (linspace c.x0 (-1 * left) (c.N / 2 / 2 + 1)).tail

/-- mesh_old.py 202-211: more than four cells -/
noncomputable def oldThickMore (c : OldMeshConfig) : Arr :=
  let left := -8 * √c.tfinal * c.speed - c.x0
  let w := √c.tfinal * c.speed
  (((((linspace left (-c.x0) (c.N / 2 / 2 + 1)).dropLast.append
    (linspace (-c.x0) (-c.x0 + 8 * w) ((c.N / 2 - 2) / 2 + 1)).dropLast).append
    (linspace (-c.x0 + 8 * w) (c.x0 - 6 * w) 3).dropLast).append
    (linspace (c.x0 - 8 * w) c.x0 ((c.N / 2 - 2) / 2 + 1))).append
    (linspace c.x0 (-1 * left) (c.N / 2 / 2 + 1)).tail)

/-- mesh_old.py 170-212 `initialize_mesh` -/
noncomputable def oldInit (c : OldMeshConfig) : Option OldMesh :=
  let zero : ℕ → ℝ := fun _ => 0
  let still (a : Arr) : Option OldMesh := if a.size = c.N + 1 then some ⟨a.get, zero, zero, zero⟩ else none
  if c.moving = true then
    if c.moveType 0 = 1 ∨ c.moveType 2 = 1 ∨ c.N + 1 = 3 then
      let e := linspace (-c.x0) c.x0 (c.N + 1)
      let d : ℕ → ℝ := fun k => e.get k / e.get c.N * c.speed
      some ⟨e.get, e.get, d, d⟩
    else if c.moveType 1 = 1 then
      if (oldSquareEdges c).size = c.N + 1 then
        some ⟨(oldSquareEdges c).get, (oldSquareEdges c).get, oldSquareD c, oldSquareD c⟩
      else none
    else some ⟨zero, zero, zero, zero⟩
  else
    if c.moveType 4 ≠ 1 then
      still (linspace ((-c.tfinal - c.x0) * c.speed) ((c.tfinal + c.x0) * c.speed) (c.N + 1))
    else if c.sourceType 5 = 1 then
      still (linspace (-4 * √c.tfinal * c.speed - c.x0) (4 * √c.tfinal * c.speed + c.x0) (c.N + 1))
    else if c.sourceType 2 = 1 ∨ c.sourceType 1 = 1 then
      if c.N = 4 then still (oldThick4 c)
      else if 4 < c.N then still (oldThickMore c)
      else some ⟨zero, zero, zero, zero⟩
    else some ⟨zero, zero, zero, zero⟩

/-- mesh_old.py 129-141 `move` -/
noncomputable def oldMove (c : OldMeshConfig) (m : OldMesh) (t : ℝ) : OldMesh :=
  if c.moving = true then
    if c.moveType 4 ≠ 1 then { m with edges := fun k => m.edges0 k + m.Dedges k * t }
    else
      let r := open Classical in if 1 / 10 ^ 10 < t then √t else √(1 / 10 ^ 10)
      { m with
        Dedges := fun k => m.Dconst k * 8 * 0.5 / r
        edges := fun k => m.edges0 k + m.Dconst k * 8 * r }
  else m

/-! ### Heat fronts of the right-hand side -/

/-- rhs_class_1.py 163-166, `n + 1` stored energies `e` at `xs`; the first one is the zero of line 131. -/
noncomputable def saverDeriv (n : ℕ) (xs e : ℕ → ℝ) (ix : ℕ) : ℝ :=
  if 1 ≤ ix ∧ ix < n then (e (ix + 1) - e ix) / (xs (ix + 1) - xs ix) else 0

/-- rhs_class_1.py 168 `max_deriv` -/
noncomputable def saverMax (n : ℕ) (xs e : ℕ → ℝ) : ℝ :=
  |saverDeriv n xs e (firstMin (fun i => -|saverDeriv n xs e i|) n)|

/-- rhs_class_1.py 169-171: the position that is stored -/
noncomputable def saverFront (n : ℕ) (xs e : ℕ → ℝ) : ℝ :=
  |xs (firstMin (fun i => |(|e i|) - saverMax n xs e|) n)|

/-! ### Coefficients for plots -/

/-- coeff_con.py 14-22 `coeff_con` for coefficients of all directions, entry `j` -/
noncomputable def coeffCon (Nang : ℕ) (ws : ℕ → ℝ) (sol : ℕ → ℕ → ℕ → ℝ) (k j : ℕ) : ℝ :=
  (∑ l ∈ Finset.range Nang, ws l * sol l k j) / ∑ l ∈ Finset.range Nang, ws l

end Verif.Model
