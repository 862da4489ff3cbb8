import Verif.Model.Flux

/-!
Model: class `mesh_class` in `solver_classes/mesh.py`.

Arrays that are built by joining pieces carry their size (`Arr`).  The arrays stored in the object
are functions of the index, meaningful for indices up to `N_space`; a constructor that produces an
edge array of another size is modelled as failing (the code then mixes arrays of different sizes or
reads outside of them).  `print` statements are left out.  `thick_square_init_func` (677),
`simple_thick_square_init_func_2` (620), `recalculate_wavespeed` (343) and
`smooth_wave_loc_array` (269) are never called; they are in `Model/UnusedMesh`.
-/

namespace Verif.Model

/-- A numpy array: size and entries. -/
structure Arr where
  size : ℕ
  get : ℕ → ℝ

/-- `np.linspace(a, b, n)`. -/
noncomputable def linspace (a b : ℝ) (n : ℕ) : Arr where
  size := n
  get := fun i => a + (i : ℝ) * ((b - a) / ((n : ℝ) - 1))

/-- `x[:-1]` -/
def Arr.dropLast (x : Arr) : Arr := ⟨x.size - 1, x.get⟩

/-- `x[1:]` -/
def Arr.tail (x : Arr) : Arr := ⟨x.size - 1, fun i => x.get (i + 1)⟩

/-- `np.concatenate((x, y))` -/
def Arr.append (x y : Arr) : Arr where
  size := x.size + y.size
  get := fun i => if i < x.size then x.get i else y.get (i - x.size)

/-- Elementwise function. -/
def Arr.map (f : ℝ → ℝ) (x : Arr) : Arr := ⟨x.size, fun i => f (x.get i)⟩

/-- Arguments of `mesh_class.__init__`, mesh.py 77-150. -/
structure MeshConfig where
  /-- `N_space` -/
  N : ℕ
  x0 : ℝ
  tfinal : ℝ
  moving : Bool
  /-- position of the first true entry of `move_type`, mesh.py 104-112 -/
  moveFunc : ℕ
  sourceType : List ℤ
  edgeV : ℝ
  thick : Bool
  moveFactor : ℝ
  pad : ℝ
  leaderPad : ℝ
  thickQuad : Arr
  thickQuadEdge : Arr
  finiteDomain : Bool
  domainWidth : ℝ
  /-- `fake_sedov_v`, stored as `vnaught` (146) -/
  vnaught : ℝ
  t0 : ℝ
  geometry : Geometry
  /-- `_interp1d` of `wave_loc_array[0,3,:]` at a time, mesh.py 306 -/
  waveAt : ℝ → ℝ
  /-- `wave_loc_array[0,3,-1]` -/
  waveLastT : ℝ
  /-- `wave_loc_array[0,2,-1]` -/
  waveLastR : ℝ

namespace MeshConfig

/-- `source_type[i]` -/
def st (c : MeshConfig) (i : ℕ) : ℤ := c.sourceType.getD i 0

/-- `np.all(self.source_type == 0)` -/
def allZero (c : MeshConfig) : Prop := ∀ x ∈ c.sourceType, x = 0

open Classical in
/-- `self.speed`, mesh.py 94 and 148-149. -/
noncomputable def speed (c : MeshConfig) : ℝ :=
  if c.vnaught ≠ 0 ∧ c.allZero then c.vnaught else c.edgeV

end MeshConfig

/-- Attributes that change. -/
structure MeshState where
  moving : Bool
  edges : ℕ → ℝ
  edges0 : ℕ → ℝ
  Dedges : ℕ → ℝ
  DedgesConst : ℕ → ℝ
  /-- `edges0_2` and `c1s`; no value until `move_middle_edges` has set them -/
  accel : Option ((ℕ → ℝ) × (ℕ → ℝ))

open MeshConfig

/-! ### Moving -/

/-- mesh.py 188 and 203: the last edge has reached the end of the finite domain. -/
def reachedEnd (c : MeshConfig) (s : MeshState) : Prop :=
  c.finiteDomain = true ∧
    (c.domainWidth / 2 ≤ s.edges c.N ∨ |s.edges c.N - c.domainWidth / 2| ≤ 1 / 10 ^ 2)

/-- `edges0_2` of mesh.py 278. -/
noncomputable def edges02 (c : MeshConfig) (s : MeshState) (k : ℕ) : ℝ :=
  s.edges0 k + s.DedgesConst k * c.t0

/-- `c1s` of mesh.py 298, with `final_array` of 282. -/
noncomputable def c1sOf (c : MeshConfig) (s : MeshState) (k : ℕ) : ℝ :=
  2 * (s.DedgesConst k * c.t0 - c.tfinal * s.DedgesConst k - edges02 c s k
    + (linspace (-c.pad) c.pad (c.N + 1)).get k) / (c.t0 - c.tfinal) ^ 2

open Classical in
/-- mesh.py 274-298 `move_middle_edges`. -/
noncomputable def moveMiddleEdges (c : MeshConfig) (s : MeshState) : MeshState :=
  if s.Dedges (c.N / 2 / 2) = 0 then { s with accel := some (edges02 c s, c1sOf c s) } else s

open Classical in
/-- mesh.py 304-331 `thick_wave_loc_and_deriv_finder`; `N_space` a multiple of four. -/
noncomputable def thickFinder (c : MeshConfig) (s : MeshState) (t : ℝ) : ℕ → ℝ :=
  let w := c.waveAt t
  let side := c.N / 4
  let mid := c.N / 2
  if t = 0 ∨ w < c.x0 then s.edges0
  else
    let e4 := max (w - c.pad) (s.edges0 (c.N - 3))
    let right : ℕ → ℝ := fun k =>
      if k = c.N then max (w + c.leaderPad) (s.edges0 c.N)
      else if k + 1 = c.N then max (w + c.pad) (s.edges0 (c.N - 1))
      else if k + 2 = c.N then max w (s.edges0 (c.N - 2))
      else if k + 3 = c.N then e4
      else if side + mid ≤ k then (linspace c.x0 e4 (side - 2)).get (k - (side + mid))
      else s.edges k
    fun k => if k < side then -right (c.N - k) else right k

/-- mesh.py 333-338 `thick_square_moving_func_2`. -/
noncomputable def thickSquareMove (c : MeshConfig) (s : MeshState) (t : ℝ) : MeshState :=
  let e := thickFinder c s t
  let e' := thickFinder c { s with edges := e } (t + 1 / 10 ^ 7)
  { s with edges := e, Dedges := fun k => (e' k - e k) / (1 / 10 ^ 7) }

open Classical in
/-- mesh.py 464-475 `square_source_static_func_sqrt_t`. -/
noncomputable def sqrtMove (c : MeshConfig) (s : MeshState) (t : ℝ) : MeshState :=
  let r := if 1 / 10 ^ 10 < t then Real.sqrt t else Real.sqrt (1 / 10 ^ 10)
  { s with
    Dedges := fun k => s.DedgesConst k * c.moveFactor * (1 / 2) / r
    edges := fun k => s.edges0 k + s.DedgesConst k * c.moveFactor * r }

open Classical in
/-- mesh.py 210-233: constant velocity until `t0`, then constant acceleration. -/
noncomputable def accelMove (c : MeshConfig) (s : MeshState) (t : ℝ) : Option MeshState :=
  if c.t0 ≤ t then
    let s1 := moveMiddleEdges c s
    s1.accel.map fun a =>
      { s1 with
        edges := fun k => 1 / 2 * a.2 k * (t - c.t0) ^ 2 + s1.DedgesConst k * (t - c.t0) + a.1 k
        Dedges := fun k => a.2 k * (t - c.t0) + s1.DedgesConst k }
  else some { s with edges := fun k => s.edges0 k + s.Dedges k * t }

open Classical in
/-- mesh.py 156-262 `move`. -/
noncomputable def meshMove (c : MeshConfig) (s : MeshState) (t : ℝ) : Option MeshState :=
  if s.moving = true then
    if c.st 0 = 1 ∨ c.st 0 = 2 then
      some { s with edges := fun k => s.edges0 k + s.DedgesConst k * t }
    else if c.st 1 = 1 then
      if c.finiteDomain = true ∧ t = c.tfinal then
        some { s with edges := (linspace (-c.domainWidth / 2) (c.domainWidth / 2) (c.N + 1)).get }
      else if reachedEnd c s then
        some { s with Dedges := fun k => s.DedgesConst k * 0 }
      else
        some { s with
          edges := fun k => s.edges0 k + s.DedgesConst k * t
          Dedges := s.DedgesConst }
    else if (c.st 2 = 1 ∨ c.st 1 = 1) ∧ c.finiteDomain = true then
      if reachedEnd c s then
        some { s with Dedges := fun k => s.DedgesConst k * 0 }
      else if c.moveFunc = 0 then accelMove c s t
      else if c.moveFunc = 1 then some (thickSquareMove c s t)
      else if c.moveFunc = 2 then some (sqrtMove c s t)
      else none
    else if c.allZero then
      some { s with edges := fun k => s.edges0 k + s.Dedges k * t }
    else some s
  else some s

/-- A history of move requests. -/
noncomputable def meshRun (c : MeshConfig) (s : MeshState) : List ℝ → Option MeshState
  | [] => some s
  | t :: ts => (meshMove c s t).bind fun s' => meshRun c s' ts

/-! ### Initial meshes -/

/-- mesh.py 495-504 `simple_moving_init_func`.  In sphere geometry `edges0` is the same array
object as `edges`, so the in-place shift of line 504 changes both; in slab geometry `edges0` keeps
the zeros of line 91. -/
noncomputable def simpleMovingInit (c : MeshConfig) (s : MeshState) : MeshState :=
  let e : ℕ → ℝ := match c.geometry with
    | .slab => (linspace (-c.x0) c.x0 (c.N + 1)).get
    | .sphere => (linspace 0 c.x0 (c.N + 1)).get
  let shift : ℝ := if c.st 0 = 2 then 1 / 100 else 0
  let d : ℕ → ℝ := fun k => e k / e c.N * c.speed
  { s with
    edges := fun k => e k + shift
    edges0 := match c.geometry with
      | .slab => s.edges0
      | .sphere => fun k => e k + shift
    Dedges := d
    DedgesConst := d }

/-- mesh.py 506-512: edges of `shell_source`. -/
noncomputable def shellEdges (c : MeshConfig) : Arr :=
  let nIn := c.N / 2 + 1
  (linspace 0 c.x0 (nIn + 1)).append
    (linspace c.x0 (c.x0 + 1 / 10 ^ 5) (c.N + 1 - nIn)).tail

/-- mesh.py 506-519 `shell_source`. -/
noncomputable def shellInit (c : MeshConfig) (s : MeshState) : Option MeshState :=
  let e := shellEdges c
  if e.size = c.N + 1 then
    let d : ℕ → ℝ := fun k =>
      if c.N / 2 + 1 + 1 ≤ k then (e.get k - c.x0) / (e.get c.N - c.x0) * c.speed else 0
    some { s with edges := e.get, edges0 := e.get, Dedges := d, DedgesConst := d }
  else none

/-- Velocities of the square meshes, mesh.py 571-574, 610-613, 457-460: outer edges
proportionally to the distance from the source, the middle ones at rest; entry `mid + side` is not
assigned and keeps its value `old`. -/
noncomputable def squareVelocity (c : MeshConfig) (old e : ℕ → ℝ) (k : ℕ) : ℝ :=
  let mid := c.N / 2
  let side := mid / 2
  if k < side then (e k + c.x0) / (e c.N - c.x0)
  else if mid + side + 1 ≤ k then (e k - c.x0) / (e c.N - c.x0)
  else if k = mid + side then old k
  else 0

/-- mesh.py 556-569: edges of `thin_square_init_func`, `dx = 1e-12`; also 440-455
`simple_thick_square_init_func` with another outer position. -/
noncomputable def squareEdges (c : MeshConfig) (outer : ℝ) : Arr :=
  let mid := c.N / 2
  let side := mid / 2
  ((linspace (-outer) (-c.x0) (side + 1)).dropLast.append
    (linspace (-c.x0) c.x0 (mid + 1)).dropLast).append (linspace c.x0 outer (side + 1))

/-- mesh.py 556-576 `thin_square_init_func`. -/
noncomputable def thinSquareInit (c : MeshConfig) (s : MeshState) : Option MeshState :=
  if c.N = 2 then none
  else
    let e := squareEdges c (c.x0 + 1 / 10 ^ 12)
    if e.size = c.N + 1 then
      some { s with
        edges := e.get, edges0 := e.get
        Dedges := fun k => squareVelocity c s.Dedges e.get k * c.speed }
    else none

/-- mesh.py 440-461 `simple_thick_square_init_func`. -/
noncomputable def simpleThickSquareInit (c : MeshConfig) (s : MeshState) : Option MeshState :=
  if c.N = 2 then none
  else
    let e := squareEdges c (c.waveLastR + c.pad)
    if e.size = c.N + 1 then
      some { s with
        edges := e.get
        Dedges := fun k => squareVelocity c s.Dedges e.get k * c.speed * 0 }
    else none

/-- mesh.py 588-592: positions right and left of the source, `dx = 1e-2`. -/
noncomputable def legendreRight (c : MeshConfig) (r : ℝ) : ℝ :=
  (r * (c.x0 - c.x0 - 1 / 10 ^ 2) - c.x0 - 1 / 10 ^ 2 - c.x0) / -2

noncomputable def legendreLeft (c : MeshConfig) (l : ℝ) : ℝ :=
  (l * (-c.x0 - 1 / 10 ^ 2 + c.x0) + c.x0 + 1 / 10 ^ 2 + c.x0) / -2

/-- mesh.py 579-609: edges of `thin_square_init_func_legendre`. -/
noncomputable def legendreEdges (c : MeshConfig) : Arr :=
  ((c.thickQuadEdge.map (legendreLeft c)).dropLast.append
    (c.thickQuad.map fun q => c.x0 * q).dropLast).append
    (c.thickQuadEdge.map (legendreRight c))

/-- mesh.py 579-617 `thin_square_init_func_legendre`. -/
noncomputable def legendreInit (c : MeshConfig) (s : MeshState) : Option MeshState :=
  if c.N = 2 then none
  else
    let e := legendreEdges c
    if e.size = c.N + 1 then
      let d : ℕ → ℝ := fun k => squareVelocity c s.Dedges e.get k * c.speed
      some { s with edges := e.get, edges0 := e.get, Dedges := d, DedgesConst := d }
    else none

/-- mesh.py 654-658: edges of `thick_square_moving_init_func`, `dx = 1e-3`. -/
noncomputable def thickSquareEdges (c : MeshConfig) : Arr :=
  let side := c.N / 2 / 2
  ((linspace (-c.x0 - 1 / 10 ^ 3) (-c.x0) (side + 1)).dropLast.append
    (c.thickQuad.map fun q => 1 / 2 * q).dropLast).append
    (linspace c.x0 (c.x0 + 1 / 10 ^ 3) (side + 1))

/-- mesh.py 638-673 `thick_square_moving_init_func`. -/
noncomputable def thickSquareInit (c : MeshConfig) (s : MeshState) : Option MeshState :=
  let e := thickSquareEdges c
  let mid := c.N / 2
  let side := mid / 2
  if e.size = c.N + 1 then
    let left : ℕ → ℝ := fun k =>
      if k < 3 then -1 else -(e.get k + c.x0) / (e.get 3 + c.x0)
    some { s with
      edges := e.get
      Dedges := fun k =>
        (if k < side then left k
         else if mid + side + 1 ≤ k then -left (c.N - k)
         else if k = mid + side then s.Dedges k else 0) * c.speed }
  else none

/-- mesh.py 422-437 `thick_gaussian_static_init_func`. -/
noncomputable def thickGaussianInit (c : MeshConfig) (s : MeshState) : Option MeshState :=
  let build : ℝ → MeshState := fun r =>
    { s with edges := (linspace (-r) r (c.N + 1)).get, Dedges := fun _ => 0 }
  if c.moveFunc = 1 then some (build (c.waveLastT + c.pad))
  else if c.moveFunc = 0 then some (build c.x0)
  else none

/-- mesh.py 767-770: final edges of `boundary_source_init_func`. -/
noncomputable def boundaryFinal (c : MeshConfig) (v0 : ℝ) : Arr :=
  let shock := -c.tfinal * v0
  (linspace (-c.x0) shock (c.N / 2 + 1)).dropLast.append (linspace shock c.x0 (c.N / 2 + 1))

/-- mesh.py 760-773 `boundary_source_init_func`. -/
noncomputable def boundaryInit (c : MeshConfig) (s : MeshState) (v : ℝ) : Option MeshState :=
  let e := linspace (-c.x0) c.x0 (c.N + 1)
  let v0 := if s.moving = false then 0 else v
  let f := boundaryFinal c v0
  if f.size = e.size then
    some { s with
      edges := e.get, edges0 := e.get
      Dedges := fun k => (f.get k - e.get k) / c.tfinal }
  else none

/-- Attributes at the start of `initialize_mesh`, mesh.py 88-92. -/
def meshBlank (c : MeshConfig) : MeshState where
  moving := c.moving
  edges := fun _ => 0
  edges0 := fun _ => 0
  Dedges := fun _ => 0
  DedgesConst := fun _ => 0
  accel := none

open Classical in
/-- mesh.py 804-855: choice of the initial mesh. -/
noncomputable def chooseInit (c : MeshConfig) : Option MeshState :=
  let s0 := meshBlank c
  let s1 := if c.st 0 = 1 ∨ c.st 0 = 2 then simpleMovingInit c s0 else s0
  if c.thick = false then
    if c.st 3 = 1 ∨ c.st 5 = 1 then some (simpleMovingInit c s1)
    else if c.st 1 = 1 ∨ c.st 2 = 1 then
      match c.geometry with
      | .slab => legendreInit c s1
      | .sphere => shellInit c s1
    else if c.allZero then boundaryInit c s1 c.vnaught
    else some s1
  else
    if c.st 3 = 1 ∨ c.st 5 = 1 then
      if c.moving = true then some (simpleMovingInit c s1) else thickGaussianInit c s1
    else if c.st 1 = 1 ∨ c.st 2 = 1 ∨ c.st 0 ≠ 0 then
      let s2 := if c.moveFunc = 0 then simpleMovingInit c s1 else s1
      if c.moving = false then
        if c.moveFunc = 1 then simpleThickSquareInit c s2
        else if c.moveFunc = 2 then
          if c.st 0 ≠ 0 then some (simpleMovingInit c s2) else thinSquareInit c s2
        else some s2
      else
        if c.moveFunc = 1 then thickSquareInit c s2
        else if c.moveFunc = 2 then thinSquareInit c s2
        else some s2
    else some s1

/-- mesh.py 863-874: a static mesh is put where the moving mesh would be at `tfinal`. -/
noncomputable def finishInit (c : MeshConfig) (s : MeshState) : Option MeshState :=
  let s := { s with DedgesConst := s.Dedges }
  if c.moving = false then
    (meshMove c { s with moving := true } c.tfinal).map fun s' =>
      { s' with Dedges := fun k => s'.Dedges k * 0, moving := false }
  else some s

/-- mesh.py 77-153 and 796-878: the object after construction. -/
noncomputable def meshInit (c : MeshConfig) : Option MeshState :=
  (chooseInit c).bind (finishInit c)

end Verif.Model
