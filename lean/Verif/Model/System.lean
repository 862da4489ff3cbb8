import Verif.Model.Mesh
import Verif.Model.Uncollided
import Verif.Model.Opacity
import Verif.Model.SphereTables
import Verif.Model.Build

/-!
Model: the objects that `solve` builds (main_functions.py 101-170) and the whole right-hand side
`rhs_class_1.call` (rhs_class_1.py 175-366) acting on them, in sphere geometry.

Other files model one class at a time and take what the others provide as an argument.  Here the
objects are put together: `call` moves the mesh, refreshes the opacity moments, and for every cell
rebuilds the matrices, the scalar flux term, the source and the numerical flux, each in the object
that the next cell, the next direction and the next call use again.

Simplifications: `np.linalg.inv` is a parameter `inv` of the problem, acting on the stored mass
matrix.  The transfer class is handed over but never used (rhs_class_1.py 213-215 is commented
out).  `reshape` of the state vector is modelled in `Model/Layout`; here the state is indexed by
direction, cell and coefficient.  `print` is left out.  With material coupling the reshape fails
(C102); the model is the case without.
-/

namespace Verif.Model

/-- Arguments of `solve` (main_functions.py 101-107) with the rules computed at 118-137, the tables
read at 132-133. -/
structure Problem where
  /-- arguments handed to `mesh_class` (main_functions.py 154-156), the same as in
  build_problem.py 173-175 -/
  mesh : MeshConfig
  Nang : ℕ
  M : ℕ
  /-- directions and raw weights, main_functions.py 115 -/
  mus : ℕ → ℝ
  rawWs : ℕ → ℝ
  /-- `xs_quad`, `ws_quad`, main_functions.py 120-123 -/
  quad : List (ℝ × ℝ)
  /-- `t_quad`, `t_ws`, main_functions.py 126 -/
  tQuad : List (ℝ × ℝ)
  sigmaT : ℝ
  sigmaS : ℝ
  /-- width of Gaussian sources -/
  sigma : ℝ
  strength : ℝ
  eInit : ℝ
  l : ℝ
  uncollided : Bool
  boundarySource : Bool
  boundaryOnLeft : Bool
  boundaryOnRight : Bool
  boundaryStrength : ℝ
  sigmaFunc : SigmaFunc
  Msigma : ℕ
  tables : SphereTables
  /-- `np.linalg.inv` -/
  inv : (ℕ → ℕ → ℝ) → ℕ → ℕ → ℝ
  expi : ℝ → ℝ
  erf : ℝ → ℝ

namespace Problem

variable (P : Problem)

/-- build_problem.py 103: `self.ws = ws/np.sum(ws)`. -/
noncomputable def ws (l : ℕ) : ℝ := P.rawWs l / ∑ i ∈ Finset.range P.Nang, P.rawWs i

/-- Set-up data read by `make_IC` (build_problem.py 88-150), for the initial edges. -/
def buildConfig (edges : ℕ → ℝ) : BuildConfig where
  Nspace := P.mesh.N
  M := P.M
  moving := P.mesh.moving
  eInit := P.eInit
  cosines := P.mus
  quad := P.quad
  edges := edges
  ic := {
    sourceType := P.mesh.sourceType
    uncollided := P.uncollided
    geometry := P.mesh.geometry
    x0 := P.mesh.x0
    strength := P.strength
    sigma := P.sigma
    x1 := 0 }

/-- `initialize.x0` after `make_IC` (build_problem.py 179-186): the value that the objects built
from `initialize` read. -/
noncomputable def builtX0 : ℝ :=
  match meshInit P.mesh with
  | some m => (P.buildConfig m.edges).adjustedX0
  | none => P.mesh.x0

/-- `LU_surf(initialize)`, main_functions.py 160, numerical_flux.py 63-90.  `thermal_couple == 1`
compares a dictionary with an integer. -/
def fluxConfig : FluxConfig where
  M := P.M
  Nspace := P.mesh.N
  mms := decide (P.mesh.st 4 = 1)
  thermalIsOne := false
  moving := P.mesh.moving
  eInit := P.eInit
  boundarySource := P.boundarySource
  boundaryOnLeft := P.boundaryOnLeft
  boundaryOnRight := P.boundaryOnRight
  boundaryStrength := P.boundaryStrength
  uncollided := P.uncollided
  t0 := P.mesh.t0
  geometry := P.mesh.geometry
  quad := P.quad

/-- `source_class(initialize)`, main_functions.py 161, sources.py 62-77. -/
noncomputable def sourceConfig : SourceConfig where
  sourceType := P.mesh.sourceType
  uncollided := P.uncollided
  geometry := P.mesh.geometry
  M := P.M
  x0 := P.builtX0
  t0 := P.mesh.t0
  moving := P.mesh.moving
  sigma := P.sigma
  sigmaS := P.sigmaS
  strength := P.strength
  quad := P.quad

/-- `uncollided_solution(initialize)`, main_functions.py 162, uncollided_solutions.py 64-84. -/
noncomputable def uncollidedConfig : UncollidedConfig where
  sourceType := P.mesh.sourceType
  uncollided := P.uncollided
  geometry := P.mesh.geometry
  x0 := P.builtX0
  t0 := P.mesh.t0
  tQuad := P.tQuad
  angles := (List.range P.Nang).map fun l => (P.mus l, P.ws l)
  nAng := P.Nang
  sigma := P.sigma
  strength := P.strength
  v0 := P.mesh.vnaught
  expi := P.expi
  erf := P.erf

/-- `sigma_integrator(initialize)`, main_functions.py 166, opacity.py 47-68. -/
def opacityConfig : OpacityConfig where
  sigmaT := P.sigmaT
  sigmaS := P.sigmaS
  func := P.sigmaFunc
  M := P.M
  Msigma := P.Msigma
  quad := P.quad
  Nspace := P.mesh.N
  sigmaV := P.mesh.vnaught

/-- `rhs_class(initialize)`, main_functions.py 164, rhs_class_1.py 105-135: `self.c = sigma_s`. -/
noncomputable def params : RhsParams where
  Nang := P.Nang
  mus := P.mus
  ws := P.ws
  c := P.sigmaS
  ca := (P.sigmaT - P.sigmaS) / P.sigmaT
  l := P.l

end Problem

/-- The mutable parts of the objects that the right-hand side shares between calls
(main_functions.py 154-170). -/
structure Objects where
  mesh : MeshState
  matrices : SphereObject
  flux : FluxState
  /-- `source.S` -/
  S : ℕ → ℝ
  /-- `uncollided_sol.uncollided_solution_return` -/
  unc : List ℝ
  /-- `flux.scalar_flux_term` -/
  scalar : ℕ → ℝ
  opacity : OpacityState
  /-- `rhs.told`, `rhs.delta_tavg`, `rhs.counter` -/
  told : ℝ
  deltaTavg : ℝ
  counter : ℕ

/-- numerical_flux.py 66, 73-78: zeros. -/
def fluxInit : FluxState := ⟨0, 0, 0, 0, 0, 0, 0, 0, 0, fun _ => 0⟩

namespace Problem

variable (P : Problem)

/-- main_functions.py 154-168: the objects before the first call. -/
noncomputable def objects : Option Objects :=
  (meshInit P.mesh).map fun m => {
    mesh := m
    matrices := SphereObject.init P.M
    flux := fluxInit
    S := sourceInit
    unc := [0]
    scalar := fun _ => 0
    opacity := opacityInit
    told := 0
    deltaTavg := 0
    counter := 0 }

/-- rhs_class_1.py 138-153 `time_step_counter` (`division` is 1000). -/
noncomputable def timeStepCounter (o : Objects) (t : ℝ) : Objects :=
  if o.counter = 1000 then { o with deltaTavg := 0, counter := 0, told := t }
  else { o with
    deltaTavg := o.deltaTavg + |o.told - t| / 1000, counter := o.counter + 1, told := t }

/-- The mesh attributes that other objects read. -/
def view (o : Objects) : MeshView := ⟨o.mesh.edges, o.mesh.Dedges⟩

/-- rhs_class_1.py 210-211: `source.make_source(t, xL, xR, uncollided_sol)`; the uncollided object
is asked once per coefficient (sources.py 84-86 and 133-137), always at the same points, when the
geometry is the sphere, the treatment is on and the source is a shell. -/
noncomputable def sourceStep (o : Objects) (t xL xR : ℝ) : Option Objects :=
  let xs := P.quad.map fun q => quadPoint xL xR q.1
  let asked := P.uncollided = true ∧ P.mesh.st 1 = 1
  (makeSource P.sourceConfig (fun x t => (uncollidedSolution P.uncollidedConfig o.unc [x] t).getD 0 0)
    (fun _ _ _ => 0) t xL xR o.S).map fun S =>
    { o with S := S, unc := open Classical in
      if asked then uncollidedSolution P.uncollidedConfig o.unc xs t else o.unc }

/-- rhs_class_1.py 206-208: `make_P` if there is scattering, else the term of before. -/
noncomputable def scalarStep (o : Objects) (V : ℕ → ℕ → ℕ → ℝ) (space : ℕ) : Objects :=
  let u : ℕ → ℕ → ℝ := fun l => V l space
  let term : ℕ → ℝ := scalarFluxTerm P.opacityConfig P.mesh.geometry P.Nang P.ws o.opacity.cs u
    space (o.mesh.edges space) (o.mesh.edges (space + 1))
  open Classical in
  if P.sigmaS ≠ 0 then { o with scalar := assignUpTo P.M o.scalar term } else o

/-- rhs_class_1.py 193-211: what is done once per cell. -/
noncomputable def cellStep (o : Objects) (t : ℝ) (V : ℕ → ℕ → ℕ → ℝ) (space : ℕ) :
    Option Objects :=
  (o.matrices.makeAll P.tables (o.mesh.edges space) (o.mesh.edges (space + 1))
    (o.mesh.Dedges space) (o.mesh.Dedges (space + 1))).bind fun s =>
      P.sourceStep (P.scalarStep { o with matrices := s } V space) t (o.mesh.edges space)
        (o.mesh.edges (space + 1))

/-- rhs_class_1.py 225-230: the assertions of one direction in one cell hold. -/
def asserts (space angle : ℕ) : Prop :=
  space = 0 → P.Nang ≤ 2 * angle →
    0 < P.mus angle ∧ |P.mus (P.Nang - angle - 1) - -P.mus angle| ≤ 1 / 10 ^ 10

/-- rhs_class_1.py 306-338: `RHS` of one direction in one cell, from the objects' attributes. -/
noncomputable def row (o : Objects) (V : ℕ → ℕ → ℕ → ℝ) (space angle i : ℕ) : ℝ :=
  matVec P.M (P.inv o.matrices.Mass) (fun i =>
    0 - o.flux.LU i
      + P.mus angle * matVec P.M o.matrices.L (V angle space) i
      - matVec P.M o.matrices.J (dterm P.params V angle space) i
      + matVec P.M o.matrices.G (V angle space) i
      + 1 / 2 * o.S i * P.sigmaS
      - matVec P.M o.matrices.MPRIME (V angle space) i) i
    + o.scalar i * P.sigmaS - V angle space i

open Classical in
/-- rhs_class_1.py 221-364: one direction in one cell.  `R` is `V_new`. -/
noncomputable def angleStep (o : Objects) (R : ℕ → ℕ → ℕ → ℝ) (t : ℝ) (V : ℕ → ℕ → ℕ → ℝ)
    (space angle : ℕ) : Option (Objects × (ℕ → ℕ → ℕ → ℝ)) :=
  if P.asserts space angle then
    let o := { o with
      flux := makeLU P.fluxConfig t (view o) (V angle) space (P.mus angle)
        (V (reflIndex P.Nang angle space) 0) o.flux
      opacity := makeVectors P.opacityConfig o.mesh.edges (V angle space) space o.opacity }
    some (o, fun a k i =>
      if a = angle ∧ k = space ∧ i ≤ P.M then P.row o V space angle i else R a k i)
  else none

/-- rhs_class_1.py 221: `for angle in range(N_ang)`, the first `n` turns. -/
noncomputable def angleLoop (t : ℝ) (V : ℕ → ℕ → ℕ → ℝ) (space : ℕ) :
    ℕ → Objects × (ℕ → ℕ → ℕ → ℝ) → Option (Objects × (ℕ → ℕ → ℕ → ℝ))
  | 0, x => some x
  | n + 1, x => (angleLoop t V space n x).bind fun y => P.angleStep y.1 y.2 t V space n

/-- rhs_class_1.py 189: `for space in range(N_space)`, the first `n` turns. -/
noncomputable def cellLoop (t : ℝ) (V : ℕ → ℕ → ℕ → ℝ) :
    ℕ → Objects × (ℕ → ℕ → ℕ → ℝ) → Option (Objects × (ℕ → ℕ → ℕ → ℝ))
  | 0, x => some x
  | n + 1, x => (cellLoop t V n x).bind fun y => (P.cellStep y.1 t V n).bind fun o =>
      P.angleLoop t V n P.Nang (o, y.2)

/-- rhs_class_1.py 177, 183-186: counter, mesh, opacity moments.  A `sigma_func` without branch
returns nothing and the moments fail. -/
noncomputable def prepare (o : Objects) (t : ℝ) : Option Objects :=
  if P.sigmaFunc = .other then none
  else (meshMove P.mesh o.mesh t).map fun m =>
    { timeStepCounter o t with
      mesh := m, opacity := sigmaMoments P.opacityConfig m.edges t o.opacity }

/-- rhs_class_1.py 175-366 `call` in sphere geometry: the objects afterwards and the returned
array. -/
noncomputable def call (o : Objects) (t : ℝ) (V : ℕ → ℕ → ℕ → ℝ) :
    Option (Objects × (ℕ → ℕ → ℕ → ℝ)) :=
  (P.prepare o t).bind fun o => P.cellLoop t V P.mesh.N (o, V)

/-- The objects after a sequence of calls, as `solve_ivp` makes them. -/
noncomputable def runCalls (o : Objects) : List (ℝ × (ℕ → ℕ → ℕ → ℝ)) → Option Objects
  | [] => some o
  | x :: xs => (P.call o x.1 x.2).bind fun y => runCalls y.1 xs

/-- build_problem.py 172-218 `make_IC`: the initial state. -/
noncomputable def initial (ang space j : ℕ) : Option ℝ :=
  (meshInit P.mesh).bind fun m => (P.buildConfig m.edges).initial ang space j

end Problem

end Verif.Model
