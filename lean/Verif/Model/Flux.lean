import Verif.Model.Basis
import Mathlib.Algebra.BigOperators.Group.Finset.Basic
import Mathlib.Analysis.SpecialFunctions.Exp

/-!
Model: upwind numerical flux, class `LU_surf` (`solver_classes/numerical_flux.py`).

Simplifications: geometry is one of slab or sphere (a dictionary with neither key true makes
`B_LR_func` fail on an unbound name; with both true it is rejected when loading).
Accumulation loops `self.v += ...` over `j in range(M+1)` are written as the old value
plus a finite sum.  Arrays are functions of the index; only indices inside the allocated
range are used by the code that is modelled.
-/

namespace Verif.Model

/-- `geometry['slab']` / `geometry['sphere']`, numerical_flux.py 99 and 110. -/
inductive Geometry where
  | slab
  | sphere
  deriving DecidableEq

/-- Attributes of `LU_surf` that never change after `__init__` (numerical_flux.py 63-90). -/
structure FluxConfig where
  /-- numerical_flux.py 67 -/
  M : ℕ
  /-- numerical_flux.py 71 -/
  Nspace : ℕ
  /-- `source_type[4] == 1` (manufactured solution), numerical_flux.py 68, 127, 164 -/
  mms : Bool
  /-- value of the comparison `thermal_couple == 1`, numerical_flux.py 129, 166.  The attribute
  is a dictionary in the current code, so the comparison is false there. -/
  thermalIsOne : Bool
  /-- numerical_flux.py 80 -/
  moving : Bool
  /-- numerical_flux.py 81 -/
  eInit : ℝ
  /-- numerical_flux.py 83 -/
  boundarySource : Bool
  /-- `boundary_on[0] == 1`, numerical_flux.py 84, 172 -/
  boundaryOnLeft : Bool
  /-- `boundary_on[1] == 1`, numerical_flux.py 84, 175 -/
  boundaryOnRight : Bool
  /-- numerical_flux.py 85 -/
  boundaryStrength : ℝ
  /-- numerical_flux.py 86 -/
  uncollided : Bool
  /-- numerical_flux.py 72 -/
  t0 : ℝ
  /-- numerical_flux.py 87 -/
  geometry : Geometry
  /-- pairs of `xs_quad`, `ws_quad`, numerical_flux.py 69-70 -/
  quad : List (ℝ × ℝ)

/-- numerical_flux.py 82: `self.speed = 1.0`. -/
def fluxSpeed : ℝ := 1

/-- Attributes of `LU_surf` that the methods write (numerical_flux.py 66, 73-78, 136-160). -/
structure FluxState where
  h : ℝ
  hp : ℝ
  hm : ℝ
  v0 : ℝ
  v1 : ℝ
  v2 : ℝ
  v3 : ℝ
  xLminus : ℝ
  xRplus : ℝ
  LU : ℕ → ℝ

/-- Mesh attributes read by `make_LU` (numerical_flux.py 208-209). -/
structure MeshView where
  edges : ℕ → ℝ
  Dedges : ℕ → ℝ

/-- numerical_flux.py 98-121 `B_LR_func`; the result is `(B_left, B_right)`. -/
noncomputable def bLR (g : Geometry) (i : ℕ) (h : ℝ) : ℝ × ℝ :=
  match g with
  | .slab =>
    if i = 0 then (1 / h, 1 / h)
    else
      let right := Real.sqrt (2 * (i : ℝ) + 1) / h
      if i % 2 = 0 then (Real.sqrt (2 * (i : ℝ) + 1) / h, right)
      else (-Real.sqrt (2 * (i : ℝ) + 1) / h, right)
  | .sphere =>
    let edgeval := 1 / h / Real.sqrt Real.pi
    if i = 0 then (edgeval, edgeval)
    else
      let right := Real.sqrt 2 * edgeval
      if i % 2 = 0 then (right, right) else (-right, right)

/-- numerical_flux.py 125-134 `BC_func`, one point. -/
noncomputable def bcFunc (c : FluxConfig) (x t : ℝ) : ℝ :=
  if c.mms then Real.exp (-x * x / 2) / (t + 1) / 2
  else if c.thermalIsOne && c.moving then 1 * c.eInit
  else if c.boundarySource then 1 * c.boundaryStrength
  else x * 0

/-- numerical_flux.py 93-96 `integrate_quad`. -/
noncomputable def fluxIntegrateQuad (c : FluxConfig) (t a b : ℝ) (j : ℕ) : ℝ :=
  (b - a) / 2 * (c.quad.map fun q =>
    let arg := (b - a) / 2 * q.1 + (a + b) / 2
    q.2 * bcFunc c arg t * normPn j arg a b).sum

/-- numerical_flux.py 136-153 `make_h`; for the last cell `hp` keeps its old value. -/
noncomputable def makeH (c : FluxConfig) (m : MeshView) (space : ℕ) (s : FluxState) : FluxState :=
  let xR := m.edges (space + 1)
  let xL := m.edges space
  let dx := xR - xL
  let s := { s with h := Real.sqrt (xR - xL) }
  let s := if space + 1 ≠ c.Nspace then
      { s with hp := Real.sqrt (m.edges (space + 2) - m.edges (space + 1)) }
    else { s with hm := Real.sqrt dx }
  if space ≠ 0 then { s with hm := Real.sqrt (m.edges space - m.edges (space - 1)) }
  else { s with hm := Real.sqrt dx }

/-- numerical_flux.py 155-160 `extend_mesh`; `edges[-1]` is the last edge, index `N_space`. -/
noncomputable def extendMesh (c : FluxConfig) (m : MeshView) (space : ℕ) (s : FluxState) :
    FluxState :=
  let dx := m.edges (space + 1) - m.edges space
  { s with xLminus := m.edges 0 - dx, xRplus := m.edges c.Nspace + dx }

open Classical in
/-- numerical_flux.py 162-177 `is_boundary_source_on`. -/
noncomputable def isBoundarySourceOn (c : FluxConfig) (space : ℕ) (t : ℝ) : Bool :=
  if c.mms then true
  else if c.thermalIsOne then true
  else if c.boundarySource then
    if c.uncollided = false then
      if t ≤ c.t0 then
        if space = 0 then c.boundaryOnLeft
        else if space + 1 = c.Nspace then c.boundaryOnRight
        else false
      else false
    else false
  else false

/-- One summand added to `v0`, numerical_flux.py 182-190. -/
noncomputable def v0Term (c : FluxConfig) (m : MeshView) (s : FluxState) (space : ℕ)
    (u : ℕ → ℕ → ℝ) (t : ℝ) (uRefl : ℕ → ℝ) (j : ℕ) : ℝ :=
  if space ≠ 0 then (bLR c.geometry j s.hm).2 * u (space - 1) j
  else if isBoundarySourceOn c space t then
    fluxIntegrateQuad c t s.xLminus (m.edges space) j * (bLR c.geometry j s.h).2
  else if c.geometry = Geometry.sphere then (bLR c.geometry j s.h).1 * uRefl j
  else 0

/-- One summand added to `v3`, numerical_flux.py 196-200. -/
noncomputable def v3Term (c : FluxConfig) (m : MeshView) (s : FluxState) (space : ℕ)
    (u : ℕ → ℕ → ℝ) (t : ℝ) (j : ℕ) : ℝ :=
  if space + 1 ≠ c.Nspace then (bLR c.geometry j s.hp).1 * u (space + 1) j
  else if isBoundarySourceOn c space t then
    fluxIntegrateQuad c t (m.edges (space + 1)) s.xRplus j * (bLR c.geometry j s.h).1
  else 0

/-- numerical_flux.py 180-200 `make_sol`. -/
noncomputable def makeSol (c : FluxConfig) (m : MeshView) (space : ℕ) (u : ℕ → ℕ → ℝ) (t : ℝ)
    (uRefl : ℕ → ℝ) (s : FluxState) : FluxState :=
  { s with
    v0 := s.v0 + ∑ j ∈ Finset.range (c.M + 1), v0Term c m s space u t uRefl j
    v1 := s.v1 + ∑ j ∈ Finset.range (c.M + 1), (bLR c.geometry j s.h).1 * u space j
    v2 := s.v2 + ∑ j ∈ Finset.range (c.M + 1), (bLR c.geometry j s.h).2 * u space j
    v3 := s.v3 + ∑ j ∈ Finset.range (c.M + 1), v3Term c m s space u t j }

open Classical in
/-- numerical_flux.py 203-240 `make_LU`.  `LU` is only written for indices up to `M`. -/
noncomputable def makeLU (c : FluxConfig) (t : ℝ) (m : MeshView) (u : ℕ → ℕ → ℝ) (space : ℕ)
    (mul : ℝ) (uRefl : ℕ → ℝ) (s : FluxState) : FluxState :=
  let s := { s with v0 := 0, v1 := 0, v2 := 0, v3 := 0 }
  let xL := m.edges space
  let xR := m.edges (space + 1)
  let leftspeed := fluxSpeed * mul - m.Dedges space
  let rightspeed := fluxSpeed * mul - m.Dedges (space + 1)
  let s := makeH c m space s
  let s := extendMesh c m space s
  let s := makeSol c m space u t uRefl s
  let psiMinus := if 0 ≤ leftspeed then s.v0 else s.v1
  let psiPlus := if 0 ≤ rightspeed then s.v2 else s.v3
  { s with LU := fun i =>
      if i ≤ c.M then
        match c.geometry with
        | .slab => (bLR c.geometry i s.h).2 * rightspeed * psiPlus
                    - (bLR c.geometry i s.h).1 * leftspeed * psiMinus
        | .sphere => xR ^ 2 * (bLR c.geometry i s.h).2 * rightspeed * psiPlus
                    - xL ^ 2 * (bLR c.geometry i s.h).1 * leftspeed * psiMinus
      else s.LU i }

/-- The vector handed to the right-hand side: `num_flux.LU` after `make_LU`
(rhs_class_1.py 233-237). -/
noncomputable def fluxLU (c : FluxConfig) (t : ℝ) (m : MeshView) (u : ℕ → ℕ → ℝ) (space : ℕ)
    (mul : ℝ) (uRefl : ℕ → ℝ) (s : FluxState) : ℕ → ℝ :=
  (makeLU c t m u space mul uRefl s).LU

end Verif.Model
