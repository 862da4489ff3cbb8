import Verif.Model.Flux
import Mathlib.Analysis.SpecialFunctions.Pow.Real

/-!
Model: sources (`solver_classes/sources.py`), emission (`solver_classes/radiative_transfer.py`),
initial conditions (`solver_classes/mutables.py`) and their projection
(`solver_classes/build_problem.py`).

Arrays of points are modelled point by point.  The uncollided solution is an argument
`unc x t`, a function of the point and the time; `Verif.Model.uncollidedSolution` is the model of
what the code passes, and `c69` says for which source types it is such a function.
A basis function that is not implemented (`normTn` beyond order 12) makes the call fail: `none`.
-/

namespace Verif.Model

open Real

/-! ### sources.py -/

/-- Attributes of `source_class` that never change after `__init__` (sources.py 62-77); `quad` is
the list of pairs of `xs_quad` and `ws_quad`. -/
structure SourceConfig where
  sourceType : List ℤ
  uncollided : Bool
  geometry : Geometry
  M : ℕ
  x0 : ℝ
  t0 : ℝ
  moving : Bool
  sigma : ℝ
  sigmaS : ℝ
  strength : ℝ
  quad : List (ℝ × ℝ)

/-- `source_type[i]` -/
def SourceConfig.st (c : SourceConfig) (i : ℕ) : ℤ := c.sourceType.getD i 0

/-- sources.py 80, 85, 91; build_problem.py 155, 160, 166; radiative_transfer.py 82:
`(b-a)/2*xs_quad + (a+b)/2`. -/
noncomputable def quadPoint (a b x : ℝ) : ℝ := (b - a) / 2 * x + (a + b) / 2

/-- sources.py 79-81 and 90-92, build_problem.py 154-157 and 165-167, radiative_transfer.py 83: the
number assigned by `integrate_quad` (build_problem.py 157 writes `0.5 * (b-a)`, the same number). -/
noncomputable def slabMoment (quad : List (ℝ × ℝ)) (f : ℝ → ℝ) (a b : ℝ) (j : ℕ) : ℝ :=
  (b - a) / 2 *
    (quad.map fun q => q.2 * f (quadPoint a b q.1) * normPn j (quadPoint a b q.1) a b).sum

/-- sources.py 84-86: the number assigned by `integrate_quad_sphere`; `none` if the basis function
is not implemented. -/
noncomputable def sphereMoment (quad : List (ℝ × ℝ)) (f : ℝ → ℝ) (a b : ℝ) (j : ℕ) : Option ℝ :=
  if j ≤ 12 then
    some (1 / 2 * (b - a) * (quad.map fun q =>
      quadPoint a b q.1 ^ 2 * √(1 - q.1 ^ 2) * q.2 * f (quadPoint a b q.1) * 1 *
        (normTn j (quadPoint a b q.1) a b).getD 0).sum)
  else none

open Classical in
/-- sources.py 94-100 `MMS_source` at one point -/
noncomputable def mmsSource (x0 x t μ : ℝ) : ℝ :=
  (if -t - x0 ≤ x ∧ x ≤ t + x0 then
    -(1 / 2) * (1 + (1 + t) * x * μ) / (exp (x ^ 2 / 2) * (1 + t) ^ 2) else x * 0) * 2

open Classical in
/-- sources.py 102-107 `square_source` at one point -/
noncomputable def squareVolumeSource (x0 t0 x t : ℝ) : ℝ :=
  if |x| ≤ x0 ∧ t < t0 then 1 else x * 0

open Classical in
/-- sources.py 109-115 `gaussian_source` at one point -/
noncomputable def gaussianVolumeSource (sigma t0 x t : ℝ) : ℝ :=
  if t ≤ t0 then exp (-x * x / sigma ^ 2) else x * 0

/-- `for j in range(self.M+1): S[j] = v(j)` -/
def assignUpTo (M : ℕ) (S v : ℕ → ℝ) (j : ℕ) : ℝ := if j ≤ M then v j else S j

/-- sources.py 118-149 `make_source`: the new content of `self.S`, from the old one. `planeInt` is
the value of `plane_IC_uncollided_solution_integrated(t, xL, xR)`. -/
noncomputable def makeSource (c : SourceConfig) (unc : ℝ → ℝ → ℝ) (planeInt : ℝ → ℝ → ℝ → ℝ)
    (t xL xR : ℝ) (S : ℕ → ℝ) : Option (ℕ → ℝ) :=
  match c.geometry with
  | .slab =>
    if c.uncollided then
      if c.st 0 = 1 ∧ c.moving = true then
        some fun j => assignUpTo 0 S (fun _ => planeInt t xL xR) j * c.sigmaS * c.strength
      else
        some fun j => assignUpTo c.M S (slabMoment c.quad (unc · t) xL xR) j * c.sigmaS * c.strength
    else if c.st 2 = 1 then
      some fun j => assignUpTo c.M S (slabMoment c.quad (squareVolumeSource c.x0 c.t0 · t) xL xR) j
        * c.strength
    else if c.st 5 = 1 then
      some fun j =>
        assignUpTo c.M S (slabMoment c.quad (gaussianVolumeSource c.sigma c.t0 · t) xL xR) j
          * c.strength
    else some fun j => S j * c.strength
  | .sphere =>
    if c.uncollided = true ∧ c.st 1 = 1 then
      if c.M ≤ 12 then
        some fun j => assignUpTo c.M S
          (fun j => (sphereMoment c.quad (unc · t) xL xR j).getD 0) j * c.strength
      else none
    else some fun j => S j * c.strength

/-- sources.py 151-154 `make_source_not_isotropic` -/
noncomputable def makeSourceNotIsotropic (c : SourceConfig) (t μ xL xR : ℝ) (S : ℕ → ℝ) : ℕ → ℝ :=
  if c.st 4 = 1 then assignUpTo c.M S (slabMoment c.quad (mmsSource c.x0 · t μ) xL xR) else S

/-- sources.py 63: `S` before the first call. -/
def sourceInit : ℕ → ℝ := fun _ => 0

/-- A sequence of calls of `make_source`, with times and cells `(t, xL, xR)`. -/
noncomputable def sourceRun (c : SourceConfig) (unc : ℝ → ℝ → ℝ) (planeInt : ℝ → ℝ → ℝ → ℝ) :
    List (ℝ × ℝ × ℝ) → (ℕ → ℝ) → Option (ℕ → ℝ)
  | [], S => some S
  | k :: ks, S => (makeSource c unc planeInt k.1 k.2.1 k.2.2 S).bind (sourceRun c unc planeInt ks)

/-! ### radiative_transfer.py -/

/-- radiative_transfer.py 59 -/
noncomputable def radA : ℝ := 0.0137225

/-- radiative_transfer.py 60 -/
noncomputable def radAlpha : ℝ := 4 * radA

/-- radiative_transfer.py 73-78 `make_e` at one point -/
noncomputable def makeE (M : ℕ) (e : ℕ → ℝ) (a b x : ℝ) : ℝ :=
  ∑ j ∈ Finset.range (M + 1), normPn j x a b * e j

open Classical in
/-- radiative_transfer.py 111-119: `fudge_factor` at one point -/
noncomputable def fudgeFactor (e : ℝ) : ℝ := if e < 0 then -1 else 1

/-- radiative_transfer.py 122-123: the temperature of `su_olson_source` at one point -/
noncomputable def suOlsonT (alpha e : ℝ) : ℝ := |4 * e / alpha| ^ (0.25 : ℝ)

/-- radiative_transfer.py 65: `self.cv0` -/
noncomputable def scaledCv (cv0 : ℝ) : ℝ := cv0 / radA

/-- `temp_function` of `T_function`: which of the two entries is set -/
inductive TempFunction where
  | suOlson
  | constantCv
  | other

/-- radiative_transfer.py 87-104 `T_func` at one point as a function of `e` (with
`test_dimensional_rhs = False`, 68); `none` is the failed assertion. -/
noncomputable def tFunc (f : TempFunction) (cv0 e : ℝ) : Option ℝ :=
  match f with
  | .suOlson => some (radA * suOlsonT radAlpha e ^ 4 * fudgeFactor e)
  | .constantCv => some ((e / scaledCv cv0) ^ 4)
  | .other => none

/-- radiative_transfer.py 80-85 and 126-130 `make_H` -/
noncomputable def makeEmission (f : TempFunction) (cv0 : ℝ) (none' : Bool) (M : ℕ)
    (quad : List (ℝ × ℝ)) (xL xR : ℝ) (e : ℕ → ℝ) (j : ℕ) : Option ℝ :=
  if none' then some 0
  else match f with
    | .other => none
    | f => some (slabMoment quad (fun x => (tFunc f cv0 (makeE M e xL xR x)).getD 0) xL xR j)

/-! ### mutables.py -/

/-- Attributes of `IC_func` (mutables.py 37-44) -/
structure ICConfig where
  sourceType : List ℤ
  uncollided : Bool
  geometry : Geometry
  x0 : ℝ
  strength : ℝ
  sigma : ℝ
  x1 : ℝ

/-- `source_type[i]` -/
def ICConfig.st (c : ICConfig) (i : ℕ) : ℤ := c.sourceType.getD i 0

/-- `source_type[-1]` -/
def ICConfig.stLast (c : ICConfig) : ℤ := c.sourceType.getLast?.getD 0

open Classical in
/-- `np.greater(x, a)` as a number -/
noncomputable def greater (x a : ℝ) : ℝ := if a < x then 1 else 0

/-- mutables.py 83-85 -/
noncomputable def pointPulse (c : ICConfig) (x : ℝ) : ℝ :=
  (greater x 0 - greater x c.x0) * c.strength

/-- mutables.py 89-92 -/
noncomputable def planeAndSquareIC (c : ICConfig) (x : ℝ) : ℝ :=
  (greater x (-c.x0) - greater x c.x0) * c.strength / 2

/-- mutables.py 94-99 -/
noncomputable def shellInitial (c : ICConfig) (x : ℝ) : ℝ :=
  (greater x 0 - greater x c.x0) * c.strength * 3 / 4 / π / c.x0 ^ 3 / 2

/-- mutables.py 106-108 -/
noncomputable def gaussianInitial (c : ICConfig) (x : ℝ) : ℝ :=
  exp (-x * x / c.sigma ^ 2) * c.strength / 2

/-- mutables.py 110-112 -/
noncomputable def gaussianNonIso (c : ICConfig) (x μ : ℝ) : ℝ :=
  2 * exp (-x * x / c.sigma ^ 2) * c.strength * greater μ 0 / 2

/-- mutables.py 114-117 -/
noncomputable def mmsIC (x : ℝ) : ℝ := exp (-x * x / 2) / 2

/-- mutables.py 119-123 -/
noncomputable def dipoleIC (c : ICConfig) (x : ℝ) : ℝ :=
  (-(greater x (-|c.x1|) - greater x 0) * c.strength +
    (greater x 0 - greater x |c.x1|) * c.strength) / 2

/-- mutables.py 125-132 -/
noncomputable def selfSimPlane (x : ℝ) : ℝ :=
  1 / √(π * 0.5) / √(29.998 / 3 / 800 * 0.01) *
    exp (-x ^ 2 / 4 / (29.998 / 3 / 800) / 0.01) / 2

/-- mutables.py 47-81 `function` at one point; `none` where the code returns nothing. -/
noncomputable def icFunction (c : ICConfig) (x μ : ℝ) : Option ℝ :=
  match c.geometry with
  | .slab =>
    some (if c.uncollided then 0
    else if c.st 0 = 1 then planeAndSquareIC c x / c.x0 / 2
    else if c.st 1 = 1 then planeAndSquareIC c x
    else if c.st 2 = 1 then 0
    else if c.st 3 = 1 then if c.stLast = 1 then gaussianNonIso c x μ else gaussianInitial c x
    else if c.st 4 = 1 ∧ c.st 3 = 0 then mmsIC x
    else if c.st 0 = 2 then dipoleIC c x / |c.x1|
    else if c.st 0 = 3 then selfSimPlane x
    else 0)
  | .sphere =>
    if c.uncollided then some 0
    else if c.st 0 = 1 then some (pointPulse c x / c.x0 ^ 3)
    else if c.st 1 = 1 then some (shellInitial c x)
    else none

/-! ### build_problem.py -/

/-- build_problem.py 159-162 `integrate_quad_sphere`: the number assigned -/
noncomputable def sphereProjection (quad : List (ℝ × ℝ)) (f : ℝ → ℝ) (a b : ℝ) (j : ℕ) :
    Option ℝ :=
  if j ≤ 12 then
    some (1 / 2 * (b - a) * (quad.map fun q => q.2 * f (quadPoint a b q.1) * 2 *
      (normTn j (quadPoint a b q.1) a b).getD 0).sum)
  else none

/-- Set-up data read by `make_IC` (build_problem.py 88-150); `edges` are the initial edges of the
mesh built at 173-176, `cosines` the direction cosines `mus`. -/
structure BuildConfig where
  Nspace : ℕ
  M : ℕ
  moving : Bool
  eInit : ℝ
  cosines : ℕ → ℝ
  quad : List (ℝ × ℝ)
  edges : ℕ → ℝ
  /-- attributes handed to `IC_func`; `x1` is replaced -/
  ic : ICConfig

/-- build_problem.py 179-187: `self.x0` after the adjustment for delta functions -/
noncomputable def BuildConfig.adjustedX0 (c : BuildConfig) : ℝ :=
  if c.moving = false ∧ c.ic.st 0 = 1 ∧ c.ic.uncollided = false ∧ c.Nspace % 2 = 0 then
    match c.ic.geometry with
    | .slab => c.edges (c.Nspace / 2 + 1) - c.edges (c.Nspace / 2 - 1)
    | .sphere => c.edges 1 - c.edges 0
  else c.ic.x0

open Classical in
/-- build_problem.py 179-209: the initial condition object.  `none` is the failed search at
197-203. -/
noncomputable def BuildConfig.icObject (c : BuildConfig) : Option ICConfig :=
  if c.moving = false ∧ c.ic.st 0 = 2 ∧ c.ic.uncollided = false ∧ c.Nspace % 2 = 0 then
    if ∃ it, it < c.Nspace ∧ c.edges it ≤ -c.adjustedX0 ∧ -c.adjustedX0 ≤ c.edges (it + 1) then
      some { c.ic with
        x0 := c.adjustedX0, x1 := c.edges (c.Nspace / 2) - c.edges (c.Nspace / 2 + 1) }
    else none
  else some { c.ic with x0 := c.adjustedX0, x1 := 0 }

/-- build_problem.py 212-218: `IC[ang, space, j]` for a direction -/
noncomputable def BuildConfig.initial (c : BuildConfig) (ang space j : ℕ) : Option ℝ :=
  c.icObject.bind fun ic =>
    let f := fun x => (icFunction ic x (c.cosines ang)).getD 0
    match c.ic.geometry with
    | .slab => some (slabMoment c.quad f (c.edges space) (c.edges (space + 1)) j)
    | .sphere =>
      if ic.uncollided = false ∧ ic.st 0 ≠ 1 ∧ ic.st 1 ≠ 1 then none
      else sphereProjection c.quad f (c.edges space) (c.edges (space + 1)) j

/-- build_problem.py 165-170 and 189-192: `IC[N_ang, space, j]`, the initial material energy -/
noncomputable def BuildConfig.initialEnergy (c : BuildConfig) (space j : ℕ) : ℝ :=
  slabMoment c.quad (fun _ => 1 * c.eInit) (c.edges space) (c.edges (space + 1)) j

end Verif.Model
