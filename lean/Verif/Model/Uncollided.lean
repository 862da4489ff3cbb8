import Verif.Model.Flux
import Mathlib.Analysis.SpecialFunctions.Sqrt
import Mathlib.Analysis.SpecialFunctions.Trigonometric.Basic

/-!
Model: `solver_classes/uncollided_solutions.py` and the closed forms it uses from
`solver_classes/functions.py`.

The special functions `numba_expi` and `math.erf` are parameters.  A loop over an array of points
applies a function to every point.
-/

namespace Verif.Model

open Real

/-! ### Closed forms of functions.py -/

/-- functions.py 211-212 `f1` -/
noncomputable def sqF1 (expi : ℝ → ℝ) (t τ x0 : ℝ) : ℝ := -x0 * expi (τ - t)

/-- functions.py 214-218 `f2` -/
noncomputable def sqF2 (expi : ℝ → ℝ) (t τ x0 x : ℝ) : ℝ :=
  if τ ≠ t then 0.5 * ((-x0 + |x|) * expi (τ - t) + exp (τ - t)) else 0.5

/-- functions.py 220-221 `f3` -/
noncomputable def sqF3 (t τ : ℝ) : ℝ := exp (τ - t)

/-- functions.py 231-232, 234-235 and 237-238 -/
noncomputable def clampLow (τ : ℝ) : ℝ := if τ < 0 then 0 else τ

/-- functions.py 223-245 `uncollided_square_s2` -/
noncomputable def uncollidedSquare (expi : ℝ → ℝ) (x t x0 t0 : ℝ) : ℝ :=
  let tCeiling := min t t0
  if 0 < t then
    let tau1 := 0
    let fin := min tCeiling (t - |x| + x0)
    if fin ≤ 0 then 0
    else
      let tau2 := clampLow (min fin (t - x0 - |x|))
      let tau3 := clampLow (min fin (t - x0 + |x|))
      let tau4 := clampLow fin
      let t1 := sqF1 expi t tau2 x0 - sqF1 expi t tau1 x0
      let t2 := sqF2 expi t tau3 x0 x - sqF2 expi t tau2 x0 x
      let t3 := sqF3 t tau4 - sqF3 t tau3
      t1 + t2 + t3
  else 0

/-- functions.py 248-251 `s2_F` -/
noncomputable def s2F (t τ : ℝ) : ℝ := 0.5 * exp (-t + τ)

/-- functions.py 258-282, the branch `t <= t0` of `uncollided_su_olson_s2`, with `abx = |x|`;
`none` is the end of the function without a value. -/
noncomputable def suOlsonS2Early (abx t x0 edge : ℝ) : Option ℝ :=
  if x0 < abx then
    some (s2F t (max 0 (edge - √3 * (abx - x0))) - s2F t (max 0 (edge - √3 * (abx + x0))))
  else if abx ≤ x0 then
    if edge + √3 * abx ≤ √3 * x0 then some (2 * (s2F t edge - s2F t 0))
    else if √3 * x0 < edge + √3 * abx ∧ 0 < edge - √3 * (abx + x0) then
      let arg2 := edge - √3 * (x0 - abx)
      let arg1 := edge - √3 * (abx + x0)
      some (s2F t arg2 - s2F t arg1 + 2 * (s2F t edge - s2F t arg2))
    else if √3 * x0 < edge + √3 * abx ∧ edge - √3 * (abx + x0) ≤ 0 then
      let arg1 := max 0 (edge - √3 * (x0 - abx))
      some (2 * (s2F t edge - s2F t arg1) + s2F t arg1 - s2F t 0)
    else none
  else none

/-- functions.py 283-316, the branch `t > t0` of `uncollided_su_olson_s2`, with `x` replaced by
its absolute value (line 285). -/
noncomputable def suOlsonS2Late (x t x0 T0 : ℝ) : Option ℝ :=
  if x0 - √3 * (t - T0) / 3 ≤ x ∧ x ≤ x0 + √3 * (t - T0) / 3 then
    let argp := min (max (t - (x - x0) * 3 / √3) 0) T0
    let arg2p := min (max (t - (x + x0) * 3 / √3) 0) T0
    some (s2F t argp - s2F t arg2p)
  else if x0 + √3 * (t - T0) / 3 < x then
    let arg := min (max (t - (x - x0) * 3 / √3) 0) T0
    let arg2 := min (max (t - (x + x0) * 3 / √3) 0) T0
    some (s2F t arg - s2F t arg2)
  else if x < x0 - √3 * (t - T0) / 3 then
    let arg := t - (x0 - x) * 3 / √3
    if arg ≤ 0 then some (2 * (s2F t T0 - s2F t 0))
    else if 0 < arg ∧ arg < T0 then
      some (2 * (s2F t T0 - s2F t arg) + s2F t arg - s2F t 0)
    else some 0
  else none

/-- functions.py 254-316 `uncollided_su_olson_s2` -/
noncomputable def suOlsonS2 (x t x0 t0 : ℝ) : Option ℝ :=
  let edge := min t t0
  if t ≤ t0 then suOlsonS2Early |x| t x0 edge
  else if t0 < t then suOlsonS2Late |x| t x0 edge
  else none

/-- functions.py 323-326 `uncollided_s2_gaussian` -/
noncomputable def gaussianS2Closed (erf : ℝ → ℝ) (x t σ t0 : ℝ) : ℝ :=
  let tf := min t t0
  exp (-(√3 * x) + 3 * σ ^ 2 / 4) * √(3 * π) * σ *
    (erf ((-2 * t + 2 * tf + 2 * √3 * x - 3 * σ ^ 2) / (2 * √3 * σ)) +
      exp (2 * √3 * x) * (erf (t / (√3 * σ) + x / σ + √3 * σ / 2) -
        erf ((2 * t - 2 * tf + 2 * √3 * x + 3 * σ ^ 2) / (2 * √3 * σ))) +
      erf ((2 * √3 * t - 6 * x + 3 * √3 * σ ^ 2) / (6 * σ))) / 4

/-- functions.py 451-456 `heaviside_scalar` -/
noncomputable def heavisideScalar (x : ℝ) : ℝ := if x < 0 then 0 else 1

/-! ### uncollided_solutions.py -/

/-- The attributes set in uncollided_solutions.py 60-84 that are used, and the library functions.
`tQuad` lists the points and weights `t_quad`, `t_ws`; `angles` lists `mus`, `ws`. -/
structure UncollidedConfig where
  sourceType : List ℤ
  uncollided : Bool
  geometry : Geometry
  x0 : ℝ
  t0 : ℝ
  tQuad : List (ℝ × ℝ)
  angles : List (ℝ × ℝ)
  nAng : ℕ
  sigma : ℝ
  strength : ℝ
  v0 : ℝ
  expi : ℝ → ℝ
  erf : ℝ → ℝ

namespace UncollidedConfig

/-- `source_type[i]` -/
def st (c : UncollidedConfig) (i : ℕ) : ℤ := c.sourceType.getD i 0

/-- `np.all(source_type==0)` -/
def allZero (c : UncollidedConfig) : Prop := ∀ x ∈ c.sourceType, x = 0

end UncollidedConfig

variable (c : UncollidedConfig)

/-- uncollided_solutions.py 87-91 `integrate_quad_gaussian_source`, for a function of one time. -/
noncomputable def timeQuad (f : ℝ → ℝ) (a b : ℝ) : ℝ :=
  (b - a) / 2 * (c.tQuad.map fun q => q.2 * f ((b - a) / 2 * q.1 + (a + b) / 2)).sum

/-- uncollided_solutions.py 103-115 `gaussian_source_integrand` -/
noncomputable def gaussianIntegrand (t x τ : ℝ) : ℝ :=
  if t - τ ≠ 0 then
    exp (-(t - τ)) * (c.erf ((t - τ - |x|) / c.sigma) + c.erf ((t - τ + |x|) / c.sigma)) /
      (t - τ) / 4
  else 0

/-- uncollided_solutions.py 139-148 `gaussian_source_uncollided_solution` at one point -/
noncomputable def gaussianSource (x t : ℝ) : ℝ :=
  timeQuad c (gaussianIntegrand c t x) 0 (min t c.t0) * √π * c.sigma

/-- uncollided_solutions.py 130-131 -/
noncomputable def sedovT1 (x0 te mu s : ℝ) : ℝ :=
  √π * 2 * mu * c.erf ((c.v0 * (s - x0) + (1 + s + te * c.v0) * mu) / (2 * mu)) /
    (2 * (c.v0 + mu))

/-- uncollided_solutions.py 117-136 `fake_sedov_integrand` (`rho0 = 0.2`, `kappa = 2`, `c1 = 1`).
Divisions by zero, which fail in the program, are zero here. -/
noncomputable def sedovIntegrand (mu t x : ℝ) : ℝ :=
  let x0 := -c.x0
  let te := (x0 - x) / mu + t
  let b2 := (c.v0 * x0 - te * c.v0 * mu) / (c.v0 + mu)
  let b1 := max x b2
  let b3 := min x b2
  let mfp := sedovT1 c x0 te mu b1 - sedovT1 c x0 te mu b2 + 0.2 * b3 - 0.2 * x0
  exp (-mfp / mu) * heavisideScalar (mu - |(x - x0) / (t + 1e-10)|) *
    heavisideScalar (|x0 - x| - mu * (t - c.t0))

/-- uncollided_solutions.py 93-101 and 288-292 `fake_sedov` at one point -/
noncomputable def fakeSedov (x t : ℝ) : ℝ :=
  2 * (c.angles.map fun a => a.2 * sedovIntegrand c a.1 t x).sum

/-- uncollided_solutions.py 213-224: `square_IC_uncollided_solution` at one point, before the
multiplication of line 225. -/
noncomputable def squareIC (x0 xx t : ℝ) : ℝ :=
  if t ≤ x0 ∧ -x0 + t ≤ xx ∧ xx ≤ x0 - t then exp (-t)
  else if x0 < t ∧ -t + x0 ≤ xx ∧ xx ≤ t - x0 then exp (-t) * x0 / (t + 1e-12)
  else if xx < t + x0 ∧ -t - x0 < xx then
    if t ≤ x0 - xx ∧ x0 + xx ≤ t then exp (-t) * (t + xx + x0) / (2 * t + 1e-12)
    else if x0 - xx ≤ t ∧ t ≤ x0 + xx then exp (-t) * (t - xx + x0) / (2 * t + 1e-12)
    else 0
  else 0

/-- uncollided_solutions.py 231-238: `shell_IC_uncollided_solution` at one point -/
noncomputable def shellIC (x0 r t : ℝ) : ℝ :=
  let n0 := 1 / (4 * π / 3 * x0 ^ 3) / (4 * π)
  let tt := t + 1e-12
  let muCrit := min 1 (max (-1) (0.5 * (tt / r + r / tt - x0 ^ 2 / (r * tt))))
  n0 * 2 * π * (1 - muCrit) * exp (-t * 1)

/-- uncollided_solutions.py 247: `gaussian_IC_uncollided_solution` at one point -/
noncomputable def gaussianIC (xx t : ℝ) : ℝ :=
  c.sigma * exp (-t) * √π * (c.erf ((t - xx) / c.sigma) + c.erf ((t + xx) / c.sigma)) /
    (4 * t + 1e-12) * c.strength

/-- uncollided_solutions.py 252-255: `plane_IC_uncollided_solution` at one point -/
noncomputable def planeIC (x t : ℝ) : ℝ :=
  if -t ≤ x ∧ x ≤ t then exp (-t) / (2 * t + 1e-12) else 0

/-- uncollided_solutions.py 261-264 `plane_IC_uncollided_solution_integrated` -/
noncomputable def planeIntegrated (x0 t xL xR : ℝ) : ℝ :=
  exp (-t) / (2 * t + x0) * √(xR - xL)

/-- uncollided_solutions.py 276: `gaussian_s2_thick_integrand` at one time -/
noncomputable def gaussianS2Thick (σ t x τ : ℝ) : ℝ :=
  exp (-t + τ) * (exp (-(√3 * t + 3 * x - √3 * τ) ^ 2 / (9 * σ ^ 2)) +
    exp (-(-(√3 * t) + 3 * x + √3 * τ) ^ 2 / (9 * σ ^ 2))) / 2

/-- uncollided_solutions.py 279-286 `gaussian_s2` at one point -/
noncomputable def gaussianS2 (x t : ℝ) : ℝ :=
  if c.sigma ≤ 5 then gaussianS2Closed c.erf x t c.sigma c.t0
  else timeQuad c (gaussianS2Thick c.sigma t x) 0 (min t c.t0)

/-- uncollided_solutions.py 298-299: `point_source` at one point -/
noncomputable def pointSource (rho t : ℝ) : ℝ :=
  if |rho - t| ≤ 1e-10 then exp (-t) / 4 / π / t ^ 2 / rho else 0

open Classical in
/-- uncollided_solutions.py 302-336 `uncollided_solution`.  `prev` is the attribute
`uncollided_solution_return` left by the call before, `np.zeros(1)` at first; it is returned when
no branch applies.  A missing value of `suOlsonS2` is written as zero; by
`c41_always_a_value` it never occurs. -/
noncomputable def uncollidedSolution (prev xs : List ℝ) (t : ℝ) : List ℝ :=
  if c.uncollided then
    match c.geometry with
    | .slab =>
      if c.st 0 = 1 then xs.map fun x => planeIC x t * c.strength
      else if c.st 1 = 1 then xs.map fun x => squareIC c.x0 x t * c.strength * c.strength
      else if c.st 2 = 1 then
        if c.nAng = 2 then xs.map fun x => (suOlsonS2 x t c.x0 c.t0).getD 0 * c.strength
        else xs.map fun x => uncollidedSquare c.expi x t c.x0 c.t0 * c.strength
      else if c.st 3 = 1 then xs.map fun x => gaussianIC c x t * c.strength
      else if c.st 5 = 1 then
        if c.nAng = 2 then xs.map fun x => gaussianS2 c x t * c.strength
        else xs.map fun x => gaussianSource c x t * c.strength
      else if c.allZero then xs.map fun x => fakeSedov c x t * c.strength
      else prev
    | .sphere =>
      if c.st 0 = 1 then xs.map fun x => pointSource x t * c.strength
      else if c.st 1 = 1 then xs.map fun x => shellIC c.x0 x t * c.strength
      else prev
  else xs.map fun _ => 0

end Verif.Model
