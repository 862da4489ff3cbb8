import Mathlib.Analysis.SpecialFunctions.Exp
import Mathlib.MeasureTheory.Integral.IntervalIntegral.Basic

/-!
Model: the benchmark for a travelling Gaussian opacity (run_functions.py 435-450 and 497-513).

Simplification: `scipy.integrate.quad` returns the exact integral.
-/

namespace Verif.Model

open Real

/-- run_functions.py 445: `sigma_func`, with `sigma_v = -0.25` (436). -/
noncomputable def shockSigma (s t : ℝ) : ℝ := exp (-(s - -0.25 * t) ^ 2 / (2 * 2 ^ 2))

/-- run_functions.py 438-448: `mfp`, with `x0 = left_bound = -5`; `t0` is line 440, `eta_func` 444. -/
noncomputable def shockMfp (tfinal x mu : ℝ) : ℝ :=
  let x0 := -5
  let t0 := (x0 - x) / mu + tfinal
  ∫ s in x0..x, shockSigma s ((s - x0) / mu + t0)

open Classical in
/-- run_functions.py 435-450 `moving_gaussian_shock`; `np.heaviside(z, 0)` is 1 for positive `z` only. -/
noncomputable def movingGaussianShock (tfinal x mu : ℝ) : ℝ :=
  exp (-shockMfp tfinal x mu / |mu|) * if 0 < |mu| - |(x - -5) / tfinal| then 1 else 0

/-- `self.mus[np.argmin(np.abs(self.mus - 0.6))]` (run_functions.py 501): the first of the directions that
are closest to 0.6; the empty list fails. -/
noncomputable def nearSixTenths : List ℝ → Option ℝ
  | [] => none
  | m :: ms => some (ms.foldl (fun a b => if |b - 0.6| < |a - 0.6| then b else a) m)

/-- `np.linspace(a, b, 25)` (run_functions.py 502) -/
noncomputable def sparseXs (a b : ℝ) : List ℝ := (List.range 25).map fun i : ℕ => a + i * ((b - a) / 24)

/-- run_functions.py 497-505: what `moving_gaussian_shock_benchmark` plots; `xs` are the output points. -/
noncomputable def movingShockBenchmark (mus xs : List ℝ) (tfinal : ℝ) :
    Option (List (ℝ × ℝ × ℝ)) :=
  (nearSixTenths mus).bind fun mu2 => xs.head?.bind fun a => xs.getLast?.map fun b =>
    (sparseXs a b).map fun x => (x, movingGaussianShock tfinal x 1, movingGaussianShock tfinal x mu2)

end Verif.Model
