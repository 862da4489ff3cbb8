import Verif.Model.Uncollided

/-!
Model: the closed-form benchmarks that results are compared with
(`solver_functions/run_functions.py`, `self_similar_diffusion.py`).

`scipy.special.erf` is a parameter.  Plotting and printing are left out.
-/

namespace Verif.Model

open Real

/-! ### run_functions.py -/

/-- `np.heaviside(x, 0)` -/
noncomputable def heavisideZero (x : ℝ) : ℝ := if 0 < x then 1 else 0

/-- run_functions.py 476: `t1` of `fake_sedov` -/
noncomputable def sedovBenchT1 (erf : ℝ → ℝ) (v0 x0 t0 mu s : ℝ) : ℝ :=
  √π * 2 * mu * erf ((v0 * (s - x0) + (1 + s + t0 * v0) * mu) / (2 * mu)) / (2 * (v0 + mu))

/-- run_functions.py 454-479: `mfp` of `fake_sedov` (`c1 = 1`, `x0 = -5`, `kappa = 2`,
`rho0 = 0.2`) -/
noncomputable def sedovBenchMfp (erf : ℝ → ℝ) (v0 mu tfinal x : ℝ) : ℝ :=
  let x0 := -5
  let t0 := (x0 - x) / mu + tfinal
  let b2 := (v0 * x0 - t0 * v0 * mu) / (v0 + mu)
  let b1 := max x b2
  let b4 := x0
  let b3 := min x b2
  sedovBenchT1 erf v0 x0 t0 mu b1 - sedovBenchT1 erf v0 x0 t0 mu b2 + 0.2 * b3 - 0.2 * b4

/-- run_functions.py 452-493 `fake_sedov`; `t0Source` is `self.t0_source`.  The NaN test of lines
486-489 only prints. -/
noncomputable def sedovBench (erf : ℝ → ℝ) (v0 t0Source mu tfinal x : ℝ) : ℝ :=
  let mfp := sedovBenchMfp erf v0 mu tfinal x
  if mfp / mu > 40 then 0
  else if mu > 0 then
    exp (-mfp / mu) * heavisideZero (mu - |x - -5| / tfinal) *
      heavisideZero (|-5 - x| - (tfinal - t0Source) * mu)
  else 0

/-- run_functions.py 527-535: the scalar flux `phi` of `fake_sedov_benchmark` at one point; the
list holds the directions `self.mus` with the weights `self.ws` returned by the solver. -/
noncomputable def sedovBenchPhi (erf : ℝ → ℝ) (v0 t0Source tfinal x : ℝ) (angles : List (ℝ × ℝ)) :
    ℝ :=
  (angles.map fun a => a.2 * sedovBench erf v0 t0Source a.1 tfinal x).sum

/-- run_functions.py 343: `f` of `steady_state_gaussian_benchmark` -/
noncomputable def gaussDepth (erf : ℝ → ℝ) (x1 x2 sigma : ℝ) : ℝ :=
  √(π / 2) * sigma * (erf (x2 / √2 / sigma) - erf (x1 / √2 / sigma))

/-- run_functions.py 342-349 `steady_state_gaussian_benchmark` at one point -/
noncomputable def steadyGaussian (erf : ℝ → ℝ) (x0 x : ℝ) (angles : List (ℝ × ℝ)) : ℝ :=
  (angles.map fun a =>
    if a.1 < 0 then a.2 * exp (gaussDepth erf (-x0) x 0.5 / a.1) else 0).sum

/-! ### self_similar_diffusion.py -/

/-- self_similar_diffusion.py 66-67 `benchmark` -/
noncomputable def ssBenchmark (xi : ℝ) : ℝ := 0.5 * (1 / √π) * exp (-xi ^ 2 / 4)

/-- self_similar_diffusion.py 68-69 `benchmarkfull`.  `xi` is not a parameter of the function but
the global of line 35, here one of its entries. -/
noncomputable def ssBenchmarkFull (xi : ℝ) (_z tau A : ℝ) : ℝ :=
  1 / √(A * tau) * 0.5 * (1 / √π) * exp (-xi ^ 2 / 4)

/-- self_similar_diffusion.py 70-71 `dipole_benchmark` -/
noncomputable def dipoleBenchmark (xi : ℝ) : ℝ := 0.5 * (1 / √π) * exp (-xi ^ 2 / 4) * xi

/-- self_similar_diffusion.py 72-73 `gaussian_IC_benchmark` -/
noncomputable def gaussICBenchmark (xi : ℝ) : ℝ := 0.5 * exp (-xi ^ 2 / 4)

/-- self_similar_diffusion.py 75-77 `gaussian_IC_bench_full` -/
noncomputable def gaussICFull (z tau omega A : ℝ) : ℝ :=
  exp (-z ^ 2 / (omega ^ 2 + 4 * A * tau)) / √(A * tau) / √(4 / omega ^ 2 + 1 / A / tau)

/-- self_similar_diffusion.py 79-84 `noniso_part_bench` -/
noncomputable def nonisoPart (z tau omega epsilon mu : ℝ) : ℝ :=
  let u := exp (-z ^ 2 / omega ^ 2) * (if 0 < mu then 1 else 0)
  let ubar := exp (-z ^ 2 / omega ^ 2)
  exp (-tau / epsilon ^ 2) * (u - ubar / 2)

/-- self_similar_diffusion.py 148, 151, 154, 156, 160, 168: the flux that `ss_transport` compares
the solver's flux at `x` and time `t` with.  Line 168 compares `phi / dimensionalize * sigma` with
`benchmark(xi)`. -/
noncomputable def ssTransport (c sigma x t : ℝ) : ℝ :=
  let A := c / 3 / sigma
  let tau := t / c / sigma
  let dimensionalize := √(1 / (A * tau))
  ssBenchmark (x / sigma / √(A * tau)) * dimensionalize / sigma

/-- self_similar_diffusion.py 271, 275-284, 298, 307: the flux that `ss_dipole` compares the
solver's flux at `x` and time `t` with; `x0` is half the width of a cell (line 275). -/
noncomputable def ssDipole (c sigma x0 x t : ℝ) : ℝ :=
  let A := c / 3 / sigma
  let tau := t / c / sigma
  let z0 := x0 / sigma
  let t0 := -z0 ^ 2 / 6 / A
  let dimensionalize := 1 / (A * (tau - t0) / z0)
  dipoleBenchmark (x / sigma / √(A * (tau - t0))) * dimensionalize / sigma

/-- Index `i - 1` of an array of length `n`, where index -1 is the last entry. -/
def prevIndex (n i : ℕ) : ℕ := if i = 0 then n - 1 else i - 1

/-- self_similar_diffusion.py 13-27 `loglog_converge` for arrays of length `n`; the slopes of line
23 for `ix` from `start` to `n - 2`, and their mean. -/
noncomputable def loglogConverge (n : ℕ) (x error : ℕ → ℝ) (start : ℕ) : ℝ :=
  (∑ k ∈ Finset.range (n - 1 - start),
    -log (error (prevIndex n (start + k)) / error (start + k)) /
      log (x (prevIndex n (start + k)) / x (start + k))) / ((n - 1 - start : ℕ) : ℝ)

end Verif.Model
