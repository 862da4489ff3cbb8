import Verif.Model.SlabSolve
import Verif.Model.Dop853

/-!
Model: `solve` with its options (main_functions.py 98-276), for both geometries and without material
coupling: `estimate_wavespeed`, `find_wave_loc`, `save_wave_loc`, `eval_times` with `eval_array`,
`choose_xs` with `specified_xs`.

`solve` is what `Model/Solve` and `Model/SlabSolve` have of it, with the wave data that it returns as well,
and with `sigma_t` as a Python value: the class `build` and the class `find_wave` want different types.

Simplification: the options that are compared with `True` and `False` have one of these values.
-/

namespace Verif.Model

/-- A Python value handed over for a number. -/
inductive PyNumber where
  | float (x : ℝ)
  | array (xs : List ℝ)

/-- build_problem.py 35 and 98: the attribute has the type `float64`; an array cannot be assigned. -/
def PyNumber.toFloat : PyNumber → Option ℝ
  | .float x => some x
  | .array _ => none

/-- `value[0]`: a float has no entries. -/
def PyNumber.entry0 : PyNumber → Option ℝ
  | .float _ => none
  | .array xs => xs.head?

/-- The options of a call. -/
structure SolveOptions where
  /-- `estimate_wavespeed` -/
  estimate : Bool
  /-- `find_wave_loc` -/
  findWave : Bool
  /-- `save_wave_loc` -/
  saveWave : Bool
  /-- `eval_array`, if `eval_times` is true -/
  times : Option (List ℝ)
  /-- `specified_xs`, if `choose_xs` is true -/
  choose : Option (List ℝ)

/-- What is reported for the final time, or for each of the times. -/
inductive SolveReport where
  | final (R : Results)
  | times (out : List Output)

/-- What `solve` returns (main_functions.py 276) but for the run time and the arguments passed through. -/
structure Returned where
  report : SolveReport
  wavespeed : List ℝ
  tpnts : List ℝ
  leftEdges : List ℝ
  rightEdges : List ℝ
  tFront : List ℝ
  waveTpnts : List ℝ
  waveXpnts : List ℝ

/-- The lists `rhs.times_list` and `rhs.wave_loc_list` (rhs_class_1.py 130 and 133).  Only
`derivative_saver` (157-172) appends to them, and `call` (175-366) does not call it. -/
noncomputable def rhsTimesList : List ℝ := [0]
noncomputable def rhsWaveLocList : List ℝ := [0]

namespace Problem

variable (P : Problem)

/-- `solve` with `eval_times` in slab geometry, as `Problem.solveTimes`; main_functions.py 213-239 and
252-276. -/
noncomputable def slabSolveTimes (τ : Tableau) (D : Interpolant) (es : List Event)
    (choose : Option (List ℝ)) (ts : List ℝ) : Option (List Output) :=
  P.startVector.bind fun y0 => P.slabObjects.bind fun o =>
    (P.slabCall.solveIvp τ D es P.mesh.tfinal o y0 ts).bind fun s =>
      if s.2.length = ts.length then
        P.finishEval s.1.shared choose
          (s.2.map fun c => (c.1, flatten3 P.Nang P.mesh.N (P.M + 1) c.2))
      else none

/-- As `Problem.extraLoop`, for the slab. -/
noncomputable def slabExtraLoop (c : DopCoefficients) (t h : ℝ) (y : StateVec) :
    ℕ → SlabObjects × (ℕ → StateVec) → Option (SlabObjects × (ℕ → StateVec))
  | 0, x => some x
  | i + 1, x => (slabExtraLoop c t h y i x).bind fun z =>
      (P.slabCall z.1 (t + c.node (13 + i) * h) (combine y h (c.row (13 + i)) z.2 (13 + i))).map fun r =>
        (r.1, Function.update z.2 (13 + i) r.2)

/-- As `Problem.extraValues`, for the slab. -/
noncomputable def slabExtraValues (c : DopCoefficients) (t h : ℝ) (y : StateVec) (K : ℕ → StateVec) :
    ℕ → StateVec :=
  ((P.slabObjects.bind fun o => P.slabExtraLoop c t h y 3 (o, K)).map Prod.snd).getD K

/-- The dense output of `DOP853` for the slab. -/
noncomputable def slabDopDense (c : DopCoefficients) : Interpolant :=
  dopInterpolant c.tableau fun t y h K => dopRowsOf c y h K (P.slabExtraValues c t h y K)

/-- What is reported, by geometry and `eval_times`. -/
noncomputable def report (leg : ℕ → List ℝ) (τ : Tableau) (D : Interpolant) (es : List Event)
    (o : SolveOptions) : Option SolveReport :=
  match P.mesh.geometry, o.times with
  | .sphere, none => (P.solve τ D es o.estimate o.choose).map .final
  | .sphere, some ts => (P.solveTimes τ D es o.choose ts).map .times
  | .slab, none => (P.slabSolve leg τ D es o.estimate o.choose).map .final
  | .slab, some ts => (P.slabSolveTimes τ D es o.choose ts).map .times

/-- main_functions.py 204-211 with `find_wave.__init__` (wave_loc_estimator.py 15-31): line 30 takes
`sigma[0]`.  What would come of the search after that, `search`, is open. -/
noncomputable def waveEdges (sigmaT : PyNumber) (search : ℝ → Option (List ℝ × List ℝ × List ℝ))
    (o : SolveOptions) : Option (List ℝ × List ℝ × List ℝ) :=
  if o.findWave then sigmaT.entry0.bind search else some ([0], [0], [0])

/-- `solve`, main_functions.py 98-276; `P.sigmaT` is overwritten with the argument. -/
noncomputable def solveCall (leg : ℕ → List ℝ) (τ : Tableau) (D : Interpolant) (es : List Event)
    (sigmaT : PyNumber) (search : ℝ → Option (List ℝ × List ℝ × List ℝ)) (o : SolveOptions) :
    Option Returned :=
  sigmaT.toFloat.bind fun σ =>
    let P := { P with sigmaT := σ }
    (P.report leg τ D es o).bind fun R =>
      (waveEdges sigmaT search o).map fun w =>
        { report := R
          wavespeed := [0]
          tpnts := o.times.getD (P.outputTimes o.estimate)
          leftEdges := w.1
          rightEdges := w.2.1
          tFront := w.2.2
          waveTpnts := if o.saveWave then rhsTimesList else [0]
          waveXpnts := if o.saveWave then rhsWaveLocList else [0] }

end Problem

end Verif.Model
