import Verif.Model.ErrorTables
import Mathlib.Analysis.SpecialFunctions.Pow.Real

/-!
# Convergence plots

Model of the fits and of what `rms_plotter` draws from a table of errors: `find_c` and `find_c_semilog`
(`plots/make_plots.py` 47-76), `order_triangle` (`plots/plot_functions/order_triangle.py` 12-38),
`plot_RMS_vs_cells` (`make_plots.py` 169-458) and `plot_RMS_vs_Ms` (460-548).

Curves and triangles are modelled, not axis limits, colours, labels and files. Simplifications: errors and
numbers of cells are positive, so that the logarithms exist; writing labels and showing the figure does not
fail. `plt.ylim` is a function until `plot_RMS_vs_Ms` replaces it by a number (479, 488); whether it still is
a function is part of the session.
-/

namespace Verif.Model

open Real

/-- Mean of a list, `np.mean`. -/
noncomputable def listMean (xs : List ℝ) : ℝ := xs.sum / xs.length

/-- What `scipy.stats.linregress` returns and is used. -/
structure Regression where
  slope : ℝ
  intercept : ℝ
  r : ℝ

/-- Sum of the products of the deviations from the means. -/
noncomputable def coDeviation (xs ys : List ℝ) : ℝ :=
  (List.zipWith (fun x y => (x - listMean xs) * (y - listMean ys)) xs ys).sum

open Classical in
/-- `scipy.stats.linregress`: lists of different lengths, empty lists and equal abscissas fail. -/
noncomputable def linregress (xs ys : List ℝ) : Option Regression :=
  if xs.length = ys.length ∧ coDeviation xs xs ≠ 0 then
    let slope := coDeviation xs ys / coDeviation xs xs
    some { slope := slope
           intercept := listMean ys - slope * listMean xs
           r := if coDeviation ys ys = 0 then 0
             else coDeviation xs ys / √(coDeviation xs xs * coDeviation ys ys) }
  else none

/-- make_plots.py 47-58 `find_c`: the first data point is skipped. The attribute `energy_RMS` is used too. -/
noncomputable def findC (d : TableLoad) : Option ℝ :=
  d.energyRms.bind fun energy =>
    (linregress (d.cells.tail.map log) (d.rms.tail.map log)).bind fun a =>
      (linregress (d.cells.tail.map log) (energy.tail.map log)).map fun _ => exp a.intercept

open Classical in
/-- make_plots.py 60-76 `find_c_semilog`: the slope returned and whether `bad correlation` is printed; `r` is the
one of the second fit. -/
noncomputable def findCSemilog (d : TableLoad) : Option (ℝ × Bool) :=
  d.Ms.bind fun Ms => d.energyRms.bind fun energy =>
    (linregress Ms.tail (d.rms.tail.map log)).bind fun a =>
      (linregress Ms.tail (energy.tail.map log)).map fun b => (a.slope, decide (|b.r| < 0.9))

/-- Something drawn: a curve through data points, or a triangle with its three segments and the order written
next to it. -/
inductive Drawn where
  | curve (xs ys : List ℝ)
  | triangle (segments : List ((ℝ × ℝ) × ℝ × ℝ)) (label : ℤ)

/-- order_triangle.py 12-38 (the text is placed with `dy`, which is left out). -/
noncomputable def orderTriangle (xstart xend : ℝ) (slope : ℤ) (intercept dx : ℝ) : Drawn :=
  let p1 := (xstart, (intercept - intercept / dx) * xstart ^ (-(slope : ℝ)))
  let p2 := (xend, (intercept - intercept / dx) * xend ^ (-(slope : ℝ)))
  .triangle [(p1, p2), ((p1.1, p1.2), (p1.1, p2.2)), ((p1.1, p2.2), (p2.1, p2.2))] slope

/-- `plt.loglog` and `plt.semilogy`: the two arrays need the same length. -/
def drawCurve (xs ys : List ℝ) : Option Drawn := if xs.length = ys.length then some (.curve xs ys) else none

/-- A call of `plt.ylim`, which fails after it was replaced by a number. -/
def callYlim (ylim : Bool) : Option Unit := if ylim then some () else none

/-- What the plotter was asked for (make_plots.py 26-36, 79). -/
structure PlotQuery where
  tfinal : ℝ
  source : String
  M : ℕ
  uncollided : Bool
  moving : Bool

/-- What one branch of `plot_RMS_vs_cells` does: whether it calls `plt.ylim`, whether it calls `find_c`, how
`cells` and `RMS` are sliced before the fit and before the curve is drawn, whether `energy_RMS` is sliced like
them, whether the curve is the one of `energy_RMS`, and what is drawn with the result of the fit. -/
structure PlotPlan where
  ylim : Bool := false
  fit : Bool := false
  fitSlice : List ℝ → List ℝ := id
  drawSlice : List ℝ → List ℝ := id
  sliceEnergy : Bool := false
  drawEnergy : Bool := false
  extra : List ℝ → ℝ → List Drawn := fun _ _ => []

/-- `energy_list` (make_plots.py 356-357) -/
def energyList : List String :=
  ["su_olson_energy", "su_olson_energy_s2", "gaussian_energy_s2", "gaussian_s_thick_s2_energy",
    "gaussian_s_thick_s8_energy", "su_olson_thick_s2_energy", "su_olson_thick_s8_energy"]

/-- make_plots.py 187-354: the branches for `tfinal == 1`. -/
noncomputable def planAtOne (q : PlotQuery) : PlotPlan :=
  let both := q.uncollided && q.moving
  if q.source = "MMS" then
    if q.M = 6 then
      { ylim := true, fit := true, fitSlice := List.take 3, drawSlice := List.take 3
        extra := fun _ c => [orderTriangle 3 5 7 c 1.5] }
    else if q.M = 2 then
      { ylim := true, fit := true, fitSlice := List.take 5, drawSlice := List.take 5
        extra := fun _ c => [orderTriangle 9 15 3 c 1.05] }
    else { ylim := true }
  else if q.source = "square_s" then
    { ylim := true, fit := both, drawSlice := fun l => (l.drop 1).take 4
      extra := fun _ c => if q.M = 6 then [orderTriangle 9 15 2 c 1.7]
        else if q.M = 4 then [orderTriangle 9 15 2 c 1.05] else [] }
  else if q.source = "square_IC" then
    { ylim := true, fit := both
      extra := fun _ c => if q.M = 6 ∨ q.M = 4 then [orderTriangle 9 15 2 c 1.5] else [] }
  else if q.source = "plane_IC" then
    { ylim := true, fit := both
      extra := fun cells c => .curve cells (cells.map fun n => c * n ^ (-1.16 : ℝ)) ::
        if q.M = 6 ∨ q.M = 4 then [orderTriangle 9 15 1 c 1.7] else [] }
  else if q.source = "gaussian_IC" then
    let slice : List ℝ → List ℝ := if q.M = 6 then List.take 4 else id
    { ylim := both && decide (q.M = 6 ∨ q.M = 4 ∨ q.M = 3), fit := both
      fitSlice := slice, drawSlice := slice
      extra := fun _ c => if q.M = 6 then [orderTriangle 3 5 6 c 1.7]
        else if q.M = 4 then [orderTriangle 5 9 4 c 1.7]
        else if q.M = 3 then [orderTriangle 5 12 4 c 1.7] else [] }
  else if q.source = "gaussian_s" then
    let slice : List ℝ → List ℝ := if q.M = 6 then List.take 4 else id
    { ylim := both && decide (q.M = 6 ∨ q.M = 4 ∨ q.M = 3), fit := both
      fitSlice := slice, drawSlice := slice
      extra := fun _ c => if q.M = 6 then [orderTriangle 3 5 6 c 1.3, orderTriangle 7 11 7 c 2.2]
        else if q.M = 4 ∨ q.M = 3 then [orderTriangle 5 9 4 c 1.7] else [] }
  else if q.source = "su_olson" ∨ q.source = "su_olson_energy" then
    { ylim := true, fit := !q.uncollided && !q.moving
      extra := fun _ c => if q.M = 4 then [orderTriangle 5 8 1 c 1.2] else [] }
  else if q.source = "su_olson_s2" ∨ q.source = "su_olson_energy_s2" then
    { ylim := true, fit := true
      extra := fun _ c => if both = true ∧ q.M = 4 then [orderTriangle 6 11 2 c 1.2] else [] }
  else if q.source = "gaussian_s2" ∨ q.source = "gaussian_energy_s2" then
    { fit := both, extra := fun _ c => if q.M = 6 then [orderTriangle 6 11 7 c 1.01] else [] }
  else if q.source = "su_olson_thick_s2" ∨ q.source = "su_olson_thick_s2_energy" then
    { fit := q.uncollided
      extra := fun _ c => if q.M = 4 ∧ q.moving = true then [orderTriangle 18 24 2 c 1.2] else [] }
  else if q.source = "gaussian_s_thick_s2" ∨ q.source = "gaussian_s_thick_s2_energy" then
    { ylim := true, fit := both, fitSlice := List.dropLast, drawSlice := List.dropLast, sliceEnergy := true
      extra := fun _ c => if q.M = 6 then [orderTriangle 4 6 7 c 2] else [] }
  else {}

/-- make_plots.py 384-413: the branches for the times 1.25 and 0.8333333333333334. -/
noncomputable def planAtScaled (q : PlotQuery) : PlotPlan :=
  let both := q.uncollided && q.moving
  if q.source = "square_IC" then
    { ylim := true, fit := both
      extra := fun _ c => if q.M = 6 ∨ q.M = 4 then [orderTriangle 9 15 2 c 1.5] else [] }
  else if q.source = "gaussian_IC" then
    { ylim := true, fit := both
      extra := fun _ c => if q.M = 6 then [orderTriangle 9 15 7 c 1.5]
        else if q.M = 4 then [orderTriangle 5 8 5 c 1.9] else [] }
  else {}

/-- make_plots.py 416-430: the branches for `tfinal == 100`. -/
noncomputable def planAtHundred (q : PlotQuery) : PlotPlan :=
  if q.source = "su_olson_thick_s2" ∨ q.source = "su_olson_thick_s2_energy" then
    { ylim := true, fit := q.uncollided && decide (q.M = 4)
      fitSlice := List.dropLast, drawSlice := List.dropLast
      extra := fun _ c => [orderTriangle 12 16 5 c 1.5] }
  else { ylim := true }

/-- make_plots.py 438-458: the branch for `tfinal == 10`; the fit is made in any case (457). -/
noncomputable def planAtTen (q : PlotQuery) : PlotPlan :=
  { fit := true
    extra := fun _ c => if q.source = "plane_IC" ∧ q.M = 6 ∧ q.moving = true ∧ q.uncollided = true then
      [orderTriangle 3 6 6 c 1.7] else [] }

open Classical in
/-- make_plots.py 187, 384, 416, 438: the branch by `tfinal`; for other times nothing is done. -/
noncomputable def plotPlan (q : PlotQuery) : Option PlotPlan :=
  if q.tfinal = 1 then some { planAtOne q with drawEnergy := decide (q.source ∈ energyList) }
  else if q.tfinal = 1.25 ∨ q.tfinal = 0.8333333333333334 then some (planAtScaled q)
  else if q.tfinal = 100 then some (planAtHundred q)
  else if q.tfinal = 10 then some (planAtTen q)
  else none

/-- `energy_RMS` as the branch leaves it. -/
def PlotPlan.energy (p : PlotPlan) (d : TableLoad) : Option (List ℝ) :=
  if p.sliceEnergy then d.energyRms.map p.drawSlice else d.energyRms

/-- The table at the time of the fit. -/
def PlotPlan.fitted (p : PlotPlan) (d : TableLoad) : TableLoad :=
  { d with cells := p.fitSlice d.cells, rms := p.fitSlice d.rms, energyRms := p.energy d }

/-- The curve of the errors. -/
def PlotPlan.curve (p : PlotPlan) (d : TableLoad) : Option Drawn :=
  if p.drawEnergy then (p.energy d).bind (drawCurve (p.drawSlice d.cells))
  else drawCurve (p.drawSlice d.cells) (p.drawSlice d.rms)

/-- What is drawn with the result of the fit. -/
noncomputable def PlotPlan.extras (p : PlotPlan) (d : TableLoad) : Option (List Drawn) :=
  if p.fit then (findC (p.fitted d)).map (p.extra (p.fitted d).cells) else some []

/-- What is drawn by a branch; a slice of `energy_RMS` needs the attribute. -/
noncomputable def PlotPlan.run (p : PlotPlan) (ylim : Bool) (d : TableLoad) : Option (List Drawn) :=
  if (p.ylim = true ∧ ylim = false) ∨ (p.sliceEnergy = true ∧ d.energyRms = none) then none
  else (p.extras d).bind fun out => (p.curve d).map fun c => out ++ [c]

/-- make_plots.py 169-458 `plot_RMS_vs_cells` on a table that was loaded; `ylim`: `plt.ylim` is a function. -/
noncomputable def plotVsCells (ylim : Bool) (q : PlotQuery) (d : TableLoad) : Option (List Drawn) :=
  match plotPlan q with
  | none => some []
  | some p => p.run ylim d

open Classical in
/-- make_plots.py 460-548 `plot_RMS_vs_Ms`: whether `plt.ylim` is a function afterwards, also when the call
fails, and what is drawn. `self.Ms[-1]` (462) fails when `Ms` is not set or empty. -/
noncomputable def plotVsMs (ylim : Bool) (q : PlotQuery) (d : TableLoad) : Bool × Option (List Drawn) :=
  match d.Ms with
  | none | some [] => (ylim, none)
  | some (m :: ms) =>
    let Ms := m :: ms
    if q.source ∈ ["su_olson_thick_s2_energy", "gaussian_s_thick_s2_energy", "gaussian_energy_s2"] then
      (ylim, do
        if q.source = "gaussian_s_thick_s2_energy" ∧ (q.tfinal = 1 ∨ q.tfinal = 10 ∨ q.tfinal = 100) ∨
            q.source = "su_olson_thick_s2_energy" ∧ q.tfinal = 100 then callYlim ylim
        let c ← d.energyRms.bind (drawCurve Ms)
        let _ ← findCSemilog d
        pure [c])
    else if q.source = "MMS" then
      (false, do
        let d := { d with Ms := some (Ms.take 4), rms := d.rms.take 4 }
        let _ ← findCSemilog d
        let c ← drawCurve (Ms.take 4) d.rms
        pure [c])
    else if q.source = "gaussian_IC" ∨ q.source = "gaussian_s" then
      (false, do
        let _ ← findCSemilog d
        let c ← drawCurve Ms d.rms
        pure [c])
    else
      (ylim, do
        if q.source = "gaussian_s2" ∨ q.source = "gaussian_s_thick_s2" then do
          let _ ← findCSemilog d
          if q.source = "gaussian_s_thick_s2" ∧ (q.tfinal = 1 ∨ q.tfinal = 10 ∨ q.tfinal = 100) then
            callYlim ylim
        else if q.source = "su_olson_thick_s2" ∧ q.uncollided = false ∧ q.moving = false then do
          if q.tfinal = 100 then callYlim ylim
          let _ ← findCSemilog d
        let c ← drawCurve Ms d.rms
        pure [c])

end Verif.Model
