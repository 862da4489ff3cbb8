import Verif.Model.ConvergencePlots
import Mathlib.Tactic.LinearCombination
import Mathlib.Algebra.BigOperators.Group.List.Basic

/-! Properties of the fits and convergence plots (C138). -/

namespace Verif.Props

open Verif.Model Real

/-- Sum of the squared distances of the data from the line `a + b x`. -/
noncomputable def squaredMisfit (xs ys : List ℝ) (a b : ℝ) : ℝ :=
  (List.zipWith (fun x y => (y - (a + b * x)) ^ 2) xs ys).sum

theorem sum_deviation : ∀ (xs : List ℝ) (m : ℝ), (xs.map fun x => x - m).sum = xs.sum - xs.length * m
  | [], m => by simp
  | x :: xs, m => by
    rw [List.map_cons, List.sum_cons, sum_deviation xs m, List.sum_cons, List.length_cons]
    push_cast
    ring

theorem sum_deviation_mean {xs : List ℝ} (h : xs ≠ []) : (xs.map fun x => x - listMean xs).sum = 0 := by
  rw [sum_deviation, listMean, mul_div_cancel₀ _ (by simpa using h), sub_self]

theorem coDeviation_ne_nil {xs : List ℝ} (h : coDeviation xs xs ≠ 0) : xs ≠ [] := by
  rintro rfl
  simp [coDeviation] at h

/-- Products of deviations, for arbitrary centres. -/
theorem zip_expand (mx my a b : ℝ) : ∀ xs ys : List ℝ, xs.length = ys.length →
    (List.zipWith (fun x y => (y - (a + b * x)) ^ 2) xs ys).sum =
      (List.zipWith (fun _ y => (y - my) * (y - my)) xs ys).sum
      - 2 * b * (List.zipWith (fun x y => (x - mx) * (y - my)) xs ys).sum
      + b ^ 2 * (List.zipWith (fun x x' => (x - mx) * (x' - mx)) xs xs).sum
      + 2 * (my - a - b * mx) * (ys.map fun y => y - my).sum
      - 2 * b * (my - a - b * mx) * (xs.map fun x => x - mx).sum
      + xs.length * (my - a - b * mx) ^ 2
  | [], [], _ => by simp
  | x :: xs, y :: ys, h => by
    have ih := zip_expand mx my a b xs ys (by simpa using h)
    simp only [List.zipWith_cons_cons, List.sum_cons, List.map_cons, List.length_cons]
    rw [ih]
    push_cast
    ring
  | [], _ :: _, h => by simp at h
  | _ :: _, [], h => by simp at h

theorem linregress_spec {xs ys : List ℝ} {R : Regression} (h : linregress xs ys = some R) :
    xs.length = ys.length ∧ coDeviation xs xs ≠ 0 ∧ R.slope = coDeviation xs ys / coDeviation xs xs ∧
      R.intercept = listMean ys - R.slope * listMean xs := by
  classical
  unfold linregress at h
  by_cases hc : xs.length = ys.length ∧ coDeviation xs xs ≠ 0
  · rw [if_pos hc, Option.some_inj] at h
    subst h
    exact ⟨hc.1, hc.2, rfl, rfl⟩
  · rw [if_neg hc] at h
    exact absurd h (by simp)

/-- The misfit of a line is the one of the fitted line plus a square form in the difference of the parameters. -/
theorem misfit_eq {xs ys : List ℝ} {R : Regression} (h : linregress xs ys = some R) (a b : ℝ) :
    squaredMisfit xs ys a b = squaredMisfit xs ys R.intercept R.slope +
      ((b - R.slope) ^ 2 * coDeviation xs xs +
        xs.length * ((R.intercept - a) + (R.slope - b) * listMean xs) ^ 2) := by
  obtain ⟨hl, hx, hs', hi⟩ := linregress_spec h
  have hne := coDeviation_ne_nil hx
  have hne' : ys ≠ [] := by
    rintro rfl
    exact hne (by simpa using hl)
  have e := fun a b => zip_expand (listMean xs) (listMean ys) a b xs ys hl
  have e1 := sum_deviation_mean hne
  have e2 := sum_deviation_mean hne'
  have hs : R.slope * coDeviation xs xs = coDeviation xs ys := by
    rw [hs']
    exact div_mul_cancel₀ _ hx
  unfold squaredMisfit
  rw [e a b, e R.intercept R.slope, e1, e2]
  change _ - 2 * b * coDeviation xs ys + b ^ 2 * coDeviation xs xs + _ - _ + _ =
    _ - 2 * R.slope * coDeviation xs ys + R.slope ^ 2 * coDeviation xs xs + _ - _ + _ + _
  rw [← hs, hi]
  ring

theorem zipWith_self_nonneg (m : ℝ) : ∀ xs : List ℝ,
    0 ≤ (List.zipWith (fun x x' => (x - m) * (x' - m)) xs xs).sum
  | [] => by simp
  | x :: xs => by
    rw [List.zipWith_cons_cons, List.sum_cons]
    exact add_nonneg (mul_self_nonneg _) (zipWith_self_nonneg m xs)

theorem coDeviation_self_nonneg (xs : List ℝ) : 0 ≤ coDeviation xs xs := zipWith_self_nonneg _ xs

/-- C138: the fit is the least squares line, and the only one. -/
theorem c138_least_squares {xs ys : List ℝ} {R : Regression} (h : linregress xs ys = some R) (a b : ℝ) :
    squaredMisfit xs ys R.intercept R.slope ≤ squaredMisfit xs ys a b ∧
      (squaredMisfit xs ys a b ≤ squaredMisfit xs ys R.intercept R.slope → a = R.intercept ∧ b = R.slope) := by
  have hx : coDeviation xs xs ≠ 0 := (linregress_spec h).2.1
  have hpos : 0 < coDeviation xs xs := (coDeviation_self_nonneg xs).lt_of_ne' hx
  have hn : (0 : ℝ) < xs.length := by
    exact_mod_cast List.length_pos_iff.2 (coDeviation_ne_nil hx)
  rw [misfit_eq h a b]
  have h1 : 0 ≤ (b - R.slope) ^ 2 * coDeviation xs xs := by positivity
  have h2 : 0 ≤ (xs.length : ℝ) * ((R.intercept - a) + (R.slope - b) * listMean xs) ^ 2 := by positivity
  refine ⟨by linarith, fun hle => ?_⟩
  have e1 : (b - R.slope) ^ 2 * coDeviation xs xs = 0 := by linarith
  have e2 : (xs.length : ℝ) * ((R.intercept - a) + (R.slope - b) * listMean xs) ^ 2 = 0 := by linarith
  have e3 : b = R.slope := by
    have := pow_eq_zero_iff (two_ne_zero) |>.1 ((mul_eq_zero.1 e1).resolve_right hx)
    linarith
  have e4 := pow_eq_zero_iff (two_ne_zero) |>.1 ((mul_eq_zero.1 e2).resolve_left hn.ne')
  rw [e3, sub_self, zero_mul, add_zero] at e4
  exact ⟨by linarith, e3⟩

theorem misfit_line (a b : ℝ) : ∀ xs : List ℝ, squaredMisfit xs (xs.map fun x => a + b * x) a b = 0
  | [] => by simp [squaredMisfit]
  | x :: xs => by
    have := misfit_line a b xs
    unfold squaredMisfit at this ⊢
    rw [List.map_cons, List.zipWith_cons_cons, List.sum_cons, this]
    ring

theorem misfit_nonneg (a b : ℝ) : ∀ xs ys : List ℝ, 0 ≤ squaredMisfit xs ys a b
  | [], _ => by simp [squaredMisfit]
  | _ :: _, [] => by simp [squaredMisfit]
  | x :: xs, y :: ys => by
    have := misfit_nonneg a b xs ys
    unfold squaredMisfit at this ⊢
    rw [List.zipWith_cons_cons, List.sum_cons]
    positivity

theorem zipWith_self_zero (m : ℝ) : ∀ xs : List ℝ,
    (List.zipWith (fun x x' => (x - m) * (x' - m)) xs xs).sum = 0 → ∀ x ∈ xs, x = m
  | [], _ => by simp
  | x :: xs, h => by
    rw [List.zipWith_cons_cons, List.sum_cons] at h
    have h1 := mul_self_nonneg (x - m)
    have h2 := zipWith_self_nonneg m xs
    intro z hz
    rcases List.mem_cons.1 hz with rfl | hz
    · have : (z - m) * (z - m) = 0 := by linarith
      linarith [mul_self_eq_zero.1 this]
    · exact zipWith_self_zero m xs (by linarith) z hz

/-- Two different abscissas are enough for a fit. -/
theorem linregress_some {xs ys : List ℝ} (hl : xs.length = ys.length) {x x' : ℝ} (hx : x ∈ xs) (hx' : x' ∈ xs)
    (hne : x ≠ x') : ∃ R, linregress xs ys = some R := by
  classical
  have h0 : coDeviation xs xs ≠ 0 := fun h0 =>
    hne ((zipWith_self_zero _ xs h0 x hx).trans (zipWith_self_zero _ xs h0 x' hx').symm)
  unfold linregress
  rw [if_pos ⟨hl, h0⟩]
  exact ⟨_, rfl⟩

/-- The fit of data on a line is the line. -/
theorem linregress_line (a b : ℝ) {xs : List ℝ} {x x' : ℝ} (hx : x ∈ xs) (hx' : x' ∈ xs) (hne : x ≠ x') :
    ∃ R, linregress xs (xs.map fun x => a + b * x) = some R ∧ R.intercept = a ∧ R.slope = b := by
  obtain ⟨R, hR⟩ := linregress_some (ys := xs.map fun x => a + b * x) (by simp) hx hx' hne
  have h := (c138_least_squares hR a b).2 (by rw [misfit_line]; exact misfit_nonneg _ _ _ _)
  exact ⟨R, hR, h.1.symm, h.2.symm⟩

/-- C138: `find_c` returns the constant of a power law that the errors follow from the second table entry on,
with any exponent, whatever the errors of the energy density are. -/
theorem c138_power_law {d : TableLoad} {C p : ℝ} (hC : 0 < C) (hpos : ∀ n ∈ d.cells.tail, 0 < n)
    {n n' : ℝ} (hn : n ∈ d.cells.tail) (hn' : n' ∈ d.cells.tail) (hne : n ≠ n')
    (hdata : d.rms.tail = d.cells.tail.map fun n => C * n ^ (-p)) {energy : List ℝ}
    (he : d.energyRms = some energy) (hl : energy.length = d.cells.length) : findC d = some C := by
  have hlog : log n ≠ log n' := fun h => hne (log_injOn_pos (hpos n hn) (hpos n' hn') h)
  have hm : log n ∈ d.cells.tail.map log := List.mem_map_of_mem hn
  have hm' : log n' ∈ d.cells.tail.map log := List.mem_map_of_mem hn'
  obtain ⟨R, h1, h2, -⟩ := linregress_line (log C) (-p) hm hm' hlog
  obtain ⟨R', h3⟩ := linregress_some (ys := energy.tail.map log) (by simp [hl]) hm hm' hlog
  have e : d.rms.tail.map log = (d.cells.tail.map log).map fun x => log C + -p * x := by
    rw [hdata, List.map_map, List.map_map]
    apply List.map_congr_left
    intro z hz
    simp only [Function.comp]
    rw [log_mul hC.ne' (rpow_pos_of_pos (hpos z hz) _).ne', log_rpow (hpos z hz)]
  unfold findC
  rw [he, Option.bind_some, e, h1, Option.bind_some, h3, Option.map_some, h2, exp_log hC]

/-- C138: `find_c_semilog` returns minus the rate of errors that fall off exponentially with the order. -/
theorem c138_exponential {d : TableLoad} {C k : ℝ} (hC : 0 < C) {Ms : List ℝ} (hMs : d.Ms = some Ms)
    {m m' : ℝ} (hm : m ∈ Ms.tail) (hm' : m' ∈ Ms.tail) (hne : m ≠ m')
    (hdata : d.rms.tail = Ms.tail.map fun m => C * exp (-k * m)) {energy : List ℝ}
    (he : d.energyRms = some energy) (hl : energy.length = Ms.length) :
    ∃ w, findCSemilog d = some (-k, w) := by
  obtain ⟨R, h1, -, h2⟩ := linregress_line (log C) (-k) hm hm' hne
  obtain ⟨R', h3⟩ := linregress_some (ys := energy.tail.map log) (by simp [hl]) hm hm' hne
  have e : d.rms.tail.map log = Ms.tail.map fun x => log C + -k * x := by
    rw [hdata, List.map_map]
    apply List.map_congr_left
    intro z _
    simp only [Function.comp]
    rw [log_mul hC.ne' (exp_pos _).ne', log_exp]
  unfold findCSemilog
  rw [hMs, Option.bind_some, he, Option.bind_some, e, h1, Option.bind_some, h3, Option.map_some, h2]
  exact ⟨_, rfl⟩

/-- C138: whether `bad correlation` is printed does not depend on the errors that are fitted. -/
theorem c138_warning {d d' : TableLoad} (hM : d.Ms = d'.Ms) (he : d.energyRms = d'.energyRms) {s s' : ℝ}
    {w w' : Bool} (h : findCSemilog d = some (s, w)) (h' : findCSemilog d' = some (s', w')) : w = w' := by
  unfold findCSemilog at h h'
  rw [hM, he] at h
  obtain ⟨Ms, e1, h⟩ := Option.bind_eq_some_iff.1 h
  obtain ⟨Ms', e1', h'⟩ := Option.bind_eq_some_iff.1 h'
  obtain ⟨en, e2, h⟩ := Option.bind_eq_some_iff.1 h
  obtain ⟨en', e2', h'⟩ := Option.bind_eq_some_iff.1 h'
  obtain ⟨R, -, h⟩ := Option.bind_eq_some_iff.1 h
  obtain ⟨R', -, h'⟩ := Option.bind_eq_some_iff.1 h'
  obtain ⟨S, e3, h⟩ := Option.map_eq_some_iff.1 h
  obtain ⟨S', e3', h'⟩ := Option.map_eq_some_iff.1 h'
  rw [e1, Option.some_inj] at e1'
  rw [e2, Option.some_inj] at e2'
  subst e1' e2'
  rw [e3, Option.some_inj] at e3'
  subst e3'
  rw [← (Prod.mk.inj h).2, ← (Prod.mk.inj h').2]

/-- C138: the corners of the triangle lie on the curve `(1 - 1/dx) C x^(-order)`: parallel to errors `C x^(-order)`,
and below them when `dx > 1`; the order is the one written in the call. -/
theorem c138_triangle (xs xe : ℝ) (order : ℤ) (C dx : ℝ) :
    ∃ a b c, orderTriangle xs xe order C dx = .triangle [a, b, c] order ∧
      a = ((xs, (1 - 1 / dx) * (C * xs ^ (-(order : ℝ)))), (xe, (1 - 1 / dx) * (C * xe ^ (-(order : ℝ))))) ∧
      b = (a.1, (a.1.1, a.2.2)) ∧ c = ((a.1.1, a.2.2), a.2) := by
  refine ⟨_, _, _, rfl, ?_, ?_, ?_⟩
  · congr 1 <;> congr 1 <;> ring
  · rfl
  · rfl

/-- The attribute `energy_RMS` is missing after loading a table of a transport problem, and `find_c` fails. -/
theorem loaded_energy {D : Disk} {q : TableQuery} {d : TableLoad} (h : loadTable D q = some d)
    (hs : q.source ∉ suOlsonNames) : d.energyRms = none := by
  obtain ⟨-, -, h⟩ := Option.bind_eq_some_iff.1 h
  obtain ⟨f, -, h⟩ := Option.bind_eq_some_iff.1 h
  have key : ∀ cells : Bool, (do
      let g := loadedGroup q.source
      let data ← readMat f (resolve [] (tableGroup g.1 q.time g.2 ++ "/".toList ++
        tableName cells q.uncollided q.moving q.M))
      let row0 ← data[0]?
      let row1 ← data[1]?
      let row2 ← data[2]?
      let row3 ← data[3]?
      let row4 ← data[4]?
      let row5 ← data[5]?
      pure ({ cells := if cells then row0 else row4, Ms := if cells then none else some row0,
              rms := row1, angles := row2, times := row3,
              energyRms := if q.source ∈ suOlsonNames then some row5 else none } : TableLoad)) = some d →
      d.energyRms = none := by
    intro cells h
    obtain ⟨data, -, h⟩ := Option.bind_eq_some_iff.1 h
    obtain ⟨r0, -, h⟩ := Option.bind_eq_some_iff.1 h
    obtain ⟨r1, -, h⟩ := Option.bind_eq_some_iff.1 h
    obtain ⟨r2, -, h⟩ := Option.bind_eq_some_iff.1 h
    obtain ⟨r3, -, h⟩ := Option.bind_eq_some_iff.1 h
    obtain ⟨r4, -, h⟩ := Option.bind_eq_some_iff.1 h
    obtain ⟨r5, -, h⟩ := Option.bind_eq_some_iff.1 h
    rw [← Option.some_inj.1 h]
    exact if_neg hs
  unfold loadTableFrom at h
  by_cases hc : q.major = "cells"
  · rw [if_pos hc] at h
    exact key true h
  · by_cases hM : q.major = "Ms"
    · rw [if_neg hc, if_pos hM] at h
      exact key false h
    · rw [if_neg hc, if_neg hM] at h
      cases h

theorem findC_none {d : TableLoad} (h : d.energyRms = none) : findC d = none := by
  unfold findC
  rw [h]
  rfl

theorem findCSemilog_none {d : TableLoad} (h : d.energyRms = none) : findCSemilog d = none := by
  unfold findCSemilog
  rw [h]
  cases d.Ms <;> rfl

/-- C138: both fits fail on every table loaded for a source that is not one of the Su-Olson names. -/
theorem c138_fits_fail {D : Disk} {q : TableQuery} {d : TableLoad} (h : loadTable D q = some d)
    (hs : q.source ∉ suOlsonNames) : findC d = none ∧ findCSemilog d = none :=
  ⟨findC_none (loaded_energy h hs), findCSemilog_none (loaded_energy h hs)⟩

/-- The transport sources whose plot over the number of cells uses the fit. -/
def FitWanted (q : PlotQuery) : Prop :=
  q.tfinal = 10 ∨
  (q.tfinal = 1 ∧ (q.source = "MMS" ∧ (q.M = 6 ∨ q.M = 2) ∨
    q.source ∈ ["square_s", "square_IC", "plane_IC", "gaussian_IC", "gaussian_s"] ∧
      q.uncollided = true ∧ q.moving = true)) ∨
  ((q.tfinal = 1.25 ∨ q.tfinal = 0.8333333333333334) ∧ q.source ∈ ["square_IC", "gaussian_IC"] ∧
    q.uncollided = true ∧ q.moving = true)

theorem plan_energy_none (p : PlotPlan) {d : TableLoad} (h : d.energyRms = none) : p.energy d = none := by
  unfold PlotPlan.energy
  rw [h]
  split_ifs <;> rfl

theorem run_fit_none {p : PlotPlan} (hp : p.fit = true) {d : TableLoad} (h : d.energyRms = none) (ylim : Bool) :
    p.run ylim d = none := by
  have : p.extras d = none := by
    unfold PlotPlan.extras
    rw [if_pos hp, findC_none (plan_energy_none p h)]
    rfl
  unfold PlotPlan.run
  rw [this]
  split_ifs <;> rfl

theorem run_some {p : PlotPlan} {ylim : Bool} {d : TableLoad} {out : List Drawn} (h : p.run ylim d = some out) :
    ∃ e c, p.extras d = some e ∧ p.curve d = some c ∧ out = e ++ [c] := by
  unfold PlotPlan.run at h
  split_ifs at h
  obtain ⟨e, he, h⟩ := Option.bind_eq_some_iff.1 h
  obtain ⟨c, hc, h⟩ := Option.map_eq_some_iff.1 h
  exact ⟨e, c, he, hc, h.symm⟩

theorem plotVsCells_none {d : TableLoad} (h : d.energyRms = none) (ylim : Bool) {q : PlotQuery}
    (hq : FitWanted q) : plotVsCells ylim q d = none := by
  have : ∃ p, plotPlan q = some p ∧ p.fit = true := by
    rcases hq with hq | ⟨hq, hq'⟩ | ⟨hq, hq', hu, hm⟩
    · exact ⟨planAtTen q, by
        unfold plotPlan
        rw [if_neg (by rw [hq]; norm_num), if_neg (by rw [hq]; norm_num), if_neg (by rw [hq]; norm_num),
          if_pos hq], rfl⟩
    · refine ⟨_, by unfold plotPlan; rw [if_pos hq], ?_⟩
      unfold planAtOne
      rcases hq' with ⟨hq', hM⟩ | ⟨hq', hu, hm⟩
      · rcases hM with hM | hM <;> simp [hq', hM]
      · simp only [List.mem_cons, List.not_mem_nil, or_false] at hq'
        rcases hq' with hq' | hq' | hq' | hq' | hq' <;> simp [hq', hu, hm]
    · refine ⟨planAtScaled q, by
        unfold plotPlan
        rw [if_neg (by rcases hq with hq | hq <;> rw [hq] <;> norm_num), if_pos hq], ?_⟩
      unfold planAtScaled
      simp only [List.mem_cons, List.not_mem_nil, or_false] at hq'
      rcases hq' with hq' | hq' <;> simp [hq', hu, hm]
  obtain ⟨p, h1, h2⟩ := this
  unfold plotVsCells
  rw [h1]
  exact run_fit_none h2 h ylim

/-- C138: for a source that is not one of the Su-Olson names, `plot_RMS_vs_cells` fails whenever it would fit: always
at `tfinal` 10, with the moving mesh and the uncollided solution at the other times, and for `MMS` with `M` 6
or 2. -/
theorem c138_transport_plots_fail {D : Disk} {l : TableQuery} {d : TableLoad} (hl : loadTable D l = some d)
    (hs : l.source ∉ suOlsonNames) (ylim : Bool) {q : PlotQuery} (hq : FitWanted q) :
    plotVsCells ylim q d = none := plotVsCells_none (loaded_energy hl hs) ylim hq

theorem drawCurve_some {xs ys : List ℝ} {c : Drawn} (h : drawCurve xs ys = some c) :
    c = .curve xs ys ∧ xs.length = ys.length := by
  unfold drawCurve at h
  split_ifs at h with hl
  exact ⟨(Option.some_inj.1 h).symm, hl⟩

theorem run_plain {p : PlotPlan} {d : TableLoad} (h : d.energyRms = none) {ylim : Bool} {out : List Drawn}
    (hr : p.run ylim d = some out) :
    p.fit = false ∧ out = [.curve (p.drawSlice d.cells) (p.drawSlice d.rms)] := by
  have hf : p.fit = false := by
    by_contra hf
    rw [run_fit_none (by simpa using hf) h] at hr
    cases hr
  obtain ⟨e, c, he, hc, rfl⟩ := run_some hr
  unfold PlotPlan.extras at he
  rw [hf, if_neg (by simp), Option.some_inj] at he
  unfold PlotPlan.curve at hc
  rw [plan_energy_none p h] at hc
  split_ifs at hc
  · cases hc
  · exact ⟨hf, by rw [← he, (drawCurve_some hc).1]; rfl⟩

/-- C138: hence no triangle is ever drawn for such a source: what is drawn is the curve of the errors alone. -/
theorem c138_no_triangle {D : Disk} {l : TableQuery} {d : TableLoad} (hl : loadTable D l = some d)
    (hs : l.source ∉ suOlsonNames) {ylim : Bool} {q : PlotQuery} {out : List Drawn}
    (h : plotVsCells ylim q d = some out) : out = [] ∨ ∃ xs ys, out = [.curve xs ys] := by
  unfold plotVsCells at h
  cases hp : plotPlan q with
  | none =>
    rw [hp] at h
    exact .inl (Option.some_inj.1 h).symm
  | some p =>
    rw [hp] at h
    exact .inr ⟨_, _, (run_plain (loaded_energy hl hs) h).2⟩

theorem linregress_length {xs ys : List ℝ} {R : Regression} (h : linregress xs ys = some R) :
    xs.length = ys.length ∧ xs.length ≠ 0 := by
  obtain ⟨h1, h2, -⟩ := linregress_spec h
  exact ⟨h1, fun h0 => coDeviation_ne_nil h2 (List.length_eq_zero_iff.1 h0)⟩

/-- C138: at `tfinal` 100 the plot of the thick Su-Olson problem with the uncollided solution and `M` 4 fails for
every table: the last entry is cut off the errors of the flux but not off the ones of the energy density. -/
theorem c138_thick_fails (ylim : Bool) {q : PlotQuery} (hT : q.tfinal = 100)
    (hs : q.source = "su_olson_thick_s2" ∨ q.source = "su_olson_thick_s2_energy") (hu : q.uncollided = true)
    (hM : q.M = 4) {d : TableLoad} {energy : List ℝ} (he : d.energyRms = some energy)
    (hle : energy.length = d.cells.length) : plotVsCells ylim q d = none := by
  have hf : findC { d with cells := d.cells.dropLast, rms := d.rms.dropLast, energyRms := some energy } =
      none := by
    rw [Option.eq_none_iff_forall_ne_some]
    intro c hc
    unfold findC at hc
    dsimp only at hc
    rw [Option.bind_some] at hc
    obtain ⟨a, -, hc⟩ := Option.bind_eq_some_iff.1 hc
    obtain ⟨b, hb, -⟩ := Option.map_eq_some_iff.1 hc
    obtain ⟨h1, h2⟩ := linregress_length hb
    simp only [List.length_map, List.length_tail, List.length_dropLast] at h1 h2
    omega
  unfold plotVsCells plotPlan
  rw [if_neg (by rw [hT]; norm_num), if_neg (by rw [hT]; norm_num), if_pos hT]
  have hp : planAtHundred q = { ylim := true, fit := true, fitSlice := List.dropLast, drawSlice := List.dropLast
                                extra := fun _ c => [orderTriangle 12 16 5 c 1.5] } := by
    unfold planAtHundred
    rw [if_pos hs, hu, hM]
    rfl
  have he' : (planAtHundred q).extras d = none := by
    have : (planAtHundred q).fitted d =
        { d with cells := d.cells.dropLast, rms := d.rms.dropLast, energyRms := some energy } := by
      rw [hp, ← he]
      rfl
    unfold PlotPlan.extras
    rw [this, hf, hp]
    rfl
  simp only
  unfold PlotPlan.run
  rw [he']
  split_ifs <;> rfl

/-- C138: at `tfinal` 100 the plot for the energy density shows the errors of the flux: it does not depend on the
errors of the energy density. -/
theorem c138_energy_at_100 {q : PlotQuery} (hT : q.tfinal = 100) {d : TableLoad} {ylim : Bool} {out : List Drawn}
    (h : plotVsCells ylim q d = some out) :
    ∃ tri, out = tri ++ [.curve d.cells d.rms] ∨ out = tri ++ [.curve d.cells.dropLast d.rms.dropLast] := by
  unfold plotVsCells plotPlan at h
  rw [if_neg (by rw [hT]; norm_num), if_neg (by rw [hT]; norm_num), if_pos hT] at h
  obtain ⟨e, c, -, hc, rfl⟩ := run_some h
  refine ⟨e, ?_⟩
  unfold PlotPlan.curve at hc
  by_cases hs : q.source = "su_olson_thick_s2" ∨ q.source = "su_olson_thick_s2_energy"
  · have hd : (planAtHundred q).drawEnergy = false := by unfold planAtHundred; rw [if_pos hs]
    have hl : (planAtHundred q).drawSlice = List.dropLast := by unfold planAtHundred; rw [if_pos hs]
    rw [hd, hl, if_neg (by simp)] at hc
    exact .inr (by rw [(drawCurve_some hc).1])
  · have hd : (planAtHundred q).drawEnergy = false := by unfold planAtHundred; rw [if_neg hs]
    have hl : (planAtHundred q).drawSlice = id := by unfold planAtHundred; rw [if_neg hs]
    rw [hd, hl, if_neg (by simp)] at hc
    exact .inl (by rw [(drawCurve_some hc).1]; rfl)

/-- C138: at `tfinal` 1 the curve shows the errors of the energy density for the names in the list for it, and the
errors of the flux for all others. -/
theorem c138_curve_at_one {q : PlotQuery} (hT : q.tfinal = 1) {d : TableLoad} {ylim : Bool} {out : List Drawn}
    (h : plotVsCells ylim q d = some out) : ∃ (tri : List Drawn) (f : List ℝ → List ℝ),
    (q.source ∈ ["su_olson_energy", "su_olson_energy_s2", "gaussian_energy_s2", "gaussian_s_thick_s2_energy",
      "gaussian_s_thick_s8_energy", "su_olson_thick_s2_energy", "su_olson_thick_s8_energy"] →
      ∃ energy, d.energyRms = some energy ∧
        (out = tri ++ [.curve (f d.cells) energy] ∨ out = tri ++ [.curve (f d.cells) (f energy)])) ∧
    (q.source ∉ ["su_olson_energy", "su_olson_energy_s2", "gaussian_energy_s2", "gaussian_s_thick_s2_energy",
      "gaussian_s_thick_s8_energy", "su_olson_thick_s2_energy", "su_olson_thick_s8_energy"] →
      out = tri ++ [.curve (f d.cells) (f d.rms)]) := by
  unfold plotVsCells plotPlan at h
  rw [if_pos hT] at h
  obtain ⟨e, c, -, hc, rfl⟩ := run_some h
  refine ⟨e, (planAtOne q).drawSlice, fun hs => ?_, fun hs => ?_⟩
  · have hs' : decide (q.source ∈ energyList) = true := decide_eq_true hs
    unfold PlotPlan.curve at hc
    dsimp only at hc
    rw [hs', if_pos rfl] at hc
    obtain ⟨en, hen, hc⟩ := Option.bind_eq_some_iff.1 hc
    rw [(drawCurve_some hc).1]
    unfold PlotPlan.energy at hen
    split_ifs at hen
    · obtain ⟨energy, he, rfl⟩ := Option.map_eq_some_iff.1 hen
      exact ⟨energy, he, .inr rfl⟩
    · exact ⟨en, hen, .inl rfl⟩
  · have hs' : decide (q.source ∈ energyList) = false := decide_eq_false hs
    unfold PlotPlan.curve at hc
    dsimp only at hc
    rw [hs', if_neg (by simp)] at hc
    rw [(drawCurve_some hc).1]

/-- The orders written next to the triangles. -/
def labels (out : List Drawn) : List ℤ :=
  out.filterMap fun x => match x with
    | .curve _ _ => none
    | .triangle _ l => some l

/-- The orders written by a branch do not depend on the table. -/
def FixedLabels (p : PlotPlan) : Prop :=
  ∀ (cells cells' : List ℝ) (c c' : ℝ), labels (p.extra cells c) = labels (p.extra cells' c')

theorem fixedLabels_ite {b : Prop} [Decidable b] {p p' : PlotPlan} (h : FixedLabels p) (h' : FixedLabels p') :
    FixedLabels (if b then p else p') := by
  split_ifs
  · exact h
  · exact h'

theorem planAtOne_labels (q : PlotQuery) : FixedLabels (planAtOne q) := by
  unfold planAtOne
  iterate 12 first | refine fixedLabels_ite ?_ ?_ | skip
  all_goals
    try refine fixedLabels_ite ?_ ?_
  all_goals
    intro _ _ _ _
    first
      | rfl
      | (dsimp only; split_ifs <;> rfl)

theorem plan_labels {q : PlotQuery} {p : PlotPlan} (h : plotPlan q = some p) : FixedLabels p := by
  unfold plotPlan at h
  split_ifs at h <;> rw [← Option.some_inj.1 h]
  · exact planAtOne_labels q
  · unfold planAtScaled
    refine fixedLabels_ite ?_ (fixedLabels_ite ?_ ?_)
    · intro _ _ _ _
      dsimp only
      split_ifs <;> rfl
    · intro _ _ _ _
      dsimp only
      split_ifs <;> rfl
    · intro _ _ _ _
      rfl
  · exact fixedLabels_ite (fun _ _ _ _ => rfl) fun _ _ _ _ => rfl
  · intro _ _ _ _
    unfold planAtTen
    dsimp only
    split_ifs <;> rfl

/-- C138: the orders written into the figure depend on what is asked for alone, not on the errors. -/
theorem c138_labels {q : PlotQuery} {ylim ylim' : Bool} {d d' : TableLoad} {out out' : List Drawn}
    (h : plotVsCells ylim q d = some out) (h' : plotVsCells ylim' q d' = some out') : labels out = labels out' := by
  have last : ∀ (p : PlotPlan) (d : TableLoad) (e : List Drawn) (c : Drawn), p.curve d = some c →
      labels (e ++ [c]) = labels e := by
    intro p d e c hc
    have : ∃ xs ys, c = .curve xs ys := by
      unfold PlotPlan.curve at hc
      split_ifs at hc
      · obtain ⟨y, -, hc⟩ := Option.bind_eq_some_iff.1 hc
        exact ⟨_, _, (drawCurve_some hc).1⟩
      · exact ⟨_, _, (drawCurve_some hc).1⟩
    obtain ⟨xs, ys, rfl⟩ := this
    simp [labels]
  unfold plotVsCells at h h'
  cases hp : plotPlan q with
  | none =>
    rw [hp] at h h'
    rw [← Option.some_inj.1 h, ← Option.some_inj.1 h']
  | some p =>
    rw [hp] at h h'
    obtain ⟨e, c, he, hc, rfl⟩ := run_some h
    obtain ⟨e', c', he', hc', rfl⟩ := run_some h'
    rw [last p d e c hc, last p d' e' c' hc']
    unfold PlotPlan.extras at he he'
    split_ifs at he he'
    · obtain ⟨i, -, rfl⟩ := Option.map_eq_some_iff.1 he
      obtain ⟨i', -, rfl⟩ := Option.map_eq_some_iff.1 he'
      exact plan_labels hp _ _ _ _
    · rw [← Option.some_inj.1 he, ← Option.some_inj.1 he']

/-- The plots over the number of cells that set limits with `plt.ylim`, whatever the mesh. -/
def LimitsWanted (q : PlotQuery) : Prop :=
  q.tfinal = 100 ∨ (q.tfinal = 1 ∧ q.source ∈ ["MMS", "square_s", "square_IC", "plane_IC", "su_olson",
    "su_olson_energy", "su_olson_s2", "su_olson_energy_s2", "gaussian_s_thick_s2", "gaussian_s_thick_s2_energy"]) ∨
  ((q.tfinal = 1.25 ∨ q.tfinal = 0.8333333333333334) ∧ q.source ∈ ["square_IC", "gaussian_IC"])

/-- C138: after `plot_RMS_vs_Ms` for `MMS` or one of the Gaussian transport sources, which need not even succeed,
`plot_RMS_vs_cells` fails in the same session whenever it sets limits: `plt.ylim` has become a number. -/
theorem c138_session {ylim : Bool} {q q' : PlotQuery} {d d' : TableLoad} {m : ℝ} {ms : List ℝ}
    (hMs : d.Ms = some (m :: ms)) (hs : q.source ∈ ["MMS", "gaussian_IC", "gaussian_s"])
    (hq : LimitsWanted q') : plotVsCells (plotVsMs ylim q d).1 q' d' = none := by
  have h1 : (plotVsMs ylim q d).1 = false := by
    unfold plotVsMs
    rw [hMs]
    simp only [List.mem_cons, List.not_mem_nil, or_false] at hs
    rcases hs with hs | hs | hs <;> simp [hs]
  rw [h1]
  have hy : ∀ p : PlotPlan, p.ylim = true → p.run false d' = none := fun p hp => by
    unfold PlotPlan.run
    rw [if_pos (.inl ⟨hp, rfl⟩)]
  unfold plotVsCells plotPlan
  rcases hq with hq | ⟨hq, hq'⟩ | ⟨hq, hq'⟩
  · rw [if_neg (by rw [hq]; norm_num), if_neg (by rw [hq]; norm_num), if_pos hq]
    apply hy
    unfold planAtHundred
    split_ifs <;> rfl
  · rw [if_pos hq]
    apply hy
    unfold planAtOne
    simp only [List.mem_cons, List.not_mem_nil, or_false] at hq'
    rcases hq' with hq' | hq' | hq' | hq' | hq' | hq' | hq' | hq' | hq' | hq' <;> simp [hq']
    split_ifs <;> rfl
  · rw [if_neg (by rcases hq with hq | hq <;> rw [hq] <;> norm_num), if_pos hq]
    apply hy
    unfold planAtScaled
    simp only [List.mem_cons, List.not_mem_nil, or_false] at hq'
    rcases hq' with hq' | hq' <;> simp [hq']

/-- Errors `3 n^(-2)` from the second entry on, with errors of the energy density that follow no law. -/
noncomputable def exampleTable : TableLoad where
  cells := [2, 4, 8]
  Ms := none
  rms := [7, 3 * 4 ^ (-2 : ℝ), 3 * 8 ^ (-2 : ℝ)]
  angles := [16, 16, 16]
  times := [1, 1, 1]
  energyRms := some [1, 5, 2]

example : findC exampleTable = some 3 :=
  c138_power_law (p := 2) (by norm_num) (by simp [exampleTable]) (n := 4) (n' := 8) (by simp [exampleTable])
    (by simp [exampleTable]) (by norm_num) (by simp [exampleTable]) (energy := [1, 5, 2]) rfl rfl

/-- The label says order 1 although the errors have order 2. -/
example : ∃ out, plotVsCells true ⟨1, "su_olson", 4, false, false⟩ exampleTable = some out ∧ labels out = [1] := by
  have h : findC exampleTable = some 3 :=
    c138_power_law (p := 2) (by norm_num) (by simp [exampleTable]) (n := 4) (n' := 8) (by simp [exampleTable])
      (by simp [exampleTable]) (by norm_num) (by simp [exampleTable]) (energy := [1, 5, 2]) rfl rfl
  have hp : plotPlan ⟨1, "su_olson", 4, false, false⟩ =
      some { planAtOne ⟨1, "su_olson", 4, false, false⟩ with drawEnergy := false } := by
    unfold plotPlan
    rw [if_pos rfl]
    congr 1
  unfold plotVsCells
  rw [hp]
  simp only [PlotPlan.run, PlotPlan.extras, PlotPlan.curve, PlotPlan.fitted, PlotPlan.energy, planAtOne, drawCurve]
  simp only [String.reduceEq, if_false, if_true, true_or, or_true, Bool.false_eq_true, id_eq, Bool.not_false,
    Bool.and_self, reduceCtorEq, and_false, or_self, false_and]
  have e : ({ cells := exampleTable.cells, Ms := exampleTable.Ms, rms := exampleTable.rms,
              angles := exampleTable.angles, times := exampleTable.times,
              energyRms := exampleTable.energyRms } : TableLoad) = exampleTable := rfl
  rw [e, h]
  exact ⟨_, rfl, rfl⟩

/-- Errors that fall off like `e^(-M)`. -/
example : ∃ w, findCSemilog { exampleTable with Ms := some [0, 2, 4], rms := [7, 3 * exp (-1 * 2), 3 * exp (-1 * 4)] } =
    some (-1, w) :=
  c138_exponential (C := 3) (k := 1) (by norm_num) (Ms := [0, 2, 4]) rfl (m := 2) (m' := 4) (by simp) (by simp)
    (by norm_num) rfl (energy := [1, 5, 2]) rfl rfl

/-- A file from which the table of `MMS` can be loaded. -/
example : ∃ (D : Disk) (d : TableLoad), loadTable D ⟨"MMS", "1".toList, 6, "cells", true, true⟩ = some d ∧
    "MMS" ∉ suOlsonNames ∧ FitWanted ⟨1, "MMS", 6, true, true⟩ ∧ ¬ FitWanted ⟨1, "MMS", 4, true, true⟩ :=
  ⟨fun _ => some fun _ => some (.mat [[2, 4, 8], [1, 1, 1], [1, 1, 1], [1, 1, 1], [1, 1, 1], [1, 1, 1]]), _, rfl,
    by decide, by simp [FitWanted], by norm_num [FitWanted]; decide⟩

/-- The table of the thick problem at `tfinal` 100. -/
example : plotVsCells true ⟨100, "su_olson_thick_s2", 4, true, true⟩ exampleTable = none :=
  c138_thick_fails true rfl (.inl rfl) rfl rfl (energy := [1, 5, 2]) rfl rfl

/-- A session in which the plot over the orders is followed by the one over the number of cells. -/
example : plotVsCells (plotVsMs true ⟨1, "gaussian_IC", 6, true, true⟩
    { exampleTable with Ms := some [2, 4, 6] }).1 ⟨1, "square_s", 6, false, false⟩ exampleTable = none :=
  c138_session (m := 2) (ms := [4, 6]) rfl (by simp) (.inr (.inl ⟨rfl, by simp⟩))

end Verif.Props
