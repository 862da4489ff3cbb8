import Verif.Model.Results
import Verif.Model.TimeStep

/-!
Model: `solve` from its arguments to what it returns, in sphere geometry without material coupling
(main_functions.py 154-276): the initial state, `solve_ivp` with its output times, and what is made of
its columns.  `tfinal` is positive.

`solve_ivp` is scipy's, with the explicit Runge-Kutta methods (see `Model/TimeStep`).  Output times
are given as `t_eval`: they must lie in `[0, tfinal]` and increase, otherwise scipy raises an error;
those that an accepted step reaches are answered from the dense output of that step.  When the
integration stops early the later times have no column.
-/

namespace Verif.Model

/-- Dense output of a method: from start time, start state, size and evaluations of an accepted step,
the state at a fraction of the step. -/
abbrev Interpolant := ℝ → StateVec → ℝ → (ℕ → StateVec) → ℝ → StateVec

/-- `RkDenseOutput` with the matrix `Pm` of `m` columns. -/
noncomputable def rkInterpolant (τ : Tableau) (Pm : ℕ → ℕ → ℝ) (m : ℕ) : Interpolant :=
  fun _ y h K θ => combine y h (fun i => ∑ p ∈ Finset.range m, Pm i p * θ ^ (p + 1)) K (τ.n + 1)

/-- The matrix `P` of `RK23`. -/
noncomputable def rk23Dense (i p : ℕ) : ℝ :=
  (([[1, -4 / 3, 5 / 9], [0, 1, -2 / 3], [0, 4 / 3, -8 / 9], [0, -1, 1]] : List (List ℝ)).getD i
    []).getD p 0

/-- `Dop853DenseOutput`; the rows of `F` but the first come from further evaluations. -/
noncomputable def dopInterpolant (τ : Tableau) (F : ℝ → StateVec → ℝ → (ℕ → StateVec) → ℕ → StateVec) :
    Interpolant :=
  fun t y h K θ => dopOutput y (combine y h τ.b K τ.n) (F t y h K) θ

namespace Problem

variable (P : Problem)

open Classical in
/-- build_problem.py 172-218, main_functions.py 173: the initial state as one array. -/
noncomputable def startVector : Option StateVec :=
  if ∀ l < P.Nang, ∀ k < P.mesh.N, ∀ j ≤ P.M, (P.initial l k j).isSome then
    some fun l k j => (P.initial l k j).getD 0
  else none

open Classical in
/-- The loop of `solve_ivp`: after an accepted step the output times up to the new time
(`np.searchsorted(t_eval, t, side='right')`) are answered with `sol(t_eval_step)`. -/
noncomputable def solveEvents (τ : Tableau) (D : Interpolant) :
    List Event → StepState → List ℝ → Option (StepState × List (ℝ × StateVec))
  | [], x, _ => some (x, [])
  | .step h true :: es, x, ts =>
    (P.rkStep τ x h).bind fun r =>
      (solveEvents τ D es ⟨r.1, x.t + h, combine x.y h τ.b r.2 τ.n, r.2 τ.n⟩
        (ts.dropWhile (· ≤ x.t + h))).map fun p =>
          (p.1, ((ts.takeWhile (· ≤ x.t + h)).map fun t =>
            (t, D x.t x.y h r.2 ((t - x.t) / h))) ++ p.2)
  | .step h false :: es, x, ts =>
    (P.event τ x (.step h false)).bind fun x' => solveEvents τ D es x' ts
  | .probe t V :: es, x, ts =>
    (P.event τ x (.probe t V)).bind fun x' => solveEvents τ D es x' ts

open Classical in
/-- `solve_ivp(RHS, [0.0, tfinal], reshaped_IC, t_eval = ts)` (main_functions.py 183): the objects
afterwards, and the answered times with their columns of `sol.y`. -/
noncomputable def solveIvp (τ : Tableau) (D : Interpolant) (es : List Event) (ts : List ℝ) :
    Option (Objects × List (ℝ × FlatArr)) :=
  if (∀ t ∈ ts, 0 ≤ t ∧ t ≤ P.mesh.tfinal) ∧ ts.Pairwise (· < ·) then
    P.startVector.bind fun y0 => (P.integratorStart y0).bind fun x =>
      (P.solveEvents τ D es x ts).map fun p =>
        (p.1.objects, p.2.map fun c => (c.1, flatten3 P.Nang P.mesh.N (P.M + 1) c.2))
  else none

/-- main_functions.py 175-178: `tpnts`, the end, or with `estimate_wavespeed` ten thousand times
spread evenly. -/
noncomputable def outputTimes (estimate : Bool) : List ℝ :=
  if estimate then (List.range 10000).map fun i : ℕ => i * (P.mesh.tfinal / 9999)
  else [P.mesh.tfinal]

/-- `solve` without `eval_times`: of the columns the last one is used (main_functions.py 217). -/
noncomputable def solve (τ : Tableau) (D : Interpolant) (es : List Event) (estimate : Bool)
    (choose : Option (List ℝ)) : Option Results :=
  (P.solveIvp τ D es (P.outputTimes estimate)).bind fun s =>
    s.2.getLast?.bind fun c => P.finish s.1 choose c.2

/-- `solve` with `eval_times`: the output times are those of `eval_array` (main_functions.py 179-180).
The columns are reshaped by their number (219), which must be that of the times. -/
noncomputable def solveTimes (τ : Tableau) (D : Interpolant) (es : List Event)
    (choose : Option (List ℝ)) (ts : List ℝ) : Option (List Output) :=
  (P.solveIvp τ D es ts).bind fun s =>
    if s.2.length = ts.length then P.finishEval s.1 choose s.2 else none

end Problem

end Verif.Model
