import Verif.Model.System

/-!
Model: the time integration of `solve` (main_functions.py 172-188),

    sol = integrate.solve_ivp(RHS, [0.0, tfinal], reshaped_IC, method=integrator, t_eval=tpnts, ...)

with the explicit Runge-Kutta methods of scipy that the input files name (`'integrator'`: `DOP853`,
`RK45`).  `RHS` (main_functions.py 172-173) is `rhs.call` on the shared objects, so every evaluation,
also one whose result is thrown away, changes the objects that the next one uses.

scipy is not part of the repository; modelled is what its `RungeKutta` solvers do with `RHS`:
`__init__` evaluates the right-hand side at the start and, to choose the first step, at one more
point; `_step_impl` calls `rk_step` with a step size and either accepts the result or tries again
with another size; dense output makes `DOP853` evaluate the right-hand side at further points.  How
sizes are chosen and when a step is accepted depends on tolerances; the model leaves both open, an
`Event` says what was decided.
-/

namespace Verif.Model

/-- The coefficients `n_stages`, `A`, `B`, `C` of a `RungeKutta` class of scipy. -/
structure Tableau where
  n : ℕ
  a : ℕ → ℕ → ℝ
  b : ℕ → ℝ
  c : ℕ → ℝ

/-- Weights of the state at which evaluation `i` of `rk_step` is made: the rows of `A`, and `B` for
the last evaluation, at the new state. -/
def Tableau.row (τ : Tableau) (i j : ℕ) : ℝ := if i < τ.n then τ.a i j else τ.b j

/-- Its time, as a fraction of the step: `C`, and one for the last evaluation. -/
def Tableau.node (τ : Tableau) (i : ℕ) : ℝ := if i < τ.n then τ.c i else 1

/-- A state vector, indexed by direction, cell and coefficient. -/
abbrev StateVec := ℕ → ℕ → ℕ → ℝ

/-- `y + h * np.dot(K[:i].T, w[:i])`. -/
noncomputable def combine (y : StateVec) (h : ℝ) (w : ℕ → ℝ) (K : ℕ → StateVec) (i : ℕ) : StateVec :=
  fun l k m => y l k m + h * ∑ j ∈ Finset.range i, w j * K j l k m

/-- What a `RungeKutta` solver keeps between steps: `t`, `y`, `f`; with it the objects of `solve`. -/
structure StepState where
  objects : Objects
  t : ℝ
  y : StateVec
  f : StateVec

/-- What happens during an integration. -/
inductive Event
  /-- `rk_step` with this size; the error is small enough or not -/
  | step (h : ℝ) (accepted : Bool)
  /-- an evaluation of which only the value is used: `select_initial_step`, extra stages of dense
  output -/
  | probe (t : ℝ) (V : StateVec)

namespace Problem

variable (P : Problem)

/-- `rk_step`: the evaluations `1 … i`, each on the objects as the one before left them. -/
noncomputable def stageLoop (τ : Tableau) (t h : ℝ) (y : StateVec) :
    ℕ → Objects × (ℕ → StateVec) → Option (Objects × (ℕ → StateVec))
  | 0, x => some x
  | i + 1, x => (stageLoop τ t h y i x).bind fun z =>
      (P.call z.1 (t + τ.node (i + 1) * h) (combine y h (τ.row (i + 1)) z.2 (i + 1))).map fun r =>
        (r.1, Function.update z.2 (i + 1) r.2)

/-- `rk_step(fun, t, y, f, h, A, B, C, K)`: objects afterwards and `K`; `K[0] = f` is not evaluated
again. -/
noncomputable def rkStep (τ : Tableau) (x : StepState) (h : ℝ) : Option (Objects × (ℕ → StateVec)) :=
  P.stageLoop τ x.t h x.y τ.n (x.objects, fun _ => x.f)

/-- One event: an accepted step moves to `t + h`, `y_new`, `f_new = K[-1]`; otherwise only the objects
change. -/
noncomputable def event (τ : Tableau) (x : StepState) : Event → Option StepState
  | .step h accepted => (P.rkStep τ x h).map fun r =>
      if accepted then ⟨r.1, x.t + h, combine x.y h τ.b r.2 τ.n, r.2 τ.n⟩
      else { x with objects := r.1 }
  | .probe t V => (P.call x.objects t V).map fun r => { x with objects := r.1 }

/-- `RungeKutta.__init__` on the objects that `solve` built. -/
noncomputable def integratorStart (y0 : StateVec) : Option StepState :=
  P.objects.bind fun o => (P.call o 0 y0).map fun r => ⟨r.1, 0, y0, r.2⟩

/-- The events of an integration, in order. -/
noncomputable def runEvents (τ : Tableau) : List Event → StepState → Option StepState
  | [], x => some x
  | e :: es, x => (P.event τ x e).bind fun x' => runEvents τ es x'

/-- `solve_ivp` from an initial state. -/
noncomputable def integrate (τ : Tableau) (y0 : StateVec) (es : List Event) : Option StepState :=
  (P.integratorStart y0).bind fun x => P.runEvents τ es x

/-- Dense output of `RK23` and `RK45` (`RkDenseOutput`) at the fraction `θ` of a step from `x` with
evaluations `K`: `y_old + h * np.dot(K.T.dot(P), [θ, θ^2, …])`, the matrix `P` with `m` columns. -/
noncomputable def denseOutput (τ : Tableau) (Pm : ℕ → ℕ → ℝ) (m : ℕ) (x : StepState) (h : ℝ)
    (K : ℕ → StateVec) (θ : ℝ) : StateVec :=
  combine x.y h (fun i => ∑ p ∈ Finset.range m, Pm i p * θ ^ (p + 1)) K (τ.n + 1)

end Problem

/-- Dense output of `DOP853` (`Dop853DenseOutput`) at the fraction `θ`: `F[0]` is `y - y_old`; the
other six rows, combinations of further evaluations, are arbitrary here. -/
noncomputable def dopOutput (yOld yNew : StateVec) (F : ℕ → StateVec) (θ : ℝ) : StateVec :=
  fun l k m =>
    let F0 : ℕ → ℝ := fun i => if i = 0 then yNew l k m - yOld l k m else F i l k m
    (List.range 7).foldl (fun y i => (y + F0 (6 - i)) * if i % 2 = 0 then θ else 1 - θ) 0 + yOld l k m

/-- Step sizes of the accepted steps, in order. -/
def acceptedSteps : List Event → List ℝ
  | [] => []
  | .step h true :: es => h :: acceptedSteps es
  | .step _ false :: es => acceptedSteps es
  | .probe _ _ :: es => acceptedSteps es

/-- scipy `RK23`. -/
noncomputable def rk23 : Tableau where
  n := 3
  a i j := if i = 1 then (if j = 0 then 1 / 2 else 0) else if i = 2 then (if j = 1 then 3 / 4 else 0) else 0
  b i := if i = 0 then 2 / 9 else if i = 1 then 1 / 3 else if i = 2 then 4 / 9 else 0
  c i := if i = 1 then 1 / 2 else if i = 2 then 3 / 4 else 0

/-- scipy `RK45`. -/
noncomputable def rk45 : Tableau where
  n := 6
  a i j := (([[], [1 / 5], [3 / 40, 9 / 40], [44 / 45, -56 / 15, 32 / 9],
    [19372 / 6561, -25360 / 2187, 64448 / 6561, -212 / 729],
    [9017 / 3168, -355 / 33, 46732 / 5247, 49 / 176, -5103 / 18656]] : List (List ℝ)).getD i []).getD j 0
  b i := ([35 / 384, 0, 500 / 1113, 125 / 192, -2187 / 6784, 11 / 84] : List ℝ).getD i 0
  c i := ([0, 1 / 5, 3 / 10, 4 / 5, 8 / 9, 1] : List ℝ).getD i 0

/-- The matrix `P` of `RK45`. -/
noncomputable def rk45Dense (i p : ℕ) : ℝ :=
  (([[1, -8048581381 / 2820520608, 8663915743 / 2820520608, -12715105075 / 11282082432],
    [0, 0, 0, 0],
    [0, 131558114200 / 32700410799, -68118460800 / 10900136933, 87487479700 / 32700410799],
    [0, -1754552775 / 470086768, 14199869525 / 1410260304, -10690763975 / 1880347072],
    [0, 127303824393 / 49829197408, -318862633887 / 49829197408, 701980252875 / 199316789632],
    [0, -282668133 / 205662961, 2019193451 / 616988883, -1453857185 / 822651844],
    [0, 40617522 / 29380423, -110615467 / 29380423, 69997945 / 29380423]] : List (List ℝ)).getD i
    []).getD p 0

end Verif.Model
