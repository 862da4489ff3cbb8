import Verif.Model.System
import Verif.Model.Output
import Verif.Model.Layout
import Verif.Model.Numerics

/-!
Model: what `solve` does after the integration, and what it returns, in sphere geometry without
material coupling (main_functions.py 185-276 with make_phi.py).

`solve_ivp` is not modelled: its result, the state vector at the output times, is an argument.
Objects are those of `Model/System` after whatever calls the integrator has made.

Simplifications: the wave estimates, the timing and the arrays passed through unchanged are left
out of the results.  A missing argument, a name without value and arrays that cannot be added are
`none`.
-/

namespace Verif.Model

/-- `a += b` for one-dimensional arrays (make_phi.py 69 and 111): `b` must have the length of `a`,
or length one, which is spread over `a`. -/
def addInPlace (a b : List ℝ) : Option (List ℝ) :=
  if b.length = a.length then some (List.zipWith (· + ·) a b)
  else match b with
    | [y] => some (a.map (· + y))
    | _ => none

/-- What `make_output` leaves for one time. -/
structure Output where
  /-- `output.phi_out`, make_phi.py 71 -/
  phi : List ℝ
  /-- `output.psi_out`, one list per direction, make_phi.py 70 -/
  psi : ℕ → List ℝ
  /-- `exit_dist[ang, count]`, make_phi.py 107 -/
  exitDist : ℕ → Fin 2 → ℝ
  /-- the second value of `get_exit_dist`, make_phi.py 108-112 -/
  exitPhi : List ℝ

/-- What `solve` returns (main_functions.py 276). -/
structure Results extends Output where
  xs : List ℝ
  e : List ℝ
  solLast : ℕ → ℕ → ℕ → ℝ
  edges : ℕ → ℝ

namespace Problem

variable (P : Problem)

/-- make_phi.py 56-65, 96-105: the angular flux of one direction at a point. -/
noncomputable def psiAt (edges : ℕ → ℝ) (u : ℕ → ℕ → ℕ → ℝ) (ang : ℕ) (x : ℝ) : Option ℝ :=
  psiOut P.mesh.geometry P.M P.mesh.N edges (u ang) x

/-- make_phi.py 66 and 108: the weighted sum over directions at a point.  The weights are those of
`quadrature` (main_functions.py 115 and 242), not the normalized ones of build_problem.py 103. -/
noncomputable def sumAt (edges : ℕ → ℝ) (u : ℕ → ℕ → ℕ → ℝ) (x : ℝ) : ℝ :=
  ∑ ang ∈ Finset.range P.Nang, (P.psiAt edges u ang x).getD 0 * P.rawWs ang

/-- make_phi.py 67-69, 109-111: add the uncollided flux at the output points `xs`; also the
uncollided object afterwards. -/
noncomputable def addUncollided (unc : List ℝ) (t : ℝ) (xs output : List ℝ) :
    Option (List ℝ × List ℝ) :=
  if P.uncollided then
    let uncol := uncollidedSolution P.uncollidedConfig unc xs t
    (addInPlace output uncol).map fun out => (out, uncol)
  else some (output, unc)

open Classical in
/-- `make_output(...)`, `make_phi` and `get_exit_dist` (main_functions.py 242-245, 264-267,
make_phi.py 53-72 and 91-112); also the uncollided object afterwards.  A Chebyshev function that is
not implemented makes the call fail. -/
noncomputable def makeOutput (unc : List ℝ) (t : ℝ) (edges : ℕ → ℝ) (xs : List ℝ)
    (u : ℕ → ℕ → ℕ → ℝ) : Option (Output × List ℝ) :=
  let ends : List ℝ := [edges 0, edges P.mesh.N]
  if (∀ ang < P.Nang, ∀ x ∈ xs, (P.psiAt edges u ang x).isSome) ∧
      ∀ ang < P.Nang, ∀ x ∈ ends, (P.psiAt edges u ang x).isSome then
    (P.addUncollided unc t xs (xs.map (P.sumAt edges u))).bind fun p =>
      (P.addUncollided p.2 t xs (ends.map (P.sumAt edges u))).map fun q =>
        ({ phi := p.1
           psi := fun ang => xs.map fun x => (P.psiAt edges u ang x).getD 0
           exitDist := fun ang count =>
             (P.psiAt edges u ang (exitPoint P.mesh.N edges count)).getD 0
           exitPhi := q.1 }, q.2)
  else none

/-- main_functions.py 235-239: the output points.  `choose` holds `specified_xs` when `choose_xs`
is true. -/
noncomputable def outputPoints (choose : Option (List ℝ)) (edges : ℕ → ℝ) : List ℝ :=
  match choose with
  | none => findNodes P.mesh.geometry (fun _ => []) P.M edges P.mesh.N
  | some xs => xs

/-- main_functions.py 213-251 and 276 without `eval_times`: `v` is the last column of `sol.y`.
`e` is `phi*0`, since the dictionary `thermal_couple` is never equal to one. -/
noncomputable def finish (o : Objects) (choose : Option (List ℝ)) (v : FlatArr) :
    Option Results :=
  (outputState true P.Nang P.mesh.N P.M v).bind fun u =>
    (meshMove P.mesh o.mesh P.mesh.tfinal).bind fun m =>
      let xs := P.outputPoints choose m.edges
      (P.makeOutput o.unc P.mesh.tfinal m.edges xs u).map fun out =>
        { toOutput := out.1, xs := xs, e := out.1.phi.map (· * 0), solLast := u,
          edges := m.edges }

/-- main_functions.py 258-272: the loop over the output times of `eval_times`, each with its column
of `sol.y`.  Line 262 calls `find_nodes` without its third argument. -/
noncomputable def evalLoop (choose : Option (List ℝ)) :
    MeshState → List ℝ → List (ℝ × FlatArr) → Option (List Output)
  | _, _, [] => some []
  | s, unc, (t, v) :: rest =>
    (meshMove P.mesh s t).bind fun m =>
      match choose with
      | none => none
      | some xs =>
        (outputState true P.Nang P.mesh.N P.M v).bind fun u =>
          (P.makeOutput unc t m.edges xs u).bind fun out =>
            (evalLoop choose m out.2 rest).map fun l => out.1 :: l

/-- main_functions.py 213-239 and 252-276 with `eval_times`: what is reported for each of the
times.  Without any time the name `e` has no value (276). -/
noncomputable def finishEval (o : Objects) (choose : Option (List ℝ))
    (cols : List (ℝ × FlatArr)) : Option (List Output) :=
  if cols = [] then none
  else (meshMove P.mesh o.mesh P.mesh.tfinal).bind fun m =>
    P.evalLoop choose m o.unc cols

end Problem

end Verif.Model
