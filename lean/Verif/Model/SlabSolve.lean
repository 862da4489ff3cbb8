import Verif.Model.Solve
import Verif.Model.Matrices

/-!
Model: `solve` in slab geometry without material coupling (main_functions.py 101-276 with
`rhs_class_1.call`), from its arguments to what it returns.

In slab geometry `call` does everything up to the numerical flux and the absorption term as for the
sphere, each with the slab branch of the class in question, but the array `V_new`, a copy of its
argument (rhs_class_1.py 180), is only written under `geometry['sphere']` (307-364).

The integrator is scipy's, as in `Model/TimeStep` and `Model/Solve`; here it is written for any
right-hand side with shared objects.
-/

namespace Verif.Model

/-! ### The integrator for any right-hand side -/

/-- A right-hand side: from the objects, the time and the state, the objects afterwards and the
value. -/
abbrev SharedRhs (σ : Type) := σ → ℝ → StateVec → Option (σ × StateVec)

/-- As `StepState`. -/
structure SharedStep (σ : Type) where
  objects : σ
  t : ℝ
  y : StateVec
  f : StateVec

namespace SharedRhs

variable {σ : Type} (rhs : SharedRhs σ)

/-- As `Problem.stageLoop`. -/
noncomputable def stageLoop (τ : Tableau) (t h : ℝ) (y : StateVec) :
    ℕ → σ × (ℕ → StateVec) → Option (σ × (ℕ → StateVec))
  | 0, x => some x
  | i + 1, x => (stageLoop τ t h y i x).bind fun z =>
      (rhs z.1 (t + τ.node (i + 1) * h) (combine y h (τ.row (i + 1)) z.2 (i + 1))).map fun r =>
        (r.1, Function.update z.2 (i + 1) r.2)

/-- As `Problem.rkStep`. -/
noncomputable def rkStep (τ : Tableau) (x : SharedStep σ) (h : ℝ) : Option (σ × (ℕ → StateVec)) :=
  rhs.stageLoop τ x.t h x.y τ.n (x.objects, fun _ => x.f)

open Classical in
/-- As `Problem.solveEvents`. -/
noncomputable def solveEvents (τ : Tableau) (D : Interpolant) :
    List Event → SharedStep σ → List ℝ → Option (SharedStep σ × List (ℝ × StateVec))
  | [], x, _ => some (x, [])
  | .step h true :: es, x, ts =>
    (rhs.rkStep τ x h).bind fun r =>
      (solveEvents τ D es ⟨r.1, x.t + h, combine x.y h τ.b r.2 τ.n, r.2 τ.n⟩
        (ts.dropWhile (· ≤ x.t + h))).map fun p =>
          (p.1, ((ts.takeWhile (· ≤ x.t + h)).map fun t =>
            (t, D x.t x.y h r.2 ((t - x.t) / h))) ++ p.2)
  | .step h false :: es, x, ts =>
    (rhs.rkStep τ x h).bind fun r => solveEvents τ D es { x with objects := r.1 } ts
  | .probe t V :: es, x, ts =>
    (rhs x.objects t V).bind fun r => solveEvents τ D es { x with objects := r.1 } ts

open Classical in
/-- `solve_ivp(RHS, [0.0, tfinal], y0, t_eval = ts)` (main_functions.py 183) on objects `o`. -/
noncomputable def solveIvp (τ : Tableau) (D : Interpolant) (es : List Event) (tfinal : ℝ) (o : σ)
    (y0 : StateVec) (ts : List ℝ) : Option (σ × List (ℝ × StateVec)) :=
  if (∀ t ∈ ts, 0 ≤ t ∧ t ≤ tfinal) ∧ ts.Pairwise (· < ·) then
    (rhs o 0 y0).bind fun r =>
      (rhs.solveEvents τ D es ⟨r.1, 0, y0, r.2⟩ ts).map fun p => (p.1.objects, p.2)
  else none

end SharedRhs

/-! ### The right-hand side in slab geometry -/

/-- The mutable parts of the objects in slab geometry.  Of the object `matrices` only `L` and `G` are
written there (matrices.py 109-116); they are kept in `mats`. -/
structure SlabObjects where
  shared : Objects
  mats : SlabMatrices

namespace Problem

variable (P : Problem)

/-- main_functions.py 154-168: the objects before the first call. -/
noncomputable def slabObjects : Option SlabObjects :=
  P.objects.map fun o => ⟨o, SlabMatrices.init P.M⟩

/-- rhs_class_1.py 210-211, sources.py 118-131 and 149.  With the uncollided treatment the uncollided
object is asked once per coefficient, always at the same points, except for the plane pulse on a
moving mesh, where the integral over the cell is used and nothing is stored. -/
noncomputable def slabSourceStep (o : Objects) (t xL xR : ℝ) : Option Objects :=
  let xs := P.quad.map fun q => quadPoint xL xR q.1
  let asked := P.uncollided = true ∧ ¬ (P.mesh.st 0 = 1 ∧ P.mesh.moving = true)
  (makeSource P.sourceConfig
    (fun x t => (uncollidedSolution P.uncollidedConfig o.unc [x] t).getD 0 0)
    (planeIntegrated P.builtX0) t xL xR o.S).map fun S =>
    { o with S := S, unc := open Classical in
      if asked then uncollidedSolution P.uncollidedConfig o.unc xs t else o.unc }

/-- rhs_class_1.py 193-211: what is done once per cell. -/
noncomputable def slabCellStep (o : SlabObjects) (t : ℝ) (V : StateVec) (space : ℕ) :
    Option SlabObjects :=
  let m := o.shared.mesh
  let mats := o.mats.makeAll (m.edges space) (m.edges (space + 1)) (m.Dedges space)
    (m.Dedges (space + 1))
  (P.slabSourceStep (P.scalarStep o.shared V space) t (m.edges space) (m.edges (space + 1))).map
    fun s => ⟨s, mats⟩

open Classical in
/-- rhs_class_1.py 221-366: one direction in one cell.  `V_new` is not written. -/
noncomputable def slabAngleStep (o : SlabObjects) (t : ℝ) (V : StateVec) (space angle : ℕ) :
    Option SlabObjects :=
  if P.asserts space angle then
    some { o with shared := { o.shared with
      flux := makeLU P.fluxConfig t (view o.shared) (V angle) space (P.mus angle)
        (V (reflIndex P.Nang angle space) 0) o.shared.flux
      opacity := makeVectors P.opacityConfig o.shared.mesh.edges (V angle space) space
        o.shared.opacity } }
  else none

/-- rhs_class_1.py 221, the first `n` turns. -/
noncomputable def slabAngleLoop (t : ℝ) (V : StateVec) (space : ℕ) :
    ℕ → SlabObjects → Option SlabObjects
  | 0, o => some o
  | n + 1, o => (slabAngleLoop t V space n o).bind fun o => P.slabAngleStep o t V space n

/-- rhs_class_1.py 189, the first `n` turns. -/
noncomputable def slabCellLoop (t : ℝ) (V : StateVec) : ℕ → SlabObjects → Option SlabObjects
  | 0, o => some o
  | n + 1, o => (slabCellLoop t V n o).bind fun o => (P.slabCellStep o t V n).bind fun o =>
      P.slabAngleLoop t V n P.Nang o

/-- rhs_class_1.py 175-366 `call` in slab geometry: the objects afterwards, and `V_new`, which holds
the copy of `V` made at line 180. -/
noncomputable def slabCall : SharedRhs SlabObjects := fun o t V =>
  (P.prepare o.shared t).bind fun s =>
    (P.slabCellLoop t V P.mesh.N { o with shared := s }).map fun o => (o, V)

/-! ### The output -/

/-- main_functions.py 235-239: the output points; `leg n` is the library routine `leggauss(n)`. -/
noncomputable def slabPoints (leg : ℕ → List ℝ) (choose : Option (List ℝ)) (edges : ℕ → ℝ) : List ℝ :=
  match choose with
  | none => findNodes P.mesh.geometry leg P.M edges P.mesh.N
  | some xs => xs

/-- `solve` without `eval_times` in slab geometry; main_functions.py 213-251 and 276 as in
`Problem.finish`. -/
noncomputable def slabSolve (leg : ℕ → List ℝ) (τ : Tableau) (D : Interpolant) (es : List Event)
    (estimate : Bool) (choose : Option (List ℝ)) : Option Results :=
  P.startVector.bind fun y0 => P.slabObjects.bind fun o =>
    (P.slabCall.solveIvp τ D es P.mesh.tfinal o y0 (P.outputTimes estimate)).bind fun s =>
      s.2.getLast?.bind fun c =>
        (outputState true P.Nang P.mesh.N P.M (flatten3 P.Nang P.mesh.N (P.M + 1) c.2)).bind fun u =>
          (meshMove P.mesh s.1.shared.mesh P.mesh.tfinal).bind fun m =>
            let xs := P.slabPoints leg choose m.edges
            (P.makeOutput s.1.shared.unc P.mesh.tfinal m.edges xs u).map fun out =>
              { toOutput := out.1, xs := xs, e := out.1.phi.map (· * 0), solLast := u,
                edges := m.edges }

end Problem

end Verif.Model
