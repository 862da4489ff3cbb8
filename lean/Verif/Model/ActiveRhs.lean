import Verif.Model.SlabRhs
import Verif.Model.Angular
import Verif.Model.SphereMatrices

/-!
Model: the right-hand side that `solve` hands to the integrator, class `rhs_class` in
`solver_classes/rhs_class_1.py` (imported at main_functions.py 26).

The mesh, the source vector and the cell matrices of the current evaluation are arguments: the
methods `mesh.move`, `source.make_source`, `matrices.make_all_matrices` are modelled elsewhere.
`sigma_class.make_vectors` is called at rhs_class_1.py 239 but its result `VV` is not used.
-/

namespace Verif.Model

/-- The matrices of one cell in sphere geometry, rhs_class_1.py 196-205 and `Minv` 264. -/
structure CellMats where
  /-- rhs_class_1.py 197 -/
  L : ℕ → ℕ → ℝ
  /-- rhs_class_1.py 198 -/
  G : ℕ → ℕ → ℝ
  /-- rhs_class_1.py 199 -/
  MPRIME : ℕ → ℕ → ℝ
  /-- rhs_class_1.py 202 -/
  Mass : ℕ → ℕ → ℝ
  /-- rhs_class_1.py 203 -/
  J : ℕ → ℕ → ℝ
  /-- `np.linalg.inv(Mass)`, rhs_class_1.py 264 -/
  Minv : ℕ → ℕ → ℝ

/-- rhs_class_1.py 225-230: row of the state used as the reflected state
(`angle >= N_ang/2` is `N_ang ≤ 2*angle`). -/
def reflIndex (Nang angle space : ℕ) : ℕ :=
  if space = 0 ∧ Nang ≤ 2 * angle then Nang - angle - 1 else 0

/-- rhs_class_1.py 228-230: the two `assert`s, executed for cell 0 and every angle, in both
geometries. -/
def centreChecks (Nang : ℕ) (mus : ℕ → ℝ) : Prop :=
  ∀ angle < Nang, Nang ≤ 2 * angle →
    0 < mus angle ∧ |mus (Nang - angle - 1) - -mus angle| ≤ 1 / 10 ^ 10

/-- `dterm[j]`, rhs_class_1.py 271-275. -/
noncomputable def dterm (p : RhsParams) (V : ℕ → ℕ → ℕ → ℝ) (angle space j : ℕ) : ℝ :=
  angularTerm p.Nang p.mus (fun l => V l space j) angle

/-- The vector that is multiplied with `Minv`, rhs_class_1.py 306-330. -/
noncomputable def sphereWeak (p : RhsParams) (c : FluxConfig) (t : ℝ) (m : MeshView)
    (mats : CellMats) (S : ℕ → ℕ → ℝ) (fs : FluxState) (V : ℕ → ℕ → ℕ → ℝ)
    (angle space i : ℕ) : ℝ :=
  0 - fluxLU c t m (V angle) space (p.mus angle) (V (reflIndex p.Nang angle space) 0) fs i
    + p.mus angle * matVec c.M mats.L (V angle space) i
    - matVec c.M mats.J (dterm p V angle space) i
    + matVec c.M mats.G (V angle space) i
    + 1 / 2 * S space i * p.c
    - matVec c.M mats.MPRIME (V angle space) i

/-- `PV = flux.scalar_flux_term` in sphere geometry with constant opacity: rhs_class_1.py 206-208,
phi_class.py 70-77; without scattering the initial zeros (phi_class.py 58). -/
noncomputable def activePV (p : RhsParams) (V : ℕ → ℕ → ℕ → ℝ) (space i : ℕ) : ℝ :=
  open Classical in
  if p.c ≠ 0 then makeP p.Nang p.ws (fun l => V l space) i else 0

/-- rhs_class_1.py 306-338: sphere, constant opacity. -/
noncomputable def sphereRhs (p : RhsParams) (c : FluxConfig) (t : ℝ) (m : MeshView)
    (mats : ℕ → CellMats) (S : ℕ → ℕ → ℝ) (fs : FluxState) (V : ℕ → ℕ → ℕ → ℝ)
    (angle space i : ℕ) : ℝ :=
  matVec c.M (mats space).Minv (sphereWeak p c t m (mats space) S fs V angle space) i
    + activePV p V space i * p.c - V angle space i

open Classical in
/-- rhs_class_1.py 175-366 `call`.  `V_new` starts as a copy of `V` (180) and is only written in
the sphere branch (364). -/
noncomputable def activeCall (p : RhsParams) (c : FluxConfig) (t : ℝ) (m : MeshView)
    (mats : ℕ → CellMats) (S : ℕ → ℕ → ℝ) (fs : FluxState) (V : ℕ → ℕ → ℕ → ℝ) :
    Option (ℕ → ℕ → ℕ → ℝ) :=
  if 0 < c.Nspace ∧ ¬ centreChecks p.Nang p.mus then none
  else
    match c.geometry with
    | .slab => some V
    | .sphere => some fun angle space i =>
        if angle < p.Nang ∧ space < c.Nspace ∧ i ≤ c.M then
          sphereRhs p c t m mats S fs V angle space i
        else V angle space i

end Verif.Model
