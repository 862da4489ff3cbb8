import Verif.Model.Flux
import Verif.Model.Matrices

/-!
Model: slab right-hand side of class `rhs_class` in `solver_classes/rhs_class.py`, and the
collision part of `phi_class.py`.

This class is the only complete slab right-hand side in the repository.  The class imported by
`solve` is the one in `rhs_class_1.py`, modelled in `Verif.Model.ActiveRhs`.  The calls
`num_flux.make_LU(t, mesh, V, space, mul)` at rhs_class.py 206 and 232 pass one argument fewer
than the current signature; the missing argument `u_refl` is not read in slab geometry
(theorem `slab_flux_ignores_reflection`), so it is a free argument here.

The state array `V_old[angle, space, i]` is a function of three indices.  Index ranges are
`angle < N_ang`, `space < N_space`, `i ≤ M`.
-/

namespace Verif.Model

/-- `np.dot(A, U)` with an `(M+1) × (M+1)` matrix (rhs_class.py 244). -/
noncomputable def matVec (M : ℕ) (A : ℕ → ℕ → ℝ) (U : ℕ → ℝ) (i : ℕ) : ℝ :=
  ∑ j ∈ Finset.range (M + 1), A i j * U j

/-- Matrices of cell `space`: rhs_class.py 173-181, on an object that has served no call before
(the history does not matter, theorem `cellMatrices_history`). -/
noncomputable def cellMatrices (M : ℕ) (m : MeshView) (space : ℕ) : SlabMatrices :=
  (SlabMatrices.init M).makeAll (m.edges space) (m.edges (space + 1)) (m.Dedges space)
    (m.Dedges (space + 1))

/-- phi_class.py 70-73 `make_P` for constant opacity: `P[i] = sum_l u[l,i] * ws[l]`. -/
noncomputable def makeP (Nang : ℕ) (ws : ℕ → ℝ) (u : ℕ → ℕ → ℝ) (i : ℕ) : ℝ :=
  ∑ l ∈ Finset.range Nang, u l i * ws l

/-- The terms common to all slab branches, rhs_class.py 244, 259, 266, 279-281, 295-305:
`np.dot(G,U) - LU + mul*np.dot(L,U)`. -/
noncomputable def streamPart (c : FluxConfig) (t : ℝ) (m : MeshView) (u : ℕ → ℕ → ℝ)
    (space : ℕ) (mul : ℝ) (uRefl : ℕ → ℝ) (fs : FluxState) (i : ℕ) : ℝ :=
  matVec c.M (cellMatrices c.M m space).G (u space) i
    - fluxLU c t m u space mul uRefl fs i
    + mul * matVec c.M (cellMatrices c.M m space).L (u space) i

/-- Physical parameters of the right-hand side (rhs_class.py 97-118). -/
structure RhsParams where
  Nang : ℕ
  mus : ℕ → ℝ
  ws : ℕ → ℝ
  /-- scattering ratio, rhs_class.py 103 -/
  c : ℝ
  /-- `sigma_a / sigma_t`, rhs_class.py 113 -/
  ca : ℝ
  /-- length scale, rhs_class.py 118 -/
  l : ℝ

/-- rhs_class.py 244: slab, constant opacity, no uncollided treatment. -/
noncomputable def slabConstantRhs (p : RhsParams) (c : FluxConfig) (t : ℝ) (m : MeshView)
    (S : ℕ → ℕ → ℝ) (uRefl : ℕ → ℝ) (fs : FluxState) (V : ℕ → ℕ → ℕ → ℝ)
    (angle space i : ℕ) : ℝ :=
  streamPart c t m (V angle) space (p.mus angle) uRefl fs i
    - V angle space i + p.c * makeP p.Nang p.ws (fun l => V l space) i + 1 / 2 * S space i

/-- rhs_class.py 259: slab, constant opacity, uncollided treatment. -/
noncomputable def slabUncollidedRhs (p : RhsParams) (c : FluxConfig) (t : ℝ) (m : MeshView)
    (S : ℕ → ℕ → ℝ) (uRefl : ℕ → ℝ) (fs : FluxState) (V : ℕ → ℕ → ℕ → ℝ)
    (angle space i : ℕ) : ℝ :=
  streamPart c t m (V angle) space (p.mus angle) uRefl fs i
    - V angle space i
    + p.c * (makeP p.Nang p.ws (fun l => V l space) i + 1 / 2 * S space i)

/-- rhs_class.py 305: radiative transfer, transport equation without uncollided treatment
(the branch for two angles at 297 is the same expression).  `H` is the emission vector,
`S` the source. -/
noncomputable def transferRhs (p : RhsParams) (c : FluxConfig) (t : ℝ) (m : MeshView)
    (S H : ℕ → ℕ → ℝ) (uRefl : ℕ → ℝ) (fs : FluxState) (V : ℕ → ℕ → ℕ → ℝ)
    (angle space i : ℕ) : ℝ :=
  streamPart c t m (V angle) space (p.mus angle) uRefl fs i
    - V angle space i / p.l + p.c * makeP p.Nang p.ws (fun l => V l space) i / p.l
    + S space i * (1 / 2) / p.l + p.ca * (1 / 2) * H space i / p.l

/-- rhs_class.py 300: radiative transfer, transport equation with uncollided treatment (the
branch for two angles at 295 is the same expression). -/
noncomputable def transferUncollidedRhs (p : RhsParams) (c : FluxConfig) (t : ℝ) (m : MeshView)
    (S H : ℕ → ℕ → ℝ) (uRefl : ℕ → ℝ) (fs : FluxState) (V : ℕ → ℕ → ℕ → ℝ)
    (angle space i : ℕ) : ℝ :=
  streamPart c t m (V angle) space (p.mus angle) uRefl fs i
    - V angle space i / p.l
    + p.c * (makeP p.Nang p.ws (fun l => V l space) i + S space i * (1 / 2)) / p.l
    + p.ca * (1 / 2) * H space i / p.l

/-- rhs_class.py 203-215: material energy equation (not dimensional, no uncollided part).  The
energy coefficients are row `N_ang` of the state; `P` sums the first `N_ang` rows (the current
`phi_class.make_P` multiplies all rows with the weights, which has the wrong length; the
commented version at phi_class.py 61-68 drops the last row, and this is what is modelled). -/
noncomputable def energyRhs (p : RhsParams) (c : FluxConfig) (t : ℝ) (m : MeshView)
    (H : ℕ → ℕ → ℝ) (uRefl : ℕ → ℝ) (fs : FluxState) (V : ℕ → ℕ → ℕ → ℝ)
    (space i : ℕ) : ℝ :=
  matVec c.M (cellMatrices c.M m space).G (V p.Nang space) i
    - fluxLU c t m (V p.Nang) space 0 uRefl fs i
    + p.ca * (2 * makeP p.Nang p.ws (fun l => V l space) i - H space i) / p.l

/-- rhs_class.py 213-214: material energy equation with uncollided treatment. -/
noncomputable def energyUncollidedRhs (p : RhsParams) (c : FluxConfig) (t : ℝ) (m : MeshView)
    (S H : ℕ → ℕ → ℝ) (uRefl : ℕ → ℝ) (fs : FluxState) (V : ℕ → ℕ → ℕ → ℝ)
    (space i : ℕ) : ℝ :=
  energyRhs p c t m H uRefl fs V space i + p.ca * S space i / p.l

end Verif.Model
