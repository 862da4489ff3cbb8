import Verif.Model.Flux

/-!
Model: evaluation of the solution at output points (`solver_classes/make_phi.py`).

The array `edges` has `N+1` entries `edges 0 … edges N`; `u[ang, space, i]` is a function of three
indices.  Arrays of points are modelled point by point, except where their size matters.
-/

namespace Verif.Model

open Classical in
/-- `np.searchsorted(edges, x)` (side `left`) for a sorted array with `N+1` entries: the number of
entries smaller than `x` (make_phi.py 58, 78, 98). -/
noncomputable def searchsorted (N : ℕ) (edges : ℕ → ℝ) (x : ℝ) : ℕ :=
  ((Finset.range (N + 1)).filter fun i => edges i < x).card

/-- make_phi.py 58-62, 78-82, 98-102: the index `idx` after the two corrections. -/
noncomputable def outIndex (N : ℕ) (edges : ℕ → ℝ) (x : ℝ) : ℕ :=
  let idx := searchsorted N edges x
  let idx := if idx = 0 then 1 else idx
  if idx ≥ N + 1 then N else idx

/-- make_phi.py 64-65, 83-85, 104-105 with `basis` 46-50: the loop over the orders; `none` if a
Chebyshev function is not implemented (functions.py 494-496). -/
noncomputable def outExpansion (g : Geometry) (M : ℕ) (U : ℕ → ℝ) (x a b : ℝ) : Option ℝ :=
  match g with
  | .slab => some (∑ i ∈ Finset.range (M + 1), U i * normPn i x a b)
  | .sphere =>
    if M ≤ 12 then some (∑ i ∈ Finset.range (M + 1), U i * (normTn i x a b).getD 0) else none

open Classical in
/-- make_phi.py 57-65 (also 97-105): `psi[ang, count]`, with `U space i = u[ang, space, i]`. -/
noncomputable def psiOut (g : Geometry) (M N : ℕ) (edges : ℕ → ℝ) (U : ℕ → ℕ → ℝ) (x : ℝ) :
    Option ℝ :=
  let idx := outIndex N edges x
  if edges 0 ≤ x ∧ x ≤ edges N then
    outExpansion g M (U (idx - 1)) x (edges (idx - 1)) (edges idx)
  else some 0

/-- make_phi.py 66-72: `phi_out[count]`; `unc x t` is the uncollided solution at a point. -/
noncomputable def phiOut (g : Geometry) (M N Nang : ℕ) (ws : ℕ → ℝ) (edges : ℕ → ℝ)
    (u : ℕ → ℕ → ℕ → ℝ) (uncollided : Bool) (unc : ℝ → ℝ → ℝ) (t x : ℝ) : Option ℝ :=
  if ∀ ang < Nang, (psiOut g M N edges (u ang) x).isSome then
    some ((∑ ang ∈ Finset.range Nang, (psiOut g M N edges (u ang) x).getD 0 * ws ang) +
      if uncollided then unc x t else 0)
  else none

open Classical in
/-- make_phi.py 83-87: `dx_e[count]`; the derivative of the Legendre functions is used in both
geometries.  `U space i = u[N_ang, space, i]`. -/
noncomputable def dxeOut (M N : ℕ) (edges : ℕ → ℝ) (U : ℕ → ℕ → ℝ) (x : ℝ) : ℝ :=
  let idx := outIndex N edges x
  if edges 0 ≤ x ∧ x ≤ edges N then
    if M ≤ 11 then
      ∑ i ∈ Finset.range (M + 1), U (idx - 1) i * dxNormPn i x (edges (idx - 1)) (edges idx)
    else 0
  else 0

/-- make_phi.py 95: `x_eval[count]` -/
def exitPoint (N : ℕ) (edges : ℕ → ℝ) (count : Fin 2) : ℝ := if count = 0 then edges 0 else edges N

/-- make_phi.py 96-107: `exit_dist[ang, count]` -/
noncomputable def exitDist (g : Geometry) (M N : ℕ) (edges : ℕ → ℝ) (U : ℕ → ℕ → ℝ)
    (count : Fin 2) : Option ℝ := psiOut g M N edges U (exitPoint N edges count)

/-- make_phi.py 108-112: the second value returned by `get_exit_dist`.  Line 110 evaluates the
uncollided solution at `self.xs`, all the output points, and line 111 adds that array to one with
two entries; that is an error unless it has two entries or one. -/
noncomputable def exitPhi (g : Geometry) (M N Nang : ℕ) (ws : ℕ → ℝ) (edges : ℕ → ℝ)
    (u : ℕ → ℕ → ℕ → ℝ) (uncollided : Bool) (unc : ℝ → ℝ → ℝ) (t : ℝ) (xs : List ℝ)
    (count : Fin 2) : Option ℝ :=
  if ∀ ang < Nang, (exitDist g M N edges (u ang) count).isSome then
    let output := ∑ ang ∈ Finset.range Nang, (exitDist g M N edges (u ang) count).getD 0 * ws ang
    if uncollided then
      match xs with
      | [x] => some (output + unc x t)
      | [x, y] => some (output + if count = 0 then unc x t else unc y t)
      | _ => none
    else some output
  else none

end Verif.Model
