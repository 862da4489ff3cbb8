import Verif.Props.Output

/-!
C78, with the uncollided treatment: what is added to the exit flux for one and for two output points.
-/

namespace Verif.Props

open Verif.Spec Verif.Model

/-- C78: with two output points the flux at the left end is the quadrature of the exit distribution plus the uncollided
flux at the first output point, that at the right end has the uncollided flux at the second one.  Both are the fluxes
at the ends if the output points are the ends. -/
theorem c78_exit_flux_two (g : Geometry) (M : ℕ) (hM : OrderOk g M) {N : ℕ} (hN : 1 ≤ N) (Nang : ℕ)
    (ws edges : ℕ → ℝ) (he : ∀ i < N, edges i < edges (i + 1)) (u : ℕ → ℕ → ℕ → ℝ) (unc : ℝ → ℝ → ℝ) (t x y : ℝ) :
    exitPhi g M N Nang ws edges u true unc t [x, y] 0 = some (∑ ang ∈ Finset.range Nang,
        ws ang * cellField g M (u ang 0) (edges 0) (edges 1) (edges 0) + unc x t) ∧
      exitPhi g M N Nang ws edges u true unc t [x, y] 1 = some (∑ ang ∈ Finset.range Nang,
        ws ang * cellField g M (u ang (N - 1)) (edges (N - 1)) (edges N) (edges N) + unc y t) := by
  have h := fun ang => c78_exit_distribution g M hM hN edges he (u ang)
  constructor <;>
  · unfold exitPhi
    simp only [(h _).1, (h _).2, Option.isSome_some, implies_true, if_true, Option.getD_some]
    simp [mul_comm]

example := c78_exit_flux_two .slab 3 (fun h => by cases h) (by norm_num) 4 (fun _ => 1 / 2)
  exampleEdges exampleEdges_increasing (fun a k j => a + k + j) (fun x t => x + t) 1 (exampleEdges 0) (exampleEdges 3)

/-- C78: with one output point both ends get the uncollided flux at that point. -/
theorem c78_exit_flux_one (g : Geometry) (M : ℕ) (hM : OrderOk g M) {N : ℕ} (hN : 1 ≤ N) (Nang : ℕ)
    (ws edges : ℕ → ℝ) (he : ∀ i < N, edges i < edges (i + 1)) (u : ℕ → ℕ → ℕ → ℝ) (unc : ℝ → ℝ → ℝ) (t x : ℝ) :
    exitPhi g M N Nang ws edges u true unc t [x] 0 = some (∑ ang ∈ Finset.range Nang,
        ws ang * cellField g M (u ang 0) (edges 0) (edges 1) (edges 0) + unc x t) ∧
      exitPhi g M N Nang ws edges u true unc t [x] 1 = some (∑ ang ∈ Finset.range Nang,
        ws ang * cellField g M (u ang (N - 1)) (edges (N - 1)) (edges N) (edges N) + unc x t) := by
  have h := fun ang => c78_exit_distribution g M hM hN edges he (u ang)
  constructor <;>
  · unfold exitPhi
    simp only [(h _).1, (h _).2, Option.isSome_some, implies_true, if_true, Option.getD_some]
    simp [mul_comm]

example := c78_exit_flux_one .sphere 3 (fun _ => by norm_num) (by norm_num) 4 (fun _ => 1 / 2)
  exampleEdges exampleEdges_increasing (fun a k j => a + k + j) (fun x t => x + t) 1 2

end Verif.Props
