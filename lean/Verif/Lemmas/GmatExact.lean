import Verif.Lemmas.Chebyshev
import Verif.Spec.Transport
import Mathlib.Analysis.SpecialFunctions.Sqrt

/-! Closed form of the sphere matrices in terms of Chebyshev moments. -/

namespace Verif.Lemmas

open Polynomial Verif.Spec

/-- Normalisation of the Chebyshev basis without the common factor. -/
noncomputable def bb (n : ℕ) : ℝ := if n = 0 then 1 else Real.sqrt 2

/-- `∫ ρ² p` for `ρ = m + d X`, given the moments of `p`. -/
noncomputable def rho2 (m d : ℝ) (f : ℕ → ℝ) (k : ℕ) : ℝ :=
  m ^ 2 * f k + 2 * m * d * f (k + 1) + d ^ 2 * f (k + 2)

/-- `π ∫ ∂_t B_i B_j r²` in moments. -/
noncomputable def gExact (i j : ℕ) (a b ap bp : ℝ) : ℝ :=
  bb i * bb j / (2 * (b - a)) *
    (-(bp - ap) / 2 * rho2 ((a + b) / 2) ((b - a) / 2) (fun k => ttMom k i j) 0
      - (ap + bp) * rho2 ((a + b) / 2) ((b - a) / 2) (fun k => dtMom k i j) 0
      - (bp - ap) * rho2 ((a + b) / 2) ((b - a) / 2) (fun k => dtMom k i j) 1)

/-- `d/dt π ∫ B_i B_j r²` in moments. -/
noncomputable def mpExact (i j : ℕ) (a b ap bp : ℝ) : ℝ :=
  bb i * bb j *
    ((a + b) / 2 * ((ap + bp) / 2) * ttMom 0 i j +
      ((a + b) / 2 * ((bp - ap) / 2) + (b - a) / 2 * ((ap + bp) / 2)) * ttMom 1 i j +
      (b - a) / 2 * ((bp - ap) / 2) * ttMom 2 i j)

end Verif.Lemmas
