import Verif.Spec.SphereExact
import Mathlib.MeasureTheory.Integral.IntervalIntegral.Basic

/-!
Specification: the transport equation in spherical symmetry with all directions, and functions that
satisfy the discrete-ordinates equation up to a residual.
-/

namespace Verif.Spec

open Set

/-- As `SphereSolution`, up to a residual `r ρ`. -/
structure SphereNearSolution (n : ℕ) (mus ws : ℕ → ℝ) (scat : ℝ) (N : ℕ) (e v : ℝ → ℕ → ℝ)
    (q : ℕ → ℝ → ℝ → ℝ) (ρ : ℕ → ℕ → ℝ → ℝ → ℝ) (a b : ℝ) (F : Set ℝ)
    (u : ℕ → ℕ → ℝ → ℝ → ℝ) : Prop where
  smooth : ∀ l < n, ∀ k < N, ContDiff ℝ 1 fun z : ℝ × ℝ => u l k z.1 z.2
  residual : ∀ t ∈ Ico a b \ F, ∀ l < n, ∀ k < N, Continuous fun r => ρ l k r t
  equation : ∀ t ∈ Ico a b \ F, ∀ l < n, ∀ k < N, ∀ r ∈ Icc (e t k) (e t (k + 1)),
    r ^ 2 * deriv (fun τ => u l k r τ) t + mus l * deriv (fun y => y ^ 2 * u l k y t) r
        + r * angularDifference n mus (fun l => u l k r t) l =
      r ^ 2 * (-u l k r t + scat * (∑ l' ∈ Finset.range n, ws l' * u l' k r t) + q k r t)
        + r * ρ l k r t
  continuousFlux : ∀ t ∈ Ico a b \ F, ∀ l < n, ∀ k, k + 1 < N →
    (mus l - v t (k + 1)) * u l k (e t (k + 1)) t =
      (mus l - v t (k + 1)) * u l (k + 1) (e t (k + 1)) t
  vacuum : ∀ t ∈ Ico a b \ F, ∀ l < n, mus l - v t N < 0 → u l (N - 1) (e t N) t = 0

theorem SphereSolution.near {n : ℕ} {mus ws : ℕ → ℝ} {scat : ℝ} {N : ℕ} {e v : ℝ → ℕ → ℝ}
    {q : ℕ → ℝ → ℝ → ℝ} {a b : ℝ} {F : Set ℝ} {u : ℕ → ℕ → ℝ → ℝ → ℝ}
    (h : SphereSolution n mus ws scat N e v q a b F u) :
    SphereNearSolution n mus ws scat N e v q (fun _ _ _ _ => 0) a b F u where
  smooth := h.smooth
  residual _ _ _ _ _ _ := continuous_const
  equation t ht l hl k hk r hr := by rw [h.equation t ht l hl k hk r hr]; ring
  continuousFlux := h.continuousFlux
  vacuum := h.vacuum

/-- `ψ r μ t` is the angular flux at radius `r` in the direction with cosine `μ`.  Outside the times
`F` it satisfies

`r² ∂ψ/∂t + μ ∂(r² ψ)/∂r + r ∂((1 - μ²) ψ)/∂μ = r² (-ψ + scat/2 ∫ ψ dμ + q)`

in the sphere of radius `R t`, for all directions, and nothing enters through its surface, which moves
with velocity `V t`. -/
structure SphereTransport (scat : ℝ) (R V : ℝ → ℝ) (q : ℝ → ℝ → ℝ) (a b : ℝ) (F : Set ℝ)
    (ψ : ℝ → ℝ → ℝ → ℝ) : Prop where
  smooth : ContDiff ℝ 2 fun z : ℝ × ℝ × ℝ => ψ z.1 z.2.1 z.2.2
  equation : ∀ t ∈ Ico a b \ F, ∀ r ∈ Icc 0 (R t), ∀ μ ∈ Icc (-1 : ℝ) 1,
    r ^ 2 * deriv (fun τ => ψ r μ τ) t + μ * deriv (fun y => y ^ 2 * ψ y μ t) r
        + r * deriv (fun m => (1 - m ^ 2) * ψ r m t) μ =
      r ^ 2 * (-ψ r μ t + scat * ((∫ m in (-1 : ℝ)..1, ψ r m t) / 2) + q r t)
  vacuum : ∀ t ∈ Ico a b \ F, ∀ μ ∈ Icc (-1 : ℝ) 1, μ - V t < 0 → ψ (R t) μ t = 0

/-- A smooth solution without source in the time interval `[0, T]`: `B` bounds the radial derivative of
order `M + 1`, `D` the flux and its first two derivatives in the direction. -/
structure SmoothTransport (M : ℕ) (scat : ℝ) (R V : ℝ → ℝ) (T : ℝ) (F : Set ℝ) (B D : ℝ)
    (ψ : ℝ → ℝ → ℝ → ℝ) : Prop where
  finite : F.Finite
  transport : SphereTransport scat R V (fun _ _ => 0) 0 T F ψ
  radial : ∀ t ∈ Icc 0 T, ∀ μ ∈ Icc (-1 : ℝ) 1, ContDiff ℝ (M + 1) fun r => ψ r μ t
  radialBound : ∀ t ∈ Icc 0 T, ∀ μ ∈ Icc (-1 : ℝ) 1, ∀ r ∈ Icc 0 (R t),
    |iteratedDeriv (M + 1) (fun r => ψ r μ t) r| ≤ B
  angularBound : ∀ t ∈ Icc 0 T, ∀ r ∈ Icc 0 (R t), ∀ μ ∈ Icc (-1 : ℝ) 1, ∀ j ≤ 2,
    |iteratedDeriv j (fun m => ψ r m t) μ| ≤ D

/-- Sums with the weights `ws` in the directions `mus` give the mean over all directions, up to `ω` times a
bound for the function and its derivatives. -/
def AngularRule (n : ℕ) (mus ws : ℕ → ℝ) (ω : ℝ) : Prop :=
  ∀ f : ℝ → ℝ, ContDiff ℝ 2 f → ∀ D, (∀ x ∈ Icc (-1 : ℝ) 1, ∀ j ≤ 2, |iteratedDeriv j f x| ≤ D) →
    |(∫ m in (-1 : ℝ)..1, f m) / 2 - ∑ l ∈ Finset.range n, ws l * f (mus l)| ≤ D * ω

end Verif.Spec
