import Verif.Props.AllDirections
import Verif.Props.Dop853
import Mathlib.Analysis.SpecialFunctions.SmoothTransition

/-!
Property C139: with more shells and more directions the program converges to the transport equation with
all directions.
-/

namespace Verif.Props

open Set MeasureTheory Filter Topology Verif.Spec Verif.Model Verif.Lemmas

/-! ### DOP853 -/

/-- C139: with `DOP853`, the integrator that nearly all input files name. -/
theorem c139_dop853_error (M : ℕ) (hM : M ≤ 10) : ∃ C K : ℝ, 1 ≤ C ∧ 1 ≤ K ∧
    ∀ (P : Problem) (e d : ℕ → ℝ) (δ ρ κ h A B D R W Δ ω : ℝ) (F : Set ℝ) (ψ : ℝ → ℝ → ℝ → ℝ)
      (V0 : StateVec) (α : ℝ),
      AnyDirections P e d → Offsets P e d P.mesh.tfinal δ ρ κ → P.M = M → P.uncollided = false →
      0 < P.mesh.tfinal → AngularMeshSizes P e d P.mesh.tfinal h A R W Δ ω →
      SmoothTransport M P.sigmaS (fun t => e P.mesh.N + d P.mesh.N * t) (fun _ => d P.mesh.N)
        P.mesh.tfinal F B D ψ → ∑ l ∈ Finset.range P.Nang, P.rawWs l ≠ 0 → StartsFrom P V0 →
      ∃ Y, 0 ≤ Y ∧ ∃ η₀ > 0, ∀ (c : DopCoefficients) (ε ε' : ℝ), 0 ≤ ε → DopLike c α ε ε' →
        ∀ (es : List Event) (η : ℝ), 0 ≤ η → η ≤ η₀ → Arrives P es →
        (∀ s ∈ acceptedSteps es, s ≤ η) → ∀ estimate choose, ∃ Q,
          P.solve c.tableau (P.dopDenseOutput c) es estimate choose = some Q ∧
          TransportErrorAtMost P e d choose ψ
            (2 * transportBound P e δ ρ κ h A B D R W Δ ω C K V0 ψ + Y * (ε + η ^ 8) ^ 2)
            (R ^ 3 * ((∑ l ∈ Finset.range P.Nang, P.rawWs l) * (D * ω)) ^ 2) Q := by
  obtain ⟨C, K, hC1, hK1, hK⟩ := run_and_bound_all M hM
  refine ⟨C, K, hC1, hK1,
    fun P e d δ ρ κ h A B D R W Δ ω F ψ V0 α hP hO hPM hun hT hS hψ hs0 hV0 => ?_⟩
  obtain ⟨G, V, hG, hV, hb⟩ := hK P e d δ ρ κ h A B D R W Δ ω F ψ V0 hP hO hPM hT hS hψ hV0
  subst hPM
  obtain ⟨Y, hY, η₀, h0, h1⟩ := c135_order hP.problem hP.noSource (Or.inl hP.noBoundary) hG hV.2 α 8
  obtain ⟨Q, hQ0, hQ⟩ := error_of_near_all hP hT.le hS hψ hs0
  refine ⟨Y ^ 2 * Q, by positivity, η₀, h0, fun c ε ε' hε hc es η hη hη0 hes hs estimate choose => ?_⟩
  obtain ⟨S, x, r1, r2, r3, r4⟩ := c128_solve hP.problem (by have := hP.shells; omega) hun hT hc.usable
    (dop_ends P c) hV.1 hes estimate choose
  refine ⟨S, r1, ?_⟩
  have h2 := h1 _ ε hc.usable hc.rows' hε hc.linear _ es x 0 η le_rfl hη hη0
    (fun s hs' => ⟨(hes.1 s hs').le, hs s hs'⟩) (hV.1.within hV.1) r2 r3.le
  rw [zero_add, r3] at h2
  have h3 := hQ (V P.mesh.tfinal) x.y (Y * (ε + η ^ 8)) _ choose S (by positivity) h2 hb r4
  rwa [show (Y * (ε + η ^ 8)) ^ 2 * Q = Y ^ 2 * Q * (ε + η ^ 8) ^ 2 by ring] at h3

/-! ### The limit -/

/-- C139: a sequence of problems with narrower shells and angular cells.  The offsets of the directions are
bounded by the innermost edge and the shells are narrow against the angular cells: their width to the
power `M + 1`, divided by the narrowest angular cell, goes to zero.  If the initial states converge, so do
the states at all times. -/
theorem c139_convergence (M : ℕ) (hM : M ≤ 10) (P : ℕ → Problem) (e d : ℕ → ℕ → ℝ)
    (scat T κ A B D R L Z : ℝ) (δ ρ h W Δ ω : ℕ → ℝ) (F : Set ℝ) (G : ℕ → Set ℝ)
    (ψ : ℝ → ℝ → ℝ → ℝ) (V : ℕ → ℝ → ℕ → ℕ → ℕ → ℝ)
    (hP : ∀ i, AnyDirections (P i) (e i) (d i))
    (hO : ∀ i, Offsets (P i) (e i) (d i) T (δ i) (ρ i) κ)
    (hPM : ∀ i, (P i).M = M) (hc : ∀ i, (P i).sigmaS = scat)
    (hS : ∀ i, AngularMeshSizes (P i) (e i) (d i) T (h i) A R (W i) (Δ i) (ω i))
    (hψ : ∀ i, SmoothTransport M scat (fun t => e i (P i).mesh.N + d i (P i).mesh.N * t)
      (fun _ => d i (P i).mesh.N) T F B D ψ)
    (hL : ∀ i, ((P i).mesh.N + 1) * h i ≤ L) (hZ : ∀ i, δ i ≤ Z * ρ i)
    (hG : ∀ i, (G i).Finite) (hV : ∀ i, ProgramSolutionOn (P i) 0 T (G i) (V i))
    (hh : Tendsto h atTop (𝓝 0)) (hΔ : Tendsto Δ atTop (𝓝 0)) (hω : Tendsto ω atTop (𝓝 0))
    (hW : Tendsto (fun i => h i ^ (M + 1) / W i) atTop (𝓝 0))
    (h0 : Tendsto (fun i => sphereSqDistance (P i).Nang (cellWs (P i)) (P i).mesh.N M (e i) (V i 0)
      fun l _ r => ψ r ((P i).mus l) 0) atTop (𝓝 0)) (hT : 0 ≤ T) :
    ∃ β : ℕ → ℝ, Tendsto β atTop (𝓝 0) ∧ ∀ i, ∀ t ∈ Icc 0 T,
      sphereSqDistance (P i).Nang (cellWs (P i)) (P i).mesh.N M (fun k => e i k + d i k * t) (V i t)
        (fun l _ r => ψ r ((P i).mus l) t) ≤ β i := by
  obtain ⟨C, K, hC, hK, hb⟩ := c139_error_bound M hM
  set I := fun i => sphereSqDistance (P i).Nang (cellWs (P i)) (P i).mesh.N M (e i) (V i 0)
      fun l _ r => ψ r ((P i).mus l) 0 with hI
  set E := max (scat * (1 + κ) - 1 + 2 * Z * C) 0 with hE
  set Y := fun i => T * (L * A * R ^ 2) * (K * B) ^ 2 * h i ^ (2 * M + 1)
      + 8 * T * R * (K * B) ^ 2 * (h i ^ (M + 1) / W i) ^ 2 + R ^ 3 * (K * B) ^ 2 * h i ^ (2 * M + 2)
      + T * (2 * R * (D * (9 * Δ i + R * scat * ω i)) ^ 2) with hY
  refine ⟨fun i => (I i + Y i) * Real.exp (E * T), ?_, fun i t ht => ?_⟩
  · have h1 : Tendsto Y atTop (𝓝 (T * (L * A * R ^ 2) * (K * B) ^ 2 * 0 ^ (2 * M + 1)
        + 8 * T * R * (K * B) ^ 2 * 0 ^ 2 + R ^ 3 * (K * B) ^ 2 * 0 ^ (2 * M + 2)
        + T * (2 * R * (D * (9 * 0 + R * scat * 0)) ^ 2))) :=
      (((hh.pow _).const_mul _).add ((hW.pow 2).const_mul _)).add ((hh.pow _).const_mul _) |>.add
        ((((((hΔ.const_mul 9).add (hω.const_mul _)).const_mul D).pow 2).const_mul _).const_mul T)
    have h2 := (h0.add h1).mul_const (Real.exp (E * T))
    simpa using h2
  · have hh0 : 0 ≤ h i := by
      have h1 := (hS i).widthFirst 0 (by have := (hP i).shells; omega)
      have h2 := (hP i).problem.mesh.ordered 0 le_rfl 0 (by have := (hP i).shells; omega)
      simp only [mul_zero, add_zero] at h2
      linarith
    have hR0 : 0 ≤ R := by
      have hord : ∀ k < (P i).mesh.N, e i k < e i (k + 1) := fun k hk => by
        have := (hP i).problem.mesh.ordered 0 le_rfl k hk
        simpa only [mul_zero, add_zero] using this
      have h1 := edges_mono hord (Nat.zero_le (P i).mesh.N) le_rfl
      rw [(hP i).problem.mesh.centre] at h1
      exact h1.trans (hS i).first
    have hmain := hb (P i) (e i) (d i) T (δ i) (ρ i) κ (h i) A B D R (W i) (Δ i) (ω i) F (G i) ψ (V i)
      (hP i) (hO i) (hPM i) (hS i) (by rw [hc i]; exact hψ i) (hG i) (hV i) t ht
    have hA0 := (hS i).speed
    have hW0 := (hS i).cell
    have hn : 0 ≤ I i := by
      refine sphereSqDistance_nonneg (fun l hl => ((hP i).cell l hl).le) _ _ (fun k hk => ?_) _ _
      have := (hP i).problem.mesh.ordered 0 le_rfl k hk
      simpa only [mul_zero, add_zero] using this
    have hterm : transportTerm (P i) (h i) A B D R (W i) (Δ i) (ω i) K t ≤ Y i := by
      unfold transportTerm
      rw [hPM i, hc i]
      set Q := (K * B) ^ 2 * h i ^ (2 * M + 1) with hQ
      have hQ0 : 0 ≤ Q := by positivity
      have a1 : ((P i).mesh.N + 1) * h i * (A * R ^ 2) ≤ L * (A * R ^ 2) :=
        mul_le_mul_of_nonneg_right (hL i) (by positivity)
      have a2 : t * (((P i).mesh.N + 1) * h i * A * R ^ 2 + 2 * R * (2 / W i) ^ 2 * h i) ≤
          T * (L * A * R ^ 2 + 2 * R * (2 / W i) ^ 2 * h i) := by
        refine mul_le_mul ht.2 (by linarith) (by positivity) hT
      have a3 : t * (2 * R * (D * (9 * Δ i + R * scat * ω i)) ^ 2) ≤
          T * (2 * R * (D * (9 * Δ i + R * scat * ω i)) ^ 2) :=
        mul_le_mul_of_nonneg_right ht.2 (by positivity)
      have a4 := mul_le_mul_of_nonneg_right (add_le_add a2 (le_refl (R ^ 3 * h i))) hQ0
      have e1 : (T * (L * A * R ^ 2 + 2 * R * (2 / W i) ^ 2 * h i) + R ^ 3 * h i) * Q =
          T * (L * A * R ^ 2) * (K * B) ^ 2 * h i ^ (2 * M + 1)
          + 8 * T * R * (K * B) ^ 2 * (h i ^ (M + 1) / W i) ^ 2
          + R ^ 3 * (K * B) ^ 2 * h i ^ (2 * M + 2) := by
        rw [hQ, div_pow, div_pow]
        ring
      rw [e1] at a4
      rw [mul_assoc _ ((K * B) ^ 2), ← hQ]
      simp only [hY]
      linarith
    have hexp : max ((P i).sigmaS * (1 + κ) - 1 + 2 * δ i * C / ρ i) 0 * t ≤ E * T := by
      rw [hc i]
      refine mul_le_mul (max_le_max ?_ le_rfl) ht.2 ht.1 (le_max_right _ _)
      have hρ := (hO i).inner
      have : 2 * δ i * C / ρ i ≤ 2 * Z * C := by
        rw [div_le_iff₀ hρ]
        have := mul_le_mul_of_nonneg_right (hZ i) (show 0 ≤ 2 * C by linarith)
        linarith
      linarith
    have hY0 : 0 ≤ I i + Y i := by
      have : 0 ≤ transportTerm (P i) (h i) A B D R (W i) (Δ i) (ω i) K t := by
        unfold transportTerm
        have := ht.1
        positivity
      linarith
    exact hmain.trans (mul_le_mul (by linarith) (Real.exp_le_exp.2 hexp) (Real.exp_pos _).le hY0)

/-! ### Example: free flight out of a ball -/

/-- Square of the distance from the centre, a time `t` ago, of what is at radius `r` in direction `μ`. -/
def originSq (r μ t : ℝ) : ℝ := r ^ 2 - 2 * r * μ * t + t ^ 2

/-- A smooth profile that vanishes outside the ball of radius one half. -/
noncomputable def ballProfile (s : ℝ) : ℝ := Real.smoothTransition (1 - 4 * s)

/-- What is in the ball at time zero flies off and is absorbed. -/
noncomputable def freeFlight (r μ t : ℝ) : ℝ := Real.exp (-t) * ballProfile (originSq r μ t)

theorem contDiff_ballProfile {n : ℕ∞} : ContDiff ℝ n ballProfile :=
  Real.smoothTransition.contDiff.comp (contDiff_const.sub (contDiff_const.mul contDiff_id))

theorem ballProfile_zero {s : ℝ} (h : 1 / 4 ≤ s) : ballProfile s = 0 :=
  Real.smoothTransition.zero_of_nonpos (by linarith)

theorem ballProfile_one {s : ℝ} (h : s ≤ 0) : ballProfile s = 1 :=
  Real.smoothTransition.one_of_one_le (by linarith)

theorem hasDerivAt_ballProfile (s : ℝ) : HasDerivAt ballProfile (deriv ballProfile s) s :=
  ((contDiff_ballProfile (n := 1)).differentiable (by norm_num) s).hasDerivAt

theorem hasDerivAt_ballProfile' (s : ℝ) :
    HasDerivAt (deriv ballProfile) (deriv (deriv ballProfile) s) s := by
  have h1 : ContDiff ℝ 1 (deriv ballProfile) :=
    ((contDiff_succ_iff_deriv (n := 1)).1 (by exact_mod_cast contDiff_ballProfile (n := 2))).2.2
  exact (h1.differentiable (by norm_num) s).hasDerivAt

theorem contDiff_freeFlight : ContDiff ℝ 2 fun z : ℝ × ℝ × ℝ => freeFlight z.1 z.2.1 z.2.2 := by
  have hr : ContDiff ℝ 2 fun z : ℝ × ℝ × ℝ => z.1 := contDiff_fst
  have hm : ContDiff ℝ 2 fun z : ℝ × ℝ × ℝ => z.2.1 := contDiff_fst.comp contDiff_snd
  have ht : ContDiff ℝ 2 fun z : ℝ × ℝ × ℝ => z.2.2 := contDiff_snd.comp contDiff_snd
  have ho : ContDiff ℝ 2 fun z : ℝ × ℝ × ℝ => originSq z.1 z.2.1 z.2.2 :=
    ((hr.pow 2).sub (((contDiff_const.mul hr).mul hm).mul ht)).add (ht.pow 2)
  exact (Real.contDiff_exp.comp ht.neg).mul ((contDiff_ballProfile (n := 2)).comp ho)

/-- Derivatives of a quadratic through the profile. -/
theorem flight_deriv {q : ℝ → ℝ} {q1 x : ℝ} (hq : HasDerivAt q q1 x) :
    HasDerivAt (fun y => ballProfile (q y)) (deriv ballProfile (q x) * q1) x :=
  (hasDerivAt_ballProfile (q x)).comp x hq

theorem flight_deriv_two {c q2 : ℝ} {q q1 : ℝ → ℝ} (hq : ∀ x, HasDerivAt q (q1 x) x)
    (hq1 : ∀ x, HasDerivAt q1 q2 x) (x : ℝ) :
    iteratedDeriv 1 (fun y => c * ballProfile (q y)) x = c * (deriv ballProfile (q x) * q1 x) ∧
    iteratedDeriv 2 (fun y => c * ballProfile (q y)) x =
      c * (deriv (deriv ballProfile) (q x) * q1 x * q1 x + deriv ballProfile (q x) * q2) := by
  have h1 : iteratedDeriv 1 (fun y => c * ballProfile (q y)) =
      fun x => c * (deriv ballProfile (q x) * q1 x) := by
    rw [iteratedDeriv_one]
    funext x
    exact ((flight_deriv (hq x)).const_mul c).deriv
  refine ⟨by rw [h1], ?_⟩
  rw [iteratedDeriv_succ, h1]
  exact ((((hasDerivAt_ballProfile' (q x)).comp x (hq x)).mul (hq1 x)).const_mul c).deriv

theorem originSq_r (μ t x : ℝ) : HasDerivAt (fun r => originSq r μ t) (2 * x - 2 * μ * t) x := by
  have h1 := (((hasDerivAt_pow 2 x).sub ((((hasDerivAt_id x).const_mul 2).mul_const μ).mul_const t)).add
    (hasDerivAt_const x (t ^ 2)))
  refine h1.congr_deriv ?_
  simp

theorem originSq_mu (r t x : ℝ) : HasDerivAt (fun μ => originSq r μ t) (-2 * r * t) x := by
  have h1 := (((hasDerivAt_const x (r ^ 2)).sub (((hasDerivAt_id x).const_mul (2 * r)).mul_const t)).add
    (hasDerivAt_const x (t ^ 2)))
  refine h1.congr_deriv ?_
  simp

theorem originSq_t (r μ x : ℝ) : HasDerivAt (fun t => originSq r μ t) (2 * x - 2 * r * μ) x := by
  have h1 := (((hasDerivAt_const x (r ^ 2)).sub ((hasDerivAt_id x).const_mul (2 * r * μ))).add
    (hasDerivAt_pow 2 x))
  refine h1.congr_deriv ?_
  simp
  ring

/-- Free flight satisfies the transport equation without scattering, in a sphere at rest of radius one
half, for all times. -/
theorem freeFlight_transport (T : ℝ) : SphereTransport 0 (fun _ => 1 / 2) (fun _ => 0) (fun _ _ => 0) 0 T ∅
    freeFlight where
  smooth := contDiff_freeFlight
  equation t _ r _ μ _ := by
    have hr := (((hasDerivAt_pow 2 r).mul ((flight_deriv (originSq_r μ t r)).const_mul
      (Real.exp (-t))))).deriv
    have hm := ((((hasDerivAt_pow 2 μ).const_sub 1).mul ((flight_deriv (originSq_mu r t μ)).const_mul
      (Real.exp (-t))))).deriv
    have hx : HasDerivAt (fun τ : ℝ => Real.exp (-τ)) (-Real.exp (-t)) t := by
      simpa using (hasDerivAt_neg t).exp
    have ht := (hx.mul (flight_deriv (originSq_t r μ t))).deriv
    have er : (fun y => y ^ 2 * freeFlight y μ t) =
        (fun x : ℝ => x ^ 2) * fun y => Real.exp (-t) * ballProfile (originSq y μ t) := rfl
    have em : (fun m => (1 - m ^ 2) * freeFlight r m t) =
        (fun x : ℝ => 1 - x ^ 2) * fun y => Real.exp (-t) * ballProfile (originSq r y t) := rfl
    have et : (fun τ => freeFlight r μ τ) =
        (fun τ : ℝ => Real.exp (-τ)) * fun y => ballProfile (originSq r μ y) := rfl
    rw [er, em, et, hr, hm, ht]
    simp only [freeFlight]
    push_cast
    ring
  vacuum t ht μ _ h := by
    have : (1 : ℝ) / 4 ≤ originSq (1 / 2) μ t := by
      have := ht.1.1
      unfold originSq
      nlinarith
    rw [freeFlight, ballProfile_zero this, mul_zero]

/-- It is smooth, with bounds for the derivatives. -/
theorem freeFlight_smooth : ∃ B D, SmoothTransport 1 0 (fun _ => 1 / 2) (fun _ => 0) 2 ∅ B D freeFlight := by
  have hc : ∃ Q, ∀ s ∈ Icc (-10 : ℝ) 10, |ballProfile s| ≤ Q ∧ |deriv ballProfile s| ≤ Q ∧
      |deriv (deriv ballProfile) s| ≤ Q := by
    have c0 : Continuous ballProfile := (contDiff_ballProfile (n := 0)).continuous
    have c1 : Continuous (deriv ballProfile) :=
      continuous_iff_continuousAt.2 fun s => (hasDerivAt_ballProfile' s).continuousAt
    have c2 : Continuous (deriv (deriv ballProfile)) := by
      have h := (contDiff_ballProfile (n := 2)).continuous_iteratedDeriv 2 le_rfl
      rwa [iteratedDeriv_succ, iteratedDeriv_one] at h
    obtain ⟨Q0, h0⟩ := isCompact_Icc.exists_bound_of_continuousOn (s := Icc (-10 : ℝ) 10) c0.continuousOn
    obtain ⟨Q1, h1⟩ := isCompact_Icc.exists_bound_of_continuousOn (s := Icc (-10 : ℝ) 10) c1.continuousOn
    obtain ⟨Q2, h2⟩ := isCompact_Icc.exists_bound_of_continuousOn (s := Icc (-10 : ℝ) 10) c2.continuousOn
    exact ⟨max Q0 (max Q1 Q2), fun s hs => ⟨(h0 s hs).trans (le_max_left _ _),
      (h1 s hs).trans ((le_max_left _ _).trans (le_max_right _ _)),
      (h2 s hs).trans ((le_max_right _ _).trans (le_max_right _ _))⟩⟩
  obtain ⟨Q, hQ⟩ := hc
  have hQ0 : 0 ≤ Q := (abs_nonneg _).trans (hQ 0 (by norm_num)).1
  have hrange : ∀ {r μ t : ℝ}, r ∈ Icc (0 : ℝ) (1 / 2) → μ ∈ Icc (-1 : ℝ) 1 → t ∈ Icc (0 : ℝ) 2 →
      originSq r μ t ∈ Icc (-10 : ℝ) 10 ∧ |2 * r - 2 * μ * t| ≤ 5 ∧ |-2 * r * t| ≤ 2 ∧
      0 ≤ Real.exp (-t) ∧ Real.exp (-t) ≤ 1 := by
    intro r μ t hr hμ ht
    have h1 : |r * t| ≤ 1 := by
      rw [abs_le]; constructor <;> nlinarith [hr.1, hr.2, ht.1, ht.2]
    have h2 : |μ * t| ≤ 2 := by
      rw [abs_le]; constructor <;> nlinarith [hμ.1, hμ.2, ht.1, ht.2]
    have h3 : |r * t * μ| ≤ 1 := by
      rw [abs_mul]
      have : |μ| ≤ 1 := abs_le.2 ⟨hμ.1, hμ.2⟩
      nlinarith [abs_nonneg (r * t), abs_nonneg μ]
    rw [abs_le] at h1 h2 h3
    refine ⟨?_, ?_, ?_, (Real.exp_pos _).le, Real.exp_le_one_iff.2 (by linarith [ht.1])⟩
    · unfold originSq
      constructor <;> nlinarith [hr.1, hr.2, ht.1, ht.2, h3.1, h3.2]
    · rw [abs_le]; constructor <;> linarith [hr.1, hr.2, h2.1, h2.2]
    · rw [abs_le]; constructor <;> linarith [h1.1, h1.2]
  have hmul : ∀ {a b A B : ℝ}, |a| ≤ A → |b| ≤ B → |a * b| ≤ A * B := fun {a b A B} ha hb => by
    rw [abs_mul]; exact mul_le_mul ha hb (abs_nonneg _) ((abs_nonneg _).trans ha)
  have hexp : ∀ {E a A : ℝ}, 0 ≤ E → E ≤ 1 → |a| ≤ A → |E * a| ≤ A := fun {E a A} h0 h1 ha => by
    have := hmul (show |E| ≤ 1 by rwa [abs_of_nonneg h0]) ha
    rwa [one_mul] at this
  refine ⟨27 * Q, 4 * Q, finite_empty, freeFlight_transport 2, fun t _ μ _ => ?_, fun t ht μ hμ r hr => ?_,
    fun t ht r hr μ hμ j hj => ?_⟩
  · have h1 : ContDiff ℝ 2 fun r : ℝ => (r, μ, t) :=
      contDiff_id.prodMk (contDiff_const.prodMk contDiff_const)
    have h2 := contDiff_freeFlight.comp h1
    norm_num
    exact h2
  · obtain ⟨a1, a2, -, a4, a5⟩ := hrange hr hμ ht
    obtain ⟨-, b1, b2⟩ := hQ _ a1
    have h2 := (flight_deriv_two (c := Real.exp (-t)) (q := fun r => originSq r μ t)
      (q1 := fun x => 2 * x - 2 * μ * t) (q2 := 2) (originSq_r μ t)
      (fun x => by simpa using ((hasDerivAt_id x).const_mul 2).sub_const (2 * μ * t)) r).2
    show |iteratedDeriv 2 (fun y => Real.exp (-t) * ballProfile (originSq y μ t)) r| ≤ _
    rw [h2]
    refine hexp a4 a5 ((abs_add_le _ _).trans ?_)
    have c1 := hmul (hmul b2 a2) a2
    have c2 := hmul b1 (show |(2 : ℝ)| ≤ 2 by norm_num)
    linarith
  · obtain ⟨a1, -, a3, a4, a5⟩ := hrange hr hμ ht
    obtain ⟨b0, b1, b2⟩ := hQ _ a1
    have h2 := flight_deriv_two (c := Real.exp (-t)) (q := fun m => originSq r m t)
      (q1 := fun _ => -2 * r * t) (q2 := 0) (originSq_mu r t) (fun x => hasDerivAt_const x _) μ
    show |iteratedDeriv j (fun y => Real.exp (-t) * ballProfile (originSq r y t)) μ| ≤ _
    have hj3 : j = 0 ∨ j = 1 ∨ j = 2 := by omega
    rcases hj3 with rfl | rfl | rfl
    · rw [iteratedDeriv_zero]
      have := hexp a4 a5 b0
      linarith
    · rw [h2.1]
      have := hexp a4 a5 (hmul b1 a3)
      linarith
    · rw [h2.2]
      refine hexp a4 a5 ?_
      rw [mul_zero, add_zero]
      have := hmul (hmul b2 a3) a3
      linarith

/-! ### The program with `2m` directions and `N` shells -/

/-- The middles of `2m` equal angular cells. -/
noncomputable def equalDirections (m l : ℕ) : ℝ := -1 + (2 * l + 1) / (2 * m)

theorem equalDirections_set {m : ℕ} (hm : 1 ≤ m) : DirectionSet (2 * m) (equalDirections m) where
  two := by omega
  lower := by
    unfold equalDirections
    have : (0 : ℝ) ≤ (2 * ((0 : ℕ) : ℝ) + 1) / (2 * m) := by positivity
    linarith
  upper := by
    have hm0 : (0 : ℝ) < m := by exact_mod_cast hm
    have : ((2 * m - 1 : ℕ) : ℝ) = 2 * m - 1 := by
      rw [Nat.cast_sub (by omega)]; push_cast; ring
    unfold equalDirections
    rw [this]
    have : (2 * (2 * (m : ℝ) - 1) + 1) / (2 * m) ≤ 2 := by
      rw [div_le_iff₀ (by positivity)]; linarith
    linarith
  mono k _ := by
    have hm0 : (0 : ℝ) < m := by exact_mod_cast hm
    unfold equalDirections
    push_cast
    have : (2 * (k : ℝ) + 1) / (2 * m) < (2 * (k + 1) + 1) / (2 * m) := by
      gcongr
      linarith
    linarith

theorem equalDirections_edge {m : ℕ} (hm : 1 ≤ m) {l : ℕ} (hl : l ≤ 2 * m) :
    angularEdge (2 * m) (equalDirections m) l = -1 + l / m := by
  have hm0 : (0 : ℝ) < m := by exact_mod_cast hm
  unfold angularEdge
  split_ifs with h1 h2
  · rw [h1]; simp
  · rw [h2]; push_cast; field_simp; norm_num
  · have : ((l - 1 : ℕ) : ℝ) = l - 1 := by rw [Nat.cast_sub (by omega)]; simp
    unfold equalDirections
    rw [this]
    field_simp
    ring

theorem equalDirections_width {m : ℕ} (hm : 1 ≤ m) {l : ℕ} (hl : l < 2 * m) :
    angularWidth (2 * m) (equalDirections m) l = 1 / m := by
  have hm0 : (0 : ℝ) < m := by exact_mod_cast hm
  unfold angularWidth
  rw [equalDirections_edge hm hl, equalDirections_edge hm hl.le]
  push_cast
  ring

/-- Arguments of `solve` for a sphere at rest without scattering. -/
noncomputable def exampleFlight (inv : (ℕ → ℕ → ℝ) → ℕ → ℕ → ℝ) (m N : ℕ) : Problem :=
  { exampleCritical inv N with
    Nang := 2 * m, mus := equalDirections m, rawWs := fun _ => 3, sigmaS := 0 }

theorem exampleFlight_ws (inv : (ℕ → ℕ → ℝ) → ℕ → ℕ → ℝ) {m N : ℕ} (hm : 1 ≤ m) (l : ℕ) :
    (exampleFlight inv m N).ws l = 1 / (2 * m) := by
  have hm0 : (0 : ℝ) < m := by exact_mod_cast hm
  show (3 : ℝ) / ∑ _l ∈ Finset.range (2 * m), (3 : ℝ) = _
  rw [Finset.sum_const, Finset.card_range, nsmul_eq_mul]
  push_cast
  field_simp

theorem exampleFlight_any {inv : (ℕ → ℕ → ℝ) → ℕ → ℕ → ℝ} (hi : InverseCorrect 1 inv) {m N : ℕ}
    (hm : 1 ≤ m) (hN : 2 ≤ N) :
    AnyDirections (exampleFlight inv m N) (evenEdges N (1 / 2)) (evenEdges N 0) where
  problem :=
    { sphere := rfl
      mesh := exampleCritical_mesh (by omega)
      order := by norm_num [exampleFlight, exampleCritical, exampleShell]
      tables := exactTables_exact 2
      inverse := hi
      directions := by show 2 ≤ 2 * m; omega
      checks := by
        have hm0 : (0 : ℝ) < m := by exact_mod_cast hm
        intro l hl h2
        have hl : l < 2 * m := hl
        have h2 : 2 * m ≤ 2 * l := h2
        have h2' : (m : ℝ) ≤ l := by exact_mod_cast (by omega : m ≤ l)
        show 0 < equalDirections m l ∧ |equalDirections m (2 * m - l - 1) - -equalDirections m l| ≤ _
        have e1 : ((2 * m - l - 1 : ℕ) : ℝ) = 2 * m - l - 1 := by
          rw [Nat.cast_sub (by omega), Nat.cast_sub (by omega)]; push_cast; ring
        constructor
        · unfold equalDirections
          have : 1 < (2 * (l : ℝ) + 1) / (2 * m) := by
            rw [lt_div_iff₀ (by positivity)]; linarith
          linarith
        · have : equalDirections m (2 * m - l - 1) - -equalDirections m l = 0 := by
            unfold equalDirections
            rw [e1]
            field_simp
            ring
          rw [this, abs_zero]
          positivity
      opacity := rfl }
  shells := hN
  noSource := by simp [SourceAsked, exampleFlight, exampleCritical]
  noBoundary := rfl
  noManufactured := by simp [exampleFlight, exampleCritical, exampleCriticalMesh, MeshConfig.st]
  directions := equalDirections_set hm
  scattering := le_rfl

theorem exampleFlight_offsets (inv : (ℕ → ℕ → ℝ) → ℕ → ℕ → ℝ) {m N : ℕ} (hm : 1 ≤ m) (hN : 2 ≤ N) :
    Offsets (exampleFlight inv m N) (evenEdges N (1 / 2)) (evenEdges N 0) 2 0 ((1 / 2) / N) 1 := by
  have hm0 : (0 : ℝ) < m := by exact_mod_cast hm
  have hN0 : (0 : ℝ) < N := by exact_mod_cast (by omega : 0 < N)
  have e1 : evenEdges N (1 / 2) 1 = (1 / 2) / N := by simp only [evenEdges]; push_cast; ring
  have e2 : evenEdges N 0 1 = 0 := by simp [evenEdges]
  refine ⟨le_rfl, fun l hl => ?_, by positivity, e1.ge, by rw [e1, e2]; simp, ?_⟩
  · have hl : l < 2 * m := hl
    show angularMid (2 * m) (equalDirections m) l - equalDirections m l ≤ 0
    unfold angularMid
    rw [equalDirections_edge hm hl, equalDirections_edge hm hl.le]
    unfold equalDirections
    push_cast
    apply le_of_eq
    field_simp
    ring
  · show ∑ l ∈ Finset.range (2 * m), (exampleFlight inv m N).ws l ^ 2 /
      (angularWidth (2 * m) (equalDirections m) l / 2) ≤ 1
    rw [Finset.sum_congr rfl (g := fun _ => 1 / (2 * (m : ℝ))) fun l hl => by
      rw [exampleFlight_ws inv hm, equalDirections_width hm (Finset.mem_range.1 hl)]
      field_simp]
    rw [Finset.sum_const, Finset.card_range, nsmul_eq_mul]
    push_cast
    apply le_of_eq
    field_simp

theorem exampleFlight_sizes (inv : (ℕ → ℕ → ℝ) → ℕ → ℕ → ℝ) {m N : ℕ} (hm : 1 ≤ m) (hN : 2 ≤ N) :
    AngularMeshSizes (exampleFlight inv m N) (evenEdges N (1 / 2)) (evenEdges N 0) 2 ((1 / 2) / N) 1 (1 / 2)
      (1 / m) (1 / m) (1 / m) := by
  have hm0 : (0 : ℝ) < m := by exact_mod_cast hm
  have hN0 : (0 : ℝ) < N := by exact_mod_cast (by omega : 0 < N)
  have hNe : (exampleFlight inv m N).mesh.N = N := rfl
  have hz : ∀ k, evenEdges N 0 k = 0 := fun k => by simp [evenEdges]
  have hend : evenEdges N (1 / 2) N = 1 / 2 := by simp only [evenEdges, div_self hN0.ne', one_mul]
  refine ⟨by positivity, fun l hl => (equalDirections_width hm hl).ge,
    fun l hl => (equalDirections_width hm hl).le, ?_, by rw [hNe, hend], by rw [hNe, hend, hz]; norm_num,
    fun k _ => (evenEdges_width (N := N) (1 / 2) k).le, fun k _ => ?_, zero_le_one, fun l hl k _ => ?_⟩
  · have := c139_rule_of_widths (ws := (exampleFlight inv m N).ws) (equalDirections_set hm)
      (fun l hl => (equalDirections_width hm hl).le) (ω := 0) (Finset.sum_eq_zero fun l hl => ?_).le
    · rwa [add_zero] at this
    show |(exampleFlight inv m N).ws l - angularWidth (2 * m) (equalDirections m) l / 2| = 0
    rw [exampleFlight_ws inv hm, equalDirections_width hm (Finset.mem_range.1 hl)]
    rw [abs_eq_zero]
    field_simp
    norm_num
  · rw [hz, hz, zero_mul, add_zero, add_zero]
    exact (evenEdges_width (N := N) (1 / 2) k).le
  · rw [hz, sub_zero]
    have := directionSet_mem (equalDirections_set hm) hl
    exact abs_le.2 ⟨this.1, this.2⟩

theorem exampleFlight_exact (inv : (ℕ → ℕ → ℝ) → ℕ → ℕ → ℝ) : ∃ B D, ∀ m N : ℕ, 2 ≤ N →
    SmoothTransport 1 (exampleFlight inv m N).sigmaS
      (fun t => evenEdges N (1 / 2) (exampleFlight inv m N).mesh.N
        + evenEdges N 0 (exampleFlight inv m N).mesh.N * t)
      (fun _ => evenEdges N 0 (exampleFlight inv m N).mesh.N) 2 ∅ B D freeFlight := by
  obtain ⟨B, D, h⟩ := freeFlight_smooth
  refine ⟨B, D, fun m N hN => ?_⟩
  have hN0 : (0 : ℝ) < N := by exact_mod_cast (by omega : 0 < N)
  have e1 : (fun t => evenEdges N (1 / 2) (exampleFlight inv m N).mesh.N
        + evenEdges N 0 (exampleFlight inv m N).mesh.N * t) = fun _ => (1 / 2 : ℝ) := by
    funext t
    show evenEdges N (1 / 2) N + evenEdges N 0 N * t = 1 / 2
    simp only [evenEdges, div_self hN0.ne', one_mul, zero_mul, add_zero]
  have e2 : (fun _ : ℝ => evenEdges N 0 (exampleFlight inv m N).mesh.N) = fun _ => (0 : ℝ) := by
    funext t
    simp [evenEdges]
  rw [e1, e2]
  exact h

/-- `solve` with `2m` directions and `N` shells against free flight, for a point pulse to start with. -/
example : ∃ inv, InverseCorrect 1 inv ∧ ∃ C K B D : ℝ, ∀ m N : ℕ, 1 ≤ m → 2 ≤ N →
    ∃ V0, StartsFrom (exampleFlight inv m N) V0 ∧ ∃ Y, ∃ η₀ > 0, ∀ (es : List Event) (η : ℝ),
      0 ≤ η → η ≤ η₀ → Arrives (exampleFlight inv m N) es → (∀ s ∈ acceptedSteps es, s ≤ η) →
      ∃ Q, (exampleFlight inv m N).solve rk45 (rkInterpolant rk45 rk45Dense 4) es false none = some Q ∧
        TransportErrorAtMost (exampleFlight inv m N) (evenEdges N (1 / 2)) (evenEdges N 0) none freeFlight
          (2 * transportBound (exampleFlight inv m N) (evenEdges N (1 / 2)) 0 ((1 / 2) / N) 1 ((1 / 2) / N) 1
            B D (1 / 2) (1 / m) (1 / m) (1 / m) C K V0 freeFlight + Y * η ^ 10)
          ((1 / 2) ^ 3 * ((∑ _l ∈ Finset.range (2 * m), 3) * (D * (1 / m))) ^ 2) Q := by
  obtain ⟨inv, hi⟩ := inverse_exists 1
  obtain ⟨C, K, -, -, hK⟩ := c139_rk45_error 1 (by norm_num)
  obtain ⟨B, D, hψ⟩ := exampleFlight_exact inv
  refine ⟨inv, hi, C, K, B, D, fun m N hm hN => ?_⟩
  have hs := exampleFlight_any hi hm hN
  obtain ⟨st, hst, -⟩ := hs.problem.mesh.moves
  obtain ⟨V0, hV0⟩ := initial_exists (P := exampleFlight inv m N) hst rfl
    (by simp [exampleFlight, exampleCritical, exampleCriticalMesh, MeshConfig.st])
    (Or.inr (Or.inl (by simp [exampleFlight, exampleCritical, exampleCriticalMesh, MeshConfig.st])))
    (by norm_num [exampleFlight, exampleCritical, exampleShell])
  have hsum : ∑ l ∈ Finset.range (exampleFlight inv m N).Nang, (exampleFlight inv m N).rawWs l ≠ 0 := by
    show ∑ _l ∈ Finset.range (2 * m), (3 : ℝ) ≠ 0
    rw [Finset.sum_const, Finset.card_range, nsmul_eq_mul]
    have : (0 : ℝ) < m := by exact_mod_cast hm
    push_cast
    positivity
  obtain ⟨Y, η₀, h0, h1⟩ := hK (exampleFlight inv m N) _ _ _ _ _ _ _ _ _ _ _ _ _ _ _ V0 hs
    (exampleFlight_offsets inv hm hN) rfl rfl zero_lt_two (exampleFlight_sizes inv hm hN) (hψ m N hN) hsum hV0
  exact ⟨V0, hV0, Y, η₀, h0, fun es η a1 a2 a3 a4 => h1 es η a1 a2 a3 a4 false none⟩

/-- With `2i` directions and `i` shells, started from the best piecewise polynomial, the program converges
to free flight. -/
example : ∃ inv, InverseCorrect 1 inv ∧ ∃ (V : ℕ → ℝ → ℕ → ℕ → ℕ → ℝ) (β : ℕ → ℝ),
    (∀ i, ProgramSolutionOn (exampleFlight inv (i + 2) (i + 2)) 0 2 {0, 1} (V i)) ∧
    Tendsto β atTop (𝓝 0) ∧ ∀ i, ∀ t ∈ Icc (0 : ℝ) 2,
      sphereSqDistance (2 * (i + 2)) (cellWs (exampleFlight inv (i + 2) (i + 2))) (i + 2) 1
        (evenEdges (i + 2) (1 / 2)) (V i t) (fun l _ r => freeFlight r (equalDirections (i + 2) l) t) ≤
        β i := by
  obtain ⟨inv, hi⟩ := inverse_exists 1
  obtain ⟨B, D, hψ⟩ := exampleFlight_exact inv
  have hn : ∀ i : ℕ, (1 ≤ i + 2) ∧ 2 ≤ i + 2 := fun i => ⟨by omega, by omega⟩
  have hany := fun i => exampleFlight_any hi (hn i).1 (hn i).2
  have hpos : ∀ i : ℕ, (0 : ℝ) < ((i + 2 : ℕ) : ℝ) := fun i => by positivity
  have hlt : ∀ i k, evenEdges (i + 2) (1 / 2) k < evenEdges (i + 2) (1 / 2) (k + 1) := fun i k => by
    have h1 := evenEdges_width (N := i + 2) (1 / 2) k
    have h2 : (0 : ℝ) < 1 / 2 / ((i + 2 : ℕ) : ℝ) := by have := hpos i; positivity
    linarith
  have hcd : ∀ μ, ContDiff ℝ 2 fun r => freeFlight r μ 0 := fun μ => by
    have h1 : ContDiff ℝ 2 fun r : ℝ => (r, μ, (0 : ℝ)) :=
      contDiff_id.prodMk (contDiff_const.prodMk contDiff_const)
    exact contDiff_freeFlight.comp h1
  have hB : ∀ μ ∈ Icc (-1 : ℝ) 1, ∀ r ∈ Icc (0 : ℝ) (1 / 2),
      |iteratedDeriv 2 (fun r => freeFlight r μ 0) r| ≤ B := by
    intro μ hμ r hr
    have h := (hψ 1 2 le_rfl).radialBound 0 (by norm_num) μ hμ r
    refine h ⟨hr.1, hr.2.trans ?_⟩
    show 1 / 2 ≤ evenEdges 2 (1 / 2) 2 + evenEdges 2 0 2 * 0
    norm_num [evenEdges]
  have hrange : ∀ i, ∀ k < i + 2, ∀ r ∈ Icc (evenEdges (i + 2) (1 / 2) k) (evenEdges (i + 2) (1 / 2) (k + 1)),
      r ∈ Icc (0 : ℝ) (1 / 2) := fun i k hk r hr => by
    refine ⟨le_trans ?_ hr.1, hr.2.trans ?_⟩
    · unfold evenEdges; positivity
    · unfold evenEdges
      have : ((k + 1 : ℕ) : ℝ) / ((i + 2 : ℕ) : ℝ) ≤ 1 := by
        rw [div_le_one (hpos i)]
        exact_mod_cast hk
      linarith
  have hU : ∀ i l k, ∃ U : ℕ → ℝ, l < 2 * (i + 2) → k < i + 2 →
      ∀ r ∈ Icc (evenEdges (i + 2) (1 / 2) k) (evenEdges (i + 2) (1 / 2) (k + 1)),
      |sphereField 1 U (evenEdges (i + 2) (1 / 2) k) (evenEdges (i + 2) (1 / 2) (k + 1)) r
        - freeFlight r (equalDirections (i + 2) l) 0| ≤ B * ((1 / 2) / ((i + 2 : ℕ) : ℝ)) ^ 2 := by
    intro i l k
    by_cases hlk : l < 2 * (i + 2) ∧ k < i + 2
    · have hm := directionSet_mem (equalDirections_set (hn i).1) hlk.1
      obtain ⟨U, hU⟩ := exists_close_sphere_field 1 (B := B) (hlt i k)
        (f := fun r => freeFlight r (equalDirections (i + 2) l) 0)
        (by norm_num; exact (hcd _).contDiffOn)
        (fun y hy => by
          rw [iteratedDerivWithin_eq_iteratedDeriv (uniqueDiffOn_Icc (hlt i k)) (hcd _).contDiffAt hy]
          exact hB _ ⟨hm.1, hm.2⟩ y (hrange i k hlk.2 y hy))
      refine ⟨U, fun _ _ r hr => ?_⟩
      have := hU r hr
      rwa [evenEdges_width, Nat.factorial_one, Nat.cast_one, div_one] at this
    · exact ⟨fun _ => 0, fun h1 h2 => absurd ⟨h1, h2⟩ hlk⟩
  choose U hU using hU
  have hw := fun i => c110_wellposed_partial (hany i).problem (Or.inl (hany i).noSource) zero_le_two
    (fun l k => U i l k)
  choose V hV using hw
  have h1 : ∀ i, max 0 (min (exampleFlight inv (i + 2) (i + 2)).mesh.t0 2) = 1 := fun i => by
    have : (exampleFlight inv (i + 2) (i + 2)).mesh.t0 = 1 := rfl
    rw [this]
    norm_num
  have hV1 : ∀ i, ProgramSolutionOn (exampleFlight inv (i + 2) (i + 2)) 0 2 {0, 1} (V i) := fun i => by
    have := (hV i).1.1
    rwa [h1 i] at this
  have hlim : Tendsto (fun i : ℕ => ((i + 2 : ℕ) : ℝ)) atTop atTop :=
    tendsto_natCast_atTop_atTop.comp (tendsto_add_atTop_nat 2)
  have hinv : Tendsto (fun i : ℕ => 1 / ((i + 2 : ℕ) : ℝ)) atTop (𝓝 0) :=
    tendsto_const_nhds.div_atTop hlim
  have hhalf : Tendsto (fun i : ℕ => (1 / 2) / ((i + 2 : ℕ) : ℝ)) atTop (𝓝 0) :=
    tendsto_const_nhds.div_atTop hlim
  have hw0 : ∀ i, ∀ l < 2 * (i + 2), 0 ≤ cellWs (exampleFlight inv (i + 2) (i + 2)) l :=
    fun i l hl => ((hany i).cell l hl).le
  have hw1 : ∀ i, ∑ l ∈ Finset.range (2 * (i + 2)), cellWs (exampleFlight inv (i + 2) (i + 2)) l = 1 := fun i =>
    (cell_weights (p := cellParams (exampleFlight inv (i + 2) (i + 2)).params) (hany i).directions
      fun _ _ => rfl).2
  have hinit : Tendsto (fun i => sphereSqDistance (2 * (i + 2)) (cellWs (exampleFlight inv (i + 2) (i + 2)))
      (i + 2) 1 (evenEdges (i + 2) (1 / 2)) (V i 0)
      fun l _ r => freeFlight r (equalDirections (i + 2) l) 0) atTop (𝓝 0) := by
    have hz : Tendsto (fun i : ℕ => (1 / 2 : ℝ) ^ 3 * (B * ((1 / 2) / ((i + 2 : ℕ) : ℝ)) ^ 2) ^ 2) atTop
        (𝓝 ((1 / 2 : ℝ) ^ 3 * (B * 0 ^ 2) ^ 2)) := (((hhalf.pow 2).const_mul B).pow 2).const_mul _
    rw [show (1 / 2 : ℝ) ^ 3 * (B * 0 ^ 2) ^ 2 = 0 by ring] at hz
    refine squeeze_zero (fun i => ?_) (fun i => ?_) hz
    · exact sphereSqDistance_nonneg (hw0 i) _ _ (fun k _ => hlt i k) _ _
    · have hc := sphereSqDistance_congr_state (n := 2 * (i + 2)) (N := i + 2) (M := 1)
        (ws := cellWs (exampleFlight inv (i + 2) (i + 2))) (e := evenEdges (i + 2) (1 / 2))
        (u := fun l _ r => freeFlight r (equalDirections (i + 2) l) 0) (V := V i 0) (W := U i)
        (fun _ _ => rfl) (hV i).1.2
      rw [hc]
      refine sphereSqDistance_le (hw0 i) (hw1 i) _ _ (by simp [evenEdges]) ?_ (fun k _ => hlt i k) _ _
        (fun l _ k _ => (hcd _).continuous) (fun l hl k hk => hU i l k hl hk)
      simp only [evenEdges, div_self (hpos i).ne', one_mul, le_refl]
  obtain ⟨β, hβ, h⟩ := c139_convergence 1 (by norm_num) (fun i => exampleFlight inv (i + 2) (i + 2))
    (fun i => evenEdges (i + 2) (1 / 2)) (fun i => evenEdges (i + 2) 0) 0 2 1 1 B D (1 / 2) 1 0
    (fun _ => 0) (fun i => (1 / 2) / ((i + 2 : ℕ) : ℝ)) (fun i => (1 / 2) / ((i + 2 : ℕ) : ℝ))
    (fun i => 1 / ((i + 2 : ℕ) : ℝ)) (fun i => 1 / ((i + 2 : ℕ) : ℝ)) (fun i => 1 / ((i + 2 : ℕ) : ℝ)) ∅ (fun _ => {0, 1})
    freeFlight V hany (fun i => exampleFlight_offsets inv (hn i).1 (hn i).2) (fun _ => rfl) (fun _ => rfl)
    (fun i => exampleFlight_sizes inv (hn i).1 (hn i).2) (fun i => hψ (i + 2) (i + 2) (hn i).2)
    (fun i => by
      show (((i + 2 : ℕ) : ℝ) + 1) * ((1 / 2) / ((i + 2 : ℕ) : ℝ)) ≤ 1
      rw [← mul_div_assoc, div_le_one (hpos i)]
      push_cast
      have : (0 : ℝ) ≤ i := Nat.cast_nonneg i
      linarith)
    (fun i => by simp) (fun _ => by simp) hV1 hhalf hinv hinv
    (by
      have h2 : (fun i : ℕ => ((1 / 2) / ((i + 2 : ℕ) : ℝ)) ^ (1 + 1) / (1 / ((i + 2 : ℕ) : ℝ))) =
          fun i : ℕ => (1 / 4) / ((i + 2 : ℕ) : ℝ) := by
        funext i
        have hne := (hpos i).ne'
        generalize ((i + 2 : ℕ) : ℝ) = x at hne
        rw [div_div_eq_mul_div, div_one, div_pow]
        field_simp
        ring
      rw [h2]
      exact tendsto_const_nhds.div_atTop hlim)
    hinit zero_le_two
  refine ⟨inv, hi, V, β, hV1, hβ, fun i t ht => ?_⟩
  have := h i t ht
  have e0 : (fun k => evenEdges (i + 2) (1 / 2) k + evenEdges (i + 2) 0 k * t) = evenEdges (i + 2) (1 / 2) := by
    funext k
    simp [evenEdges]
  rw [e0] at this
  exact this

end Verif.Props
