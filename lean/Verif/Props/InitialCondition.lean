import Verif.Spec.Sources
import Verif.Spec.Sphere
import Verif.Props.Sources
import Mathlib.MeasureTheory.Integral.IntervalIntegral.Basic
import Mathlib.Tactic.IntervalCases

/-!
Properties C72, C73: projection of the initial condition and its particle content.
-/

namespace Verif.Props

open Verif.Spec Verif.Model Verif.Lemmas Real MeasureTheory

/-! ### C72 -/

theorem quadPoint_inside {a b x : ℝ} (h : a < b) (h1 : -1 < x) (h2 : x < 1) :
    a < quadPoint a b x ∧ quadPoint a b x < b := by
  unfold quadPoint; constructor <;> nlinarith

/-- C72, slab: where the initial angular flux is, inside a cell, a polynomial field of the order of
the method, `make_IC` stores exactly its coefficients. -/
theorem c72_slab_initial (c : BuildConfig) (hg : c.ic.geometry = .slab) (ic : ICConfig)
    (hic : c.icObject = some ic) (hq : QuadExact c.quad (2 * c.M))
    (hn : ∀ r ∈ c.quad, -1 < r.1 ∧ r.1 < 1) (ang space : ℕ)
    (h : c.edges space < c.edges (space + 1)) (U : ℕ → ℝ)
    (hU : ∀ x, c.edges space < x → x < c.edges (space + 1) → icFunction ic x (c.cosines ang) =
      some (slabField c.M U (c.edges space) (c.edges (space + 1)) x)) {j : ℕ} (hj : j ≤ c.M) :
    c.initial ang space j = some (U j) := by
  unfold BuildConfig.initial
  simp only [hic, hg, Option.bind_some, Option.some.injEq]
  apply slabMoment_field hq h U _ _ hj
  intro r hr
  obtain ⟨h1, h2⟩ := quadPoint_inside h (hn r hr).1 (hn r hr).2
  rw [hU _ h1 h2, Option.getD_some]

/-- C72, sphere: same with the Chebyshev rule the code uses, up to order 12. -/
theorem c72_sphere_initial (c : BuildConfig) (hg : c.ic.geometry = .sphere) (ic : ICConfig)
    (hic : c.icObject = some ic) (hd : ic.uncollided = true ∨ ic.st 0 = 1 ∨ ic.st 1 = 1)
    (hq : c.quad = chebRule (6 * c.M + 1)) (hM : c.M ≤ 12) (ang space : ℕ)
    (h : c.edges space < c.edges (space + 1)) (U : ℕ → ℝ)
    (hU : ∀ x, c.edges space < x → x < c.edges (space + 1) → icFunction ic x (c.cosines ang) =
      some (sphereField c.M U (c.edges space) (c.edges (space + 1)) x)) {j : ℕ} (hj : j ≤ c.M) :
    c.initial ang space j = some (U j) := by
  unfold BuildConfig.initial
  simp only [hic, hg, Option.bind_some]
  rw [if_neg (by rintro ⟨h1, h2, h3⟩; rcases hd with hd | hd | hd <;> simp_all), hq]
  apply sphereProjection_field (by omega) h hM U _ _ hj
  intro r hr
  simp only [chebRule, List.mem_map, List.mem_range] at hr
  obtain ⟨i, hi, rfl⟩ := hr
  obtain ⟨h1, h2⟩ := quadPoint_inside h ((c32_chebyshev_nodes (by omega)).2.1 i hi).1
    ((c32_chebyshev_nodes (by omega)).2.1 i hi).2
  rw [hU _ h1 h2, Option.getD_some]

/-- Coefficients of a constant on a slab cell. -/
noncomputable def constCoeff (k a b : ℝ) (j : ℕ) : ℝ := if j = 0 then k * √(b - a) else 0

theorem constCoeff_field (M : ℕ) (k : ℝ) {a b : ℝ} (h : a < b) (x : ℝ) :
    slabField M (constCoeff k a b) a b x = k := by
  have hb' : (0 : ℝ) < b - a := by linarith
  unfold slabField
  rw [Finset.sum_eq_single 0]
  · simp only [constCoeff, if_true, slabBasis, legendre]
    have : √(b - a) * √((2 * ((0 : ℕ) : ℝ) + 1) / (b - a)) = 1 := by
      rw [← Real.sqrt_mul hb'.le]
      have : (b - a) * ((2 * ((0 : ℕ) : ℝ) + 1) / (b - a)) = 1 := by
        push_cast; field_simp; ring
      rw [this]; simp
    rw [← mul_assoc, mul_assoc k, this]; simp
  · intro j _ hj; simp [constCoeff, hj]
  · intro hh; simp at hh

/-- C72, material energy in slab geometry: the initial energy field is the constant `e_initial` in
every cell. -/
theorem c72_initial_energy (c : BuildConfig) (hq : QuadExact c.quad (2 * c.M)) (space : ℕ)
    (h : c.edges space < c.edges (space + 1)) (x : ℝ) :
    slabField c.M (c.initialEnergy space) (c.edges space) (c.edges (space + 1)) x = c.eInit := by
  have e : ∀ j ∈ Finset.range (c.M + 1), c.initialEnergy space j * slabBasis j x (c.edges space)
      (c.edges (space + 1)) = constCoeff c.eInit (c.edges space) (c.edges (space + 1)) j *
        slabBasis j x (c.edges space) (c.edges (space + 1)) := by
    intro j hj
    have hj : j ≤ c.M := by have := Finset.mem_range.1 hj; omega
    rw [BuildConfig.initialEnergy, slabMoment_field hq h (constCoeff c.eInit _ _) _ _ hj]
    intro r _
    rw [constCoeff_field _ _ h, one_mul]
  have := constCoeff_field c.M c.eInit h x
  unfold slabField at this ⊢
  rw [Finset.sum_congr rfl e, this]

/-! ### C73 -/

/-- Total content of a set of coefficients `V angle cell j` on the slab, with weights for the
directions: the number of particles per unit area. -/
noncomputable def slabParticles (ws : List ℝ) (M N : ℕ) (V : ℕ → ℕ → ℕ → ℝ) (edges : ℕ → ℝ) : ℝ :=
  ∑ l ∈ Finset.range ws.length, ws.getD l 0 *
    ∑ k ∈ Finset.range N, slabContent M (V l k) (edges k) (edges (k + 1))

/-- Total content in the sphere: the number of particles. -/
noncomputable def sphereParticles (ws : List ℝ) (M N : ℕ) (V : ℕ → ℕ → ℕ → ℝ) (edges : ℕ → ℝ) : ℝ :=
  4 * π * ∑ l ∈ Finset.range ws.length, ws.getD l 0 *
    ∑ k ∈ Finset.range N, sphereContent M (V l k) (edges k) (edges (k + 1))

theorem sum_getD (ws : List ℝ) : ∑ l ∈ Finset.range ws.length, ws.getD l 0 = ws.sum := by
  rw [Finset.sum_range, ← List.sum_ofFn]
  congr 1
  apply List.ext_getElem <;> simp

/-- Content of a cell on which the initial flux is constant. -/
theorem initial_content (c : BuildConfig) (hg : c.ic.geometry = .slab) (ic : ICConfig)
    (hic : c.icObject = some ic) (hq : QuadExact c.quad (2 * c.M))
    (hn : ∀ r ∈ c.quad, -1 < r.1 ∧ r.1 < 1) (V : ℕ → ℕ → ℕ → ℝ) (ang space : ℕ)
    (hV : ∀ j ≤ c.M, c.initial ang space j = some (V ang space j))
    (h : c.edges space < c.edges (space + 1)) (k : ℝ)
    (hk : ∀ x, c.edges space < x → x < c.edges (space + 1) →
      icFunction ic x (c.cosines ang) = some k) :
    slabContent c.M (V ang space) (c.edges space) (c.edges (space + 1)) =
      k * (c.edges (space + 1) - c.edges space) := by
  have e : ∀ x, slabField c.M (V ang space) (c.edges space) (c.edges (space + 1)) x = k := by
    intro x
    rw [← constCoeff_field c.M k h x]
    unfold slabField
    refine Finset.sum_congr rfl fun j hj => ?_
    have hj : j ≤ c.M := by have := Finset.mem_range.1 hj; omega
    have h1 := c72_slab_initial c hg ic hic hq hn ang space h (constCoeff k (c.edges space)
      (c.edges (space + 1))) (fun x hx hx' => by rw [constCoeff_field _ _ h, hk x hx hx']) hj
    rw [hV j hj] at h1
    injection h1 with h1
    rw [h1]
  unfold slabContent
  simp only [e, intervalIntegral.integral_const, smul_eq_mul]
  ring

/-- Length of the part of aligned cells that lies in `[-r, r]`. -/
theorem aligned_length {N : ℕ} {e : ℕ → ℝ} {r : ℝ} (hr : 0 < r)
    (ho : ∀ k < N, e k < e (k + 1)) (ha : ∀ k < N, Aligned r (e k) (e (k + 1)))
    (h0 : e 0 ≤ -r) (hN : r ≤ e N) (g : ℕ → ℝ) (K : ℝ)
    (hin : ∀ k < N, -r ≤ e k → e (k + 1) ≤ r → g k = K * (e (k + 1) - e k))
    (hout : ∀ k < N, e (k + 1) ≤ -r ∨ r ≤ e k → g k = 0) :
    ∑ k ∈ Finset.range N, g k = 2 * r * K := by
  let F : ℝ → ℝ := fun x => K * max (-r) (min x r)
  have hF : ∀ k ∈ Finset.range N, g k = F (e (k + 1)) - F (e k) := by
    intro k hk
    have hk := Finset.mem_range.1 hk
    have hlt := ho k hk
    simp only [F]
    rcases ha k hk with ⟨h1, h2⟩ | h1 | h1
    · rw [hin k hk h1 h2, min_eq_left h2, min_eq_left (by linarith), max_eq_right (by linarith),
        max_eq_right h1]
      ring
    · rw [hout k hk (Or.inl h1), min_eq_left (by linarith), min_eq_left (by linarith),
        max_eq_left h1, max_eq_left (by linarith)]
      ring
    · rw [hout k hk (Or.inr h1), min_eq_right (by linarith), min_eq_right h1]
      ring
  rw [Finset.sum_congr rfl hF, Finset.sum_range_sub (fun k => F (e k))]
  simp only [F]
  rw [min_eq_right hN, min_eq_left (by linarith : e 0 ≤ r), max_eq_left h0,
    max_eq_right (by linarith)]
  ring

/-- The pulse function of plane and square problems inside and outside the pulse. -/
theorem pulse_in (c : ICConfig) {x : ℝ} (h1 : -c.x0 < x) (h2 : x ≤ c.x0) :
    planeAndSquareIC c x = c.strength / 2 := by
  simp [planeAndSquareIC, greater, h1, not_lt.2 h2]

theorem pulse_left (c : ICConfig) {x : ℝ} (h0 : 0 ≤ c.x0) (h1 : x ≤ -c.x0) :
    planeAndSquareIC c x = 0 := by
  simp [planeAndSquareIC, greater, not_lt.2 h1, not_lt.2 (h1.trans (by linarith : -c.x0 ≤ c.x0))]

theorem pulse_right (c : ICConfig) {x : ℝ} (h0 : 0 ≤ c.x0) (h1 : c.x0 < x) :
    planeAndSquareIC c x = 0 := by
  simp [planeAndSquareIC, greater, h1, lt_of_le_of_lt (by linarith : -c.x0 ≤ c.x0) h1]

/-- Generic slab pulse: the initial flux is a constant times the pulse function. -/
theorem pulse_total (c : BuildConfig) (hg : c.ic.geometry = .slab) (ic : ICConfig)
    (hic : c.icObject = some ic) (hr : 0 < ic.x0) (s : ℝ)
    (hf : ∀ x μ, icFunction ic x μ = some (s * planeAndSquareIC ic x))
    (hq : QuadExact c.quad (2 * c.M)) (hn : ∀ r ∈ c.quad, -1 < r.1 ∧ r.1 < 1)
    (ho : ∀ k < c.Nspace, c.edges k < c.edges (k + 1))
    (ha : ∀ k < c.Nspace, Aligned ic.x0 (c.edges k) (c.edges (k + 1)))
    (h0 : c.edges 0 ≤ -ic.x0) (hN : ic.x0 ≤ c.edges c.Nspace) (ws : List ℝ) (hw : ws.sum = 2)
    (V : ℕ → ℕ → ℕ → ℝ) (hV : ∀ l < ws.length, ∀ k < c.Nspace, ∀ j ≤ c.M,
      c.initial l k j = some (V l k j)) :
    slabParticles ws c.M c.Nspace V c.edges = s * (2 * ic.x0) * ic.strength := by
  unfold slabParticles
  have e : ∀ l ∈ Finset.range ws.length, ws.getD l 0 * ∑ k ∈ Finset.range c.Nspace,
      slabContent c.M (V l k) (c.edges k) (c.edges (k + 1)) =
      ws.getD l 0 * (2 * ic.x0 * (s * (ic.strength / 2))) := by
    intro l hl
    have hl := Finset.mem_range.1 hl
    congr 1
    apply aligned_length hr ho ha h0 hN
    · intro k hk h1 h2
      refine initial_content c hg ic hic hq hn V l k (hV l hl k hk) (ho k hk) _ fun x hx hx' => ?_
      rw [hf, pulse_in ic (by linarith) (by linarith)]
    · intro k hk hh
      have hz := initial_content c hg ic hic hq hn V l k (hV l hl k hk) (ho k hk) 0
        fun x hx hx' => by
          rw [hf]
          rcases hh with hh | hh
          · rw [pulse_left ic hr.le (by linarith), mul_zero]
          · rw [pulse_right ic hr.le (by linarith), mul_zero]
      rw [hz, zero_mul]
  rw [Finset.sum_congr rfl e, ← Finset.sum_mul, sum_getD, hw]
  ring

/-- C73, plane pulse: on a mesh whose cells do not straddle the ends of the pulse, the projected
initial condition contains `source_strength` particles (directions weighted with weights of sum
two). -/
theorem c73_plane_partial (c : BuildConfig) (hg : c.ic.geometry = .slab)
    (hu : c.ic.uncollided = false) (h1 : c.ic.st 0 = 1) (hr : 0 < c.adjustedX0)
    (hq : QuadExact c.quad (2 * c.M)) (hn : ∀ r ∈ c.quad, -1 < r.1 ∧ r.1 < 1)
    (ho : ∀ k < c.Nspace, c.edges k < c.edges (k + 1))
    (ha : ∀ k < c.Nspace, Aligned c.adjustedX0 (c.edges k) (c.edges (k + 1)))
    (h0 : c.edges 0 ≤ -c.adjustedX0) (hN : c.adjustedX0 ≤ c.edges c.Nspace) (ws : List ℝ)
    (hw : ws.sum = 2) (V : ℕ → ℕ → ℕ → ℝ) (hV : ∀ l < ws.length, ∀ k < c.Nspace, ∀ j ≤ c.M,
      c.initial l k j = some (V l k j)) :
    slabParticles ws c.M c.Nspace V c.edges = c.ic.strength := by
  have hic : c.icObject = some { c.ic with x0 := c.adjustedX0, x1 := 0 } := by
    unfold BuildConfig.icObject
    rw [if_neg (by rintro ⟨_, h, _⟩; omega)]
  rw [pulse_total c hg _ hic hr (1 / c.adjustedX0 / 2) _ hq hn ho ha h0 hN ws hw V hV]
  · simp only
    field_simp
  · intro x μ
    unfold icFunction
    have h1' : c.ic.sourceType.getD 0 0 = 1 := h1
    simp only [hg, hu, ICConfig.st, h1', if_true, Bool.false_eq_true, if_false, Option.some.injEq]
    ring

/-- Half width of the static plane pulse on a uniform mesh of `2 n` cells of width `h` centred at
zero: two cells. -/
theorem static_plane_width (c : BuildConfig) (hg : c.ic.geometry = .slab)
    (hu : c.ic.uncollided = false) (h1 : c.ic.st 0 = 1) (hm : c.moving = false) {n : ℕ}
    (hn1 : 1 ≤ n) (hN : c.Nspace = 2 * n) {h : ℝ}
    (he : ∀ k, c.edges k = ((k : ℝ) - n) * h) : c.adjustedX0 = 2 * h := by
  unfold BuildConfig.adjustedX0
  rw [if_pos ⟨hm, h1, hu, by omega⟩, hg]
  simp only [he]
  have e : c.Nspace / 2 = n := by omega
  rw [e]
  push_cast [Nat.cast_sub hn1]
  ring

/-- C73, static plane pulse on a uniform mesh of at least four cells: `source_strength` particles,
spread evenly over the two cells on either side of the origin. -/
theorem c73_plane_static (c : BuildConfig) (hg : c.ic.geometry = .slab)
    (hu : c.ic.uncollided = false) (h1 : c.ic.st 0 = 1) (hm : c.moving = false)
    (hq : QuadExact c.quad (2 * c.M)) (hn : ∀ r ∈ c.quad, -1 < r.1 ∧ r.1 < 1) {n : ℕ}
    (hn2 : 2 ≤ n) (hN : c.Nspace = 2 * n) {h : ℝ} (hh : 0 < h)
    (he : ∀ k, c.edges k = ((k : ℝ) - n) * h) (ws : List ℝ) (hw : ws.sum = 2)
    (V : ℕ → ℕ → ℕ → ℝ) (hV : ∀ l < ws.length, ∀ k < c.Nspace, ∀ j ≤ c.M,
      c.initial l k j = some (V l k j)) :
    slabParticles ws c.M c.Nspace V c.edges = c.ic.strength ∧
      ∀ l < ws.length, ∀ k < c.Nspace,
        slabContent c.M (V l k) (c.edges k) (c.edges (k + 1)) =
          if n ≤ k + 2 ∧ k < n + 2 then c.ic.strength / 8 else 0 := by
  have hx := static_plane_width c hg hu h1 hm (by omega) hN he
  have ho : ∀ k < c.Nspace, c.edges k < c.edges (k + 1) := by
    intro k _
    rw [he, he]; push_cast; nlinarith
  have hn2' : (2 : ℝ) ≤ n := by exact_mod_cast hn2
  constructor
  · refine c73_plane_partial c hg hu h1 (by rw [hx]; linarith) hq hn ho (fun k _ => ?_) ?_ ?_ ws hw V
      hV
    · rw [hx, he, he]
      unfold Aligned
      push_cast
      rcases lt_or_ge (k + 2) n with hk | hk
      · have hk' : (k : ℝ) + 3 ≤ n := by exact_mod_cast hk
        right; left; nlinarith
      rcases lt_or_ge k (n + 2) with hk2 | hk2
      · have hk' : (n : ℝ) ≤ k + 2 := by exact_mod_cast hk
        have hk2' : (k : ℝ) + 1 ≤ n + 2 := by exact_mod_cast hk2
        left; constructor <;> nlinarith
      · have hk2' : (n : ℝ) + 2 ≤ k := by exact_mod_cast hk2
        right; right; nlinarith
    · rw [hx, he]; push_cast; nlinarith
    · rw [hx, he, hN]; push_cast; nlinarith
  · intro l hl k hk
    have hic : c.icObject = some { c.ic with x0 := c.adjustedX0, x1 := 0 } := by
      unfold BuildConfig.icObject
      rw [if_neg (by rintro ⟨_, h, _⟩; omega)]
    have hf : ∀ x μ, icFunction { c.ic with x0 := c.adjustedX0, x1 := 0 } x μ =
        some (planeAndSquareIC { c.ic with x0 := c.adjustedX0, x1 := 0 } x / c.adjustedX0 / 2) := by
      intro x μ
      unfold icFunction
      have h1' : c.ic.sourceType.getD 0 0 = 1 := h1
      simp only [hg, hu, ICConfig.st, h1', if_true, Bool.false_eq_true, if_false]
    split_ifs with hin
    · have k1 : (n : ℝ) ≤ k + 2 := by exact_mod_cast hin.1
      have k2 : (k : ℝ) + 1 ≤ n + 2 := by exact_mod_cast hin.2
      rw [initial_content c hg _ hic hq hn V l k (hV l hl k hk) (ho k hk)
        (c.ic.strength / 2 / c.adjustedX0 / 2) fun x hx1 hx2 => ?_]
      · rw [hx, he, he]; push_cast; field_simp; ring
      · rw [he] at hx1 hx2
        push_cast at hx2
        rw [hf, pulse_in _ (by simp only [hx]; nlinarith) (by simp only [hx]; nlinarith)]
    · rw [initial_content c hg _ hic hq hn V l k (hV l hl k hk) (ho k hk) 0 fun x hx1 hx2 => ?_]
      · ring
      · rw [he] at hx1 hx2
        push_cast at hx2
        rw [hf]
        rcases lt_or_ge (k + 2) n with hk3 | hk3
        · have hk' : (k : ℝ) + 3 ≤ n := by exact_mod_cast hk3
          rw [pulse_left _ (by simp only [hx]; linarith) (by simp only [hx]; nlinarith)]
          simp
        · have hk4 : n + 2 ≤ k := by
            by_contra hc
            exact hin ⟨hk3, by omega⟩
          have hk' : (n : ℝ) + 2 ≤ k := by exact_mod_cast hk4
          rw [pulse_right _ (by simp only [hx]; linarith) (by simp only [hx]; nlinarith)]
          simp

/-- C73 fails for the static plane pulse on two cells: the pulse is twice as wide as the mesh and
half of the particles are missing. -/
theorem c73_plane_two_cells_wrong (c : BuildConfig) (hg : c.ic.geometry = .slab)
    (hu : c.ic.uncollided = false) (h1 : c.ic.st 0 = 1) (hm : c.moving = false)
    (hq : QuadExact c.quad (2 * c.M)) (hn : ∀ r ∈ c.quad, -1 < r.1 ∧ r.1 < 1)
    (hN : c.Nspace = 2) {h : ℝ} (hh : 0 < h) (he : ∀ k, c.edges k = ((k : ℝ) - 1) * h)
    (ws : List ℝ) (hw : ws.sum = 2)
    (V : ℕ → ℕ → ℕ → ℝ) (hV : ∀ l < ws.length, ∀ k < c.Nspace, ∀ j ≤ c.M,
      c.initial l k j = some (V l k j)) :
    slabParticles ws c.M c.Nspace V c.edges = c.ic.strength / 2 := by
  have hx := static_plane_width c hg hu h1 hm le_rfl (by omega) (by simpa using he)
  have ho : ∀ k < c.Nspace, c.edges k < c.edges (k + 1) := by
    intro k _
    rw [he, he]; push_cast; nlinarith
  have hic : c.icObject = some { c.ic with x0 := c.adjustedX0, x1 := 0 } := by
    unfold BuildConfig.icObject
    rw [if_neg (by rintro ⟨_, h, _⟩; omega)]
  unfold slabParticles
  have e : ∀ l ∈ Finset.range ws.length, ws.getD l 0 * ∑ k ∈ Finset.range c.Nspace,
      slabContent c.M (V l k) (c.edges k) (c.edges (k + 1)) =
      ws.getD l 0 * (c.ic.strength / 4) := by
    intro l hl
    have hl := Finset.mem_range.1 hl
    congr 1
    have cell : ∀ k ∈ Finset.range c.Nspace,
        slabContent c.M (V l k) (c.edges k) (c.edges (k + 1)) = c.ic.strength / 8 := by
      intro k hk
      have hk := Finset.mem_range.1 hk
      have k2 : (k : ℝ) ≤ 1 := by exact_mod_cast (by omega : k ≤ 1)
      have k0 : (0 : ℝ) ≤ k := Nat.cast_nonneg k
      rw [initial_content c hg _ hic hq hn V l k (hV l hl k hk) (ho k hk)
        (c.ic.strength / 2 / c.adjustedX0 / 2) fun x hx1 hx2 => ?_]
      · rw [hx, he, he]; push_cast; field_simp; ring
      · rw [he] at hx1 hx2
        push_cast at hx2
        unfold icFunction
        have h1' : c.ic.sourceType.getD 0 0 = 1 := h1
        simp only [hg, hu, ICConfig.st, h1', if_true, Bool.false_eq_true, if_false]
        rw [pulse_in _ (by simp only [hx]; nlinarith) (by simp only [hx]; nlinarith)]
    rw [Finset.sum_congr rfl cell, hN]
    simp
    ring
  rw [Finset.sum_congr rfl e, ← Finset.sum_mul, sum_getD, hw]
  ring

/-- C73, square pulse: the scalar flux is `source_strength` on the pulse, which therefore contains
`2 x0 source_strength` particles. -/
theorem c73_square_partial (c : BuildConfig) (hg : c.ic.geometry = .slab)
    (hu : c.ic.uncollided = false) (h0' : c.ic.st 0 = 0) (h1 : c.ic.st 1 = 1) (hr : 0 < c.ic.x0)
    (hq : QuadExact c.quad (2 * c.M)) (hn : ∀ r ∈ c.quad, -1 < r.1 ∧ r.1 < 1)
    (ho : ∀ k < c.Nspace, c.edges k < c.edges (k + 1))
    (ha : ∀ k < c.Nspace, Aligned c.ic.x0 (c.edges k) (c.edges (k + 1)))
    (h0 : c.edges 0 ≤ -c.ic.x0) (hN : c.ic.x0 ≤ c.edges c.Nspace) (ws : List ℝ)
    (hw : ws.sum = 2) (V : ℕ → ℕ → ℕ → ℝ) (hV : ∀ l < ws.length, ∀ k < c.Nspace, ∀ j ≤ c.M,
      c.initial l k j = some (V l k j)) :
    slabParticles ws c.M c.Nspace V c.edges = 2 * c.ic.x0 * c.ic.strength := by
  have hx : c.adjustedX0 = c.ic.x0 := by
    unfold BuildConfig.adjustedX0
    rw [if_neg (by rintro ⟨_, h, _⟩; omega)]
  have hic : c.icObject = some { c.ic with x0 := c.adjustedX0, x1 := 0 } := by
    unfold BuildConfig.icObject
    rw [if_neg (by rintro ⟨_, h, _⟩; omega)]
  rw [hx] at hic
  rw [pulse_total c hg _ hic hr 1 _ hq hn ho ha h0 hN ws hw V hV]
  · simp only
    ring
  · intro x μ
    unfold icFunction
    have e0 : c.ic.sourceType.getD 0 0 = 0 := h0'
    have e1 : c.ic.sourceType.getD 1 0 = 1 := h1
    simp only [hg, hu, ICConfig.st, e0, e1, if_true, Bool.false_eq_true, if_false,
      Option.some.injEq]
    norm_num

/-! #### Sphere -/

/-- Coefficients of a constant on a cell of the sphere. -/
noncomputable def constCoeffSphere (k a b : ℝ) (j : ℕ) : ℝ :=
  if j = 0 then k * √(π * (b - a)) else 0

theorem constCoeffSphere_field (M : ℕ) (k : ℝ) {a b : ℝ} (h : a < b) (x : ℝ) :
    sphereField M (constCoeffSphere k a b) a b x = k := by
  have hb' : (0 : ℝ) < π * (b - a) := mul_pos pi_pos (by linarith)
  unfold sphereField
  rw [Finset.sum_eq_single 0]
  · simp only [constCoeffSphere, if_true, sphereBasis]
    have : √(π * (b - a)) * √(1 / (π * (b - a))) = 1 := by
      rw [← Real.sqrt_mul hb'.le, mul_one_div_cancel hb'.ne', Real.sqrt_one]
    rw [← mul_assoc, mul_assoc k, this]; simp
  · intro j _ hj; simp [constCoeffSphere, hj]
  · intro hh; simp at hh

theorem initial_content_sphere (c : BuildConfig) (hg : c.ic.geometry = .sphere) (ic : ICConfig)
    (hic : c.icObject = some ic) (hd : ic.uncollided = true ∨ ic.st 0 = 1 ∨ ic.st 1 = 1)
    (hq : c.quad = chebRule (6 * c.M + 1)) (hM : c.M ≤ 12) (V : ℕ → ℕ → ℕ → ℝ) (ang space : ℕ)
    (hV : ∀ j ≤ c.M, c.initial ang space j = some (V ang space j))
    (h : c.edges space < c.edges (space + 1)) (k : ℝ)
    (hk : ∀ x, c.edges space < x → x < c.edges (space + 1) →
      icFunction ic x (c.cosines ang) = some k) :
    sphereContent c.M (V ang space) (c.edges space) (c.edges (space + 1)) =
      k * ((c.edges (space + 1) ^ 3 - c.edges space ^ 3) / 3) := by
  have e : ∀ x, sphereField c.M (V ang space) (c.edges space) (c.edges (space + 1)) x = k := by
    intro x
    rw [← constCoeffSphere_field c.M k h x]
    unfold sphereField
    refine Finset.sum_congr rfl fun j hj => ?_
    have hj : j ≤ c.M := by have := Finset.mem_range.1 hj; omega
    have h1 := c72_sphere_initial c hg ic hic hd hq hM ang space h (constCoeffSphere k
      (c.edges space) (c.edges (space + 1)))
      (fun x hx hx' => by rw [constCoeffSphere_field _ _ h, hk x hx hx']) hj
    rw [hV j hj] at h1
    injection h1 with h1
    rw [h1]
  unfold sphereContent
  simp only [e]
  rw [intervalIntegral.integral_mul_const, integral_pow]
  norm_num
  ring

theorem aligned_volume {N : ℕ} {e : ℕ → ℝ} {r : ℝ} (hr : 0 < r)
    (ho : ∀ k < N, e k < e (k + 1)) (ha : ∀ k < N, e (k + 1) ≤ r ∨ r ≤ e k)
    (h0 : e 0 = 0) (hN : r ≤ e N) (g : ℕ → ℝ) (K : ℝ)
    (hin : ∀ k < N, e (k + 1) ≤ r → g k = K * ((e (k + 1) ^ 3 - e k ^ 3) / 3))
    (hout : ∀ k < N, r ≤ e k → g k = 0) :
    ∑ k ∈ Finset.range N, g k = r ^ 3 / 3 * K := by
  let F : ℝ → ℝ := fun x => K * (min x r ^ 3 / 3)
  have hF : ∀ k ∈ Finset.range N, g k = F (e (k + 1)) - F (e k) := by
    intro k hk
    have hk := Finset.mem_range.1 hk
    have hlt := ho k hk
    simp only [F]
    rcases ha k hk with h1 | h1
    · rw [hin k hk h1, min_eq_left h1, min_eq_left (by linarith)]
      ring
    · rw [hout k hk h1, min_eq_right (by linarith), min_eq_right h1]
      ring
  rw [Finset.sum_congr rfl hF, Finset.sum_range_sub (fun k => F (e k))]
  simp only [F]
  rw [min_eq_right hN, h0, min_eq_left hr.le]
  ring

/-- Generic pulse in the sphere: the initial flux is a constant in the ball of radius `x0`. -/
theorem ball_total (c : BuildConfig) (hg : c.ic.geometry = .sphere) (ic : ICConfig)
    (hic : c.icObject = some ic) (hd : ic.uncollided = true ∨ ic.st 0 = 1 ∨ ic.st 1 = 1)
    (hr : 0 < ic.x0) (K : ℝ)
    (hf : ∀ x μ, icFunction ic x μ = some (K * (greater x 0 - greater x ic.x0)))
    (hq : c.quad = chebRule (6 * c.M + 1)) (hM : c.M ≤ 12)
    (ho : ∀ k < c.Nspace, c.edges k < c.edges (k + 1))
    (ha : ∀ k < c.Nspace, c.edges (k + 1) ≤ ic.x0 ∨ ic.x0 ≤ c.edges k)
    (h0 : c.edges 0 = 0) (hN : ic.x0 ≤ c.edges c.Nspace) (ws : List ℝ) (hw : ws.sum = 2)
    (V : ℕ → ℕ → ℕ → ℝ) (hV : ∀ l < ws.length, ∀ k < c.Nspace, ∀ j ≤ c.M,
      c.initial l k j = some (V l k j)) :
    sphereParticles ws c.M c.Nspace V c.edges = 8 * π / 3 * ic.x0 ^ 3 * K := by
  have hpos : ∀ k < c.Nspace, 0 ≤ c.edges k := by
    intro k
    induction k with
    | zero => intro _; rw [h0]
    | succ k ih => intro hk; exact (ih (by omega)).trans (ho k (by omega)).le
  unfold sphereParticles
  have e : ∀ l ∈ Finset.range ws.length, ws.getD l 0 * ∑ k ∈ Finset.range c.Nspace,
      sphereContent c.M (V l k) (c.edges k) (c.edges (k + 1)) =
      ws.getD l 0 * (ic.x0 ^ 3 / 3 * K) := by
    intro l hl
    have hl := Finset.mem_range.1 hl
    congr 1
    apply aligned_volume hr ho ha h0 hN
    · intro k hk h2
      refine initial_content_sphere c hg ic hic hd hq hM V l k (hV l hl k hk) (ho k hk) _
        fun x hx hx' => ?_
      have h1 : 0 < x := lt_of_le_of_lt (hpos k hk) hx
      have h3 : ¬ ic.x0 < x := by linarith
      rw [hf]
      simp [greater, h1, h3]
    · intro k hk hh
      have hz := initial_content_sphere c hg ic hic hd hq hM V l k (hV l hl k hk) (ho k hk) 0
        fun x hx hx' => by
          have h1 : 0 < x := lt_of_le_of_lt (hpos k hk) hx
          have h3 : ic.x0 < x := by linarith
          rw [hf]
          simp [greater, h1, h3]
      rw [hz, zero_mul]
  rw [Finset.sum_congr rfl e, ← Finset.sum_mul, sum_getD, hw]
  ring

/-- C73, spherical shell source: `source_strength` particles. -/
theorem c73_shell_partial (c : BuildConfig) (hg : c.ic.geometry = .sphere)
    (hu : c.ic.uncollided = false) (h0' : c.ic.st 0 = 0) (h1 : c.ic.st 1 = 1) (hr : 0 < c.ic.x0)
    (hq : c.quad = chebRule (6 * c.M + 1)) (hM : c.M ≤ 12)
    (ho : ∀ k < c.Nspace, c.edges k < c.edges (k + 1))
    (ha : ∀ k < c.Nspace, c.edges (k + 1) ≤ c.ic.x0 ∨ c.ic.x0 ≤ c.edges k)
    (h0 : c.edges 0 = 0) (hN : c.ic.x0 ≤ c.edges c.Nspace) (ws : List ℝ) (hw : ws.sum = 2)
    (V : ℕ → ℕ → ℕ → ℝ) (hV : ∀ l < ws.length, ∀ k < c.Nspace, ∀ j ≤ c.M,
      c.initial l k j = some (V l k j)) :
    sphereParticles ws c.M c.Nspace V c.edges = c.ic.strength := by
  have hx : c.adjustedX0 = c.ic.x0 := by
    unfold BuildConfig.adjustedX0
    rw [if_neg (by rintro ⟨_, h, _⟩; omega)]
  have hic : c.icObject = some { c.ic with x0 := c.adjustedX0, x1 := 0 } := by
    unfold BuildConfig.icObject
    rw [if_neg (by rintro ⟨_, h, _⟩; omega)]
  rw [hx] at hic
  have e0 : c.ic.sourceType.getD 0 0 = 0 := h0'
  have e1 : c.ic.sourceType.getD 1 0 = 1 := h1
  rw [ball_total c hg _ hic (Or.inr (Or.inr h1)) hr
    (c.ic.strength * 3 / 4 / π / c.ic.x0 ^ 3 / 2) _ hq hM ho ha h0 hN ws hw V hV]
  · have := pi_pos
    simp only
    field_simp
    ring
  · intro x μ
    unfold icFunction shellInitial
    simp only [hg, hu, ICConfig.st, e0, e1, if_true, Bool.false_eq_true, if_false]
    norm_num
    ring

/-- C73 for the point pulse in the sphere: the content is `8π/3` times the strength. -/
theorem c73_point_pulse (c : BuildConfig) (hg : c.ic.geometry = .sphere)
    (hu : c.ic.uncollided = false) (h1 : c.ic.st 0 = 1) (hr : 0 < c.adjustedX0)
    (hq : c.quad = chebRule (6 * c.M + 1)) (hM : c.M ≤ 12)
    (ho : ∀ k < c.Nspace, c.edges k < c.edges (k + 1))
    (ha : ∀ k < c.Nspace, c.edges (k + 1) ≤ c.adjustedX0 ∨ c.adjustedX0 ≤ c.edges k)
    (h0 : c.edges 0 = 0) (hN : c.adjustedX0 ≤ c.edges c.Nspace) (ws : List ℝ) (hw : ws.sum = 2)
    (V : ℕ → ℕ → ℕ → ℝ) (hV : ∀ l < ws.length, ∀ k < c.Nspace, ∀ j ≤ c.M,
      c.initial l k j = some (V l k j)) :
    sphereParticles ws c.M c.Nspace V c.edges = 8 * π / 3 * c.ic.strength := by
  have hic : c.icObject = some { c.ic with x0 := c.adjustedX0, x1 := 0 } := by
    unfold BuildConfig.icObject
    rw [if_neg (by rintro ⟨_, h, _⟩; omega)]
  have e1 : c.ic.sourceType.getD 0 0 = 1 := h1
  rw [ball_total c hg _ hic (Or.inr (Or.inl h1)) hr (c.ic.strength / c.adjustedX0 ^ 3) _ hq hM ho ha
    h0 hN ws hw V hV]
  · simp only
    field_simp
  · intro x μ
    unfold icFunction pointPulse
    simp only [hg, hu, ICConfig.st, e1, if_true, Bool.false_eq_true, if_false, Option.some.injEq]
    ring

/-! #### Examples -/

/-- Four cells on `[-4, 4]`, static plane pulse in slab geometry; the pulse then fills the mesh. -/
noncomputable def examplePlane : BuildConfig where
  Nspace := 4
  M := 1
  moving := false
  eInit := 1
  cosines := fun k => k - 1 / 2
  quad := [(-(√3)⁻¹, 1), ((√3)⁻¹, 1)]
  edges := fun k => 2 * k - 4
  ic := ⟨[1, 0, 0, 0, 0, 0], false, .slab, 1 / 2, 3, 1, 0⟩

theorem examplePlane_x0 : examplePlane.adjustedX0 = 4 := by
  simp [BuildConfig.adjustedX0, examplePlane, ICConfig.st]; norm_num

example (V : ℕ → ℕ → ℕ → ℝ) (hV : ∀ l < 2, ∀ k < 4, ∀ j ≤ 1,
    examplePlane.initial l k j = some (V l k j)) :
    slabParticles [1, 1] 1 4 V examplePlane.edges = 3 := by
  refine c73_plane_partial examplePlane rfl rfl rfl (by rw [examplePlane_x0]; norm_num)
    (quadExact_mono two_point_exact (by show 2 * 1 ≤ 3; norm_num)) two_point_inside
    (fun k _ => ?_) (fun k hk => ?_) ?_ ?_ [1, 1] (by norm_num) V hV
  · simp only [examplePlane]; push_cast; linarith
  · have hk : k < 4 := hk
    have hk' : (k : ℝ) + 1 ≤ 4 := by exact_mod_cast hk
    rw [examplePlane_x0]
    left
    simp only [examplePlane]
    push_cast
    have := Nat.cast_nonneg (α := ℝ) k
    constructor <;> linarith
  · rw [examplePlane_x0]; simp [examplePlane]
  · rw [examplePlane_x0]; simp [examplePlane]; norm_num

/-- Six cells of width two: one eighth of the particles of one direction in each of the four cells
in the middle, nothing in the outer ones. -/
example (V : ℕ → ℕ → ℕ → ℝ) (hV : ∀ l < 2, ∀ k < 6, ∀ j ≤ 1,
    { examplePlane with Nspace := 6, edges := fun k => ((k : ℝ) - 3) * 2 }.initial l k j =
      some (V l k j)) :
    slabContent 1 (V 0 1) (-4) (-2) = 3 / 8 ∧ slabContent 1 (V 1 5) 4 6 = 0 := by
  obtain ⟨-, h⟩ := c73_plane_static
    { examplePlane with Nspace := 6, edges := fun k => ((k : ℝ) - 3) * 2 } rfl rfl rfl rfl
    (quadExact_mono two_point_exact (by show 2 * 1 ≤ 3; norm_num)) two_point_inside
    (n := 3) (by norm_num) rfl (h := 2) (by norm_num) (fun k => by norm_num) [1, 1] (by norm_num) V
    hV
  have a := h 0 (by simp) 1 (by simp)
  have b := h 1 (by simp) 5 (by simp)
  norm_num [examplePlane] at a b
  exact ⟨a, b⟩

example (V : ℕ → ℕ → ℕ → ℝ) (hV : ∀ l < 2, ∀ k < 2, ∀ j ≤ 1,
    { examplePlane with Nspace := 2, edges := fun k => ((k : ℝ) - 1) * 2 }.initial l k j =
      some (V l k j)) :
    slabParticles [1, 1] 1 2 V (fun k => ((k : ℝ) - 1) * 2) = 3 / 2 :=
  c73_plane_two_cells_wrong
    { examplePlane with Nspace := 2, edges := fun k => ((k : ℝ) - 1) * 2 } rfl rfl rfl rfl
    (quadExact_mono two_point_exact (by show 2 * 1 ≤ 3; norm_num)) two_point_inside
    rfl (h := 2) (by norm_num) (fun k => by norm_num) [1, 1] (by norm_num) V hV

/-- Three unit cells, point pulse in the sphere on a moving mesh. -/
noncomputable def examplePoint : BuildConfig where
  Nspace := 3
  M := 2
  moving := true
  eInit := 1
  cosines := fun k => k - 1 / 2
  quad := chebRule 13
  edges := fun k => k
  ic := ⟨[1, 0, 0, 0, 0, 0], false, .sphere, 1, 1, 1, 0⟩

/-- C73 fails for the point pulse: a concrete problem of unit strength that starts with more than
eight particles. -/
theorem c73_point_pulse_not_normalised (V : ℕ → ℕ → ℕ → ℝ) (hV : ∀ l < 2, ∀ k < 3, ∀ j ≤ 2,
    examplePoint.initial l k j = some (V l k j)) :
    8 < sphereParticles [1, 1] 2 3 V examplePoint.edges := by
  have hx : examplePoint.adjustedX0 = 1 := by
    simp [BuildConfig.adjustedX0, examplePoint]
  have := c73_point_pulse examplePoint rfl rfl rfl (by rw [hx]; norm_num) rfl (by decide)
    (fun k _ => by simp [examplePoint]) (fun k _ => by
      rw [hx]
      rcases Nat.eq_zero_or_pos k with h | h
      · left; simp [examplePoint, h]
      · right; simp only [examplePoint]; exact_mod_cast h)
    (by simp [examplePoint]) (by rw [hx]; simp [examplePoint]) [1, 1] (by norm_num) V hV
  have e : sphereParticles [1, 1] 2 3 V examplePoint.edges = 8 * π / 3 * 1 := this
  rw [e]
  have := pi_gt_three
  linarith

/-- Same mesh, spherical pulse of radius one. -/
example (V : ℕ → ℕ → ℕ → ℝ) (hV : ∀ l < 2, ∀ k < 3, ∀ j ≤ 2,
    ({ examplePoint with ic := ⟨[0, 1, 0, 0, 0, 0], false, .sphere, 1, 5, 1, 0⟩ } :
      BuildConfig).initial l k j = some (V l k j)) :
    sphereParticles [1, 1] 2 3 V examplePoint.edges = 5 :=
  c73_shell_partial { examplePoint with ic := ⟨[0, 1, 0, 0, 0, 0], false, .sphere, 1, 5, 1, 0⟩ } rfl
    rfl rfl rfl (by norm_num) rfl (by decide) (fun k _ => by simp [examplePoint]) (fun k _ => by
      rcases Nat.eq_zero_or_pos k with h | h
      · left; simp [examplePoint, h]
      · right; simp only [examplePoint]; exact_mod_cast h)
    (by simp [examplePoint]) (by simp [examplePoint]) [1, 1] (by norm_num) V hV

/-- Square pulse on `[-2, 2]`. -/
example (V : ℕ → ℕ → ℕ → ℝ) (hV : ∀ l < 2, ∀ k < 4, ∀ j ≤ 1,
    ({ examplePlane with ic := ⟨[0, 1, 0, 0, 0, 0], false, .slab, 2, 3, 1, 0⟩ } :
      BuildConfig).initial l k j = some (V l k j)) :
    slabParticles [1, 1] 1 4 V examplePlane.edges = 2 * 2 * 3 := by
  refine c73_square_partial
    { examplePlane with ic := ⟨[0, 1, 0, 0, 0, 0], false, .slab, 2, 3, 1, 0⟩ } rfl rfl rfl rfl
    (by norm_num) (quadExact_mono two_point_exact (by show 2 * 1 ≤ 3; norm_num)) two_point_inside
    (fun k _ => ?_) (fun k hk => ?_) ?_ ?_ [1, 1] (by norm_num) V hV
  · simp only [examplePlane]; push_cast; linarith
  · have hk : k < 4 := hk
    simp only [examplePlane, Aligned]
    interval_cases k <;> norm_num
  · simp [examplePlane]; norm_num
  · simp [examplePlane]; norm_num

/-- Such coefficients exist. -/
theorem examplePoint_has_initial : ∃ V : ℕ → ℕ → ℕ → ℝ, ∀ l < 2, ∀ k < 3, ∀ j ≤ 2,
    examplePoint.initial l k j = some (V l k j) := by
  refine ⟨fun l k j => (examplePoint.initial l k j).getD 0, fun l _ k _ j hj => ?_⟩
  have hic : examplePoint.icObject =
      some { examplePoint.ic with x0 := examplePoint.adjustedX0, x1 := 0 } := by
    unfold BuildConfig.icObject
    rw [if_neg (by rintro ⟨h, _⟩; simp [examplePoint] at h)]
  unfold BuildConfig.initial
  rw [hic]
  simp only [Option.bind_some]
  have hg : examplePoint.ic.geometry = .sphere := rfl
  simp only [hg]
  rw [if_neg (by rintro ⟨_, h, _⟩; exact h rfl)]
  unfold sphereProjection
  rw [if_pos (by omega)]
  rfl

end Verif.Props
