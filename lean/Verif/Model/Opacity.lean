import Verif.Model.Sources
import Verif.Model.SlabRhs

/-!
Model: opacity moments, triple products, absorption and scattering vectors
(`solver_classes/opacity.py`, `solver_classes/phi_class.py`).
-/

namespace Verif.Model

open Real

/-- The entry of `sigma_func` that is set (opacity.py 131-140; load_parameters.py rejects more than
one); `other` stands for a dictionary with none of these set, for which `sigma_function` returns
`None`. -/
inductive SigmaFunc
  | constant | gaussian | siewert1 | siewert2 | fakeSedov | other
  deriving DecidableEq

/-- Attributes of `sigma_integrator` that never change after `__init__` (opacity.py 47-58, 64, 68).
`self.sigma_a = self.sigma_t - self.sigma_s` is `sigmaT - sigmaS`; `self.std` is 2. -/
structure OpacityConfig where
  sigmaT : ℝ
  sigmaS : ℝ
  func : SigmaFunc
  M : ℕ
  Msigma : ℕ
  quad : List (ℝ × ℝ)
  Nspace : ℕ
  sigmaV : ℝ

/-- Attributes of `sigma_integrator` that change: cached edges, moments `cs`, absorption vector
`VV`. -/
structure OpacityState where
  edges : ℕ → ℝ
  cs : ℕ → ℕ → ℝ
  VV : ℕ → ℝ

/-- opacity.py 59-61 -/
def opacityInit : OpacityState := ⟨fun _ => 0, fun _ _ => 0, fun _ => 0⟩

/-- opacity.py 73-76 `integrate_quad` with `a = -1`, `b = 1` (line 103). -/
noncomputable def tripleQuad (quad : List (ℝ × ℝ)) (i j k : ℕ) : ℝ :=
  √(2 * (i : ℝ) + 1) * √(2 * (j : ℝ) + 1) * √(2 * (k : ℝ) + 1) / 2 * (1 - -1) / 2 *
    (quad.map fun q => q.2 * Pn i (quadPoint (-1) 1 q.1) (-1) 1 *
      Pn j (quadPoint (-1) 1 q.1) (-1) 1 * Pn k (quadPoint (-1) 1 q.1) (-1) 1).sum

/-- opacity.py 82-92 `both_even_or_odd` -/
def bothEvenOrOdd (i j k : ℕ) : Bool :=
  if i % 2 = 0 then
    if (j + k) % 2 = 0 then true else false
  else
    if (j + k) % 2 ≠ 0 then true else false

/-- opacity.py 63, 94-103 `create_integral_matrices`: the array `AAA`, zero where line 102 skips. -/
noncomputable def tripleTensor (c : OpacityConfig) (i j k : ℕ) : ℝ :=
  if j + k ≥ i ∧ bothEvenOrOdd i j k = true then tripleQuad c.quad i j k else 0

/-- opacity.py 116-127 `heaviside_vector` at one point -/
noncomputable def heavisideVec (x : ℝ) : ℝ := open Classical in if x < 0 then 0 else 1

/-- opacity.py 113-114 `xi2` -/
noncomputable def xi2 (x t c1 v0 : ℝ) : ℝ := -x - c1 - v0 * t

/-- opacity.py 129-160 `sigma_function` at one point; `other` (the code returns `None` and the
caller fails) is given the value 0 and excluded where it matters. -/
noncomputable def sigmaFunction (c : OpacityConfig) (x t : ℝ) : ℝ :=
  match c.func with
  | .constant => x * 0 + 1
  | .gaussian => exp (-x ^ 2 / (2 * 2 ^ 2))
  | .siewert1 => exp (-x - 2.5)
  | .siewert2 => exp (-x / 100000000000)
  | .fakeSedov =>
    exp (-(xi2 x t 1 c.sigmaV) ^ 2 / 2 ^ 2) * heavisideVec (-(xi2 x t 1 c.sigmaV) - 1)
      + 0.2 * heavisideVec (xi2 x t 1 c.sigmaV + 1)
  | .other => 0

open Classical in
/-- opacity.py 106-111 `sigma_moments` with `integrate_moments` 78-80; `self.moving` is `False`
(line 64 and never assigned again).  `self.edges = edges` stores a reference; `mesh.move` always
builds a new array (mesh.py), so keeping the values is the same. -/
noncomputable def sigmaMoments (c : OpacityConfig) (edges : ℕ → ℝ) (t : ℝ) (s : OpacityState) :
    OpacityState where
  edges := edges
  cs := fun i j =>
    if i < c.Nspace ∧ (edges i ≠ s.edges i ∨ edges (i + 1) ≠ s.edges (i + 1)) ∧ j ≤ c.Msigma then
      slabMoment c.quad (fun x => sigmaFunction c x t) (edges i) (edges (i + 1)) j
    else s.cs i j
  VV := s.VV

/-- opacity.py 162-174 `make_vectors` -/
noncomputable def makeVectors (c : OpacityConfig) (edges u : ℕ → ℝ) (space : ℕ)
    (s : OpacityState) : OpacityState :=
  if c.func = .constant then { s with VV := fun i => u i * c.sigmaT }
  else ⟨s.edges, s.cs, fun i =>
    if i ≤ c.M then
      s.VV i + ∑ j ∈ Finset.range (c.M + 1), ∑ k ∈ Finset.range (c.Msigma + 1),
        (c.sigmaT - c.sigmaS + c.sigmaS) * s.cs space k * u j * tripleTensor c i j k /
          √(edges (space + 1) - edges space)
    else s.VV i⟩

/-- One request made to a `sigma_integrator` object by the right-hand side (rhs_class.py 169, 269;
rhs_class_1.py 185, 239). -/
inductive OpacityOp
  | moments (edges : ℕ → ℝ) (t : ℝ)
  | vectors (edges u : ℕ → ℝ) (space : ℕ)

/-- Effect of one request. -/
noncomputable def opacityStep (c : OpacityConfig) (s : OpacityState) : OpacityOp → OpacityState
  | .moments e t => sigmaMoments c e t s
  | .vectors e u k => makeVectors c e u k s

/-- State after a list of requests, starting from the constructor's. -/
noncomputable def opacityRun (c : OpacityConfig) (ops : List OpacityOp) : OpacityState :=
  ops.foldl (opacityStep c) opacityInit

/-- phi_class.py 79-86 `make_P`, non-constant opacity: `scalar_flux_term` (and `call_P_noncon`
91-93).  `PV` is reset at line 80, so nothing of the old state enters. -/
noncomputable def scatterVector (c : OpacityConfig) (Nang : ℕ) (ws : ℕ → ℝ) (cs : ℕ → ℕ → ℝ)
    (u : ℕ → ℕ → ℝ) (space : ℕ) (xL xR : ℝ) (i : ℕ) : ℝ :=
  (∑ l ∈ Finset.range Nang, ∑ j ∈ Finset.range (c.M + 1), ∑ k ∈ Finset.range (c.Msigma + 1),
    c.sigmaS * cs space k * u l j * ws l * tripleTensor c i j k) / √(xR - xL)

/-- phi_class.py 71-77 and 79-86 `make_P`: `scalar_flux_term` after the call. -/
noncomputable def scalarFluxTerm (c : OpacityConfig) (g : Geometry) (Nang : ℕ) (ws : ℕ → ℝ)
    (cs : ℕ → ℕ → ℝ) (u : ℕ → ℕ → ℝ) (space : ℕ) (xL xR : ℝ) (i : ℕ) : ℝ :=
  if c.func = .constant then
    match g with
    | .slab => c.sigmaS * makeP Nang ws u i
    | .sphere => makeP Nang ws u i
  else scatterVector c Nang ws cs u space xL xR i

end Verif.Model
