import Verif.Spec.Legendre
import Mathlib.Analysis.Real.Sqrt
import Mathlib.Analysis.Real.Pi.Bounds

/-!
Model: basis functions (`solver_classes/functions.py`).

`scipy.special.eval_legendre` is replaced by its contract `Verif.Spec.legendre`.
Arrays of evaluation points are modelled point by point (the loops at functions.py 44-48
and 509-514 treat every entry independently).
-/

namespace Verif.Model

open Verif.Spec

/-- functions.py 45, 64: the reference coordinate `z = (b+a-2*x)/(a-b)`. -/
noncomputable def zSlab (x a b : ℝ) : ℝ := (b + a - 2 * x) / (a - b)

/-- functions.py 41-49 `normPn` and 61-68 `normPn_scalar`, one point:
`eval_legendre(n, z) * sqrt((2*n+1)/(b-a))`. -/
noncomputable def normPn (n : ℕ) (x a b : ℝ) : ℝ :=
  (legendre n).eval (zSlab x a b) * Real.sqrt ((2 * (n : ℝ) + 1) / (b - a))

/-- functions.py 53-60, 70-76 `Pn`: no scaling and no change of variable (`a`, `b` are
accepted and ignored by the code). -/
noncomputable def Pn (n : ℕ) (x _a _b : ℝ) : ℝ := (legendre n).eval x

/-- functions.py 467-496 `eval_Tn`; `none` is the failed `assert(0)` at 494-496. -/
def evalTn (n : ℕ) (x : ℝ) : Option ℝ :=
  match n with
  | 0 => some (1 + x * 0)
  | 1 => some x
  | 2 => some (-1 + 2 * x ^ 2)
  | 3 => some (-3 * x + 4 * x ^ 3)
  | 4 => some (1 - 8 * x ^ 2 + 8 * x ^ 4)
  | 5 => some (5 * x - 20 * x ^ 3 + 16 * x ^ 5)
  | 6 => some (-1 + 18 * x ^ 2 - 48 * x ^ 4 + 32 * x ^ 6)
  | 7 => some (-7 * x + 56 * x ^ 3 - 112 * x ^ 5 + 64 * x ^ 7)
  | 8 => some (1 - 32 * x ^ 2 + 160 * x ^ 4 - 256 * x ^ 6 + 128 * x ^ 8)
  | 9 => some (9 * x - 120 * x ^ 3 + 432 * x ^ 5 - 576 * x ^ 7 + 256 * x ^ 9)
  | 10 => some (-1 + 50 * x ^ 2 - 400 * x ^ 4 + 1120 * x ^ 6 - 1280 * x ^ 8 + 512 * x ^ 10)
  | 11 => some (-11 * x + 220 * x ^ 3 - 1232 * x ^ 5 + 2816 * x ^ 7 - 2816 * x ^ 9
            + 1024 * x ^ 11)
  | 12 => some (1 - 72 * x ^ 2 + 840 * x ^ 4 - 3584 * x ^ 6 + 6912 * x ^ 8 - 6144 * x ^ 10
            + 2048 * x ^ 12)
  | _ => none

/-- functions.py 498-503 `kronecker` (a natural exponent here; the code uses 1.0 / 0.0). -/
def kronecker (i : ℕ) : ℕ := if i = 0 then 1 else 0

/-- functions.py 508: normalisation of the Chebyshev basis. -/
noncomputable def normTnFactor (n : ℕ) (a b : ℝ) : ℝ :=
  (1 / Real.sqrt 2) ^ kronecker n * Real.sqrt (1 / (b - a)) * Real.sqrt 2 / Real.sqrt Real.pi

/-- functions.py 512: the reference coordinate used by `normTn`. -/
noncomputable def zSphere (x a b : ℝ) : ℝ := 2 / (b - a) * x - (b + a) / (b - a)

/-- functions.py 505-515 `normTn`, one point. -/
noncomputable def normTn (n : ℕ) (x a b : ℝ) : Option ℝ :=
  (evalTn n (zSphere x a b)).map (normTnFactor n a b * ·)

/-- functions.py 519-521 `weight_func_Tn`. -/
noncomputable def weightTn (x a b : ℝ) : ℝ := (b - a) / Real.sqrt ((a - x) * (x - b))

/-- functions.py 82-109: the tabulated Legendre derivatives inside `dx_normPn`
(entries for `n > 11` keep the initial zero, 80). -/
noncomputable def dLegendreTable (n : ℕ) (z : ℝ) : ℝ :=
  match n with
  | 0 => 0
  | 1 => 1
  | 2 => 3 * z
  | 3 => (-3 + 15 * z ^ 2) / 2
  | 4 => (-60 * z + 140 * z ^ 3) / 8
  | 5 => (15 - 210 * z ^ 2 + 315 * z ^ 4) / 8
  | 6 => (210 * z - 1260 * z ^ 3 + 1386 * z ^ 5) / 16
  | 7 => (-35 + 945 * z ^ 2 - 3465 * z ^ 4 + 3003 * z ^ 6) / 16
  | 8 => (-2520 * z + 27720 * z ^ 3 - 72072 * z ^ 5 + 51480 * z ^ 7) / 128
  | 9 => (315 - 13860 * z ^ 2 + 90090 * z ^ 4 - 180180 * z ^ 6 + 109395 * z ^ 8) / 128
  | 10 => (6930 * z - 120120 * z ^ 3 + 540540 * z ^ 5 - 875160 * z ^ 7 + 461890 * z ^ 9) / 256
  | 11 => (-693 + 45045 * z ^ 2 - 450450 * z ^ 4 + 1531530 * z ^ 6 - 2078505 * z ^ 8
            + 969969 * z ^ 10) / 256
  | _ => 0

/-- functions.py 78-110 `dx_normPn`, one point. -/
noncomputable def dxNormPn (n : ℕ) (x a b : ℝ) : ℝ :=
  dLegendreTable n (zSlab x a b) * Real.sqrt ((2 * (n : ℝ) + 1) / (b - a))

end Verif.Model
