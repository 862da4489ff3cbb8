import Verif.Lemmas.Dop853Order

/-!
Lemmas: the check of the order conditions for the coefficients of `DOP853` as doubles.
-/

namespace Verif.Lemmas

open Verif.Model

set_option maxRecDepth 100000 in
theorem dopDouble_ok : dopOk dopDouble (10 ^ 15) (10 ^ 11) 12000 = true := by
  decide +kernel

/-- The coefficients as doubles. -/
theorem dopDouble_like : DopLike dopDouble 12000 (1 / 10 ^ 15) (1 / 10 ^ 11) := by
  have := dopLike_of_ok (by positivity) (by positivity) dopDouble_ok
  simpa only [Nat.cast_pow, Nat.cast_ofNat] using this

/-- The doubles are next to the decimals, and have 53 binary digits. -/
theorem toDouble_right : ∀ z ∈ dopRows.flatten ++ dopNodes ++ dopDense.flatten,
    (toDouble z * 10 ^ 33 - z * 2 ^ 100).natAbs * 2 ^ 53 ≤ z.natAbs * 2 ^ 100 ∧
      (toDouble z).natAbs / 2 ^ ((toDouble z).natAbs.log2 - 52) * 2 ^ ((toDouble z).natAbs.log2 - 52) =
        (toDouble z).natAbs := by
  decide +kernel

end Verif.Lemmas
