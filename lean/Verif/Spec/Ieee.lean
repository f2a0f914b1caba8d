import Mathlib.Data.Real.Basic
import Mathlib.Algebra.Order.Field.Power

/-!
# Specification: the numbers of an IEEE 754 binary type
-/
namespace Verif.Fp

/-- The numbers with at most `p` significant bits and last place at least `2^emin` (no largest number): `double` is `p = 53`, `emin = -1074`. -/
def Representable (p : ℕ) (emin : ℤ) (y : ℝ) : Prop := ∃ m e : ℤ, |m| ≤ 2 ^ p ∧ emin ≤ e ∧ y = m * 2 ^ e

end Verif.Fp
