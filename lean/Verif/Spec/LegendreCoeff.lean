import Verif.Spec.Legendre
import Mathlib.MeasureTheory.Integral.IntervalIntegral.Basic

/-! # Specification: the Legendre coefficients of a function on an interval -/
namespace Verif

/-- Coefficient `i` of the expansion of `f` on `[a, b]` in shifted Legendre polynomials:
`(2i + 1) ∫_0^1 f(a + (b - a) t) P_i(t) dt`. -/
noncomputable def legendreCoeff (f : ℝ → ℝ) (a b : ℝ) (i : ℕ) : ℝ :=
  (2 * i + 1) * ∫ t in (0 : ℝ)..1, f (a + (b - a) * t) * shiftedP i t

end Verif
