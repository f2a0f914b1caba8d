import Mathlib.Analysis.Calculus.Deriv.Basic

/-!
# Specification: the energy derivative of a solution
-/
namespace Verif

/-- `z`, with derivative `dz`, solves the differential equation differentiated with respect to the energy: `z'' = (V - E) z - y` on `[a, b]`. -/
structure EnergyOn (V : ℝ → ℝ) (E a b : ℝ) (y z dz : ℝ → ℝ) : Prop where
  d1 : ∀ x ∈ Set.Icc a b, HasDerivWithinAt z (dz x) (Set.Icc a b) x
  d2 : ∀ x ∈ Set.Icc a b, HasDerivWithinAt dz ((V x - E) * z x - y x) (Set.Icc a b) x

end Verif
