import Mathlib.Analysis.Calculus.Deriv.Basic

/-!
# Specification: solutions of the Schrödinger equation on an interval
-/
namespace Verif

/-- `y` with derivative `dy` solves `y'' = (V - E) y` on `[a, b]`. -/
structure SolvesOn (V : ℝ → ℝ) (E a b : ℝ) (y dy : ℝ → ℝ) : Prop where
  d1 : ∀ x ∈ Set.Icc a b, HasDerivWithinAt y (dy x) (Set.Icc a b) x
  d2 : ∀ x ∈ Set.Icc a b, HasDerivWithinAt dy ((V x - E) * y x) (Set.Icc a b) x

end Verif
