import Mathlib.Analysis.Calculus.Deriv.Basic

/-!
# Specification: smooth potentials with bounded derivatives
-/
namespace Verif

/-- `W` has sixteen derivatives on `[a, b]` (one-sided at the end points), and `W` and these derivatives are
bounded by `M`. -/
def SmoothOn (M : ℝ) (W : ℝ → ℝ) (a b : ℝ) : Prop :=
  ∃ D : ℕ → ℝ → ℝ, (∀ x ∈ Set.Icc a b, D 0 x = W x) ∧
    (∀ j < 16, ∀ x ∈ Set.Icc a b, HasDerivWithinAt (D j) (D (j + 1) x) (Set.Icc a b) x) ∧
    ∀ j ≤ 16, ∀ x ∈ Set.Icc a b, |D j x| ≤ M

end Verif
