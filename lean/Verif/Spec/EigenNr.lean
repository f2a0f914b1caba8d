import Verif.Spec.Problem
import Mathlib.Data.Set.Card

/-!
# Specification: numbered eigenvalues
-/
namespace Verif
open Verif.Mesh

/-- `E` is an exact eigenvalue whose eigenfunction has `n` zeros in the open domain: the `n`-th eigenvalue, counted from 0. -/
def IsEigenvalueNr (W : Sec ℝ → ℝ → ℝ) (secs : List (Sec ℝ)) (dmin dmax : ℝ) (L R : ℝ × ℝ) (n : ℕ) (E : ℝ) : Prop :=
  ∃ y dy : ℝ → ℝ, SolvesMesh W E secs y dy ∧ (∃ x ∈ Set.Icc dmin dmax, y x ≠ 0) ∧
    y dmin * L.2 = dy dmin * L.1 ∧ y dmax * R.2 = dy dmax * R.1 ∧
    ({x ∈ Set.Ioo dmin dmax | y x = 0} : Set ℝ).Finite ∧ ({x ∈ Set.Ioo dmin dmax | y x = 0} : Set ℝ).ncard = n

/-- `E` is one of the points at which repeated halving divides `[Emin, Emax]` (`Emin` included, at most 31 halvings). -/
def Halving (Emin Emax E : ℝ) : Prop := ∃ j m : ℕ, j ≤ 31 ∧ m < 2 ^ j ∧ E = Emin + (Emax - Emin) * m / 2 ^ j

/-- Exact eigenvalues between `lo` and `hi` with different numbers are at least `g` apart. -/
def EigenGap (W : Sec ℝ → ℝ → ℝ) (secs : List (Sec ℝ)) (dmin dmax : ℝ) (L R : ℝ × ℝ) (lo hi g : ℝ) : Prop :=
  ∀ (n m : ℕ) (lam mu : ℝ), IsEigenvalueNr W secs dmin dmax L R n lam → IsEigenvalueNr W secs dmin dmax L R m mu → n < m →
    lo ≤ lam → lam ≤ hi → lo ≤ mu → mu ≤ hi → g ≤ mu - lam

end Verif
