import Verif.Spec.EigenNr
import Mathlib.MeasureTheory.Integral.IntervalIntegral.Basic

/-!
# Specification: numbered eigenvalues on an interval
-/
namespace Verif
open Verif.Mesh

/-- `E` is an exact eigenvalue of `-y'' + V y = E y` on `[a, b]` with the boundary conditions `y(a) : y'(a) = L.1 : L.2` and `y(b) : y'(b) = R.1 : R.2`, whose
eigenfunction has `n` zeros in the open interval: the `n`-th eigenvalue, counted from 0. -/
def IsEigenvalueNrOn (V : ℝ → ℝ) (a b : ℝ) (L R : ℝ × ℝ) (n : ℕ) (E : ℝ) : Prop :=
  ∃ y dy : ℝ → ℝ, SolvesOn V E a b y dy ∧ (∃ x ∈ Set.Icc a b, y x ≠ 0) ∧ y a * L.2 = dy a * L.1 ∧ y b * R.2 = dy b * R.1 ∧
    ({x ∈ Set.Ioo a b | y x = 0} : Set ℝ).Finite ∧ ({x ∈ Set.Ioo a b | y x = 0} : Set ℝ).ncard = n

/-- `u`, with derivative `du`, is an eigenfunction on `[a, b]` for the eigenvalue `lam`, with the integral of its square equal to one. -/
structure IsEigenfunctionOn (V : ℝ → ℝ) (a b : ℝ) (L R : ℝ × ℝ) (lam : ℝ) (u du : ℝ → ℝ) : Prop where
  solves : SolvesOn V lam a b u du
  left : u a * L.2 = du a * L.1
  right : u b * R.2 = du b * R.1
  norm : ∫ t in a..b, u t * u t = 1

/-- The list `l` of (number, value) pairs is right for the numbers `i … j-1` up to `δ`: strictly increasing numbers, exactly those, each with a value within `δ` of the eigenvalue
with that number (`P n lam`: `lam` is the eigenvalue with number `n`). -/
def RightFor (δ : ℝ) (P : ℕ → ℝ → Prop) (l : List (Int × ℝ)) (i j : Int) : Prop :=
  l.Pairwise (fun p q => p.1 < q.1) ∧ (∀ k : Int, (∃ p ∈ l, p.1 = k) ↔ i ≤ k ∧ k < j) ∧
  ∀ p ∈ l, ∃ (n : ℕ) (lam : ℝ), p.1 = n ∧ P n lam ∧ |p.2 - lam| ≤ δ

/-- The list `l` of (number, value) pairs is right for the energies between `lo` and `hi` up to `δ`: every pair is within `δ` of the eigenvalue with its number, and every eigenvalue
strictly between `lo` and `hi` is in the list under its number. -/
def RightBetween (δ : ℝ) (P : ℕ → ℝ → Prop) (l : List (Int × ℝ)) (lo hi : ℝ) : Prop :=
  (∀ p ∈ l, ∃ (n : ℕ) (lam : ℝ), p.1 = n ∧ P n lam ∧ |p.2 - lam| ≤ δ) ∧
  ∀ (n : ℕ) (lam : ℝ), P n lam → lo < lam → lam < hi → ∃ E', ((n : Int), E') ∈ l ∧ |E' - lam| ≤ δ

end Verif
