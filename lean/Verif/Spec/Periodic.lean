import Verif.Spec.Problem
import Verif.Model.YT

/-!
# Specification: coupled boundary conditions `(y, y')(dmax) = K (y, y')(dmin)`
-/
namespace Verif
open Verif.Mesh Verif.YT

/-- `(y, y')(dmax) = K (y, y')(dmin)` -/
def Joined (k : M2 ℝ) (dmin dmax : ℝ) (y dy : ℝ → ℝ) : Prop :=
  y dmax = k.a * y dmin + k.b * dy dmin ∧ dy dmax = k.c * y dmin + k.d * dy dmin

/-- `E` is an exact eigenvalue of `-y'' + V y = E y` with these boundary conditions: there is a solution that satisfies them and is not
identically zero. -/
def IsPeriodicEigenvalue (W : Sec ℝ → ℝ → ℝ) (secs : List (Sec ℝ)) (dmin dmax : ℝ) (k : M2 ℝ) (E : ℝ) : Prop :=
  ∃ y dy : ℝ → ℝ, SolvesMesh W E secs y dy ∧ (∃ x ∈ Set.Icc dmin dmax, y x ≠ 0) ∧ Joined k dmin dmax y dy

/-- A double eigenvalue: every solution satisfies the boundary conditions. -/
def IsDoubleEigenvalue (W : Sec ℝ → ℝ → ℝ) (secs : List (Sec ℝ)) (dmin dmax : ℝ) (k : M2 ℝ) (E : ℝ) : Prop :=
  ∀ y dy : ℝ → ℝ, SolvesMesh W E secs y dy → Joined k dmin dmax y dy

/-- `c F`, `s F` are the solutions at energy `F` with `(c, c') = (1, 0)` and `(s, s') = (0, 1)` at `dmin`. -/
structure Fundamental (W : Sec ℝ → ℝ → ℝ) (secs : List (Sec ℝ)) (dmin : ℝ) (c dc s ds : ℝ → ℝ → ℝ) : Prop where
  solC : ∀ F, SolvesMesh W F secs (c F) (dc F)
  solS : ∀ F, SolvesMesh W F secs (s F) (ds F)
  initC : ∀ F, c F dmin = 1 ∧ dc F dmin = 0
  initS : ∀ F, s F dmin = 0 ∧ ds F dmin = 1

/-- `det (Φ - K)`, where `Φ` is the matrix `[[c, s], [c', s']]` at the end of the domain (the monodromy matrix). -/
def perDet (k : M2 ℝ) (c dc s ds : ℝ) : ℝ := (c - k.a) * (ds - k.d) - (s - k.b) * (dc - k.c)

/-- The entries of `K` are at most `M`. -/
def EntriesLe (M : ℝ) (k : M2 ℝ) : Prop := |k.a| ≤ M ∧ |k.b| ≤ M ∧ |k.c| ≤ M ∧ |k.d| ≤ M

end Verif
