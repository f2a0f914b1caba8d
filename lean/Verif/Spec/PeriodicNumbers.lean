import Verif.Spec.Periodic
import Verif.Spec.EigenNr

/-!
# Specification: numbered eigenvalues of a coupled problem
-/
namespace Verif
open Verif.Mesh Verif.YT

/-- The sign, just to the right of the left end, of a solution that starts with `(y, y') = v`. -/
noncomputable def sgnL (v : ℝ × ℝ) : ℝ := if v.1 = 0 then v.2 else v.1
/-- The sign, just to the left of the right end, of a solution that ends with `(y, y') = v`. -/
noncomputable def sgnR (v : ℝ × ℝ) : ℝ := if v.1 = 0 then -v.2 else v.1
/-- `K u` -/
def img (k : M2 ℝ) (u : ℝ × ℝ) : ℝ × ℝ := (k.a * u.1 + k.b * u.2, k.c * u.1 + k.d * u.2)

/-- `P 0 ≤ P 1 ≤ P 2 ≤ …` are all eigenvalues of the coupled problem, the double ones twice. -/
structure PeriodicList (W : Sec ℝ → ℝ → ℝ) (secs : List (Sec ℝ)) (dmin dmax : ℝ) (k : M2 ℝ) (P : ℕ → ℝ) : Prop where
  mono : Monotone P
  all : ∀ E, IsPeriodicEigenvalue W secs dmin dmax k E ↔ ∃ n, E = P n
  double : ∀ n, IsDoubleEigenvalue W secs dmin dmax k (P n) ↔ P n = P (n + 1) ∨ ∃ m, n = m + 1 ∧ P m = P n
  twice : ∀ n, P n < P (n + 2)

/-- `θ` is a counting angle (divided by `π`) of the separated problem with directions `L` and `R`: strictly increasing in the energy, equal to the number `n` exactly at the eigenvalue with number `n`. -/
structure CountsEigenvalues (W : Sec ℝ → ℝ → ℝ) (secs : List (Sec ℝ)) (dmin dmax : ℝ) (L R : ℝ × ℝ) (θ : ℝ → ℝ) : Prop where
  mono : StrictMono θ
  count : ∀ (n : ℕ) (E : ℝ), θ E = n ↔ IsEigenvalueNr W secs dmin dmax L R n E

end Verif
