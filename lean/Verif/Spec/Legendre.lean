import Mathlib.Data.Real.Basic
import Mathlib.Algebra.BigOperators.Group.Finset.Basic
import Mathlib.Data.Nat.Choose.Basic

/-!
# Specification: shifted Legendre polynomials and series
-/
namespace Verif
open scoped BigOperators

/-- The Legendre polynomial of degree `k` shifted to `[0, 1]`, normalised by `P_k(1) = 1`:
`P_k(x) = Σ_j (-1)^(k+j) C(k,j) C(k+j,j) x^j`. -/
def shiftedP {K : Type} [Field K] (k : ℕ) (x : K) : K :=
  ∑ j ∈ Finset.range (k + 1), (-1) ^ (k + j) * (k.choose j : K) * ((k + j).choose j : K) * x ^ j

/-- The truncated Legendre series on `[0, h]` with coefficients `v_k h^k`. -/
def legendreSeries {K : Type} [Field K] (n : ℕ) (v : ℕ → K) (h x : K) : K :=
  ∑ k ∈ Finset.range n, v k * h ^ k * shiftedP k (x / h)

end Verif
