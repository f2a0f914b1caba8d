import Mathlib.Topology.Algebra.InfiniteSum.Basic
import Mathlib.Data.Real.Basic
import Mathlib.Topology.Instances.Real.Lemmas
import Mathlib.Algebra.BigOperators.Group.Finset.Basic

/-!
# The functions η_m (Ixaru), specification

`η_0(Z) = cosh √Z`, `η_1(Z) = sinh √Z / √Z`, … are the entire functions
`η_m(Z) = Σ_q Z^q / ((2q)!! (2(q+m)-1)!!)`.
-/
namespace Verif.Eta
open scoped BigOperators

/-- `(2k-1)!! = 1 · 3 · … · (2k-1)` -/
noncomputable def oddFact (k : ℕ) : ℝ := ∏ j ∈ Finset.range k, (2 * (j : ℝ) + 1)
/-- `(2k)!! = 2 · 4 · … · 2k` -/
noncomputable def evenFact (k : ℕ) : ℝ := ∏ j ∈ Finset.range k, (2 * (j : ℝ) + 2)

/-- The function η_m. -/
noncomputable def eta (m : ℕ) (Z : ℝ) : ℝ := ∑' q : ℕ, Z ^ q / (evenFact q * oddFact (q + m))

end Verif.Eta
