import Mathlib.Order.Defs.LinearOrder

/-!
# Specification: meshes

Independent of the model: a mesh is a list of `(left, right)` end points.
-/
namespace Verif.Spec

/-- The intervals in `l`, in this order, tile `[a, b]`: there is at least one, the first starts at
`a`, the last ends at `b`, and each one ends where the next one starts. `R` is the notion of "same
point": equality in exact arithmetic, `==` of the scalar type for floating point. -/
structure IsTiling {K : Type u} (R : K → K → Prop) (l : List (K × K)) (a b : K) : Prop where
  nonempty : l ≠ []
  first : ∀ p, l.head? = some p → p.1 = a
  last : ∀ p, l.getLast? = some p → p.2 = b
  joined : ∀ (i : Nat) (h : i + 1 < l.length), R (l[i]'(Nat.lt_of_succ_lt h)).2 l[i + 1].1

/-- Every interval has positive width. -/
def PositiveWidths {K : Type u} [LT K] (l : List (K × K)) : Prop := ∀ p ∈ l, p.1 < p.2

/-- `x` is an end point of some interval. -/
def IsBoundary {K : Type u} (l : List (K × K)) (x : K) : Prop := ∃ p ∈ l, p.1 = x ∨ p.2 = x

/-- `true` exactly for the first `k + 1` entries: the mesh is split after index `k`. -/
structure IsSplitAfter (fwd : List Bool) (k : Nat) : Prop where
  inRange : k < fwd.length
  split : ∀ (i : Nat) (h : i < fwd.length), fwd[i] = true ↔ i ≤ k

end Verif.Spec
