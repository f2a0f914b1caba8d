import Mathlib.Algebra.Order.Field.Basic
import Mathlib.Data.Rat.Cast.Order

/-!
# Scalar comparisons as the C++ code sees them

`CCmp K` provides the three Boolean comparisons the code uses and the conversion of a numeric
literal of the source. It carries no laws: `Float` is an instance (NaN answers `false` to every
comparison), and so is every linearly ordered field. A theorem proved only from `[CCmp K]` and the
bare operation symbols therefore also covers floating point.
-/
namespace Verif

/-- Boolean comparisons and literals of a C++ scalar type. -/
class CCmp (K : Type u) where
  lt : K → K → Bool
  le : K → K → Bool
  eq : K → K → Bool
  lit : Rat → K

/-- IEEE doubles (operations are opaque in Lean; only law-free theorems apply to them). -/
instance : CCmp Float where
  lt a b := decide (a < b)
  le a b := decide (a ≤ b)
  eq a b := a == b
  lit q := Float.ofInt q.num / Float.ofNat q.den

/-- Exact arithmetic: any linearly ordered field. -/
instance instCCmpExact {K : Type u} [Field K] [LinearOrder K] : CCmp K where
  lt a b := decide (a < b)
  le a b := decide (a ≤ b)
  eq a b := decide (a = b)
  lit q := (q : K)

section
variable {K : Type u} [Field K] [LinearOrder K]
@[simp] theorem ccmp_lt (a b : K) : CCmp.lt a b = decide (a < b) := rfl
@[simp] theorem ccmp_le (a b : K) : CCmp.le a b = decide (a ≤ b) := rfl
@[simp] theorem ccmp_eq (a b : K) : CCmp.eq a b = decide (a = b) := rfl
@[simp] theorem ccmp_lit (q : Rat) : (CCmp.lit q : K) = (q : K) := rfl
end

/-- The comparison laws of IEEE 754 (and of every linear order): `x ≤ x` fails exactly for NaN, a
comparison with NaN is false, and on the other values the order is total and transitive. No law of
arithmetic is assumed. -/
class IeeeOrd (K : Type u) [CCmp K] : Prop where
  le_left : ∀ x y : K, CCmp.le x y = true → CCmp.le x x = true
  le_right : ∀ x y : K, CCmp.le x y = true → CCmp.le y y = true
  trans : ∀ x y z : K, CCmp.le x y = true → CCmp.le y z = true → CCmp.le x z = true
  total : ∀ x y : K, CCmp.le x x = true → CCmp.le y y = true →
    CCmp.le x y = true ∨ CCmp.le y x = true
  lt_iff : ∀ x y : K, CCmp.lt x y = true ↔
    (CCmp.le x x = true ∧ CCmp.le y y = true ∧ CCmp.le y x = false)
  eq_iff : ∀ x y : K, CCmp.eq x y = true ↔ (CCmp.le x y = true ∧ CCmp.le y x = true)

/-- Exact arithmetic satisfies them. -/
instance {K : Type u} [Field K] [LinearOrder K] : IeeeOrd K where
  le_left := by simp
  le_right := by simp
  trans := by simp only [ccmp_le, decide_eq_true_eq]; exact fun x y z => le_trans
  total := by simp only [ccmp_le, decide_eq_true_eq]; exact fun x y _ _ => le_total x y
  lt_iff := by simp
  eq_iff x y := by simp only [ccmp_eq, ccmp_le, decide_eq_true_eq]; exact le_antisymm_iff

/-- `std::min(a, b)`: returns `b` only if `b < a`. -/
def stdMin {K : Type u} [CCmp K] (a b : K) : K := if CCmp.lt b a then b else a

/-- `std::max(a, b)`: returns `b` only if `a < b`. -/
def stdMax {K : Type u} [CCmp K] (a b : K) : K := if CCmp.lt a b then b else a

theorem stdMin_eq {K : Type u} [Field K] [LinearOrder K] (a b : K) : stdMin a b = min a b := by
  unfold stdMin
  by_cases h : b < a
  · simp [h, min_eq_right h.le]
  · simp [h, min_eq_left (not_lt.mp h)]

theorem stdMax_eq {K : Type u} [Field K] [LinearOrder K] (a b : K) : stdMax a b = max a b := by
  unfold stdMax
  by_cases h : a < b
  · simp [h, max_eq_right h.le]
  · simp [h, max_eq_left (not_lt.mp h)]

end Verif
