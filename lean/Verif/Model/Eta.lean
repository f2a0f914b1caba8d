import Verif.Basic.Scalar
import Mathlib.Data.Real.Sqrt
import Mathlib.Analysis.SpecialFunctions.Trigonometric.Basic
import Mathlib.Algebra.Order.Floor.Ring

/-!
# Model of `matslise/util/calculateEta.h:7-69`

The elementary functions and the conversion `std::abs(int(Z))` are collected in `Elem`; `elemReal` is
the exact instance used by the theorems.
-/
namespace Verif.Eta

/-- `sqrt`, `cosh`, `sinh`, `cos`, `sin` of the scalar type, and `std::abs(int(Z))` (only used for
`|Z| < 100`, where the conversion is defined) — calculateEta.h:11, 53-60. -/
structure Elem (K : Type) where
  sqrt : K → K
  cosh : K → K
  sinh : K → K
  cos : K → K
  sin : K → K
  absInt : K → Nat

/-- The exact functions; `int(Z)` rounds towards zero, so `abs(int(Z)) = ⌊|Z|⌋`. -/
noncomputable def elemReal : Elem ℝ where
  sqrt := Real.sqrt
  cosh := Real.cosh
  sinh := Real.sinh
  cos := Real.cos
  sin := Real.sin
  absInt := fun Z => ⌊|Z|⌋₊

section ops
variable {K : Type} [Add K] [Sub K] [Mul K] [Div K] [Neg K] [Zero K] [CCmp K]

/-- `abs` -/
def absK (x : K) : K := if CCmp.lt x 0 then -x else x

/-- `last_eta` from `std::abs(int(Z))` — calculateEta.h:11-13. -/
def lastEta (n absInt : Nat) : Nat :=
  let last := (absInt + 9) / 4
  let last := if 150 < last then 150 else last
  if last < n + 2 then n + 2 else last

/-- `for (j = 0; j < last; ++j) w0 *= 2 * j + 1` — calculateEta.h:15-17. -/
def oddProduct : Nat → K
  | 0 => CCmp.lit 1
  | j + 1 => oddProduct j * CCmp.lit ((2 * j + 1 : Nat) : ℚ)

/-- `for (q2 = 2; …; q2 += 2) { f *= Z / (q2 * (q2 + c)); acc += f; }`: `k` rounds, starting with the
given value of `q2`; `c` is `2 * last_eta ∓ 1` — calculateEta.h:23-26, 34-37. -/
def seriesLoop (Z : K) (c : Nat) : (k : Nat) → (q2 : Nat) → (f acc : K) → K
  | 0, _, _, acc => acc
  | k + 1, q2, f, acc =>
    let f := f * (Z / CCmp.lit ((q2 * (q2 + c) : Nat) : ℚ))
    seriesLoop Z c k (q2 + 2) f (acc + f)

/-- `for (i = last - 1; i >= 0; --i)`, the downward recurrence — calculateEta.h:41-47; `k` is the number
of rounds left (`i = k - 1` in the next one). `eta` is the output array. -/
def downLoop (n : Nat) (Z : K) : (k : Nat) → (cur next : K) → (eta : Nat → K) → Nat → K
  | 0, _, _, eta => eta
  | i + 1, cur, next, eta =>
    let new := CCmp.lit ((2 * i + 1 : Nat) : ℚ) * cur + Z * next
    downLoop n Z i new cur (if i < n then Function.update eta i new else eta)

/-- `for (i = 2; i < n; ++i)`, the upward recurrence — calculateEta.h:63-65; `k` rounds, starting with
`i`. -/
def upLoop (Z : K) : (k : Nat) → (i : Nat) → (eta : Nat → K) → Nat → K
  | 0, _, eta => eta
  | k + 1, i, eta =>
    upLoop Z k (i + 1)
      (Function.update eta i ((eta (i - 2) - CCmp.lit ((2 * i - 3 : Nat) : ℚ) * eta (i - 1)) / Z))

/-- `calculateEta<Scalar, n>(Z)` — calculateEta.h:7-69. The result is an array of `n` values, here a
function of the index of which the entries below `n` are meaningful. `junk` is the content of the
uninitialised array the function starts from (calculateEta.h:9). The loops `q2 = 2, 4, …, 58` have 29
rounds. The function is only used with `n ≥ 2` (9 and 10 in `matslise`, 2 and `MATSCS_ETA` in `matscs`), which the
assignments to `eta[0]`, `eta[1]` require. -/
def calculateEta (F : Elem K) (n : Nat) (junk : Nat → K) (Z : K) : Nat → K :=
  if CCmp.lt (absK Z) (CCmp.lit 100) then
    let last := lastEta n (F.absInt Z)
    let w0 : K := CCmp.lit 1 / oddProduct last
    let cur := seriesLoop Z (2 * last - 1) 29 2 w0 w0
    let w1 := w0 / CCmp.lit ((2 * last + 1 : Nat) : ℚ)
    let next := seriesLoop Z (2 * last + 1) 29 2 w1 w1
    downLoop n Z last cur next junk
  else
    let eta :=
      if CCmp.lt 0 Z then
        let sZ := F.sqrt Z
        Function.update (Function.update junk 0 (F.cosh sZ)) 1 (F.sinh sZ / sZ)
      else
        let sZ := F.sqrt (-Z)
        Function.update (Function.update junk 0 (F.cos sZ)) 1 (F.sin sZ / sZ)
    upLoop Z (n - 2) 2 eta

end ops
end Verif.Eta
