import Verif.Basic.Scalar
import Mathlib.Logic.Function.Basic

/-!
# Model of `matslise/util/polynomial.h` and `matslise/util/horner.h`

`Polynomial<Scalar, degree>` holds an array of `degree + 1` coefficients. The model keeps them as a
function of the index; only indices `0 … degree` are ever read (loops below are written with the same
bounds as in the code).
-/
namespace Verif.Poly

/-- `Polynomial<Scalar, degree>` — polynomial.h:8-16. -/
structure Poly (K : Type) (degree : Nat) where
  c : Nat → K

section ops
variable {K : Type} [Add K] [Sub K] [Mul K] [Div K] [Neg K] [Zero K]

/-- `Polynomial()` — polynomial.h:20-22. -/
def zero (n : Nat) : Poly K n := ⟨fun _ => 0⟩

/-- `Polynomial(const Scalar &v)` — polynomial.h:24-26. -/
def const (n : Nat) (v : K) : Poly K n := ⟨Function.update (zero n).c 0 v⟩

/-- `Polynomial(std::initializer_list)`: the listed coefficients, then zeros — polynomial.h:28-36 (at
most `degree + 1` entries by the assertion). -/
def ofList (n : Nat) (l : List K) : Poly K n := ⟨fun i => l.getD i 0⟩

/-- Conversion to a larger degree: copy the first rows, zero the rest — polynomial.h:42-48. -/
def widen {m : Nat} (n : Nat) (p : Poly K m) : Poly K n := ⟨fun i => if i < m + 1 then p.c i else 0⟩

/-- `p += q` with `q` of degree `m ≤ n`: the first `m + 1` rows — polynomial.h:50-54, 76-82. -/
def addAssign {n m : Nat} (p : Poly K n) (q : Poly K m) : Poly K n :=
  ⟨fun i => if i < m + 1 then p.c i + q.c i else p.c i⟩
/-- `p -= q` — polynomial.h:50-54, 87. -/
def subAssign {n m : Nat} (p : Poly K n) (q : Poly K m) : Poly K n :=
  ⟨fun i => if i < m + 1 then p.c i - q.c i else p.c i⟩
/-- unary minus — polynomial.h:114-116. -/
def neg {n : Nat} (p : Poly K n) : Poly K n := ⟨fun i => -p.c i⟩
/-- `p += s`: only the constant coefficient (`topRows<0 + 1>`) — polynomial.h:71-73, 98. -/
def addScalar {n : Nat} (p : Poly K n) (s : K) : Poly K n := ⟨fun i => if i < 0 + 1 then p.c i + s else p.c i⟩
/-- `p -= s` — polynomial.h:71-73, 102. -/
def subScalar {n : Nat} (p : Poly K n) (s : K) : Poly K n := ⟨fun i => if i < 0 + 1 then p.c i - s else p.c i⟩
/-- `s - p`, as `-p + s` — polynomial.h:104-106. -/
def scalarSub {n : Nat} (s : K) (p : Poly K n) : Poly K n := addScalar (neg p) s
/-- `p *= s`: all coefficients (`topRows<degree + 1>`) — polynomial.h:71-73, 108. -/
def mulScalar {n : Nat} (p : Poly K n) (s : K) : Poly K n := ⟨fun i => if i < n + 1 then p.c i * s else p.c i⟩
/-- `p /= s` — polynomial.h:71-73, 112. -/
def divScalar {n : Nat} (p : Poly K n) (s : K) : Poly K n := ⟨fun i => if i < n + 1 then p.c i / s else p.c i⟩

/-- `operator+` of two polynomials of any degrees — polynomial.h:200-209: copy the left one into the
larger degree, then `+=`. -/
def add {n m : Nat} (p : Poly K n) (q : Poly K m) : Poly K (max n m) := addAssign (widen (max n m) p) q
/-- `operator-` — polynomial.h:200-211. -/
def sub {n m : Nat} (p : Poly K n) (q : Poly K m) : Poly K (max n m) := subAssign (widen (max n m) p) q
/-- `friend operator-(left, right)` of the smaller by the larger polynomial, as `-right + left` —
polynomial.h:90-95. -/
def subRev {n m : Nat} (left : Poly K m) (right : Poly K n) : Poly K n := addAssign (neg right) left

/-- Inner loop of the product: `for j <= otherDegree: r[i + j] += a * q[j]` — polynomial.h:127-128.
`k` is the number of rounds. -/
def mulRow (a : K) (q : Nat → K) (i : Nat) : (k : Nat) → (Nat → K) → Nat → K
  | 0, r => r
  | k + 1, r =>
    let r := mulRow a q i k r
    Function.update r (i + k) (r (i + k) + a * q k)

/-- Outer loop — polynomial.h:126. -/
def mulRows (p q : Nat → K) (m : Nat) : (k : Nat) → (Nat → K) → Nat → K
  | 0, r => r
  | k + 1, r => mulRow (p k) q k (m + 1) (mulRows p q m k r)

/-- `operator*` of polynomials — polynomial.h:122-130. -/
def mul {n m : Nat} (p : Poly K n) (q : Poly K m) : Poly K (n + m) :=
  ⟨mulRows p.c q.c m (n + 1) (zero (n + m)).c⟩

/-- `for (i = k - 1; i >= 0; --i) r = r * x + f[i]` — horner.h:5-6, polynomial.h:146-147. -/
def hornerLoop (f : Nat → K) (x : K) : (k : Nat) → K → K
  | 0, r => r
  | k + 1, r => hornerLoop f x k (r * x + f k)

/-- `operator()(x)` — polynomial.h:144-149; the same loop as `horner(f, x, degree + 1)`, horner.h:2-8. -/
def eval {n : Nat} (p : Poly K n) (x : K) : K := hornerLoop p.c x n (p.c n)

/-- `for (j = i; j > i - d; --j) f *= j` — polynomial.h:157-158; `d` rounds starting with the factor
`i`. -/
def fallLoop [NatCast K] : (d : Nat) → (i : Nat) → K → K
  | 0, _, f => f
  | d + 1, i, f => fallLoop d (i - 1) (f * (i : K))

/-- `derivative<d>()` — polynomial.h:151-162. Rows `0 … degree - d` are set. -/
def derivative [NatCast K] {n : Nat} (d : Nat) (p : Poly K n) : Poly K (n - d) :=
  ⟨fun i => if i + d ≤ n then fallLoop d (i + d) (p.c (i + d)) else 0⟩

/-- `for (i = degree; i >= d; --i) r = r * x + f` — polynomial.h:168-173; `k` rounds, the last one for
`i = d`. -/
def derivLoop [NatCast K] (d : Nat) (c : Nat → K) (x : K) : (k : Nat) → K → K
  | 0, r => r
  | k + 1, r => derivLoop d c x k (r * x + fallLoop d (d + k) (c (d + k)))

/-- `derivative<d>(x)` — polynomial.h:164-175. -/
def derivativeAt [NatCast K] {n : Nat} (d : Nat) (p : Poly K n) (x : K) : K :=
  derivLoop d p.c x (n + 1 - d) 0

/-- `integral()` — polynomial.h:177-183. -/
def integral [NatCast K] {n : Nat} (p : Poly K n) : Poly K (n + 1) :=
  ⟨fun i => match i with
    | 0 => 0
    | i + 1 => if i ≤ n then p.c i / ((i + 1 : Nat) : K) else 0⟩

/-- `for (i = degree; i >= 0; --i) r = r * x + coefficients[i] / (i + 1)` — polynomial.h:187-190. -/
def intLoop [NatCast K] (c : Nat → K) (x : K) : (k : Nat) → K → K
  | 0, r => r
  | k + 1, r => intLoop c x k (r * x + c k / ((k + 1 : Nat) : K))

/-- `integral(x)` — polynomial.h:185-192. -/
def integralAt [NatCast K] {n : Nat} (p : Poly K n) (x : K) : K := intLoop p.c x (n + 1) 0 * x

end ops
end Verif.Poly
