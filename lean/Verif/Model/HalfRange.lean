import Verif.Basic.Outcome
import Verif.Basic.Scalar
import Verif.Model.YT

/-!
# Model of half-range problems
`matslise/matslise/halfrange.cpp`, the overloads of `AbstractMatslise` (`matslise/matslise.h:31-116`)
and `matslise/matslise/abstract_matslise.cpp`.

The full problem on `[0, xmax]` (`ms`) is an oracle: an arbitrary `Inner`.
-/
namespace Verif.HalfRange
open YT

/-- `AbstractMatslise::Eigenfunction`: the scalar and the array overload — matslise.h:46-55. A value is
the pair (y, y'). -/
structure EigFun (K : Type) where
  scalar : K → Outcome (K × K)
  array : List K → Outcome (List (K × K))

/-- The operations of the underlying `Matslise` object that `MatsliseHalf` uses — matslise.h:140-197. -/
structure Inner (K : Type) where
  matchingError : K → Y K → Y K → Outcome K
  eigenvalueError : K → Y K → Y K → Outcome K
  eigenvaluesByIndex : Int → Int → Y K → Y K → Outcome (List (Int × K))
  eigenvalues : K → K → Y K → Y K → Outcome (List (Int × K))
  eigenfunction : K → Y K → Y K → Outcome (EigFun K)

section ops
variable {K : Type} [Add K] [Sub K] [Mul K] [Neg K] [Zero K] [One K] [CCmp K]

/-- `abs` -/
def absK (x : K) : K := if CCmp.lt x 0 then -x else x

/-- `isEven` — halfrange.cpp:21-29 (`%` truncates). -/
def isEven (ms : Inner K) (E : K) (side : Y K) (index : Int) : Outcome Bool :=
  if index = -1 then do
    let error0 ← ms.matchingError E Y.neumann side
    let error1 ← ms.matchingError E Y.dirichlet side
    pure (CCmp.lt (absK error0) (absK error1))
  else pure (decide (index.tmod 2 = 0))

/-- `getY0` — halfrange.cpp:31-34. -/
def getY0 (even : Bool) : Y K := if even then Y.neumann else Y.dirichlet

/-! ### `EigenfunctionHalf` — halfrange.cpp:37-90. `s` is `sqrt(.5)`. -/

/-- The scalar overload — halfrange.cpp:47-53. -/
def evalScalar (s : K) (even : Bool) (f : EigFun K) (x : K) : Outcome (K × K) := do
  let c ← f.scalar (if CCmp.lt x 0 then -x else x)
  let c : K × K := (c.1 * s, c.2 * s)
  if CCmp.lt x 0 && !even then pure (c.1 * -1, c.2 * -1) else pure c

/-- `for i in 1..n: if (x[i-1] > x[i])` some element is smaller than its predecessor —
halfrange.cpp:58-60. -/
def unsorted : List K → Bool
  | x :: y :: l => CCmp.lt y x || unsorted (y :: l)
  | _ => false

/-- `negatives`: one more than the last index with `x[i] < 0`, or 0 — halfrange.cpp:62-65 (`i` is the
running index, `acc` the current value). -/
def negativesFrom : (i acc : Nat) → List K → Nat
  | _, acc, [] => acc
  | i, acc, x :: l => negativesFrom (i + 1) (if CCmp.lt x 0 then i + 1 else acc) l

def negatives (xs : List K) : Nat := negativesFrom 0 0 xs

/-- The row `ys.row(j)` after the two assignment loops — halfrange.cpp:81-87. Row `negatives-1-i`
comes from `yNeg.row(i)`, row `i >= negatives` from `yPos.row(i - negatives)`; rows are disjoint, so
the order of the loops does not matter. -/
def row (s : K) (even : Bool) (neg : Nat) (yNeg yPos : List (K × K)) (j : Nat) : Outcome (K × K) :=
  if j < neg then do
    let r ← Outcome.get yNeg (neg - 1 - j)
    let f : K := (if even then 1 else -1) * s
    pure (r.1 * f, r.2 * f * -1)
  else do
    let r ← Outcome.get yPos (j - neg)
    pure (r.1 * s, r.2 * s)

/-- The array overload — halfrange.cpp:55-90. -/
def evalArray (s : K) (even : Bool) (f : EigFun K) (xs : List K) : Outcome (List (K × K)) :=
  if unsorted xs then .throws "Matslise::computeEigenfunction(): x has to be sorted"
  else do
    let neg := negatives xs
    let xNeg := ((xs.take neg).reverse).map (fun x => -x)
    let xPos := xs.drop neg
    let yNeg ← f.array xNeg
    let yPos ← f.array xPos
    Outcome.mapList (row s even neg yNeg yPos) (List.range xs.length)

/-- `EigenfunctionHalf` — halfrange.cpp:37-90. -/
def eigFunHalf (s : K) (even : Bool) (f : EigFun K) : EigFun K :=
  ⟨evalScalar s even f, evalArray s even f⟩

/-- `MatsliseHalf::eigenfunction(E, side, index)` — halfrange.cpp:92-97. -/
def eigenfunction (s : K) (ms : Inner K) (E : K) (side : Y K) (index : Int) : Outcome (EigFun K) := do
  let even ← isEven ms E side index
  let f ← ms.eigenfunction E (getY0 even) side
  pure (eigFunHalf s even f)

/-- `mergeEigenvalues` — halfrange.cpp:99-117. -/
def merge : (even odd : List (Int × K)) → List (Int × K)
  | [], [] => []
  | [], b :: bs => (2 * b.1 + 1, b.2) :: merge [] bs
  | a :: as, [] => (2 * a.1, a.2) :: merge as []
  | a :: as, b :: bs =>
    if b.1 < a.1 then (2 * b.1 + 1, b.2) :: merge (a :: as) bs
    else (2 * a.1, a.2) :: merge as (b :: bs)

/-- `MatsliseHalf::eigenvalueError(E, side, index)` — halfrange.cpp:119-122. -/
def eigenvalueError (ms : Inner K) (E : K) (side : Y K) (index : Int) : Outcome K := do
  let even ← isEven ms E side index
  ms.eigenvalueError E (getY0 even) side

/-- `MatsliseHalf::eigenvaluesByIndex(Imin, Imax, side)` — halfrange.cpp:124-130. (C++ leaves the order
of the two calls open; the model evaluates the even one first.) -/
def eigenvaluesByIndex (ms : Inner K) (Imin Imax : Int) (side : Y K) : Outcome (List (Int × K)) := do
  let e ← ms.eigenvaluesByIndex (Imin.tdiv 2 + Imin.tmod 2) (Imax.tdiv 2 + Imax.tmod 2) Y.neumann side
  let o ← ms.eigenvaluesByIndex (Imin.tdiv 2) (Imax.tdiv 2) Y.dirichlet side
  pure (merge e o)

/-- `MatsliseHalf::eigenvalues(Emin, Emax, side)` — halfrange.cpp:132-138. -/
def eigenvalues (ms : Inner K) (Emin Emax : K) (side : Y K) : Outcome (List (Int × K)) := do
  let e ← ms.eigenvalues Emin Emax Y.neumann side
  let o ← ms.eigenvalues Emin Emax Y.dirichlet side
  pure (merge e o)

/-! ### The two-sided overloads of `AbstractMatslise` — matslise.h:34-116 -/

/-- `left != right` compares all four entries — y.h:109-115. -/
def yEq (u v : Y K) : Bool := CCmp.eq u.y v.y && CCmp.eq u.dy v.dy && CCmp.eq u.yE v.yE && CCmp.eq u.dyE v.dyE

/-- `checkSymmetry` — matslise.h:34-37. -/
def checkSymmetry (left right : Y K) : Outcome Unit :=
  if yEq left right then .ok ()
  else .throws "Halfrange::checkSymmetry(), left and right sides have to be identical"

/-- Two-sided `eigenvalues` — matslise.h:61-67. -/
def eigenvalues₂ (ms : Inner K) (Emin Emax : K) (left right : Y K) : Outcome (List (Int × K)) := do
  checkSymmetry left right
  eigenvalues ms Emin Emax right
/-- Two-sided `eigenvaluesByIndex` — matslise.h:74-79. -/
def eigenvaluesByIndex₂ (ms : Inner K) (Imin Imax : Int) (left right : Y K) :
    Outcome (List (Int × K)) := do
  checkSymmetry left right
  eigenvaluesByIndex ms Imin Imax right
/-- Two-sided `eigenvalueError` — matslise.h:95-100. -/
def eigenvalueError₂ (ms : Inner K) (E : K) (left right : Y K) (index : Int) : Outcome K := do
  checkSymmetry left right
  eigenvalueError ms E right index
/-- Two-sided `eigenfunction` — matslise.h:106-111. -/
def eigenfunction₂ (s : K) (ms : Inner K) (E : K) (left right : Y K) (index : Int) :
    Outcome (EigFun K) := do
  checkSymmetry left right
  eigenfunction s ms E right index

end ops

/-! ### Eigenpairs — abstract_matslise.cpp:8-18, for every kind of problem -/

/-- The operations `eigenpairsByIndex` needs; `Fn` is the type of eigenfunction objects. -/
structure Problem (K Fn : Type) where
  eigenvaluesByIndex : Int → Int → Y K → Y K → Outcome (List (Int × K))
  eigenfunction : K → Y K → Y K → Int → Outcome Fn

/-- `AbstractMatslise::eigenpairsByIndex(Imin, Imax, left, right)` — abstract_matslise.cpp:10-18. -/
def eigenpairsByIndex {K Fn : Type} (p : Problem K Fn) (Imin Imax : Int) (left right : Y K) :
    Outcome (List (Int × K × Fn)) := do
  let ev ← p.eigenvaluesByIndex Imin Imax left right
  Outcome.mapList (fun v : Int × K => (p.eigenfunction v.2 left right v.1).map (fun f => (v.1, v.2, f))) ev

end Verif.HalfRange
