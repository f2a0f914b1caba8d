import Verif.Model.Search
import Verif.Model.HalfRange
import Verif.Model.Periodic

/-!
# The index arithmetic of the searches with `int` of the machine
`matslise/matslise/matslise.cpp:90-141`, `matslise/matslise/halfrange.cpp:99-138`, `matslise/matslise/periodic.cpp:105-208`

The models of the searches compute with unbounded integers. Here are the same functions with the arithmetic of `int`: 32 bits, and undefined behaviour when a sum, difference or product is not representable.
Every `int` expression of the code that can overflow is checked with `chk` where the code evaluates it; comparisons, and conversions of an `int` to `Scalar`, cannot overflow.
-/
namespace Verif.MInt
open Verif.Search

/-- The values of `int`. -/
def IsInt (i : Int) : Prop := -2147483648 ≤ i ∧ i ≤ 2147483647
instance (i : Int) : Decidable (IsInt i) := by unfold IsInt; infer_instance

/-- The result of an `int` operation: undefined when it overflows. -/
def chk (i : Int) : Outcome Int := if IsInt i then .ok i else .ub "signed integer overflow"

section search
variable {K : Type} [Add K] [Sub K] [Mul K] [Div K] [Neg K] [Zero K] [CCmp K] [CInt K]

/-- The conversions `(int) ceil(x)`, … give values of `int`, and are undefined for others. -/
def IntConversions (K : Type) [CInt K] : Prop :=
  ∀ (x : K) (i : Int), (CInt.ceil x = some i ∨ CInt.floor x = some i ∨ CInt.round x = some i) → IsInt i

/-- One loop iteration with machine integers — matslise.cpp:108-136: `ia + 1` is computed for the trial point (line 115) and again at line 124, `1 + depth` at lines 125, 126, 131, 133. -/
def stepItem (θ : K → K) (Imin Imax : Int) (q : Item K) : Outcome (Action K) := do
  let ia ← toInt (CInt.ceil q.ta)
  let ib ← toInt (CInt.ceil q.tb)
  if CCmp.le q.tb q.ta || ia == ib || decide (ib ≤ Imin) || decide (Imax ≤ ia) then
    pure .skip
  else
    let _ ← chk (ia + 1)
    let c := trial q ia ib
    if (CCmp.lt (q.tb - q.ta) (CCmp.lit (1 / 100)) && decide (q.depth > 3)) || decide (q.depth > 30) then
      pure (.cand ⟨q, ia, c⟩ none)
    else
      let tc := θ c
      if isNaN tc then pure (.drop c)
      else
        let ia1 ← chk (ia + 1)
        if ia1 < ib then
          let d1 ← chk (1 + q.depth)
          let d2 ← chk (1 + q.depth)
          pure (.push [⟨q.a, q.ta, c, tc, d1.toNat⟩, ⟨c, tc, q.b, q.tb, d2.toNat⟩] c)
        else if CCmp.lt (absK (tc - CCmp.lit ia)) (CCmp.lit (1 / 100000000)) then
          pure (.cand ⟨q, ia, c⟩ (some c))
        else if CCmp.lt ((q.ta - CCmp.lit ia) * (tc - CCmp.lit ia)) 0 then
          let d ← chk (q.depth + 1)
          pure (.push [⟨q.a, q.ta, c, tc, d.toNat⟩] c)
        else
          let d ← chk (q.depth + 1)
          pure (.push [⟨c, tc, q.b, q.tb, d.toNat⟩] c)

/-- The loop with machine integers — matslise.cpp:106-137. -/
def searchLoop (θ : K → K) (nw : K → Outcome (Int × K)) (Imin Imax : Int) :
    (fuel : Nat) → List (Item K) → Found K → Outcome (Found K)
  | _, [], acc => .ok acc
  | 0, _ :: _, _ => .timeout
  | fuel + 1, q :: qs, acc => do
    let r ← stepItem θ Imin Imax q
    match r with
    | .skip => searchLoop θ nw Imin Imax fuel qs acc
    | .push items e => searchLoop θ nw Imin Imax fuel (qs ++ items) {acc with evals := acc.evals ++ [e]}
    | .drop e => searchLoop θ nw Imin Imax fuel qs {acc with evals := acc.evals ++ [e]}
    | .cand c e => do
      let v ← nw c.c
      searchLoop θ nw Imin Imax fuel qs
        ⟨acc.eigs ++ [v], acc.cands ++ [c], acc.evals ++ e.toList⟩

/-- `computeEigenvaluesHelper` with machine integers — matslise.cpp:90-141. -/
def helper (θ : K → K) (nw : K → Outcome (Int × K)) (Emin Emax : K) (Imin Imax : Int) (fuel : Nat) :
    Outcome (List (Int × K) × Found K) :=
  if Imin < 0 then .throws "Matslise::computeEigenvalues(): Imin has to be at least 0"
  else if Imax < Imin then .throws "Matslise::computeEigenvalues(): Imax can't be less then Imin"
  else do
    let f ← searchLoop θ nw Imin Imax fuel [⟨Emin, θ Emin, Emax, θ Emax, 0⟩] ⟨[], [], [Emin, Emax]⟩
    pure (sortE f.eigs, f)

/-- `eigenvalues(Emin, Emax, …)` with machine integers — matslise.cpp:177-183. -/
def eigenvalues (θ : K → K) (nw : K → Outcome (Int × K)) (Emin Emax : K) (fuel : Nat) :
    Outcome (List (Int × K) × Found K) := helper θ nw Emin Emax 0 intMax fuel

/-- `eigenvaluesByIndex(Imin, Imax, …)` with machine integers — matslise.cpp:144-175 (the loops for the window do no integer arithmetic). -/
def eigenvaluesByIndex (θ : K → K) (nw : K → Outcome (Int × K)) (Imin Imax : Int) (fuel : Nat) :
    Outcome (List (Int × K) × Found K) := do
  let w ← window θ Imin Imax fuel
  helper θ nw w.1 w.2 Imin Imax fuel

end search

section half
variable {K : Type} [Add K] [Sub K] [Mul K] [Neg K] [Zero K] [One K] [CCmp K]

/-- `mergeEigenvalues` with machine integers — halfrange.cpp:99-117: `2 * b->first + 1` at line 108, `2 * a->first` at line 111. -/
def merge : (even odd : List (Int × K)) → Outcome (List (Int × K))
  | [], [] => .ok []
  | [], b :: bs => do
    let t ← chk (2 * b.1)
    let i ← chk (t + 1)
    let r ← merge [] bs
    pure ((i, b.2) :: r)
  | a :: as, [] => do
    let i ← chk (2 * a.1)
    let r ← merge as []
    pure ((i, a.2) :: r)
  | a :: as, b :: bs =>
    if b.1 < a.1 then do
      let t ← chk (2 * b.1)
      let i ← chk (t + 1)
      let r ← merge (a :: as) bs
      pure ((i, b.2) :: r)
    else do
      let i ← chk (2 * a.1)
      let r ← merge as (b :: bs)
      pure ((i, a.2) :: r)

/-- `MatsliseHalf::eigenvaluesByIndex` with machine integers — halfrange.cpp:124-130. -/
def halfByIndex (ms : HalfRange.Inner K) (Imin Imax : Int) (side : YT.Y K) : Outcome (List (Int × K)) := do
  let i ← chk (Imin.tdiv 2 + Imin.tmod 2)
  let j ← chk (Imax.tdiv 2 + Imax.tmod 2)
  let e ← ms.eigenvaluesByIndex i j YT.Y.neumann side
  let o ← ms.eigenvaluesByIndex (Imin.tdiv 2) (Imax.tdiv 2) YT.Y.dirichlet side
  merge e o

/-- `MatsliseHalf::eigenvalues` with machine integers — halfrange.cpp:132-138. -/
def halfEigenvalues (ms : HalfRange.Inner K) (Emin Emax : K) (side : YT.Y K) : Outcome (List (Int × K)) := do
  let e ← ms.eigenvalues Emin Emax YT.Y.neumann side
  let o ← ms.eigenvalues Emin Emax YT.Y.dirichlet side
  merge e o

end half

section periodic
open Verif.Periodic
variable {K : Type} [Add K] [Sub K] [Mul K] [Div K] [Neg K] [Zero K] [One K] [CCmp K]

/-- `addToResult` with machine integers — periodic.cpp:110-133: `i + 1` at line 112 for a double eigenvalue. -/
def addToResult {P : Type} (r : Range K) (mk : K → Bool → P) (res : List (Int × K × P)) (i : Int) (E : K) (isDouble : Bool) : Outcome (List (Int × K × P)) :=
  if isDouble then do
    let _ ← chk (i + 1)
    pure (Periodic.add r mk res i E isDouble)
  else pure (Periodic.add r mk res i E isDouble)

/-- The loop with machine integers — periodic.cpp:170-182: `iMax + 1` in the condition, `i - 1` at lines 177, 179, `i += 2`. -/
def mainLoop {P : Type} (o : Oracle K) (r : Range K) (mk : K → Bool → P) (eps highest : K) (n : Nat) :
    (fuel : Nat) → (i : Int) → (low : K) → List (Int × K × P) → Outcome (List (Int × K × P))
  | fuel, i, low, res => do
    let top ← chk (r.iMax + 1)
    if i ≤ top then
      match fuel with
      | 0 => .timeout
      | fuel + 1 => do
        let low ← expandDown (o.findLow i) n (CCmp.lit 1) low
        let low ← bisect' (o.findLow i) eps n low highest
        let high ← bisect' (o.findHigh i) eps n low highest
        let p ← eigenvaluePair o.det o.ddet eps n low high
        let i1 ← chk (i - 1)
        let res ← if CCmp.lt (p.2 - p.1) eps then addToResult r mk res i1 ((p.1 + p.2) / CCmp.lit 2) true
          else do
            let res ← addToResult r mk res i1 p.1 false
            addToResult r mk res i p.2 false
        let i2 ← chk (i + 2)
        mainLoop o r mk eps highest n fuel i2 low res
    else .ok res

/-- The start index with machine integers — periodic.cpp:151-155. -/
def startIndex (anti : Bool) (iMin : Int) : Outcome Int := do
  let i ← chk (iMin - iMin.tmod 2)
  if anti then chk (i + 1) else pure i

/-- `eigenpairsHelper(ms, eMin, eMax, iMin, iMax, eps)` with machine integers — periodic.cpp:105-184. -/
def periodicHelper {P : Type} (o : Oracle K) (r : Range K) (mk : K → Bool → P) (eps : K) (n : Nat) :
    Outcome (List (Int × K × P)) := do
  let top ← chk (r.iMax + 1)
  let highest ← expandUp (o.findHigh top) n (CCmp.lit 1) r.eMax
  let i ← startIndex o.anti r.iMin
  if i = 0 then
    let st ← lowest o r mk eps highest n
    let i2 ← chk (i + 2)
    mainLoop o r mk eps highest n n i2 st.1 st.2
  else mainLoop o r mk eps highest n n i r.eMin []

/-- `eigenpairsByIndexHelper` with machine integers — periodic.cpp:195-208: `iMin - 2`, `iMax + 2`. -/
def periodicByIndex {P : Type} (o : Oracle K) (mk : K → Bool → P) (iMin iMax : Int) (n : Nat) :
    Outcome (List (Int × K × P)) := do
  let a ← chk (iMin - 2)
  let eMin ← doubleWhile (fun E => !CCmp.lt (CCmp.lit (max a 0 : Int)) (o.minTheta E)) n (CCmp.lit (-1))
  let b ← chk (iMax + 2)
  let eMax ← doubleWhile (fun E => !CCmp.lt (o.maxTheta E) (CCmp.lit (b : Int))) n (CCmp.lit 1)
  periodicHelper o ⟨eMin, eMax, iMin, iMax⟩ mk (CCmp.lit (1 / 100000000)) n

/-- `eigenpairsHelper(ms, eMin, eMax)` with machine integers — periodic.cpp:186-193: `- 1`, `+ 1` after the conversions. -/
def periodicByEnergy {P : Type} (trunc : K → Option Int) (o : Oracle K) (mk : K → Bool → P) (eMin eMax : K) (n : Nat) :
    Outcome (List (Int × K × P)) :=
  match trunc (o.minTheta eMin) with
  | some a => do
    let a ← chk (a - 1)
    match trunc (o.maxTheta eMax) with
    | some b => do
      let b ← chk (b + 1)
      periodicHelper o ⟨eMin, eMax, a, b⟩ mk (CCmp.lit (1 / 100000000)) n
    | none => .ub "conversion to int"
  | none => .ub "conversion to int"

end periodic
end Verif.MInt
