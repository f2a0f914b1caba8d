import Verif.Model.Propagate

/-!
# Model of periodic problems
`matslise/matslise/periodic.cpp`

The two-column value `Y<Scalar, 1, 2>` is a pair of columns (every operation acts column by column).
-/
namespace Verif.Periodic
open Verif.YT Verif.Propag

section ops
variable {K : Type} [Add K] [Sub K] [Mul K] [Div K] [Neg K] [Zero K] [One K] [CCmp K]

/-- `periodicInitialValue(K)`: the columns of `K * [[1, 1], [1, -1]]`, zero E-derivative —
periodic.cpp:9-16. -/
def initialValue (k : M2 K) : Y K × Y K :=
  (⟨k.a * 1 + k.b * 1, k.c * 1 + k.d * 1, 0, 0⟩, ⟨k.a * 1 + k.b * (-1), k.c * 1 + k.d * (-1), 0, 0⟩)

/-- The identity, default argument of `periodicInitialValue`. -/
def idM : M2 K := ⟨1, 0, 0, 1⟩

/-- entrywise difference — periodic.cpp:34-35. -/
def ySub (u v : Y K) : Y K := ⟨u.y - v.y, u.dy - v.dy, u.yE - v.yE, u.dyE - v.dyE⟩

/-- `PeriodicMatslise::matchingError` — periodic.cpp:26-41: the two error columns and the two angles
(in units of π). -/
def matchingError (P : Prob K) (k : M2 K) (pi E : K) (useH : Bool := true) :
    Outcome ((Y K × Y K) × (K × K)) :=
  match P.secs[P.matchIndex]? with
  | none => .ub "sectors[matchIndex] out of range"
  | some m => do
    let l := initialValue (idM : M2 K)
    let r := initialValue k
    let l0 ← P.propagate pi E l.1 P.dmin m.max useH
    let l1 ← P.propagate pi E l.2 P.dmin m.max useH
    let r0 ← P.propagate pi E r.1 P.dmax m.max useH
    let r1 ← P.propagate pi E r.2 P.dmax m.max useH
    pure ((ySub l0.1 r0.1, ySub l1.1 r1.1), ((l0.2 - r0.2) / pi, (l1.2 - r1.2) / pi))

/-- `calculateMatchingError` — periodic.cpp:43-50: the determinant of the error matrix and its
derivative. `err(0,j)`/`err(1,j)` are `y`/`dy` of column `j`. -/
def determinant (e : Y K × Y K) : K × K :=
  (e.1.y * e.2.dy - e.2.y * e.1.dy,
   e.1.yE * e.2.dy + e.1.y * e.2.dyE - e.2.yE * e.1.dy - e.2.y * e.1.dyE)

/-- `same_sign` — periodic.cpp:52-55. -/
def sameSign (a b : K) : Bool := (CCmp.lt a 0 && CCmp.lt b 0) || (CCmp.lt 0 a && CCmp.lt 0 b)

/-- `abs` -/
def absK (x : K) : K := if CCmp.lt x 0 then -x else x

/-- The width at which the bisection stops — periodic.cpp:60. -/
def threshold (eps eMin : K) : K := if CCmp.lt (absK eMin) (CCmp.lit 1) then eps else eps * absK eMin

/-- `binarySearch(eMin, eMax, f, eps, fMin)` — periodic.cpp:57-71. -/
def bisect (f : K → K) (eps : K) : (fuel : Nat) → (eMin eMax fMin : K) → Outcome K
  | fuel, eMin, eMax, fMin =>
    if CCmp.lt (threshold eps eMin) (eMax - eMin) then
      match fuel with
      | 0 => .timeout
      | fuel + 1 =>
        let mid := (eMin + eMax) / CCmp.lit 2
        let fMid := f mid
        if sameSign fMin fMid then bisect f eps fuel mid eMax fMid
        else bisect f eps fuel eMin mid fMin
    else .ok ((eMin + eMax) / CCmp.lit 2)

/-- `binarySearch(eMin, eMax, f, eps)` — periodic.cpp:73-76. -/
def bisect' (f : K → K) (eps : K) (fuel : Nat) (eMin eMax : K) : Outcome K :=
  bisect f eps fuel eMin eMax (f eMin)

/-- `eigenvaluePair` — periodic.cpp:78-98. `det`/`ddet` are the two results of
`calculateMatchingError(matchingError(E).first)`. (The diagnostic message is not modelled.) -/
def eigenvaluePair (det ddet : K → K) (eps : K) (fuel : Nat) (Emin Emax : K) : Outcome (K × K) := do
  let h := CCmp.lit (1 / 100) * (Emax - Emin)
  let minError := det Emin
  let fMin := (det (Emin + h) - minError) / h
  let mid ← bisect ddet eps fuel Emin Emax fMin
  let midError := det mid
  if sameSign minError midError then pure (mid, mid)
  else
    let p ← bisect det eps fuel Emin mid minError
    let q ← bisect det eps fuel mid Emax midError
    pure (p, q)

/-- What the search needs of a periodic problem: `theta E` = `matchingError(E).second`, `det`, `ddet`,
and the corner test on `K` that tells (anti)periodic problems apart (periodic.cpp:150). -/
structure Oracle (K : Type) where
  theta : K → K × K
  det : K → K
  ddet : K → K
  anti : Bool

/-- `K(0,1) > 0 || (K(0,1) == 0 && K(0,0) < 0)` — periodic.cpp:150. -/
def isAnti (k : M2 K) : Bool := CCmp.lt 0 k.b || (CCmp.eq k.b 0 && CCmp.lt k.a 0)

/-- `minCoeff` / `maxCoeff` of the two angles. -/
def Oracle.minTheta (o : Oracle K) (E : K) : K := stdMin (o.theta E).1 (o.theta E).2
def Oracle.maxTheta (o : Oracle K) (E : K) : K := stdMax (o.theta E).1 (o.theta E).2

/-- `findLow(i)` — periodic.cpp:135-139. -/
def Oracle.findLow (o : Oracle K) (i : Int) (E : K) : K := o.minTheta E - CCmp.lit i + CCmp.lit 1
/-- `findHigh(i)` — periodic.cpp:140-144. -/
def Oracle.findHigh (o : Oracle K) (i : Int) (E : K) : K := o.maxTheta E - CCmp.lit i - CCmp.lit 1

/-- `for (step = 1; g(x) < 0; step *= 2) x += step` — periodic.cpp:146-148. -/
def expandUp (g : K → K) : (fuel : Nat) → (step x : K) → Outcome K
  | fuel, step, x =>
    if CCmp.lt (g x) 0 then
      match fuel with
      | 0 => .timeout
      | fuel + 1 => expandUp g fuel (step * CCmp.lit 2) (x + step)
    else .ok x

/-- `for (step = 1; g(x) > 0; step *= 2) x -= step` — periodic.cpp:158-159, 170-171. -/
def expandDown (g : K → K) : (fuel : Nat) → (step x : K) → Outcome K
  | fuel, step, x =>
    if CCmp.lt 0 (g x) then
      match fuel with
      | 0 => .timeout
      | fuel + 1 => expandDown g fuel (step * CCmp.lit 2) (x - step)
    else .ok x

/-- The requested range. -/
structure Range (K : Type) where
  eMin : K
  eMax : K
  iMin : Int
  iMax : Int

/-- The test at the top of `addToResult`: the entry is discarded — periodic.cpp:111. -/
def Range.rejects (r : Range K) (i : Int) (E : K) (isDouble : Bool) : Bool :=
  (if isDouble then decide (i + 1 < r.iMin) else decide (i < r.iMin)) || decide (r.iMax ≤ i) ||
    CCmp.lt E r.eMin || CCmp.le r.eMax E

/-- `addToResult` — periodic.cpp:110-133. The third component of an entry is `mk E isDouble`: the
multiplicity for `eigenvalues…`, the eigenfunctions for `eigenpairs…`. -/
def add {P : Type} (r : Range K) (mk : K → Bool → P) (res : List (Int × K × P)) (i : Int) (E : K)
    (isDouble : Bool) : List (Int × K × P) :=
  if r.rejects i E isDouble then res else res ++ [(i, E, mk E isDouble)]

/-- `for (; i <= iMax + 1; i += 2)` — periodic.cpp:169-182. `n` bounds every inner loop. -/
def mainLoop {P : Type} (o : Oracle K) (r : Range K) (mk : K → Bool → P) (eps highest : K) (n : Nat) :
    (fuel : Nat) → (i : Int) → (low : K) → List (Int × K × P) → Outcome (List (Int × K × P))
  | fuel, i, low, res =>
    if i ≤ r.iMax + 1 then
      match fuel with
      | 0 => .timeout
      | fuel + 1 => do
        let low ← expandDown (o.findLow i) n (CCmp.lit 1) low
        let low ← bisect' (o.findLow i) eps n low highest
        let high ← bisect' (o.findHigh i) eps n low highest
        let p ← eigenvaluePair o.det o.ddet eps n low high
        let res := if CCmp.lt (p.2 - p.1) eps then add r mk res (i - 1) ((p.1 + p.2) / CCmp.lit 2) true
          else add r mk (add r mk res (i - 1) p.1 false) i p.2 false
        mainLoop o r mk eps highest n fuel (i + 2) low res
    else .ok res

/-- The start index — periodic.cpp:149-153 (`%` truncates). -/
def startIndex (anti : Bool) (iMin : Int) : Int := iMin - iMin.tmod 2 + (if anti then 1 else 0)

/-- The block for the lowest periodic eigenvalue — periodic.cpp:155-167. -/
def lowest {P : Type} (o : Oracle K) (r : Range K) (mk : K → Bool → P) (eps highest : K) (n : Nat) :
    Outcome (K × List (Int × K × P)) := do
  let low ← expandDown (o.findHigh 0) n (CCmp.lit 1) r.eMin
  let high ← bisect' (o.findHigh 0) eps n low highest
  let E ← bisect' o.det eps n low high
  pure (low, add r mk [] 0 E false)

/-- `eigenpairsHelper(ms, eMin, eMax, iMin, iMax, eps)` — periodic.cpp:105-184. -/
def helper {P : Type} (o : Oracle K) (r : Range K) (mk : K → Bool → P) (eps : K) (n : Nat) :
    Outcome (List (Int × K × P)) := do
  let highest ← expandUp (o.findHigh (r.iMax + 1)) n (CCmp.lit 1) r.eMax
  let i := startIndex o.anti r.iMin
  if i = 0 then
    let st ← lowest o r mk eps highest n
    mainLoop o r mk eps highest n n (i + 2) st.1 st.2
  else mainLoop o r mk eps highest n n i r.eMin []

/-- Multiplicity, the third component for `eigenvalues…` — periodic.cpp:131. -/
def multiplicity (_ : K) (isDouble : Bool) : Int := if isDouble then 2 else 1

/-- `eigenvaluesByIndex`, `eigenpairsByIndex`: the two loops for the energy window —
periodic.cpp:198-205. -/
def doubleWhile (stop : K → Bool) : (fuel : Nat) → K → Outcome K
  | fuel, x =>
    if stop x then .ok x
    else
      match fuel with
      | 0 => .timeout
      | fuel + 1 => doubleWhile stop fuel (x * CCmp.lit 2)

/-- `eigenpairsByIndexHelper` — periodic.cpp:195-208. -/
def byIndex {P : Type} (o : Oracle K) (mk : K → Bool → P) (iMin iMax : Int) (n : Nat) :
    Outcome (List (Int × K × P)) := do
  let eMin ← doubleWhile (fun E => !CCmp.lt (CCmp.lit (max (iMin - 2) 0 : Int)) (o.minTheta E)) n (CCmp.lit (-1))
  let eMax ← doubleWhile (fun E => !CCmp.lt (o.maxTheta E) (CCmp.lit (iMax + 2 : Int))) n (CCmp.lit 1)
  helper o ⟨eMin, eMax, iMin, iMax⟩ mk (CCmp.lit (1 / 100000000)) n

/-- `eigenpairsHelper(ms, eMin, eMax)`, by energy — periodic.cpp:186-193; `trunc` is the conversion
`(int)`, `none` where it is undefined. -/
def byEnergy {P : Type} (trunc : K → Option Int) (o : Oracle K) (mk : K → Bool → P) (eMin eMax : K) (n : Nat) :
    Outcome (List (Int × K × P)) :=
  match trunc (o.minTheta eMin), trunc (o.maxTheta eMax) with
  | some a, some b => helper o ⟨eMin, eMax, a - 1, b + 1⟩ mk (CCmp.lit (1 / 100000000)) n
  | _, _ => .ub "conversion to int"

/-! ### Eigenfunctions -/

/-- `Y * c` for a two-column value and a vector — y.h:126-131. -/
def combine (l : Y K × Y K) (c : K × K) : Y K :=
  ⟨l.1.y * c.1 + l.2.y * c.2, l.1.dy * c.1 + l.2.dy * c.2,
   l.1.yE * c.1 + l.2.yE * c.2, l.1.dyE * c.1 + l.2.dyE * c.2⟩

/-- The boundary values (left, right) handed to `Matslise::eigenfunction` by `addToResult` —
periodic.cpp:113-129. `kernel E` is the eigenvector of the error matrix with the smallest eigenvalue
(`EigenSolver`). -/
def pairBoundaries (k : M2 K) (kernel : K → K × K) (E : K) (isDouble : Bool) : List (Y K × Y K) :=
  let l := initialValue (idM : M2 K)
  let r := initialValue k
  if isDouble then [(l.1, r.1), (l.2, r.2)]
  else [(combine l (kernel E), combine r (kernel E))]

/-- The boundary values (left, right) that `PeriodicMatslise::eigenfunction(E)` hands to
`Matslise::eigenfunction` — periodic.cpp:233-264. `eigs` are the two (squared modulus of the eigenvalue,
real part of the eigenvector) pairs of the error matrix. -/
def eigenfunctionBoundaries (eigs : (K × (K × K)) × (K × (K × K))) : List (Y K × Y K) :=
  let b := fun e : K × (K × K) =>
    if CCmp.lt e.1 (CCmp.lit (1 / 10000)) then
      let v : Y K := ⟨e.2.1, e.2.2, 0, 0⟩
      [(v, v)]
    else []
  b eigs.1 ++ b eigs.2

end ops
end Verif.Periodic
