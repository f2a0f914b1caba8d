import Verif.Basic.Outcome
import Verif.Basic.Scalar
import Mathlib.Algebra.Order.Floor.Ring
import Mathlib.Algebra.Order.Round

/-!
# Model of the eigenvalue search
`matslise/matslise/matslise.cpp:60-190`

The matching function is an oracle: `θ E` is `get<2>(matchingError(E, left, right)) / PI`, and
`me E` is the whole triple `(error, ∂error/∂E, theta)`. Nothing is assumed about them.
-/
namespace Verif.Search

/-- Conversions of a scalar to `int`; `none` is "NaN or not representable", for which the C++ cast
`(int)` is undefined behaviour. -/
class CInt (K : Type) where
  ceil : K → Option Int
  floor : K → Option Int
  round : K → Option Int

/-- Exact arithmetic (the range of `int` is not modelled). -/
instance {K : Type} [Field K] [LinearOrder K] [FloorRing K] : CInt K where
  ceil x := some ⌈x⌉
  floor x := some ⌊x⌋
  round x := some (round x)

section ops
variable {K : Type} [Add K] [Sub K] [Mul K] [Div K] [Neg K] [Zero K] [CCmp K] [CInt K]

/-- `(int) x` of an already rounded value. -/
def toInt (x : Option Int) : Outcome Int :=
  match x with
  | some i => .ok i
  | none => .ub "conversion of NaN or of a too large value to int"

/-- `std::abs`. -/
def absK (x : K) : K := if CCmp.lt x 0 then -x else x

/-- `std::isnan`. -/
def isNaN (x : K) : Bool := !CCmp.eq x x

/-! ### Newton polishing — matslise.cpp:60-79 -/

/-- The `do … while` loop: `n` is the number of iterations still allowed after the current one
(`++i < 20`). Returns the energy, the last angle and the list of energies at which the matching
function was evaluated (ghost). -/
def newtonLoop (me : K → K × K × K) (tol : K) : (n : Nat) → (E : K) → K × K × List K
  | n, E =>
    let m := me E
    let adjust := m.1 / m.2.1
    let E' := E - adjust
    match n with
    | 0 => (E', m.2.2, [E])
    | n + 1 =>
      if CCmp.lt tol (absK adjust) then
        let r := newtonLoop me tol n E'
        (r.1, r.2.1, E :: r.2.2)
      else (E', m.2.2, [E])

/-- `newtonIteration` — matslise.cpp:60-79; `me` is `matchingError(·, left, right, use_h)`. -/
def newton (me : K → K × K × K) (pi tol : K) (E : K) : Outcome (Int × K) := do
  let r := newtonLoop me tol 19 E
  let index ← toInt (CInt.round (r.2.1 / pi))
  pure (if index < 0 then 0 else index, r.1)

/-- `eigenvalueError` — matslise.cpp:185-190 (`me` with `use_h = false`). -/
def eigenvalueError (me : K → K × K × K) (pi tol : K) (E : K) : Outcome K := do
  let r ← newton me pi tol E
  pure (absK (E - r.2))

/-! ### The bisection — matslise.cpp:90-141 -/

/-- A queue entry `(a, ta, b, tb, depth)`. -/
structure Item (K : Type) where
  a : K
  ta : K
  b : K
  tb : K
  depth : Nat
deriving DecidableEq

/-- A candidate handed to Newton, with the bracket it came from and the index `ia` of the bracket
(bracket and index are ghost data for the theorems). -/
structure Cand (K : Type) where
  item : Item K
  idx : Int
  c : K
deriving DecidableEq

/-- The trial point — matslise.cpp:117-119. -/
def trial (q : Item K) (ia ib : Int) : K :=
  if ia + 1 < ib || CCmp.lt (q.tb - q.ta) (CCmp.lit (1 / 100000)) || q.depth % 2 == 0 then
    CCmp.lit (1 / 2) * (q.a + q.b)
  else
    ((q.tb - CCmp.lit ia) * q.a - (q.ta - CCmp.lit ia) * q.b) / (q.tb - q.ta)

/-- What one loop iteration does: nothing, push new entries, or hand a candidate to Newton; with the
energy at which the matching function was evaluated, if any. -/
inductive Action (K : Type) where
  | skip
  | push (items : List (Item K)) (eval : K)
  | drop (eval : K)
  | cand (c : Cand K) (eval : Option K)

/-- One loop iteration — matslise.cpp:108-136. -/
def stepItem (θ : K → K) (Imin Imax : Int) (q : Item K) : Outcome (Action K) := do
  let ia ← toInt (CInt.ceil q.ta)
  let ib ← toInt (CInt.ceil q.tb)
  if CCmp.le q.tb q.ta || ia == ib || decide (ib ≤ Imin) || decide (Imax ≤ ia) then
    pure .skip
  else
    let c := trial q ia ib
    if (CCmp.lt (q.tb - q.ta) (CCmp.lit (1 / 100)) && decide (q.depth > 3)) || decide (q.depth > 30) then
      pure (.cand ⟨q, ia, c⟩ none)
    else
      let tc := θ c
      if isNaN tc then pure (.drop c)
      else if ia + 1 < ib then
        pure (.push [⟨q.a, q.ta, c, tc, 1 + q.depth⟩, ⟨c, tc, q.b, q.tb, 1 + q.depth⟩] c)
      else if CCmp.lt (absK (tc - CCmp.lit ia)) (CCmp.lit (1 / 100000000)) then
        pure (.cand ⟨q, ia, c⟩ (some c))
      else if CCmp.lt ((q.ta - CCmp.lit ia) * (tc - CCmp.lit ia)) 0 then
        pure (.push [⟨q.a, q.ta, c, tc, q.depth + 1⟩] c)
      else
        pure (.push [⟨c, tc, q.b, q.tb, q.depth + 1⟩] c)

/-- The result of the loop: the list `eigenvalues` before sorting, the candidates it came from and
the energies at which the matching function was evaluated (the last two are ghost data). -/
structure Found (K : Type) where
  eigs : List (Int × K)
  cands : List (Cand K)
  evals : List K

/-- `while (!toCheck.empty())` — matslise.cpp:106-137; the queue is first-in first-out. -/
def searchLoop (θ : K → K) (nw : K → Outcome (Int × K)) (Imin Imax : Int) :
    (fuel : Nat) → List (Item K) → Found K → Outcome (Found K)
  | _, [], acc => .ok acc
  | 0, _ :: _, _ => .timeout
  | fuel + 1, q :: qs, acc => do
    let r ← stepItem θ Imin Imax q
    match r with
    | .skip => searchLoop θ nw Imin Imax fuel qs acc
    | .push items e => searchLoop θ nw Imin Imax fuel (qs ++ items) {acc with evals := acc.evals ++ [e]}
    | .drop e => searchLoop θ nw Imin Imax fuel qs {acc with evals := acc.evals ++ [e]}
    | .cand c e => do
      let v ← nw c.c
      searchLoop θ nw Imin Imax fuel qs
        ⟨acc.eigs ++ [v], acc.cands ++ [c], acc.evals ++ e.toList⟩

/-- `operator<` on `pair<int, Scalar>` (lexicographic), used by `std::sort`. -/
def pairLe (x y : Int × K) : Bool := !(decide (y.1 < x.1) || (y.1 == x.1 && CCmp.lt y.2 x.2))

/-- `std::sort` on the result, matslise.cpp:138, as insertion of the elements one by one (any correct
sorting algorithm gives the same list up to equivalent elements). -/
def insertE (x : Int × K) : List (Int × K) → List (Int × K)
  | [] => [x]
  | y :: ys => if pairLe x y then x :: y :: ys else y :: insertE x ys

def sortE (l : List (Int × K)) : List (Int × K) := l.foldr insertE []

/-- `computeEigenvaluesHelper` — matslise.cpp:90-141. Returns the sorted eigenvalues and the loop's
result (ghost). -/
def helper (θ : K → K) (nw : K → Outcome (Int × K)) (Emin Emax : K) (Imin Imax : Int) (fuel : Nat) :
    Outcome (List (Int × K) × Found K) :=
  if Imin < 0 then .throws "Matslise::computeEigenvalues(): Imin has to be at least 0"
  else if Imax < Imin then .throws "Matslise::computeEigenvalues(): Imax can't be less then Imin"
  else do
    let f ← searchLoop θ nw Imin Imax fuel [⟨Emin, θ Emin, Emax, θ Emax, 0⟩] ⟨[], [], [Emin, Emax]⟩
    pure (sortE f.eigs, f)

/-- `INT_MAX` -/
def intMax : Int := 2147483647

/-- `eigenvalues(Emin, Emax, …)` — matslise.cpp:177-183. -/
def eigenvalues (θ : K → K) (nw : K → Outcome (Int × K)) (Emin Emax : K) (fuel : Nat) :
    Outcome (List (Int × K) × Found K) := helper θ nw Emin Emax 0 intMax fuel

/-! ### The energy window — matslise.cpp:144-175 -/

/-- The first loop: double `Emax` until `floor(θ(Emax)/π) >= Imax`. -/
def expandMax (θ : K → K) (Imin Imax : Int) : (fuel : Nat) → K × K → Outcome (K × K)
  | fuel, (Emin, Emax) => do
    let i ← toInt (CInt.floor (θ Emax))
    if Imax ≤ i then pure (Emin, Emax)
    else
      match fuel with
      | 0 => .timeout
      | fuel + 1 =>
        expandMax θ Imin Imax fuel (if i < Imin then Emax else Emin, Emax * CCmp.lit 2)

/-- The second loop: double `Emin` until `ceil(θ(Emin)/π) <= Imin`. -/
def expandMin (θ : K → K) (Imin Imax : Int) : (fuel : Nat) → K × K → Outcome (K × K)
  | fuel, (Emin, Emax) => do
    let i ← toInt (CInt.ceil (θ Emin))
    if i ≤ Imin then pure (Emin, Emax)
    else
      match fuel with
      | 0 => .timeout
      | fuel + 1 =>
        expandMin θ Imin Imax fuel (Emin * CCmp.lit 2, if Imax < i then Emin else Emax)

/-- The window search of `eigenvaluesByIndex` — matslise.cpp:147-173. -/
def window (θ : K → K) (Imin Imax : Int) (fuel : Nat) : Outcome (K × K) := do
  let w ← expandMax θ Imin Imax fuel (CCmp.lit (-1), CCmp.lit 1)
  if CCmp.eq w.1 (CCmp.lit (-1)) then expandMin θ Imin Imax fuel w else pure w

/-- `eigenvaluesByIndex(Imin, Imax, …)` — matslise.cpp:144-175. -/
def eigenvaluesByIndex (θ : K → K) (nw : K → Outcome (Int × K)) (Imin Imax : Int) (fuel : Nat) :
    Outcome (List (Int × K) × Found K) := do
  let w ← window θ Imin Imax fuel
  helper θ nw w.1 w.2 Imin Imax fuel

end ops
end Verif.Search
