import Verif.Model.YT
import Verif.Model.Lookup

/-!
# Model of propagation
`matslise/matslise/sector.cpp:174-229`, `matslise/matslise/matslise.cpp:15-58`
-/
namespace Verif.Propag
open Verif.Mesh Verif.YT

/-- A sector as propagation sees it (matslise.h:202-249). The numerical content of the sector is a
parameter: `tr E δ use_h` is `calculateT(E, δ, use_h)` (modelled in `Model/CalcT`), `theta0` and
`prufer` are the angle functions (modelled in `Model/Prufer`). -/
structure PSec (K : Type) extends Sec K where
  h : K
  tr : K → K → Bool → T K
  theta0 : K → Y K → K
  prufer : K → K → Y K → Y K → K

/-- A problem: its sectors, its domain and the matching index (matslise.h:135-138). -/
structure Prob (K : Type) where
  secs : List (PSec K)
  dmin : K
  dmax : K
  matchIndex : Nat

/-- the mesh of a problem -/
def Prob.mesh {K : Type} (P : Prob K) : List (Sec K) := P.secs.map PSec.toSec

section ops
variable {K : Type} [Add K] [Sub K] [Mul K] [Neg K] [Zero K] [One K] [CCmp K]

/-- `propagateDelta` — sector.cpp:174-199. State: the column and the accumulated angle. -/
def PSec.propagateDelta (s : PSec K) (E : K) (useH : Bool) (st : Y K × K) (delta : K) : Y K × K :=
  let delta := if s.dir = .backward then -delta else delta        -- delta *= -1
  let direction := CCmp.le 0 delta
  let delta := if direction then delta else -delta
  let delta := if CCmp.lt s.h delta then s.h else delta
  let y0 := st.1
  let t := s.tr E delta useH
  let y := if s.dir = .backward then y0.reverse else y0
  let y := if direction then t.mul y else t.div y
  let y := if s.dir = .backward then y.reverse else y
  let dθ := if direction != decide (s.dir = .backward) then s.prufer E delta y0 y
    else -(s.prufer E delta y y0)
  (y, st.2 + dθ)

/-- `Sector::propagate` — sector.cpp:201-229. -/
def PSec.propagate (s : PSec K) (E : K) (useH : Bool) (y : Y K) (a b : K) : Y K × K :=
  let st : Y K × K := (y, 0)
  if !((CCmp.le s.max a && CCmp.le s.max b) || (CCmp.le a s.min && CCmp.le b s.min)) then
    if s.dir = .forward then
      let st := if CCmp.lt s.min a then s.propagateDelta E useH st (s.min - a) else st
      if CCmp.lt s.min b then s.propagateDelta E useH st (b - s.min) else st
    else
      let st := if CCmp.lt a s.max then s.propagateDelta E useH st (s.max - a) else st
      if CCmp.lt b s.max then s.propagateDelta E useH st (b - s.max) else st
  else st

/-- The `do … while` loop of `Matslise::propagate` — matslise.cpp:32-40. `i` is `sectorIndex`;
the loop body dereferences `sectors[i]`. -/
def Prob.walk (P : Prob K) (E : K) (useH : Bool) (a b : K) :
    (fuel : Nat) → (i : Int) → Y K × K → Outcome (Y K × K)
  | fuel, i, st =>
    if 0 ≤ i then
      match P.secs[i.toNat]? with
      | none => .ub "sectors[sectorIndex] out of range"
      | some s =>
        let r := s.propagate E useH st.1 a b
        let st := (r.1, st.2 + r.2)
        if s.contains b then .ok st
        else
          let i' := if CCmp.lt a b then i + 1 else i - 1
          if 0 ≤ i' ∧ i' < P.secs.length then
            match fuel with
            | 0 => .timeout
            | fuel + 1 => Prob.walk P E useH a b fuel i' st
          else .ok st
    else .ub "sectors[-1]"

/-- `Matslise::propagate` — matslise.cpp:15-45 (one column). `pi` is `constants<Scalar>::PI`. -/
def Prob.propagate (P : Prob K) (pi E : K) (y : Y K) (a b : K) (useH : Bool := true) :
    Outcome (Y K × K) :=
  if !(domainContains P.dmin P.dmax a) || !(domainContains P.dmin P.dmax b) then
    .throws "Matslise::propagate(): a and b should be in the interval"
  else do
    let i ← findSector P.mesh a
    if 0 ≤ i then
      match P.secs[i.toNat]? with
      | none => .ub "sectors[sectorIndex] out of range"
      | some s =>
        let t := s.theta0 E y
        let t := if CCmp.lt t 0 || (CCmp.lt b a && CCmp.eq t 0) then t + pi else t
        P.walk E useH a b P.secs.length i (y, t)
    else .ub "sectors[-1]"

/-- `Matslise::matchingError` — matslise.cpp:47-58. -/
def Prob.matchingError (P : Prob K) (pi E : K) (left right : Y K) (useH : Bool := true) :
    Outcome (K × K × K) :=
  match P.secs[P.matchIndex]? with
  | none => .ub "sectors[matchIndex] out of range"
  | some m => do
    let l ← P.propagate pi E left P.dmin m.max useH
    let r ← P.propagate pi E right P.dmax m.max useH
    pure (l.1.dy * r.1.y - r.1.dy * l.1.y,
      l.1.dyE * r.1.y + l.1.dy * r.1.yE - (r.1.dyE * l.1.y + r.1.dy * l.1.yE),
      l.2 - r.2)

end ops
end Verif.Propag
