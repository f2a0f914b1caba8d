import Verif.Model.Mesh

/-!
# Model of sector lookup and of eigenfunction evaluation
`matslise/util/find_sector.h`, `matslise/matslise/matslise.cpp:228-298`
-/
namespace Verif.Mesh

variable {K : Type} [CCmp K]

/-- `Sector::contains` — matslise.h:222-224 (`point <= max && point >= min`). -/
def Sec.contains (s : Sec K) (x : K) : Bool := CCmp.le x s.max && CCmp.le s.min x

/-- `Domain::contains` — matslise.h:26-28 (`min <= x && x <= max`). -/
def domainContains (dmin dmax x : K) : Bool := CCmp.le dmin x && CCmp.le x dmax

/-- The loop of `find_sector` — find_sector.h:8-15; `int` indices are naturals because `a` starts at
0 and only grows. Fuel counts iterations. -/
def findSectorLoop (secs : List (Sec K)) (point : K) : (fuel a b : Nat) → Outcome Int
  | fuel, a, b =>
    let c := a + (b - a) / 2
    match secs[c]? with
    | none => .ub "sectors[c] out of range"
    | some s =>
      if s.contains point then .ok c
      else if c = a then .ok (-1)
      else match fuel with
        | 0 => .timeout
        | fuel + 1 =>
          if CCmp.lt point s.min then findSectorLoop secs point fuel a c
          else findSectorLoop secs point fuel c b

/-- `find_sector` — find_sector.h:6-17. -/
def findSector (secs : List (Sec K)) (point : K) : Outcome Int :=
  findSectorLoop secs point secs.length 0 secs.length

/-- `findSector(x, a, b)` on iterators — matslise.cpp:228-238: `while (b - a > 1)`. Iterators are
positions in the sector vector; dereferencing outside is undefined behaviour. -/
def findRange (secs : List (Sec K)) (x : K) : (fuel a b : Nat) → Outcome Nat
  | fuel, a, b =>
    if b - a > 1 then
      let c := a + (b - a) / 2
      match secs[c]? with
      | none => .ub "iterator out of range"
      | some s =>
        match fuel with
        | 0 => .timeout
        | fuel + 1 =>
          if CCmp.lt x s.min then findRange secs x fuel a c else findRange secs x fuel c b
    else .ok a

/-- An eigenfunction object (`MEigenfunction`, matslise.cpp:240-252): the mesh, the domain, the
stored values at the mesh points, and the sector-wise propagation
`prop i y from to = sectors[i]->propagate<false>(E, y, from, to).y()`. -/
structure EigenObj (K V Yv : Type) where
  secs : List (Sec K)
  dmin : K
  dmax : K
  steps : List Yv
  prop : Nat → Yv → K → K → V

variable {V Yv : Type} [Zero V]

/-- Evaluate in sector `i`: forward sectors start from `steps[i]` at `min`, the others from
`steps[i + 1]` at `max` — matslise.cpp:261-265 and 288-294. -/
def EigenObj.evalIn (f : EigenObj K V Yv) (i : Nat) (x : K) : Outcome V :=
  match f.secs[i]? with
  | none => .ub "sector iterator dereferenced outside the vector"
  | some s =>
    if s.dir = .forward then
      match f.steps[i]? with
      | none => .ub "steps out of range"
      | some y => .ok (f.prop i y s.min x)
    else
      match f.steps[i + 1]? with
      | none => .ub "steps out of range"
      | some y => .ok (f.prop i y s.max x)

/-- `x < domain.min || x > domain.max` — matslise.cpp:256, 279. -/
def EigenObj.outside (f : EigenObj K V Yv) (x : K) : Bool :=
  CCmp.lt x f.dmin || CCmp.lt f.dmax x

/-- `operator()(Scalar)` — matslise.cpp:254-266. -/
def EigenObj.eval (f : EigenObj K V Yv) (x : K) : Outcome V :=
  if f.outside x then .ok 0
  else do
    let i ← findRange f.secs x f.secs.length 0 f.secs.length
    f.evalIn i x

/-- The cursor update — matslise.cpp:283-289. -/
def EigenObj.moveCursor (f : EigenObj K V Yv) (k : Nat) (s : Sec K) (x : K) : Outcome Nat :=
  if CCmp.lt x s.min then findRange f.secs x f.secs.length 0 k
  else if CCmp.lt s.max x then findRange f.secs x f.secs.length (k + 1) f.secs.length
  else .ok k

/-- One iteration of the array loop — matslise.cpp:278-296; `k` is the sector cursor. Returns the
row and the new cursor. -/
def EigenObj.arrayStep (f : EigenObj K V Yv) (k : Nat) (x : K) : Outcome (V × Nat) :=
  if f.outside x then .ok (0, k)
  else
    match f.secs[k]? with
    | none => .ub "sector iterator dereferenced outside the vector"
    | some s => do
      let k' ← f.moveCursor k s x
      let v ← f.evalIn k' x
      pure (v, k')

/-- The array loop. -/
def EigenObj.arrayLoop (f : EigenObj K V Yv) : Nat → List K → Outcome (List V)
  | _, [] => .ok []
  | k, x :: xs => do
    let r ← f.arrayStep k x
    let rest ← f.arrayLoop r.2 xs
    pure (r.1 :: rest)

/-- `operator()(Array)` — matslise.cpp:268-298; the cursor starts at the first sector. -/
def EigenObj.evalArray (f : EigenObj K V Yv) (xs : List K) : Outcome (List V) := f.arrayLoop 0 xs

end Verif.Mesh
