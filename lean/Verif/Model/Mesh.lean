import Verif.Basic.Outcome
import Verif.Basic.Scalar

/-!
# Model of the sector builders (`matslise/util/sectorbuilder.cpp`)
-/
namespace Verif.Mesh

/-- `enum Direction { none, forward, backward }` — matslise.h:17-19. -/
inductive Dir where
  | none | forward | backward
deriving DecidableEq, Repr

/-- The part of a sector the mesh builders depend on: `min`, `max`, `direction`
(matslise.h:202-213, matscs.h:70-83). The numerical content (`vs`, `t_coeff`) is a function of the
problem and these three fields (sector.cpp:23-34), and enters below through oracles. -/
structure Sec (K : Type u) where
  min : K
  max : K
  dir : Dir
deriving DecidableEq, Repr

/-- `SectorBuilderReturn` — sectorbuilder.h:8-13. -/
structure BuildResult (K : Type u) where
  sectors : List (Sec K)
  matchIndex : Nat
deriving DecidableEq, Repr

variable {K : Type u} [Add K] [Sub K] [Mul K] [Div K] [CCmp K]

/-! ## UniformSectorBuilder -/

/-- The vector of `unique_ptr<Sector>` during construction: slot `k` is `none` while the pointer is
null. -/
abbrev Slots (K : Type u) := Nat → Option (Sec K)

/-- `sectors[k].reset(s)` -/
def Slots.set (sl : Slots K) (k : Nat) (s : Sec K) : Slots K :=
  fun m => if m = k then some s else sl m

/-- Dereferencing `*sectors[k]`; a null pointer is undefined behaviour. -/
def Slots.deref (sl : Slots K) (k : Nat) : Outcome (Sec K) :=
  match sl k with
  | some s => .ok s
  | none => .ub "null sector dereferenced"

/-- The `while (i + 1 != j)` loop, sectorbuilder.cpp:40-48. `cmp a b` is `Sector::compare(a, b)`.
The C++ loop has no bound; `fuel` is the model's, and the properties show `timeout` is not reached. -/
def uniformLoop (cmp : Sec K → Sec K → Bool) (min h : K) :
    (fuel : Nat) → (i j : Nat) → Slots K → Outcome (Nat × Slots K)
  | fuel, i, j, sl =>
    if i + 1 = j then .ok (i, sl) else
    match fuel with
    | 0 => .timeout
    | fuel + 1 => do
      let sj ← sl.deref j
      let si ← sl.deref i
      if cmp sj si then
        let i' := i + 1
        uniformLoop cmp min h fuel i' j
          (sl.set i' ⟨min + CCmp.lit (i' : Nat) * h, min + CCmp.lit ((i' + 1 : Nat)) * h, .forward⟩)
      else
        let j' := j - 1
        uniformLoop cmp min h fuel i j'
          (sl.set j' ⟨min + CCmp.lit (j' : Nat) * h, min + CCmp.lit ((j' + 1 : Nat)) * h, .backward⟩)

/-- Read the finished vector; a null pointer left in it would be dereferenced by every user. -/
def collect (sl : Slots K) : (n : Nat) → Outcome (List (Sec K))
  | 0 => .ok []
  | n + 1 => do
    let init ← collect sl n
    let s ← sl.deref n
    pure (init ++ [s])

/-- `UniformSectorBuilder::operator()` — sectorbuilder.cpp:25-53. `n` is the C++ `int sectorCount`;
a negative count makes `resize` throw, zero makes `sectors[0]` an out-of-range access. -/
def uniformBuild (cmp : Sec K → Sec K → Bool) (n : Int) (min max : K) : Outcome (BuildResult K) :=
  let h : K := (max - min) / CCmp.lit n
  if n < 0 then .throws "std::length_error (vector::resize)"
  else if n = 0 then .ub "sectors[0] of an empty vector"
  else if n = 1 then .ok ⟨[⟨min, max, .forward⟩], 0⟩
  else do
    let c := n.toNat
    let sl : Slots K := fun _ => none
    let sl := sl.set 0 ⟨min, min + h, .forward⟩
    let sl := sl.set (c - 1) ⟨min + CCmp.lit ((c - 1 : Nat)) * h, max, .backward⟩
    let (i, sl) ← uniformLoop cmp min h c 0 (c - 1) sl
    let sectors ← collect sl c
    pure ⟨sectors, i⟩

/-! ## AutomaticSectorBuilder -/

/-- What `automaticNextSector` observes about a candidate sector's error estimate
(`Sector::error()`, sector.cpp:231-250 and matscs/sector.cpp:299-307). Comparisons are kept as
Booleans so that a NaN estimate (all comparisons false) is included. -/
structure ErrOracle (K : Type u) where
  /-- `error > tolerance` -/
  gtTol : Sec K → Bool
  /-- `error < tolerance / 2` -/
  ltHalf : Sec K → Bool
  /-- `error <= 0` -/
  leZero : Sec K → Bool
  /-- `pow(tolerance / error, 1. / (order - 1))` -/
  powf : Sec K → K

/-- The oracle of an actual error estimate: `err s = none` is a NaN estimate, `pw x` stands for
`pow(x, 1. / (order - 1))` (sectorbuilder.cpp:75, 105). -/
def ErrOracle.ofError (err : Sec K → Option K) (pw : K → K) (tol : K) : ErrOracle K where
  gtTol s := match err s with | some e => CCmp.lt tol e | none => false
  ltHalf s := match err s with | some e => CCmp.lt e (tol / CCmp.lit 2) | none => false
  leZero s := match err s with | some e => CCmp.le e (CCmp.lit 0) | none => false
  powf s := match err s with | some e => pw (tol / e) | none => tol

/-- The shrinking loop, sectorbuilder.cpp:73-86 (`while (error > tolerance && steps < 10 && h > 1e-3)`).
The first argument is `10 - steps`. Returns the sector, the new `h` and the number of steps taken.
`refineSector` (lines 12-21) always constructs a new sector because `refineSectors` is false for both
problem classes (matslise.h:126, matscs.h:20). -/
def shrinkLoop (O : ErrOracle K) (d : Dir) : Nat → Sec K → K → Sec K × K × Nat
  | 0, s, h => (s, h, 0)
  | n + 1, s, h =>
    if O.gtTol s && CCmp.lt (CCmp.lit (1/1000)) h then
      let h1 := h * stdMax (CCmp.lit (1/10)) (CCmp.lit (99/100) * O.powf s)
      let s' : Sec K := if d = .forward then ⟨s.min, s.min + h1, d⟩ else ⟨s.max - h1, s.max, d⟩
      let h2 := s'.max - s'.min
      let r := shrinkLoop O d n s' h2
      (r.1, r.2.1, r.2.2 + 1)
    else (s, h, 0)

/-- The candidate end points of one enlargement, sectorbuilder.cpp:101-116. -/
def growBounds (O : ErrOracle K) (d : Dir) (left right : K) (s : Sec K) (h : K) : K × K :=
  if O.leZero s then (left, right)
  else
    let h1 := h * O.powf s
    if d = .forward then
      let xmax := s.min + h1
      (s.min, if CCmp.lt right xmax then right else xmax)
    else
      let xmin := s.max - h1
      (if CCmp.lt xmin left then left else xmin, s.max)

/-- The enlarging loop, sectorbuilder.cpp:98-131 (`Sector::expensive` is false for both problem
classes, so the `if constexpr` branch at lines 87-96 is never compiled). The first argument is
`10 - steps`. -/
def growLoop (O : ErrOracle K) (d : Dir) (left right : K) : Nat → Sec K → K → Sec K × K
  | 0, s, h => (s, h)
  | n + 1, s, h =>
    if O.ltHalf s && !(CCmp.eq h (right - left)) then
      let b := growBounds O d left right s h
      let h2 := b.2 - b.1
      let s' : Sec K := ⟨b.1, b.2, d⟩
      if O.gtTol s' then (s, s.max - s.min)
      else growLoop O d left right n s' h2
    else (s, h)

/-- The first candidate of `automaticNextSector`, sectorbuilder.cpp:62-69. -/
def firstCandidate (h left right : K) (d : Dir) : Sec K :=
  let xmin := if d = .forward then left else right - h
  let xmax := if d = .forward then left + h else right
  if d = .forward && CCmp.lt right xmax then ⟨xmin, right, d⟩
  else if d = .backward && CCmp.lt xmin left then ⟨left, xmax, d⟩
  else ⟨xmin, xmax, d⟩

/-- `automaticNextSector` — sectorbuilder.cpp:55-135. Returns the sector and the updated `h`
(a reference parameter in C++). -/
def nextSector (O : ErrOracle K) (h left right : K) (d : Dir) : Sec K × K :=
  let s0 := firstCandidate h left right d
  let h0 := s0.max - s0.min
  let r := shrinkLoop O d 10 s0 h0
  if r.2.2 = 0 then growLoop O d left right 10 r.1 r.2.1
  else (r.1, r.2.1)

/-- The local variables of `AutomaticSectorBuilder::operator()`: the two stacks (latest sector
first), the two step widths, and the remaining jumps seen by the forward iterator and by the
reverse iterator. -/
structure AutoState (K : Type u) where
  f : Sec K
  fs : List (Sec K)
  b : Sec K
  bs : List (Sec K)
  fh : K
  bh : K
  fj : List K
  bj : List K
deriving DecidableEq

/-- `nextForwardJump` / `nextBackwardJump`, sectorbuilder.cpp:151-156. -/
def nextJump (js : List K) (dflt : K) : K := js.head?.getD dflt

/-- `++iterator`; incrementing a past-the-end iterator is undefined behaviour. -/
def advance (js : List K) : Outcome (List K) :=
  match js with
  | [] => .ub "jump iterator incremented past the end"
  | _ :: t => .ok t

/-- Everything before the loop, sectorbuilder.cpp:143-162. -/
def autoInit (O : ErrOracle K) (jumps : List K) (min max : K) : AutoState K :=
  let mid := CCmp.lit (4956864123 / 10000000000) * max + CCmp.lit (5043135877 / 10000000000) * min
  let fh0 := CCmp.lit (33/100) * (max - min)
  let f := nextSector O fh0 min (stdMin mid (nextJump jumps max)) .forward
  let b := nextSector O fh0 (stdMax mid (nextJump jumps.reverse min)) max .backward
  ⟨f.1, [], b.1, [], f.2, b.2, jumps, jumps.reverse⟩

/-- `if (forward.back()->max == nextForwardJump()) ++forwardJumpPosition;` (and its backward twin),
sectorbuilder.cpp:167-168, 174-175. -/
def skipJump (cur : K) (js : List K) (dflt : K) : Outcome (List K) :=
  if CCmp.eq cur (nextJump js dflt) then advance js else .ok js

/-- One iteration of the loop body, sectorbuilder.cpp:166-180. -/
def autoStep (O : ErrOracle K) (cmp : Sec K → Sec K → Bool) (min max : K) (s : AutoState K) :
    Outcome (AutoState K) :=
  if cmp s.b s.f then do
    let fj ← skipJump s.f.max s.fj max
    let r := nextSector O s.fh s.f.max (stdMin s.b.min (nextJump fj max)) .forward
    pure { s with f := r.1, fs := s.f :: s.fs, fh := r.2, fj := fj }
  else do
    let bj ← skipJump s.b.min s.bj min
    let r := nextSector O s.bh (stdMax s.f.max (nextJump bj min)) s.b.min .backward
    pure { s with b := r.1, bs := s.b :: s.bs, bh := r.2, bj := bj }

/-- The loop `while (forward.back()->max != backward.back()->min)`, sectorbuilder.cpp:165-181,
with fuel. -/
def autoLoop (O : ErrOracle K) (cmp : Sec K → Sec K → Bool) (min max : K) :
    Nat → AutoState K → Outcome (AutoState K)
  | fuel, s =>
    if CCmp.eq s.f.max s.b.min then .ok s else
    match fuel with
    | 0 => .timeout
    | fuel + 1 => do
      let s' ← autoStep O cmp min max s
      autoLoop O cmp min max fuel s'

/-- `AutomaticSectorBuilder::operator()` — sectorbuilder.cpp:137-186: run the loop, then append the
backward stack (reversed) to the forward stack; `matchIndex = forward.size() - 1`. -/
def autoBuild (fuel : Nat) (O : ErrOracle K) (cmp : Sec K → Sec K → Bool) (jumps : List K)
    (min max : K) : Outcome (BuildResult K) := do
  let s ← autoLoop O cmp min max fuel (autoInit O jumps min max)
  pure ⟨(s.f :: s.fs).reverse ++ (s.b :: s.bs), (s.f :: s.fs).length - 1⟩

end Verif.Mesh
