import Verif.Basic.Outcome

/-!
# Model of object lifetimes in the bindings
`matslise/pyslise/module.h:52-72`, `matslise/pyslise/pyslise.cpp`, `matslise/js/module.h:27-35`, `matslise/matslise/matslise.cpp:240-252`
-/
namespace Verif.Lifetime

/-- How an eigenfunction object refers to its problem. -/
structure Eig where
  /-- the raw pointer `const Matslise<Scalar> *matslise` — matslise.cpp:243 -/
  target : Nat
  /-- the `shared_ptr<Nurse> nurse` of `EigenfunctionWrapper` — module.h:55 (Python); absent in C++ and JavaScript (js/module.h:27-35) -/
  nurse : Option Nat
deriving DecidableEq, Repr

/-- The heap and the caller's variables. Problems are numbered in order of creation. -/
structure Heap where
  /-- number of problems ever allocated -/
  next : Nat
  /-- reference count in the control block of problem `p` -/
  count : Nat → Nat
  /-- problem `p` has been destroyed -/
  freed : Nat → Bool
  /-- number of variables of the caller that hold problem `p` -/
  handles : Nat → Nat
  /-- the caller's eigenfunction objects; `none` once dropped -/
  eigs : List (Option Eig)
  /-- raw sector pointers handed out by `__sector` (pyslise.cpp:194-196), by problem -/
  sectors : List Nat

/-- the empty heap -/
def Heap.init : Heap := ⟨0, fun _ => 0, fun _ => false, fun _ => 0, [], []⟩

/-- one more owner -/
def Heap.incr (h : Heap) (p : Nat) : Heap := { h with count := fun q => if q = p then h.count q + 1 else h.count q }

/-- one owner less; the problem is destroyed when the last owner goes (`std::shared_ptr`) -/
def Heap.decr (h : Heap) (p : Nat) : Heap :=
  { h with
    count := fun q => if q = p then h.count q - 1 else h.count q
    freed := fun q => if q = p ∧ h.count p ≤ 1 then true else h.freed q }

/-- What a program can do with the objects it holds. -/
inductive Op where
  /-- construct a problem -/
  | new
  /-- `q = p` -/
  | copy (p : Nat)
  /-- `del p`, or the variable goes out of scope -/
  | drop (p : Nat)
  /-- call a method of problem `p` that returns only values -/
  | call (p : Nat)
  /-- `p.eigenfunction(…)`, or one element of `p.eigenpairsByIndex(…)` -/
  | eigenfunction (p : Nat)
  /-- evaluate eigenfunction object number `e` -/
  | eval (e : Nat)
  /-- drop eigenfunction object number `e` -/
  | dropEig (e : Nat)
  /-- `p.__sector(i)` -/
  | sector (p : Nat)
  /-- read `min`, `max`, `forward` or `v` of sector pointer number `k` -/
  | readSector (k : Nat)
deriving DecidableEq, Repr

/-- reading the memory of problem `p` -/
def Heap.touch (h : Heap) (p : Nat) : Outcome Heap :=
  if h.freed p then .ub "use after free" else .ok h

/-- One operation. `nursing` is true for the Python bindings (`EigenfunctionWrapper(m, …)`, pyslise.cpp:67-68, 102-103, 291-292, 308-309,
sturm_liouville.cpp:66-67) and false for C++ and JavaScript, where the returned object holds only the raw pointer. An operation on an object
the caller does not hold cannot be written and does nothing. -/
def step (nursing : Bool) (h : Heap) : Op → Outcome Heap
  | .new =>
    let p := h.next
    .ok { h with next := p + 1, count := (fun q => if q = p then 1 else h.count q), handles := (fun q => if q = p then 1 else h.handles q) }
  | .copy p =>
    if h.handles p = 0 then .ok h
    else .ok { h.incr p with handles := fun q => if q = p then h.handles q + 1 else h.handles q }
  | .drop p =>
    if h.handles p = 0 then .ok h
    else .ok { h.decr p with handles := fun q => if q = p then h.handles q - 1 else h.handles q }
  | .call p => if h.handles p = 0 then .ok h else h.touch p
  | .eigenfunction p =>
    if h.handles p = 0 then .ok h
    else do
      let h ← h.touch p
      if nursing then .ok { h.incr p with eigs := h.eigs ++ [some ⟨p, some p⟩] }
      else .ok { h with eigs := h.eigs ++ [some ⟨p, none⟩] }
  | .eval e =>
    match h.eigs[e]? with
    | some (some f) => h.touch f.target
    | _ => .ok h
  | .dropEig e =>
    match h.eigs[e]? with
    | some (some f) =>
      -- members are destroyed in reverse order: the function (its destructor does not follow the pointer), then the nurse
      match f.nurse with
      | some p => .ok { h.decr p with eigs := h.eigs.set e none }
      | none => .ok { h with eigs := h.eigs.set e none }
    | _ => .ok h
  | .sector p => if h.handles p = 0 then .ok h else do
      let h ← h.touch p
      .ok { h with sectors := h.sectors ++ [p] }
  | .readSector k =>
    match h.sectors[k]? with
    | some p => h.touch p
    | none => .ok h

/-- a whole program -/
def run (nursing : Bool) : Heap → List Op → Outcome Heap
  | h, [] => .ok h
  | h, o :: os => do
    let h ← step nursing h o
    run nursing h os

end Verif.Lifetime
