import Verif.Basic.Outcome

/-!
# Model of the profiler and of scoped timers
`matslise/util/scoped_timer.h`
-/
namespace Verif.Profiler

/-- `ProfileEntry` — scoped_timer.h:27-31. Times are in nanoseconds. -/
structure Entry where
  count : Nat
  insertion : Nat
  time : Int
deriving DecidableEq, Repr

/-- The profiler's members — scoped_timer.h:19, 36-37. `stack` has the innermost timer first (the C++ vector has it last); the `unordered_map` is a function. -/
structure State where
  counter : Nat
  times : String → Option Entry
  stack : List (String × Nat)

/-- the state at program start -/
def State.init : State := ⟨0, fun _ => none, []⟩

/-- `push` — scoped_timer.h:50-52. -/
def push (s : State) (name : String) : State := { s with counter := s.counter + 1, stack := (name, s.counter) :: s.stack }

/-- `pop` — scoped_timer.h:54-56: `pop_back` of an empty vector is undefined. -/
def pop (s : State) : Outcome State :=
  match s.stack with
  | [] => .ub "pop_back of an empty vector"
  | _ :: st => .ok { s with stack := st }

/-- The identifier of a call path, outermost name first — the string built in scoped_timer.h:62-65. -/
def ident (names : List String) : String := names.foldl (fun id n => id ++ (" > " ++ n)) ""

/-- `getIdentifier` — scoped_timer.h:58-66. -/
def getIdentifier (s : State) : String :=
  if s.stack.isEmpty then ">" else ident (s.stack.reverse.map Prod.fst)

/-- `addTime` — scoped_timer.h:68-78: for a new identifier `stack.back()` is read, undefined on an empty stack. -/
def addTime (s : State) (t : Int) : Outcome State :=
  let id := getIdentifier s
  match s.times id with
  | none =>
    match s.stack with
    | [] => .ub "back() of an empty vector"
    | (_, ins) :: _ => .ok { s with times := fun q => if q = id then some ⟨1, ins, t⟩ else s.times q }
  | some e => .ok { s with times := fun q => if q = id then some ⟨e.count + 1, e.insertion, e.time + t⟩ else s.times q }

/-- A run of the program as the profiler sees it: each node is the lifetime of one `ScopedTimer` (MATSLISE_SCOPED_TIMER(name), scoped_timer.h:105), with the
time it measures and the timers started and ended during its life, in order. An exception leaves the same trace, because destructors run. -/
inductive Scope where
  | mk (name : String) (time : Int) (inner : List Scope)

mutual
/-- constructor, body, destructor — scoped_timer.h:92-101 -/
def runScope (s : State) : Scope → Outcome State
  | .mk name t inner => do
    let s ← runAll (push s name) inner
    let s ← addTime s t
    pop s
/-- timers one after the other -/
def runAll (s : State) : List Scope → Outcome State
  | [] => .ok s
  | c :: cs => do
    let s ← runScope s c
    runAll s cs
end

end Verif.Profiler
