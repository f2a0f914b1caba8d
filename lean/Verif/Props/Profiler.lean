import Verif.Model.Profiler
import Mathlib.Algebra.BigOperators.Group.List.Basic
import Mathlib.Tactic.Linarith
import Mathlib.Tactic.Ring
import Mathlib.Data.List.Induction

/-!
# C67: the profiler
-/
namespace Verif.Profiler

/-! ### Specification: the timers of a run, with their call paths -/
mutual
/-- All timers that end during a run, each with its call path (outermost name first) and the time measured; `path` is the path of the surrounding timers. -/
def timers (path : List String) : Scope → List (List String × Int)
  | .mk name t inner => timersAll (path ++ [name]) inner ++ [(path ++ [name], t)]
/-- for a sequence of timers -/
def timersAll (path : List String) : List Scope → List (List String × Int)
  | [] => []
  | c :: cs => timers path c ++ timersAll path cs
end

/-- How often identifier `id` ended among the timers `l`. -/
def ended (l : List (List String × Int)) (id : String) : Nat := l.countP (fun p => ident p.1 == id)

/-- Total time of the timers in `l` with identifier `id`. -/
def total (l : List (List String × Int)) (id : String) : Int := ((l.filter (fun p => ident p.1 == id)).map Prod.snd).sum

/-- What the table shows for an identifier: count and time (zero when absent). -/
def shown (s : State) (id : String) : Nat × Int := match s.times id with | none => (0, 0) | some e => (e.count, e.time)

theorem ended_append (a b : List (List String × Int)) (id : String) : ended (a ++ b) id = ended a id + ended b id := by simp [ended]
theorem total_append (a b : List (List String × Int)) (id : String) : total (a ++ b) id = total a id + total b id := by simp [total]

/-- The names on the stack, outermost first. -/
def pathOf (s : State) : List String := s.stack.reverse.map Prod.fst

theorem addTime_ok (s : State) (t : Int) (hs : s.stack ≠ []) :
    ∃ s', addTime s t = .ok s' ∧ s'.stack = s.stack ∧ s'.counter = s.counter ∧
      ∀ id, shown s' id = if id = ident (pathOf s) then ((shown s id).1 + 1, (shown s id).2 + t) else shown s id := by
  have hid : getIdentifier s = ident (pathOf s) := by
    unfold getIdentifier pathOf
    cases h : s.stack with
    | nil => exact absurd h hs
    | cons a l => simp
  unfold addTime
  rw [hid]
  cases ht : s.times (ident (pathOf s)) with
  | none =>
    cases h : s.stack with
    | nil => exact absurd h hs
    | cons a l =>
      obtain ⟨n, ins⟩ := a
      refine ⟨{ s with times := fun q => if q = ident (pathOf s) then some ⟨1, ins, t⟩ else s.times q }, ?_, ?_, rfl, ?_⟩
      · simp only [ht, h]
      · exact h
      · intro id
        by_cases he : id = ident (pathOf s)
        · subst he; simp [shown, ht]
        · simp [shown, he]
  | some e =>
    refine ⟨{ s with times := fun q => if q = ident (pathOf s) then some ⟨e.count + 1, e.insertion, e.time + t⟩ else s.times q }, ?_, rfl, rfl, ?_⟩
    · simp only [ht]
    intro id
    by_cases he : id = ident (pathOf s)
    · subst he; simp [shown, ht]
    · simp [shown, he]

/-- the effect of a run on the profiler -/
def Effect (s s' : State) (l : List (List String × Int)) : Prop :=
  s'.stack = s.stack ∧ ∀ id, shown s' id = ((shown s id).1 + ended l id, (shown s id).2 + total l id)

mutual
theorem runScope_effect (s : State) : ∀ c : Scope, ∃ s', runScope s c = .ok s' ∧ Effect s s' (timers (pathOf s) c)
  | .mk name t inner => by
    have hp : pathOf (push s name) = pathOf s ++ [name] := by simp [pathOf, push]
    obtain ⟨s1, e1, hs1, ht1⟩ := runAll_effect (push s name) inner
    have hne : s1.stack ≠ [] := by rw [hs1]; simp [push]
    obtain ⟨s2, e2, hs2, -, ht2⟩ := addTime_ok s1 t hne
    have hp1 : pathOf s1 = pathOf s ++ [name] := by rw [← hp]; simp [pathOf, hs1]
    have hst : s2.stack = (name, s.counter) :: s.stack := by rw [hs2, hs1]; rfl
    refine ⟨{ s2 with stack := s.stack }, ?_, rfl, ?_⟩
    · unfold runScope
      rw [e1, Outcome.bind_ok, e2, Outcome.bind_ok]
      unfold pop
      rw [hst]
    · intro id
      have h0 : shown (push s name) id = shown s id := rfl
      have h1 : shown { s2 with stack := s.stack } id = shown s2 id := rfl
      rw [h1, ht2 id, ht1 id, h0, timers, ended_append, total_append, hp, hp1]
      by_cases he : id = ident (pathOf s ++ [name])
      · subst he
        simp [ended, total]
        constructor <;> ring
      · have he' : ¬ ident (pathOf s ++ [name]) = id := fun h => he h.symm
        simp [ended, total, he, he']
theorem runAll_effect (s : State) : ∀ cs : List Scope, ∃ s', runAll s cs = .ok s' ∧ Effect s s' (timersAll (pathOf s) cs)
  | [] => ⟨s, by simp [runAll], rfl, fun id => by simp [timersAll, ended, total]⟩
  | c :: cs => by
    obtain ⟨s1, e1, hs1, ht1⟩ := runScope_effect s c
    obtain ⟨s2, e2, hs2, ht2⟩ := runAll_effect s1 cs
    have hp : pathOf s1 = pathOf s := by simp [pathOf, hs1]
    refine ⟨s2, ?_, hs2.trans hs1, ?_⟩
    · unfold runAll
      rw [e1, Outcome.bind_ok, e2]
    · intro id
      rw [ht2 id, ht1 id, timersAll, ended_append, total_append, hp]
      simp [add_assoc]
end

/-- **C67.** For every run of nested and consecutive timers — any depth, any names, exceptions included — starting from a fresh profiler: the run ends without
undefined behaviour, the stack is empty again, and for every identifier the table shows exactly the number of timers that ended with that identifier and the
sum of their times. -/
theorem C67_balanced (run : List Scope) :
    ∃ s, runAll State.init run = .ok s ∧ s.stack = [] ∧ ∀ id, shown s id = (ended (timersAll [] run) id, total (timersAll [] run) id) := by
  obtain ⟨s, e, hs, ht⟩ := runAll_effect State.init run
  refine ⟨s, e, hs, fun id => ?_⟩
  have := ht id
  simpa [shown, State.init, pathOf] using this

/-- **C67**, in the middle of a program: whatever timers are open, a sub-run leaves the stack as it found it and adds exactly its own timers. -/
theorem C67_balanced_anywhere (s : State) (run : List Scope) :
    ∃ s', runAll s run = .ok s' ∧ s'.stack = s.stack ∧
      ∀ id, shown s' id = ((shown s id).1 + ended (timersAll (s.stack.reverse.map Prod.fst) run) id, (shown s id).2 + total (timersAll (s.stack.reverse.map Prod.fst) run) id) :=
  runAll_effect s run

/-- **C67**: without the nesting discipline the calls are undefined on an empty stack. -/
theorem C67_guard : (pop State.init).isUb = true ∧ (addTime State.init 5).isUb = true := by
  constructor <;> simp [pop, addTime, State.init, Outcome.isUb]

/-! ### Different call paths have different identifiers -/

theorem ident_snoc (l : List String) (n : String) : ident (l ++ [n]) = ident l ++ (" > " ++ n) := by simp [ident]

theorem ident_toList (l : List String) : (ident l).toList = l.flatMap (fun n => ' ' :: '>' :: ' ' :: n.toList) := by
  induction l using List.reverseRecOn with
  | nil => simp [ident]
  | append_singleton l n ih =>
    rw [ident_snoc, String.toList_append, ih, String.toList_append]
    simp

theorem split_gt {a b r s : List Char} (ha : '>' ∉ a) (hb : '>' ∉ b) (h : a ++ '>' :: r = b ++ '>' :: s) : a = b ∧ r = s := by
  induction a generalizing b with
  | nil =>
    cases b with
    | nil => simpa using h
    | cons c b => simp at h; simp [← h.1] at hb
  | cons c a ih =>
    cases b with
    | nil => simp at h; simp [h.1] at ha
    | cons d b =>
      simp only [List.cons_append, List.cons.injEq] at h
      simp only [List.mem_cons, not_or] at ha hb
      have := ih ha.2 hb.2 h.2
      exact ⟨by rw [h.1, this.1], this.2⟩

/-- **C67**: identifiers are call paths — two different call paths whose names contain no `>` (true of all timer names in the library) have different identifiers,
so counts of different paths are never mixed. -/
theorem C67_identifiers_distinguish_paths (p q : List String) (hp : ∀ n ∈ p, '>' ∉ n.toList) (hq : ∀ n ∈ q, '>' ∉ n.toList) (h : ident p = ident q) : p = q := by
  have h' : p.flatMap (fun n => ' ' :: '>' :: ' ' :: n.toList) = q.flatMap (fun n => ' ' :: '>' :: ' ' :: n.toList) := by
    rw [← ident_toList, ← ident_toList, h]
  clear h
  -- compare " > a > b …" from the left; after the first '>' comes " a " up to the next '>'
  have key : ∀ (p q : List String), (∀ n ∈ p, '>' ∉ n.toList) → (∀ n ∈ q, '>' ∉ n.toList) → ∀ (a b : List Char), '>' ∉ a → '>' ∉ b →
      a ++ p.flatMap (fun n => ' ' :: '>' :: ' ' :: n.toList) = b ++ q.flatMap (fun n => ' ' :: '>' :: ' ' :: n.toList) → a = b ∧ p = q := by
    intro p
    induction p with
    | nil =>
      intro q _ hq a b ha hb h
      cases q with
      | nil => simpa using h
      | cons n q =>
        simp only [List.flatMap_nil, List.append_nil, List.flatMap_cons] at h
        rw [h] at ha
        simp at ha
    | cons m p ih =>
      intro q hp hq a b ha hb h
      cases q with
      | nil =>
        simp only [List.flatMap_nil, List.append_nil, List.flatMap_cons] at h
        rw [← h] at hb
        simp at hb
      | cons n q =>
        simp only [List.flatMap_cons, List.cons_append] at h
        have h1 : (a ++ [' ']) ++ '>' :: (' ' :: (m.toList ++ p.flatMap (fun n => ' ' :: '>' :: ' ' :: n.toList))) =
            (b ++ [' ']) ++ '>' :: (' ' :: (n.toList ++ q.flatMap (fun n => ' ' :: '>' :: ' ' :: n.toList))) := by simpa using h
        obtain ⟨h2, h3⟩ := split_gt (by simp [ha]) (by simp [hb]) h1
        have hab : a = b := List.append_cancel_right h2
        simp only [List.cons.injEq, true_and] at h3
        obtain ⟨h4, h5⟩ := ih q (fun x hx => hp x (by simp [hx])) (fun x hx => hq x (by simp [hx])) _ _ (hp m (by simp)) (hq n (by simp)) h3
        exact ⟨hab, by rw [String.toList_injective h4, h5]⟩
  exact (key p q hp hq [] [] (by simp) (by simp) (by simpa using h')).2

/-- Non-vacuity: an outer timer with the same inner timer twice, then the inner name at top level: three identifiers. -/
example : (runAll State.init [.mk "a" 10 [.mk "b" 3 [], .mk "b" 4 []], .mk "b" 5 []]).map
    (fun s => (shown s " > a", shown s " > a > b", shown s " > b", s.stack)) = .ok ((1, 10), (2, 7), (1, 5), []) := by decide +kernel

end Verif.Profiler
