import Verif.Model.Lifetime
import Mathlib.Tactic.Linarith

/-!
# Object lifetimes: C62
-/
namespace Verif.Lifetime

/-- number of eigenfunction objects keeping `p` alive -/
def nursed (l : List (Option Eig)) (p : Nat) : Nat := l.countP (fun o => match o with | some f => f.nurse == some p | none => false)

/-- number of live eigenfunction objects of problem `p` -/
def users (l : List (Option Eig)) (p : Nat) : Nat := l.countP (fun o => match o with | some f => f.target == p | none => false)

/-- The invariant of the Python heap. -/
structure Inv (h : Heap) : Prop where
  cnt : ∀ p, h.count p = h.handles p + nursed h.eigs p
  nurse : ∀ f, some f ∈ h.eigs → f.nurse = some f.target
  fresh : ∀ p, h.next ≤ p → h.handles p = 0 ∧ nursed h.eigs p = 0 ∧ h.freed p = false
  alive : ∀ p, p < h.next → (h.freed p = true ↔ h.count p = 0)

theorem Inv.init : Inv Heap.init := by
  constructor <;> simp [Heap.init, nursed]

theorem nursed_append (l : List (Option Eig)) (f : Eig) (p : Nat) :
    nursed (l ++ [some f]) p = nursed l p + if f.nurse = some p then 1 else 0 := by
  simp only [nursed, List.countP_append, List.countP_cons, List.countP_nil]
  by_cases h : f.nurse = some p <;> simp [h]

theorem nursed_set (l : List (Option Eig)) (e : Nat) (f : Eig) (he : l[e]? = some (some f)) (p : Nat) :
    nursed (l.set e none) p + (if f.nurse = some p then 1 else 0) = nursed l p := by
  induction l generalizing e with
  | nil => simp at he
  | cons o l ih =>
    cases e with
    | zero =>
      simp only [List.getElem?_cons_zero, Option.some.injEq] at he
      subst he
      simp only [nursed, List.set_cons_zero, List.countP_cons]
      by_cases h : f.nurse = some p <;> simp [h]
    | succ e =>
      simp only [List.getElem?_cons_succ] at he
      have := ih e he
      simp only [nursed, List.set_cons_succ, List.countP_cons] at this ⊢
      omega

theorem nursed_pos {l : List (Option Eig)} {f : Eig} {p : Nat} (h : some f ∈ l) (hf : f.nurse = some p) : 0 < nursed l p := by
  rw [nursed, List.countP_pos_iff]
  exact ⟨some f, h, by simp [hf]⟩

theorem Inv.handle_lt {h : Heap} (i : Inv h) {p : Nat} (hp : h.handles p ≠ 0) : p < h.next := by
  by_contra hc
  exact hp (i.fresh p (not_lt.mp hc)).1

theorem Inv.not_freed {h : Heap} (i : Inv h) {p : Nat} (hp : 0 < h.count p) (hlt : p < h.next) : h.freed p = false := by
  by_contra hc
  have := (i.alive p hlt).mp (by simpa using hc)
  omega

theorem Inv.eig_lt {h : Heap} (i : Inv h) {f : Eig} (hf : some f ∈ h.eigs) : f.target < h.next ∧ 0 < h.count f.target := by
  have h1 := nursed_pos hf (i.nurse f hf)
  refine ⟨?_, by rw [i.cnt]; omega⟩
  by_contra hc
  have := (i.fresh f.target (not_lt.mp hc)).2.1
  omega

/-- Operations that do not use the internal `__sector` accessor. -/
def Op.public : Op → Bool
  | .sector _ => false
  | .readSector _ => false
  | _ => true

/-- giving up one owner -/
theorem decr_freed (h : Heap) (p q : Nat) : ((h.decr p).freed q = true ↔ (q = p ∧ h.count p ≤ 1) ∨ h.freed q = true) := by
  simp only [Heap.decr]
  split
  · rename_i hc; simp [hc]
  · rename_i hc; simp [hc]

theorem step_inv {h : Heap} (i : Inv h) (o : Op) (ho : o.public = true) : ∃ h', step true h o = .ok h' ∧ Inv h' := by
  cases o with
  | new =>
    refine ⟨_, rfl, ⟨?_, i.nurse, ?_, ?_⟩⟩
    · intro p
      by_cases hp : p = h.next
      · subst hp; simp [(i.fresh h.next le_rfl).2.1]
      · simp [hp, i.cnt p]
    · intro p hp
      have hp : h.next + 1 ≤ p := hp
      have hne : p ≠ h.next := by omega
      have := i.fresh p (by omega)
      simp [hne, this.1, this.2.1, this.2.2]
    · intro p hp
      have hp : p < h.next + 1 := hp
      by_cases he : p = h.next
      · subst he; simp [(i.fresh h.next le_rfl).2.2]
      · simp only [he, if_false]; exact i.alive p (by omega)
  | copy p =>
    by_cases hp : h.handles p = 0
    · exact ⟨h, by simp [step, hp], i⟩
    · simp only [step, hp, if_false]
      refine ⟨_, rfl, ⟨?_, i.nurse, ?_, ?_⟩⟩
      · intro q
        by_cases hq : q = p
        · subst hq; simp [Heap.incr, i.cnt q]; omega
        · simp [Heap.incr, hq, i.cnt q]
      · intro q hq
        have hq' : h.next ≤ q := hq
        have hne : q ≠ p := by have := i.handle_lt hp; omega
        have := i.fresh q hq'
        simp [Heap.incr, hne, this.1, this.2.1, this.2.2]
      · intro q hq
        have := i.alive q hq
        by_cases hqp : q = p
        · subst hqp
          have h0 := i.cnt q
          have hf := i.not_freed (p := q) (by omega) hq
          simp [Heap.incr, hf]
        · simp only [Heap.incr, hqp, if_false]; exact this
  | drop p =>
    by_cases hp : h.handles p = 0
    · exact ⟨h, by simp [step, hp], i⟩
    · simp only [step, hp, if_false]
      refine ⟨_, rfl, ⟨?_, i.nurse, ?_, ?_⟩⟩
      · intro q
        have := i.cnt q
        by_cases hq : q = p
        · subst hq; simp [Heap.decr]; omega
        · simp [Heap.decr, hq, this]
      · intro q hq
        have hq' : h.next ≤ q := hq
        have hne : q ≠ p := by have := i.handle_lt hp; omega
        have := i.fresh q hq'
        simp [Heap.decr, hne, this.1, this.2.1, this.2.2]
      · intro q hq
        have hal := i.alive q hq
        have hd := decr_freed h p q
        show ((h.decr p).freed q = true ↔ (h.decr p).count q = 0)
        rw [hd]
        have h0 := i.cnt q
        by_cases hqp : q = p
        · subst hqp
          simp only [Heap.decr, if_true, true_and]
          constructor
          · rintro (h1 | h1)
            · omega
            · have := hal.mp h1; omega
          · intro h1; left; omega
        · simp only [Heap.decr, hqp, if_false, false_and, false_or]
          exact hal
  | call p =>
    by_cases hp : h.handles p = 0
    · exact ⟨h, by simp [step, hp], i⟩
    · refine ⟨h, ?_, i⟩
      have h0 := i.cnt p
      have hf := i.not_freed (p := p) (by omega) (i.handle_lt hp)
      simp [step, hp, Heap.touch, hf]
  | eigenfunction p =>
    by_cases hp : h.handles p = 0
    · exact ⟨h, by simp [step, hp], i⟩
    · have h0 := i.cnt p
      have hlt := i.handle_lt hp
      have hf := i.not_freed (p := p) (by omega) hlt
      simp only [step, hp, if_false, Heap.touch, hf, Bool.false_eq_true, Outcome.bind_ok, if_true]
      refine ⟨_, rfl, ⟨?_, ?_, ?_, ?_⟩⟩
      · intro q
        rw [nursed_append]
        by_cases hq : q = p
        · subst hq; simp [Heap.incr, h0]; omega
        · simp [Heap.incr, hq, i.cnt q, Ne.symm hq]
      · intro f hf'
        rcases List.mem_append.mp hf' with h1 | h1
        · exact i.nurse f h1
        · simp only [List.mem_singleton, Option.some.injEq] at h1
          subst h1; rfl
      · intro q hq
        have hq' : h.next ≤ q := hq
        have hne : p ≠ q := by omega
        have := i.fresh q hq'
        rw [nursed_append]
        simp [Heap.incr, hne, this.1, this.2.1, this.2.2]
      · intro q hq
        by_cases hqp : q = p
        · subst hqp; simp [Heap.incr, hf]
        · simp only [Heap.incr, hqp, if_false]; exact i.alive q hq
  | eval e =>
    cases he : h.eigs[e]? with
    | none => exact ⟨h, by simp [step, he], i⟩
    | some o =>
      cases o with
      | none => exact ⟨h, by simp [step, he], i⟩
      | some f =>
        have hmem : some f ∈ h.eigs := List.mem_of_getElem? he
        have hl := i.eig_lt hmem
        exact ⟨h, by simp [step, he, Heap.touch, i.not_freed hl.2 hl.1], i⟩
  | dropEig e =>
    cases he : h.eigs[e]? with
    | none => exact ⟨h, by simp [step, he], i⟩
    | some o =>
      cases o with
      | none => exact ⟨h, by simp [step, he], i⟩
      | some f =>
        have hmem : some f ∈ h.eigs := List.mem_of_getElem? he
        have hl := i.eig_lt hmem
        have hn := i.nurse f hmem
        simp only [step, he, hn]
        refine ⟨_, rfl, ⟨?_, ?_, ?_, ?_⟩⟩
        · intro q
          have h1 := nursed_set h.eigs e f he q
          have h2 := i.cnt q
          rw [hn] at h1
          by_cases hq : q = f.target
          · subst hq; simp [Heap.decr] at h1 ⊢; omega
          · have : ¬ f.target = q := fun h => hq h.symm
            simp [Heap.decr, hq, this] at h1 ⊢; omega
        · intro g hg
          have : some g ∈ h.eigs := by
            rcases List.mem_or_eq_of_mem_set hg with h1 | h1
            · exact h1
            · cases h1
          exact i.nurse g this
        · intro q hq
          have hq' : h.next ≤ q := hq
          have hne : q ≠ f.target := by omega
          have := i.fresh q hq'
          have h1 := nursed_set h.eigs e f he q
          refine ⟨this.1, by show nursed (h.eigs.set e none) q = 0; omega, ?_⟩
          simp [Heap.decr, hne, this.2.2]
        · intro q hq
          have hal := i.alive q hq
          show ((h.decr f.target).freed q = true ↔ (h.decr f.target).count q = 0)
          rw [decr_freed]
          by_cases hqp : q = f.target
          · subst hqp
            simp only [Heap.decr, if_true, true_and]
            constructor
            · rintro (h1 | h1)
              · omega
              · have := hal.mp h1; omega
            · intro h1; left; omega
          · simp only [Heap.decr, hqp, if_false, false_and, false_or]
            exact hal
  | sector p => simp [Op.public] at ho
  | readSector k => simp [Op.public] at ho

theorem run_inv (os : List Op) : ∀ {h : Heap}, Inv h → (∀ o ∈ os, o.public = true) → ∃ h', run true h os = .ok h' ∧ Inv h' := by
  induction os with
  | nil => intro h i _; exact ⟨h, rfl, i⟩
  | cons o os ih =>
    intro h i ho
    obtain ⟨h1, e1, i1⟩ := step_inv i o (ho o (by simp))
    obtain ⟨h2, e2, i2⟩ := ih i1 (fun q hq => ho q (by simp [hq]))
    exact ⟨h2, by simp [run, e1, e2], i2⟩

theorem nursed_eq_users {h : Heap} (i : Inv h) (p : Nat) : nursed h.eigs p = users h.eigs p := by
  unfold nursed users
  apply List.countP_congr
  intro o ho
  cases o with
  | none => simp
  | some f => simp [i.nurse f ho]

/-- **C62** (Python): for every program over the public API — creating and dropping problems and eigenfunctions, copying references, calling methods and
evaluating in any order — no operation touches a destroyed problem, and a problem is destroyed exactly when neither a reference to it nor an
eigenfunction of it is left. -/
theorem C62_python_no_use_after_free (os : List Op) (ho : ∀ o ∈ os, o.public = true) :
    ∃ h, run true Heap.init os = .ok h ∧ ∀ p, p < h.next → (h.freed p = true ↔ h.handles p = 0 ∧ users h.eigs p = 0) := by
  obtain ⟨h, e, i⟩ := run_inv os Inv.init ho
  refine ⟨h, e, fun p hp => ?_⟩
  rw [i.alive p hp, i.cnt p, nursed_eq_users i]
  omega

/-- **C62** (C++ and JavaScript): evaluating an eigenfunction after its problem is gone is a use after free. -/
theorem C62_raw_use_after_free : (run false Heap.init [.new, .eigenfunction 0, .drop 0, .eval 0]).isUb = true := by decide

/-- **C62** (Python, internal accessor): a sector object obtained with `__sector` does not keep its problem alive; reading it after the problem is gone is a
use after free. -/
theorem C62_sector_pointer_dangles : (run true Heap.init [.new, .sector 0, .drop 0, .readSector 0]).isUb = true := by decide

/-! ### C++ and JavaScript: safe while the problem is alive -/

structure RawInv (h : Heap) : Prop where
  cnt : ∀ p, h.count p = h.handles p
  nurse : ∀ f, some f ∈ h.eigs → f.nurse = none
  fresh : ∀ p, h.next ≤ p → h.handles p = 0 ∧ h.freed p = false
  alive : ∀ p, p < h.next → (h.freed p = true ↔ h.count p = 0)
  eigs : ∀ f, some f ∈ h.eigs → f.target < h.next

/-- "Alive" in the sense of the caller: evaluating object `e` of problem `p` is allowed only while the caller holds `p`. -/
def Disciplined (h : Heap) : Op → Prop
  | .eval e => ∀ f, h.eigs[e]? = some (some f) → h.handles f.target ≠ 0
  | .sector _ => False
  | .readSector _ => False
  | _ => True

theorem raw_step {h : Heap} (i : RawInv h) (o : Op) (ho : Disciplined h o) : ∃ h', step false h o = .ok h' ∧ RawInv h' := by
  have hlt : ∀ {p}, h.handles p ≠ 0 → p < h.next := fun {p} hp => by
    by_contra hc; exact hp (i.fresh p (not_lt.mp hc)).1
  have hnf : ∀ {p}, h.handles p ≠ 0 → h.freed p = false := fun {p} hp => by
    by_contra hc
    have := (i.alive p (hlt hp)).mp (by simpa using hc)
    rw [i.cnt] at this; exact hp this
  cases o with
  | new =>
    refine ⟨_, rfl, ⟨?_, i.nurse, ?_, ?_, ?_⟩⟩
    · intro p; by_cases hp : p = h.next <;> simp [hp, i.cnt p]
    · intro p hp
      have hp : h.next + 1 ≤ p := hp
      have hne : p ≠ h.next := by omega
      have := i.fresh p (by omega)
      simp [hne, this.1, this.2]
    · intro p hp
      have hp : p < h.next + 1 := hp
      by_cases he : p = h.next
      · subst he; simp [(i.fresh h.next le_rfl).2]
      · simp only [he, if_false]; exact i.alive p (by omega)
    · intro f hf
      have := i.eigs f hf
      show f.target < h.next + 1
      omega
  | copy p =>
    by_cases hp : h.handles p = 0
    · exact ⟨h, by simp [step, hp], i⟩
    · simp only [step, hp, if_false]
      refine ⟨_, rfl, ⟨?_, i.nurse, ?_, ?_, i.eigs⟩⟩
      · intro q; by_cases hq : q = p <;> simp [Heap.incr, hq, i.cnt q, i.cnt p]
      · intro q hq
        have hq' : h.next ≤ q := hq
        have hne : q ≠ p := by have := hlt hp; omega
        have := i.fresh q hq'
        simp [Heap.incr, hne, this.1, this.2]
      · intro q hq
        by_cases hqp : q = p
        · subst hqp; simp [Heap.incr, hnf hp]
        · simp only [Heap.incr, hqp, if_false]; exact i.alive q hq
  | drop p =>
    by_cases hp : h.handles p = 0
    · exact ⟨h, by simp [step, hp], i⟩
    · simp only [step, hp, if_false]
      refine ⟨_, rfl, ⟨?_, i.nurse, ?_, ?_, i.eigs⟩⟩
      · intro q; by_cases hq : q = p <;> simp [Heap.decr, hq, i.cnt q, i.cnt p]
      · intro q hq
        have hq' : h.next ≤ q := hq
        have hne : q ≠ p := by have := hlt hp; omega
        have := i.fresh q hq'
        simp [Heap.decr, hne, this.1, this.2]
      · intro q hq
        have hal := i.alive q hq
        show ((h.decr p).freed q = true ↔ (h.decr p).count q = 0)
        rw [decr_freed]
        have h0 := i.cnt q
        by_cases hqp : q = p
        · subst hqp
          simp only [Heap.decr, if_true, true_and]
          constructor
          · rintro (h1 | h1)
            · omega
            · have := hal.mp h1; omega
          · intro h1; left; omega
        · simp only [Heap.decr, hqp, if_false, false_and, false_or]
          exact hal
  | call p =>
    by_cases hp : h.handles p = 0
    · exact ⟨h, by simp [step, hp], i⟩
    · exact ⟨h, by simp [step, hp, Heap.touch, hnf hp], i⟩
  | eigenfunction p =>
    by_cases hp : h.handles p = 0
    · exact ⟨h, by simp [step, hp], i⟩
    · simp only [step, hp, if_false, Heap.touch, hnf hp, Bool.false_eq_true, Outcome.bind_ok]
      refine ⟨_, rfl, ⟨i.cnt, ?_, i.fresh, i.alive, ?_⟩⟩
      · intro f hf
        rcases List.mem_append.mp hf with h1 | h1
        · exact i.nurse f h1
        · simp only [List.mem_singleton, Option.some.injEq] at h1
          subst h1; rfl
      · intro f hf
        rcases List.mem_append.mp hf with h1 | h1
        · exact i.eigs f h1
        · simp only [List.mem_singleton, Option.some.injEq] at h1
          subst h1; exact hlt hp
  | eval e =>
    cases he : h.eigs[e]? with
    | none => exact ⟨h, by simp [step, he], i⟩
    | some o =>
      cases o with
      | none => exact ⟨h, by simp [step, he], i⟩
      | some f => exact ⟨h, by simp [step, he, Heap.touch, hnf (ho f he)], i⟩
  | dropEig e =>
    cases he : h.eigs[e]? with
    | none => exact ⟨h, by simp [step, he], i⟩
    | some o =>
      cases o with
      | none => exact ⟨h, by simp [step, he], i⟩
      | some f =>
        have hn := i.nurse f (List.mem_of_getElem? he)
        have hsub : ∀ g, some g ∈ h.eigs.set e none → some g ∈ h.eigs := by
          intro g hg
          rcases List.mem_or_eq_of_mem_set hg with h1 | h1
          · exact h1
          · cases h1
        simp only [step, he, hn]
        exact ⟨_, rfl, ⟨i.cnt, fun g hg => i.nurse g (hsub g hg), i.fresh, i.alive, fun g hg => i.eigs g (hsub g hg)⟩⟩
  | sector p => exact ho.elim
  | readSector k => exact ho.elim

/-- A program that evaluates eigenfunctions only while it still holds their problem. -/
def DisciplinedRun : Heap → List Op → Prop
  | _, [] => True
  | h, o :: os => Disciplined h o ∧ ∀ h', step false h o = .ok h' → DisciplinedRun h' os

/-- **C62** (C++ and JavaScript): a program that evaluates eigenfunctions only while it holds their problem never touches destroyed memory. -/
theorem C62_raw_safe_while_alive (os : List Op) (hd : DisciplinedRun Heap.init os) : ∃ h, run false Heap.init os = .ok h := by
  have gen : ∀ (os : List Op) {h : Heap}, RawInv h → DisciplinedRun h os → ∃ h', run false h os = .ok h' := by
    intro os
    induction os with
    | nil => intro h _ _; exact ⟨h, rfl⟩
    | cons o os ih =>
      intro h i hd
      obtain ⟨h1, e1, i1⟩ := raw_step i o hd.1
      obtain ⟨h2, e2⟩ := ih i1 (hd.2 h1 e1)
      exact ⟨h2, by simp [run, e1, e2]⟩
  refine gen os ⟨?_, ?_, ?_, ?_, ?_⟩ hd <;> simp [Heap.init]

/-- Non-vacuity: two problems, three eigenfunctions, problems dropped before their eigenfunctions; problem 0 is still alive at the end because
eigenfunction 2 is, problem 1 is gone. -/
example : (run true Heap.init [.new, .new, .eigenfunction 0, .eigenfunction 1, .eigenfunction 0, .drop 0, .eval 0, .drop 1, .eval 1, .dropEig 1, .dropEig 0, .eval 2]).map
    (fun h => (h.freed 0, h.freed 1)) = .ok (false, true) := by decide
example : DisciplinedRun Heap.init [.new, .eigenfunction 0, .eval 0, .drop 0, .dropEig 0] := by
  refine ⟨trivial, fun h e => ?_⟩
  injection e with e; subst e
  refine ⟨trivial, fun h e => ?_⟩
  simp [step, Heap.touch, Heap.init] at e
  subst e
  refine ⟨by simp [Disciplined], fun h e => ?_⟩
  simp [step, Heap.touch] at e
  subst e
  exact ⟨trivial, fun h e => ⟨trivial, fun _ _ => trivial⟩⟩

end Verif.Lifetime
