import Mathlib.Data.List.Forall2

/-!
# Outcomes of modelled C++ calls

`Outcome α` separates the ways a C++ call can end: a value, a thrown exception, undefined
behaviour (out-of-bounds access, iterator past the end, undefined float-to-int conversion) and, for
loops modelled with a fuel argument, "still running".
-/
namespace Verif

/-- The observable outcome of a modelled call. -/
inductive Outcome (α : Type u) where
  | ok (a : α)
  | throws (msg : String)
  | ub (why : String)
  | timeout
deriving Repr, DecidableEq

namespace Outcome

/-- Sequencing: anything but `ok` aborts. -/
def bind {α : Type u} {β : Type v} (x : Outcome α) (f : α → Outcome β) : Outcome β :=
  match x with
  | ok a => f a
  | throws m => throws m
  | ub w => ub w
  | timeout => timeout

instance : Monad Outcome where
  pure := ok
  bind := bind

@[simp] theorem bind_ok {α β : Type u} (a : α) (f : α → Outcome β) : (ok a >>= f) = f a := rfl
@[simp] theorem bind_throws {α β : Type u} (m : String) (f : α → Outcome β) :
    (throws m >>= f) = throws m := rfl
@[simp] theorem bind_ub {α β : Type u} (m : String) (f : α → Outcome β) :
    (ub m >>= f) = ub m := rfl
@[simp] theorem bind_timeout {α β : Type u} (f : α → Outcome β) :
    ((timeout : Outcome α) >>= f) = timeout := rfl
@[simp] theorem pure_eq {α : Type u} (a : α) : (pure a : Outcome α) = ok a := rfl

/-- The call returned normally. -/
def isOk {α : Type u} : Outcome α → Bool
  | ok _ => true
  | _ => false

/-- The call threw an exception. -/
def isThrow {α : Type u} : Outcome α → Bool
  | throws _ => true
  | _ => false

/-- The call ran into undefined behaviour. -/
def isUb {α : Type u} : Outcome α → Bool
  | ub _ => true
  | _ => false

/-- Apply a function to the value of a successful outcome. -/
def map {α : Type u} {β : Type v} (f : α → β) : Outcome α → Outcome β
  | ok a => ok (f a)
  | throws m => throws m
  | ub w => ub w
  | timeout => timeout

/-- Vector/array element access `v[i]`; out of range is undefined behaviour. -/
def get {α : Type u} (l : List α) (i : Nat) : Outcome α :=
  match l[i]? with
  | some a => ok a
  | none => ub "index out of range"

theorem get_of_lt {α : Type u} {l : List α} {i : Nat} (h : i < l.length) : get l i = ok l[i] := by
  simp [get, h]

theorem bind_eq_ok {α β : Type u} {x : Outcome α} {f : α → Outcome β} {b : β} :
    (x >>= f) = ok b ↔ ∃ a, x = ok a ∧ f a = ok b := by
  cases x <;> simp

/-- Run `f` on every element in order, stopping at the first call that does not return. -/
def mapList {α : Type u} {β : Type v} (f : α → Outcome β) : List α → Outcome (List β)
  | [] => ok []
  | a :: l =>
    match f a with
    | ok b =>
      match mapList f l with
      | ok bs => ok (b :: bs)
      | throws m => throws m
      | ub w => ub w
      | timeout => timeout
    | throws m => throws m
    | ub w => ub w
    | timeout => timeout

theorem mapList_eq_ok {α : Type u} {β : Type v} (f : α → Outcome β) (l : List α) (r : List β) :
    mapList f l = ok r ↔ List.Forall₂ (fun a b => f a = ok b) l r := by
  induction l generalizing r with
  | nil => cases r <;> simp [mapList]
  | cons a l ih =>
    cases ha : f a with
    | ok b =>
      cases hl : mapList f l with
      | ok bs =>
        simp only [mapList, ha, hl]
        cases r with
        | nil => simp
        | cons c cs =>
          have := ih bs
          simp only [List.forall₂_cons, ha]
          constructor
          · intro h
            injection h with h; injection h with h1 h2
            subst h1; subst h2
            exact ⟨rfl, (ih _).mp hl⟩
          · rintro ⟨h1, h2⟩
            injection h1 with h1
            have h3 := (ih cs).mpr h2
            rw [hl] at h3
            injection h3 with h3
            subst h1; subst h3; rfl
      | throws m =>
        cases r with
        | nil => simp [mapList, ha, hl]
        | cons c cs =>
          have := ih cs
          simp_all [mapList]
      | ub m =>
        cases r with
        | nil => simp [mapList, ha, hl]
        | cons c cs =>
          have := ih cs
          simp_all [mapList]
      | timeout =>
        cases r with
        | nil => simp [mapList, ha, hl]
        | cons c cs =>
          have := ih cs
          simp_all [mapList]
    | throws m => cases r <;> simp [mapList, ha]
    | ub m => cases r <;> simp [mapList, ha]
    | timeout => cases r <;> simp [mapList, ha]

theorem mapList_of_forall {α : Type u} {β : Type v} {f : α → Outcome β} {g : α → β} {l : List α}
    (h : ∀ a ∈ l, f a = ok (g a)) : mapList f l = ok (l.map g) := by
  induction l with
  | nil => rfl
  | cons a l ih =>
    have h1 := h a (by simp)
    have h2 := ih (fun b hb => h b (by simp [hb]))
    simp [mapList, h1, h2]

end Outcome
end Verif
