import Verif.Model.MatscsCalc
import Verif.Spec.Legendre
import Mathlib.Analysis.Normed.Algebra.Basic
import Mathlib.Analysis.Calculus.Deriv.Pow
import Mathlib.Analysis.Calculus.Deriv.Mul
import Mathlib.Analysis.Calculus.Deriv.Add
import Mathlib.Tactic.Ring
import Mathlib.Tactic.Linarith
import Mathlib.Tactic.Module
import Mathlib.Tactic.NoncommRing
import Mathlib.Tactic.Positivity

/-!
# Sums of matrix words times η functions, as lists

Used to check the identities behind the formula tables of coupled systems: the lists are computed by the kernel, their meaning is
the function `ev`. The letter 9 stands for `V₀ - E`.
-/
namespace Verif.NP
open Verif.MFormulas Verif.Legendre

/-- `c · δ^j · h^p · (word) · e_i` with a sorting key. -/
structure RM where
  key : Nat
  i : Nat
  j : Nat
  p : Nat
  w : List Nat
  c : Int
deriving DecidableEq

/-- sorting key; nothing is proved about it -/
def keyOf (i j p : Nat) (w : List Nat) : Nat := w.foldl (fun k x => k * 11 + x + 1) ((i * 16 + j) * 32 + p)

def mk (i j p : Nat) (w : List Nat) (c : Int) : RM := ⟨keyOf i j p w, i, j, p, w, c⟩

abbrev NP := List RM

/-- Merge two lists sorted by key, adding coefficients of equal monomials and dropping zeros. -/
def merge : Nat → NP → NP → NP
  | 0, a, b => a ++ b
  | _ + 1, [], b => b
  | _ + 1, x :: a, [] => x :: a
  | f + 1, x :: a, y :: b =>
    if Nat.blt x.key y.key then x :: merge f a (y :: b)
    else if Nat.blt y.key x.key then y :: merge f (x :: a) b
    else if x.w == y.w && Nat.beq x.i y.i && Nat.beq x.j y.j && Nat.beq x.p y.p then
      if x.c + y.c == 0 then merge f a b
      else ⟨x.key, x.i, x.j, x.p, x.w, x.c + y.c⟩ :: merge f a b
    else x :: y :: merge f a b

/-- One round of pairwise merging. -/
def mergePairs : List NP → List NP
  | a :: b :: l => merge 100000 a b :: mergePairs l
  | l => l

/-- Merge all lists. -/
def mergeAll : Nat → List NP → NP
  | 0, l => l.flatten
  | _ + 1, [] => []
  | _ + 1, [a] => a
  | f + 1, a :: b :: l => mergeAll f (mergePairs (a :: b :: l))

/-- the terms of total power below `N` in `δ`, `h` -/
def low (N : Nat) (l : NP) : NP := l.filter (fun m => Nat.blt (m.j + m.p) N)
/-- the other terms -/
def high (N : Nat) (l : NP) : NP := l.filter (fun m => !Nat.blt (m.j + m.p) N)

/-- The terms of total power below `N` cancel. -/
def cancels (N : Nat) (l : NP) : Bool := (mergeAll 40 ((low N l).map (fun m => [m]))).isEmpty

/-! ### Operations -/

def neg (l : NP) : NP := l.map (fun m => ⟨m.key, m.i, m.j, m.p, m.w, -m.c⟩)

/-- derivative with respect to `δ` of a monomial -/
def dmono (m : RM) : NP :=
  (if m.j = 0 then [] else [mk m.i (m.j - 1) m.p m.w (m.c * m.j)]) ++
  (if m.i = 0 then [mk 1 (m.j + 1) m.p (m.w ++ [9]) m.c]
   else [mk (m.i - 1) (m.j - 1) m.p m.w m.c, mk m.i (m.j - 1) m.p m.w (-(2 * m.i - 1 : Int) * m.c)])

/-- `(V₀ - E) ·` monomial -/
def pot0 (m : RM) : NP :=
  (if m.i < 2 then [mk m.i m.j m.p (m.w ++ [9]) m.c]
   else [mk (m.i - 2) (m.j - 2) m.p m.w m.c, mk (m.i - 1) (m.j - 2) m.p m.w (-(2 * m.i - 3 : Int) * m.c)]) ++
  [mk m.i m.j m.p (0 :: m.w) m.c, mk m.i m.j m.p (m.w ++ [0]) (-m.c)]

/-- `v_k h^k P_k(δ/h) ·` monomial -/
def potk (k : Nat) (m : RM) : NP := (List.range (k + 1)).map (fun j => mk m.i (m.j + j) (m.p + (k - j)) (k :: m.w) (poly k j * m.c))

/-- `(V - E) ·` monomial -/
def pot (m : RM) : NP := pot0 m ++ (List.range 8).flatMap (fun k => potk (k + 1) m)

/-- `u' - w` -/
def res1 (U W : NP) : NP := U.flatMap dmono ++ neg W
/-- `w' - (V - E) u` -/
def res2 (U W : NP) : NP := W.flatMap dmono ++ neg (U.flatMap pot)

/-- `dmono` is the derivative. -/
def okD (m : RM) : Bool := m.i == 0 || Nat.blt 0 m.j
/-- `pot` is the product. -/
def okP (m : RM) : Bool := Nat.blt m.i 2 || Nat.blt 1 m.j

/-! ### Meaning -/

section
variable {A : Type} [NormedRing A] [NormedAlgebra ℝ A]

/-- The value of a monomial without its coefficient. -/
noncomputable def RM.mon (v e : ℕ → A) (h δ : ℝ) (m : RM) : A := (δ ^ m.j * h ^ m.p) • (word v m.w * e m.i)

/-- The value of a list. -/
noncomputable def ev (v e : ℕ → A) (h δ : ℝ) : NP → A
  | [] => 0
  | m :: l => (m.c : ℝ) • m.mon v e h δ + ev v e h δ l

variable (v e : ℕ → A) (h δ : ℝ)

theorem ev_append (a b : NP) : ev v e h δ (a ++ b) = ev v e h δ a + ev v e h δ b := by
  induction a with
  | nil => simp [ev]
  | cons x a ih => simp [ev, ih, add_assoc]

theorem ev_mk (i j p : ℕ) (w : List ℕ) (c : ℤ) : ev v e h δ [mk i j p w c] = ((c : ℝ) * (δ ^ j * h ^ p)) • (word v w * e i) := by
  simp [ev, mk, RM.mon, smul_smul]

theorem ev_merge (f : ℕ) (a b : NP) : ev v e h δ (merge f a b) = ev v e h δ a + ev v e h δ b := by
  induction f generalizing a b with
  | zero => exact ev_append v e h δ a b
  | succ f ih =>
    match a, b with
    | [], b => simp [merge, ev]
    | x :: a, [] => simp [merge, ev]
    | x :: a, y :: b =>
      unfold merge
      split
      · simp only [ev, ih]; abel
      · split
        · simp only [ev, ih]; abel
        · split
          · rename_i hk
            simp only [Bool.and_eq_true, beq_iff_eq, Nat.beq_eq] at hk
            have hm : y.mon v e h δ = x.mon v e h δ := by
              unfold RM.mon; rw [hk.1.1.1, hk.1.1.2, hk.1.2, hk.2]
            split
            · rename_i hc
              simp only [beq_iff_eq] at hc
              have hc' : (x.c : ℝ) + y.c = 0 := by exact_mod_cast hc
              simp only [ev, ih, hm]
              have : (x.c : ℝ) • x.mon v e h δ + (y.c : ℝ) • x.mon v e h δ = 0 := by rw [← add_smul, hc', zero_smul]
              rw [show (x.c : ℝ) • x.mon v e h δ + ev v e h δ a + ((y.c : ℝ) • x.mon v e h δ + ev v e h δ b) =
                ((x.c : ℝ) • x.mon v e h δ + (y.c : ℝ) • x.mon v e h δ) + (ev v e h δ a + ev v e h δ b) by abel, this, zero_add]
            · have hx : (⟨x.key, x.i, x.j, x.p, x.w, x.c + y.c⟩ : RM).mon v e h δ = x.mon v e h δ := rfl
              simp only [ev, ih, hm, hx]
              push_cast
              rw [add_smul]; abel
          · simp only [ev, ih]; abel

/-- sum of the values of several lists -/
noncomputable def evAll : List NP → A
  | [] => 0
  | a :: l => ev v e h δ a + evAll l

theorem evAll_flatten (l : List NP) : ev v e h δ l.flatten = evAll v e h δ l := by
  induction l with
  | nil => rfl
  | cons a l ih => simp [evAll, ev_append, ih]

theorem evAll_mergePairs (l : List NP) : evAll v e h δ (mergePairs l) = evAll v e h δ l := by
  induction l using mergePairs.induct with
  | case1 a b l ih => simp [mergePairs, evAll, ev_merge, ih, add_assoc]
  | case2 l h1 =>
    match l, h1 with
    | [], _ => rfl
    | [a], _ => rfl
    | a :: b :: l, h1 => exact absurd rfl (h1 a b l)

theorem ev_mergeAll (f : ℕ) (l : List NP) : ev v e h δ (mergeAll f l) = evAll v e h δ l := by
  induction f generalizing l with
  | zero => exact evAll_flatten v e h δ l
  | succ f ih =>
    match l with
    | [] => rfl
    | [a] => simp [mergeAll, evAll]
    | a :: b :: l => rw [mergeAll, ih, evAll_mergePairs]

theorem evAll_singles (l : NP) : evAll v e h δ (l.map (fun m => [m])) = ev v e h δ l := by
  induction l with
  | nil => rfl
  | cons m l ih => simp [evAll, ev, ih]

theorem ev_low_high (N : ℕ) (l : NP) : ev v e h δ l = ev v e h δ (low N l) + ev v e h δ (high N l) := by
  induction l with
  | nil => simp [low, high, ev]
  | cons m l ih =>
    simp only [low, high] at ih ⊢
    by_cases hm : Nat.blt (m.j + m.p) N = true
    · simp only [List.filter_cons, hm, if_true, Bool.not_true, Bool.false_eq_true, if_false, ev, ih]; abel
    · simp only [List.filter_cons, hm, if_false, Bool.not_false, if_true, ev, ih, Bool.false_eq_true]; abel

theorem cancels_ev {N : ℕ} {l : NP} (hc : cancels N l = true) : ev v e h δ l = ev v e h δ (high N l) := by
  rw [ev_low_high v e h δ N l]
  have h1 := ev_mergeAll v e h δ 40 ((low N l).map (fun m => [m]))
  rw [evAll_singles] at h1
  unfold cancels at hc
  rw [List.isEmpty_iff] at hc
  rw [← h1, hc]
  simp [ev]

theorem ev_neg (l : NP) : ev v e h δ (neg l) = -ev v e h δ l := by
  induction l with
  | nil => simp [neg, ev]
  | cons m l ih =>
    simp only [neg, List.map_cons, ev] at ih ⊢
    rw [ih]
    have hx : (⟨m.key, m.i, m.j, m.p, m.w, -m.c⟩ : RM).mon v e h δ = m.mon v e h δ := rfl
    rw [hx]; push_cast; rw [neg_smul]; abel

theorem ev_flatMap (f : RM → NP) (g : RM → A) (l : NP) (hf : ∀ m ∈ l, ev v e h δ (f m) = (m.c : ℝ) • g m) :
    ev v e h δ (l.flatMap f) = (l.map (fun m => (m.c : ℝ) • g m)).sum := by
  induction l with
  | nil => rfl
  | cons m l ih =>
    rw [List.flatMap_cons, ev_append, hf m (by simp), ih (fun m hm => hf m (by simp [hm]))]
    simp

theorem ev_eq_sum (l : NP) : ev v e h δ l = (l.map (fun m => (m.c : ℝ) • m.mon v e h δ)).sum := by
  induction l with
  | nil => rfl
  | cons m l ih => simp [ev, ih]

end
end Verif.NP
