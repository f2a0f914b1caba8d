import Verif.Model.FormulaTables
import Mathlib.Data.Real.Basic
import Mathlib.Tactic.Ring
import Mathlib.Tactic.Linarith
import Mathlib.Tactic.FieldSimp
import Mathlib.Tactic.Positivity
import Mathlib.Analysis.Calculus.Deriv.Pow
import Mathlib.Analysis.Calculus.Deriv.Mul
import Mathlib.Analysis.Calculus.Deriv.Add

/-!
# Sparse polynomials as lists

Used to check the identities between the formula tables: the lists are computed by the kernel, and
their meaning is the polynomial function `PL.eval`. The `key` is only a sorting hint; no statement about
it is needed.
-/
namespace Verif.PL
open Verif.Formulas

/-- `c · h^ord · s^d · v_i v_j …` with a sorting key. (`s = δ/h`.) -/
structure Mon where
  key : Nat
  ord : Nat
  d : Nat
  vs : List Nat
  c : Int
deriving DecidableEq

abbrev PL := List Mon

/-- Merge two lists sorted by key, adding coefficients of equal monomials and dropping zeros. -/
def merge : Nat → PL → PL → PL
  | 0, a, b => a ++ b
  | _ + 1, [], b => b
  | _ + 1, x :: a, [] => x :: a
  | f + 1, x :: a, y :: b =>
    if Nat.blt x.key y.key then x :: merge f a (y :: b)
    else if Nat.blt y.key x.key then y :: merge f (x :: a) b
    else if x.vs == y.vs && Nat.beq x.ord y.ord && Nat.beq x.d y.d then
      if x.c + y.c == 0 then merge f a b
      else ⟨x.key, x.ord, x.d, x.vs, x.c + y.c⟩ :: merge f a b
    else x :: y :: merge f a b

/-- One round of pairwise merging. -/
def mergePairs : List PL → List PL
  | a :: b :: l => merge 100000 a b :: mergePairs l
  | l => l

/-- Merge all lists. -/
def mergeAll : Nat → List PL → PL
  | 0, l => l.flatten
  | _ + 1, [] => []
  | _ + 1, [a] => a
  | f + 1, a :: b :: l => mergeAll f (mergePairs (a :: b :: l))

/-! ### Meaning -/

/-- The value of a monomial without its coefficient. -/
noncomputable def Mon.mon (v : ℕ → ℝ) (h s : ℝ) (m : Mon) : ℝ := h ^ m.ord * s ^ m.d * prodV v m.vs

/-- The value of a list. -/
noncomputable def eval (v : ℕ → ℝ) (h s : ℝ) : PL → ℝ
  | [] => 0
  | m :: l => (m.c : ℝ) * m.mon v h s + eval v h s l

variable (v : ℕ → ℝ) (h s : ℝ)

theorem eval_append (a b : PL) : eval v h s (a ++ b) = eval v h s a + eval v h s b := by
  induction a with
  | nil => simp [eval]
  | cons x a ih => simp [eval, ih]; ring

theorem eval_merge (f : ℕ) (a b : PL) : eval v h s (merge f a b) = eval v h s a + eval v h s b := by
  induction f generalizing a b with
  | zero => exact eval_append v h s a b
  | succ f ih =>
    match a, b with
    | [], b => simp [merge, eval]
    | x :: a, [] => simp [merge, eval]
    | x :: a, y :: b =>
      unfold merge
      split
      · simp [eval, ih]; ring
      · split
        · simp [eval, ih]; ring
        · split
          · rename_i hk
            simp only [Bool.and_eq_true, beq_iff_eq, Nat.beq_eq] at hk
            have hm : y.mon v h s = x.mon v h s := by
              unfold Mon.mon; rw [hk.1.1, hk.1.2, hk.2]
            split
            · rename_i hc
              simp only [beq_iff_eq] at hc
              have hc' : (x.c : ℝ) + y.c = 0 := by exact_mod_cast hc
              simp only [eval, ih, hm]
              linear_combination (-(x.mon v h s)) * hc'
            · have hx : (⟨x.key, x.ord, x.d, x.vs, x.c + y.c⟩ : Mon).mon v h s = x.mon v h s := rfl
              simp only [eval, ih, hm, hx]
              push_cast; ring
          · simp [eval, ih]; ring

/-- sum of the values of several lists -/
noncomputable def evalAll : List PL → ℝ
  | [] => 0
  | a :: l => eval v h s a + evalAll l

theorem evalAll_flatten (l : List PL) : eval v h s l.flatten = evalAll v h s l := by
  induction l with
  | nil => rfl
  | cons a l ih => simp [evalAll, eval_append, ih]

theorem evalAll_mergePairs (l : List PL) : evalAll v h s (mergePairs l) = evalAll v h s l := by
  induction l using mergePairs.induct with
  | case1 a b l ih => simp [mergePairs, evalAll, eval_merge, ih]; ring
  | case2 l h1 =>
    match l, h1 with
    | [], _ => rfl
    | [a], _ => rfl
    | a :: b :: l, h1 => exact absurd rfl (h1 a b l)

theorem eval_mergeAll (f : ℕ) (l : List PL) : eval v h s (mergeAll f l) = evalAll v h s l := by
  induction f generalizing l with
  | zero => exact evalAll_flatten v h s l
  | succ f ih =>
    match l with
    | [] => rfl
    | [a] => simp [mergeAll, evalAll]
    | a :: b :: l => rw [mergeAll, ih, evalAll_mergePairs]

/-! ### Operations -/

/-- Multiply by an integer. -/
def scale (n : Int) (l : PL) : PL := l.map (fun m => ⟨m.key, m.ord, m.d, m.vs, m.c * n⟩)

theorem eval_scale (n : ℤ) (l : PL) : eval v h s (scale n l) = n * eval v h s l := by
  induction l with
  | nil => simp [scale, eval]
  | cons m l ih =>
    simp only [scale, List.map_cons, eval] at ih ⊢
    rw [ih]; simp only [Mon.mon]; push_cast; ring

/-- key of `h`: 64^16, key of `s`: 64^17 -/
def keyH : Nat := 64 ^ 16
def keyS : Nat := 64 ^ 17

/-- Multiply by `δ = s h`. -/
def mulDelta (l : PL) : PL := l.map (fun m => ⟨m.key + (keyH + keyS), m.ord + 1, m.d + 1, m.vs, m.c⟩)

theorem eval_mulDelta (l : PL) : eval v h s (mulDelta l) = (s * h) * eval v h s l := by
  induction l with
  | nil => simp [mulDelta, eval]
  | cons m l ih =>
    simp only [mulDelta, List.map_cons, eval] at ih ⊢
    rw [ih]; simp only [Mon.mon]; ring

/-- The Euler operator `δ d/dδ`. -/
def euler (l : PL) : PL := l.map (fun m => ⟨m.key, m.ord, m.d, m.vs, m.c * (m.d : Nat)⟩)

/-- Insert an index in a sorted list. -/
def ins (k : Nat) : List Nat → List Nat
  | [] => [k]
  | i :: l => if Nat.ble k i then k :: i :: l else i :: ins k l

theorem prodV_ins (k : ℕ) (l : List ℕ) : prodV v (ins k l) = v k * prodV v l := by
  induction l with
  | nil => simp [ins, prodV]
  | cons i l ih =>
    unfold ins; split
    · simp [prodV]
    · simp only [prodV, ih]; ring

/-- Multiply by `n · v_k · h^k · s^j`. -/
def mulV (k j : Nat) (n : Int) (l : PL) : PL :=
  l.map (fun m => ⟨m.key + (64 ^ (k - 1) + 64 ^ 15 * k + keyH * k + keyS * j), m.ord + k, m.d + j, ins k m.vs, m.c * n⟩)

theorem eval_mulV (k j : ℕ) (n : ℤ) (l : PL) :
    eval v h s (mulV k j n l) = (n * v k * h ^ k * s ^ j) * eval v h s l := by
  induction l with
  | nil => simp [mulV, eval]
  | cons m l ih =>
    simp only [mulV, List.map_cons, eval] at ih ⊢
    rw [ih]; simp only [Mon.mon, prodV_ins]; push_cast; ring

/-- Terms of order below `N`. -/
def low (N : Nat) (l : PL) : PL := l.filter (fun m => Nat.blt m.ord N)
/-- Terms of order at least `N`. -/
def high (N : Nat) (l : PL) : PL := l.filter (fun m => !Nat.blt m.ord N)

theorem eval_low_high (N : ℕ) (l : PL) : eval v h s (low N l) + eval v h s (high N l) = eval v h s l := by
  induction l with
  | nil => simp [low, high, eval]
  | cons m l ih =>
    unfold low high at ih ⊢
    by_cases hm : Nat.blt m.ord N = true
    · simp only [List.filter_cons, hm, eval, Bool.not_true, Bool.false_eq_true, if_false, if_true]; linarith
    · rw [Bool.not_eq_true] at hm
      simp only [List.filter_cons, hm, eval, Bool.not_false, Bool.false_eq_true, if_false, if_true]; linarith

theorem evalAll_low_high (N : ℕ) (ls : List PL) :
    evalAll v h s (ls.map (low N)) + evalAll v h s (ls.map (high N)) = evalAll v h s ls := by
  induction ls with
  | nil => simp [evalAll]
  | cons a ls ih =>
    simp only [List.map_cons, evalAll]
    linarith [eval_low_high v h s N a]

/-- All terms of order below `N` of the sum cancel. -/
def cancels (N : Nat) (ls : List PL) : Bool := (mergeAll 64 (ls.map (low N))).all (fun m => m.c == 0)

theorem eval_of_cancels {N : ℕ} {ls : List PL} (hc : cancels N ls = true) :
    evalAll v h s ls = evalAll v h s (ls.map (high N)) := by
  unfold cancels at hc
  have h0 : ∀ l : PL, l.all (fun m => m.c == 0) = true → eval v h s l = 0 := by
    intro l
    induction l with
    | nil => intro _; rfl
    | cons m l ih =>
      intro hl
      simp only [List.all_cons, Bool.and_eq_true, beq_iff_eq] at hl
      simp only [eval, ih hl.2, hl.1]
      simp
  have := eval_mergeAll v h s 64 (ls.map (low N))
  rw [h0 _ hc] at this
  have h2 := evalAll_low_high v h s N ls
  linarith

/-! ### Derivative and bounds -/

/-- The derivative with respect to `δ = s h`. -/
noncomputable def evalD (δ : ℝ) : PL → ℝ
  | [] => 0
  | m :: l => (m.c : ℝ) * (h ^ m.ord * (m.d * (δ / h) ^ (m.d - 1) * (1 / h)) * prodV v m.vs) + evalD δ l

theorem hasDerivAt_eval (l : PL) (δ : ℝ) :
    HasDerivAt (fun δ => eval v h (δ / h) l) (evalD v h δ l) δ := by
  induction l with
  | nil => simpa [eval, evalD] using hasDerivAt_const δ (0 : ℝ)
  | cons m l ih =>
    have h1 : HasDerivAt (fun δ : ℝ => δ / h) (1 / h) δ := (hasDerivAt_id δ).div_const h
    have h2 := h1.fun_pow m.d
    have := ((((h2.const_mul (h ^ m.ord)).mul_const (prodV v m.vs)).const_mul (m.c : ℝ)).add ih)
    exact this.congr_deriv (by simp only [evalD])

theorem mul_evalD {h : ℝ} (hh : h ≠ 0) (l : PL) (δ : ℝ) :
    δ * evalD v h δ l = eval v h (δ / h) (euler l) := by
  induction l with
  | nil => simp [euler, eval, evalD]
  | cons m l ih =>
    have e : euler (m :: l) = ⟨m.key, m.ord, m.d, m.vs, m.c * (m.d : Nat)⟩ :: euler l := rfl
    rw [e]
    simp only [eval, evalD, Mon.mon]
    rw [← ih, mul_add]
    congr 1
    rcases Nat.eq_zero_or_pos m.d with h0 | h0
    · rw [h0]; simp
    · obtain ⟨d, hd⟩ : ∃ d, m.d = d + 1 := ⟨m.d - 1, by omega⟩
      rw [hd]
      simp only [Nat.add_sub_cancel]
      push_cast
      rw [pow_succ]
      field_simp

theorem continuous_evalD (l : PL) : Continuous (fun δ => evalD v h δ l) := by
  induction l with
  | nil => simpa [evalD] using continuous_const
  | cons m l ih => simp only [evalD]; fun_prop

/-- all powers of `s` are at least `p` (or the coefficient is zero), only `v_k` with `k ≥ 1` occur -/
def good (p : Nat) (l : PL) : Bool :=
  l.all (fun m => (Nat.ble p m.d || m.c == 0) && m.vs.all (fun k => Nat.ble 1 k))

/-- The meaning of `good`. -/
def Good (p : ℕ) (l : PL) : Prop := ∀ m ∈ l, (p ≤ m.d ∨ m.c = 0) ∧ ∀ k ∈ m.vs, 1 ≤ k

theorem good_spec {p : ℕ} {l : PL} (hl : good p l = true) : Good p l := by
  intro m hm
  unfold good at hl
  rw [List.all_eq_true] at hl
  have := hl m hm
  simp only [Bool.and_eq_true, Bool.or_eq_true, Nat.ble_eq, beq_iff_eq, List.all_eq_true] at this
  exact this

theorem prodV_bound {v : ℕ → ℝ} {M : ℝ} (hM : 1 ≤ M) (hv : ∀ k, 1 ≤ k → |v k| ≤ M) (l : List ℕ)
    (hl : ∀ k ∈ l, 1 ≤ k) : |prodV v l| ≤ M ^ l.length := by
  induction l with
  | nil => simp [prodV]
  | cons k l ih =>
    simp only [prodV, List.length_cons, pow_succ]
    rw [abs_mul, mul_comm]
    exact mul_le_mul (ih (fun k hk => hl k (List.mem_cons_of_mem _ hk))) (hv k (hl k List.mem_cons_self))
      (abs_nonneg _) (by positivity)

/-- The bound constant of a list. -/
noncomputable def bnd (M : ℝ) : PL → ℝ
  | [] => 0
  | m :: l => |(m.c : ℝ)| * M ^ m.vs.length + bnd M l

theorem bnd_nonneg {M : ℝ} (hM : 0 ≤ M) (l : PL) : 0 ≤ bnd M l := by
  induction l with
  | nil => simp [bnd]
  | cons m l ih => simp only [bnd]; positivity

theorem eval_bound {v : ℕ → ℝ} {M : ℝ} (hM : 1 ≤ M) (hv : ∀ k, 1 ≤ k → |v k| ≤ M) {h s : ℝ} (h0 : 0 ≤ h)
    (h1 : h ≤ 1) (s0 : 0 ≤ s) (s1 : s ≤ 1) {N p : ℕ} (l : PL) (hN : ∀ m ∈ l, N ≤ m.ord) (hp : Good p l) :
    |eval v h s l| ≤ bnd M l * (h ^ N * s ^ p) := by
  induction l with
  | nil => simp [eval, bnd]
  | cons m l ih =>
    have ih := ih (fun m hm => hN m (List.mem_cons_of_mem _ hm)) (fun m hm => hp m (List.mem_cons_of_mem _ hm))
    have a1 : h ^ m.ord ≤ h ^ N := pow_le_pow_of_le_one h0 h1 (hN m List.mem_cons_self)
    obtain ⟨hd, hvs⟩ := hp m List.mem_cons_self
    have a3 := prodV_bound hM hv m.vs hvs
    simp only [eval, bnd]
    refine (abs_add_le _ _).trans ?_
    rw [add_mul]
    refine add_le_add ?_ ih
    rw [abs_mul, mul_assoc]
    rcases hd with hd | hd
    · have a2 : s ^ m.d ≤ s ^ p := pow_le_pow_of_le_one s0 s1 hd
      refine mul_le_mul_of_nonneg_left ?_ (abs_nonneg _)
      unfold Mon.mon
      rw [abs_mul, abs_of_nonneg (by positivity : 0 ≤ h ^ m.ord * s ^ m.d), mul_comm]
      exact mul_le_mul a3 (mul_le_mul a1 a2 (by positivity) (by positivity)) (by positivity) (by positivity)
    · rw [hd]; simp

theorem high_ord (N : ℕ) (l : PL) : ∀ m ∈ high N l, N ≤ m.ord := by
  intro m hm
  unfold high at hm
  rw [List.mem_filter] at hm
  have := hm.2
  simp only [Bool.not_eq_true', Nat.blt] at this
  by_contra hc
  push Not at hc
  have h2 : Nat.ble (m.ord + 1) N = true := Nat.ble_eq.mpr hc
  rw [h2] at this; cases this

theorem Good.high {p : ℕ} {l : PL} (hl : Good p l) (N : ℕ) : Good p (high N l) :=
  fun m hm => hl m (List.mem_of_mem_filter hm)

theorem mem_ins {k i : ℕ} {l : List ℕ} (hi : i ∈ ins k l) : i = k ∨ i ∈ l := by
  induction l with
  | nil => simp [ins] at hi; exact Or.inl hi
  | cons j l ih =>
    unfold ins at hi
    split at hi
    · simpa using hi
    · rcases List.mem_cons.mp hi with h | h
      · exact Or.inr (by simp [h])
      · rcases ih h with h | h
        · exact Or.inl h
        · exact Or.inr (List.mem_cons_of_mem _ h)

theorem Good.mulV {p : ℕ} {l : PL} (hl : Good p l) {k : ℕ} (hk : 1 ≤ k) (j : ℕ) (n : ℤ) : Good p (mulV k j n l) := by
  intro m hm
  unfold PL.mulV at hm
  obtain ⟨m0, hm0, rfl⟩ := List.mem_map.mp hm
  obtain ⟨h1, h2⟩ := hl m0 hm0
  refine ⟨?_, ?_⟩
  · rcases h1 with h1 | h1
    · exact Or.inl (by simp only; omega)
    · exact Or.inr (by simp [h1])
  · intro i hi
    rcases mem_ins hi with rfl | hi
    · exact hk
    · exact h2 i hi

theorem mulV_ord {N k : ℕ} {l : PL} (hl : ∀ m ∈ l, N - k ≤ m.ord) (j : ℕ) (n : ℤ) :
    ∀ m ∈ mulV k j n l, N ≤ m.ord := by
  intro m hm
  unfold mulV at hm
  obtain ⟨m0, hm0, rfl⟩ := List.mem_map.mp hm
  have := hl m0 hm0
  simp only
  omega

/-- sum of the bound constants -/
noncomputable def bndAll (M : ℝ) : List PL → ℝ
  | [] => 0
  | a :: l => bnd M a + bndAll M l

theorem bndAll_nonneg {M : ℝ} (hM : 0 ≤ M) (l : List PL) : 0 ≤ bndAll M l := by
  induction l with
  | nil => simp [bndAll]
  | cons m l ih => simp only [bndAll]; have := bnd_nonneg hM m; positivity

theorem evalAll_bound {v : ℕ → ℝ} {M : ℝ} (hM : 1 ≤ M) (hv : ∀ k, 1 ≤ k → |v k| ≤ M) {h s : ℝ} (h0 : 0 ≤ h)
    (h1 : h ≤ 1) (s0 : 0 ≤ s) (s1 : s ≤ 1) {N p : ℕ} (ls : List PL) (hN : ∀ l ∈ ls, ∀ m ∈ l, N ≤ m.ord)
    (hp : ∀ l ∈ ls, Good p l) : |evalAll v h s ls| ≤ bndAll M ls * (h ^ N * s ^ p) := by
  induction ls with
  | nil => simp [evalAll, bndAll]
  | cons l ls ih =>
    have ih := ih (fun l hl => hN l (List.mem_cons_of_mem _ hl)) (fun l hl => hp l (List.mem_cons_of_mem _ hl))
    have h2 := eval_bound hM hv h0 h1 s0 s1 l (hN l List.mem_cons_self) (hp l List.mem_cons_self)
    simp only [evalAll, bndAll]
    refine (abs_add_le _ _).trans ?_
    rw [add_mul]
    exact add_le_add h2 ih

theorem evalAll_append (a b : List PL) : evalAll v h s (a ++ b) = evalAll v h s a + evalAll v h s b := by
  induction a with
  | nil => simp [evalAll]
  | cons x a ih => simp [evalAll, ih]; ring

/-! ### From the tables -/

/-- Common denominator of the tables. -/
def D : Nat := 2075673600

/-- key of a product of `v`s -/
def vkey : List Nat → Nat
  | [] => 0
  | i :: l => 64 ^ (i - 1) + 64 ^ 15 * i + vkey l

/-- `± n · h^ord · s^d · v_i v_j …` (entries of the generated certificates) -/
def xp (ord d : Nat) (vs : List Nat) (n : Nat) : Mon := ⟨vkey vs + keyH * ord + keyS * d, ord, d, vs, Int.ofNat n⟩
def xm (ord d : Nat) (vs : List Nat) (n : Nat) : Mon := ⟨vkey vs + keyH * ord + keyS * d, ord, d, vs, -(Int.ofNat n)⟩

def termMon (j hp : Nat) (t : Term) : Mon :=
  ⟨vkey t.vs + keyH * (j + hp) + keyS * j, j + hp, j, t.vs, ((D / t.den : Nat) : Int) * t.num⟩

def entryPL (j : Nat) : Nat → Entry → PL
  | _, [] => []
  | hp, c :: e => c.map (termMon j hp) ++ entryPL j (hp + 1) e

def rowPL (sel : Entry4 → Entry) : Nat → List Entry4 → PL
  | _, [] => []
  | j, e :: l => entryPL j 0 (sel e) ++ rowPL sel (j + 1) l

/-- every denominator divides `D` -/
def okEntry (e : Entry) : Bool := e.all (fun c => c.all (fun t => D % t.den == 0 && !(t.den == 0)))

/-- The polynomial in δ whose coefficients are a column of entries. -/
noncomputable def rowVal (sel : Entry4 → Entry) (v : ℕ → ℝ) (h δ : ℝ) : List Entry4 → ℝ
  | [] => 0
  | e :: l => entryVal v h (sel e) + δ * rowVal sel v h δ l

theorem termMon_val {t : Term} (h1 : D % t.den = 0) (h2 : t.den ≠ 0) :
    ((((D / t.den : ℕ) : ℤ) * t.num : ℤ) : ℝ) * prodV v t.vs = (D : ℝ) * t.val v := by
  have h3 : ((D / t.den : ℕ) : ℝ) = (D : ℝ) / t.den :=
    by
    rw [eq_div_iff (by exact_mod_cast h2)]
    exact_mod_cast Nat.div_mul_cancel (Nat.dvd_of_mod_eq_zero h1)
  unfold Term.val
  simp only [ccmp_lit]
  rw [Int.cast_mul, Int.cast_natCast, h3]
  push_cast; ring

theorem eval_map_termMon (j hp : ℕ) (c : List Term) (hc : c.all (fun t => D % t.den == 0 && !(t.den == 0)) = true) :
    eval v h s (c.map (termMon j hp)) = (D : ℝ) * (h ^ (j + hp) * s ^ j) * coeffVal v c := by
  induction c with
  | nil => simp [eval, coeffVal]
  | cons t c ih =>
    simp only [List.all_cons, Bool.and_eq_true, beq_iff_eq, Bool.not_eq_true', beq_eq_false_iff_ne] at hc
    simp only [List.map_cons, eval, coeffVal, ih hc.2]
    have := termMon_val v hc.1.1 hc.1.2
    simp only [termMon, Mon.mon]
    linear_combination (h ^ (j + hp) * s ^ j) * this

theorem eval_entryPL (j hp : ℕ) (e : Entry) (he : okEntry e = true) :
    eval v h s (entryPL j hp e) = (D : ℝ) * (h ^ (j + hp) * s ^ j) * entryVal v h e := by
  induction e generalizing hp with
  | nil => simp [entryPL, eval, entryVal]
  | cons c e ih =>
    simp only [okEntry, List.all_cons, Bool.and_eq_true] at he
    rw [entryPL, eval_append, eval_map_termMon v h s j hp c he.1, ih (hp + 1) he.2]
    simp only [entryVal]
    rw [← add_assoc, pow_succ]; ring

def okRow (sel : Entry4 → Entry) (l : List Entry4) : Bool := l.all (fun e => okEntry (sel e))

theorem eval_rowPL (sel : Entry4 → Entry) (j : ℕ) (l : List Entry4) (hl : okRow sel l = true) :
    eval v h s (rowPL sel j l) = (D : ℝ) * (s * h) ^ j * rowVal sel v h (s * h) l := by
  induction l generalizing j with
  | nil => simp [rowPL, eval, rowVal]
  | cons e l ih =>
    simp only [okRow, List.all_cons, Bool.and_eq_true] at hl
    rw [rowPL, eval_append, eval_entryPL v h s j 0 (sel e) hl.1, ih (j + 1) hl.2]
    simp only [rowVal]
    rw [Nat.add_zero, pow_succ, mul_pow]; ring

end Verif.PL
