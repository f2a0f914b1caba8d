import Verif.Model.SectorState
import Mathlib.Data.Rat.Defs
import Mathlib.Tactic.NormNum

/-!
# C64 and C66
-/
namespace Verif.SectorState
open Verif.Mesh

/-! ## C66 -/
section
variable {V C : Type} [InvolutiveNeg V]

theorem negOdd_negOdd : ∀ l : List V, negOdd (negOdd l) = l
  | [] => rfl
  | [a] => rfl
  | a :: b :: l => by simp [negOdd, negOdd_negOdd l]

theorem negOdd_length : ∀ l : List V, (negOdd l).length = l.length
  | [] => rfl
  | [a] => rfl
  | a :: b :: l => by simp [negOdd, negOdd_length l]

/-- `negOdd` as a formula: entry `i` keeps its value for even `i` and changes sign for odd `i`. -/
theorem negOdd_get : ∀ (l : List V) (i : Nat), (negOdd l)[i]? = l[i]?.map (fun v => if i % 2 = 1 then -v else v)
  | [], i => by simp [negOdd]
  | [a], i => by cases i <;> simp [negOdd]
  | a :: b :: l, i => by
    match i with
    | 0 => simp [negOdd]
    | 1 => simp [negOdd]
    | i + 2 =>
      simp only [negOdd, List.getElem?_cons_succ]
      rw [negOdd_get l i]
      congr 1
      funext v
      rw [show (i + 2) % 2 = i % 2 by omega]

/-- The state reached by a sequence of calls. -/
def calls (tab : List V → C) (s : St V C) (ds : List Dir) : St V C := ds.foldl (fun s d => s.setDirection tab d) s

/-- The coefficients seen along direction `d`: odd-degree ones change sign when looking backward. -/
def seen (base : List V) (d : Dir) : List V := if d = .backward then negOdd base else base

theorem new_vs (tab : List V → C) (base : List V) (d : Dir) : (St.new tab base d).vs = seen base d := rfl

structure Coherent (tab : List V → C) (base : List V) (s : St V C) : Prop where
  vs : s.vs = seen base s.dir
  tc : s.dir ≠ .none → s.tc = some (tab s.vs)

theorem coherent_new (tab : List V → C) (base : List V) (d : Dir) : Coherent tab base (St.new tab base d) := by
  refine ⟨rfl, ?_⟩
  intro h
  have h : d ≠ .none := h
  simp [St.new, h]

theorem coherent_set {tab : List V → C} {base : List V} {s : St V C} (h : Coherent tab base s) (d : Dir) :
    Coherent tab base (s.setDirection tab d) ∧ (s.setDirection tab d).dir = d := by
  unfold St.setDirection
  by_cases hd : s.dir = d
  · simp [hd]; exact h
  · simp only [ne_eq, hd, not_false_eq_true, if_true]
    refine ⟨⟨?_, ?_⟩, by simp⟩
    · show (if s.dir = .backward ∨ d = .backward then negOdd s.vs else s.vs) = seen base d
      rw [h.vs]
      unfold seen
      by_cases h1 : s.dir = .backward
      · have h2 : ¬ d = .backward := fun h2 => hd (h1.trans h2.symm)
        simp [h1, h2, negOdd_negOdd]
      · by_cases h2 : d = .backward <;> simp [h1, h2]
    · intro h1
      have h1 : d ≠ .none := h1
      simp [h1]

theorem coherent_calls {tab : List V → C} {base : List V} (ds : List Dir) : ∀ {s : St V C}, Coherent tab base s → Coherent tab base (calls tab s ds) := by
  induction ds with
  | nil => intro s h; exact h
  | cons d ds ih => intro s h; exact ih (coherent_set h d).1

/-- **C66.** After any sequence of `setDirection` calls on any sector — coefficients of any type with `-(-v) = v`, so doubles and matrices too — the coefficients
depend only on the last direction: entry `i` is the original one, with its sign changed exactly when `i` is odd and the direction is backward.
If that direction is not `none`, coefficients and tables are those of a sector constructed with it. -/
theorem C66_last_direction_decides (tab : List V → C) (base : List V) (d0 : Dir) (ds : List Dir) (d : Dir) :
    let s := calls tab (St.new tab base d0) (ds ++ [d])
    s.dir = d ∧ (∀ i : Nat, s.vs[i]? = base[i]?.map (fun v => if i % 2 = 1 ∧ d = .backward then -v else v)) ∧
    (d ≠ .none → s = St.new tab base d) := by
  intro s
  have h : Coherent tab base s ∧ s.dir = d := by
    have h1 := coherent_calls ds (coherent_new tab base d0)
    have h2 := coherent_set h1 d
    have e : s = (calls tab (St.new tab base d0) ds).setDirection tab d := by simp [s, calls]
    rw [e]; exact h2
  refine ⟨h.2, ?_, ?_⟩
  · intro i
    rw [h.1.vs, h.2]
    unfold seen
    by_cases hd : d = .backward
    · simp [hd, negOdd_get]
    · simp [hd]
  · intro hd
    have hvs : s.vs = seen base d := by rw [h.1.vs, h.2]
    have htc := h.1.tc (by rw [h.2]; exact hd)
    have hn : St.new tab base d = ⟨d, seen base d, some (tab (seen base d))⟩ := by simp [St.new, seen, hd]
    rw [hn]
    have ext : ∀ t : St V C, t.dir = d → t.vs = seen base d → t.tc = some (tab t.vs) → t = ⟨d, seen base d, some (tab (seen base d))⟩ := by
      rintro ⟨a, b, c⟩ h1 h2 h3
      simp only at h1 h2 h3
      subst h1 h3
      rw [h2]
    exact ext s h.2 hvs htc

/-- **C66.** `setDirection` is idempotent, and switching to the opposite direction and back restores coefficients and tables. -/
theorem C66_idempotent_reversible (tab : List V → C) (base : List V) (d0 : Dir) (ds : List Dir) (d e : Dir) :
    let s := calls tab (St.new tab base d0) (ds ++ [d])
    s.setDirection tab d = s ∧ (d ≠ .none → (s.setDirection tab e).setDirection tab d = s) := by
  intro s
  have hdir := (C66_last_direction_decides tab base d0 ds d).1
  constructor
  · unfold St.setDirection
    simp [show s.dir = d from hdir]
  · intro hd
    have h1 := (C66_last_direction_decides tab base d0 ds d).2.2 hd
    have h2 := (C66_last_direction_decides tab base d0 (ds ++ [d, e]) d).2.2 hd
    have : (s.setDirection tab e).setDirection tab d = calls tab (St.new tab base d0) (ds ++ [d, e] ++ [d]) := by
      simp [s, calls]
    rw [this, h2]
    exact h1.symm

/-- **C66**: with direction `none` the tables are not recomputed — they are the stale ones of the direction before (a sector with direction `none` must not be
propagated through; the builders set a direction before). -/
theorem C66_none_keeps_stale_tables (tab : List V → C) (base : List V) :
    (calls tab (St.new tab base .backward) [.none]).vs = base ∧ (calls tab (St.new tab base .backward) [.none]).tc = some (tab (negOdd base)) := by
  simp [calls, St.new, St.setDirection, negOdd_negOdd]

end

/-- Non-vacuity, with tables = the coefficients themselves. -/
example : (calls (C := List ℚ) id (St.new id [1, 2, 3, 4, 5] .forward) [.backward, .none, .backward]).vs = [1, -2, 3, -4, 5] ∧
    (calls (C := List ℚ) id (St.new id [1, 2, 3, 4, 5] .forward) [.backward, .none, .backward, .forward]).vs = [1, 2, 3, 4, 5] := by decide +kernel

/-! ## C64 -/

theorem foldl_stdMin_mem {K : Type} [CCmp K] (vs : List K) (v : K) : vs.foldl (fun m x => stdMin m x) v ∈ v :: vs := by
  induction vs generalizing v with
  | nil => simp
  | cons x vs ih =>
    simp only [List.foldl_cons]
    have := ih (stdMin v x)
    rcases List.mem_cons.mp this with h | h
    · rw [h]
      unfold stdMin
      split <;> simp
    · simp [h]

/-- **C64.** For every scalar type (doubles and NaN included) and every non-empty mesh, `estimatePotentialMinimum` returns the mean potential of one of the sectors;
on an empty mesh the call is undefined. -/
theorem C64_is_a_sector_mean {K : Type} [CCmp K] (means : List K) :
    (means ≠ [] → ∃ m, estimatePotentialMinimum means = .ok m ∧ m ∈ means) ∧ (means = [] → (estimatePotentialMinimum means).isUb = true) := by
  constructor
  · intro h
    cases means with
    | nil => exact absurd rfl h
    | cons v vs => exact ⟨_, rfl, foldl_stdMin_mem vs v⟩
  · rintro rfl; rfl

/-- **C64.** With only the IEEE comparison laws, on means that are not NaN, the value returned is `<=` every sector mean. -/
theorem C64_is_the_smallest {K : Type} [CCmp K] [IeeeOrd K] (means : List K) (hn : ∀ v ∈ means, CCmp.le v v = true) (m : K)
    (hm : estimatePotentialMinimum means = .ok m) : m ∈ means ∧ ∀ v ∈ means, CCmp.le m v = true := by
  cases means with
  | nil => simp [estimatePotentialMinimum] at hm
  | cons v vs =>
    simp only [estimatePotentialMinimum, Outcome.ok.injEq] at hm
    subst hm
    refine ⟨foldl_stdMin_mem vs v, ?_⟩
    induction vs generalizing v with
    | nil => simpa using hn v (by simp)
    | cons x vs ih =>
      simp only [List.foldl_cons]
      have hv := hn v (by simp)
      have hx := hn x (by simp)
      have hle : CCmp.le (stdMin v x) v = true ∧ CCmp.le (stdMin v x) x = true ∧ CCmp.le (stdMin v x) (stdMin v x) = true := by
        unfold stdMin
        by_cases h : CCmp.lt x v = true
        · have h1 := (IeeeOrd.lt_iff x v).mp h
          have h2 := (IeeeOrd.total x v hx hv).resolve_right (by simp [h1.2.2])
          simp [h, h2, hx]
        · have h1 : CCmp.le v x = true := by
            by_contra hc
            exact h ((IeeeOrd.lt_iff x v).mpr ⟨hx, hv, by simpa using hc⟩)
          simp [h, hv, h1]
      have := ih (stdMin v x) (by
        intro w hw
        rcases List.mem_cons.mp hw with rfl | hw
        · exact hle.2.2
        · exact hn w (by simp [hw]))
      intro w hw
      rcases List.mem_cons.mp hw with rfl | hw
      · exact IeeeOrd.trans _ _ _ (this _ (by simp)) hle.1
      · rcases List.mem_cons.mp hw with rfl | hw
        · exact IeeeOrd.trans _ _ _ (this _ (by simp)) hle.2.1
        · exact this w (by simp [hw])

example : estimatePotentialMinimum [3, -2, (5 : ℚ), -2, 7] = .ok (-2) := by decide +kernel

end Verif.SectorState
