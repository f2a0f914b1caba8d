import Verif.Model.Search
import Mathlib.Tactic.Linarith
import Mathlib.Tactic.Ring
import Mathlib.Tactic.FieldSimp
import Mathlib.Tactic.Positivity
import Mathlib.Data.List.Perm.Basic
import Mathlib.Order.Monotone.Basic
import Mathlib.Algebra.Order.Archimedean.Basic
import Mathlib.Data.Rat.Floor

set_option linter.unusedSectionVars false
namespace Verif.Search

section any
variable {K : Type} [Add K] [Sub K] [Mul K] [Div K] [Neg K] [Zero K] [CCmp K] [CInt K]

/-! ### termination measure -/

/-- number of loop iterations an entry of the given depth can cause -/
def wgt (q : Item K) : Nat := 2 ^ (32 - q.depth) - 1

def wgts (l : List (Item K)) : Nat := (l.map wgt).sum

theorem stepItem_shape (θ : K → K) (Imin Imax : Int) (q : Item K) (act : Action K)
    (h : stepItem θ Imin Imax q = .ok act) :
    match act with
    | .skip => True
    | .drop _ => True
    | .cand c _ => c.item = q
    | .push items _ => q.depth ≤ 30 ∧ items.length ≤ 2 ∧ ∀ i ∈ items, i.depth = q.depth + 1 := by
  unfold stepItem at h
  obtain ⟨ia, -, h⟩ := Outcome.bind_eq_ok.mp h
  obtain ⟨ib, -, h⟩ := Outcome.bind_eq_ok.mp h
  split at h
  · simp at h; subst h; trivial
  · simp only [] at h
    split at h
    · simp at h; subst h; rfl
    · rename_i hd
      have hd' : q.depth ≤ 30 := by
        simp only [Bool.or_eq_true, not_or, decide_eq_true_eq] at hd
        omega
      split at h
      · simp at h; subst h; trivial
      · split at h
        · simp at h; subst h
          refine ⟨hd', by simp, ?_⟩
          intro i hi; simp at hi; rcases hi with rfl | rfl <;> simp [Nat.add_comm]
        · split at h
          · simp at h; subst h; rfl
          · split at h
            · simp at h; subst h
              refine ⟨hd', by simp, ?_⟩
              intro i hi; simp at hi; subst hi; rfl
            · simp at h; subst h
              refine ⟨hd', by simp, ?_⟩
              intro i hi; simp at hi; subst hi; rfl

theorem stepItem_not_timeout (θ : K → K) (Imin Imax : Int) (q : Item K) :
    stepItem θ Imin Imax q ≠ .timeout ∧ ∀ m, stepItem θ Imin Imax q ≠ .throws m := by
  have hT : ∀ x : Option Int, (∃ i, toInt x = .ok i) ∨ (∃ w, toInt x = .ub w) := by
    intro x; cases x <;> simp [toInt]
  unfold stepItem
  rcases hT (CInt.ceil q.ta) with ⟨ia, h1⟩ | ⟨w, h1⟩
  · rcases hT (CInt.ceil q.tb) with ⟨ib, h2⟩ | ⟨w, h2⟩
    · simp only [h1, h2, Outcome.bind_ok]
      split
      · simp
      · split
        · simp
        · split
          · simp
          · split
            · simp
            · split
              · simp
              · split <;> simp
    · simp [h1, h2]
  · simp [h1]

theorem push_weight (q : Item K) (items : List (Item K)) (hd : q.depth ≤ 30) (hl : items.length ≤ 2)
    (hi : ∀ i ∈ items, i.depth = q.depth + 1) : wgts items + 1 ≤ wgt q := by
  have h1 : wgts items ≤ items.length * (2 ^ (31 - q.depth) - 1) := by
    clear hl
    induction items with
    | nil => simp [wgts]
    | cons i l ih =>
      have h := hi i (by simp)
      have := ih (fun i hi' => hi i (by simp [hi']))
      simp only [wgts, List.map_cons, List.sum_cons, List.length_cons] at this ⊢
      have e : wgt i = 2 ^ (31 - q.depth) - 1 := by
        unfold wgt; rw [h]; congr 2; omega
      rw [e, Nat.add_mul]; omega
  have h2 : items.length * (2 ^ (31 - q.depth) - 1) ≤ 2 * (2 ^ (31 - q.depth) - 1) :=
    Nat.mul_le_mul_right _ hl
  have h3 : 2 ^ (32 - q.depth) = 2 * 2 ^ (31 - q.depth) := by
    rw [show 32 - q.depth = (31 - q.depth) + 1 by omega, Nat.pow_succ]; omega
  have h4 : 1 ≤ 2 ^ (31 - q.depth) := Nat.one_le_two_pow
  unfold wgt
  omega

theorem loop_terminates (θ : K → K) (nw : K → Outcome (Int × K)) (hnw : ∀ c, nw c ≠ .timeout)
    (Imin Imax : Int) : ∀ (fuel : Nat) (qs : List (Item K)) (acc : Found K),
    wgts qs ≤ fuel → (∀ q ∈ qs, q.depth ≤ 31) → searchLoop θ nw Imin Imax fuel qs acc ≠ .timeout := by
  intro fuel
  induction fuel with
  | zero =>
    intro qs acc hw hd
    cases qs with
    | nil => simp [searchLoop]
    | cons q qs =>
      exfalso
      have h1 : 1 ≤ wgt q := by
        have := hd q (by simp)
        unfold wgt
        have : 2 ^ 1 ≤ 2 ^ (32 - q.depth) := Nat.pow_le_pow_right (by omega) (by omega)
        omega
      simp only [wgts, List.map_cons, List.sum_cons] at hw
      omega
  | succ fuel ih =>
    intro qs acc hw hd
    cases qs with
    | nil => simp [searchLoop]
    | cons q qs =>
      have h1 : 1 ≤ wgt q := by
        have := hd q (by simp)
        unfold wgt
        have : 2 ^ 1 ≤ 2 ^ (32 - q.depth) := Nat.pow_le_pow_right (by omega) (by omega)
        omega
      simp only [wgts, List.map_cons, List.sum_cons] at hw
      have hd' : ∀ q ∈ qs, q.depth ≤ 31 := fun q hq => hd q (by simp [hq])
      unfold searchLoop
      cases hs : stepItem θ Imin Imax q with
      | timeout => exact absurd hs (stepItem_not_timeout θ Imin Imax q).1
      | throws m => exact absurd hs ((stepItem_not_timeout θ Imin Imax q).2 m)
      | ub w => simp
      | ok act =>
        have hsh := stepItem_shape θ Imin Imax q act hs
        simp only [Outcome.bind_ok]
        cases act with
        | skip => exact ih _ _ (by simp only [wgts]; omega) hd'
        | drop e => exact ih _ _ (by simp only [wgts]; omega) hd'
        | cand c e =>
          simp only []
          cases hn : nw c.c with
          | timeout => exact absurd hn (hnw _)
          | throws m => simp
          | ub w => simp
          | ok v => simp only [Outcome.bind_ok]; exact ih _ _ (by simp only [wgts]; omega) hd'
        | push items e =>
          simp only [] at hsh ⊢
          have := push_weight q items hsh.1 hsh.2.1 hsh.2.2
          refine ih _ _ ?_ ?_
          · simp only [wgts, List.map_append, List.sum_append] at this ⊢; omega
          · intro i hi
            rcases List.mem_append.mp hi with h | h
            · exact hd' i h
            · rw [hsh.2.2 i h]; omega

theorem loop_mono (θ : K → K) (nw : K → Outcome (Int × K)) (Imin Imax : Int) :
    ∀ (fuel k : Nat) (qs : List (Item K)) (acc : Found K),
    searchLoop θ nw Imin Imax fuel qs acc ≠ .timeout →
    searchLoop θ nw Imin Imax (fuel + k) qs acc = searchLoop θ nw Imin Imax fuel qs acc := by
  intro fuel
  induction fuel with
  | zero =>
    intro k qs acc h
    cases qs with
    | nil => cases k <;> simp [searchLoop]
    | cons q qs => simp [searchLoop] at h
  | succ fuel ih =>
    intro k qs acc h
    cases qs with
    | nil => rw [show fuel + 1 + k = (fuel + k) + 1 by omega]; simp [searchLoop]
    | cons q qs =>
      rw [show fuel + 1 + k = (fuel + k) + 1 by omega]
      unfold searchLoop at h ⊢
      cases hs : stepItem θ Imin Imax q with
      | timeout => rfl
      | throws m => rfl
      | ub w => rfl
      | ok act =>
        rw [hs] at h
        simp only [Outcome.bind_ok] at h ⊢
        cases act with
        | skip => exact ih _ _ _ h
        | drop e => exact ih _ _ _ h
        | push items e => exact ih _ _ _ h
        | cand c e =>
          simp only [] at h ⊢
          cases hn : nw c.c with
          | timeout => rfl
          | throws m => rfl
          | ub w => rfl
          | ok v => rw [hn] at h; simp only [Outcome.bind_ok] at h ⊢; exact ih _ _ _ h

/-- Induction principle for the loop: a predicate on the queue and the accumulator that is preserved
by every kind of iteration holds at the end (with an empty queue). -/
theorem loop_induct (θ : K → K) (nw : K → Outcome (Int × K)) (Imin Imax : Int)
    (R : List (Item K) → Found K → Prop)
    (hskip : ∀ q qs acc, R (q :: qs) acc → stepItem θ Imin Imax q = .ok .skip → R qs acc)
    (hdrop : ∀ q qs acc e, R (q :: qs) acc → stepItem θ Imin Imax q = .ok (.drop e) →
      R qs {acc with evals := acc.evals ++ [e]})
    (hpush : ∀ q qs acc items e, R (q :: qs) acc → stepItem θ Imin Imax q = .ok (.push items e) →
      R (qs ++ items) {acc with evals := acc.evals ++ [e]})
    (hcand : ∀ q qs acc c e v, R (q :: qs) acc → stepItem θ Imin Imax q = .ok (.cand c e) →
      nw c.c = .ok v → R qs ⟨acc.eigs ++ [v], acc.cands ++ [c], acc.evals ++ e.toList⟩) :
    ∀ (fuel : Nat) (qs : List (Item K)) (acc f : Found K),
    searchLoop θ nw Imin Imax fuel qs acc = .ok f → R qs acc → R [] f := by
  intro fuel
  induction fuel with
  | zero =>
    intro qs acc f h hR
    cases qs with
    | nil => simp [searchLoop] at h; subst h; exact hR
    | cons q qs => simp [searchLoop] at h
  | succ fuel ih =>
    intro qs acc f h hR
    cases qs with
    | nil => simp [searchLoop] at h; subst h; exact hR
    | cons q qs =>
      unfold searchLoop at h
      obtain ⟨act, hs, h⟩ := Outcome.bind_eq_ok.mp h
      cases act with
      | skip => exact ih _ _ _ h (hskip q qs acc hR hs)
      | drop e => exact ih _ _ _ h (hdrop q qs acc e hR hs)
      | push items e => exact ih _ _ _ h (hpush q qs acc items e hR hs)
      | cand c e =>
        simp only [] at h
        obtain ⟨v, hn, h⟩ := Outcome.bind_eq_ok.mp h
        exact ih _ _ _ h (hcand q qs acc c e v hR hs hn)

/-! ### sorting -/

theorem insertE_perm (x : Int × K) (l : List (Int × K)) : (insertE x l).Perm (x :: l) := by
  induction l with
  | nil => exact List.Perm.refl _
  | cons y ys ih =>
    unfold insertE
    split
    · exact List.Perm.refl _
    · exact (ih.cons y).trans (List.Perm.swap x y ys)

theorem sortE_perm (l : List (Int × K)) : (sortE l).Perm l := by
  induction l with
  | nil => exact List.Perm.refl _
  | cons x xs ih =>
    exact (insertE_perm x (sortE xs)).trans (ih.cons x)

end any

/-! ### exact arithmetic -/
section exact
variable {K : Type} [Field K] [LinearOrder K] [IsStrictOrderedRing K] [FloorRing K]

theorem pairLe_iff (x y : Int × K) : pairLe x y = true ↔ x.1 < y.1 ∨ (x.1 = y.1 ∧ x.2 ≤ y.2) := by
  unfold pairLe
  simp only [ccmp_lt, Bool.not_eq_true', Bool.or_eq_false_iff, decide_eq_false_iff_not,
    Bool.and_eq_false_iff, beq_eq_false_iff_ne, not_lt, ne_eq]
  constructor
  · rintro ⟨h1, h2⟩
    rcases h1.lt_or_eq with h | h
    · exact .inl h
    · refine .inr ⟨h, ?_⟩
      rcases h2 with h2 | h2
      · exact absurd h.symm h2
      · exact h2
  · rintro (h | ⟨h1, h2⟩)
    · exact ⟨h.le, .inl (by omega)⟩
    · exact ⟨h1.le, .inr h2⟩

theorem pairLe_total (x y : Int × K) : pairLe x y = true ∨ pairLe y x = true := by
  rw [pairLe_iff, pairLe_iff]
  rcases lt_trichotomy x.1 y.1 with h | h | h
  · exact .inl (.inl h)
  · rcases le_total x.2 y.2 with h' | h'
    · exact .inl (.inr ⟨h, h'⟩)
    · exact .inr (.inr ⟨h.symm, h'⟩)
  · exact .inr (.inl h)

theorem pairLe_trans {x y z : Int × K} (h1 : pairLe x y = true) (h2 : pairLe y z = true) :
    pairLe x z = true := by
  rw [pairLe_iff] at *
  rcases h1 with h1 | ⟨h1, h1'⟩ <;> rcases h2 with h2 | ⟨h2, h2'⟩
  · exact .inl (h1.trans h2)
  · exact .inl (h2 ▸ h1)
  · exact .inl (h1 ▸ h2)
  · exact .inr ⟨h1.trans h2, h1'.trans h2'⟩

theorem insertE_sorted (x : Int × K) (l : List (Int × K))
    (h : l.Pairwise (fun u v => pairLe u v = true)) :
    (insertE x l).Pairwise (fun u v => pairLe u v = true) := by
  induction l with
  | nil => simp [insertE]
  | cons y ys ih =>
    rw [List.pairwise_cons] at h
    unfold insertE
    split
    · rename_i hxy
      rw [List.pairwise_cons]
      refine ⟨?_, List.pairwise_cons.mpr h⟩
      intro z hz
      rcases List.mem_cons.mp hz with rfl | hz
      · exact hxy
      · exact pairLe_trans hxy (h.1 z hz)
    · rename_i hxy
      rw [List.pairwise_cons]
      refine ⟨?_, ih h.2⟩
      intro z hz
      rcases List.mem_cons.mp ((insertE_perm x ys).mem_iff.mp hz) with rfl | hz
      · exact (pairLe_total z y).resolve_left hxy
      · exact h.1 z hz

theorem sortE_sorted (l : List (Int × K)) :
    (sortE l).Pairwise (fun u v => pairLe u v = true) := by
  induction l with
  | nil => exact List.Pairwise.nil
  | cons x xs ih => exact insertE_sorted x _ ih

theorem absK_eq (x : K) : absK x = |x| := by
  unfold absK
  simp only [ccmp_lt, decide_eq_true_eq]
  split
  · rename_i h; rw [abs_of_neg h]
  · rename_i h; rw [abs_of_nonneg (not_lt.mp h)]

/-- The outcome of one iteration in exact arithmetic, case by case. -/
theorem stepItem_exact (θ : K → K) (Imin Imax : Int) (q : Item K) :
    let ia := ⌈q.ta⌉
    let ib := ⌈q.tb⌉
    let c := trial q ia ib
    let tc := θ c
    stepItem θ Imin Imax q = .ok (
      if q.tb ≤ q.ta ∨ ia = ib ∨ ib ≤ Imin ∨ Imax ≤ ia then .skip
      else if (q.tb - q.ta < 1 / 100 ∧ 3 < q.depth) ∨ 30 < q.depth then .cand ⟨q, ia, c⟩ none
      else if ia + 1 < ib then
        .push [⟨q.a, q.ta, c, tc, 1 + q.depth⟩, ⟨c, tc, q.b, q.tb, 1 + q.depth⟩] c
      else if |tc - ia| < 1 / 100000000 then .cand ⟨q, ia, c⟩ (some c)
      else if (q.ta - ia) * (tc - ia) < 0 then .push [⟨q.a, q.ta, c, tc, q.depth + 1⟩] c
      else .push [⟨c, tc, q.b, q.tb, q.depth + 1⟩] c) := by
  intro ia ib c tc
  unfold stepItem
  have e1 : (CInt.ceil q.ta) = some ia := rfl
  have e2 : (CInt.ceil q.tb) = some ib := rfl
  simp only [e1, e2, toInt, Outcome.bind_ok, ccmp_le, ccmp_lt, ccmp_lit, absK_eq, isNaN, ccmp_eq,
    Outcome.pure_eq, Rat.cast_intCast, Bool.or_eq_true, Bool.and_eq_true, decide_eq_true_eq,
    beq_iff_eq, decide_true, Bool.not_true, Bool.false_eq_true, if_false, gt_iff_lt]
  have e3 : ((1 / 100 : ℚ) : K) = 1 / 100 := by push_cast; ring
  have e4 : ((1 / 100000000 : ℚ) : K) = 1 / 100000000 := by push_cast; ring
  simp only [e3, e4, or_assoc]
  split
  · rfl
  · split
    · rfl
    · split
      · rfl
      · split
        · rfl
        · split <;> rfl

/-- The trial point lies in the bracket. -/
theorem trial_mem (q : Item K) (hab : q.a ≤ q.b) (hlt : q.ta < q.tb) (hne : ⌈q.ta⌉ ≠ ⌈q.tb⌉) :
    q.a ≤ trial q ⌈q.ta⌉ ⌈q.tb⌉ ∧ trial q ⌈q.ta⌉ ⌈q.tb⌉ ≤ q.b ∧
      (q.a < q.b → q.ta < ⌈q.ta⌉ →
        q.a < trial q ⌈q.ta⌉ ⌈q.tb⌉ ∧ trial q ⌈q.ta⌉ ⌈q.tb⌉ < q.b) := by
  have hle : q.ta ≤ ⌈q.ta⌉ := Int.le_ceil _
  have hgt : (⌈q.ta⌉ : K) < q.tb := by
    rw [← Int.lt_ceil]
    exact lt_of_le_of_ne (Int.ceil_le_ceil hlt.le) hne
  unfold trial
  simp only [ccmp_lt, ccmp_lit, Rat.cast_intCast]
  have e1 : ((1 / 2 : ℚ) : K) = 1 / 2 := by push_cast; ring
  split
  · rw [e1]
    refine ⟨by linarith, by linarith, fun h _ => ⟨by linarith, by linarith⟩⟩
  · set i : K := (⌈q.ta⌉ : K) with hi
    have hpos : 0 < q.tb - q.ta := by linarith
    have h1 : 0 ≤ i - q.ta := by linarith
    have h2 : 0 < q.tb - i := by linarith
    refine ⟨?_, ?_, fun hab' hta => ⟨?_, ?_⟩⟩
    · rw [le_div_iff₀ hpos]; nlinarith
    · rw [div_le_iff₀ hpos]; nlinarith
    · rw [lt_div_iff₀ hpos]; nlinarith
    · rw [div_lt_iff₀ hpos]; nlinarith

/-- Multi-eigenvalue brackets are bisected at the midpoint. -/
theorem trial_mid (q : Item K) (h : ⌈q.ta⌉ + 1 < ⌈q.tb⌉) :
    trial q ⌈q.ta⌉ ⌈q.tb⌉ = (q.a + q.b) / 2 := by
  unfold trial
  simp only [h, decide_true, Bool.true_or, if_true, ccmp_lit]
  push_cast; ring

end exact
end Verif.Search
