import Verif.Lemmas.Search
import Mathlib.Algebra.Order.Floor.Semiring
import Mathlib.Tactic.NormNum
import Mathlib.RingTheory.Int.Basic
import Mathlib.Data.Int.NatPrime

/-!
# C18–C25: the eigenvalue search
-/
set_option linter.unusedSectionVars false
namespace Verif.Search

section any
variable {K : Type} [Add K] [Sub K] [Mul K] [Div K] [Neg K] [Zero K] [CCmp K] [CInt K]

/-! ## C18 -/

/-- **C18**: with `Imin < 0` or `Imax < Imin` no list is ever returned — whatever the matching
function and the arithmetic. -/
theorem C18_bad_indices_never_return (θ : K → K) (nw : K → Outcome (Int × K)) (Imin Imax : Int)
    (h : Imin < 0 ∨ Imax < Imin) (fuel : Nat) :
    (eigenvaluesByIndex θ nw Imin Imax fuel).isOk = false := by
  unfold eigenvaluesByIndex
  cases window θ Imin Imax fuel with
  | ok w =>
    simp only [Outcome.bind_ok, helper]
    rcases h with h | h
    · simp [h, Outcome.isOk]
    · by_cases h0 : Imin < 0 <;> simp [h, h0, Outcome.isOk]
  | throws m => rfl
  | ub w => rfl
  | timeout => rfl

/-- **C18**: once the energy window has been found, bad indices do raise the exception. -/
theorem C18_bad_indices_throw (θ : K → K) (nw : K → Outcome (Int × K)) (Imin Imax : Int)
    (h : Imin < 0 ∨ Imax < Imin) (fuel : Nat) (hw : (window θ Imin Imax fuel).isOk = true) :
    (eigenvaluesByIndex θ nw Imin Imax fuel).isThrow = true := by
  unfold eigenvaluesByIndex
  cases hW : window θ Imin Imax fuel with
  | ok w =>
    simp only [Outcome.bind_ok, helper]
    rcases h with h | h
    · simp [h, Outcome.isThrow]
    · by_cases h0 : Imin < 0 <;> simp [h, h0, Outcome.isThrow]
  | throws m => rw [hW] at hw; simp [Outcome.isOk] at hw
  | ub w => rw [hW] at hw; simp [Outcome.isOk] at hw
  | timeout => rw [hW] at hw; simp [Outcome.isOk] at hw

theorem toInt_not_throw (x : Option Int) (m : String) : toInt x ≠ .throws m := by
  cases x <;> simp [toInt]

theorem expandMax_not_throw (θ : K → K) (Imin Imax : Int) (m : String) :
    ∀ (fuel : Nat) (w : K × K), expandMax θ Imin Imax fuel w ≠ .throws m := by
  intro fuel
  induction fuel with
  | zero =>
    intro w; obtain ⟨a, b⟩ := w; unfold expandMax
    cases h : toInt (CInt.floor (θ b)) with
    | ok i => simp only [Outcome.bind_ok]; split <;> simp
    | throws m' => exact absurd h (toInt_not_throw _ _)
    | ub w => simp
    | timeout => simp
  | succ fuel ih =>
    intro w; obtain ⟨a, b⟩ := w; unfold expandMax
    cases h : toInt (CInt.floor (θ b)) with
    | ok i => simp only [Outcome.bind_ok]; split
              · simp
              · exact ih _
    | throws m' => exact absurd h (toInt_not_throw _ _)
    | ub w => simp
    | timeout => simp

theorem expandMin_not_throw (θ : K → K) (Imin Imax : Int) (m : String) :
    ∀ (fuel : Nat) (w : K × K), expandMin θ Imin Imax fuel w ≠ .throws m := by
  intro fuel
  induction fuel with
  | zero =>
    intro w; obtain ⟨a, b⟩ := w; unfold expandMin
    cases h : toInt (CInt.ceil (θ a)) with
    | ok i => simp only [Outcome.bind_ok]; split <;> simp
    | throws m' => exact absurd h (toInt_not_throw _ _)
    | ub w => simp
    | timeout => simp
  | succ fuel ih =>
    intro w; obtain ⟨a, b⟩ := w; unfold expandMin
    cases h : toInt (CInt.ceil (θ a)) with
    | ok i => simp only [Outcome.bind_ok]; split
              · simp
              · exact ih _
    | throws m' => exact absurd h (toInt_not_throw _ _)
    | ub w => simp
    | timeout => simp

theorem loop_not_throw (θ : K → K) (nw : K → Outcome (Int × K)) (Imin Imax : Int) (m : String)
    (hnw : ∀ c, nw c ≠ .throws m) :
    ∀ (fuel : Nat) (qs : List (Item K)) (acc : Found K),
      searchLoop θ nw Imin Imax fuel qs acc ≠ .throws m := by
  intro fuel
  induction fuel with
  | zero => intro qs acc; cases qs <;> simp [searchLoop]
  | succ fuel ih =>
    intro qs acc
    cases qs with
    | nil => simp [searchLoop]
    | cons q qs =>
      unfold searchLoop
      cases hs : stepItem θ Imin Imax q with
      | timeout => simp
      | ub w => simp
      | throws m' => exact absurd hs ((stepItem_not_timeout θ Imin Imax q).2 m')
      | ok act =>
        simp only [Outcome.bind_ok]
        cases act with
        | skip => exact ih _ _
        | drop e => exact ih _ _
        | push i e => exact ih _ _
        | cand c e =>
          simp only []
          cases hn : nw c.c with
          | ok v => simp only [Outcome.bind_ok]; exact ih _ _
          | throws m' => intro heq; simp only [Outcome.bind_throws] at heq; exact hnw c.c (hn.trans (by injection heq with heq; rw [heq]))
          | ub w => simp
          | timeout => simp

/-- The Newton polishing never throws. -/
theorem newton_not_throw (me : K → K × K × K) (pi tol E : K) (m : String) :
    newton me pi tol E ≠ .throws m := by
  unfold newton
  cases h : toInt (CInt.round ((newtonLoop me tol 19 E).2.1 / pi)) with
  | ok i => simp [h]
  | throws m' => exact absurd h (toInt_not_throw _ _)
  | ub w => simp [h]
  | timeout => simp [h]

/-- **C18**: for valid indices `eigenvaluesByIndex` never throws. -/
theorem C18_valid_indices_never_throw (θ : K → K) (me : K → K × K × K) (pi tol : K) (Imin Imax : Int)
    (h0 : 0 ≤ Imin) (h1 : Imin ≤ Imax) (fuel : Nat) :
    (eigenvaluesByIndex θ (newton me pi tol) Imin Imax fuel).isThrow = false := by
  have hW : ∀ m, window θ Imin Imax fuel ≠ .throws m := by
    intro m
    unfold window
    cases h : expandMax θ Imin Imax fuel (CCmp.lit (-1), CCmp.lit 1) with
    | ok w => simp only [Outcome.bind_ok]; split
              · exact expandMin_not_throw θ Imin Imax m fuel w
              · simp
    | throws m' => exact absurd h (expandMax_not_throw _ _ _ _ _ _)
    | ub w => simp
    | timeout => simp
  unfold eigenvaluesByIndex
  cases hw : window θ Imin Imax fuel with
  | throws m => exact absurd hw (hW m)
  | ub w => rfl
  | timeout => rfl
  | ok w =>
    simp only [Outcome.bind_ok, helper, show ¬ Imin < 0 by omega, show ¬ Imax < Imin by omega,
      if_false]
    cases hl : searchLoop θ (newton me pi tol) Imin Imax fuel
        [⟨w.1, θ w.1, w.2, θ w.2, 0⟩] ⟨[], [], [w.1, w.2]⟩ with
    | ok f => rfl
    | ub w => rfl
    | timeout => rfl
    | throws m => exact absurd hl (loop_not_throw θ _ Imin Imax m (fun c => newton_not_throw me pi tol c m) _ _ _)

/-! ## C19 -/

/-- **C19**: the search always terminates: whatever the matching function does (NaN, jumps, not
monotone) and whatever the arithmetic, `2 ^ 32 - 1` loop iterations are enough, and extra fuel does not
change the result. `nw` is any polishing routine that itself terminates. -/
theorem C19_search_terminates (θ : K → K) (nw : K → Outcome (Int × K)) (hnw : ∀ c, nw c ≠ .timeout)
    (Emin Emax : K) (Imin Imax : Int) (fuel : Nat) (hf : 2 ^ 32 - 1 ≤ fuel) :
    helper θ nw Emin Emax Imin Imax fuel ≠ .timeout ∧
    helper θ nw Emin Emax Imin Imax fuel = helper θ nw Emin Emax Imin Imax (2 ^ 32 - 1) := by
  unfold helper
  split
  · simp
  · split
    · simp
    · have h := loop_terminates θ nw hnw Imin Imax (2 ^ 32 - 1) [⟨Emin, θ Emin, Emax, θ Emax, 0⟩]
        ⟨[], [], [Emin, Emax]⟩ (by simp [wgts, wgt]) (by simp)
      obtain ⟨k, rfl⟩ : ∃ k, fuel = 2 ^ 32 - 1 + k := ⟨fuel - (2 ^ 32 - 1), by omega⟩
      rw [loop_mono θ nw Imin Imax (2 ^ 32 - 1) k _ _ h]
      refine ⟨?_, rfl⟩
      cases hc : searchLoop θ nw Imin Imax (2 ^ 32 - 1) [⟨Emin, θ Emin, Emax, θ Emax, 0⟩]
        ⟨[], [], [Emin, Emax]⟩ with
      | timeout => exact absurd hc h
      | ok f => simp
      | throws m => simp
      | ub w => simp

/-- **C19**: subdivision never goes deeper than 31 levels. -/
theorem C19_depth_bound (θ : K → K) (nw : K → Outcome (Int × K)) (Emin Emax : K) (Imin Imax : Int)
    (fuel : Nat) (L : List (Int × K)) (f : Found K)
    (h : helper θ nw Emin Emax Imin Imax fuel = .ok (L, f)) : ∀ c ∈ f.cands, c.item.depth ≤ 31 := by
  unfold helper at h
  split at h
  · simp at h
  · split at h
    · simp at h
    · obtain ⟨f', hl, h⟩ := Outcome.bind_eq_ok.mp h
      simp at h
      obtain ⟨-, rfl⟩ := h
      have := loop_induct θ nw Imin Imax
        (fun qs acc => (∀ q ∈ qs, q.depth ≤ 31) ∧ ∀ c ∈ acc.cands, c.item.depth ≤ 31)
        (fun q qs acc hR _ => ⟨fun x hx => hR.1 x (by simp [hx]), hR.2⟩)
        (fun q qs acc e hR _ => ⟨fun x hx => hR.1 x (by simp [hx]), hR.2⟩)
        (fun q qs acc items e hR hs => by
          have := stepItem_shape θ Imin Imax q _ hs
          refine ⟨fun x hx => ?_, hR.2⟩
          rcases List.mem_append.mp hx with hx | hx
          · exact hR.1 x (by simp [hx])
          · simp only [] at this; rw [this.2.2 x hx]; omega)
        (fun q qs acc c e v hR hs _ => by
          have := stepItem_shape θ Imin Imax q _ hs
          refine ⟨fun x hx => hR.1 x (by simp [hx]), ?_⟩
          intro x hx
          simp only [List.mem_append, List.mem_singleton] at hx
          rcases hx with hx | rfl
          · exact hR.2 x hx
          · simp only [] at this; rw [this]; exact hR.1 q (by simp))
        fuel _ _ _ hl ⟨by simp, by simp⟩
      exact this.2

/-! ## C20 -/

/-- **C20** (any arithmetic): the returned list is a permutation of the polished candidates: one
result per candidate, each the Newton polishing of that candidate's energy. -/
theorem C20_permutation_of_polished (θ : K → K) (nw : K → Outcome (Int × K)) (Emin Emax : K)
    (Imin Imax : Int) (fuel : Nat) (L : List (Int × K)) (f : Found K)
    (h : helper θ nw Emin Emax Imin Imax fuel = .ok (L, f)) :
    L.Perm f.eigs ∧ List.Forall₂ (fun (c : Cand K) (v : Int × K) => nw c.c = .ok v) f.cands f.eigs := by
  unfold helper at h
  split at h
  · simp at h
  · split at h
    · simp at h
    · obtain ⟨f', hl, h⟩ := Outcome.bind_eq_ok.mp h
      simp at h
      obtain ⟨rfl, rfl⟩ := h
      refine ⟨sortE_perm _, ?_⟩
      exact loop_induct θ nw Imin Imax
        (fun _ acc => List.Forall₂ (fun (c : Cand K) (v : Int × K) => nw c.c = .ok v) acc.cands acc.eigs)
        (fun _ _ _ hR _ => hR) (fun _ _ _ _ hR _ => hR) (fun _ _ _ _ _ hR _ => hR)
        (fun q qs acc c e v hR _ hn => List.rel_append hR (List.Forall₂.cons hn List.Forall₂.nil))
        fuel _ _ _ hl List.Forall₂.nil

/-! ## C24 -/

/-- The `i`-th Newton iterate: `E_{i+1} = E_i - error(E_i) / error'(E_i)`. -/
def iterate (me : K → K × K × K) (E : K) : Nat → K
  | 0 => E
  | i + 1 => iterate me E i - (me (iterate me E i)).1 / (me (iterate me E i)).2.1

theorem iterate_shift (me : K → K × K × K) (E : K) (i : Nat) :
    iterate me (E - (me E).1 / (me E).2.1) i = iterate me E (i + 1) := by
  induction i with
  | zero => rfl
  | succ i ih => simp only [iterate] at ih ⊢; rw [ih]

/-- the size of the `i`-th correction -/
def correction (me : K → K × K × K) (E : K) (i : Nat) : K :=
  absK ((me (iterate me E i)).1 / (me (iterate me E i)).2.1)

theorem newtonLoop_spec (me : K → K × K × K) (tol : K) : ∀ (n : Nat) (E : K),
    ∃ m, 1 ≤ m ∧ m ≤ n + 1 ∧ (newtonLoop me tol n E).1 = iterate me E m ∧
      (newtonLoop me tol n E).2.1 = (me (iterate me E (m - 1))).2.2 ∧
      (newtonLoop me tol n E).2.2 = (List.range m).map (iterate me E) ∧
      (∀ i, i + 1 < m → CCmp.lt tol (correction me E i) = true) ∧
      (m = n + 1 ∨ CCmp.lt tol (correction me E (m - 1)) = false) := by
  intro n
  induction n with
  | zero =>
    intro E
    exact ⟨1, le_rfl, le_rfl, rfl, rfl, rfl, fun i hi => by omega, .inl rfl⟩
  | succ n ih =>
    intro E
    by_cases h : CCmp.lt tol (absK ((me E).1 / (me E).2.1)) = true
    · obtain ⟨m, h1, h2, h3, h4, h5, h6, h7⟩ := ih (E - (me E).1 / (me E).2.1)
      obtain ⟨m, rfl⟩ : ∃ m', m = m' + 1 := ⟨m - 1, by omega⟩
      refine ⟨m + 1 + 1, by omega, by omega, ?_, ?_, ?_, ?_, ?_⟩
      · unfold newtonLoop; simp only [h, if_true]; rw [h3, iterate_shift]
      · unfold newtonLoop; simp only [h, if_true]; rw [h4]
        simp only [Nat.add_sub_cancel, iterate_shift]
      · unfold newtonLoop; simp only [h, if_true]; rw [h5, List.range_succ_eq_map (n := m + 1)]
        simp only [List.map_cons, List.map_map]
        congr 1
        refine List.map_congr_left fun i _ => ?_
        exact iterate_shift me E i
      · intro i hi
        cases i with
        | zero => exact h
        | succ i =>
          have := h6 i (by omega)
          unfold correction at this ⊢
          rwa [iterate_shift] at this
      · rcases h7 with h7 | h7
        · left; omega
        · right
          unfold correction at h7 ⊢
          rw [iterate_shift] at h7
          exact h7
    · refine ⟨1, le_rfl, by omega, ?_, ?_, ?_, fun i hi => by omega, ?_⟩
      · unfold newtonLoop; simp only [h, Bool.false_eq_true, if_false]; rfl
      · unfold newtonLoop; simp only [h, Bool.false_eq_true, if_false]; rfl
      · unfold newtonLoop; simp only [h, Bool.false_eq_true, if_false]; rfl
      · right; simpa [correction, iterate] using h

/-- **C24**: Newton polishing returns the `m`-th Newton iterate for some `1 ≤ m ≤ 20`; it evaluated the
matching error at exactly the iterates `0 … m-1`; it stopped before 20 evaluations only because the last
correction was not larger than the tolerance (a NaN correction counts as "not larger"), all
earlier corrections were larger; and the reported index is the rounded angle at the last evaluation, but
never negative. Holds for every matching function and every arithmetic. -/
theorem C24_newton (me : K → K × K × K) (pi tol E : K) (idx : Int) (E' : K)
    (h : newton me pi tol E = .ok (idx, E')) :
    ∃ m, 1 ≤ m ∧ m ≤ 20 ∧ E' = iterate me E m ∧
      (newtonLoop me tol 19 E).2.2 = (List.range m).map (iterate me E) ∧
      (m < 20 → CCmp.lt tol (correction me E (m - 1)) = false) ∧
      (∀ i, i + 1 < m → CCmp.lt tol (correction me E i) = true) ∧
      0 ≤ idx ∧
      ∃ k, CInt.round ((me (iterate me E (m - 1))).2.2 / pi) = some k ∧ idx = max 0 k := by
  obtain ⟨m, h1, h2, h3, h4, h5, h6, h7⟩ := newtonLoop_spec me tol 19 E
  unfold newton at h
  obtain ⟨k, hk, h⟩ := Outcome.bind_eq_ok.mp h
  simp only [Outcome.pure_eq, Outcome.ok.injEq, Prod.mk.injEq] at h
  obtain ⟨h8, h9⟩ := h
  have hmax : idx = max 0 k := by rw [← h8]; split <;> omega
  refine ⟨m, h1, by omega, by rw [← h9, h3], h5, ?_, h6, by rw [hmax]; exact le_max_left _ _, k, ?_, hmax⟩
  · intro hm
    rcases h7 with h7 | h7
    · omega
    · exact h7
  · rw [h4] at hk
    cases hc : CInt.round ((me (iterate me E (m - 1))).2.2 / pi) with
    | none => rw [hc] at hk; simp [toInt] at hk
    | some j => rw [hc] at hk; simp [toInt] at hk; rw [hk]

end any

/-- Non-vacuity for C24: Newton on `E² - 2` with a loose tolerance takes three steps. -/
example : newton (fun E : ℚ => (E * E - 2, 2 * E, 7)) 3 (1/100) 1 = .ok (2, 577/408) ∧
    (newtonLoop (fun E : ℚ => (E * E - 2, 2 * E, 7)) (1/100) 19 1).2.2 = [1, 3/2, 17/12] := by
  decide +kernel

/-! ## exact arithmetic -/
section exact
variable {K : Type} [Field K] [LinearOrder K] [IsStrictOrderedRing K] [FloorRing K]

/-- **C20**: the returned list is sorted by index, equal indices by energy. -/
theorem C20_sorted (θ : K → K) (nw : K → Outcome (Int × K)) (Emin Emax : K)
    (Imin Imax : Int) (fuel : Nat) (L : List (Int × K)) (f : Found K)
    (h : helper θ nw Emin Emax Imin Imax fuel = .ok (L, f)) :
    L.Pairwise (fun x y => x.1 < y.1 ∨ (x.1 = y.1 ∧ x.2 ≤ y.2)) := by
  unfold helper at h
  split at h
  · simp at h
  · split at h
    · simp at h
    · obtain ⟨f', hl, h⟩ := Outcome.bind_eq_ok.mp h
      simp at h
      obtain ⟨rfl, rfl⟩ := h
      exact (sortE_sorted _).imp (fun {x y} hxy => (pairLe_iff x y).mp hxy)

/-! ## C25 -/

/-- **C25**: for every matching function, every energy handed to Newton and every energy at which the
bisection evaluates the matching function lies in `[Emin, Emax]`. -/
theorem C25_energies_inside (θ : K → K) (nw : K → Outcome (Int × K)) (Emin Emax : K)
    (hE : Emin ≤ Emax) (Imin Imax : Int) (fuel : Nat) (L : List (Int × K)) (f : Found K)
    (h : helper θ nw Emin Emax Imin Imax fuel = .ok (L, f)) :
    (∀ c ∈ f.cands, Emin ≤ c.c ∧ c.c ≤ Emax) ∧ (∀ e ∈ f.evals, Emin ≤ e ∧ e ≤ Emax) := by
  unfold helper at h
  split at h
  · simp at h
  · split at h
    · simp at h
    · obtain ⟨f', hl, h⟩ := Outcome.bind_eq_ok.mp h
      simp at h
      obtain ⟨rfl, rfl⟩ := h
      have key : ∀ (q : Item K) (act : Action K), (Emin ≤ q.a ∧ q.a ≤ q.b ∧ q.b ≤ Emax) →
          stepItem θ Imin Imax q = .ok act →
          match act with
          | .skip => True
          | .drop e => Emin ≤ e ∧ e ≤ Emax
          | .push items e => (Emin ≤ e ∧ e ≤ Emax) ∧
              ∀ i ∈ items, Emin ≤ i.a ∧ i.a ≤ i.b ∧ i.b ≤ Emax
          | .cand c e => (Emin ≤ c.c ∧ c.c ≤ Emax) ∧ ∀ x ∈ e.toList, Emin ≤ x ∧ x ≤ Emax := by
        intro q act hq hs
        rw [stepItem_exact] at hs
        simp only [Outcome.ok.injEq] at hs
        split at hs
        · subst hs; trivial
        · rename_i hns
          push Not at hns
          have ht := trial_mem q hq.2.1 hns.1 hns.2.1
          have hc : Emin ≤ trial q ⌈q.ta⌉ ⌈q.tb⌉ ∧ trial q ⌈q.ta⌉ ⌈q.tb⌉ ≤ Emax :=
            ⟨hq.1.trans ht.1, ht.2.1.trans hq.2.2⟩
          split at hs
          · subst hs; exact ⟨hc, by simp⟩
          · split at hs
            · subst hs
              refine ⟨hc, ?_⟩
              intro i hi
              simp only [List.mem_cons, List.not_mem_nil, or_false] at hi
              rcases hi with rfl | rfl
              · exact ⟨hq.1, ht.1, hc.2⟩
              · exact ⟨hc.1, ht.2.1, hq.2.2⟩
            · split at hs
              · subst hs; exact ⟨hc, by simp [hc]⟩
              · split at hs
                · subst hs
                  refine ⟨hc, ?_⟩
                  intro i hi
                  simp only [List.mem_cons, List.not_mem_nil, or_false] at hi
                  subst hi
                  exact ⟨hq.1, ht.1, hc.2⟩
                · subst hs
                  refine ⟨hc, ?_⟩
                  intro i hi
                  simp only [List.mem_cons, List.not_mem_nil, or_false] at hi
                  subst hi
                  exact ⟨hc.1, ht.2.1, hq.2.2⟩
      have := loop_induct θ nw Imin Imax
        (fun qs acc => (∀ q ∈ qs, Emin ≤ q.a ∧ q.a ≤ q.b ∧ q.b ≤ Emax) ∧
          (∀ c ∈ acc.cands, Emin ≤ c.c ∧ c.c ≤ Emax) ∧ (∀ e ∈ acc.evals, Emin ≤ e ∧ e ≤ Emax))
        (fun q qs acc hR hs => ⟨fun x hx => hR.1 x (by simp [hx]), hR.2⟩)
        (fun q qs acc e hR hs => by
          have := key q _ (hR.1 q (by simp)) hs
          refine ⟨fun x hx => hR.1 x (by simp [hx]), hR.2.1, ?_⟩
          intro x hx
          simp only [List.mem_append, List.mem_singleton] at hx
          rcases hx with hx | rfl
          · exact hR.2.2 x hx
          · exact this)
        (fun q qs acc items e hR hs => by
          have := key q _ (hR.1 q (by simp)) hs
          simp only [] at this
          refine ⟨fun x hx => ?_, hR.2.1, ?_⟩
          · rcases List.mem_append.mp hx with hx | hx
            · exact hR.1 x (by simp [hx])
            · exact this.2 x hx
          · intro x hx
            simp only [List.mem_append, List.mem_singleton] at hx
            rcases hx with hx | rfl
            · exact hR.2.2 x hx
            · exact this.1)
        (fun q qs acc c e v hR hs _ => by
          have := key q _ (hR.1 q (by simp)) hs
          simp only [] at this
          refine ⟨fun x hx => hR.1 x (by simp [hx]), ?_, ?_⟩
          · intro x hx
            simp only [List.mem_append, List.mem_singleton] at hx
            rcases hx with hx | rfl
            · exact hR.2.1 x hx
            · exact this.1
          · intro x hx
            rcases List.mem_append.mp hx with hx | hx
            · exact hR.2.2 x hx
            · exact this.2 x hx)
        fuel _ _ _ hl ⟨by simp [hE], by simp, by simp [hE]⟩
      exact this.2

/-! ## C21 -/

/-- The hypotheses of C21 on the matching angle (divided by π): strictly increasing on the interval;
eigenvalues further apart than the resolution of 31 bisections; and no dyadic subdivision point (the
left end included) is itself an eigenvalue. -/
structure Resolvable (θ : K → K) (Emin Emax : K) : Prop where
  lt : Emin < Emax
  mono : ∀ x y, Emin ≤ x → x < y → y ≤ Emax → θ x < θ y
  separated : ∀ x y, Emin ≤ x → x ≤ y → y ≤ Emax → y - x ≤ (Emax - Emin) / 2 ^ 31 →
    ⌈θ y⌉ ≤ ⌈θ x⌉ + 1
  generic : ∀ j m : Nat, j ≤ 31 → m < 2 ^ j → ∀ k : Int,
    θ (Emin + (Emax - Emin) * m / 2 ^ j) ≠ k

/-- How many times index `k` is still to be found in a queue entry. -/
def todo (Imin Imax : Int) (k : Int) (q : Item K) : Nat :=
  if Imin ≤ k ∧ k < Imax ∧ q.ta < k ∧ (k : K) < q.tb then 1 else 0

/-- Invariant of a queue entry. -/
structure ItemInv (θ : K → K) (Emin Emax : K) (q : Item K) : Prop where
  lo : Emin ≤ q.a
  lt : q.a < q.b
  hi : q.b ≤ Emax
  ta : q.ta = θ q.a
  tb : q.tb = θ q.b
  depth : q.depth ≤ 31
  nonint : ∀ k : Int, q.ta ≠ k
  dyadic : ⌈q.ta⌉ + 1 < ⌈q.tb⌉ → ∃ m : Nat, m + 1 ≤ 2 ^ q.depth ∧
    q.a = Emin + (Emax - Emin) * m / 2 ^ q.depth ∧ q.b = q.a + (Emax - Emin) / 2 ^ q.depth

theorem lt_ceil_of_nonint {x : K} (h : ∀ k : Int, x ≠ k) : x < ⌈x⌉ :=
  lt_of_le_of_ne (Int.le_ceil x) (h _)

theorem todo_single {Imin Imax : Int} {q : Item K} (hn : ∀ k : Int, q.ta ≠ k)
    (h1 : ⌈q.tb⌉ = ⌈q.ta⌉ + 1) (h2 : Imin < ⌈q.tb⌉) (h3 : ⌈q.ta⌉ < Imax) (k : Int) :
    todo Imin Imax k q = if k = ⌈q.ta⌉ then 1 else 0 := by
  unfold todo
  by_cases hk : k = ⌈q.ta⌉
  · subst hk
    have : (⌈q.ta⌉ : K) < q.tb := by rw [← Int.lt_ceil, h1]; omega
    simp only [if_true]
    rw [if_pos ⟨by omega, h3, lt_ceil_of_nonint hn, this⟩]
  · rw [if_neg, if_neg hk]
    rintro ⟨-, -, h4, h5⟩
    have h4' : ⌈q.ta⌉ ≤ k := Int.ceil_le.mpr h4.le
    have h5' : k < ⌈q.tb⌉ := Int.lt_ceil.mpr h5
    omega

/-- One iteration of the search on a resolvable problem. -/
theorem step_resolvable {θ : K → K} {Emin Emax : K} (R : Resolvable θ Emin Emax) (Imin Imax : Int)
    (q : Item K) (hq : ItemInv θ Emin Emax q) (act : Action K)
    (hs : stepItem θ Imin Imax q = .ok act) :
    match act with
    | .skip => ∀ k, todo Imin Imax k q = 0
    | .drop _ => False
    | .push items _ => (∀ i ∈ items, ItemInv θ Emin Emax i) ∧
        ∀ k, (items.map (todo Imin Imax k)).sum = todo Imin Imax k q
    | .cand c _ => c.item = q ∧ (∀ k, todo Imin Imax k q = if k = c.idx then 1 else 0) ∧
        θ c.item.a < c.idx ∧ (c.idx : K) < θ c.item.b ∧ c.item.a < c.c ∧ c.c < c.item.b := by
  rw [stepItem_exact] at hs
  simp only [Outcome.ok.injEq] at hs
  have hnon := hq.nonint
  have hta := lt_ceil_of_nonint hnon
  split at hs
  · -- skip
    rename_i hsk
    subst hs
    intro k
    unfold todo
    rw [if_neg]
    rintro ⟨h1, h2, h3, h4⟩
    have h3' : ⌈q.ta⌉ ≤ k := Int.ceil_le.mpr h3.le
    have h4' : k < ⌈q.tb⌉ := Int.lt_ceil.mpr h4
    rcases hsk with h | h | h | h
    · linarith
    · omega
    · omega
    · omega
  · rename_i hns
    push Not at hns
    obtain ⟨hlt, hne, hmin, hmax⟩ := hns
    have hle : ⌈q.ta⌉ < ⌈q.tb⌉ := lt_of_le_of_ne (Int.ceil_le_ceil hlt.le) hne
    have ht := (trial_mem q hq.lt.le hlt hne).2.2 hq.lt hta
    set c := trial q ⌈q.ta⌉ ⌈q.tb⌉ with hc
    have htc1 : q.ta < θ c := by
      rw [hq.ta]; exact R.mono _ _ hq.lo ht.1 (ht.2.le.trans hq.hi)
    have htc2 : θ c < q.tb := by
      rw [hq.tb]; exact R.mono _ _ (hq.lo.trans ht.1.le) ht.2 hq.hi
    have hia : (⌈q.ta⌉ : K) < q.tb := Int.lt_ceil.mp hle
    have candOK : ⌈q.tb⌉ = ⌈q.ta⌉ + 1 → (∀ k, todo Imin Imax k q = if k = ⌈q.ta⌉ then 1 else 0) ∧
        θ q.a < ⌈q.ta⌉ ∧ (⌈q.ta⌉ : K) < θ q.b := fun h1 =>
      ⟨todo_single hnon h1 hmin hmax, hq.ta ▸ hta, hq.tb ▸ hia⟩
    split at hs
    · -- candidate because the bracket is small or the depth is exhausted
      rename_i hdone
      subst hs
      have h1 : ⌈q.tb⌉ = ⌈q.ta⌉ + 1 := by
        rcases hdone with ⟨hd, -⟩ | hd
        · have : q.tb ≤ ((⌈q.ta⌉ + 1 : Int) : K) := by
            have := Int.le_ceil q.ta
            push_cast; linarith
          have := Int.ceil_le.mpr this
          omega
        · by_contra hcon
          have hmulti : ⌈q.ta⌉ + 1 < ⌈q.tb⌉ := by omega
          obtain ⟨m, -, -, hb⟩ := hq.dyadic hmulti
          have hd31 : q.depth = 31 := by have := hq.depth; omega
          have := R.separated q.a q.b hq.lo hq.lt.le hq.hi (by rw [hb, hd31]; linarith)
          rw [← hq.ta, ← hq.tb] at this
          omega
      obtain ⟨g1, g2, g3⟩ := candOK h1
      exact ⟨rfl, g1, g2, g3, ht.1, ht.2⟩
    · rename_i hnd
      have hd30 : q.depth ≤ 30 := by
        by_contra h; exact hnd (.inr (by omega))
      split at hs
      · -- several indices: both halves
        rename_i hmulti
        subst hs
        obtain ⟨m, hm, ha, hb⟩ := hq.dyadic hmulti
        have hcm : c = (q.a + q.b) / 2 := by rw [hc]; exact trial_mid q hmulti
        have hp : (2 : K) ^ q.depth ≠ 0 := by positivity
        have hcd : c = Emin + (Emax - Emin) * ((2 * m + 1 : Nat) : K) / 2 ^ (1 + q.depth) := by
          rw [hcm, hb, ha, pow_add]; push_cast; field_simp; ring
        have hcnon : ∀ k : Int, θ c ≠ k := by
          intro k
          rw [hcd]
          refine R.generic (1 + q.depth) (2 * m + 1) (by omega) ?_ k
          rw [Nat.pow_add]; omega
        have e2 : 2 ^ (1 + q.depth) = 2 * 2 ^ q.depth := by rw [Nat.pow_add]
        refine ⟨?_, ?_⟩
        · intro i hi
          simp only [List.mem_cons, List.not_mem_nil, or_false] at hi
          rcases hi with rfl | rfl
          · refine ⟨hq.lo, ht.1, ht.2.le.trans hq.hi, hq.ta, rfl, by simp; omega, hnon, fun _ => ?_⟩
            refine ⟨2 * m, by simp only []; omega, ?_, ?_⟩
            · simp only []; rw [ha, pow_add]; push_cast; field_simp
            · simp only []; rw [hcm, hb, pow_add]; field_simp; ring
          · refine ⟨hq.lo.trans ht.1.le, ht.2, hq.hi, rfl, hq.tb, by simp; omega, hcnon, fun _ => ?_⟩
            refine ⟨2 * m + 1, by simp only []; omega, hcd, ?_⟩
            simp only []; rw [hcm, hb, pow_add]; field_simp; ring
        · intro k
          simp only [List.map_cons, List.map_nil, List.sum_cons, List.sum_nil, Nat.add_zero, todo]
          by_cases hk : Imin ≤ k ∧ k < Imax
          · simp only [hk.1, hk.2, true_and]
            have hkc := hcnon k
            rcases lt_or_gt_of_ne hkc with h | h
            · -- θ c < k
              rw [if_neg (fun hh => absurd hh.2 (not_lt.mpr h.le))]
              have : q.ta < k := htc1.trans h
              simp only [h, this, true_and, Nat.zero_add]
            · have h2 : (k : K) < q.tb := lt_trans h htc2
              rw [if_neg (c := θ c < (k : K) ∧ (k : K) < q.tb) (fun hh => absurd hh.1 (not_lt.mpr h.le))]
              simp only [h, h2, and_true, Nat.add_zero]
          · have : ∀ X : Prop, ¬ (Imin ≤ k ∧ k < Imax ∧ X) := fun X hh => hk ⟨hh.1, hh.2.1⟩
            simp only [this, if_false]
      · rename_i hsingle
        have h1 : ⌈q.tb⌉ = ⌈q.ta⌉ + 1 := by omega
        obtain ⟨g1, g2, g3⟩ := candOK h1
        split at hs
        · subst hs
          exact ⟨rfl, g1, g2, g3, ht.1, ht.2⟩
        · rename_i hclose
          have hne' : θ c ≠ (⌈q.ta⌉ : K) := by
            intro h
            rw [h] at hclose
            apply hclose
            simp
          split at hs
          · -- eigenvalue left of c
            rename_i hsign
            subst hs
            have hgt : (⌈q.ta⌉ : K) < θ c := by
              by_contra hcon
              have : 0 ≤ (q.ta - ⌈q.ta⌉) * (θ c - ⌈q.ta⌉) :=
                mul_nonneg_of_nonpos_of_nonpos (by linarith) (by linarith [not_lt.mp hcon])
              linarith
            have hcc : ⌈θ c⌉ = ⌈q.ta⌉ + 1 := by
              have u1 : ⌈q.ta⌉ < ⌈θ c⌉ := Int.lt_ceil.mpr hgt
              have u2 : ⌈θ c⌉ ≤ ⌈q.tb⌉ := Int.ceil_le_ceil htc2.le
              omega
            refine ⟨?_, ?_⟩
            · intro i hi
              simp only [List.mem_cons, List.not_mem_nil, or_false] at hi
              subst hi
              refine ⟨hq.lo, ht.1, ht.2.le.trans hq.hi, hq.ta, rfl, by simp; omega, hnon, fun hh => ?_⟩
              simp only [] at hh; omega
            · intro k
              simp only [List.map_cons, List.map_nil, List.sum_cons, List.sum_nil, Nat.add_zero]
              rw [g1 k]
              exact todo_single (q := ⟨q.a, q.ta, c, θ c, q.depth + 1⟩) hnon hcc
                (by simp only []; omega) hmax k
          · -- eigenvalue right of c
            rename_i hsign
            subst hs
            have hltc : θ c < (⌈q.ta⌉ : K) := by
              rcases lt_or_gt_of_ne hne' with h | h
              · exact h
              · exact absurd (mul_neg_of_neg_of_pos (by linarith) (by linarith)) hsign
            have hcc : ⌈θ c⌉ = ⌈q.ta⌉ := by
              have u1 : ⌈θ c⌉ ≤ ⌈q.ta⌉ := Int.ceil_le.mpr hltc.le
              have u2 : ⌈q.ta⌉ ≤ ⌈θ c⌉ := Int.ceil_le_ceil htc1.le
              omega
            have hcnon : ∀ k : Int, θ c ≠ k := by
              intro k hk
              rw [hk, Int.ceil_intCast] at hcc
              rw [hk, hcc] at hltc
              exact lt_irrefl _ hltc
            refine ⟨?_, ?_⟩
            · intro i hi
              simp only [List.mem_cons, List.not_mem_nil, or_false] at hi
              subst hi
              refine ⟨hq.lo.trans ht.1.le, ht.2, hq.hi, rfl, hq.tb, by simp; omega, hcnon, fun hh => ?_⟩
              simp only [] at hh; omega
            · intro k
              simp only [List.map_cons, List.map_nil, List.sum_cons, List.sum_nil, Nat.add_zero]
              rw [g1 k]
              have := todo_single (q := ⟨c, θ c, q.b, q.tb, q.depth + 1⟩) (Imin := Imin)
                (Imax := Imax) hcnon (by simp only []; omega) (by simp only []; omega)
                (by simp only []; omega) k
              simp only [hcc] at this
              exact this

/-- **C21**: on a resolvable problem the search locates every requested index whose eigenvalue lies
strictly inside the interval exactly once, and nothing else; every candidate lies strictly inside a
bracket of its eigenvalue. (`k` has its eigenvalue strictly inside iff `θ Emin < k < θ Emax`.) -/
theorem C21_each_index_once {θ : K → K} {Emin Emax : K} (R : Resolvable θ Emin Emax)
    (nw : K → Outcome (Int × K)) (Imin Imax : Int) (fuel : Nat) (L : List (Int × K)) (f : Found K)
    (h : helper θ nw Emin Emax Imin Imax fuel = .ok (L, f)) :
    (∀ k : Int, (f.cands.map Cand.idx).count k =
      if Imin ≤ k ∧ k < Imax ∧ θ Emin < k ∧ (k : K) < θ Emax then 1 else 0) ∧
    (∀ c ∈ f.cands, Emin ≤ c.item.a ∧ c.item.b ≤ Emax ∧ c.item.a < c.c ∧ c.c < c.item.b ∧
      θ c.item.a < c.idx ∧ (c.idx : K) < θ c.item.b) ∧
    L.length = f.cands.length := by
  have hperm := C20_permutation_of_polished θ nw Emin Emax Imin Imax fuel L f h
  unfold helper at h
  split at h
  · simp at h
  · split at h
    · simp at h
    · obtain ⟨f', hl, h⟩ := Outcome.bind_eq_ok.mp h
      simp at h
      obtain ⟨rfl, rfl⟩ := h
      have := loop_induct θ nw Imin Imax
        (fun qs acc => (∀ q ∈ qs, ItemInv θ Emin Emax q) ∧
          (∀ k : Int, (acc.cands.map Cand.idx).count k + (qs.map (todo Imin Imax k)).sum =
            if Imin ≤ k ∧ k < Imax ∧ θ Emin < k ∧ (k : K) < θ Emax then 1 else 0) ∧
          (∀ c ∈ acc.cands, Emin ≤ c.item.a ∧ c.item.b ≤ Emax ∧ c.item.a < c.c ∧ c.c < c.item.b ∧
            θ c.item.a < c.idx ∧ (c.idx : K) < θ c.item.b))
        (fun q qs acc hR hs => by
          have := step_resolvable R Imin Imax q (hR.1 q (by simp)) _ hs
          refine ⟨fun x hx => hR.1 x (by simp [hx]), fun k => ?_, hR.2.2⟩
          have h2 := hR.2.1 k
          simp only [List.map_cons, List.sum_cons, this k, Nat.zero_add] at h2
          exact h2)
        (fun q qs acc e hR hs => (step_resolvable R Imin Imax q (hR.1 q (by simp)) _ hs).elim)
        (fun q qs acc items e hR hs => by
          have := step_resolvable R Imin Imax q (hR.1 q (by simp)) _ hs
          simp only [] at this
          refine ⟨fun x hx => ?_, fun k => ?_, hR.2.2⟩
          · rcases List.mem_append.mp hx with hx | hx
            · exact hR.1 x (by simp [hx])
            · exact this.1 x hx
          · have h2 := hR.2.1 k
            simp only [List.map_cons, List.sum_cons, List.map_append, List.sum_append] at h2 ⊢
            rw [this.2 k]; omega)
        (fun q qs acc c e v hR hs _ => by
          have hi := hR.1 q (by simp)
          have := step_resolvable R Imin Imax q hi _ hs
          simp only [] at this
          obtain ⟨t1, t2, t3, t4, t5, t6⟩ := this
          refine ⟨fun x hx => hR.1 x (by simp [hx]), fun k => ?_, ?_⟩
          · have h2 := hR.2.1 k
            simp only [List.map_cons, List.sum_cons, t2 k] at h2
            simp only [List.map_append, List.map_cons, List.map_nil, List.count_append,
              List.count_singleton]
            rw [← h2]
            by_cases hk : k = c.idx
            · subst hk; simp; omega
            · have hk' : ¬ c.idx = k := fun h => hk h.symm
              simp [hk, hk']
          · intro x hx
            simp only [List.mem_append, List.mem_singleton] at hx
            rcases hx with hx | rfl
            · exact hR.2.2 x hx
            · exact ⟨t1 ▸ hi.lo, t1 ▸ hi.hi, t5, t6, t3, t4⟩)
        fuel _ _ _ hl
        ⟨by
          intro q hq
          simp only [List.mem_singleton] at hq
          subst hq
          refine ⟨le_rfl, R.lt, le_rfl, rfl, rfl, by simp, ?_, fun _ => ⟨0, by simp, by simp, by simp⟩⟩
          intro k
          have := R.generic 0 0 (by omega) (by simp) k
          simpa using this,
        by intro k; simp [todo], by simp⟩
      refine ⟨fun k => by simpa using this.2.1 k, this.2.2, ?_⟩
      rw [hperm.1.length_eq, ← hperm.2.length_eq]

/-- **C21**, in terms of eigenvalues: an energy `E` strictly inside the interval with matching angle
`k π`, `Imin ≤ k < Imax`, has exactly one candidate, and `E` lies in that candidate's bracket. -/
theorem C21_eigenvalue_located {θ : K → K} {Emin Emax : K} (R : Resolvable θ Emin Emax)
    (nw : K → Outcome (Int × K)) (Imin Imax : Int) (fuel : Nat) (L : List (Int × K)) (f : Found K)
    (h : helper θ nw Emin Emax Imin Imax fuel = .ok (L, f)) (E : K) (k : Int)
    (hE1 : Emin < E) (hE2 : E < Emax) (hk : θ E = k) (hI1 : Imin ≤ k) (hI2 : k < Imax) :
    (f.cands.map Cand.idx).count k = 1 ∧
    ∃ c ∈ f.cands, c.idx = k ∧ c.item.a < E ∧ E < c.item.b := by
  obtain ⟨h1, h2, -⟩ := C21_each_index_once R nw Imin Imax fuel L f h
  have h3 : θ Emin < k := hk ▸ R.mono _ _ le_rfl hE1 hE2.le
  have h4 : (k : K) < θ Emax := hk ▸ R.mono _ _ hE1.le hE2 le_rfl
  have h5 : (f.cands.map Cand.idx).count k = 1 := by rw [h1 k, if_pos ⟨hI1, hI2, h3, h4⟩]
  refine ⟨h5, ?_⟩
  have hm : k ∈ f.cands.map Cand.idx := List.count_pos_iff.mp (by omega)
  obtain ⟨c, hc, hci⟩ := List.mem_map.mp hm
  refine ⟨c, hc, hci, ?_, ?_⟩
  · obtain ⟨b1, b2, b3, b4, b5, b6⟩ := h2 c hc
    by_contra hcon
    have hcon := not_lt.mp hcon
    rw [hci, ← hk] at b5
    rcases hcon.lt_or_eq with h' | h'
    · have := R.mono _ _ hE1.le h' ((b3.trans b4).le.trans b2)
      exact absurd b5 (not_lt.mpr this.le)
    · rw [h'] at b5; exact lt_irrefl _ b5
  · obtain ⟨b1, b2, b3, b4, b5, b6⟩ := h2 c hc
    by_contra hcon
    have hcon := not_lt.mp hcon
    rw [hci, ← hk] at b6
    rcases hcon.lt_or_eq with h' | h'
    · have := R.mono _ _ (b1.trans (b3.trans b4).le) h' hE2.le
      exact absurd b6 (not_lt.mpr this.le)
    · rw [h'] at b6; exact lt_irrefl _ b6

/-- Non-vacuity for C21: `θ(E) = 3 E + 1/3` on `[0, 1]` is resolvable (indices 1, 2, 3 inside). -/
example : Resolvable (fun E : ℚ => 3 * E + 1 / 3) 0 1 where
  lt := by norm_num
  mono := by intro x y _ h _; linarith
  separated := by
    intro x y _ _ _ h
    rw [Int.ceil_le]
    push_cast
    have := Int.le_ceil (3 * x + 1 / 3)
    have h' : y - x ≤ 1 / 3 := h.trans (by norm_num)
    linarith
  generic := by
    intro j m _ _ k hk
    have hp : ((2 : ℚ) ^ j) ≠ 0 := by positivity
    have h1 : (9 * (m : ℚ) + 2 ^ j) = 3 * k * 2 ^ j := by
      field_simp at hk
      linarith
    have h2 : (9 * (m : ℤ) + 2 ^ j) = 3 * k * 2 ^ j := by exact_mod_cast h1
    have h3 : (3 : ℤ) ∣ 2 ^ j := by
      have : (2 : ℤ) ^ j = 3 * (k * 2 ^ j - 3 * m) := by linarith
      exact ⟨_, this⟩
    have h4 : (3 : ℤ) ∣ 2 := Int.prime_three.dvd_of_dvd_pow h3
    omega

/-- and the search indeed finds them -/
example : ((helper (fun E : ℚ => 3 * E + 1 / 3) (fun c => .ok (⌈3 * c - 1 / 6⌉, c)) 0 1 0 100 1000).map
    (fun r => r.1.map Prod.fst)) = .ok [1, 2, 3] := by decide +kernel

/-! ## C22 -/

/-- **C22 is false of the code**: the documentation promises the eigenvalues in `[Emin; Emax]`, but with
`θ(E) = E` (eigenvalue with index 0 exactly at `Emin = 0`) the result on `[0, 1/2]` is empty, and an
eigenvalue exactly at `Emax` is not reported either. -/
theorem C22_endpoint_eigenvalue_lost :
    ((eigenvalues (fun E : ℚ => E) (fun c => .ok (0, c)) 0 (1/2) 1000).map Prod.fst) = .ok [] ∧
    ((eigenvalues (fun E : ℚ => E) (fun c => .ok (0, c)) (1/2) 1 1000).map Prod.fst) = .ok [] := by
  decide +kernel

/-- **C22**, a second effect of the same defect: an eigenvalue that happens to be a bisection point
strictly inside the interval can be lost as well (index 2 at `E = 2`, the midpoint of
`[1/2, 7/2]`). This is why C21 needs `Resolvable.generic`. -/
theorem C22_midpoint_eigenvalue_lost :
    ((eigenvalues (fun E : ℚ => E) (fun c => .ok (⌈c - 1/2⌉, c)) (1/2) (7/2) 1000).map
      (fun r => r.1.map Prod.fst)) = .ok [1, 3] := by
  decide +kernel

/-- What remains true of C22 (`_partial`: only eigenvalues strictly inside the interval, on resolvable
problems; the full statement has `Emin ≤ E ≤ Emax`). -/
theorem C22_open_interval_partial {θ : K → K} {Emin Emax : K} (R : Resolvable θ Emin Emax)
    (nw : K → Outcome (Int × K)) (fuel : Nat) (L : List (Int × K)) (f : Found K)
    (h : eigenvalues θ nw Emin Emax fuel = .ok (L, f)) (E : K) (k : Int)
    (hE1 : Emin < E) (hE2 : E < Emax) (hk : θ E = k) (hI1 : 0 ≤ k) (hI2 : k < 2147483647) :
    ∃ c ∈ f.cands, c.idx = k ∧ c.item.a < E ∧ E < c.item.b :=
  (C21_eigenvalue_located R nw 0 intMax fuel L f h E k hE1 hE2 hk hI1 hI2).2

/-! ## C23 -/

theorem expandMax_spec (θ : K → K) (Imin Imax : Int) : ∀ (fuel : Nat) (lo hi : K) (w : K × K),
    lo < hi → 0 < hi → (lo = -1 ∨ θ lo < Imin) → expandMax θ Imin Imax fuel (lo, hi) = .ok w →
    w.1 < w.2 ∧ 0 < w.2 ∧ (w.1 = -1 ∨ θ w.1 < Imin) ∧ (Imax : K) ≤ θ w.2 := by
  intro fuel
  induction fuel with
  | zero =>
    intro lo hi w h1 h2 h3 h
    unfold expandMax at h
    have e : CInt.floor (θ hi) = some ⌊θ hi⌋ := rfl
    simp only [e, toInt, Outcome.bind_ok] at h
    split at h
    · rename_i hc
      simp at h; subst h
      exact ⟨h1, h2, h3, Int.le_floor.mp hc⟩
    · simp at h
  | succ fuel ih =>
    intro lo hi w h1 h2 h3 h
    unfold expandMax at h
    have e : CInt.floor (θ hi) = some ⌊θ hi⌋ := rfl
    simp only [e, toInt, Outcome.bind_ok, ccmp_lit, Rat.cast_ofNat] at h
    split at h
    · rename_i hc
      simp at h; subst h
      exact ⟨h1, h2, h3, Int.le_floor.mp hc⟩
    · by_cases hc : ⌊θ hi⌋ < Imin
      · rw [if_pos hc] at h
        exact ih _ _ _ (by linarith) (by linarith) (.inr (Int.floor_lt.mp hc)) h
      · rw [if_neg hc] at h
        exact ih _ _ _ (by linarith) (by linarith) h3 h

theorem expandMin_spec (θ : K → K) (Imin Imax : Int) : ∀ (fuel : Nat) (lo hi : K) (w : K × K),
    lo < hi → lo < 0 → (Imax : K) ≤ θ hi → expandMin θ Imin Imax fuel (lo, hi) = .ok w →
    w.1 < w.2 ∧ θ w.1 ≤ Imin ∧ (Imax : K) ≤ θ w.2 := by
  intro fuel
  induction fuel with
  | zero =>
    intro lo hi w h1 h2 h3 h
    unfold expandMin at h
    have e : CInt.ceil (θ lo) = some ⌈θ lo⌉ := rfl
    simp only [e, toInt, Outcome.bind_ok] at h
    split at h
    · rename_i hc
      simp at h; subst h
      exact ⟨h1, Int.ceil_le.mp hc, h3⟩
    · simp at h
  | succ fuel ih =>
    intro lo hi w h1 h2 h3 h
    unfold expandMin at h
    have e : CInt.ceil (θ lo) = some ⌈θ lo⌉ := rfl
    simp only [e, toInt, Outcome.bind_ok, ccmp_lit, Rat.cast_ofNat] at h
    split at h
    · rename_i hc
      simp at h; subst h
      exact ⟨h1, Int.ceil_le.mp hc, h3⟩
    · by_cases hc : Imax < ⌈θ lo⌉
      · rw [if_pos hc] at h
        exact ih _ _ _ (by linarith) (by linarith) (Int.lt_ceil.mp hc).le h
      · rw [if_neg hc] at h
        exact ih _ _ _ (by linarith) (by linarith) h3 h

/-- **C23**: when the doubling loops of `eigenvaluesByIndex` stop, the window they hand to the search is
non-empty and its ends bracket the requested indices: `θ(Emin) ≤ Imin` and `Imax ≤ θ(Emax)`
(θ in units of π), for every matching function. -/
theorem C23_window_brackets (θ : K → K) (Imin Imax : Int) (fuel : Nat) (w : K × K)
    (h : window θ Imin Imax fuel = .ok w) :
    w.1 < w.2 ∧ θ w.1 ≤ Imin ∧ (Imax : K) ≤ θ w.2 := by
  unfold window at h
  obtain ⟨v, hv, h⟩ := Outcome.bind_eq_ok.mp h
  have e1 : (CCmp.lit (-1) : K) = -1 := by simp
  have e2 : (CCmp.lit 1 : K) = 1 := by simp
  rw [e1, e2] at hv
  obtain ⟨h1, h2, h3, h4⟩ := expandMax_spec θ Imin Imax fuel (-1) 1 v (by linarith [zero_lt_one (α := K)]) one_pos
    (.inl rfl) hv
  split at h
  · rename_i hc
    rw [e1] at hc
    simp only [ccmp_eq, decide_eq_true_eq] at hc
    obtain ⟨v1, v2⟩ := v
    simp only at hc; subst hc
    exact expandMin_spec θ Imin Imax fuel _ _ w h1 (by linarith [zero_lt_one (α := K)]) h4 h
  · rename_i hc
    rw [e1] at hc
    simp only [ccmp_eq, decide_eq_true_eq] at hc
    simp at h; subst h
    exact ⟨h1, (h3.resolve_left hc).le, h4⟩

/-- **C23**: consequently (monotone matching angle) every requested eigenvalue lies in the window. -/
theorem C23_window_contains (θ : K → K) (hθ : StrictMono θ) (Imin Imax : Int) (fuel : Nat) (w : K × K)
    (h : window θ Imin Imax fuel = .ok w) (E : K) (k : Int) (hE : θ E = k) (h1 : Imin ≤ k)
    (h2 : k < Imax) : w.1 ≤ E ∧ E < w.2 := by
  obtain ⟨-, h3, h4⟩ := C23_window_brackets θ Imin Imax fuel w h
  constructor
  · rw [← hθ.le_iff_le, hE]; exact h3.trans (by exact_mod_cast h1)
  · rw [← hθ.lt_iff_lt, hE]; exact lt_of_lt_of_le (by exact_mod_cast h2) h4

theorem expandMax_terminates [Archimedean K] (θ : K → K) (Imin Imax : Int) (E₀ : K)
    (h0 : ∀ E, E₀ ≤ E → (Imax : K) ≤ θ E) (lo hi : K) (hpos : 0 < hi) :
    ∃ fuel₀, ∀ fuel, fuel₀ ≤ fuel → (expandMax θ Imin Imax fuel (lo, hi)).isOk = true := by
  have key : ∀ n (lo hi : K), 0 < hi → E₀ ≤ 2 ^ n * hi → ∀ fuel, n ≤ fuel →
      (expandMax θ Imin Imax fuel (lo, hi)).isOk = true := by
    intro n
    induction n with
    | zero =>
      intro lo hi _ h fuel _
      have hi' : Imax ≤ ⌊θ hi⌋ := Int.le_floor.mpr (h0 hi (by simpa using h))
      have e : CInt.floor (θ hi) = some ⌊θ hi⌋ := rfl
      unfold expandMax
      simp [e, toInt, hi', Outcome.isOk]
    | succ n ih =>
      intro lo hi hp h fuel hf
      obtain ⟨fuel, rfl⟩ : ∃ f, fuel = f + 1 := ⟨fuel - 1, by omega⟩
      have e : CInt.floor (θ hi) = some ⌊θ hi⌋ := rfl
      unfold expandMax
      simp only [e, toInt, Outcome.bind_ok, ccmp_lit, Rat.cast_ofNat]
      split
      · rfl
      · exact ih _ _ (by linarith) (by rw [pow_succ] at h; linarith) fuel (by omega)
  obtain ⟨n, hn⟩ := pow_unbounded_of_one_lt (E₀ / hi) (one_lt_two (α := K))
  refine ⟨n, fun fuel hf => key n lo hi hpos ?_ fuel hf⟩
  rw [div_lt_iff₀ hpos] at hn
  exact hn.le

theorem expandMin_terminates [Archimedean K] (θ : K → K) (Imin Imax : Int) (E₁ : K)
    (h1 : ∀ E, E ≤ E₁ → θ E ≤ Imin) (lo hi : K) (hneg : lo < 0) :
    ∃ fuel₀, ∀ fuel, fuel₀ ≤ fuel → (expandMin θ Imin Imax fuel (lo, hi)).isOk = true := by
  have key : ∀ n (lo hi : K), lo < 0 → 2 ^ n * lo ≤ E₁ → ∀ fuel, n ≤ fuel →
      (expandMin θ Imin Imax fuel (lo, hi)).isOk = true := by
    intro n
    induction n with
    | zero =>
      intro lo hi _ h fuel _
      have hi' : ⌈θ lo⌉ ≤ Imin := Int.ceil_le.mpr (h1 lo (by simpa using h))
      have e : CInt.ceil (θ lo) = some ⌈θ lo⌉ := rfl
      unfold expandMin
      simp [e, toInt, hi', Outcome.isOk]
    | succ n ih =>
      intro lo hi hp h fuel hf
      obtain ⟨fuel, rfl⟩ : ∃ f, fuel = f + 1 := ⟨fuel - 1, by omega⟩
      have e : CInt.ceil (θ lo) = some ⌈θ lo⌉ := rfl
      unfold expandMin
      simp only [e, toInt, Outcome.bind_ok, ccmp_lit, Rat.cast_ofNat]
      split
      · rfl
      · exact ih _ _ (by linarith) (by rw [pow_succ] at h; linarith) fuel (by omega)
  obtain ⟨n, hn⟩ := pow_unbounded_of_one_lt (E₁ / lo) (one_lt_two (α := K))
  refine ⟨n, fun fuel hf => key n lo hi hneg ?_ fuel hf⟩
  rw [div_lt_iff_of_neg hneg] at hn
  exact hn.le

/-- **C23**: the loops stop whenever the angle eventually reaches `Imax` for large energies and is at
most `Imin` for very negative energies. -/
theorem C23_window_terminates [Archimedean K] (θ : K → K) (Imin Imax : Int) (E₀ E₁ : K)
    (h0 : ∀ E, E₀ ≤ E → (Imax : K) ≤ θ E) (h1 : ∀ E, E ≤ E₁ → θ E ≤ Imin) :
    ∃ fuel₀, ∀ fuel, fuel₀ ≤ fuel → (window θ Imin Imax fuel).isOk = true := by
  have e1 : (CCmp.lit (-1) : K) = -1 := by simp
  have e2 : (CCmp.lit 1 : K) = 1 := by simp
  obtain ⟨f₀, hf₀⟩ := expandMax_terminates θ Imin Imax E₀ h0 (-1) 1 one_pos
  obtain ⟨f₁, hf₁⟩ : ∃ f₁, ∀ fuel, f₁ ≤ fuel → ∀ hi, (expandMin θ Imin Imax fuel (-1, hi)).isOk = true := by
    have hn1 : (-1 : K) < 0 := by linarith [zero_lt_one (α := K)]
    -- the number of steps does not depend on `hi`
    have indep : ∀ fuel (lo hi hi' : K), (expandMin θ Imin Imax fuel (lo, hi)).isOk =
        (expandMin θ Imin Imax fuel (lo, hi')).isOk := by
      intro fuel
      induction fuel with
      | zero =>
        intro lo hi hi'
        have e : CInt.ceil (θ lo) = some ⌈θ lo⌉ := rfl
        unfold expandMin
        simp only [e, toInt, Outcome.bind_ok]
        split <;> rfl
      | succ fuel ih =>
        intro lo hi hi'
        have e : CInt.ceil (θ lo) = some ⌈θ lo⌉ := rfl
        unfold expandMin
        simp only [e, toInt, Outcome.bind_ok]
        split
        · rfl
        · exact ih _ _ _
    obtain ⟨f₁, hf₁⟩ := expandMin_terminates θ Imin Imax E₁ h1 (-1) 1 hn1
    exact ⟨f₁, fun fuel hf hi => by rw [indep fuel (-1) hi 1]; exact hf₁ fuel hf⟩
  refine ⟨max f₀ f₁, fun fuel hf => ?_⟩
  have g0 := hf₀ fuel (le_trans (le_max_left _ _) hf)
  have g1 := hf₁ fuel (le_trans (le_max_right _ _) hf)
  unfold window
  rw [e1, e2]
  cases hm : expandMax θ Imin Imax fuel (-1, 1) with
  | ok v =>
    simp only [Outcome.bind_ok, ccmp_eq, decide_eq_true_eq]
    split
    · rename_i hc
      obtain ⟨v1, v2⟩ := v
      simp only at hc; subst hc
      exact g1 v2
    · rfl
  | throws m => rw [hm] at g0; simp [Outcome.isOk] at g0
  | ub m => rw [hm] at g0; simp [Outcome.isOk] at g0
  | timeout => rw [hm] at g0; simp [Outcome.isOk] at g0

/-- Non-vacuity for C23: indices 3…5 of `θ(E) = E`. -/
example : window (fun E : ℚ => E) 3 5 10 = .ok (2, 8) ∧ window (fun E : ℚ => E) (-3) (-2) 10 = .ok (-4, -1)
    := by decide +kernel

/-- **C18 is only partly true**: the index check comes after the window search, so for a negative `Imin`
the call does not throw but searches for ever (in exact arithmetic) when the angle stays above
`Imin`, as it does for every problem bounded below. Full statement that fails: "`Imin < 0` implies
`eigenvaluesByIndex` throws". -/
theorem C18_negative_index_hangs (θ : K → K) (nw : K → Outcome (Int × K)) (Imin Imax : Int)
    (h0 : ∀ E, (Imin : K) < θ E) (fuel : Nat) :
    eigenvaluesByIndex θ nw Imin Imax fuel = .timeout := by
  have e1 : (CCmp.lit (-1) : K) = -1 := by simp
  have e2 : (CCmp.lit 1 : K) = 1 := by simp
  have hmax : ∀ fuel (hi : K), (∃ v, expandMax θ Imin Imax fuel (-1, hi) = .ok (-1, v)) ∨
      expandMax θ Imin Imax fuel (-1, hi) = .timeout := by
    intro fuel
    induction fuel with
    | zero =>
      intro hi
      have e : CInt.floor (θ hi) = some ⌊θ hi⌋ := rfl
      unfold expandMax
      simp only [e, toInt, Outcome.bind_ok]
      split
      · exact .inl ⟨hi, rfl⟩
      · exact .inr rfl
    | succ fuel ih =>
      intro hi
      have e : CInt.floor (θ hi) = some ⌊θ hi⌋ := rfl
      unfold expandMax
      have hn : ¬ ⌊θ hi⌋ < Imin := by
        rw [not_lt]; exact Int.le_floor.mpr (h0 hi).le
      simp only [e, toInt, Outcome.bind_ok, hn, if_false]
      split
      · exact .inl ⟨hi, rfl⟩
      · exact ih _
  have hmin : ∀ fuel (lo hi : K), expandMin θ Imin Imax fuel (lo, hi) = .timeout := by
    intro fuel
    induction fuel with
    | zero =>
      intro lo hi
      have e : CInt.ceil (θ lo) = some ⌈θ lo⌉ := rfl
      have hn : ¬ ⌈θ lo⌉ ≤ Imin := by rw [not_le]; exact Int.lt_ceil.mpr (h0 lo)
      unfold expandMin
      simp [e, toInt, hn]
    | succ fuel ih =>
      intro lo hi
      have e : CInt.ceil (θ lo) = some ⌈θ lo⌉ := rfl
      have hn : ¬ ⌈θ lo⌉ ≤ Imin := by rw [not_le]; exact Int.lt_ceil.mpr (h0 lo)
      unfold expandMin
      simp only [e, toInt, Outcome.bind_ok, hn, if_false]
      exact ih _ _
  unfold eigenvaluesByIndex window
  rw [e1, e2]
  rcases hmax fuel 1 with ⟨v, hv⟩ | hv
  · rw [hv]; simp [hmin]
  · rw [hv]; rfl

/-- Non-vacuity: an angle bounded below by 0 and `Imin = -1`. -/
example : eigenvaluesByIndex (fun E : ℚ => if E < 0 then 0 else E) (fun c => .ok (0, c)) (-1) 3 50 =
    .timeout :=
  C18_negative_index_hangs _ _ _ _ (by
    intro E; split <;> push_cast <;> linarith) _

/-- Non-vacuity for the throwing case: when the angle does go below. -/
example : (window (fun E : ℚ => E) (-1) 3 50).isOk = true ∧ (window (fun E : ℚ => E) 3 1 50).isOk = true := by
  decide +kernel

end exact
end Verif.Search
