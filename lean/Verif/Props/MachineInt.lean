import Verif.Model.MachineInt
import Verif.Lemmas.Search
import Verif.Props.HalfRange
import Mathlib.Data.Rat.Floor

/-!
# No `int` overflow in the searches: C120 – C122
-/
namespace Verif.MInt
open Verif.Search

theorem tm (i : Int) : (0 ≤ i ∧ i.tmod 2 = i % 2) ∨ (i < 0 ∧ i.tmod 2 = -(-i % 2)) := by
  rcases le_or_gt 0 i with h | h
  · exact .inl ⟨h, Int.tmod_eq_emod_of_nonneg h⟩
  · refine .inr ⟨h, ?_⟩
    have := Int.neg_tmod (-i) 2
    rw [neg_neg, Int.tmod_eq_emod_of_nonneg (a := -i) (by omega)] at this
    exact this

theorem chk_ok {i : Int} (h : IsInt i) : chk i = .ok i := if_pos h

section search
variable {K : Type} [Add K] [Sub K] [Mul K] [Div K] [Neg K] [Zero K] [CCmp K] [CInt K]

theorem stepItem_eq (hc : IntConversions K) (θ : K → K) {Imin Imax : Int} (hI : IsInt Imax) {q : Item K} (hq : q.depth ≤ 31) :
    stepItem θ Imin Imax q = Search.stepItem θ Imin Imax q ∧ ∀ items e, Search.stepItem θ Imin Imax q = .ok (.push items e) → ∀ p ∈ items, p.depth ≤ 31 := by
  unfold stepItem Search.stepItem
  cases ea : CInt.ceil q.ta with
  | none => exact ⟨rfl, fun _ _ h => by simp [toInt] at h⟩
  | some ia =>
    cases eb : CInt.ceil q.tb with
    | none => exact ⟨rfl, fun _ _ h => by simp [toInt] at h⟩
    | some ib =>
      have ha := hc q.ta ia (.inl ea)
      simp only [toInt, Outcome.bind_ok, Outcome.pure_eq]
      by_cases h1 : (CCmp.le q.tb q.ta || ia == ib || decide (ib ≤ Imin) || decide (Imax ≤ ia)) = true
      · rw [if_pos h1, if_pos h1]
        exact ⟨rfl, fun _ _ h => by simp at h⟩
      rw [if_neg h1, if_neg h1]
      have h2 : ¬ Imax ≤ ia := by
        intro h; apply h1; simp [h]
      have e1 : chk (ia + 1) = .ok (ia + 1) := chk_ok ⟨by have := ha.1; omega, by have := hI.2; omega⟩
      rw [e1]
      simp only [Outcome.bind_ok]
      by_cases h3 : (CCmp.lt (q.tb - q.ta) (CCmp.lit (1 / 100)) && decide (q.depth > 3) || decide (q.depth > 30)) = true
      · rw [if_pos h3, if_pos h3]
        exact ⟨rfl, fun _ _ h => by simp at h⟩
      rw [if_neg h3, if_neg h3]
      have h4 : q.depth ≤ 30 := by
        by_contra h; apply h3; simp; right; omega
      have d1 : chk (1 + q.depth) = .ok (1 + q.depth : Int) := chk_ok ⟨by omega, by omega⟩
      have d2 : chk (q.depth + 1) = .ok (q.depth + 1 : Int) := chk_ok ⟨by omega, by omega⟩
      have n1 : (1 + (q.depth : Int)).toNat = 1 + q.depth := by omega
      have n2 : ((q.depth : Int) + 1).toNat = q.depth + 1 := by omega
      rw [d1, d2]
      simp only [Outcome.bind_ok, n1, n2]
      refine ⟨by first | rfl | trivial, fun items e h => ?_⟩
      split_ifs at h <;> simp only [Outcome.ok.injEq, Action.push.injEq, reduceCtorEq] at h
      all_goals
        obtain ⟨rfl, -⟩ := h
        intro p hp
        simp only [List.mem_cons, List.not_mem_nil, or_false] at hp
        rcases hp with rfl | rfl <;> simp only <;> omega

theorem searchLoop_eq (hc : IntConversions K) (θ : K → K) (nw : K → Outcome (Int × K)) {Imin Imax : Int} (hI : IsInt Imax) (fuel : Nat) :
    ∀ (qs : List (Item K)) (acc : Found K), (∀ q ∈ qs, q.depth ≤ 31) → searchLoop θ nw Imin Imax fuel qs acc = Search.searchLoop θ nw Imin Imax fuel qs acc := by
  induction fuel with
  | zero => intro qs acc _; cases qs <;> rfl
  | succ fuel ih =>
    intro qs acc hq
    cases qs with
    | nil => rfl
    | cons q qs =>
      obtain ⟨e, hp⟩ := stepItem_eq hc θ (Imin := Imin) hI (hq q (List.mem_cons_self ..))
      have hq' : ∀ p ∈ qs, p.depth ≤ 31 := fun p h => hq p (List.mem_cons_of_mem _ h)
      simp only [searchLoop, Search.searchLoop, e]
      cases es : Search.stepItem θ Imin Imax q with
      | ok r =>
        simp only [Outcome.bind_ok]
        cases r with
        | skip => exact ih _ _ hq'
        | push items e' =>
          refine ih _ _ fun p h => ?_
          rcases List.mem_append.mp h with h | h
          · exact hq' p h
          · exact hp items e' es p h
        | drop e' => exact ih _ _ hq'
        | cand c e' =>
          simp only
          congr 1
          funext v
          exact ih _ _ hq'
      | _ => rfl

/-- **C120.** The searches of `Matslise` do not overflow: for every matching function, every way the polishing may behave, every window and every index range given as `int`, the search with 32-bit machine integers (undefined
on overflow) does exactly what the search with unbounded integers does. The conversions `(int) ceil(x)`, `(int) floor(x)` may be undefined (for angles beyond the range of `int`, or NaN); they are so in both. -/
theorem C120_search_no_overflow (hc : IntConversions K) (θ : K → K) (nw : K → Outcome (Int × K)) (Imin Imax : Int) (hI : IsInt Imax) (fuel : Nat) :
    (∀ Emin Emax, helper θ nw Emin Emax Imin Imax fuel = Search.helper θ nw Emin Emax Imin Imax fuel) ∧
    (∀ Emin Emax, eigenvalues θ nw Emin Emax fuel = Search.eigenvalues θ nw Emin Emax fuel) ∧
    eigenvaluesByIndex θ nw Imin Imax fuel = Search.eigenvaluesByIndex θ nw Imin Imax fuel := by
  have key : ∀ (Imin Imax : Int), IsInt Imax → ∀ Emin Emax, helper θ nw Emin Emax Imin Imax fuel = Search.helper θ nw Emin Emax Imin Imax fuel := by
    intro Imin Imax hI Emin Emax
    unfold helper Search.helper
    split_ifs
    · rfl
    · rfl
    · rw [searchLoop_eq hc θ nw hI fuel _ _ (by simp)]
  refine ⟨key Imin Imax hI, key 0 intMax (by unfold IsInt intMax; omega), ?_⟩
  unfold eigenvaluesByIndex Search.eigenvaluesByIndex
  congr 1
  funext w
  exact key Imin Imax hI _ _

end search

section half
variable {K : Type}

theorem merge_eq (e o : List (Int × K)) (he : ∀ p ∈ e, IsInt (2 * p.1)) (ho : ∀ p ∈ o, IsInt (2 * p.1) ∧ IsInt (2 * p.1 + 1)) : merge e o = .ok (HalfRange.merge e o) := by
  fun_induction HalfRange.merge e o with
  | case1 => simp [merge]
  | case2 b bs ih =>
    have h := ho b (List.mem_cons_self ..)
    simp [merge, chk_ok h.1, chk_ok h.2, ih (by simp) (fun p hp => ho p (List.mem_cons_of_mem _ hp))]
  | case3 a as ih =>
    have h := he a (List.mem_cons_self ..)
    simp [merge, chk_ok h, ih (fun p hp => he p (List.mem_cons_of_mem _ hp)) (by simp)]
  | case4 a as b bs h ih =>
    have hb := ho b (List.mem_cons_self ..)
    simp [merge, h, chk_ok hb.1, chk_ok hb.2, ih he (fun p hp => ho p (List.mem_cons_of_mem _ hp))]
  | case5 a as b bs h ih =>
    have ha := he a (List.mem_cons_self ..)
    simp [merge, h, chk_ok ha, ih (fun p hp => he p (List.mem_cons_of_mem _ hp)) ho]

theorem of_merge_ok (e o r : List (Int × K)) (h : merge e o = .ok r) : (∀ p ∈ e, IsInt (2 * p.1)) ∧ ∀ p ∈ o, IsInt (2 * p.1) ∧ IsInt (2 * p.1 + 1) := by
  have hchk : ∀ {i j : Int}, chk i = .ok j → IsInt i ∧ j = i := by
    intro i j h
    unfold chk at h
    split_ifs at h with h'
    exact ⟨h', by simpa using h.symm⟩
  fun_induction HalfRange.merge e o generalizing r with
  | case1 => simp
  | case2 b bs ih =>
    rw [merge] at h
    obtain ⟨t, h1, h⟩ := Outcome.bind_eq_ok.mp h
    obtain ⟨i, h2, h⟩ := Outcome.bind_eq_ok.mp h
    obtain ⟨r', h3, h⟩ := Outcome.bind_eq_ok.mp h
    obtain ⟨k1, rfl⟩ := hchk h1
    have k := ih r' h3
    refine ⟨k.1, fun p hp => ?_⟩
    rcases List.mem_cons.mp hp with rfl | hp
    · exact ⟨k1, (hchk h2).1⟩
    · exact k.2 p hp
  | case3 a as ih =>
    rw [merge] at h
    obtain ⟨i, h2, h⟩ := Outcome.bind_eq_ok.mp h
    obtain ⟨r', h3, h⟩ := Outcome.bind_eq_ok.mp h
    have k := ih r' h3
    refine ⟨fun p hp => ?_, k.2⟩
    rcases List.mem_cons.mp hp with rfl | hp
    · exact (hchk h2).1
    · exact k.1 p hp
  | case4 a as b bs hlt ih =>
    rw [merge, if_pos hlt] at h
    obtain ⟨t, h1, h⟩ := Outcome.bind_eq_ok.mp h
    obtain ⟨i, h2, h⟩ := Outcome.bind_eq_ok.mp h
    obtain ⟨r', h3, h⟩ := Outcome.bind_eq_ok.mp h
    obtain ⟨k1, rfl⟩ := hchk h1
    have k := ih r' h3
    refine ⟨k.1, fun p hp => ?_⟩
    rcases List.mem_cons.mp hp with rfl | hp
    · exact ⟨k1, (hchk h2).1⟩
    · exact k.2 p hp
  | case5 a as b bs hlt ih =>
    rw [merge, if_neg hlt] at h
    obtain ⟨i, h2, h⟩ := Outcome.bind_eq_ok.mp h
    obtain ⟨r', h3, h⟩ := Outcome.bind_eq_ok.mp h
    have k := ih r' h3
    refine ⟨fun p hp => ?_, k.2⟩
    rcases List.mem_cons.mp hp with rfl | hp
    · exact (hchk h2).1
    · exact k.1 p hp

variable [Zero K] [One K]

/-- **C121.** `MatsliseHalf::eigenvaluesByIndex` does not overflow: for every index range given as `int`, with an inner solver that returns only numbers of the range it is asked for. -/
theorem C121_half_by_index_no_overflow (ms : HalfRange.Inner K) (side : YT.Y K) (Imin Imax : Int) (h0 : 0 ≤ Imin) (hI : IsInt Imin) (hJ : IsInt Imax)
    (hms : ∀ (i j : Int) (y0 : YT.Y K) (l : List (Int × K)), ms.eigenvaluesByIndex i j y0 side = .ok l → ∀ p ∈ l, i ≤ p.1 ∧ p.1 < j) :
    halfByIndex ms Imin Imax side = HalfRange.eigenvaluesByIndex ms Imin Imax side := by
  unfold halfByIndex HalfRange.eigenvaluesByIndex
  have e1 : Imin.tdiv 2 = Imin / 2 := Int.tdiv_eq_ediv_of_nonneg h0
  have e3 : Imin.tmod 2 = Imin % 2 := Int.tmod_eq_emod_of_nonneg h0
  obtain ⟨k1, k2⟩ := hI
  obtain ⟨m1, m2⟩ := hJ
  have b1 : 2 * Imax.tdiv 2 + Imax.tmod 2 = Imax := by have := Int.mul_tdiv_add_tmod Imax 2; omega
  have b2 : -1 ≤ Imax.tmod 2 ∧ Imax.tmod 2 ≤ 1 := by
    have := tm Imax
    omega
  rw [chk_ok ⟨by omega, by omega⟩, chk_ok ⟨by omega, by omega⟩]
  simp only [Outcome.bind_ok]
  cases he : ms.eigenvaluesByIndex (Imin.tdiv 2 + Imin.tmod 2) (Imax.tdiv 2 + Imax.tmod 2) YT.Y.neumann side with
  | ok e =>
    simp only [Outcome.bind_ok]
    cases ho : ms.eigenvaluesByIndex (Imin.tdiv 2) (Imax.tdiv 2) YT.Y.dirichlet side with
    | ok o =>
      simp only [Outcome.bind_ok, Outcome.pure_eq]
      refine merge_eq e o (fun p hp => ?_) (fun p hp => ?_)
      · have := hms _ _ _ _ he p hp
        exact ⟨by omega, by omega⟩
      · have := hms _ _ _ _ ho p hp
        exact ⟨⟨by omega, by omega⟩, by omega, by omega⟩
    | _ => rfl
  | _ => rfl

/-- **C121.** `MatsliseHalf::eigenvalues` gives the result of the computation with unbounded integers when the numbers the inner solver finds are non-negative and below `2^30`, and has undefined behaviour
if one of them is not below `2^30`. -/
theorem C121_half_window (ms : HalfRange.Inner K) (side : YT.Y K) (Emin Emax : K) (e o : List (Int × K)) (he : ms.eigenvalues Emin Emax YT.Y.neumann side = .ok e)
    (ho : ms.eigenvalues Emin Emax YT.Y.dirichlet side = .ok o) (h0 : ∀ p ∈ e ++ o, 0 ≤ p.1) :
    ((∀ p ∈ e ++ o, p.1 < 2 ^ 30) → halfEigenvalues ms Emin Emax side = HalfRange.eigenvalues ms Emin Emax side) ∧
    ((∃ p ∈ e ++ o, 2 ^ 30 ≤ p.1) → ∀ r, halfEigenvalues ms Emin Emax side ≠ .ok r) := by
  unfold halfEigenvalues HalfRange.eigenvalues
  rw [he, ho]
  simp only [Outcome.bind_ok, Outcome.pure_eq]
  refine ⟨fun h => merge_eq e o (fun p hp => ?_) (fun p hp => ?_), ?_⟩
  · have a := h p (List.mem_append_left _ hp)
    have b := h0 p (List.mem_append_left _ hp)
    exact ⟨by omega, by omega⟩
  · have a := h p (List.mem_append_right _ hp)
    have b := h0 p (List.mem_append_right _ hp)
    exact ⟨⟨by omega, by omega⟩, by omega, by omega⟩
  · rintro ⟨p, hp, hp'⟩ r hr
    obtain ⟨k1, k2⟩ := of_merge_ok e o r hr
    rcases List.mem_append.mp hp with h | h
    · have := (k1 p h).2; omega
    · have := (k2 p h).1.2; omega

end half

section periodic
open Verif.Periodic
variable {K : Type} [Add K] [Sub K] [Mul K] [Div K] [Neg K] [Zero K] [CCmp K]

theorem mainLoop_eq {P : Type} (o : Oracle K) (r : Range K) (mk : K → Bool → P) (eps highest : K) (n : Nat) (hM : r.iMax ≤ 2147483644) (hm : -2147483648 ≤ r.iMax) (fuel : Nat) :
    ∀ (i : Int) (low : K) (res : List (Int × K × P)), -2147483647 ≤ i → mainLoop o r mk eps highest n fuel i low res = Periodic.mainLoop o r mk eps highest n fuel i low res := by
  have top : chk (r.iMax + 1) = .ok (r.iMax + 1) := chk_ok ⟨by omega, by omega⟩
  induction fuel with
  | zero =>
    intro i low res hi
    unfold mainLoop Periodic.mainLoop
    rw [top]; rfl
  | succ fuel ih =>
    intro i low res hi
    unfold mainLoop Periodic.mainLoop
    rw [top, Outcome.bind_ok]
    by_cases h : i ≤ r.iMax + 1
    · rw [if_pos h, if_pos h]
      simp only
      congr 1; funext low
      congr 1; funext low
      congr 1; funext high
      congr 1; funext p
      rw [chk_ok (i := i - 1) ⟨by omega, by omega⟩, chk_ok (i := i + 2) ⟨by omega, by omega⟩, Outcome.bind_ok]
      have c : chk (i - 1 + 1) = .ok (i - 1 + 1) := chk_ok ⟨by omega, by omega⟩
      by_cases hd : CCmp.lt (p.2 - p.1) eps = true
      · simp only [hd, if_true, addToResult, c, Outcome.bind_ok, Outcome.pure_eq]
        exact ih _ _ _ (by omega)
      · simp only [hd, addToResult, Outcome.bind_ok, Outcome.pure_eq]
        exact ih _ _ _ (by omega)
    · rw [if_neg h, if_neg h]

theorem startIndex_eq (anti : Bool) (iMin : Int) (h : IsInt iMin) : startIndex anti iMin = .ok (Periodic.startIndex anti iMin) := by
  obtain ⟨h1, h2⟩ := h
  have b1 : 2 * iMin.tdiv 2 + iMin.tmod 2 = iMin := by have := Int.mul_tdiv_add_tmod iMin 2; omega
  have b2 := tm iMin
  unfold startIndex Periodic.startIndex
  have e1 : chk (iMin - iMin.tmod 2) = .ok (iMin - iMin.tmod 2) := chk_ok ⟨by omega, by omega⟩
  have e2 : chk (iMin - iMin.tmod 2 + 1) = .ok (iMin - iMin.tmod 2 + 1) := chk_ok ⟨by omega, by omega⟩
  cases anti <;> simp [e1, e2]

theorem startIndex_ge (anti : Bool) (iMin : Int) (h : -2147483646 ≤ iMin) : -2147483647 ≤ Periodic.startIndex anti iMin := by
  have := tm iMin
  unfold Periodic.startIndex
  cases anti <;> simp <;> omega

theorem periodicHelper_eq {P : Type} (o : Oracle K) (r : Range K) (mk : K → Bool → P) (eps : K) (n : Nat) (h1 : IsInt r.iMin) (h2 : -2147483646 ≤ r.iMin) (h3 : -2147483648 ≤ r.iMax) (h4 : r.iMax ≤ 2147483644) :
    periodicHelper o r mk eps n = Periodic.helper o r mk eps n := by
  unfold periodicHelper Periodic.helper
  have top : chk (r.iMax + 1) = .ok (r.iMax + 1) := chk_ok ⟨by omega, by omega⟩
  have ge := startIndex_ge o.anti r.iMin h2
  rw [top, Outcome.bind_ok]
  congr 1; funext highest
  rw [startIndex_eq _ _ h1, Outcome.bind_ok]
  simp only
  by_cases h : Periodic.startIndex o.anti r.iMin = 0
  · rw [if_pos h, if_pos h]
    congr 1; funext st
    rw [chk_ok ⟨by omega, by omega⟩, Outcome.bind_ok]
    exact mainLoop_eq o r mk eps highest n h4 h3 n _ _ _ (by omega)
  · rw [if_neg h, if_neg h]
    exact mainLoop_eq o r mk eps highest n h4 h3 n _ _ _ ge

/-- **C122.** The searches of `PeriodicMatslise` do not overflow for index ranges between `INT_MIN + 2` and `INT_MAX - 3`: for every problem and every way the loops behave, the search with 32-bit machine integers does exactly what
the search with unbounded integers does; by energy, if the angles at the ends of the window are in that range after conversion to `int`. -/
theorem C122_periodic_no_overflow {P : Type} (o : Oracle K) (mk : K → Bool → P) (n : Nat) :
    (∀ iMin iMax : Int, -2147483646 ≤ iMin → iMin ≤ 2147483647 → -2147483648 ≤ iMax → iMax ≤ 2147483644 → periodicByIndex o mk iMin iMax n = Periodic.byIndex o mk iMin iMax n) ∧
    (∀ (trunc : K → Option Int) (eMin eMax : K) (a b : Int), trunc (o.minTheta eMin) = some a → trunc (o.maxTheta eMax) = some b → -2147483645 ≤ a → a ≤ 2147483647 → -2147483648 ≤ b → b ≤ 2147483643 →
      periodicByEnergy trunc o mk eMin eMax n = Periodic.byEnergy trunc o mk eMin eMax n) := by
  refine ⟨fun iMin iMax h1 h2 h3 h4 => ?_, fun trunc eMin eMax a b ha hb h1 h2 h3 h4 => ?_⟩
  · unfold periodicByIndex Periodic.byIndex
    rw [chk_ok ⟨by omega, by omega⟩, chk_ok ⟨by omega, by omega⟩]
    simp only [Outcome.bind_ok]
    congr 1; funext eMin
    congr 1; funext eMax
    exact periodicHelper_eq o _ mk _ n ⟨by simp only; omega, h2⟩ h1 h3 h4
  · unfold periodicByEnergy Periodic.byEnergy
    simp only [ha, hb]
    rw [chk_ok ⟨by omega, by omega⟩, chk_ok ⟨by omega, by omega⟩]
    simp only [Outcome.bind_ok]
    exact periodicHelper_eq o _ mk _ n ⟨by simp only; omega, by simp only; omega⟩ (by simp only; omega) (by simp only; omega) (by simp only; omega)

/-- **C122.** Beyond: asking for eigenvalues up to one of the last two values of `int` is undefined behaviour (`iMax + 2` overflows) for every problem — or the loop before it does not end. -/
theorem C122_periodic_overflow {P : Type} (o : Oracle K) (mk : K → Bool → P) (n : Nat) (iMin iMax : Int) (h : 2147483646 ≤ iMax) (r : List (Int × K × P)) : periodicByIndex o mk iMin iMax n ≠ .ok r := by
  intro hr
  unfold periodicByIndex at hr
  obtain ⟨a, -, hr⟩ := Outcome.bind_eq_ok.mp hr
  obtain ⟨eMin, -, hr⟩ := Outcome.bind_eq_ok.mp hr
  obtain ⟨b, hb, -⟩ := Outcome.bind_eq_ok.mp hr
  unfold chk at hb
  rw [if_neg (fun h' => by have := h'.2; omega)] at hb
  simp at hb

end periodic

/-! ### The hypotheses can be met -/

/-- The half-range solver, asked for all the numbers an `int` can hold, with an inner solver that knows the number `2^30 - 1`. -/
example : halfByIndex (K := ℚ) ⟨fun _ _ _ => .ok 0, fun _ _ _ => .ok 0, fun i j _ _ => .ok (if i ≤ 1073741822 ∧ 1073741822 < j then [(1073741822, 7)] else []), fun _ _ _ _ => .ok [], fun _ _ _ => .throws ""⟩ 0 2147483647 ⟨0, 1, 0, 0⟩ =
    .ok [(2147483644, 7), (2147483645, 7)] := by
  rw [C121_half_by_index_no_overflow _ _ _ _ (by norm_num) (by unfold IsInt; omega) (by unfold IsInt; omega)]
  · simp [HalfRange.eigenvaluesByIndex, HalfRange.merge]
  · intro i j y0 l h p hp
    simp only [Outcome.ok.injEq] at h
    subst h
    split_ifs at hp with h'
    · simp only [List.mem_singleton] at hp
      subst hp
      exact h'
    · simp at hp


/-- Conversions of rational numbers to 32-bit `int`. -/
@[reducible] def cint32 : CInt ℚ where
  ceil x := if IsInt ⌈x⌉ then some ⌈x⌉ else none
  floor x := if IsInt ⌊x⌋ then some ⌊x⌋ else none
  round x := if IsInt (round x) then some (round x) else none

theorem conversions32 : @IntConversions ℚ cint32 := by
  intro x i h
  have key : ∀ j : Int, (if IsInt j then some j else none) = some i → IsInt i := by
    intro j hj
    split_ifs at hj with h'
    exact (Option.some.inj hj) ▸ h'
  rcases h with h | h | h
  · exact key _ h
  · exact key _ h
  · exact key _ h

/-- The eigenvalues 1, 2, 3, … of a problem with the angle `E - 1/2`, found with machine integers; and the last index of `int` is accepted. -/
example : @helper ℚ _ _ _ _ _ _ _ cint32 (fun E => E - 1 / 2) (fun c => .ok (0, c)) 0 4 0 2147483647 100 =
    @Search.helper ℚ _ _ _ _ _ _ _ cint32 (fun E => E - 1 / 2) (fun c => .ok (0, c)) 0 4 0 2147483647 100 :=
  (@C120_search_no_overflow ℚ _ _ _ _ _ _ _ cint32 conversions32 _ _ 0 2147483647 (by unfold IsInt; omega) 100).1 0 4

end Verif.MInt
