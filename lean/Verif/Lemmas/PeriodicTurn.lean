import Verif.Props.Periodic

/-!
# Every turn of the periodic search leaves its entries in the result
-/
namespace Verif.Periodic
open Verif.YT Verif.Propag

variable {K : Type} [Field K] [LinearOrder K] [IsStrictOrderedRing K]

theorem expandDown_spec (g : K → K) : ∀ (n : Nat) (step x y : K), 0 < step → expandDown g n step x = .ok y → y ≤ x ∧ g y ≤ 0 := by
  intro n
  induction n with
  | zero =>
    intro step x y hs h
    unfold expandDown at h
    split at h
    · simp at h
    · rename_i c
      simp only [Outcome.ok.injEq] at h
      subst h
      exact ⟨le_rfl, by simpa using c⟩
  | succ n ih =>
    intro step x y hs h
    unfold expandDown at h
    split at h
    · obtain ⟨a, b⟩ := ih _ _ _ (mul_pos hs (by simp)) h
      exact ⟨by linarith, b⟩
    · rename_i c
      simp only [Outcome.ok.injEq] at h
      subst h
      exact ⟨le_rfl, by simpa using c⟩

theorem expandUp_spec (g : K → K) : ∀ (n : Nat) (step x y : K), 0 < step → expandUp g n step x = .ok y → x ≤ y ∧ 0 ≤ g y := by
  intro n
  induction n with
  | zero =>
    intro step x y hs h
    unfold expandUp at h
    split at h
    · simp at h
    · rename_i c
      simp only [Outcome.ok.injEq] at h
      subst h
      exact ⟨le_rfl, by simpa using c⟩
  | succ n ih =>
    intro step x y hs h
    unfold expandUp at h
    split at h
    · obtain ⟨a, b⟩ := ih _ _ _ (mul_pos hs (by simp)) h
      exact ⟨by linarith, b⟩
    · rename_i c
      simp only [Outcome.ok.injEq] at h
      subst h
      exact ⟨le_rfl, by simpa using c⟩

/-- What the turn with number `i` does: the bracket, the pair, and the entries in the result `L`. -/
def Turn {P : Type} (o : Oracle K) (r : Range K) (mk : K → Bool → P) (eps highest : K) (n : Nat) (i : Int) (L : List (Int × K × P)) : Prop :=
  ∃ l1 low high p, l1 ≤ highest ∧ o.findLow i l1 ≤ 0 ∧ bisect' (o.findLow i) eps n l1 highest = .ok low ∧ bisect' (o.findHigh i) eps n low highest = .ok high ∧
    eigenvaluePair o.det o.ddet eps n low high = .ok p ∧
    (p.2 - p.1 < eps → r.rejects (i - 1) ((p.1 + p.2) / 2) true = false → (i - 1, (p.1 + p.2) / 2, mk ((p.1 + p.2) / 2) true) ∈ L) ∧
    (eps ≤ p.2 - p.1 → (r.rejects (i - 1) p.1 false = false → (i - 1, p.1, mk p.1 false) ∈ L) ∧ (r.rejects i p.2 false = false → (i, p.2, mk p.2 false) ∈ L))

theorem add_mono {P : Type} {r : Range K} {mk : K → Bool → P} {L : List (Int × K × P)} {i : Int} {E : K} {d : Bool} : ∀ x ∈ L, x ∈ add r mk L i E d := fun x hx => by
  unfold add; split_ifs
  · exact hx
  · exact List.mem_append_left _ hx

theorem add_self {P : Type} {r : Range K} {mk : K → Bool → P} {L : List (Int × K × P)} {i : Int} {E : K} {d : Bool} (h : r.rejects i E d = false) : (i, E, mk E d) ∈ add r mk L i E d := by
  unfold add; rw [h]; simp

theorem Turn.mono {P : Type} {o : Oracle K} {r : Range K} {mk : K → Bool → P} {eps highest : K} {n : Nat} {i : Int} {L L' : List (Int × K × P)} (h : Turn o r mk eps highest n i L) (hs : ∀ x ∈ L, x ∈ L') :
    Turn o r mk eps highest n i L' := by
  obtain ⟨l1, low, high, p, a, b, c, d, e, f, g⟩ := h
  exact ⟨l1, low, high, p, a, b, c, d, e, fun q w => hs _ (f q w), fun q => ⟨fun w => hs _ ((g q).1 w), fun w => hs _ ((g q).2 w)⟩⟩

theorem mainLoop_turns {P : Type} (o : Oracle K) (r : Range K) (mk : K → Bool → P) (eps highest : K) (n : Nat) :
    ∀ (fuel : Nat) (i : Int) (low : K) (L L' : List (Int × K × P)), low ≤ highest → mainLoop o r mk eps highest n fuel i low L = .ok L' →
      (∀ x ∈ L, x ∈ L') ∧ ∀ j : ℕ, i + 2 * j ≤ r.iMax + 1 → Turn o r mk eps highest n (i + 2 * j) L' := by
  intro fuel
  induction fuel with
  | zero =>
    intro i low L L' hl h
    unfold mainLoop at h
    split at h
    · simp at h
    · simp only [Outcome.ok.injEq] at h
      subst h
      exact ⟨fun x hx => hx, fun j hj => by omega⟩
  | succ fuel ih =>
    intro i low L L' hl h
    unfold mainLoop at h
    split at h
    · simp only at h
      obtain ⟨low1, e1, h⟩ := Outcome.bind_eq_ok.mp h
      obtain ⟨low2, e2, h⟩ := Outcome.bind_eq_ok.mp h
      obtain ⟨high, e3, h⟩ := Outcome.bind_eq_ok.mp h
      obtain ⟨p, e4, h⟩ := Outcome.bind_eq_ok.mp h
      obtain ⟨s1, s2⟩ := expandDown_spec _ _ _ _ _ (by simp) e1
      have b := C31_result_in_bracket _ _ _ _ _ _ _ (s1.trans hl) e2
      obtain ⟨R, hR⟩ : ∃ R, R = (if CCmp.lt (p.2 - p.1) eps = true then add r mk L (i - 1) ((p.1 + p.2) / CCmp.lit 2) true else add r mk (add r mk L (i - 1) p.1 false) i p.2 false) := ⟨_, rfl⟩
      rw [← hR] at h
      obtain ⟨q1, q2⟩ := ih _ _ _ _ b.2 h
      have sub : ∀ x ∈ L, x ∈ R := fun x hx => by
        rw [hR]; split_ifs
        · exact add_mono x hx
        · exact add_mono x (add_mono x hx)
      have tn : Turn o r mk eps highest n i R := by
        refine ⟨low1, low2, high, p, s1.trans hl, s2, e2, e3, e4, fun q w => ?_, fun q => ⟨fun w => ?_, fun w => ?_⟩⟩
        · rw [hR, if_pos (by simpa using q)]
          simpa using add_self w
        · rw [hR, if_neg (by simpa using q)]
          exact add_mono _ (add_self w)
        · rw [hR, if_neg (by simpa using q)]
          exact add_self w
      refine ⟨fun x hx => q1 x (sub x hx), fun j hj => ?_⟩
      cases j with
      | zero =>
        have := tn.mono q1
        simpa using this
      | succ j =>
        have e : i + 2 * ((j + 1 : ℕ) : Int) = i + 2 + 2 * (j : Int) := by push_cast; ring
        rw [e] at hj ⊢
        exact q2 j hj
    · simp only [Outcome.ok.injEq] at h
      subst h
      exact ⟨fun x hx => hx, fun j hj => by omega⟩

/-- The block before the loop. -/
def First {P : Type} (o : Oracle K) (r : Range K) (mk : K → Bool → P) (eps highest : K) (n : Nat) (L : List (Int × K × P)) : Prop :=
  ∃ l1 high E, (l1 ≤ r.eMin ∧ (o.findHigh 0 r.eMin ≤ 0 → l1 = r.eMin)) ∧ l1 ≤ highest ∧ o.findHigh 0 l1 ≤ 0 ∧ bisect' (o.findHigh 0) eps n l1 highest = .ok high ∧ bisect' o.det eps n l1 high = .ok E ∧
    (r.rejects 0 E false = false → (0, E, mk E false) ∈ L)

/-- Every number that the search must look at is looked at, and what is found for it is in the result. -/
theorem helper_turns {P : Type} (o : Oracle K) (r : Range K) (mk : K → Bool → P) (eps : K) (n : Nat) (L : List (Int × K × P)) (hr : r.eMin ≤ r.eMax) (h : helper o r mk eps n = .ok L) :
    ∃ highest, r.eMax ≤ highest ∧ 0 ≤ o.findHigh (r.iMax + 1) highest ∧ ∀ m : ℤ, -1 ≤ r.iMin → 0 ≤ m → r.iMin ≤ m → m < r.iMax →
      (o.anti = false ∧ m = 0 ∧ First o r mk eps highest n L) ∨
      ∃ i : ℕ, 1 ≤ i ∧ (i % 2 = if o.anti then 1 else 0) ∧ (i : ℤ) ≤ r.iMax + 1 ∧ (m = (i : ℤ) - 1 ∨ m = i) ∧ Turn o r mk eps highest n i L := by
  unfold helper at h
  obtain ⟨highest, e1, h⟩ := Outcome.bind_eq_ok.mp h
  obtain ⟨s1, s2⟩ := expandUp_spec _ _ _ _ _ (by simp) e1
  refine ⟨highest, s1, s2, fun m h0 m0 m1 m2 => ?_⟩
  simp only at h
  have hm : r.iMin.tmod 2 = if r.iMin = -1 then -1 else r.iMin % 2 := by
    split_ifs with e
    · rw [e]; rfl
    · exact Int.tmod_eq_emod_of_nonneg (by omega)
  split at h
  · rename_i z
    obtain ⟨st, hst, h⟩ := Outcome.bind_eq_ok.mp h
    unfold lowest at hst
    obtain ⟨low, e2, hst⟩ := Outcome.bind_eq_ok.mp hst
    obtain ⟨high, e3, hst⟩ := Outcome.bind_eq_ok.mp hst
    obtain ⟨E, e4, hst⟩ := Outcome.bind_eq_ok.mp hst
    simp only [Outcome.pure_eq, Outcome.ok.injEq] at hst
    subst hst
    obtain ⟨t1, t2⟩ := expandDown_spec _ _ _ _ _ (by simp) e2
    have lh := (t1.trans hr).trans s1
    obtain ⟨q1, q2⟩ := mainLoop_turns o r mk eps highest n _ _ _ _ _ lh h
    have hA : o.anti = false := by
      by_contra hc
      have hc : o.anti = true := by simpa using hc
      unfold startIndex at z
      rw [hm, hc] at z
      simp only [if_true] at z
      split_ifs at z <;> omega
    by_cases m3 : m = 0
    · refine .inl ⟨hA, m3, low, high, E, ⟨t1, fun w => ?_⟩, lh, t2, e3, e4, fun w => q1 _ (add_self w)⟩
      unfold expandDown at e2
      rw [if_neg (by simpa using w)] at e2
      simpa using e2.symm
    · right
      obtain ⟨j, hj⟩ : ∃ j : ℕ, m = 2 + 2 * (j : ℤ) - 1 ∨ m = 2 + 2 * (j : ℤ) := ⟨((m + 1) / 2 - 1).toNat, by omega⟩
      refine ⟨2 + 2 * j, by omega, by rw [hA, if_neg (by simp)]; omega, by push_cast; omega, by push_cast; exact hj, ?_⟩
      have := q2 j (by rw [z]; omega)
      rw [z, zero_add] at this
      push_cast
      exact this
  · rename_i z
    obtain ⟨q1, q2⟩ := mainLoop_turns o r mk eps highest n _ _ _ _ _ (hr.trans s1) h
    right
    unfold startIndex at z q2
    rw [hm] at z q2
    obtain ⟨s, hs⟩ : ∃ s, s = (r.iMin - (if r.iMin = -1 then -1 else r.iMin % 2) + if o.anti = true then 1 else 0) := ⟨_, rfl⟩
    rw [← hs] at z q2
    have par : s % 2 = (if o.anti = true then 1 else 0) ∧ s ≤ m + 1 ∧ 1 ≤ s := by
      split_ifs at hs ⊢ <;> omega
    obtain ⟨p1, p2, p3⟩ := par
    obtain ⟨j, hj⟩ : ∃ j : ℕ, m = s + 2 * (j : ℤ) - 1 ∨ m = s + 2 * (j : ℤ) := ⟨((m + 1 - s) / 2).toNat, by omega⟩
    obtain ⟨s', rfl⟩ : ∃ s' : ℕ, s = s' := ⟨s.toNat, by omega⟩
    refine ⟨s' + 2 * j, by omega, ?_, by push_cast; omega, by push_cast; exact hj, ?_⟩
    · split_ifs at p1 ⊢ <;> omega
    · have := q2 j (by omega)
      push_cast
      exact this

/-- The entry `x` comes from the turn with number `i`. -/
def FromTurn {P : Type} (o : Oracle K) (mk : K → Bool → P) (eps highest : K) (n : Nat) (i : Int) (x : Int × K × P) : Prop :=
  ∃ l1 low high p, l1 ≤ highest ∧ o.findLow i l1 ≤ 0 ∧ bisect' (o.findLow i) eps n l1 highest = .ok low ∧ bisect' (o.findHigh i) eps n low highest = .ok high ∧
    eigenvaluePair o.det o.ddet eps n low high = .ok p ∧
    ((p.2 - p.1 < eps ∧ x = (i - 1, (p.1 + p.2) / 2, mk ((p.1 + p.2) / 2) true)) ∨ (eps ≤ p.2 - p.1 ∧ (x = (i - 1, p.1, mk p.1 false) ∨ x = (i, p.2, mk p.2 false))))

theorem add_from {P : Type} {r : Range K} {mk : K → Bool → P} {L : List (Int × K × P)} {i : Int} {E : K} {d : Bool} {x : Int × K × P} (h : x ∈ add r mk L i E d) : x ∈ L ∨ x = (i, E, mk E d) := by
  unfold add at h
  split_ifs at h
  · exact .inl h
  · simpa using h

theorem mainLoop_from {P : Type} (o : Oracle K) (r : Range K) (mk : K → Bool → P) (eps highest : K) (n : Nat) :
    ∀ (fuel : Nat) (i : Int) (low : K) (L L' : List (Int × K × P)), low ≤ highest → mainLoop o r mk eps highest n fuel i low L = .ok L' →
      ∀ x ∈ L', x ∈ L ∨ ∃ j : ℕ, i + 2 * j ≤ r.iMax + 1 ∧ FromTurn o mk eps highest n (i + 2 * j) x := by
  intro fuel
  induction fuel with
  | zero =>
    intro i low L L' hl h
    unfold mainLoop at h
    split at h
    · simp at h
    · simp only [Outcome.ok.injEq] at h
      subst h
      exact fun x hx => .inl hx
  | succ fuel ih =>
    intro i low L L' hl h
    unfold mainLoop at h
    split at h
    · rename_i hi
      simp only at h
      obtain ⟨low1, e1, h⟩ := Outcome.bind_eq_ok.mp h
      obtain ⟨low2, e2, h⟩ := Outcome.bind_eq_ok.mp h
      obtain ⟨high, e3, h⟩ := Outcome.bind_eq_ok.mp h
      obtain ⟨p, e4, h⟩ := Outcome.bind_eq_ok.mp h
      obtain ⟨s1, s2⟩ := expandDown_spec _ _ _ _ _ (by simp) e1
      have b := C31_result_in_bracket _ _ _ _ _ _ _ (s1.trans hl) e2
      obtain ⟨R, hR⟩ : ∃ R, R = (if CCmp.lt (p.2 - p.1) eps = true then add r mk L (i - 1) ((p.1 + p.2) / CCmp.lit 2) true else add r mk (add r mk L (i - 1) p.1 false) i p.2 false) := ⟨_, rfl⟩
      rw [← hR] at h
      intro x hx
      rcases ih _ _ _ _ b.2 h x hx with q | ⟨j, hj, q⟩
      · rw [hR] at q
        split_ifs at q with c
        · rcases add_from q with q | q
          · exact .inl q
          · refine .inr ⟨0, by simpa using hi, ?_⟩
            simp only [Nat.cast_zero, mul_zero, add_zero]
            exact ⟨low1, low2, high, p, s1.trans hl, s2, e2, e3, e4, .inl ⟨by simpa using c, by simpa using q⟩⟩
        · have mk2 : (x = (i - 1, p.1, mk p.1 false) ∨ x = (i, p.2, mk p.2 false)) → FromTurn o mk eps highest n i x := fun q =>
            ⟨low1, low2, high, p, s1.trans hl, s2, e2, e3, e4, .inr ⟨by simpa using c, q⟩⟩
          rcases add_from q with q | q
          · rcases add_from q with q | q
            · exact .inl q
            · refine .inr ⟨0, by simpa using hi, ?_⟩
              simp only [Nat.cast_zero, mul_zero, add_zero]
              exact mk2 (.inl q)
          · refine .inr ⟨0, by simpa using hi, ?_⟩
            simp only [Nat.cast_zero, mul_zero, add_zero]
            exact mk2 (.inr q)
      · refine .inr ⟨j + 1, by push_cast; omega, ?_⟩
        have e : i + 2 * ((j + 1 : ℕ) : Int) = i + 2 + 2 * (j : Int) := by push_cast; ring
        rw [e]
        exact q
    · simp only [Outcome.ok.injEq] at h
      subst h
      exact fun x hx => .inl hx

/-- Every entry of the result comes from the block before the loop or from a turn. -/
theorem helper_from {P : Type} (o : Oracle K) (r : Range K) (mk : K → Bool → P) (eps : K) (n : Nat) (L : List (Int × K × P)) (hr : r.eMin ≤ r.eMax) (h : helper o r mk eps n = .ok L) (h0 : -1 ≤ r.iMin) :
    ∃ highest, r.eMax ≤ highest ∧ 0 ≤ o.findHigh (r.iMax + 1) highest ∧ ∀ x ∈ L,
      (o.anti = false ∧ r.iMin ≤ 1 ∧ ∃ l1 high E, (l1 ≤ r.eMin ∧ (o.findHigh 0 r.eMin ≤ 0 → l1 = r.eMin)) ∧ l1 ≤ highest ∧ o.findHigh 0 l1 ≤ 0 ∧ bisect' (o.findHigh 0) eps n l1 highest = .ok high ∧ bisect' o.det eps n l1 high = .ok E ∧ x = (0, E, mk E false)) ∨
      ∃ i : ℕ, 1 ≤ i ∧ (i % 2 = if o.anti then 1 else 0) ∧ (i : ℤ) ≤ r.iMax + 1 ∧ FromTurn o mk eps highest n i x := by
  unfold helper at h
  obtain ⟨highest, e1, h⟩ := Outcome.bind_eq_ok.mp h
  obtain ⟨s1, s2⟩ := expandUp_spec _ _ _ _ _ (by simp) e1
  refine ⟨highest, s1, s2, fun x hx => ?_⟩
  simp only at h
  have hm : r.iMin.tmod 2 = if r.iMin = -1 then -1 else r.iMin % 2 := by
    split_ifs with e
    · rw [e]; rfl
    · exact Int.tmod_eq_emod_of_nonneg (by omega)
  split at h
  · rename_i z
    obtain ⟨st, hst, h⟩ := Outcome.bind_eq_ok.mp h
    unfold lowest at hst
    obtain ⟨low, e2, hst⟩ := Outcome.bind_eq_ok.mp hst
    obtain ⟨high, e3, hst⟩ := Outcome.bind_eq_ok.mp hst
    obtain ⟨E, e4, hst⟩ := Outcome.bind_eq_ok.mp hst
    simp only [Outcome.pure_eq, Outcome.ok.injEq] at hst
    subst hst
    obtain ⟨t1, t2⟩ := expandDown_spec _ _ _ _ _ (by simp) e2
    have lh := (t1.trans hr).trans s1
    have hA : o.anti = false := by
      by_contra hc
      have hc : o.anti = true := by simpa using hc
      unfold startIndex at z
      rw [hm, hc] at z
      simp only [if_true] at z
      split_ifs at z <;> omega
    have hi : r.iMin ≤ 1 := by
      unfold startIndex at z
      rw [hm, hA] at z
      simp only [Bool.false_eq_true, if_false] at z
      split_ifs at z <;> omega
    rcases mainLoop_from o r mk eps highest n _ _ _ _ _ lh h x hx with q | ⟨j, hj, q⟩
    · rcases add_from q with q | q
      · simp at q
      · refine .inl ⟨hA, hi, low, high, E, ⟨t1, fun w => ?_⟩, lh, t2, e3, e4, q⟩
        unfold expandDown at e2
        rw [if_neg (by simpa using w)] at e2
        simpa using e2.symm
    · refine .inr ⟨2 + 2 * j, by omega, by rw [hA, if_neg (by simp)]; omega, by rw [z] at hj; push_cast; omega, ?_⟩
      rw [z, zero_add] at q
      push_cast
      exact q
  · rename_i z
    rcases mainLoop_from o r mk eps highest n _ _ _ _ _ (hr.trans s1) h x hx with q | ⟨j, hj, q⟩
    · simp at q
    · right
      unfold startIndex at z q hj
      rw [hm] at z q hj
      obtain ⟨s, hs⟩ : ∃ s, s = (r.iMin - (if r.iMin = -1 then -1 else r.iMin % 2) + if o.anti = true then 1 else 0) := ⟨_, rfl⟩
      rw [← hs] at z q hj
      have par : s % 2 = (if o.anti = true then 1 else 0) ∧ 1 ≤ s := by
        split_ifs at hs ⊢ <;> omega
      obtain ⟨p1, p3⟩ := par
      obtain ⟨s', rfl⟩ : ∃ s' : ℕ, s = s' := ⟨s.toNat, by omega⟩
      refine ⟨s' + 2 * j, by omega, ?_, by push_cast; omega, ?_⟩
      · split_ifs at p1 ⊢ <;> omega
      · push_cast
        exact q

end Verif.Periodic
