import Verif.Lemmas.MeshCount

/-!
# Very short sectors stay short
-/
namespace Verif.Mesh

variable {K : Type} [Field K] [LinearOrder K] [IsStrictOrderedRing K]

/-- No sector of width at most `ε` invites an enlargement. -/
def NeverGrows (O : ErrOracle K) (ε : K) : Prop := ∀ s : Sec K, 0 < s.max - s.min → s.max - s.min ≤ ε → O.ltHalf s = false

theorem first_narrow (h left right : K) (hh : 0 < h) (hlr : left < right) :
    0 < (firstCandidate h left right .backward).max - (firstCandidate h left right .backward).min ∧
      (firstCandidate h left right .backward).max - (firstCandidate h left right .backward).min ≤ h := by
  unfold firstCandidate
  simp only [show (Dir.backward = Dir.forward) = False by simp, if_false, ccmp_lt, decide_false, Bool.false_and, decide_true, Bool.true_and,
    decide_eq_true_eq, Bool.false_eq_true]
  split
  · rename_i h1
    simp only
    constructor <;> linarith
  · simp only
    constructor <;> linarith

theorem next_narrow (O : ErrOracle K) {ε : K} (hO : NeverGrows O ε) (hε : ε ≤ 1 / 1000) (h left right : K) (hh : 0 < h) (hhε : h ≤ ε) (hlr : left < right) :
    (nextSector O h left right .backward).1.max - (nextSector O h left right .backward).1.min ≤ ε := by
  obtain ⟨h1, h2⟩ := first_narrow h left right hh hlr
  have hw := h2.trans hhε
  unfold nextSector
  simp only
  set s0 := firstCandidate h left right .backward
  have e1 : shrinkLoop O .backward 10 s0 (s0.max - s0.min) = (s0, s0.max - s0.min, 0) := by
    unfold shrinkLoop
    rw [if_neg]
    simp only [ccmp_lit, ccmp_lt, Bool.and_eq_true, decide_eq_true_eq, not_and, not_lt]
    intro _
    push_cast
    exact hw.trans hε
  rw [e1]
  simp only [if_true]
  have e2 : growLoop O .backward left right 10 s0 (s0.max - s0.min) = (s0, s0.max - s0.min) := by
    unfold growLoop
    rw [hO s0 h1 hw]
    simp
  rw [e2]
  exact hw

/-- All backward sectors so far are short. -/
structure Tiny (J : List K) (ε min max : K) (s : AutoState K) : Prop where
  inv : Inv J min max s
  bh : s.bh ≤ ε
  far : max - ((s.bs.length : K) + 1) * ε ≤ s.b.min

theorem tiny_step (O : ErrOracle K) (hO : O.Lawful) {J : List K} (hJ : J.Pairwise (· < ·)) {ε min max : K} (hn : NeverGrows O ε) (hε : ε ≤ 1 / 1000)
    {cmp : Sec K → Sec K → Bool} (hcmp : ∀ a b, cmp a b = false) {s s' : AutoState K} (h : Tiny J ε min max s) (hne : s.f.max ≠ s.b.min)
    (hs : autoStep O cmp min max s = .ok s') : Tiny J ε min max s' ∧ s'.f = s.f := by
  have hi := h.inv
  have hlt : s.f.max < s.b.min := lt_of_le_of_ne hi.gap hne
  obtain ⟨s'', hs'', hi', -⟩ := inv_step O hO cmp J hJ min max s hi hne (Min.min (Min.min s.fh s.bh) (1 / 10000))
    ((min_le_left _ _).trans (min_le_left _ _)) ((min_le_left _ _).trans (min_le_right _ _)) (min_le_right _ _)
  rw [hs] at hs''
  injection hs'' with hs''
  subst hs''
  unfold autoStep at hs
  rw [hcmp] at hs
  simp only [Bool.false_eq_true, if_false] at hs
  obtain ⟨d, hd1, hd2⟩ := hi.bdrop
  have hJr : J.reverse.Pairwise (· > ·) := by rw [List.pairwise_reverse]; exact hJ
  obtain ⟨bj, hbj, -, hk⟩ := skipJump_bwd hJr hd1 (hi.fl.trans hlt) hd2 hi.bkeep
  rw [hbj] at hs
  simp only [Outcome.bind_ok, Outcome.pure_eq, Outcome.ok.injEq, stdMax_eq] at hs
  set left := Max.max s.f.max (nextJump bj min) with hleft
  have hr1 : left < s.b.min := max_lt hlt (nextJump_gt hk (hi.fl.trans hlt))
  have e := next_exact O hO s.bh left s.b.min .backward (.inr rfl) hi.bhp hr1
  have ha2 := (next_anchor O s.bh left s.b.min .backward).2.2 (by simp)
  have hw := next_narrow O hn hε s.bh left s.b.min hi.bhp h.bh hr1
  simp only at e
  obtain ⟨-, -, -, e4, -⟩ := e
  set r := nextSector O s.bh left s.b.min .backward with hrdef
  subst hs
  refine ⟨⟨hi', by simp only; rw [e4]; exact hw, ?_⟩, rfl⟩
  have := h.far
  simp only [List.length_cons, Nat.cast_add, Nat.cast_one]
  have e : ((s.bs.length : K) + 1 + 1) * ε = ((s.bs.length : K) + 1) * ε + ε := by ring
  rw [e]; linarith

theorem tiny_loop (O : ErrOracle K) (hO : O.Lawful) {J : List K} (hJ : J.Pairwise (· < ·)) {ε min max : K} (hn : NeverGrows O ε) (hε : ε ≤ 1 / 1000)
    {cmp : Sec K → Sec K → Bool} (hcmp : ∀ a b, cmp a b = false) : ∀ (fuel : ℕ) (s s' : AutoState K), Tiny J ε min max s →
      autoLoop O cmp min max fuel s = .ok s' → Tiny J ε min max s' ∧ s'.f = s.f ∧ s'.f.max = s'.b.min := by
  intro fuel
  induction fuel with
  | zero =>
    intro s s' h hs
    unfold autoLoop at hs
    split at hs
    · rename_i hc
      injection hs with hs; subst hs; exact ⟨h, rfl, by simpa using hc⟩
    · simp at hs
  | succ n ih =>
    intro s s' h hs
    unfold autoLoop at hs
    split at hs
    · rename_i hc
      injection hs with hs; subst hs; exact ⟨h, rfl, by simpa using hc⟩
    · rename_i hc
      simp only at hs
      obtain ⟨s1, h1, h2⟩ := Outcome.bind_eq_ok.mp hs
      obtain ⟨t1, t2⟩ := tiny_step O hO hJ hn hε hcmp h (by simpa using hc) h1
      obtain ⟨u1, u2, u3⟩ := ih s1 s' t1 h2
      exact ⟨u1, u2.trans t2, u3⟩

/-- One jump at distance `ε` from the right end. -/
theorem tiny_build (O : ErrOracle K) (hO : O.Lawful) {ε min max : K} (h0 : 0 < ε) (hlt : min < max) (hn : NeverGrows O ε) (hε : ε ≤ 1 / 1000)
    (hsm : ε < 1 / 2 * (max - min)) {cmp : Sec K → Sec K → Bool} (hcmp : ∀ a b, cmp a b = false) {fuel : ℕ} {r : BuildResult K}
    (hr : autoBuild fuel O cmp [max - ε] min max = .ok r) : 1 / 2 * (max - min) ≤ (r.sectors.length : K) * ε := by
  unfold autoBuild at hr
  obtain ⟨s, hs, hr⟩ := Outcome.bind_eq_ok.mp hr
  simp only [Outcome.pure_eq, Outcome.ok.injEq] at hr
  subst hr
  have hin : ∀ j ∈ [max - ε], min < j ∧ j < max := by
    intro j hj
    rw [List.mem_singleton] at hj
    subst hj
    constructor <;> linarith
  have hi := inv_init O hO [max - ε] (by simp) min max hlt hin
  set mid : K := (((4956864123 / 10000000000 : ℚ)) : K) * max + (((5043135877 / 10000000000 : ℚ)) : K) * min with hmid
  have q2 : max - mid = 5043135877 / 10000000000 * (max - min) := by rw [hmid]; push_cast; ring
  set fh : K := (((33 / 100 : ℚ)) : K) * (max - min) with hfh
  have hfe : fh = 33 / 100 * (max - min) := by rw [hfh]; push_cast; rfl
  have hL : 0 < max - min := by linarith
  have hmid1 : min < mid := by
    have : mid = min + 4956864123 / 10000000000 * (max - min) := by rw [hmid]; push_cast; ring
    rw [this]
    have := mul_pos (show (0 : K) < 4956864123 / 10000000000 by norm_num) hL
    linarith
  have hjm : mid ≤ max - ε := by linarith
  have hmn : Min.min mid (nextJump [max - ε] max) = mid := min_eq_left hjm
  have hmx : Max.max mid (nextJump [max - ε] min) = max - ε := max_eq_right hjm
  have hfh0 : 0 < fh := by rw [hfe]; linarith
  have cf := next_exact O hO fh min mid .forward (.inl rfl) hfh0 hmid1
  have cb := next_exact O hO fh (max - ε) max .backward (.inr rfl) hfh0 (by linarith)
  simp only at cf cb
  have hinit : autoInit O [max - ε] min max = ⟨(nextSector O fh min mid .forward).1, [], (nextSector O fh (max - ε) max .backward).1, [],
      (nextSector O fh min mid .forward).2, (nextSector O fh (max - ε) max .backward).2, [max - ε], [max - ε]⟩ := by
    simp only [autoInit, ccmp_lit, stdMin_eq, stdMax_eq, ← hmid, ← hfh, List.reverse_singleton, hmn, hmx]
  have htiny : Tiny [max - ε] ε min max (autoInit O [max - ε] min max) := by
    refine ⟨hi, ?_, ?_⟩
    · rw [hinit]; simp only; rw [cb.2.2.2.1]; linarith [cb.1, cb.2.1]
    · rw [hinit]; simp only [List.length_nil, Nat.cast_zero, zero_add, one_mul]; exact cb.1
  obtain ⟨t1, t2, t3⟩ := tiny_loop O hO (by simp) hn hε hcmp fuel _ _ htiny hs
  have hf : s.f.max ≤ mid := by rw [t2, hinit]; exact cf.2.1
  have hfar := t1.far
  rw [← t3] at hfar
  have hlen : ((((s.f :: s.fs).reverse ++ s.b :: s.bs).length : ℕ) : K) = (s.fs.length : K) + 1 + ((s.bs.length : K) + 1) := by
    simp only [List.length_append, List.length_reverse, List.length_cons, Nat.cast_add, Nat.cast_one]
  rw [hlen, add_mul]
  have : 0 ≤ ((s.fs.length : K) + 1) * ε := by positivity
  linarith

end Verif.Mesh
