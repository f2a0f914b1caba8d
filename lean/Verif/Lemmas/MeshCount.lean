import Verif.Lemmas.MeshAuto

/-!
# The number of sectors of an automatic mesh without jumps
-/
namespace Verif.Mesh

variable {K : Type} [Field K] [LinearOrder K] [IsStrictOrderedRing K]

/-- Sectors inside `[a, b]` that are rejected, and are wide enough to be shrunk, have width at least `g`. -/
def RejectsOnly (O : ErrOracle K) (g a b : K) : Prop :=
  ∀ s : Sec K, a ≤ s.min → s.max ≤ b → 1 / 1000 < s.max - s.min → O.gtTol s = true → g ≤ s.max - s.min

theorem shrink_width (O : ErrOracle K) (hO : O.Lawful) {g a b : K} (hg : RejectsOnly O g a b) (d : Dir) (n : Nat) (s : Sec K) (h : K)
    (hh : h = s.max - s.min) (hpos : 0 < h) (ha : a ≤ s.min) (hb : s.max ≤ b) :
    (shrinkLoop O d n s h).1 = s ∨ g / 10 ≤ (shrinkLoop O d n s h).1.max - (shrinkLoop O d n s h).1.min := by
  induction n generalizing s h with
  | zero => exact .inl rfl
  | succ n ih =>
    unfold shrinkLoop
    split
    · rename_i hc
      simp only [ccmp_lit, ccmp_lt, Bool.and_eq_true, decide_eq_true_eq] at hc
      obtain ⟨hgt, hbig⟩ := hc
      simp only [stdMax_eq, ccmp_lit]
      set c : K := max (((1 / 10 : ℚ) : K)) (((99 / 100 : ℚ) : K) * O.powf s) with hcdef
      have e1 : (((1 / 10 : ℚ)) : K) = 1 / 10 := by norm_num
      have e2 : (((99 / 100 : ℚ)) : K) = 99 / 100 := by norm_num
      have e3 : (((1 / 1000 : ℚ)) : K) = 1 / 1000 := by norm_num
      rw [e1, e2] at hcdef
      rw [e3] at hbig
      have hg1 : c ≤ 1 := by
        rw [hcdef]; apply max_le (by norm_num)
        have := hO.shrinks s hgt
        nlinarith
      have hg0 : 1 / 10 ≤ c := by rw [hcdef]; exact le_max_left _ _
      have hw := hg s ha hb (by rw [← hh]; exact hbig) hgt
      have hh1 : g / 10 ≤ h * c := by
        rw [← hh] at hw
        have := mul_le_mul_of_nonneg_left hg0 hpos.le
        linarith
      have hp : 0 < h * c := mul_pos hpos (by linarith [show (0 : K) < 1 / 10 by norm_num])
      have hh2 : h * c ≤ h := mul_le_of_le_one_right hpos.le hg1
      by_cases hf : d = .forward
      · simp only [hf, if_true]
        have := ih (s := ⟨s.min, s.min + h * c, d⟩) (h := s.min + h * c - s.min) (by simp) (by simp; exact hp) ha
          (by simp only; linarith)
        simp only [hf] at this
        right
        rcases this with h2 | h2
        · rw [h2]; simp only; linarith
        · exact h2
      · simp only [hf, if_false]
        have := ih (s := ⟨s.max - h * c, s.max, d⟩) (h := s.max - (s.max - h * c)) (by simp) (by simp; exact hp)
          (by simp only; linarith) hb
        right
        rcases this with h2 | h2
        · rw [h2]; simp only; linarith
        · exact h2
    · exact .inl rfl

/-- One call: the result is wide, or fills the space it was given. -/
theorem next_width (O : ErrOracle K) (hO : O.Lawful) {g : K} (h left right : K) (hg : RejectsOnly O g left right) (d : Dir)
    (hd : d = .forward ∨ d = .backward) (hh : 0 < h) (hlr : left < right) :
    min h (right - left) ≤ (nextSector O h left right d).1.max - (nextSector O h left right d).1.min ∨
      g / 10 ≤ (nextSector O h left right d).1.max - (nextSector O h left right d).1.min := by
  have h0 := first_exact h left right d hd hh hlr
  unfold nextSector
  simp only at h0 ⊢
  set s0 := firstCandidate h left right d with hs0
  have hp : 0 < s0.max - s0.min := by linarith [h0.2.2.1]
  have hs := shrink_exact O hO d 10 s0 (s0.max - s0.min) rfl hp
  have hw := shrink_width O hO hg d 10 s0 (s0.max - s0.min) rfl hp h0.1 h0.2.1
  simp only at hs
  set r := shrinkLoop O d 10 s0 (s0.max - s0.min) with hr
  split
  · rename_i hz
    have hge := grow_exact O hO d left right 10 r.1 r.2.1 hs.2.2.2.1 (by linarith [hs.2.2.1, hs.2.2.2.1])
      (h0.1.trans hs.1) (hs.2.1.trans h0.2.1)
    simp only at hge
    rcases hw with h2 | h2
    · left
      rw [h2] at hge ⊢
      linarith [hge.2.1, hge.2.2.1, h0.2.2.2]
    · right
      linarith [hge.2.1, hge.2.2.1]
  · rename_i hz
    rcases hw with h2 | h2
    · left; rw [h2]; exact h0.2.2.2
    · exact .inr h2

theorem next_cases (O : ErrOracle K) (hO : O.Lawful) {g m : K} (hm : m ≤ g / 10) (h left right : K) (hg : RejectsOnly O g left right) (d : Dir)
    (hd : d = .forward ∨ d = .backward) (hh : 0 < h) (hmh : m ≤ h) (hlr : left < right) :
    m ≤ (nextSector O h left right d).1.max - (nextSector O h left right d).1.min ∨
      ((nextSector O h left right d).1.min = left ∧ (nextSector O h left right d).1.max = right) := by
  have e := next_exact O hO h left right d hd hh hlr
  simp only at e
  obtain ⟨e1, e2, -, -, -⟩ := e
  rcases next_width O hO h left right hg d hd hh hlr with h1 | h1
  · rcases min_choice h (right - left) with hc | hc
    · rw [hc] at h1; exact .inl (hmh.trans h1)
    · rw [hc] at h1
      right
      constructor <;> linarith
  · exact .inl (hm.trans h1)

/-- `RejectsOnly` for every interval inside `[a, b]` without a jump in its interior. -/
def RejectsBetween (O : ErrOracle K) (J : List K) (g a b : K) : Prop :=
  ∀ l r, a ≤ l → r ≤ b → (∀ j ∈ J, ¬ (l < j ∧ j < r)) → RejectsOnly O g l r

/-- The sector was cut short at a listed jump: its far end (in the direction it was built) is one. -/
def EndsAtJump (J : List K) (t : Sec K) : Prop := (t.dir = .forward ∧ t.max ∈ J) ∨ (t.dir = .backward ∧ t.min ∈ J)

/-- The state while the gap is open: everything built so far is wide. -/
structure Wide (J : List K) (m min max : K) (s : AutoState K) : Prop where
  inv : Inv J min max s
  fh : m ≤ s.fh
  bh : m ≤ s.bh
  wf : ∀ t ∈ s.f :: s.fs, m ≤ t.max - t.min
  wb : ∀ t ∈ s.b :: s.bs, m ≤ t.max - t.min
  cf : ((s.fs.length : K) + 1) * m ≤ s.f.max - min
  cb : ((s.bs.length : K) + 1) * m ≤ max - s.b.min

/-- The closed state: all sectors but the last one built are wide. -/
structure Closed (m min max : K) (s : AutoState K) : Prop where
  gap : s.f.max = s.b.min
  w : (∀ t ∈ s.fs ++ s.b :: s.bs, m ≤ t.max - t.min) ∨ (∀ t ∈ s.f :: s.fs ++ s.bs, m ≤ t.max - t.min)
  c : ((s.fs.length : K) + s.bs.length + 1) * m ≤ max - min

theorem Wide.closed {J : List K} {m min max : K} {s : AutoState K} (hm : 0 < m) (h : Wide J m min max s) (he : s.f.max = s.b.min) :
    Closed m min max s := by
  refine ⟨he, .inl fun t ht => ?_, ?_⟩
  · rcases List.mem_append.mp ht with h1 | h1
    · exact h.wf t (List.mem_cons_of_mem _ h1)
    · exact h.wb t h1
  · have := h.cf
    have := h.cb
    have e : ((s.fs.length : K) + s.bs.length + 1) * m = ((s.fs.length : K) + 1) * m + ((s.bs.length : K) + 1) * m - m := by ring
    rw [e]
    linarith

theorem wide_step (O : ErrOracle K) (hO : O.Lawful) {J : List K} (hJ : J.Pairwise (· < ·)) {g m min max : K} (hg : RejectsBetween O J g min max)
    (hm0 : 0 < m) (hm : m ≤ g / 10) (cmp : Sec K → Sec K → Bool) {s s' : AutoState K} (h : Wide J m min max s) (hne : s.f.max ≠ s.b.min)
    (hs : autoStep O cmp min max s = .ok s') (hcut : ∀ t ∈ s'.all, EndsAtJump J t → m ≤ t.max - t.min) :
    Wide J m min max s' ∨ Closed m min max s' := by
  have hi := h.inv
  have hlt : s.f.max < s.b.min := lt_of_le_of_ne hi.gap hne
  obtain ⟨s'', hs'', hi', -⟩ := inv_step O hO cmp J hJ min max s hi hne (Min.min (Min.min s.fh s.bh) (1 / 10000))
    ((min_le_left _ _).trans (min_le_left _ _)) ((min_le_left _ _).trans (min_le_right _ _)) (min_le_right _ _)
  rw [hs] at hs''
  injection hs'' with hs''
  subst hs''
  unfold autoStep at hs
  split at hs
  · obtain ⟨d, hd1, hd2⟩ := hi.fdrop
    obtain ⟨fj, hfj, ⟨d', hd'1, hd'2⟩, hk⟩ := skipJump_fwd hJ hd1 (hlt.trans hi.br) hd2 hi.fkeep
    rw [hfj] at hs
    simp only [Outcome.bind_ok, Outcome.pure_eq, Outcome.ok.injEq, stdMin_eq] at hs
    set right := Min.min s.b.min (nextJump fj max) with hright
    have hr1 : s.f.max < right := lt_min hlt (nextJump_lt hk (hlt.trans hi.br))
    have hr2 : right ≤ s.b.min := min_le_left _ _
    have e := next_exact O hO s.fh s.f.max right .forward (.inl rfl) hi.fhp hr1
    have ha := next_anchor O s.fh s.f.max right .forward
    have ha2 := ha.2.1 rfl
    have hp : fj.Pairwise (· < ·) := by rw [hd'1] at hJ; exact (List.pairwise_append.mp hJ).2.1
    have hfree : ∀ j ∈ J, ¬ (s.f.max < j ∧ j < right) := by
      intro j hj hj2
      rw [hd'1] at hj
      rcases List.mem_append.mp hj with hx | hx
      · exact absurd (hd'2 j hx) (not_le.mpr hj2.1)
      · exact absurd ((min_le_right _ _).trans (nextJump_le_all hp j hx)) (not_le.mpr hj2.2)
    have hc := next_cases O hO hm s.fh s.f.max right (hg _ _ hi.fl.le (hr2.trans hi.br.le) hfree) .forward (.inl rfl) hi.fhp h.fh hr1
    simp only at e
    obtain ⟨-, e2, e3, e4, -⟩ := e
    set r := nextSector O s.fh s.f.max right .forward with hrdef
    have hcases : m ≤ r.1.max - r.1.min ∨ r.1.max = s.b.min := by
      rcases hc with hw | ⟨-, hcl⟩
      · exact .inl hw
      · rcases min_choice s.b.min (nextJump fj max) with hb | hb
        · exact .inr (by rw [hcl, hright, hb])
        · have hj : r.1.max = nextJump fj max := by rw [hcl, hright, hb]
          rcases nextJump_mem (js := fj) (m := max) with hx | hx
          · have := hr2.trans_lt hi.br
            rw [hright, hb, hx] at this
            exact absurd this (lt_irrefl _)
          · left
            refine hcut r.1 ?_ (.inl ⟨ha.1, ?_⟩)
            · rw [← hs]; simp [AutoState.all]
            · rw [hj, hd'1]; exact List.mem_append_right _ hx
    rcases hcases with hw | hcl
    · left
      subst hs
      refine ⟨hi', by simp only; rw [e4]; exact hw, h.bh, ?_, h.wb, ?_, h.cb⟩
      · intro t ht
        rcases List.mem_cons.mp ht with rfl | ht
        · exact hw
        · exact h.wf t ht
      · have := h.cf
        simp only [List.length_cons, Nat.cast_add, Nat.cast_one]
        have e : ((s.fs.length : K) + 1 + 1) * m = ((s.fs.length : K) + 1) * m + m := by ring
        rw [e]; linarith
    · right
      subst hs
      refine ⟨hcl, .inl fun t ht => ?_, ?_⟩
      · rcases List.mem_append.mp ht with h1 | h1
        · exact h.wf t h1
        · exact h.wb t h1
      · have := h.cf
        have := h.cb
        simp only [List.length_cons, Nat.cast_add, Nat.cast_one]
        have e : ((s.fs.length : K) + 1 + s.bs.length + 1) * m = ((s.fs.length : K) + 1) * m + ((s.bs.length : K) + 1) * m := by ring
        rw [e]; linarith
  · obtain ⟨d, hd1, hd2⟩ := hi.bdrop
    have hJr : J.reverse.Pairwise (· > ·) := by rw [List.pairwise_reverse]; exact hJ
    obtain ⟨bj, hbj, ⟨d', hd'1, hd'2⟩, hk⟩ := skipJump_bwd hJr hd1 (hi.fl.trans hlt) hd2 hi.bkeep
    rw [hbj] at hs
    simp only [Outcome.bind_ok, Outcome.pure_eq, Outcome.ok.injEq, stdMax_eq] at hs
    set left := Max.max s.f.max (nextJump bj min) with hleft
    have hr1 : left < s.b.min := max_lt hlt (nextJump_gt hk (hi.fl.trans hlt))
    have hr2 : s.f.max ≤ left := le_max_left _ _
    have e := next_exact O hO s.bh left s.b.min .backward (.inr rfl) hi.bhp hr1
    have ha := next_anchor O s.bh left s.b.min .backward
    have ha2 := ha.2.2 (by simp)
    have hp : bj.Pairwise (· > ·) := by rw [hd'1] at hJr; exact (List.pairwise_append.mp hJr).2.1
    have hfree : ∀ j ∈ J, ¬ (left < j ∧ j < s.b.min) := by
      intro j hj hj2
      have hj := List.mem_reverse.mpr hj
      rw [hd'1] at hj
      rcases List.mem_append.mp hj with hx | hx
      · exact absurd (hd'2 j hx) (not_le.mpr hj2.2)
      · exact absurd ((nextJump_ge_all hp j hx).trans (le_max_right _ _)) (not_le.mpr hj2.1)
    have hc := next_cases O hO hm s.bh left s.b.min (hg _ _ (hi.fl.le.trans hr2) hi.br.le hfree) .backward (.inr rfl) hi.bhp h.bh hr1
    simp only at e
    obtain ⟨e1, -, e3, e4, -⟩ := e
    set r := nextSector O s.bh left s.b.min .backward with hrdef
    have hcases : m ≤ r.1.max - r.1.min ∨ r.1.min = s.f.max := by
      rcases hc with hw | ⟨hcl, -⟩
      · exact .inl hw
      · rcases max_choice s.f.max (nextJump bj min) with hb | hb
        · exact .inr (by rw [hcl, hleft, hb])
        · have hj : r.1.min = nextJump bj min := by rw [hcl, hleft, hb]
          rcases nextJump_mem (js := bj) (m := min) with hx | hx
          · have := hi.fl.trans_le hr2
            rw [hleft, hb, hx] at this
            exact absurd this (lt_irrefl _)
          · left
            refine hcut r.1 ?_ (.inr ⟨ha.1, ?_⟩)
            · rw [← hs]; simp [AutoState.all]
            · rw [hj]
              have : nextJump bj min ∈ J.reverse := by rw [hd'1]; exact List.mem_append_right _ hx
              exact List.mem_reverse.mp this
    rcases hcases with hw | hcl
    · left
      subst hs
      refine ⟨hi', h.fh, by simp only; rw [e4]; exact hw, h.wf, ?_, h.cf, ?_⟩
      · intro t ht
        rcases List.mem_cons.mp ht with rfl | ht
        · exact hw
        · exact h.wb t ht
      · have := h.cb
        simp only [List.length_cons, Nat.cast_add, Nat.cast_one]
        have e : ((s.bs.length : K) + 1 + 1) * m = ((s.bs.length : K) + 1) * m + m := by ring
        rw [e]; linarith
    · right
      subst hs
      refine ⟨hcl.symm, .inr fun t ht => ?_, ?_⟩
      · rcases List.mem_append.mp ht with h1 | h1
        · exact h.wf t h1
        · exact h.wb t h1
      · have := h.cf
        have := h.cb
        simp only [List.length_cons, Nat.cast_add, Nat.cast_one]
        have e : ((s.fs.length : K) + ((s.bs.length : K) + 1) + 1) * m = ((s.fs.length : K) + 1) * m + ((s.bs.length : K) + 1) * m := by ring
        rw [e]; linarith

/-- Sectors are only added. -/
theorem step_mem (O : ErrOracle K) (cmp : Sec K → Sec K → Bool) {min max : K} {s s' : AutoState K} (hs : autoStep O cmp min max s = .ok s')
    {t : Sec K} (ht : t ∈ s.all) : t ∈ s'.all := by
  unfold autoStep at hs
  split at hs
  · obtain ⟨fj, -, hs⟩ := Outcome.bind_eq_ok.mp hs
    simp only [Outcome.pure_eq, Outcome.ok.injEq] at hs
    subst hs
    simp only [AutoState.all, List.cons_append, List.mem_cons, List.mem_append] at ht ⊢
    exact .inr ht
  · obtain ⟨bj, -, hs⟩ := Outcome.bind_eq_ok.mp hs
    simp only [Outcome.pure_eq, Outcome.ok.injEq] at hs
    subst hs
    simp only [AutoState.all, List.cons_append, List.mem_cons, List.mem_append] at ht ⊢
    rcases ht with h | h | h | h
    · exact .inl h
    · exact .inr (.inl h)
    · exact .inr (.inr (.inr (.inl h)))
    · exact .inr (.inr (.inr (.inr h)))

theorem loop_mem (O : ErrOracle K) (cmp : Sec K → Sec K → Bool) {min max : K} : ∀ (fuel : ℕ) (s s' : AutoState K),
    autoLoop O cmp min max fuel s = .ok s' → ∀ t ∈ s.all, t ∈ s'.all := by
  intro fuel
  induction fuel with
  | zero =>
    intro s s' hs t ht
    unfold autoLoop at hs
    split at hs
    · injection hs with hs; subst hs; exact ht
    · simp at hs
  | succ n ih =>
    intro s s' hs t ht
    unfold autoLoop at hs
    split at hs
    · injection hs with hs; subst hs; exact ht
    · simp only at hs
      obtain ⟨s1, h1, h2⟩ := Outcome.bind_eq_ok.mp hs
      exact ih s1 s' h2 t (step_mem O cmp h1 ht)

theorem wide_loop (O : ErrOracle K) (hO : O.Lawful) {J : List K} (hJ : J.Pairwise (· < ·)) {g m min max : K} (hg : RejectsBetween O J g min max)
    (hm0 : 0 < m) (hm : m ≤ g / 10) (cmp : Sec K → Sec K → Bool) : ∀ (fuel : Nat) (s s' : AutoState K), Wide J m min max s →
      autoLoop O cmp min max fuel s = .ok s' → (∀ t ∈ s'.all, EndsAtJump J t → m ≤ t.max - t.min) → Closed m min max s' := by
  have done : ∀ (fuel : Nat) (s s' : AutoState K), s.f.max = s.b.min → autoLoop O cmp min max fuel s = .ok s' → s' = s := by
    intro fuel s s' he hs
    cases fuel <;> unfold autoLoop at hs <;> simp only [ccmp_eq, he, decide_true, if_true, Outcome.ok.injEq] at hs <;> exact hs.symm
  intro fuel
  induction fuel with
  | zero =>
    intro s s' h hs _
    by_cases he : s.f.max = s.b.min
    · rw [done _ _ _ he hs]; exact h.closed hm0 he
    · unfold autoLoop at hs; simp [he] at hs
  | succ n ih =>
    intro s s' h hs hcut
    by_cases he : s.f.max = s.b.min
    · rw [done _ _ _ he hs]; exact h.closed hm0 he
    · unfold autoLoop at hs
      rw [if_neg (by simpa using he)] at hs
      simp only at hs
      obtain ⟨s1, h1, h2⟩ := Outcome.bind_eq_ok.mp hs
      rcases wide_step O hO hJ hg hm0 hm cmp h he h1 (fun t ht => hcut t (loop_mem O cmp _ _ _ h2 t ht)) with hw | hc
      · exact ih s1 s' hw h2 hcut
      · rw [done _ _ _ hc.gap h2]; exact hc

theorem wide_init (O : ErrOracle K) (hO : O.Lawful) {J : List K} (hJ : J.Pairwise (· < ·)) {g m min max : K} (hg : RejectsBetween O J g min max)
    (hlt : min < max) (hin : ∀ j ∈ J, min < j ∧ j < max) (hm : m ≤ g / 10)
    (hm2 : m ≤ 33 / 100 * (max - min)) (hcut : ∀ t ∈ (autoInit O J min max).all, EndsAtJump J t → m ≤ t.max - t.min) :
    Wide J m min max (autoInit O J min max) := by
  have hi := inv_init O hO J hJ min max hlt hin
  set mid : K := (((4956864123 / 10000000000 : ℚ)) : K) * max + (((5043135877 / 10000000000 : ℚ)) : K) * min with hmid
  have q1 : mid - min = 4956864123 / 10000000000 * (max - min) := by rw [hmid]; push_cast; ring
  have q2 : max - mid = 5043135877 / 10000000000 * (max - min) := by rw [hmid]; push_cast; ring
  have hL : 0 < max - min := by linarith
  have hmid1 : min < mid := by have := mul_pos (show (0 : K) < 4956864123 / 10000000000 by norm_num) hL; linarith
  have hmid2 : mid < max := by have := mul_pos (show (0 : K) < 5043135877 / 10000000000 by norm_num) hL; linarith
  set fh : K := (((33 / 100 : ℚ)) : K) * (max - min) with hfh
  have hfe : fh = 33 / 100 * (max - min) := by rw [hfh]; push_cast; rfl
  have hfh0 : 0 < fh := by rw [hfe]; linarith
  set right := Min.min mid (nextJump J max) with hright
  set left := Max.max mid (nextJump J.reverse min) with hleft
  have hr1 : min < right := lt_min hmid1 (nextJump_lt (fun j hj => (hin j hj).1) hlt)
  have hl1 : left < max := max_lt hmid2 (nextJump_gt (fun j hj => (hin j (List.mem_reverse.mp hj)).2) hlt)
  have hr2 : right ≤ max := (min_le_left _ _).trans hmid2.le
  have hl2 : min ≤ left := hmid1.le.trans (le_max_left _ _)
  have cf := next_exact O hO fh min right .forward (.inl rfl) hfh0 hr1
  have cb := next_exact O hO fh left max .backward (.inr rfl) hfh0 hl1
  have hJr : J.reverse.Pairwise (· > ·) := by rw [List.pairwise_reverse]; exact hJ
  have free1 : ∀ j ∈ J, ¬ (min < j ∧ j < right) := fun j hj hj2 =>
    absurd ((min_le_right _ _).trans (nextJump_le_all hJ j hj)) (not_le.mpr hj2.2)
  have free2 : ∀ j ∈ J, ¬ (left < j ∧ j < max) := fun j hj hj2 =>
    absurd ((nextJump_ge_all hJr j (List.mem_reverse.mpr hj)).trans (le_max_right _ _)) (not_le.mpr hj2.1)
  have wf := next_cases O hO hm fh min right (hg _ _ le_rfl hr2 free1) .forward (.inl rfl) hfh0 (by rw [hfe]; exact hm2) hr1
  have wb := next_cases O hO hm fh left max (hg _ _ hl2 le_rfl free2) .backward (.inr rfl) hfh0 (by rw [hfe]; exact hm2) hl1
  have af := next_anchor O fh min right .forward
  have ab := next_anchor O fh left max .backward
  simp only at cf cb
  have hinit : autoInit O J min max = ⟨(nextSector O fh min right .forward).1, [], (nextSector O fh left max .backward).1, [],
      (nextSector O fh min right .forward).2, (nextSector O fh left max .backward).2, J, J.reverse⟩ := by
    simp only [autoInit, ccmp_lit, stdMin_eq, stdMax_eq, ← hmid, ← hfh, ← hright, ← hleft]
  rw [hinit] at hcut hi ⊢
  have af2 := af.2.1 rfl
  have ab2 := ab.2.2 (by simp)
  set rf := nextSector O fh min right .forward
  set rb := nextSector O fh left max .backward
  have wf' : m ≤ rf.1.max - rf.1.min := by
    rcases wf with h | ⟨h1, h2⟩
    · exact h
    · rcases min_choice mid (nextJump J max) with hb | hb
      · rw [h1, h2, hright, hb, q1]; linarith
      · rcases nextJump_mem (js := J) (m := max) with hx | hx
        · have : right = max := by rw [hright, hb, hx]
          have : max ≤ mid := by rw [← this]; exact min_le_left _ _
          exact absurd this (not_le.mpr hmid2)
        · exact hcut rf.1 (by simp [AutoState.all]) (.inl ⟨af.1, by rw [h2, hright, hb]; exact hx⟩)
  have wb' : m ≤ rb.1.max - rb.1.min := by
    rcases wb with h | ⟨h1, h2⟩
    · exact h
    · rcases max_choice mid (nextJump J.reverse min) with hb | hb
      · rw [h1, h2, hleft, hb, q2]; linarith
      · rcases nextJump_mem (js := J.reverse) (m := min) with hx | hx
        · have : left = min := by rw [hleft, hb, hx]
          have : mid ≤ min := by rw [← this]; exact le_max_left _ _
          exact absurd this (not_le.mpr hmid1)
        · exact hcut rb.1 (by simp [AutoState.all]) (.inr ⟨ab.1, by rw [h1, hleft, hb]; exact List.mem_reverse.mp hx⟩)
  refine ⟨hi, ?_, ?_, ?_, ?_, ?_, ?_⟩
  · simp only; rw [cf.2.2.2.1]; exact wf'
  · simp only; rw [cb.2.2.2.1]; exact wb'
  · simpa using wf'
  · simpa using wb'
  · simp only [List.length_nil, Nat.cast_zero, zero_add, one_mul]; linarith
  · simp only [List.length_nil, Nat.cast_zero, zero_add, one_mul]; linarith

/-- **The mesh.** -/
theorem auto_wide (O : ErrOracle K) (hO : O.Lawful) {J : List K} (hJ : J.Pairwise (· < ·)) {g m min max : K} (hg : RejectsBetween O J g min max)
    (hlt : min < max) (hin : ∀ j ∈ J, min < j ∧ j < max) (hm0 : 0 < m)
    (hm : m ≤ g / 10) (hm2 : m ≤ 33 / 100 * (max - min)) (cmp : Sec K → Sec K → Bool) {fuel : ℕ} {r : BuildResult K}
    (hr : autoBuild fuel O cmp J min max = .ok r) (hcut : ∀ t ∈ r.sectors, EndsAtJump J t → m ≤ t.max - t.min) :
    ((r.sectors.length : K) - 1) * m ≤ max - min ∧
      ∃ l₁ s l₂, r.sectors = l₁ ++ s :: l₂ ∧ ∀ t ∈ l₁ ++ l₂, m ≤ t.max - t.min := by
  unfold autoBuild at hr
  obtain ⟨s, hs, hr⟩ := Outcome.bind_eq_ok.mp hr
  simp only [Outcome.pure_eq, Outcome.ok.injEq] at hr
  subst hr
  have hcut' : ∀ t ∈ s.all, EndsAtJump J t → m ≤ t.max - t.min := fun t ht => hcut t (by
    simp only [AutoState.all, List.mem_append] at ht
    rcases ht with h | h
    · exact List.mem_append_left _ (List.mem_reverse.mpr h)
    · exact List.mem_append_right _ h)
  have hc := wide_loop O hO hJ hg hm0 hm cmp fuel _ _
    (wide_init O hO hJ hg hlt hin hm hm2 (fun t ht => hcut' t (loop_mem O cmp _ _ _ hs t ht))) hs hcut'
  constructor
  · have := hc.c
    simp only [List.length_append, List.length_reverse, List.length_cons, Nat.cast_add, Nat.cast_one]
    have e : (s.fs.length : K) + 1 + (s.bs.length + 1) - 1 = s.fs.length + s.bs.length + 1 := by ring
    rw [e]; exact this
  · rcases hc.w with h | h
    · refine ⟨s.fs.reverse, s.f, s.b :: s.bs, by simp, fun t ht => h t ?_⟩
      rcases List.mem_append.mp ht with h1 | h1
      · exact List.mem_append_left _ (List.mem_reverse.mp h1)
      · exact List.mem_append_right _ h1
    · refine ⟨s.fs.reverse ++ [s.f], s.b, s.bs, by simp, fun t ht => h t ?_⟩
      simp only [List.mem_append, List.mem_reverse, List.mem_cons, List.not_mem_nil, or_false] at ht ⊢
      rcases ht with (h1 | h1) | h1
      · exact .inl (.inr h1)
      · exact .inl (.inl h1)
      · exact .inr h1

end Verif.Mesh
