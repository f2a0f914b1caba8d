import Verif.Lemmas.Mesh
import Mathlib.Algebra.Order.Archimedean.Basic
import Mathlib.Data.Finset.Card
import Mathlib.Data.Finset.Dedup

set_option linter.unusedSectionVars false
namespace Verif.Mesh
open Verif.Spec

section lawfree
variable {K : Type u} [Add K] [Sub K] [Mul K] [Div K] [CCmp K]

/-! ### Law-free facts about `automaticNextSector` -/

theorem shrink_anchor (O : ErrOracle K) (d : Dir) (n : Nat) (s : Sec K) (h : K) (hd : s.dir = d) :
    let r := shrinkLoop O d n s h
    r.1.dir = d ∧ (d = .forward → r.1.min = s.min) ∧ (d ≠ .forward → r.1.max = s.max) := by
  induction n generalizing s h with
  | zero => simp [shrinkLoop, hd]
  | succ n ih =>
    unfold shrinkLoop
    split
    · simp only
      by_cases hf : d = .forward
      · simp only [hf, if_true]
        have := ih (s := ⟨s.min, s.min + h * stdMax (CCmp.lit (1/10)) (CCmp.lit (99/100) * O.powf s), d⟩)
          (h := (s.min + h * stdMax (CCmp.lit (1/10)) (CCmp.lit (99/100) * O.powf s)) - s.min) rfl
        simpa [hf] using this
      · simp only [hf, if_false]
        have := ih (s := ⟨s.max - h * stdMax (CCmp.lit (1/10)) (CCmp.lit (99/100) * O.powf s), s.max, d⟩)
          (h := s.max - (s.max - h * stdMax (CCmp.lit (1/10)) (CCmp.lit (99/100) * O.powf s))) rfl
        simpa [hf] using this
    · simp [hd]

theorem grow_anchor (O : ErrOracle K) (d : Dir) (left right : K) (n : Nat) (s : Sec K) (h : K)
    (hd : s.dir = d) (h1 : d = .forward → s.min = left) (h2 : d ≠ .forward → s.max = right) :
    let r := growLoop O d left right n s h
    r.1.dir = d ∧ (d = .forward → r.1.min = left) ∧ (d ≠ .forward → r.1.max = right) := by
  induction n generalizing s h with
  | zero => simp [growLoop, hd]; exact ⟨h1, h2⟩
  | succ n ih =>
    unfold growLoop
    simp only
    split
    · split
      · exact ⟨hd, h1, h2⟩
      · apply ih
        · rfl
        · intro hf
          unfold growBounds
          split
          · rfl
          · simp [h1 hf]
        · intro hf
          unfold growBounds
          split
          · rfl
          · simp [h2 hf]
    · exact ⟨hd, h1, h2⟩

theorem next_anchor (O : ErrOracle K) (h left right : K) (d : Dir) :
    let r := nextSector O h left right d
    r.1.dir = d ∧ (d = .forward → r.1.min = left) ∧ (d ≠ .forward → r.1.max = right) := by
  have h0 : (firstCandidate h left right d).dir = d ∧
      (d = .forward → (firstCandidate h left right d).min = left) ∧
      (d ≠ .forward → (firstCandidate h left right d).max = right) := by
    unfold firstCandidate
    cases d <;> simp <;> split <;> simp
  unfold nextSector
  simp only
  have hs := shrink_anchor O d 10 (firstCandidate h left right d)
    ((firstCandidate h left right d).max - (firstCandidate h left right d).min) h0.1
  split
  · apply grow_anchor
    · exact hs.1
    · intro hf; rw [hs.2.1 hf, h0.2.1 hf]
    · intro hf; rw [hs.2.2 hf, h0.2.2 hf]
  · exact ⟨hs.1, fun hf => by rw [hs.2.1 hf, h0.2.1 hf], fun hf => by rw [hs.2.2 hf, h0.2.2 hf]⟩

/-- the forward stack (latest first) is contiguous and starts at `a` -/
inductive FChain (a : K) : Sec K → List (Sec K) → Prop
  | one (s) : s.min = a → FChain a s []
  | push {s l} (t) : FChain a s l → t.min = s.max → FChain a t (s :: l)

/-- the backward stack (latest first) is contiguous and ends at `b` -/
inductive BChain (b : K) : Sec K → List (Sec K) → Prop
  | one (s) : s.max = b → BChain b s []
  | push {s l} (t) : BChain b s l → t.max = s.min → BChain b t (s :: l)

/-- Law-free loop invariant. -/
structure WInv (P : Sec K → Prop) (min max : K) (s : AutoState K) : Prop where
  fc : FChain min s.f s.fs
  bc : BChain max s.b s.bs
  fd : ∀ t ∈ s.f :: s.fs, t.dir = .forward ∧ P t
  bd : ∀ t ∈ s.b :: s.bs, t.dir = .backward ∧ P t

/-- `P` holds of everything `automaticNextSector` returns -/
def OfNext (O : ErrOracle K) (P : Sec K → Prop) : Prop :=
  ∀ h l r d, d = .forward ∨ d = .backward → P (nextSector O h l r d).1

theorem winv_init (O : ErrOracle K) (P : Sec K → Prop) (hP : OfNext O P)
    (jumps : List K) (min max : K) : WInv P min max (autoInit O jumps min max) := by
  have hf := next_anchor O (CCmp.lit (33/100) * (max - min)) min
    (stdMin (CCmp.lit (4956864123 / 10000000000) * max + CCmp.lit (5043135877 / 10000000000) * min)
      (nextJump jumps max)) .forward
  have hb := next_anchor O (CCmp.lit (33/100) * (max - min))
    (stdMax (CCmp.lit (4956864123 / 10000000000) * max + CCmp.lit (5043135877 / 10000000000) * min)
      (nextJump jumps.reverse min)) max .backward
  constructor
  · exact FChain.one _ (hf.2.1 rfl)
  · exact BChain.one _ (hb.2.2 (by simp))
  · intro t ht
    simp only [autoInit, List.mem_singleton] at ht
    subst ht; exact ⟨hf.1, hP _ _ _ _ (.inl rfl)⟩
  · intro t ht
    simp only [autoInit, List.mem_singleton] at ht
    subst ht; exact ⟨hb.1, hP _ _ _ _ (.inr rfl)⟩

theorem winv_step (O : ErrOracle K) (cmp : Sec K → Sec K → Bool) (P : Sec K → Prop)
    (hP : OfNext O P) (min max : K) (s s' : AutoState K) (h : WInv P min max s)
    (hs : autoStep O cmp min max s = .ok s') : WInv P min max s' := by
  unfold autoStep at hs
  split at hs
  · obtain ⟨fj, _, hs⟩ := Outcome.bind_eq_ok.mp hs
    simp only [Outcome.pure_eq, Outcome.ok.injEq] at hs
    subst hs
    have ha := next_anchor O s.fh s.f.max (stdMin s.b.min (nextJump fj max)) .forward
    constructor
    · exact FChain.push _ h.fc (ha.2.1 rfl)
    · exact h.bc
    · intro t ht
      rcases List.mem_cons.mp ht with rfl | ht
      · exact ⟨ha.1, hP _ _ _ _ (.inl rfl)⟩
      · exact h.fd t ht
    · exact h.bd
  · obtain ⟨bj, _, hs⟩ := Outcome.bind_eq_ok.mp hs
    simp only [Outcome.pure_eq, Outcome.ok.injEq] at hs
    subst hs
    have ha := next_anchor O s.bh (stdMax s.f.max (nextJump bj min)) s.b.min .backward
    constructor
    · exact h.fc
    · exact BChain.push _ h.bc (ha.2.2 (by simp))
    · exact h.fd
    · intro t ht
      rcases List.mem_cons.mp ht with rfl | ht
      · exact ⟨ha.1, hP _ _ _ _ (.inr rfl)⟩
      · exact h.bd t ht

theorem winv_loop (O : ErrOracle K) (cmp : Sec K → Sec K → Bool) (P : Sec K → Prop)
    (hP : OfNext O P) (min max : K) : ∀ (fuel : Nat) (s s' : AutoState K), WInv P min max s →
    autoLoop O cmp min max fuel s = .ok s' →
    WInv P min max s' ∧ CCmp.eq s'.f.max s'.b.min = true := by
  intro fuel
  induction fuel with
  | zero =>
    intro s s' h hs
    unfold autoLoop at hs
    split at hs
    · injection hs with hs; subst hs; exact ⟨h, by assumption⟩
    · simp at hs
  | succ n ih =>
    intro s s' h hs
    unfold autoLoop at hs
    split at hs
    · injection hs with hs; subst hs; exact ⟨h, by assumption⟩
    · simp only at hs
      obtain ⟨s1, h1, h2⟩ := Outcome.bind_eq_ok.mp hs
      exact ih s1 s' (winv_step O cmp P hP min max s s1 h h1) h2

theorem FChain.tiling {a : K} {s : Sec K} {l : List (Sec K)} (h : FChain a s l) :
    IsTiling (· = ·) (bounds (s :: l).reverse) a s.max := by
  induction h with
  | one s hs => constructor <;> simp [bounds, hs]
  | @push s l t h ht ih =>
    constructor
    · simp [bounds]
    · intro p hp
      apply ih.first p
      simp only [bounds, List.reverse_cons, List.map_append, List.append_assoc] at hp ⊢
      revert hp
      generalize List.map (fun s : Sec K => (s.min, s.max)) l.reverse = L
      cases L <;> simp
    · intro p hp
      simp [bounds] at hp
      rw [← hp]
    · intro i hi
      have hlen : (bounds (s :: l).reverse).length = l.length + 1 := by simp [bounds]
      have hb : bounds (t :: s :: l).reverse = bounds (s :: l).reverse ++ [(t.min, t.max)] := by
        simp [bounds]
      simp only [hb, List.length_append, List.length_singleton, hlen] at hi
      simp only [hb]
      by_cases hi2 : i + 1 < l.length + 1
      · have := ih.joined i (by rw [hlen]; exact hi2)
        rw [List.getElem_append_left (by omega), List.getElem_append_left (by omega)]
        exact this
      · have hi3 : i = l.length := by omega
        subst hi3
        rw [List.getElem_append_left (by omega), List.getElem_append_right (by omega)]
        simp [bounds, ht]

theorem BChain.tiling {b : K} {s : Sec K} {l : List (Sec K)} (h : BChain b s l) :
    IsTiling (· = ·) (bounds (s :: l)) s.min b := by
  induction h with
  | one s hs => constructor <;> simp [bounds, hs]
  | @push s l t h ht ih =>
    constructor
    · simp [bounds]
    · intro p hp
      simp [bounds] at hp
      rw [← hp]
    · intro p hp
      apply ih.last p
      simp only [bounds, List.map_cons, List.getLast?_cons_cons] at hp ⊢
      exact hp
    · intro i hi
      cases i with
      | zero => simp [bounds, ht]
      | succ i => exact ih.joined i (by simpa [bounds] using hi)

theorem IsTiling.append {R : K → K → Prop} {l₁ l₂ : List (K × K)} {a m m' b : K}
    (hR : ∀ x, R x x)
    (h1 : IsTiling (· = ·) l₁ a m) (h2 : IsTiling (· = ·) l₂ m' b) (hm : R m m') :
    IsTiling R (l₁ ++ l₂) a b := by
  have hne1 := h1.nonempty
  have hne2 := h2.nonempty
  have hl1 : 0 < l₁.length := List.length_pos_iff.mpr hne1
  have hl2 : 0 < l₂.length := List.length_pos_iff.mpr hne2
  constructor
  · simp [hne1]
  · intro p hp
    apply h1.first p
    revert hp hne1
    cases l₁ <;> simp
  · intro p hp
    apply h2.last p
    rw [List.getLast?_append] at hp
    revert hp hne2
    cases h : l₂.getLast? with
    | none => simp at h; simp [h]
    | some q => simp
  · intro i hi
    rw [List.length_append] at hi
    by_cases h : i + 1 < l₁.length
    · rw [List.getElem_append_left (by omega), List.getElem_append_left h]
      rw [h1.joined i h]; exact hR _
    · by_cases h' : i + 1 = l₁.length
      · rw [List.getElem_append_left (by omega), List.getElem_append_right (by omega)]
        have e1 : l₁[i].2 = m := by
          apply h1.last
          rw [List.getLast?_eq_getElem?]
          simp [← h']
        have e2 : (l₂[i + 1 - l₁.length]'(by omega)).1 = m' := by
          apply h2.first
          simp [h', List.head?_eq_getElem?]
        rw [e1, e2]; exact hm
      · rw [List.getElem_append_right (by omega), List.getElem_append_right (by omega)]
        have := h2.joined (i - l₁.length) (by omega)
        have e : i - l₁.length + 1 = i + 1 - l₁.length := by omega
        simp only [e] at this
        rw [this]; exact hR _

theorem autoLoop_mono (O : ErrOracle K) (cmp : Sec K → Sec K → Bool) (min max : K) :
    ∀ (fuel : Nat) (s s' : AutoState K), autoLoop O cmp min max fuel s = .ok s' →
      ∀ k, autoLoop O cmp min max (fuel + k) s = .ok s' := by
  intro fuel
  induction fuel with
  | zero =>
    intro s s' h k
    unfold autoLoop at h ⊢
    split at h
    · rename_i he; simp only [he, if_true]; exact h
    · simp at h
  | succ n ih =>
    intro s s' h k
    rw [Nat.add_right_comm]
    unfold autoLoop at h ⊢
    split at h
    · rename_i he; simp only [he, if_true]; exact h
    · rename_i he
      simp only [he] at h ⊢
      obtain ⟨s1, h1, h2⟩ := Outcome.bind_eq_ok.mp h
      rw [h1]
      exact ih s1 s' h2 k

end lawfree

section exact
variable {K : Type u} [Field K] [LinearOrder K] [IsStrictOrderedRing K]

/-- What is assumed of the error estimates in the termination proof: the step factor computed when
the error exceeds the tolerance is at most one, the one computed when a positive error is below half
the tolerance is at least one. `Verif.Mesh.lawful_ofError` derives both from the actual
expression `pow(tolerance / error, 1/(order-1))`. -/
structure ErrOracle.Lawful (O : ErrOracle K) : Prop where
  shrinks : ∀ s, O.gtTol s = true → O.powf s ≤ 1
  grows : ∀ s, O.ltHalf s = true → O.leZero s = false → 1 ≤ O.powf s

theorem shrink_exact (O : ErrOracle K) (hO : O.Lawful) (d : Dir) (n : Nat) (s : Sec K) (h : K)
    (hh : h = s.max - s.min) (hpos : 0 < h) :
    let r := shrinkLoop O d n s h
    s.min ≤ r.1.min ∧ r.1.max ≤ s.max ∧ r.1.min < r.1.max ∧ r.2.1 = r.1.max - r.1.min ∧
      ((r.2.2 = 0 ∧ r.1 = s ∧ r.2.1 = h) ∨ (0 < r.2.2 ∧ 1 / 10000 < r.1.max - r.1.min)) := by
  induction n generalizing s h with
  | zero =>
    exact ⟨le_rfl, le_rfl, by simp only [shrinkLoop]; linarith, hh, .inl ⟨rfl, rfl, rfl⟩⟩
  | succ n ih =>
    unfold shrinkLoop
    split
    · rename_i hc
      simp only [ccmp_lit, ccmp_lt, Bool.and_eq_true, decide_eq_true_eq] at hc
      obtain ⟨hgt, hbig⟩ := hc
      simp only [stdMax_eq, ccmp_lit]
      set g : K := max (((1 / 10 : ℚ) : K)) (((99 / 100 : ℚ) : K) * O.powf s) with hg
      have e1 : (((1 / 10 : ℚ)) : K) = 1 / 10 := by norm_num
      have e2 : (((99 / 100 : ℚ)) : K) = 99 / 100 := by norm_num
      have e3 : (((1 / 1000 : ℚ)) : K) = 1 / 1000 := by norm_num
      rw [e1, e2] at hg
      rw [e3] at hbig
      have hg1 : g ≤ 1 := by
        rw [hg]; apply max_le (by norm_num)
        have := hO.shrinks s hgt
        nlinarith
      have hg0 : 1 / 10 ≤ g := by rw [hg]; exact le_max_left _ _
      have hh1 : 1 / 10000 < h * g := by nlinarith
      have hh2 : h * g ≤ h := by nlinarith
      by_cases hf : d = .forward
      · simp only [hf, if_true]
        have := ih (s := ⟨s.min, s.min + h * g, d⟩) (h := s.min + h * g - s.min) (by simp)
          (by simp; linarith [hh1, show (0:K) < 1/10000 by norm_num])
        simp only [hf] at this
        refine ⟨this.1, by linarith [this.2.1], this.2.2.1, this.2.2.2.1, .inr ⟨by omega, ?_⟩⟩
        rcases this.2.2.2.2 with ⟨_, h2, _⟩ | ⟨_, h2⟩
        · rw [h2]; simp only; linarith
        · exact h2
      · simp only [hf, if_false]
        have := ih (s := ⟨s.max - h * g, s.max, d⟩) (h := s.max - (s.max - h * g)) (by simp)
          (by simp; linarith [hh1, show (0:K) < 1/10000 by norm_num])
        simp only at this
        refine ⟨by linarith [this.1], this.2.1, this.2.2.1, this.2.2.2.1, .inr ⟨by omega, ?_⟩⟩
        rcases this.2.2.2.2 with ⟨_, h2, _⟩ | ⟨_, h2⟩
        · rw [h2]; simp only; linarith
        · exact h2
    · exact ⟨le_rfl, le_rfl, by linarith, hh, .inl ⟨rfl, rfl, rfl⟩⟩

theorem growBounds_exact (O : ErrOracle K) (hO : O.Lawful) (d : Dir) (left right : K) (s : Sec K)
    (h : K) (hh : h = s.max - s.min) (hpos : 0 < h) (hl : left ≤ s.min) (hr : s.max ≤ right)
    (hlt : O.ltHalf s = true) :
    let b := growBounds O d left right s h
    left ≤ b.1 ∧ b.1 ≤ s.min ∧ s.max ≤ b.2 ∧ b.2 ≤ right := by
  unfold growBounds
  split
  · exact ⟨le_rfl, hl, hr, le_rfl⟩
  · rename_i hz
    have hp := hO.grows s hlt (by simpa using hz)
    have hk : h ≤ h * O.powf s := by nlinarith
    split
    · simp only [ccmp_lt, decide_eq_true_eq]
      refine ⟨hl, le_rfl, ?_, ?_⟩
      · split
        · exact hr
        · linarith
      · split
        · exact le_rfl
        · rename_i h; exact not_lt.mp h
    · simp only [ccmp_lt, decide_eq_true_eq]
      refine ⟨?_, ?_, le_rfl, hr⟩
      · split
        · exact le_rfl
        · rename_i h; exact not_lt.mp h
      · split
        · exact hl
        · linarith

theorem grow_exact (O : ErrOracle K) (hO : O.Lawful) (d : Dir) (left right : K) (n : Nat)
    (s : Sec K) (h : K) (hh : h = s.max - s.min) (hpos : 0 < h) (hl : left ≤ s.min)
    (hr : s.max ≤ right) :
    let r := growLoop O d left right n s h
    left ≤ r.1.min ∧ r.1.min ≤ s.min ∧ s.max ≤ r.1.max ∧ r.1.max ≤ right ∧
      r.2 = r.1.max - r.1.min := by
  induction n generalizing s h with
  | zero => exact ⟨hl, le_rfl, le_rfl, hr, hh⟩
  | succ n ih =>
    unfold growLoop
    simp only
    split
    · rename_i hc
      simp only [Bool.and_eq_true] at hc
      have hb := growBounds_exact O hO d left right s h hh hpos hl hr hc.1
      simp only at hb
      split
      · exact ⟨hl, le_rfl, le_rfl, hr, rfl⟩
      · have := ih (s := ⟨(growBounds O d left right s h).1, (growBounds O d left right s h).2, d⟩)
          (h := (growBounds O d left right s h).2 - (growBounds O d left right s h).1) rfl
          (by linarith [hb.2.1, hb.2.2.1]) hb.1 hb.2.2.2
        simp only at this
        refine ⟨this.1, this.2.1.trans hb.2.1, hb.2.2.1.trans this.2.2.1, this.2.2.2.1,
          this.2.2.2.2⟩
    · exact ⟨hl, le_rfl, le_rfl, hr, hh⟩

theorem first_exact (h left right : K) (d : Dir) (hd : d = .forward ∨ d = .backward)
    (hh : 0 < h) (hlr : left < right) :
    let s := firstCandidate h left right d
    left ≤ s.min ∧ s.max ≤ right ∧ s.min < s.max ∧ min h (right - left) ≤ s.max - s.min := by
  unfold firstCandidate
  rcases hd with rfl | rfl
  · simp only [if_true, ccmp_lt, decide_true, Bool.true_and, decide_eq_true_eq]
    split
    · simp [hlr]
    · rename_i h1
      simp only [show (Dir.forward = Dir.backward) = False by simp, decide_false, Bool.false_and]
      refine ⟨le_rfl, not_lt.mp h1, by simp [hh], by simp⟩
  · simp only [show (Dir.backward = Dir.forward) = False by simp, if_false, ccmp_lt, decide_false,
      Bool.false_and, decide_true, Bool.true_and, decide_eq_true_eq]
    simp only [Bool.false_eq_true, if_false]
    split
    · simp [hlr]
    · rename_i h1
      refine ⟨not_lt.mp h1, le_rfl, by simp [hh], by simp⟩

/-- Everything the mesh proofs need of `automaticNextSector` in exact arithmetic. -/
theorem next_exact (O : ErrOracle K) (hO : O.Lawful) (h left right : K) (d : Dir)
    (hd : d = .forward ∨ d = .backward) (hh : 0 < h) (hlr : left < right) :
    let r := nextSector O h left right d
    left ≤ r.1.min ∧ r.1.max ≤ right ∧ r.1.min < r.1.max ∧ r.2 = r.1.max - r.1.min ∧
      (min h (right - left) ≤ r.1.max - r.1.min ∨ 1 / 10000 < r.1.max - r.1.min) := by
  have h0 := first_exact h left right d hd hh hlr
  unfold nextSector
  simp only at h0 ⊢
  set s0 := firstCandidate h left right d with hs0
  have hs := shrink_exact O hO d 10 s0 (s0.max - s0.min) rfl (by linarith [h0.2.2.1])
  simp only at hs
  set r := shrinkLoop O d 10 s0 (s0.max - s0.min) with hr
  split
  · rename_i hz
    rcases hs.2.2.2.2 with ⟨_, h2, h3⟩ | ⟨h2, _⟩
    · have hg := grow_exact O hO d left right 10 r.1 r.2.1 hs.2.2.2.1
        (by linarith [hs.2.2.1, hs.2.2.2.1]) (by rw [h2]; exact h0.1) (by rw [h2]; exact h0.2.1)
      simp only at hg
      rw [h2] at hg ⊢
      refine ⟨hg.1, hg.2.2.2.1, by linarith [hg.2.1, hg.2.2.1, h0.2.2.1], hg.2.2.2.2, .inl ?_⟩
      linarith [hg.2.1, hg.2.2.1, h0.2.2.2]
    · omega
  · rename_i hz
    rcases hs.2.2.2.2 with ⟨h2, _⟩ | ⟨_, h3⟩
    · exact absurd h2 hz
    · exact ⟨h0.1.trans hs.1, hs.2.1.trans h0.2.1, hs.2.2.1, hs.2.2.2.1, .inr h3⟩

/-! ### The main invariant -/

/-- all sectors built so far -/
def AutoState.all (s : AutoState K) : List (Sec K) := (s.f :: s.fs) ++ (s.b :: s.bs)

structure Inv (J : List K) (min max : K) (s : AutoState K) : Prop where
  gap : s.f.max ≤ s.b.min
  fl : min < s.f.max
  br : s.b.min < max
  fhp : 0 < s.fh
  bhp : 0 < s.bh
  wid : ∀ t ∈ s.all, t.min < t.max
  fdrop : ∃ d, J = d ++ s.fj ∧ ∀ j ∈ d, j ≤ s.f.max
  fkeep : ∀ j ∈ s.fj, s.f.max ≤ j
  bdrop : ∃ d, J.reverse = d ++ s.bj ∧ ∀ j ∈ d, s.b.min ≤ j
  bkeep : ∀ j ∈ s.bj, j ≤ s.b.min
  cover : ∀ j ∈ J, IsBoundary (bounds s.all) j ∨ (s.f.max < j ∧ j < s.b.min)

/-- skipping the jump at the current position: all remaining jumps are strictly ahead -/
theorem skipJump_fwd {J js d : List K} (hJ : J.Pairwise (· < ·)) (hs : J = d ++ js) {c max : K}
    (hc : c < max) (hd : ∀ j ∈ d, j ≤ c) (hk : ∀ j ∈ js, c ≤ j) :
    ∃ js', skipJump c js max = .ok js' ∧ (∃ d', J = d' ++ js' ∧ ∀ j ∈ d', j ≤ c) ∧
      ∀ j ∈ js', c < j := by
  have hp : js.Pairwise (· < ·) := by rw [hs] at hJ; exact (List.pairwise_append.mp hJ).2.1
  unfold skipJump
  cases js with
  | nil =>
    have : c ≠ max := ne_of_lt hc
    refine ⟨[], by simp [nextJump, this], ⟨d, hs, hd⟩, by simp⟩
  | cons x t =>
    simp only [nextJump, List.head?_cons, Option.getD_some, ccmp_eq, decide_eq_true_eq]
    rw [List.pairwise_cons] at hp
    by_cases hx : c = x
    · simp only [hx, if_true, advance]
      refine ⟨t, rfl, ⟨d ++ [x], by simp [hs], ?_⟩, fun j hj => hp.1 j hj⟩
      intro j hj
      rcases List.mem_append.mp hj with h | h
      · rw [← hx]; exact hd j h
      · simp at h; exact h.le
    · simp only [hx, if_false]
      refine ⟨x :: t, rfl, ⟨d, hs, hd⟩, ?_⟩
      have hcx : c < x := lt_of_le_of_ne (hk x (by simp)) hx
      intro j hj
      rcases List.mem_cons.mp hj with rfl | h
      · exact hcx
      · exact hcx.trans (hp.1 j h)

theorem skipJump_bwd {J js d : List K} (hJ : J.Pairwise (· > ·)) (hs : J = d ++ js) {c min : K}
    (hc : min < c) (hd : ∀ j ∈ d, c ≤ j) (hk : ∀ j ∈ js, j ≤ c) :
    ∃ js', skipJump c js min = .ok js' ∧ (∃ d', J = d' ++ js' ∧ ∀ j ∈ d', c ≤ j) ∧
      ∀ j ∈ js', j < c := by
  have hp : js.Pairwise (· > ·) := by rw [hs] at hJ; exact (List.pairwise_append.mp hJ).2.1
  unfold skipJump
  cases js with
  | nil =>
    have : c ≠ min := ne_of_gt hc
    refine ⟨[], by simp [nextJump, this], ⟨d, hs, hd⟩, by simp⟩
  | cons x t =>
    simp only [nextJump, List.head?_cons, Option.getD_some, ccmp_eq, decide_eq_true_eq]
    rw [List.pairwise_cons] at hp
    by_cases hx : c = x
    · simp only [hx, if_true, advance]
      refine ⟨t, rfl, ⟨d ++ [x], by simp [hs], ?_⟩, fun j hj => hp.1 j hj⟩
      intro j hj
      rcases List.mem_append.mp hj with h | h
      · rw [← hx]; exact hd j h
      · simp at h; exact h.ge
    · simp only [hx, if_false]
      refine ⟨x :: t, rfl, ⟨d, hs, hd⟩, ?_⟩
      have hcx : x < c := lt_of_le_of_ne (hk x (by simp)) (Ne.symm hx)
      intro j hj
      rcases List.mem_cons.mp hj with rfl | h
      · exact hcx
      · exact (hp.1 j h).trans hcx

theorem nextJump_lt {js : List K} {c m : K} (h : ∀ j ∈ js, c < j) (hm : c < m) :
    c < nextJump js m := by
  cases js with
  | nil => simpa [nextJump] using hm
  | cons x t => simpa [nextJump] using h x (by simp)

theorem nextJump_gt {js : List K} {c m : K} (h : ∀ j ∈ js, j < c) (hm : m < c) :
    nextJump js m < c := by
  cases js with
  | nil => simpa [nextJump] using hm
  | cons x t => simpa [nextJump] using h x (by simp)

theorem nextJump_le_all {js : List K} (hp : js.Pairwise (· < ·)) {m : K} :
    ∀ j ∈ js, nextJump js m ≤ j := by
  cases js with
  | nil => simp
  | cons x t =>
    rw [List.pairwise_cons] at hp
    intro j hj
    rcases List.mem_cons.mp hj with rfl | h
    · simp [nextJump]
    · simpa [nextJump] using (hp.1 j h).le

theorem nextJump_ge_all {js : List K} (hp : js.Pairwise (· > ·)) {m : K} :
    ∀ j ∈ js, j ≤ nextJump js m := by
  cases js with
  | nil => simp
  | cons x t =>
    rw [List.pairwise_cons] at hp
    intro j hj
    rcases List.mem_cons.mp hj with rfl | h
    · simp [nextJump]
    · simpa [nextJump] using (hp.1 j h).le

theorem nextJump_mem {js : List K} {m : K} : nextJump js m = m ∨ nextJump js m ∈ js := by
  cases js <;> simp [nextJump]

/-- the jumps still strictly inside the gap -/
def pending (J : List K) (s : AutoState K) : Finset K :=
  J.toFinset.filter fun j => s.f.max < j ∧ j < s.b.min

/-- How one iteration makes progress. -/
inductive Progress (J : List K) (δ : K) (s s' : AutoState K) : Prop
  | closed : s'.f.max = s'.b.min → Progress J δ s s'
  | jump : (pending J s').card < (pending J s).card → Progress J δ s s'
  | narrow : s'.b.min - s'.f.max + δ ≤ s.b.min - s.f.max → pending J s' ⊆ pending J s →
      (s'.fh = s.fh ∨ δ ≤ s'.fh) → (s'.bh = s.bh ∨ δ ≤ s'.bh) → Progress J δ s s'

theorem inv_step (O : ErrOracle K) (hO : O.Lawful) (cmp : Sec K → Sec K → Bool) (J : List K)
    (hJ : J.Pairwise (· < ·)) (min max : K) (s : AutoState K)
    (h : Inv J min max s) (hne : s.f.max ≠ s.b.min) (δ : K) (hδf : δ ≤ s.fh) (hδb : δ ≤ s.bh)
    (hδ : δ ≤ 1 / 10000) :
    ∃ s', autoStep O cmp min max s = .ok s' ∧ Inv J min max s' ∧ Progress J δ s s' := by
  have hlt : s.f.max < s.b.min := lt_of_le_of_ne h.gap hne
  unfold autoStep
  split
  · -- forward
    obtain ⟨d, hd1, hd2⟩ := h.fdrop
    obtain ⟨fj, hfj, ⟨d', hd'1, hd'2⟩, hk⟩ :=
      skipJump_fwd hJ hd1 (hlt.trans h.br) hd2 h.fkeep
    rw [hfj]
    simp only [Outcome.bind_ok, Outcome.pure_eq, stdMin_eq]
    have hp : fj.Pairwise (· < ·) := by rw [hd'1] at hJ; exact (List.pairwise_append.mp hJ).2.1
    set right := Min.min s.b.min (nextJump fj max) with hright
    have hr1 : s.f.max < right := lt_min hlt (nextJump_lt hk (hlt.trans h.br))
    have hn := next_exact O hO s.fh s.f.max right .forward (.inl rfl) h.fhp hr1
    have ha := (next_anchor O s.fh s.f.max right .forward).2.1 rfl
    simp only at hn ha
    set r := nextSector O s.fh s.f.max right .forward with hr
    have hmax : r.1.max ≤ right := hn.2.1
    have hgt : s.f.max < r.1.max := by linarith [hn.2.2.1]
    have hbm : r.1.max ≤ s.b.min := hmax.trans (min_le_left _ _)
    have hinfj : ∀ j ∈ J, s.f.max < j → j ∈ fj := by
      intro j hj hj2
      rw [hd'1] at hj
      rcases List.mem_append.mp hj with hh | hh
      · exact absurd (hd'2 j hh) (not_le.mpr hj2)
      · exact hh
    have hge : ∀ j ∈ fj, r.1.max ≤ j := fun j hj =>
      (hmax.trans (min_le_right _ _)).trans (nextJump_le_all hp j hj)
    refine ⟨_, rfl, ?_, ?_⟩
    · constructor
      · exact hbm
      · exact h.fl.trans hgt
      · exact h.br
      · simp only; rw [hn.2.2.2.1]; linarith [hn.2.2.1]
      · exact h.bhp
      · intro t ht
        simp only [AutoState.all, List.cons_append, List.mem_cons] at ht
        rcases ht with rfl | ht
        · exact hn.2.2.1
        · apply h.wid; simpa [AutoState.all] using ht
      · exact ⟨d', hd'1, fun j hj => (hd'2 j hj).trans hgt.le⟩
      · exact hge
      · exact h.bdrop
      · exact h.bkeep
      · intro j hj
        have hb : bounds ({ s with f := r.1, fs := s.f :: s.fs, fh := r.2, fj := fj } :
            AutoState K).all = (r.1.min, r.1.max) :: bounds s.all := by
          simp [bounds, AutoState.all]
        rw [hb]
        rcases h.cover j hj with ⟨p, hp1, hp2⟩ | ⟨h1, h2⟩
        · exact .inl ⟨p, List.mem_cons_of_mem _ hp1, hp2⟩
        · have := hge j (hinfj j hj h1)
          rcases eq_or_lt_of_le this with he | hl
          · exact .inl ⟨_, List.mem_cons_self, .inr he⟩
          · exact .inr ⟨hl, h2⟩
    · have hsub : pending J ({ s with f := r.1, fs := s.f :: s.fs, fh := r.2, fj := fj } :
          AutoState K) ⊆ pending J s := by
        intro j hj
        simp only [pending, Finset.mem_filter] at hj ⊢
        exact ⟨hj.1, hgt.trans hj.2.1, hj.2.2⟩
      by_cases hfull : r.1.max = right
      · -- reached the right end: either closed or a jump
        by_cases hcl : s.b.min ≤ nextJump fj max
        · exact .closed (by simp only; rw [hfull, hright, min_eq_left hcl])
        · have hcl' := not_le.mp hcl
          have hrj : right = nextJump fj max := by rw [hright, min_eq_right hcl'.le]
          have hmem : nextJump fj max ∈ fj := by
            rcases nextJump_mem (js := fj) (m := max) with h1 | h1
            · exact absurd (h1 ▸ hcl') (not_lt.mpr h.br.le)
            · exact h1
          refine .jump (Finset.card_lt_card ⟨hsub, fun hss => ?_⟩)
          have hin : nextJump fj max ∈ pending J s := by
            simp only [pending, Finset.mem_filter, List.mem_toFinset]
            exact ⟨by rw [hd'1]; exact List.mem_append_right _ hmem, hk _ hmem, hcl'⟩
          have := hss hin
          simp only [pending, Finset.mem_filter] at this
          have := this.2.1
          rw [hfull, hrj] at this
          exact lt_irrefl _ this
      · have hw : δ ≤ r.1.max - r.1.min := by
          rcases hn.2.2.2.2 with h1 | h1
          · rcases le_total s.fh (right - s.f.max) with h2 | h2
            · rw [min_eq_left h2] at h1; linarith
            · rw [min_eq_right h2] at h1
              exact absurd (le_antisymm hmax (by linarith)) hfull
          · linarith
        exact .narrow (by simp only; linarith) hsub (.inr (by simp only; linarith [hn.2.2.2.1]))
          (.inl rfl)
  · -- backward
    obtain ⟨d, hd1, hd2⟩ := h.bdrop
    have hJr : J.reverse.Pairwise (· > ·) := by rw [List.pairwise_reverse]; exact hJ
    obtain ⟨bj, hbj, ⟨d', hd'1, hd'2⟩, hk⟩ :=
      skipJump_bwd hJr hd1 (h.fl.trans hlt) hd2 h.bkeep
    rw [hbj]
    simp only [Outcome.bind_ok, Outcome.pure_eq, stdMax_eq]
    have hp : bj.Pairwise (· > ·) := by rw [hd'1] at hJr; exact (List.pairwise_append.mp hJr).2.1
    set left := Max.max s.f.max (nextJump bj min) with hleft
    have hr1 : left < s.b.min := max_lt hlt (nextJump_gt hk (h.fl.trans hlt))
    have hn := next_exact O hO s.bh left s.b.min .backward (.inr rfl) h.bhp hr1
    have ha := (next_anchor O s.bh left s.b.min .backward).2.2 (by simp)
    simp only at hn ha
    set r := nextSector O s.bh left s.b.min .backward with hr
    have hmin : left ≤ r.1.min := hn.1
    have hgt : r.1.min < s.b.min := by linarith [hn.2.2.1]
    have hbm : s.f.max ≤ r.1.min := (le_max_left _ _).trans hmin
    have hinbj : ∀ j ∈ J, j < s.b.min → j ∈ bj := by
      intro j hj hj2
      have hj : j ∈ J.reverse := List.mem_reverse.mpr hj
      rw [hd'1] at hj
      rcases List.mem_append.mp hj with hh | hh
      · exact absurd (hd'2 j hh) (not_le.mpr hj2)
      · exact hh
    have hge : ∀ j ∈ bj, j ≤ r.1.min := fun j hj =>
      (nextJump_ge_all hp j hj).trans ((le_max_right _ _).trans hmin)
    refine ⟨_, rfl, ?_, ?_⟩
    · constructor
      · exact hbm
      · exact h.fl
      · exact hgt.trans h.br
      · exact h.fhp
      · simp only; rw [hn.2.2.2.1]; linarith [hn.2.2.1]
      · intro t ht
        simp only [AutoState.all, List.mem_append, List.mem_cons] at ht
        rcases ht with ht | rfl | ht
        · apply h.wid; simp only [AutoState.all, List.mem_append, List.mem_cons]; exact .inl ht
        · exact hn.2.2.1
        · apply h.wid; simp only [AutoState.all, List.mem_append, List.mem_cons]; exact .inr ht
      · exact h.fdrop
      · exact h.fkeep
      · exact ⟨d', hd'1, fun j hj => hgt.le.trans (hd'2 j hj)⟩
      · exact hge
      · intro j hj
        have hb : ∀ p, p ∈ bounds ({ s with b := r.1, bs := s.b :: s.bs, bh := r.2, bj := bj } :
            AutoState K).all ↔ p = (r.1.min, r.1.max) ∨ p ∈ bounds s.all := by
          intro p
          simp only [bounds, AutoState.all, List.map_append, List.map_cons, List.mem_append,
            List.mem_cons]
          tauto
        rcases h.cover j hj with ⟨p, hp1, hp2⟩ | ⟨h1, h2⟩
        · exact .inl ⟨p, (hb p).mpr (.inr hp1), hp2⟩
        · have := hge j (hinbj j hj h2)
          rcases eq_or_lt_of_le this with he | hl
          · exact .inl ⟨_, (hb _).mpr (.inl rfl), .inl he.symm⟩
          · exact .inr ⟨h1, hl⟩
    · have hsub : pending J ({ s with b := r.1, bs := s.b :: s.bs, bh := r.2, bj := bj } :
          AutoState K) ⊆ pending J s := by
        intro j hj
        simp only [pending, Finset.mem_filter] at hj ⊢
        exact ⟨hj.1, hj.2.1, hj.2.2.trans hgt⟩
      by_cases hfull : r.1.min = left
      · by_cases hcl : nextJump bj min ≤ s.f.max
        · exact .closed (by simp only; rw [hfull, hleft, max_eq_left hcl])
        · have hcl' := not_le.mp hcl
          have hrj : left = nextJump bj min := by rw [hleft, max_eq_right hcl'.le]
          have hmem : nextJump bj min ∈ bj := by
            rcases nextJump_mem (js := bj) (m := min) with h1 | h1
            · exact absurd (h1 ▸ hcl') (not_lt.mpr h.fl.le)
            · exact h1
          refine .jump (Finset.card_lt_card ⟨hsub, fun hss => ?_⟩)
          have hin : nextJump bj min ∈ pending J s := by
            simp only [pending, Finset.mem_filter, List.mem_toFinset]
            refine ⟨?_, hcl', hk _ hmem⟩
            rw [← List.mem_reverse, hd'1]; exact List.mem_append_right _ hmem
          have := hss hin
          simp only [pending, Finset.mem_filter] at this
          have := this.2.2
          rw [hfull, hrj] at this
          exact lt_irrefl _ this
      · have hw : δ ≤ r.1.max - r.1.min := by
          rcases hn.2.2.2.2 with h1 | h1
          · rcases le_total s.bh (s.b.min - left) with h2 | h2
            · rw [min_eq_left h2] at h1; linarith
            · rw [min_eq_right h2] at h1
              exact absurd (le_antisymm (by linarith) hmin) hfull
          · linarith
        exact .narrow (by simp only; linarith) hsub (.inl rfl)
          (.inr (by simp only; linarith [hn.2.2.2.1]))

theorem autoLoop_terminates [Archimedean K] (O : ErrOracle K) (hO : O.Lawful)
    (cmp : Sec K → Sec K → Bool) (J : List K) (hJ : J.Pairwise (· < ·)) (min max : K) :
    ∀ (N : Nat) (s : AutoState K), Inv J min max s → (pending J s).card ≤ N →
      ∃ fuel s', autoLoop O cmp min max fuel s = .ok s' ∧ Inv J min max s' ∧
        s'.f.max = s'.b.min := by
  intro N
  induction N with
  | zero =>
    -- same argument as the successor case, without jumps left
    intro s hs hN
    obtain ⟨δ, hδ0, h1, h2, h3⟩ : ∃ δ : K, 0 < δ ∧ δ ≤ s.fh ∧ δ ≤ s.bh ∧ δ ≤ 1 / 10000 :=
      ⟨Min.min (Min.min s.fh s.bh) (1/10000), lt_min (lt_min hs.fhp hs.bhp) (by norm_num),
        (min_le_left _ _).trans (min_le_left _ _), (min_le_left _ _).trans (min_le_right _ _),
        min_le_right _ _⟩
    obtain ⟨k, hk⟩ := Archimedean.arch (s.b.min - s.f.max) hδ0
    induction k generalizing s with
    | zero =>
      have : s.f.max = s.b.min := le_antisymm hs.gap (by simp at hk; exact hk)
      exact ⟨0, s, by unfold autoLoop; simp [this], hs, this⟩
    | succ k ih =>
      by_cases hc : s.f.max = s.b.min
      · exact ⟨0, s, by unfold autoLoop; simp [hc], hs, hc⟩
      · obtain ⟨s', hst, hi, hp⟩ := inv_step O hO cmp J hJ min max s hs hc δ h1 h2 h3
        have key : ∀ fuel r, autoLoop O cmp min max fuel s' = .ok r →
            autoLoop O cmp min max (fuel + 1) s = .ok r := by
          intro fuel r hr
          unfold autoLoop
          simp [hc, hst, hr]
        rcases hp with hp | hp | ⟨hp1, hp2, hp3, hp4⟩
        · exact ⟨1, s', key 0 s' (by unfold autoLoop; simp [hp]), hi, hp⟩
        · omega
        · obtain ⟨fuel, r, hr, hri⟩ := ih s' hi (by
              have := Finset.card_le_card hp2; omega)
            (by rcases hp3 with h | h <;> [rw [h]; skip] <;> assumption)
            (by rcases hp4 with h | h <;> [rw [h]; skip] <;> assumption)
            (by rw [succ_nsmul] at hk; linarith)
          exact ⟨fuel + 1, r, key _ _ hr, hri⟩
  | succ N ihN =>
    intro s hs hN
    obtain ⟨δ, hδ0, h1, h2, h3⟩ : ∃ δ : K, 0 < δ ∧ δ ≤ s.fh ∧ δ ≤ s.bh ∧ δ ≤ 1 / 10000 :=
      ⟨Min.min (Min.min s.fh s.bh) (1/10000), lt_min (lt_min hs.fhp hs.bhp) (by norm_num),
        (min_le_left _ _).trans (min_le_left _ _), (min_le_left _ _).trans (min_le_right _ _),
        min_le_right _ _⟩
    obtain ⟨k, hk⟩ := Archimedean.arch (s.b.min - s.f.max) hδ0
    induction k generalizing s with
    | zero =>
      have : s.f.max = s.b.min := le_antisymm hs.gap (by simp at hk; exact hk)
      exact ⟨0, s, by unfold autoLoop; simp [this], hs, this⟩
    | succ k ih =>
      by_cases hc : s.f.max = s.b.min
      · exact ⟨0, s, by unfold autoLoop; simp [hc], hs, hc⟩
      · obtain ⟨s', hst, hi, hp⟩ := inv_step O hO cmp J hJ min max s hs hc δ h1 h2 h3
        have key : ∀ fuel r, autoLoop O cmp min max fuel s' = .ok r →
            autoLoop O cmp min max (fuel + 1) s = .ok r := by
          intro fuel r hr
          unfold autoLoop
          simp [hc, hst, hr]
        rcases hp with hp | hp | ⟨hp1, hp2, hp3, hp4⟩
        · exact ⟨1, s', key 0 s' (by unfold autoLoop; simp [hp]), hi, hp⟩
        · obtain ⟨fuel, r, hr, hri⟩ := ihN s' hi (by omega)
          exact ⟨fuel + 1, r, key _ _ hr, hri⟩
        · obtain ⟨fuel, r, hr, hri⟩ := ih s' hi (by
              have := Finset.card_le_card hp2; omega)
            (by rcases hp3 with h | h <;> [rw [h]; skip] <;> assumption)
            (by rcases hp4 with h | h <;> [rw [h]; skip] <;> assumption)
            (by rw [succ_nsmul] at hk; linarith)
          exact ⟨fuel + 1, r, key _ _ hr, hri⟩

theorem inv_init (O : ErrOracle K) (hO : O.Lawful) (J : List K) (hJ : J.Pairwise (· < ·))
    (min max : K) (hlt : min < max) (hin : ∀ j ∈ J, min < j ∧ j < max) :
    Inv J min max (autoInit O J min max) := by
  have hJr : J.reverse.Pairwise (· > ·) := by rw [List.pairwise_reverse]; exact hJ
  set mid : K := (((4956864123 / 10000000000 : ℚ)) : K) * max +
    (((5043135877 / 10000000000 : ℚ)) : K) * min with hmid
  have hmid1 : min < mid := by
    rw [hmid]; push_cast; linarith
  have hmid2 : mid < max := by
    rw [hmid]; push_cast; linarith
  set fh : K := (((33 / 100 : ℚ)) : K) * (max - min) with hfh
  have hfh0 : 0 < fh := by rw [hfh]; push_cast; nlinarith
  have hl : min < Min.min mid (nextJump J max) :=
    lt_min hmid1 (nextJump_lt (fun j hj => (hin j hj).1) hlt)
  have hr : Max.max mid (nextJump J.reverse min) < max :=
    max_lt hmid2 (nextJump_gt (fun j hj => (hin j (List.mem_reverse.mp hj)).2) hlt)
  have hnf := next_exact O hO fh min _ .forward (.inl rfl) hfh0 hl
  have hnb := next_exact O hO fh _ max .backward (.inr rfl) hfh0 hr
  have haf := (next_anchor O fh min (Min.min mid (nextJump J max)) .forward).2.1 rfl
  have hab := (next_anchor O fh (Max.max mid (nextJump J.reverse min)) max .backward).2.2 (by simp)
  simp only at hnf hnb haf hab
  set rf := nextSector O fh min (Min.min mid (nextJump J max)) .forward with hrf
  set rb := nextSector O fh (Max.max mid (nextJump J.reverse min)) max .backward with hrb
  have hinit : autoInit O J min max = ⟨rf.1, [], rb.1, [], rf.2, rb.2, J, J.reverse⟩ := by
    simp only [autoInit, ccmp_lit, stdMin_eq, stdMax_eq, ← hmid, ← hfh, ← hrf, ← hrb]
  have hfm : rf.1.max ≤ mid := hnf.2.1.trans (min_le_left _ _)
  have hbm : mid ≤ rb.1.min := (le_max_left _ _).trans hnb.1
  have hfj : ∀ j ∈ J, rf.1.max ≤ j := fun j hj =>
    (hnf.2.1.trans (min_le_right _ _)).trans (nextJump_le_all hJ j hj)
  have hbj : ∀ j ∈ J.reverse, j ≤ rb.1.min := fun j hj =>
    (nextJump_ge_all hJr j hj).trans ((le_max_right _ _).trans hnb.1)
  rw [hinit]
  constructor
  · exact hfm.trans hbm
  · simp only; linarith [hnf.2.2.1]
  · simp only; linarith [hnb.2.2.1]
  · simp only; linarith [hnf.2.2.1, hnf.2.2.2.1]
  · simp only; linarith [hnb.2.2.1, hnb.2.2.2.1]
  · intro t ht
    simp only [AutoState.all, List.cons_append, List.nil_append, List.mem_cons, List.not_mem_nil,
      or_false] at ht
    rcases ht with rfl | rfl
    · exact hnf.2.2.1
    · exact hnb.2.2.1
  · exact ⟨[], by simp, by simp⟩
  · exact hfj
  · exact ⟨[], by simp, by simp⟩
  · exact hbj
  · intro j hj
    rcases eq_or_lt_of_le (hfj j hj) with h1 | h1
    · exact .inl ⟨(rf.1.min, rf.1.max), by simp [bounds, AutoState.all], .inr h1⟩
    · rcases eq_or_lt_of_le (hbj j (List.mem_reverse.mpr hj)) with h2 | h2
      · exact .inl ⟨(rb.1.min, rb.1.max), by simp [bounds, AutoState.all], .inl h2.symm⟩
      · exact .inr ⟨h1, h2⟩

end exact
end Verif.Mesh
