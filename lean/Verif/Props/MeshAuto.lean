import Verif.Lemmas.MeshAuto
import Mathlib.Analysis.SpecialFunctions.Pow.Real

/-!
# C02 – C07 for `AutomaticSectorBuilder`
-/
set_option linter.unusedSectionVars false
namespace Verif.Mesh
open Verif.Spec

section lawfree
variable {K : Type u} [Add K] [Sub K] [Mul K] [Div K] [CCmp K]

/-- **C03**: whatever the scalar arithmetic, the error estimates, the comparisons and the jump list
are (unsorted, repeated, outside the domain, NaN): if the automatic builder returns, the sectors are
contiguous from `min` to `max`. End points are shared exactly (`=`), except at the junction of the
forward and the backward half where they compare equal with the scalar's `==`. -/
theorem C03_automatic_mesh_contiguous (fuel : Nat) (O : ErrOracle K) (cmp : Sec K → Sec K → Bool)
    (jumps : List K) (min max : K) (r : BuildResult K)
    (hr : autoBuild fuel O cmp jumps min max = .ok r) :
    IsTiling (fun x y => x = y ∨ CCmp.eq x y = true) (bounds r.sectors) min max := by
  unfold autoBuild at hr
  obtain ⟨s, hs, hr⟩ := Outcome.bind_eq_ok.mp hr
  simp only [Outcome.pure_eq, Outcome.ok.injEq] at hr
  subst hr
  obtain ⟨hw, he⟩ := winv_loop O cmp (fun _ => True) (fun _ _ _ _ _ => trivial) min max fuel _ s
    (winv_init O _ (fun _ _ _ _ _ => trivial) jumps min max) hs
  have := IsTiling.append (R := fun x y => x = y ∨ CCmp.eq x y = true) (fun _ => .inl rfl)
    hw.fc.tiling hw.bc.tiling (.inr he)
  simpa [bounds] using this

/-- **C02** for the automatic builder, again for arbitrary arithmetic and oracles: sectors
`0 .. matchIndex` are forward, the rest backward, and the matching sector is not the last one. -/
theorem C02_automatic_split (fuel : Nat) (O : ErrOracle K) (cmp : Sec K → Sec K → Bool)
    (jumps : List K) (min max : K) (r : BuildResult K)
    (hr : autoBuild fuel O cmp jumps min max = .ok r) :
    IsSplitAfter (fwdFlags r.sectors) r.matchIndex ∧ Directed r.sectors ∧
      r.matchIndex + 1 < r.sectors.length := by
  unfold autoBuild at hr
  obtain ⟨s, hs, hr⟩ := Outcome.bind_eq_ok.mp hr
  simp only [Outcome.pure_eq, Outcome.ok.injEq] at hr
  subst hr
  obtain ⟨hw, he⟩ := winv_loop O cmp (fun _ => True) (fun _ _ _ _ _ => trivial) min max fuel _ s
    (winv_init O _ (fun _ _ _ _ _ => trivial) jumps min max) hs
  have hF := hw.fd
  have hB := hw.bd
  refine ⟨⟨?_, ?_⟩, ?_, ?_⟩
  · simp [fwdFlags]
  · intro i hi
    simp only [fwdFlags, List.getElem_map, decide_eq_true_eq, List.length_cons, Nat.add_sub_cancel]
    simp only [fwdFlags, List.length_map, List.length_append, List.length_reverse,
      List.length_cons] at hi
    by_cases h : i ≤ s.fs.length
    · simp only [h, iff_true]
      rw [List.getElem_append_left (by simp; omega)]
      exact (hF _ (List.mem_reverse.mp (List.getElem_mem _))).1
    · simp only [h, iff_false]
      rw [List.getElem_append_right (by simp; omega)]
      rw [(hB _ (List.getElem_mem _)).1]
      simp
  · intro t ht
    rcases List.mem_append.mp ht with h | h
    · exact .inl (hF t (List.mem_reverse.mp h)).1
    · exact .inr (hB t h).1
  · simp

/-- Enlarging never turns an acceptable sector into an unacceptable one. -/
theorem growLoop_keeps (O : ErrOracle K) (d : Dir) (left right : K) (n : Nat) (s : Sec K) (h : K)
    (hs : O.gtTol s = false) : O.gtTol (growLoop O d left right n s h).1 = false := by
  induction n generalizing s h with
  | zero => exact hs
  | succ n ih =>
    unfold growLoop
    simp only
    split
    · split
      · exact hs
      · rename_i h2
        exact ih _ _ (by simpa using h2)
    · exact hs

/-- One shrink step as the C++ source describes it: the new sector is anchored at the same end and
its width is the old one times `max(.1, .99 * pow(tolerance / error, 1 / (order - 1)))`. -/
def ShrunkFrom (O : ErrOracle K) (d : Dir) (s s' : Sec K) : Prop :=
  ∃ h, (h = s.max - s.min) ∧
    let h' := h * stdMax (CCmp.lit (1/10)) (CCmp.lit (99/100) * O.powf s)
    s' = if d = .forward then ⟨s.min, s.min + h', d⟩ else ⟨s.max - h', s.max, d⟩

/-- Consecutive members of `l` are related by `R`. -/
def Consecutive {α : Type u} (R : α → α → Prop) (l : List α) : Prop :=
  ∀ (i : Nat) (h : i + 1 < l.length), R (l[i]'(Nat.lt_of_succ_lt h)) l[i + 1]

theorem shrink_trace (O : ErrOracle K) (d : Dir) (n : Nat) (s : Sec K) (h : K)
    (hh : h = s.max - s.min) (r : Sec K × K × Nat) (hr : shrinkLoop O d n s h = r) :
    r.2.1 = r.1.max - r.1.min ∧ ∃ l : List (Sec K), l.length = r.2.2 + 1 ∧ l.head? = some s ∧
      l.getLast? = some r.1 ∧ Consecutive (fun a b => O.gtTol a = true ∧ ShrunkFrom O d a b) l ∧
      (O.gtTol r.1 = true → r.2.2 = n ∨ CCmp.lt (CCmp.lit (1/1000)) (r.1.max - r.1.min) = false) := by
  induction n generalizing s h r with
  | zero =>
    subst hr
    refine ⟨hh, [s], rfl, rfl, rfl, ?_, fun _ => .inl rfl⟩
    intro i hi; simp at hi
  | succ n ih =>
    unfold shrinkLoop at hr
    split at hr
    · rename_i hc
      simp only [Bool.and_eq_true] at hc
      simp only at hr
      generalize hs' : (if d = .forward then (⟨s.min, s.min + h * stdMax (CCmp.lit (1/10)) (CCmp.lit (99/100) * O.powf s), d⟩ : Sec K)
        else ⟨s.max - h * stdMax (CCmp.lit (1/10)) (CCmp.lit (99/100) * O.powf s), s.max, d⟩) = s' at hr
      obtain ⟨e, l, h1, h2, h3, h4, h5⟩ := ih s' (s'.max - s'.min) rfl _ rfl
      subst hr
      simp only
      refine ⟨e, s :: l, by simp [h1], rfl, ?_, ?_, ?_⟩
      · cases l with
        | nil => simp at h2
        | cons a l => rw [List.getLast?_cons_cons]; exact h3
      · intro i hi
        cases i with
        | zero =>
          cases l with
          | nil => simp at h2
          | cons a l =>
            simp at h2
            subst h2
            exact ⟨hc.1, h, hh, hs'.symm⟩
        | succ i => exact h4 i (by simpa using hi)
      · intro hgt
        rcases h5 hgt with h | h
        · exact .inl (by omega)
        · exact .inr h
    · rename_i hc
      subst hr
      refine ⟨hh, [s], rfl, rfl, rfl, ?_, ?_⟩
      · intro i hi; simp at hi
      · intro hgt
        right
        simp only at hgt
        rw [← hh]
        simpa [hgt] using hc

/-- What C07 says about one sector: its estimated error is not above the tolerance, or its width is
not above `1e-3`, or it is the end of ten shrink steps, each applied to a sector with too large an
error. -/
def GaveUpForReason (O : ErrOracle K) (s : Sec K) : Prop :=
  O.gtTol s = false ∨ CCmp.lt (CCmp.lit (1/1000)) (s.max - s.min) = false ∨
    ∃ l : List (Sec K), l.length = 11 ∧ l.getLast? = some s ∧
      Consecutive (fun a b => O.gtTol a = true ∧ ShrunkFrom O s.dir a b) l

theorem next_reason (O : ErrOracle K) (h left right : K) (d : Dir) :
    GaveUpForReason O (nextSector O h left right d).1 := by
  obtain ⟨_, l, h1, h2, h3, h4, h5⟩ := shrink_trace O d 10 (firstCandidate h left right d)
    ((firstCandidate h left right d).max - (firstCandidate h left right d).min) rfl _ rfl
  have hdir := (next_anchor O h left right d).1
  unfold nextSector at hdir ⊢
  simp only at hdir ⊢
  split
  · rename_i hz
    simp only [hz, if_true] at hdir
    by_cases hgt : O.gtTol (shrinkLoop O d 10 (firstCandidate h left right d)
        ((firstCandidate h left right d).max - (firstCandidate h left right d).min)).1 = true
    · have h5' := h5 hgt
      rw [hz] at h5'
      rcases h5' with hx | hx
      · omega
      · -- a sector that is too narrow to shrink: the enlarging loop may still run
        by_cases hg : O.gtTol (growLoop O d left right 10 (shrinkLoop O d 10 (firstCandidate h left right d)
          ((firstCandidate h left right d).max - (firstCandidate h left right d).min)).1 (shrinkLoop O d 10 (firstCandidate h left right d)
          ((firstCandidate h left right d).max - (firstCandidate h left right d).min)).2.1).1 = true
        · -- it was not enlarged to an acceptable one
          right; left
          revert hg
          unfold growLoop
          simp only
          split
          · split
            · intro _; exact hx
            · rename_i hk
              intro hg
              rw [growLoop_keeps _ _ _ _ _ _ _ (by simpa using hk)] at hg
              simp at hg
          · intro _; exact hx
        · left; simpa using hg
    · exact .inl (growLoop_keeps _ _ _ _ _ _ _ (by simpa using hgt))
  · rename_i hz
    simp only [hz, if_false] at hdir
    by_cases hgt : O.gtTol (shrinkLoop O d 10 (firstCandidate h left right d)
        ((firstCandidate h left right d).max - (firstCandidate h left right d).min)).1 = true
    · rcases h5 hgt with h | h
      · exact .inr (.inr ⟨l, by omega, h3, by rw [hdir]; exact h4⟩)
      · exact .inr (.inl h)
    · exact .inl (by simpa using hgt)

/-- **C07**: every sector of the automatic mesh has an estimated error not above the tolerance,
unless its width is at most `1e-3` or ten shrink steps were used. For any arithmetic and any error
estimates. -/
theorem C07_refinement_stops_for_a_reason (fuel : Nat) (O : ErrOracle K)
    (cmp : Sec K → Sec K → Bool) (jumps : List K) (min max : K) (r : BuildResult K)
    (hr : autoBuild fuel O cmp jumps min max = .ok r) :
    ∀ s ∈ r.sectors, GaveUpForReason O s := by
  unfold autoBuild at hr
  obtain ⟨s, hs, hr⟩ := Outcome.bind_eq_ok.mp hr
  simp only [Outcome.pure_eq, Outcome.ok.injEq] at hr
  subst hr
  have hP : OfNext O (GaveUpForReason O) := fun h l r d _ => next_reason O h l r d
  obtain ⟨hw, he⟩ := winv_loop O cmp _ hP min max fuel _ s
    (winv_init O _ hP jumps min max) hs
  intro t ht
  rcases List.mem_append.mp ht with h | h
  · exact (hw.fd t (List.mem_reverse.mp h)).2
  · exact (hw.bd t h).2

/-- **C07**, second half: if the first candidate (the proposed step, clipped to the interval) is
acceptable, then so is the sector that is returned, however often enlarging was tried. -/
theorem C07_enlarging_keeps_tolerance (O : ErrOracle K) (h left right : K) (d : Dir)
    (hok : O.gtTol (firstCandidate h left right d) = false) :
    O.gtTol (nextSector O h left right d).1 = false := by
  unfold nextSector
  simp only
  have : shrinkLoop O d 10 (firstCandidate h left right d)
      ((firstCandidate h left right d).max - (firstCandidate h left right d).min) =
      (firstCandidate h left right d,
        (firstCandidate h left right d).max - (firstCandidate h left right d).min, 0) := by
    unfold shrinkLoop; simp [hok]
  rw [this]
  exact growLoop_keeps _ _ _ _ _ _ _ hok

end lawfree

section exact
variable {K : Type u} [Field K] [LinearOrder K] [IsStrictOrderedRing K]

/-- **C04**: for `min < max` and jumps strictly increasing inside `(min, max)`, with any error
estimates and any comparison outcomes, the automatic builder terminates (`fuel₀` bounds the number of
loop iterations, more fuel changes nothing), never increments a jump iterator past the end (the outcome is
`ok`), and every sector has positive width and lies in the domain. -/
theorem C04_automatic_terminates [Archimedean K] (O : ErrOracle K) (hO : O.Lawful)
    (cmp : Sec K → Sec K → Bool) (jumps : List K) (min max : K) (hlt : min < max)
    (hJ : jumps.Pairwise (· < ·)) (hin : ∀ j ∈ jumps, min < j ∧ j < max) :
    ∃ fuel₀ r, (∀ fuel, fuel₀ ≤ fuel → autoBuild fuel O cmp jumps min max = .ok r) ∧
      PositiveWidths (bounds r.sectors) ∧ IsTiling (· = ·) (bounds r.sectors) min max := by
  obtain ⟨fuel, s, hs, hi, hcl⟩ := autoLoop_terminates O hO cmp jumps hJ min max _ _
    (inv_init O hO jumps hJ min max hlt hin) le_rfl
  have hok : ∀ k, autoBuild (fuel + k) O cmp jumps min max =
      .ok ⟨(s.f :: s.fs).reverse ++ (s.b :: s.bs), (s.f :: s.fs).length - 1⟩ := by
    intro k
    unfold autoBuild
    rw [autoLoop_mono O cmp min max fuel _ s hs k]
    rfl
  refine ⟨fuel, ⟨(s.f :: s.fs).reverse ++ (s.b :: s.bs), (s.f :: s.fs).length - 1⟩, ?_, ?_, ?_⟩
  · intro f hf
    have := hok (f - fuel)
    rwa [Nat.add_sub_cancel' hf] at this
  · intro p hp
    simp only [bounds, List.mem_map] at hp
    obtain ⟨t, ht, rfl⟩ := hp
    apply hi.wid
    simp only [AutoState.all]
    rcases List.mem_append.mp ht with h | h
    · exact List.mem_append_left _ (List.mem_reverse.mp h)
    · exact List.mem_append_right _ h
  · have := C03_automatic_mesh_contiguous (fuel + 0) O cmp jumps min max _ (hok 0)
    refine ⟨this.nonempty, this.first, this.last, fun i hi => ?_⟩
    simpa using this.joined i hi

/-- **C05**: every jump is an end point of some sector, and no sector has a jump in its interior. -/
theorem C05_jumps_are_boundaries [Archimedean K] (O : ErrOracle K) (hO : O.Lawful)
    (cmp : Sec K → Sec K → Bool) (jumps : List K) (min max : K) (hlt : min < max)
    (hJ : jumps.Pairwise (· < ·)) (hin : ∀ j ∈ jumps, min < j ∧ j < max) :
    ∃ fuel₀ r, (∀ fuel, fuel₀ ≤ fuel → autoBuild fuel O cmp jumps min max = .ok r) ∧
      (∀ j ∈ jumps, IsBoundary (bounds r.sectors) j) := by
  obtain ⟨fuel, s, hs, hi, hcl⟩ := autoLoop_terminates O hO cmp jumps hJ min max _ _
    (inv_init O hO jumps hJ min max hlt hin) le_rfl
  have hok : ∀ k, autoBuild (fuel + k) O cmp jumps min max =
      .ok ⟨(s.f :: s.fs).reverse ++ (s.b :: s.bs), (s.f :: s.fs).length - 1⟩ := by
    intro k
    unfold autoBuild
    rw [autoLoop_mono O cmp min max fuel _ s hs k]
    rfl
  refine ⟨fuel, ⟨(s.f :: s.fs).reverse ++ (s.b :: s.bs), (s.f :: s.fs).length - 1⟩, ?_, ?_⟩
  · intro f hf
    have := hok (f - fuel)
    rwa [Nat.add_sub_cancel' hf] at this
  · intro j hj
    rcases hi.cover j hj with ⟨p, hp, h⟩ | ⟨h1, h2⟩
    · refine ⟨p, ?_, h⟩
      simp only [bounds, AutoState.all, List.mem_map, List.mem_append, List.mem_reverse] at hp ⊢
      exact hp
    · rw [hcl] at h1
      exact absurd h2 (not_lt.mpr h1.le)

end exact

/-- A tiling of positive widths has no boundary inside a tile, so **C05** excludes straddling. -/
theorem tiling_no_inner_boundary {K : Type u} [LinearOrder K] {l : List (K × K)} {a b : K}
    (h : IsTiling (· = ·) l a b) (hp : PositiveWidths l) {x : K} (hx : IsBoundary l x) :
    ∀ p ∈ l, ¬ (p.1 < x ∧ x < p.2) := by
  have hmono : ∀ (d i : Nat) (hd : i + d < l.length),
      (l[i]'(by omega)).1 ≤ (l[i + d]).1 ∧ (0 < d → (l[i]'(by omega)).2 ≤ (l[i + d]).1) := by
    intro d
    induction d with
    | zero => intro i hd; exact ⟨le_rfl, fun h => absurd h (by omega)⟩
    | succ d ih =>
      intro i hd
      have h1 := ih i (by omega)
      have hj := h.joined (i + d) (by omega)
      have hw := hp (l[i + d]'(by omega)) (List.getElem_mem _)
      have e : (l[i + (d + 1)]).1 = (l[i + d]'(by omega)).2 := hj.symm
      rw [e]
      refine ⟨h1.1.trans hw.le, fun _ => ?_⟩
      rcases Nat.eq_zero_or_pos d with h0 | h0
      · subst h0; exact le_rfl
      · exact (h1.2 h0).trans hw.le
  rintro p hpm ⟨h1, h2⟩
  obtain ⟨q, hq, hqx⟩ := hx
  obtain ⟨i, hi, rfl⟩ := List.getElem_of_mem hpm
  obtain ⟨k, hk, rfl⟩ := List.getElem_of_mem hq
  rcases lt_trichotomy i k with hik | hik | hik
  · obtain ⟨d, rfl⟩ := Nat.exists_eq_add_of_lt hik
    have := (hmono (d + 1) i (by omega)).2 (by omega)
    simp only [← Nat.add_assoc] at this
    have hw := hp _ (List.getElem_mem hk)
    rcases hqx with hx | hx <;> rw [← hx] at h2
    · exact absurd h2 (not_lt.mpr this)
    · exact absurd h2 (not_lt.mpr (this.trans hw.le))
  · subst hik
    rcases hqx with hx | hx <;> subst hx
    · exact lt_irrefl _ h1
    · exact lt_irrefl _ h2
  · obtain ⟨d, rfl⟩ := Nat.exists_eq_add_of_lt hik
    have := (hmono (d + 1) k (by omega)).2 (by omega)
    simp only [← Nat.add_assoc] at this
    have hw := hp _ (List.getElem_mem hk)
    rcases hqx with hx | hx <;> rw [← hx] at h1
    · exact absurd h1 (not_lt.mpr (hw.le.trans this))
    · exact absurd h1 (not_lt.mpr this)

/-- **C05**: no sector straddles a jump. -/
theorem C05_no_sector_straddles_a_jump {K : Type u} [Field K] [LinearOrder K]
    [IsStrictOrderedRing K] [Archimedean K] (O : ErrOracle K) (hO : O.Lawful)
    (cmp : Sec K → Sec K → Bool) (jumps : List K) (min max : K) (hlt : min < max)
    (hJ : jumps.Pairwise (· < ·)) (hin : ∀ j ∈ jumps, min < j ∧ j < max)
    (fuel : Nat) (r : BuildResult K) (hr : autoBuild fuel O cmp jumps min max = .ok r) :
    ∀ j ∈ jumps, IsBoundary (bounds r.sectors) j ∧ ∀ s ∈ r.sectors, ¬ (s.min < j ∧ j < s.max) := by
  have mono : ∀ k r', autoBuild fuel O cmp jumps min max = .ok r' →
      autoBuild (fuel + k) O cmp jumps min max = .ok r' := by
    intro k r' h
    unfold autoBuild at h ⊢
    obtain ⟨s, hs, h⟩ := Outcome.bind_eq_ok.mp h
    rw [autoLoop_mono O cmp min max fuel _ s hs k]
    exact h
  obtain ⟨f1, r1, h1, hp, ht⟩ := C04_automatic_terminates O hO cmp jumps min max hlt hJ hin
  obtain ⟨f2, r2, h2, hb⟩ := C05_jumps_are_boundaries O hO cmp jumps min max hlt hJ hin
  have e := mono (f1 + f2) r hr
  have e1 := h1 (fuel + (f1 + f2)) (by omega)
  have e2 := h2 (fuel + (f1 + f2)) (by omega)
  rw [e] at e1 e2
  injection e1 with e1
  injection e2 with e2
  subst e1
  subst e2
  intro j hj
  refine ⟨hb j hj, fun s hs => ?_⟩
  exact tiling_no_inner_boundary ht hp (hb j hj) (s.min, s.max)
    (List.mem_map.mpr ⟨s, hs, rfl⟩)

/-- The hypothesis of C04/C05 holds for every real error estimate (NaN included), every positive
tolerance and the expression the code uses, `pow(tolerance / error, 1 / (order - 1))`, `order ≥ 2`. -/
theorem lawful_ofError (err : Sec ℝ → Option ℝ) (tol : ℝ) (htol : 0 < tol) (order : ℕ) :
    (ErrOracle.ofError err (fun x => x ^ (1 / ((order : ℝ) + 1))) tol).Lawful := by
  constructor
  · intro s hs
    simp only [ErrOracle.ofError] at hs ⊢
    cases h : err s with
    | none => simp [h] at hs
    | some e =>
      simp only [h, ccmp_lt, decide_eq_true_eq] at hs ⊢
      apply Real.rpow_le_one
      · exact div_nonneg htol.le (htol.trans hs).le
      · rw [div_le_one (htol.trans hs)]; exact hs.le
      · positivity
  · intro s hs hz
    simp only [ErrOracle.ofError] at hs hz ⊢
    cases h : err s with
    | none => simp [h] at hs
    | some e =>
      simp only [h, ccmp_lt, ccmp_le, ccmp_lit, decide_eq_true_eq, decide_eq_false_iff_not] at hs hz ⊢
      push_cast at hs hz
      apply Real.one_le_rpow
      · rw [le_div_iff₀ (not_le.mp hz)]; linarith
      · positivity

/-- C04 and C05 apply to the real code's oracle: here with a NaN estimate on every sector left of
`0`, an estimate of `1` elsewhere, tolerance `1e-5`, order 16 and two jumps. -/
example : ∃ fuel₀ r, (∀ fuel, fuel₀ ≤ fuel →
    autoBuild fuel (ErrOracle.ofError (fun s : Sec ℝ => if s.min < 0 then none else some 1)
      (fun x => x ^ (1 / (((14 : ℕ) : ℝ) + 1))) (1/100000)) (fun _ _ => true) [-1, 1/3] (-2) 2 = .ok r) ∧
      (∀ j ∈ [-1, (1/3 : ℝ)], IsBoundary (bounds r.sectors) j) :=
  C05_jumps_are_boundaries _ (lawful_ofError _ _ (by norm_num) 14) _ _ _ _ (by norm_num)
    (by norm_num) (by
      intro j hj
      simp only [List.mem_cons, List.not_mem_nil, or_false] at hj
      rcases hj with rfl | rfl <;> norm_num)

/-! ### C06: repeated jumps -/

/-- The error oracle that accepts every candidate and never enlarges it. -/
def acceptAll : ErrOracle ℚ := ⟨fun _ => false, fun _ => false, fun _ => false, fun _ => 1⟩

/-- **C06 is false of the code** (1): a jump listed twice yields a sector of width zero, on a domain
and jump list the Python constructor passes on unchanged (sorted, strictly inside). -/
theorem C06_repeated_jump_gives_empty_sector :
    ∃ (O : ErrOracle ℚ) (cmp : Sec ℚ → Sec ℚ → Bool) (r : BuildResult ℚ),
      O.Lawful ∧ autoBuild 10 O cmp [1/4, 1/4] 0 1 = .ok r ∧
      ∃ s ∈ r.sectors, s.min = s.max := by
  refine ⟨acceptAll, fun b f => decide (f.max - f.min ≠ 0), ?_⟩
  refine ⟨⟨[⟨0, 1/4, .forward⟩, ⟨1/4, 1/4, .forward⟩, ⟨1/4, 17/50, .backward⟩,
    ⟨17/50, 67/100, .backward⟩, ⟨67/100, 1, .backward⟩], 1⟩, ?_, ?_, ?_⟩
  · constructor <;> simp [acceptAll]
  · decide +kernel
  · exact ⟨⟨1/4, 1/4, .forward⟩, by simp, rfl⟩

/-- The same list without the repetition gives a mesh without empty sectors. -/
theorem C06_repetition_changes_the_mesh :
    autoBuild 10 acceptAll (fun _ f => decide (f.max - f.min ≠ 0)) [1/4] 0 1 ≠
    autoBuild 10 acceptAll (fun _ f => decide (f.max - f.min ≠ 0)) [1/4, 1/4] 0 1 := by
  decide +kernel

/-- **C06 is false of the code** (2): with a repeated jump the construction can run for ever. The
width of the empty sector becomes the next proposed step; when the estimate of an empty sector is
NaN (the code computes `0 * (1 / 0)`) and the comparison keeps choosing the forward side, the loop
adds empty sectors for ever. -/
theorem C06_repeated_jump_hangs (fuel : Nat) :
    autoBuild fuel acceptAll (fun _ _ => true) [1/4, 1/4] 0 1 = .timeout := by
  have hstuck : ∀ (fuel : Nat) (s : AutoState ℚ), s.f.max = 1/4 → s.fh = 0 → s.fj = [] →
      s.b.min = 67/100 →
      autoLoop acceptAll (fun _ _ => true) 0 1 fuel s = .timeout := by
    intro fuel
    induction fuel with
    | zero =>
      intro s h1 h2 h3 h4
      unfold autoLoop
      simp [h1, h4]
      norm_num
    | succ n ih =>
      intro s h1 h2 h3 h4
      unfold autoLoop
      have hne : CCmp.eq s.f.max s.b.min = false := by simp [h1, h4]; norm_num
      simp only [hne]
      have hsk : skipJump s.f.max s.fj 1 = .ok [] := by
        simp only [skipJump, h3, nextJump, h1]; simp
      have hnx : nextSector acceptAll 0 (1/4) (67/100) .forward = (⟨1/4, 1/4, .forward⟩, 0) := by
        decide +kernel
      have hmin : stdMin s.b.min (nextJump [] 1) = 67/100 := by
        simp only [h4, nextJump]; decide +kernel
      have hst : autoStep acceptAll (fun _ _ => true) 0 1 s = .ok
          { s with f := ⟨1/4, 1/4, .forward⟩, fs := s.f :: s.fs, fh := 0, fj := [] } := by
        unfold autoStep
        rw [hsk]
        simp only [if_true, Outcome.bind_ok, Outcome.pure_eq, hmin]
        simp only [h2, h1, hnx]
      rw [hst]
      exact ih _ rfl rfl rfl h4
  rcases fuel with _ | _ | _ | fuel
  · decide +kernel
  · decide +kernel
  · decide +kernel
  · have h2 : autoLoop acceptAll (fun _ _ => true) 0 1 (fuel + 3) (autoInit acceptAll [1/4, 1/4] 0 1)
        = autoLoop acceptAll (fun _ _ => true) 0 1 (fuel + 1)
          ⟨⟨1/4, 1/4, .forward⟩, [⟨1/4, 1/4, .forward⟩, ⟨0, 1/4, .forward⟩],
            ⟨67/100, 1, .backward⟩, [], 0, 33/100, [], [1/4, 1/4]⟩ := by
      have s1 : autoStep acceptAll (fun _ _ => true) 0 1 (autoInit acceptAll [1/4, 1/4] 0 1) = .ok
          ⟨⟨1/4, 1/4, .forward⟩, [⟨0, 1/4, .forward⟩],
            ⟨67/100, 1, .backward⟩, [], 0, 33/100, [1/4], [1/4, 1/4]⟩ := by decide +kernel
      have s2 : autoStep acceptAll (fun _ _ => true) 0 1 ⟨⟨1/4, 1/4, .forward⟩, [⟨0, 1/4, .forward⟩],
            ⟨67/100, 1, .backward⟩, [], 0, 33/100, [1/4], [1/4, 1/4]⟩ = .ok
          ⟨⟨1/4, 1/4, .forward⟩, [⟨1/4, 1/4, .forward⟩, ⟨0, 1/4, .forward⟩],
            ⟨67/100, 1, .backward⟩, [], 0, 33/100, [], [1/4, 1/4]⟩ := by decide +kernel
      have e1 : CCmp.eq (autoInit acceptAll [1/4, 1/4] 0 1).f.max
        (autoInit acceptAll [1/4, 1/4] 0 1).b.min = false := by decide +kernel
      have e2 : CCmp.eq (1/4 : ℚ) (67/100) = false := by decide +kernel
      conv_lhs => unfold autoLoop
      simp only [e1, s1, Outcome.bind_ok]
      conv_lhs => unfold autoLoop
      simp only [e2, s2, Outcome.bind_ok]
      simp
    unfold autoBuild
    rw [h2, hstuck _ _ rfl rfl rfl rfl]
    rfl

/-- **C06**, what holds: without repetitions (strictly increasing jumps, in particular after
removing duplicates) no sector is empty and construction finishes. Missing for the full property:
the code does not remove repetitions, and the two theorems above show what then happens. -/
theorem C06_repeated_jumps_partial {K : Type u} [Field K] [LinearOrder K] [IsStrictOrderedRing K]
    [Archimedean K] (O : ErrOracle K) (hO : O.Lawful) (cmp : Sec K → Sec K → Bool)
    (jumps : List K) (min max : K) (hlt : min < max) (hJ : jumps.Pairwise (· ≤ ·))
    (hin : ∀ j ∈ jumps, min < j ∧ j < max) :
    ∃ fuel₀ r, (∀ fuel, fuel₀ ≤ fuel → autoBuild fuel O cmp jumps.dedup min max = .ok r) ∧
      PositiveWidths (bounds r.sectors) ∧ IsTiling (· = ·) (bounds r.sectors) min max := by
  apply C04_automatic_terminates O hO cmp jumps.dedup min max hlt
  · have h1 : jumps.dedup.Pairwise (· ≤ ·) := hJ.sublist (List.dedup_sublist jumps)
    have h2 : jumps.dedup.Nodup := List.nodup_dedup jumps
    exact (h1.and h2).imp (fun h => lt_of_le_of_ne h.1 h.2)
  · intro j hj; exact hin j (List.mem_dedup.mp hj)

end Verif.Mesh
