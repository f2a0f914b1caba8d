import Verif.Props.Search

/-!
# The bisection with an angle that counts correctly up to a distance `δ`
-/
namespace Verif.Search
open Verif

variable {K : Type} [Field K] [LinearOrder K] [IsStrictOrderedRing K] [FloorRing K]

/-- `D` is increasing, with consecutive integer values at least `γ` apart. At a good energy, `θ` is on the correct side of every
integer, up to a change of at most `δ` of the energy. -/
structure Counting (θ D : K → K) (good : K → Prop) (Emin Emax δ γ : K) : Prop where
  lt : Emin < Emax
  nonneg : 0 ≤ δ
  pos : 0 < γ
  small : 8 * δ ≤ γ
  mono : ∀ x y, Emin - δ ≤ x → x < y → y ≤ Emax + δ → D x < D y
  gap : ∀ (k : Int) x y, Emin - δ ≤ x → y ≤ Emax + δ → x ≤ y → D x ≤ k → (k : K) + 1 ≤ D y → γ ≤ y - x
  below : ∀ x, good x → Emin ≤ x → x ≤ Emax → ∀ k : Int, D (x + δ) < k → θ x < k
  above : ∀ x, good x → Emin ≤ x → x ≤ Emax → ∀ k : Int, k < D (x - δ) → k < θ x
  near : ∀ x, good x → Emin ≤ x → x ≤ Emax → ∀ k : Int, D (x - δ) ≤ k → k ≤ D (x + δ) → |θ x - k| ≤ 1 / 4
  resolution : (Emax - Emin) / 2 ^ 31 < γ - 2 * δ
  generic : ∀ x, good x → ∀ j m : Nat, j ≤ 31 → m < 2 ^ j → x = Emin + (Emax - Emin) * m / 2 ^ j → ∀ k : Int, θ x ≠ k

variable {θ D : K → K} {good : K → Prop} {Emin Emax δ γ : K}

theorem Counting.mono_le (R : Counting θ D good Emin Emax δ γ) {x y : K} (h1 : Emin - δ ≤ x) (h2 : x ≤ y) (h3 : y ≤ Emax + δ) : D x ≤ D y := by
  rcases h2.eq_or_lt with e | e
  · rw [e]
  · exact (R.mono _ _ h1 e h3).le

theorem Counting.le_of (R : Counting θ D good Emin Emax δ γ) {x y : K} (h1 : Emin - δ ≤ y) (h2 : x ≤ Emax + δ) (h : D x ≤ D y) : x ≤ y := by
  by_contra hc
  push Not at hc
  exact absurd (R.mono _ _ h1 hc h2) (not_lt.mpr h)

theorem Counting.ge_of_le (R : Counting θ D good Emin Emax δ γ) {x : K} (hg : good x) (h1 : Emin ≤ x) (h2 : x ≤ Emax) {k : Int} (h : k ≤ θ x) : k ≤ D (x + δ) := by
  by_contra hc
  push Not at hc
  exact absurd (R.below x hg h1 h2 k hc) (not_lt.mpr h)

theorem Counting.le_of_ge (R : Counting θ D good Emin Emax δ γ) {x : K} (hg : good x) (h1 : Emin ≤ x) (h2 : x ≤ Emax) {k : Int} (h : θ x ≤ k) : D (x - δ) ≤ k := by
  by_contra hc
  push Not at hc
  exact absurd (R.above x hg h1 h2 k hc) (not_lt.mpr h)

/-- The trial point keeps its distance from an end of a single bracket at which the angle is at least `3/4` away from the index. -/
theorem trial_far (q : Item K) (hab : q.a ≤ q.b) (h1 : q.tb ≤ ⌈q.ta⌉ + 1) (h2 : (⌈q.ta⌉ : K) < q.tb) (h3 : q.ta < ⌈q.ta⌉) :
    ((3 / 4 : K) ≤ q.tb - ⌈q.ta⌉ → 3 / 8 * (q.b - q.a) ≤ q.b - trial q ⌈q.ta⌉ ⌈q.tb⌉) ∧
    ((3 / 4 : K) ≤ ⌈q.ta⌉ - q.ta → 3 / 8 * (q.b - q.a) ≤ trial q ⌈q.ta⌉ ⌈q.tb⌉ - q.a) := by
  have h4 : (⌈q.ta⌉ : K) < q.ta + 1 := Int.ceil_lt_add_one _
  unfold trial
  simp only [ccmp_lt, ccmp_lit, Rat.cast_intCast]
  have e1 : ((1 / 2 : ℚ) : K) = 1 / 2 := by push_cast; ring
  split
  · rw [e1]
    exact ⟨fun _ => by linarith, fun _ => by linarith⟩
  · set i : K := (⌈q.ta⌉ : K) with hi
    have hd : 0 < q.tb - q.ta := by linarith
    have hd2 : q.tb - q.ta ≤ 2 := by linarith
    have hw : 0 ≤ q.b - q.a := by linarith
    constructor
    · intro h
      have e : q.b - ((q.tb - i) * q.a - (q.ta - i) * q.b) / (q.tb - q.ta) = (q.tb - i) * (q.b - q.a) / (q.tb - q.ta) := by
        field_simp; ring
      rw [e, le_div_iff₀ hd]
      have a1 := mul_le_mul_of_nonneg_right h hw
      have a2 := mul_le_mul_of_nonneg_left hd2 hw
      have : 3 / 8 * (q.b - q.a) * (q.tb - q.ta) = 3 / 8 * ((q.b - q.a) * (q.tb - q.ta)) := by ring
      rw [this]
      linarith
    · intro h
      have e : ((q.tb - i) * q.a - (q.ta - i) * q.b) / (q.tb - q.ta) - q.a = (i - q.ta) * (q.b - q.a) / (q.tb - q.ta) := by
        field_simp; ring
      rw [e, le_div_iff₀ hd]
      have a1 := mul_le_mul_of_nonneg_right h hw
      have a2 := mul_le_mul_of_nonneg_left hd2 hw
      have : 3 / 8 * (q.b - q.a) * (q.tb - q.ta) = 3 / 8 * ((q.b - q.a) * (q.tb - q.ta)) := by ring
      rw [this]
      linarith

/-- Invariant of a queue entry. -/
structure CItem (θ : K → K) (good : K → Prop) (Emin Emax : K) (q : Item K) : Prop extends ItemInv θ Emin Emax q where
  ga : good q.a
  gb : good q.b

theorem step_counting (R : Counting θ D good Emin Emax δ γ) (Imin Imax : Int)
    (q : Item K) (hq : CItem θ good Emin Emax q) (act : Action K)
    (hs : stepItem θ Imin Imax q = .ok act) :
    match act with
    | .skip => ∀ k, todo Imin Imax k q = 0
    | .drop _ => False
    | .push items e => good e → (∀ i ∈ items, CItem θ good Emin Emax i) ∧
        ∀ k, (items.map (todo Imin Imax k)).sum = todo Imin Imax k q
    | .cand c _ => c.item = q ∧ (∀ k, todo Imin Imax k q = if k = c.idx then 1 else 0) ∧
        θ c.item.a < c.idx ∧ (c.idx : K) < θ c.item.b ∧ c.item.a < c.c ∧ c.c < c.item.b := by
  rw [stepItem_exact] at hs
  simp only [Outcome.ok.injEq] at hs
  have hnon := hq.nonint
  have hta := lt_ceil_of_nonint hnon
  have hδ := R.nonneg
  have hγ := R.pos
  have h8 := R.small
  split at hs
  · rename_i hsk
    subst hs
    intro k
    unfold todo
    rw [if_neg]
    rintro ⟨h1, h2, h3, h4⟩
    have h3' : ⌈q.ta⌉ ≤ k := Int.ceil_le.mpr h3.le
    have h4' : k < ⌈q.tb⌉ := Int.lt_ceil.mpr h4
    rcases hsk with h | h | h | h
    · linarith
    · omega
    · omega
    · omega
  · rename_i hns
    push Not at hns
    obtain ⟨hlt, hne, hmin, hmax⟩ := hns
    have hle : ⌈q.ta⌉ < ⌈q.tb⌉ := lt_of_le_of_ne (Int.ceil_le_ceil hlt.le) hne
    have ht := (trial_mem q hq.lt.le hlt hne).2.2 hq.lt hta
    set c := trial q ⌈q.ta⌉ ⌈q.tb⌉ with hc
    have hia : (⌈q.ta⌉ : K) < q.tb := Int.lt_ceil.mp hle
    have hlo := hq.lo
    have hhi := hq.hi
    have hab := hq.lt
    have Da : D (q.a - δ) ≤ ⌈q.ta⌉ := R.le_of_ge hq.ga hlo (by linarith) (by rw [← hq.ta]; exact hta.le)
    have Db : (⌈q.ta⌉ : K) ≤ D (q.b + δ) := R.ge_of_le hq.gb (by linarith) hhi (by rw [← hq.tb]; exact hia.le)
    have Da' : (⌈q.ta⌉ : K) - 1 ≤ D (q.a + δ) := by
      have := R.ge_of_le (k := ⌈q.ta⌉ - 1) hq.ga hlo (by linarith) (by
        rw [← hq.ta]; push_cast; linarith [Int.ceil_lt_add_one q.ta])
      push_cast at this; exact this
    have multi : ⌈q.ta⌉ + 1 < ⌈q.tb⌉ → γ - 2 * δ ≤ q.b - q.a := by
      intro hm
      have h1 : ((⌈q.ta⌉ + 1 : Int) : K) < q.tb := Int.lt_ceil.mp hm
      have h2 := R.ge_of_le (k := ⌈q.ta⌉ + 1) hq.gb (by linarith) hhi (by rw [← hq.tb]; exact h1.le)
      push_cast at h2
      have := R.gap ⌈q.ta⌉ (q.a - δ) (q.b + δ) (by linarith) (by linarith) (by linarith) Da h2
      linarith
    have candOK : ⌈q.tb⌉ = ⌈q.ta⌉ + 1 → (∀ k, todo Imin Imax k q = if k = ⌈q.ta⌉ then 1 else 0) ∧
        θ q.a < ⌈q.ta⌉ ∧ (⌈q.ta⌉ : K) < θ q.b := fun h1 =>
      ⟨todo_single hnon h1 hmin hmax, hq.ta ▸ hta, hq.tb ▸ hia⟩
    split at hs
    · rename_i hdone
      subst hs
      have h1 : ⌈q.tb⌉ = ⌈q.ta⌉ + 1 := by
        rcases hdone with ⟨hd, -⟩ | hd
        · have : q.tb ≤ ((⌈q.ta⌉ + 1 : Int) : K) := by
            have := Int.le_ceil q.ta
            push_cast; linarith
          have := Int.ceil_le.mpr this
          omega
        · by_contra hcon
          have hmulti : ⌈q.ta⌉ + 1 < ⌈q.tb⌉ := by omega
          obtain ⟨m, -, -, hb⟩ := hq.dyadic hmulti
          have hd31 : q.depth = 31 := by have := hq.depth; omega
          have h2 := multi hmulti
          have h3 := R.resolution
          rw [hb, hd31] at h2
          linarith
      obtain ⟨g1, g2, g3⟩ := candOK h1
      exact ⟨rfl, g1, g2, g3, ht.1, ht.2⟩
    · rename_i hnd
      have hd30 : q.depth ≤ 30 := by
        by_contra h; exact hnd (.inr (by omega))
      have hc1 : Emin ≤ c := hlo.trans ht.1.le
      have hc2 : c ≤ Emax := ht.2.le.trans hhi
      split at hs
      · rename_i hmulti
        subst hs
        intro gc
        obtain ⟨m, hm, ha, hb⟩ := hq.dyadic hmulti
        have hcm : c = (q.a + q.b) / 2 := by rw [hc]; exact trial_mid q hmulti
        have hw := multi hmulti
        have hp : (2 : K) ^ q.depth ≠ 0 := by positivity
        have hcd : c = Emin + (Emax - Emin) * ((2 * m + 1 : Nat) : K) / 2 ^ (1 + q.depth) := by
          rw [hcm, hb, ha, pow_add]; push_cast; field_simp; ring
        have hcnon : ∀ k : Int, θ c ≠ k := by
          refine R.generic c gc (1 + q.depth) (2 * m + 1) (by omega) ?_ hcd
          rw [Nat.pow_add]; omega
        have htc1 : ∀ k : Int, θ c < k → q.ta < k := by
          intro k hk
          have h1 := R.le_of_ge gc hc1 hc2 hk.le
          have h2 := R.mono (q.a + δ) (c - δ) (by linarith) (by rw [hcm]; linarith) (by linarith)
          rw [hq.ta]
          exact R.below q.a hq.ga hlo (by linarith) k (h2.trans_le h1)
        have htc2 : ∀ k : Int, k < θ c → k < q.tb := by
          intro k hk
          have h1 := R.ge_of_le gc hc1 hc2 hk.le
          have h2 := R.mono (c + δ) (q.b - δ) (by linarith) (by rw [hcm]; linarith) (by linarith)
          rw [hq.tb]
          exact R.above q.b hq.gb (by linarith) hhi k (h1.trans_lt h2)
        refine ⟨?_, ?_⟩
        · intro i hi
          simp only [List.mem_cons, List.not_mem_nil, or_false] at hi
          rcases hi with rfl | rfl
          · refine ⟨⟨hq.lo, ht.1, ht.2.le.trans hq.hi, hq.ta, rfl, by simp; omega, hnon, fun _ => ?_⟩, hq.ga, gc⟩
            refine ⟨2 * m, by simp only []; rw [Nat.pow_add]; omega, ?_, ?_⟩
            · simp only []; rw [ha, pow_add]; push_cast; field_simp
            · simp only []; rw [hcm, hb, pow_add]; field_simp; ring
          · refine ⟨⟨hq.lo.trans ht.1.le, ht.2, hq.hi, rfl, hq.tb, by simp; omega, hcnon, fun _ => ?_⟩, gc, hq.gb⟩
            refine ⟨2 * m + 1, by simp only []; rw [Nat.pow_add]; omega, hcd, ?_⟩
            simp only []; rw [hcm, hb, pow_add]; field_simp; ring
        · intro k
          simp only [List.map_cons, List.map_nil, List.sum_cons, List.sum_nil, Nat.add_zero, todo]
          by_cases hk : Imin ≤ k ∧ k < Imax
          · simp only [hk.1, hk.2, true_and]
            have hkc := hcnon k
            rcases lt_or_gt_of_ne hkc with h | h
            · rw [if_neg (fun hh => absurd hh.2 (not_lt.mpr h.le))]
              have := htc1 k h
              simp only [h, this, true_and, Nat.zero_add]
            · have h2 := htc2 k h
              rw [if_neg (c := θ c < (k : K) ∧ (k : K) < q.tb) (fun hh => absurd hh.1 (not_lt.mpr h.le))]
              simp only [h, h2, and_true, Nat.add_zero]
          · have : ∀ X : Prop, ¬ (Imin ≤ k ∧ k < Imax ∧ X) := fun X hh => hk ⟨hh.1, hh.2.1⟩
            simp only [this, if_false]
      · rename_i hsingle
        have h1 : ⌈q.tb⌉ = ⌈q.ta⌉ + 1 := by omega
        have htb : q.tb ≤ ⌈q.ta⌉ + 1 := by
          have := Int.le_ceil q.tb
          rw [h1] at this; push_cast at this; exact this
        have far := trial_far q hab.le htb hia hta
        rw [← hc] at far
        obtain ⟨g1, g2, g3⟩ := candOK h1
        split at hs
        · subst hs
          exact ⟨rfl, g1, g2, g3, ht.1, ht.2⟩
        · rename_i hclose
          have hne' : θ c ≠ (⌈q.ta⌉ : K) := by
            intro h
            rw [h] at hclose
            apply hclose
            simp
          split at hs
          · rename_i hsign
            subst hs
            intro gc
            have hgt : (⌈q.ta⌉ : K) < θ c := by
              by_contra hcon
              have : 0 ≤ (q.ta - ⌈q.ta⌉) * (θ c - ⌈q.ta⌉) :=
                mul_nonneg_of_nonpos_of_nonpos (by linarith) (by linarith [not_lt.mp hcon])
              linarith
            have hcc : ⌈θ c⌉ = ⌈q.ta⌉ + 1 := by
              have u1 : ⌈q.ta⌉ < ⌈θ c⌉ := Int.lt_ceil.mpr hgt
              by_contra hcon
              have u2 : ((⌈q.ta⌉ + 1 : Int) : K) < θ c := Int.lt_ceil.mp (by omega)
              have v1 := R.ge_of_le gc hc1 hc2 u2.le
              have v2 := R.le_of_ge (k := ⌈q.ta⌉ + 1) hq.gb (by linarith) hhi (by rw [← hq.tb]; push_cast; exact htb)
              have v3 := R.le_of (x := q.b - δ) (y := c + δ) (by linarith) (by linarith) (v2.trans v1)
              have v4 := R.near q.b hq.gb (by linarith) hhi (⌈q.ta⌉ + 1) v2 (v1.trans (R.mono_le (by linarith) (by linarith) (by linarith)))
              have v5 := R.gap ⌈q.ta⌉ (q.a - δ) (c + δ) (by linarith) (by linarith) (by linarith) Da (by push_cast at v1; linarith)
              rw [← hq.tb, abs_le] at v4
              have v6 := v4.1
              push_cast at v6
              have := far.1 (by linarith)
              linarith
            refine ⟨?_, ?_⟩
            · intro i hi
              simp only [List.mem_cons, List.not_mem_nil, or_false] at hi
              subst hi
              refine ⟨⟨hq.lo, ht.1, ht.2.le.trans hq.hi, hq.ta, rfl, by simp; omega, hnon, fun hh => ?_⟩, hq.ga, gc⟩
              simp only [] at hh; omega
            · intro k
              simp only [List.map_cons, List.map_nil, List.sum_cons, List.sum_nil, Nat.add_zero]
              rw [g1 k]
              exact todo_single (q := ⟨q.a, q.ta, c, θ c, q.depth + 1⟩) hnon hcc
                (by simp only []; omega) hmax k
          · rename_i hsign
            subst hs
            intro gc
            have hltc : θ c < (⌈q.ta⌉ : K) := by
              rcases lt_or_gt_of_ne hne' with h | h
              · exact h
              · exact absurd (mul_neg_of_neg_of_pos (by linarith) (by linarith)) hsign
            have hcc : ⌈θ c⌉ = ⌈q.ta⌉ := by
              have u1 : ⌈θ c⌉ ≤ ⌈q.ta⌉ := Int.ceil_le.mpr hltc.le
              by_contra hcon
              have u2 : θ c ≤ ((⌈q.ta⌉ - 1 : Int) : K) := Int.ceil_le.mp (by omega)
              have v1 := R.le_of_ge gc hc1 hc2 u2
              have v2 : ((⌈q.ta⌉ - 1 : Int) : K) ≤ D (q.a + δ) := by push_cast; exact Da'
              have v3 := R.le_of (x := c - δ) (y := q.a + δ) (by linarith) (by linarith) (v1.trans v2)
              have v4 := R.near q.a hq.ga hlo (by linarith) (⌈q.ta⌉ - 1) ((R.mono_le (by linarith) (by linarith) (by linarith)).trans v1) v2
              have v5 := R.gap (⌈q.ta⌉ - 1) (c - δ) (q.b + δ) (by linarith) (by linarith) (by linarith) v1 (by push_cast; linarith)
              rw [← hq.ta, abs_le] at v4
              have v6 := v4.2
              push_cast at v6
              have := far.2 (by linarith)
              linarith
            have hcnon : ∀ k : Int, θ c ≠ k := by
              intro k hk
              rw [hk, Int.ceil_intCast] at hcc
              rw [hk, hcc] at hltc
              exact lt_irrefl _ hltc
            refine ⟨?_, ?_⟩
            · intro i hi
              simp only [List.mem_cons, List.not_mem_nil, or_false] at hi
              subst hi
              refine ⟨⟨hq.lo.trans ht.1.le, ht.2, hq.hi, rfl, hq.tb, by simp; omega, hcnon, fun hh => ?_⟩, gc, hq.gb⟩
              simp only [] at hh; omega
            · intro k
              simp only [List.map_cons, List.map_nil, List.sum_cons, List.sum_nil, Nat.add_zero]
              rw [g1 k]
              have := todo_single (q := ⟨c, θ c, q.b, q.tb, q.depth + 1⟩) (Imin := Imin)
                (Imax := Imax) hcnon (by simp only []; omega) (by simp only []; omega)
                (by simp only []; omega) k
              simp only [hcc] at this
              exact this

/-- The search with an angle that counts correctly at every energy it evaluates. -/
theorem counting_search (R : Counting θ D good Emin Emax δ γ) (nw : K → Outcome (Int × K)) (Imin Imax : Int) (fuel : Nat)
    (L : List (Int × K)) (f : Found K) (h : helper θ nw Emin Emax Imin Imax fuel = .ok (L, f)) (hg : ∀ e ∈ f.evals, good e) :
    good Emin ∧ good Emax ∧
    (∀ k : Int, (f.cands.map Cand.idx).count k =
      if Imin ≤ k ∧ k < Imax ∧ θ Emin < k ∧ (k : K) < θ Emax then 1 else 0) ∧
    (∀ c ∈ f.cands, Emin ≤ c.item.a ∧ c.item.b ≤ Emax ∧ c.item.a < c.c ∧ c.c < c.item.b ∧
      D (c.item.a - δ) ≤ c.idx ∧ (c.idx : K) ≤ D (c.item.b + δ)) ∧
    L.length = f.cands.length := by
  have hperm := C20_permutation_of_polished θ nw Emin Emax Imin Imax fuel L f h
  unfold helper at h
  split at h
  · simp at h
  · split at h
    · simp at h
    · obtain ⟨f', hl, h⟩ := Outcome.bind_eq_ok.mp h
      simp at h
      obtain ⟨rfl, rfl⟩ := h
      have := loop_induct θ nw Imin Imax
        (fun qs acc => (∀ e ∈ acc.evals, good e) → (good Emin ∧ good Emax) ∧ (∀ q ∈ qs, CItem θ good Emin Emax q) ∧
          (∀ k : Int, (acc.cands.map Cand.idx).count k + (qs.map (todo Imin Imax k)).sum =
            if Imin ≤ k ∧ k < Imax ∧ θ Emin < k ∧ (k : K) < θ Emax then 1 else 0) ∧
          (∀ c ∈ acc.cands, Emin ≤ c.item.a ∧ c.item.b ≤ Emax ∧ c.item.a < c.c ∧ c.c < c.item.b ∧
            D (c.item.a - δ) ≤ c.idx ∧ (c.idx : K) ≤ D (c.item.b + δ)))
        (fun q qs acc hR hs hacc => by
          obtain ⟨r0, r1, r2, r3⟩ := hR hacc
          have := step_counting R Imin Imax q (r1 q (by simp)) _ hs
          refine ⟨r0, fun x hx => r1 x (by simp [hx]), fun k => ?_, r3⟩
          have h2 := r2 k
          simp only [List.map_cons, List.sum_cons, this k, Nat.zero_add] at h2
          exact h2)
        (fun q qs acc e hR hs hacc => by
          obtain ⟨r0, r1, r2, r3⟩ := hR (fun x hx => hacc x (by simp [hx]))
          exact (step_counting R Imin Imax q (r1 q (by simp)) _ hs).elim)
        (fun q qs acc items e hR hs hacc => by
          obtain ⟨r0, r1, r2, r3⟩ := hR (fun x hx => hacc x (by simp [hx]))
          have := step_counting R Imin Imax q (r1 q (by simp)) _ hs (hacc e (by simp))
          refine ⟨r0, fun x hx => ?_, fun k => ?_, r3⟩
          · rcases List.mem_append.mp hx with hx | hx
            · exact r1 x (by simp [hx])
            · exact this.1 x hx
          · have h2 := r2 k
            simp only [List.map_cons, List.sum_cons, List.map_append, List.sum_append] at h2 ⊢
            rw [this.2 k]; omega)
        (fun q qs acc c e v hR hs _ hacc => by
          obtain ⟨r0, r1, r2, r3⟩ := hR (fun x hx => hacc x (by simp [hx]))
          have hi := r1 q (by simp)
          have := step_counting R Imin Imax q hi _ hs
          simp only [] at this
          obtain ⟨t1, t2, t3, t4, t5, t6⟩ := this
          refine ⟨r0, fun x hx => r1 x (by simp [hx]), fun k => ?_, ?_⟩
          · have h2 := r2 k
            simp only [List.map_cons, List.sum_cons, t2 k] at h2
            simp only [List.map_append, List.map_cons, List.map_nil, List.count_append,
              List.count_singleton]
            rw [← h2]
            by_cases hk : k = c.idx
            · subst hk; simp; omega
            · have hk' : ¬ c.idx = k := fun h => hk h.symm
              simp [hk, hk']
          · intro x hx
            simp only [List.mem_append, List.mem_singleton] at hx
            rcases hx with hx | rfl
            · exact r3 x hx
            · have i1 : Emin ≤ x.item.a := t1 ▸ hi.lo
              have i2 : x.item.b ≤ Emax := t1 ▸ hi.hi
              have i3 : good x.item.a := t1 ▸ hi.ga
              have i4 : good x.item.b := t1 ▸ hi.gb
              exact ⟨i1, i2, t5, t6, R.le_of_ge i3 i1 (by linarith) t3.le, R.ge_of_le i4 (by linarith) i2 t4.le⟩)
        fuel _ _ _ hl
        (fun hacc => by
          have e1 : good Emin := hacc _ (by simp)
          have e2 : good Emax := hacc _ (by simp)
          refine ⟨⟨e1, e2⟩, ?_, by intro k; simp [todo], by simp⟩
          intro q hq
          simp only [List.mem_singleton] at hq
          subst hq
          refine ⟨⟨le_rfl, R.lt, le_rfl, rfl, rfl, by simp, ?_, fun _ => ⟨0, by simp, by simp, by simp⟩⟩, e1, e2⟩
          exact R.generic Emin e1 0 0 (by omega) (by simp) (by simp))
      obtain ⟨t0, -, t2, t3⟩ := this hg
      refine ⟨t0.1, t0.2, fun k => by simpa using t2 k, t3, ?_⟩
      rw [hperm.1.length_eq, ← hperm.2.length_eq]

end Verif.Search
