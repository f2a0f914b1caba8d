import Verif.Model.Lookup
import Verif.Lemmas.MeshAuto
import Verif.Props.MeshUniform
import Verif.Props.MeshAuto
import Mathlib.Tactic.IntervalCases

/-!
# C08 (sector lookup), C09 (array evaluation), C54 (zero outside the domain)

Everything here uses only the comparison laws of IEEE arithmetic (`IeeeOrd`), no algebra, so it
covers floating point.
-/
set_option linter.unusedSectionVars false
namespace Verif.Mesh
open Verif.Spec

variable {K : Type} [CCmp K]

/-- "the same mesh point": identical, or equal for the scalar's `==` (C03). -/
abbrev SamePoint (x y : K) : Prop := x = y ∨ CCmp.eq x y = true

/-- A mesh as the builders return it: a tiling of `[dmin, dmax]` whose sectors have `min ≤ max`. -/
structure IsMesh (secs : List (Sec K)) (dmin dmax : K) : Prop where
  tiling : IsTiling SamePoint (bounds secs) dmin dmax
  ordered : ∀ s ∈ secs, CCmp.le s.min s.max = true

section order
variable [IeeeOrd K]

theorem IsMesh.length_pos {secs : List (Sec K)} {a b : K} (h : IsMesh secs a b) :
    0 < secs.length := by
  have := h.tiling.nonempty
  rw [List.length_pos_iff]
  rintro rfl
  exact this rfl

theorem IsMesh.step {secs : List (Sec K)} {a b : K} (h : IsMesh secs a b) (i : Nat)
    (hi : i + 1 < secs.length) :
    CCmp.le (secs[i]'(by omega)).max secs[i + 1].min = true ∧
    CCmp.le secs[i + 1].min (secs[i]'(by omega)).max = true := by
  have := h.tiling.joined i (by simpa [bounds] using hi)
  simp only [bounds, List.getElem_map] at this
  rcases this with h1 | h1
  · have hr := IeeeOrd.le_right _ _ (h.ordered (secs[i]'(by omega)) (List.getElem_mem _))
    rw [← h1]
    exact ⟨hr, hr⟩
  · exact (IeeeOrd.eq_iff _ _).mp h1

theorem IsMesh.mono {secs : List (Sec K)} {a b : K} (h : IsMesh secs a b) (d : Nat) :
    ∀ (i : Nat) (hi : i + d < secs.length),
      CCmp.le (secs[i]'(by omega)).min secs[i + d].min = true ∧
      CCmp.le (secs[i]'(by omega)).max secs[i + d].max = true ∧
      (0 < d → CCmp.le (secs[i]'(by omega)).max secs[i + d].min = true) := by
  induction d with
  | zero =>
    intro i hi
    have ho := h.ordered (secs[i]'(by omega)) (List.getElem_mem _)
    exact ⟨IeeeOrd.le_left _ _ ho, IeeeOrd.le_right _ _ ho, fun h => absurd h (by omega)⟩
  | succ d ih =>
    intro i hi
    obtain ⟨h1, h2, h3⟩ := ih i (by omega)
    obtain ⟨s1, s2⟩ := h.step (i + d) (by omega)
    have o1 := h.ordered (secs[i + d]'(by omega)) (List.getElem_mem _)
    have o2 := h.ordered (secs[i + (d + 1)]'(by omega)) (List.getElem_mem _)
    have e : i + (d + 1) = i + d + 1 := by omega
    simp only [e] at o2 ⊢
    have hm : CCmp.le (secs[i]'(by omega)).max (secs[i + d + 1]'(by omega)).min = true :=
      IeeeOrd.trans _ _ _ h2 s1
    exact ⟨IeeeOrd.trans _ _ _ h1 (IeeeOrd.trans _ _ _ o1 s1),
      IeeeOrd.trans _ _ _ hm o2, fun _ => hm⟩

theorem IsMesh.le_min {secs : List (Sec K)} {a b : K} (h : IsMesh secs a b) {i j : Nat}
    (hij : i ≤ j) (hj : j < secs.length) :
    CCmp.le (secs[i]'(by omega)).min secs[j].min = true := by
  obtain ⟨d, rfl⟩ := Nat.exists_eq_add_of_le hij
  exact (h.mono d i hj).1

theorem IsMesh.le_max {secs : List (Sec K)} {a b : K} (h : IsMesh secs a b) {i j : Nat}
    (hij : i ≤ j) (hj : j < secs.length) :
    CCmp.le (secs[i]'(by omega)).max secs[j].max = true := by
  obtain ⟨d, rfl⟩ := Nat.exists_eq_add_of_le hij
  exact (h.mono d i hj).2.1

theorem IsMesh.max_le_min {secs : List (Sec K)} {a b : K} (h : IsMesh secs a b) {i j : Nat}
    (hij : i < j) (hj : j < secs.length) :
    CCmp.le (secs[i]'(by omega)).max secs[j].min = true := by
  obtain ⟨d, rfl⟩ := Nat.exists_eq_add_of_le hij.le
  exact (h.mono d i hj).2.2 (by omega)

theorem IsMesh.first {secs : List (Sec K)} {a b : K} (h : IsMesh secs a b) :
    (secs[0]'h.length_pos).min = a := by
  have := h.tiling.first ((secs[0]'h.length_pos).min, (secs[0]'h.length_pos).max) (by
    have := h.length_pos
    simp only [bounds, List.head?_eq_getElem?, List.getElem?_map, List.getElem?_eq_getElem this,
      Option.map_some])
  exact this

theorem IsMesh.last {secs : List (Sec K)} {a b : K} (h : IsMesh secs a b) :
    (secs[secs.length - 1]'(Nat.sub_lt h.length_pos (by decide))).max = b := by
  have hp := h.length_pos
  have := h.tiling.last ((secs[secs.length - 1]'(by omega)).min, (secs[secs.length - 1]'(by omega)).max) (by
    simp only [bounds, List.getLast?_eq_getElem?, List.getElem?_map, List.length_map,
      List.getElem?_eq_getElem (show secs.length - 1 < secs.length by omega), Option.map_some])
  exact this

/-- not `x ≤ y` for ordinary values means `y ≤ x` -/
theorem le_of_not_le {x y : K} (hx : CCmp.le x x = true) (hy : CCmp.le y y = true)
    (h : CCmp.le x y = false) : CCmp.le y x = true := by
  rcases IeeeOrd.total x y hx hy with h1 | h1
  · rw [h] at h1; exact absurd h1 (by simp)
  · exact h1

/-- every point of the domain is in some sector -/
theorem IsMesh.exists_sector {secs : List (Sec K)} {a b x : K} (h : IsMesh secs a b)
    (hx : domainContains a b x = true) :
    ∃ i, ∃ hi : i < secs.length, (secs[i]).contains x = true := by
  simp only [domainContains, Bool.and_eq_true] at hx
  have hxx : CCmp.le x x = true := IeeeOrd.le_right _ _ hx.1
  by_contra hno
  have hno : ∀ i (hi : i < secs.length), (secs[i]).contains x = false := by
    intro i hi
    by_contra hc
    exact hno ⟨i, hi, by simpa using hc⟩
  have key : ∀ i (hi : i < secs.length), CCmp.le secs[i].min x = true ∧ CCmp.le x secs[i].max = false := by
    intro i
    induction i with
    | zero =>
      intro hi
      have h0 : CCmp.le secs[0].min x = true := by rw [h.first]; exact hx.1
      have := hno 0 hi
      simp only [Sec.contains, h0, Bool.and_true] at this
      exact ⟨h0, this⟩
    | succ i ih =>
      intro hi
      have h0 := ih (by omega)
      have hm := IeeeOrd.le_right _ _ (h.ordered (secs[i]'(by omega)) (List.getElem_mem _))
      have h1 : CCmp.le secs[i + 1].min x = true :=
        IeeeOrd.trans _ _ _ (h.step i hi).2 (le_of_not_le hxx hm h0.2)
      have := hno (i + 1) hi
      simp only [Sec.contains, h1, Bool.and_true] at this
      exact ⟨h1, this⟩
  have hlast := (key (secs.length - 1) (Nat.sub_lt h.length_pos (by decide))).2
  rw [h.last] at hlast
  rw [hlast] at hx
  exact absurd hx.2 (by simp)

theorem IsMesh.sector_in_domain {secs : List (Sec K)} {a b x : K} (h : IsMesh secs a b) {i : Nat}
    (hi : i < secs.length) (hc : (secs[i]).contains x = true) : domainContains a b x = true := by
  simp only [Sec.contains, Bool.and_eq_true] at hc
  have h1 := h.le_min (Nat.zero_le i) hi
  have h2 := h.le_max (Nat.le_sub_one_of_lt hi) (Nat.sub_lt h.length_pos (by decide))
  rw [h.first] at h1
  rw [h.last] at h2
  simp only [domainContains, Bool.and_eq_true]
  exact ⟨IeeeOrd.trans _ _ _ h1 hc.2, IeeeOrd.trans _ _ _ hc.1 h2⟩

end order

/-! ### C08 -/

/-- The loop always stops in range, with fuel `b - a` — no law needed. -/
theorem findSectorLoop_total (secs : List (Sec K)) (x : K) :
    ∀ (fuel a b : Nat), a < b → b ≤ secs.length → b - a ≤ fuel + 1 →
      findSectorLoop secs x fuel a b = .ok (-1) ∨
      ∃ i, ∃ hi : i < secs.length, findSectorLoop secs x fuel a b = .ok (i : Int) ∧
        secs[i].contains x = true := by
  intro fuel
  induction fuel with
  | zero =>
    intro a b hab hb hf
    have hc : a + (b - a) / 2 = a := by omega
    have ha : a < secs.length := by omega
    unfold findSectorLoop
    simp only [hc]
    rw [List.getElem?_eq_getElem ha]
    by_cases hcon : secs[a].contains x = true
    · exact .inr ⟨a, ha, by simp [hcon], hcon⟩
    · exact .inl (by simp [hcon])
  | succ fuel ih =>
    intro a b hab hb hf
    have hc : a + (b - a) / 2 < secs.length := by omega
    unfold findSectorLoop
    simp only
    rw [List.getElem?_eq_getElem hc]
    by_cases hcon : secs[a + (b - a) / 2].contains x = true
    · exact .inr ⟨_, hc, by simp [hcon], hcon⟩
    · simp only [hcon]
      by_cases he : a + (b - a) / 2 = a
      · exact .inl (by simp [he])
      · simp only [he, if_false, Bool.false_eq_true]
        split
        · exact ih a _ (by omega) (by omega) (by omega)
        · exact ih _ b (by omega) hb (by omega)

/-- If some sector of `[a, b)` contains the point, the loop finds one. -/
theorem findSectorLoop_finds [IeeeOrd K] {secs : List (Sec K)} {dmin dmax : K}
    (h : IsMesh secs dmin dmax) (x : K) :
    ∀ (fuel a b : Nat), a < b → b ≤ secs.length → b - a ≤ fuel + 1 →
      (∃ i, ∃ hi : i < secs.length, a ≤ i ∧ i < b ∧ secs[i].contains x = true) →
      findSectorLoop secs x fuel a b ≠ .ok (-1) := by
  intro fuel
  induction fuel with
  | zero =>
    rintro a b hab hb hf ⟨i, hi, h1, h2, h3⟩
    have hc : a + (b - a) / 2 = a := by omega
    have hia : i = a := by omega
    subst hia
    unfold findSectorLoop
    simp only [hc]
    rw [List.getElem?_eq_getElem hi]
    simp [h3]
  | succ fuel ih =>
    rintro a b hab hb hf ⟨i, hi, h1, h2, h3⟩
    have hc : a + (b - a) / 2 < secs.length := by omega
    unfold findSectorLoop
    simp only
    rw [List.getElem?_eq_getElem hc]
    by_cases hcon : secs[a + (b - a) / 2].contains x = true
    · simp only [hcon, if_true]
      intro hh
      injection hh with hh
      omega
    · simp only [hcon]
      have h3' := h3
      simp only [Sec.contains, Bool.and_eq_true] at h3'
      have hxx := IeeeOrd.le_left _ _ h3'.1
      by_cases he : a + (b - a) / 2 = a
      · -- then the interval has one element
        have hia : i = a := by omega
        exfalso
        apply hcon
        have : a + (b - a) / 2 = i := by omega
        simp only [this]
        exact h3
      · simp only [he, if_false, Bool.false_eq_true]
        split
        · rename_i hlt
          rw [IeeeOrd.lt_iff] at hlt
          apply ih a _ (by omega) (by omega) (by omega)
          refine ⟨i, hi, h1, ?_, h3⟩
          by_contra hge
          have := h.le_min (Nat.le_of_not_lt hge) hi
          have := IeeeOrd.trans _ _ _ this h3'.2
          rw [this] at hlt
          exact absurd hlt.2.2 (by simp)
        · rename_i hlt
          apply ih _ b (by omega) hb (by omega)
          refine ⟨i, hi, ?_, h2, h3⟩
          by_contra hge
          have hic : i ≤ a + (b - a) / 2 := by omega
          have hle := IeeeOrd.trans _ _ _ h3'.1 (h.le_max hic hc)
          -- so x ≤ max of the middle one, and not x < its min, hence contained
          apply hcon
          have hmin := IeeeOrd.le_left _ _ (h.ordered (secs[a + (b - a) / 2]) (List.getElem_mem _))
          have hmx : CCmp.le (secs[a + (b - a) / 2]).min x = true := by
            by_contra hn
            apply hlt
            rw [IeeeOrd.lt_iff]
            exact ⟨hxx, hmin, by simpa using hn⟩
          simp [Sec.contains, hle, hmx]

/-- **C08**: on every mesh of any size and for every point (NaN included), `find_sector` terminates
without reading outside the sector array; for a point of the domain it returns the index of a sector
that contains the point, for any other point it returns −1. -/
theorem C08_find_sector [IeeeOrd K] {secs : List (Sec K)} {dmin dmax : K}
    (h : IsMesh secs dmin dmax) (x : K) :
    (domainContains dmin dmax x = true →
      ∃ i, ∃ hi : i < secs.length, findSector secs x = .ok (i : Int) ∧
        secs[i].contains x = true) ∧
    (domainContains dmin dmax x = false → findSector secs x = .ok (-1)) := by
  have hl := h.length_pos
  have ht := findSectorLoop_total secs x secs.length 0 secs.length hl le_rfl (by omega)
  constructor
  · intro hx
    obtain ⟨i, hi, hc⟩ := h.exists_sector hx
    have hn := findSectorLoop_finds h x secs.length 0 secs.length hl le_rfl (by omega)
      ⟨i, hi, by omega, hi, hc⟩
    rcases ht with h1 | h1
    · exact absurd h1 hn
    · exact h1
  · intro hx
    rcases ht with h1 | ⟨i, hi, _, hc⟩
    · exact h1
    · rw [h.sector_in_domain hi hc] at hx
      exact absurd hx (by simp)

/-- **C08**, memory safety without any assumption on the order of the sectors or on the scalar type:
on a non-empty vector `find_sector` always returns −1 or the index of a containing sector. -/
theorem C08_find_sector_safe (secs : List (Sec K)) (hne : secs ≠ []) (x : K) :
    findSector secs x = .ok (-1) ∨
      ∃ i, ∃ hi : i < secs.length, findSector secs x = .ok (i : Int) ∧ secs[i].contains x = true := by
  have hl : 0 < secs.length := List.length_pos_iff.mpr hne
  exact findSectorLoop_total secs x secs.length 0 secs.length hl le_rfl (by omega)

/-- On an empty vector the very first access is out of range (the guard of C08 is needed). -/
theorem C08_find_sector_empty (x : K) : (findSector ([] : List (Sec K)) x).isUb = true := by
  simp [findSector, findSectorLoop, Outcome.isUb]

/-- Non-vacuity: a three-sector mesh over ℚ, looked up inside, on a boundary and outside. -/
def exMesh : List (Sec ℚ) := [⟨0, 1, .forward⟩, ⟨1, 5/2, .forward⟩, ⟨5/2, 3, .backward⟩]

theorem exMesh_isMesh : IsMesh exMesh 0 3 := by
  constructor
  · constructor
    · simp [exMesh, bounds]
    · simp [exMesh, bounds]
    · simp [exMesh, bounds]
    · intro i hi
      have : i + 1 < 3 := by simpa [exMesh, bounds] using hi
      have : i < 2 := by omega
      interval_cases i <;> exact .inl rfl
  · intro s hs
    simp only [exMesh, List.mem_cons, List.not_mem_nil, or_false] at hs
    rcases hs with rfl | rfl | rfl <;> norm_num

example : findSector exMesh 2 = .ok 1 ∧ findSector exMesh 3 = .ok 2 ∧ findSector exMesh 4 = .ok (-1) := by
  refine ⟨?_, ?_, ?_⟩ <;> decide +kernel

/-- Both builders return meshes in the sense of C08 (so its hypothesis is met by every problem
object): the uniform one ... -/
theorem uniform_isMesh {F : Type} [Field F] [LinearOrder F] [IsStrictOrderedRing F]
    (cmp : Sec F → Sec F → Bool) (n : Int) (hn : 1 ≤ n) (min max : F) (hlt : min < max)
    (r : BuildResult F) (hr : uniformBuild cmp n min max = .ok r) : IsMesh r.sectors min max := by
  obtain ⟨r', hr', _, ht, hp, _⟩ := C01_uniform_mesh cmp n hn min max hlt
  rw [hr] at hr'
  injection hr' with e
  subst e
  refine ⟨⟨ht.nonempty, ht.first, ht.last, fun i hi => .inl (ht.joined i hi)⟩, ?_⟩
  intro s hs
  have := hp (s.min, s.max) (List.mem_map.mpr ⟨s, hs, rfl⟩)
  simpa using this.le

/-- ... and the automatic one. -/
theorem automatic_isMesh {F : Type} [Field F] [LinearOrder F] [IsStrictOrderedRing F] [Archimedean F]
    (O : ErrOracle F) (hO : O.Lawful) (cmp : Sec F → Sec F → Bool) (jumps : List F) (min max : F)
    (hlt : min < max) (hJ : jumps.Pairwise (· < ·)) (hin : ∀ j ∈ jumps, min < j ∧ j < max) :
    ∃ fuel r, autoBuild fuel O cmp jumps min max = .ok r ∧ IsMesh r.sectors min max := by
  obtain ⟨f, r, h, hp, ht⟩ := C04_automatic_terminates O hO cmp jumps min max hlt hJ hin
  refine ⟨f, r, h f le_rfl, ⟨ht.nonempty, ht.first, ht.last, fun i hi => .inl (ht.joined i hi)⟩, ?_⟩
  intro s hs
  have := hp (s.min, s.max) (List.mem_map.mpr ⟨s, hs, rfl⟩)
  simpa using this.le

/-! ### C09, C54 -/

/-- `findSector` on an iterator range stays in the range. -/
theorem findRange_total (secs : List (Sec K)) (x : K) :
    ∀ (fuel a b : Nat), a ≤ b → b ≤ secs.length → b - a ≤ fuel + 1 →
      ∃ i, findRange secs x fuel a b = .ok i ∧ a ≤ i ∧ (i < b ∨ i = a) := by
  intro fuel
  induction fuel with
  | zero =>
    intro a b hab hb hf
    unfold findRange
    rw [if_neg (by omega)]
    exact ⟨a, rfl, le_rfl, .inr rfl⟩
  | succ fuel ih =>
    intro a b hab hb hf
    unfold findRange
    split
    · rename_i hgt
      have hc : a + (b - a) / 2 < secs.length := by omega
      simp only
      rw [List.getElem?_eq_getElem hc]
      simp only
      split
      · obtain ⟨i, h1, h2, h3⟩ := ih a (a + (b - a) / 2) (by omega) (by omega) (by omega)
        exact ⟨i, h1, h2, by omega⟩
      · obtain ⟨i, h1, h2, h3⟩ := ih (a + (b - a) / 2) b (by omega) hb (by omega)
        exact ⟨i, h1, by omega, by omega⟩
    · exact ⟨a, rfl, le_rfl, .inr rfl⟩

/-- If the range contains a sector holding `x`, then the sector found holds `x`. -/
theorem findRange_finds [IeeeOrd K] {secs : List (Sec K)} {dmin dmax : K}
    (h : IsMesh secs dmin dmax) (x : K) :
    ∀ (fuel a b : Nat), a < b → b ≤ secs.length → b - a ≤ fuel + 1 →
      (∃ i, ∃ hi : i < secs.length, a ≤ i ∧ i < b ∧ secs[i].contains x = true) →
      ∃ i, ∃ hi : i < secs.length, findRange secs x fuel a b = .ok i ∧ a ≤ i ∧ i < b ∧
        secs[i].contains x = true := by
  intro fuel
  induction fuel with
  | zero =>
    rintro a b hab hb hf ⟨i, hi, h1, h2, h3⟩
    have hia : i = a := by omega
    subst hia
    unfold findRange
    rw [if_neg (by omega)]
    exact ⟨i, hi, rfl, le_rfl, hab, h3⟩
  | succ fuel ih =>
    rintro a b hab hb hf ⟨i, hi, h1, h2, h3⟩
    have h3' := h3
    simp only [Sec.contains, Bool.and_eq_true] at h3'
    have hxx := IeeeOrd.le_left _ _ h3'.1
    unfold findRange
    split
    · rename_i hgt
      have hc : a + (b - a) / 2 < secs.length := by omega
      simp only
      rw [List.getElem?_eq_getElem hc]
      simp only
      split
      · rename_i hlt
        rw [IeeeOrd.lt_iff] at hlt
        have hic : i < a + (b - a) / 2 := by
          by_contra hge
          have := h.le_min (Nat.le_of_not_lt hge) hi
          have := IeeeOrd.trans _ _ _ this h3'.2
          rw [this] at hlt
          exact absurd hlt.2.2 (by simp)
        obtain ⟨j, hj, e, g1, g2, g3⟩ := ih a (a + (b - a) / 2) (by omega) (by omega) (by omega)
          ⟨i, hi, h1, hic, h3⟩
        exact ⟨j, hj, e, g1, by omega, g3⟩
      · rename_i hlt
        have hmin := IeeeOrd.le_left _ _ (h.ordered (secs[a + (b - a) / 2]) (List.getElem_mem _))
        have hmx : CCmp.le (secs[a + (b - a) / 2]).min x = true := by
          by_contra hn
          apply hlt
          rw [IeeeOrd.lt_iff]
          exact ⟨hxx, hmin, by simpa using hn⟩
        have hex : ∃ i, ∃ hi : i < secs.length, a + (b - a) / 2 ≤ i ∧ i < b ∧
            secs[i].contains x = true := by
          by_cases hge : a + (b - a) / 2 ≤ i
          · exact ⟨i, hi, hge, h2, h3⟩
          · refine ⟨a + (b - a) / 2, hc, le_rfl, by omega, ?_⟩
            have hle := IeeeOrd.trans _ _ _ h3'.1 (h.le_max (by omega : i ≤ a + (b - a) / 2) hc)
            simp [Sec.contains, hle, hmx]
        obtain ⟨j, hj, e, g1, g2, g3⟩ := ih (a + (b - a) / 2) b (by omega) hb (by omega) hex
        exact ⟨j, hj, e, by omega, g2, g3⟩
    · have hia : i = a := by omega
      subst hia
      exact ⟨i, hi, rfl, le_rfl, hab, h3⟩

section eval
variable {V Yv : Type} [Zero V]

/-- An eigenfunction object as the library builds it: a mesh of the domain and one stored value per
mesh point. -/
structure EigenObj.WF (f : EigenObj K V Yv) : Prop where
  mesh : IsMesh f.secs f.dmin f.dmax
  steps : f.steps.length = f.secs.length + 1

/-- Evaluating in an existing sector never reads outside the arrays. -/
theorem EigenObj.WF.evalIn_ok {f : EigenObj K V Yv} (h : f.WF) {i : Nat} (hi : i < f.secs.length)
    (x : K) : ∃ v, f.evalIn i x = .ok v := by
  have h1 : i < f.steps.length := by rw [h.steps]; omega
  have h2 : i + 1 < f.steps.length := by rw [h.steps]; omega
  unfold EigenObj.evalIn
  rw [List.getElem?_eq_getElem hi, List.getElem?_eq_getElem h1, List.getElem?_eq_getElem h2]
  simp only
  split
  · exact ⟨_, rfl⟩
  · exact ⟨_, rfl⟩

theorem inside_of_not_outside [IeeeOrd K] {f : EigenObj K V Yv} (h : f.WF) {x : K}
    (hx : CCmp.le x x = true) (ho : f.outside x = false) :
    domainContains f.dmin f.dmax x = true := by
  have hl := h.mesh.length_pos
  have hmn := IeeeOrd.le_left _ _ (h.mesh.ordered (f.secs[0]'hl) (List.getElem_mem _))
  have hmx := IeeeOrd.le_right _ _ (h.mesh.ordered (f.secs[f.secs.length - 1]'(by omega)) (List.getElem_mem _))
  rw [h.mesh.first] at hmn
  rw [h.mesh.last] at hmx
  simp only [EigenObj.outside, Bool.or_eq_false_iff] at ho
  simp only [domainContains, Bool.and_eq_true]
  constructor
  · by_contra hc
    have : CCmp.lt x f.dmin = true := (IeeeOrd.lt_iff _ _).mpr ⟨hx, hmn, by simpa using hc⟩
    rw [this] at ho; exact absurd ho.1 (by simp)
  · by_contra hc
    have : CCmp.lt f.dmax x = true := (IeeeOrd.lt_iff _ _).mpr ⟨hmx, hx, by simpa using hc⟩
    rw [this] at ho; exact absurd ho.2 (by simp)

/-- The specification both overloads are compared with: the value at `x` is zero outside the
domain, and otherwise the value of the piece of some sector that contains `x`. -/
def EigenObj.IsValueAt (f : EigenObj K V Yv) (x : K) (v : V) : Prop :=
  (domainContains f.dmin f.dmax x = false ∧ v = 0) ∨
  ∃ i, ∃ hi : i < f.secs.length, f.secs[i].contains x = true ∧ f.evalIn i x = .ok v

theorem outside_spec [IeeeOrd K] {f : EigenObj K V Yv} {x : K}
    (ho : f.outside x = true) : domainContains f.dmin f.dmax x = false := by
  simp only [EigenObj.outside, Bool.or_eq_true, IeeeOrd.lt_iff] at ho
  simp only [domainContains]
  rcases ho with ho | ho
  · simp [ho.2.2]
  · simp [ho.2.2]

theorem eval_value [IeeeOrd K] {f : EigenObj K V Yv} (h : f.WF) (x : K)
    (hx : CCmp.le x x = true) : ∃ v, f.eval x = .ok v ∧ f.IsValueAt x v := by
  unfold EigenObj.eval
  by_cases ho : f.outside x = true
  · exact ⟨0, by simp [ho], .inl ⟨outside_spec ho, rfl⟩⟩
  · have ho' : f.outside x = false := by simpa using ho
    have hin := inside_of_not_outside h hx ho'
    obtain ⟨i, hi, hc⟩ := h.mesh.exists_sector hin
    obtain ⟨j, hj, e, _, _, hcj⟩ := findRange_finds h.mesh x f.secs.length 0 f.secs.length
      h.mesh.length_pos le_rfl (by omega) ⟨i, hi, by omega, hi, hc⟩
    obtain ⟨v, hv⟩ := h.evalIn_ok hj x
    exact ⟨v, by simp [ho', e, hv], .inr ⟨j, hj, hcj, hv⟩⟩

theorem arrayStep_value [IeeeOrd K] {f : EigenObj K V Yv} (h : f.WF) (k : Nat)
    (hk : k < f.secs.length) (x : K) (hx : CCmp.le x x = true) :
    ∃ v k', f.arrayStep k x = .ok (v, k') ∧ k' < f.secs.length ∧ f.IsValueAt x v := by
  unfold EigenObj.arrayStep
  by_cases ho : f.outside x = true
  · exact ⟨0, k, by simp [ho], hk, .inl ⟨outside_spec ho, rfl⟩⟩
  · have ho' : f.outside x = false := by simpa using ho
    have hin := inside_of_not_outside h hx ho'
    obtain ⟨i, hi, hc⟩ := h.mesh.exists_sector hin
    have hc' := hc
    simp only [Sec.contains, Bool.and_eq_true] at hc'
    simp only [ho']
    rw [List.getElem?_eq_getElem hk]
    simp only
    have hord := h.mesh.ordered (f.secs[k]) (List.getElem_mem _)
    have fin : ∀ j (hj : j < f.secs.length), f.moveCursor k f.secs[k] x = .ok j →
        f.secs[j].contains x = true →
        ∃ v k', (do let k' ← f.moveCursor k f.secs[k] x; let v ← f.evalIn k' x; pure (v, k') :
            Outcome (V × Nat)) = .ok (v, k') ∧ k' < f.secs.length ∧ f.IsValueAt x v := by
      intro j hj e hcj
      obtain ⟨v, hv⟩ := h.evalIn_ok hj x
      exact ⟨v, j, by simp [e, hv], hj, .inr ⟨j, hj, hcj, hv⟩⟩
    by_cases h1 : CCmp.lt x f.secs[k].min = true
    · have hlt := (IeeeOrd.lt_iff _ _).mp h1
      have hik : i < k := by
        by_contra hge
        have := IeeeOrd.trans _ _ _ (h.mesh.le_min (Nat.le_of_not_lt hge) hi) hc'.2
        rw [this] at hlt
        exact absurd hlt.2.2 (by simp)
      obtain ⟨j, hj, e, _, _, hcj⟩ := findRange_finds h.mesh x f.secs.length 0 k
        (by omega) (by omega) (by omega) ⟨i, hi, by omega, hik, hc⟩
      exact fin j hj (by simp only [EigenObj.moveCursor, h1, if_true, e]) hcj
    · by_cases h2 : CCmp.lt f.secs[k].max x = true
      · have hlt := (IeeeOrd.lt_iff _ _).mp h2
        have hik : k < i := by
          by_contra hge
          have := IeeeOrd.trans _ _ _ hc'.1 (h.mesh.le_max (Nat.le_of_not_lt hge) hk)
          rw [this] at hlt
          exact absurd hlt.2.2 (by simp)
        obtain ⟨j, hj, e, _, _, hcj⟩ := findRange_finds h.mesh x f.secs.length (k + 1) f.secs.length
          (by omega) (by omega) (by omega) ⟨i, hi, by omega, hi, hc⟩
        exact fin j hj (by simp only [EigenObj.moveCursor, h1, h2, if_true, e]; simp) hcj
      · apply fin k hk
        · simp [EigenObj.moveCursor, h1, h2]
        · simp only [Sec.contains, Bool.and_eq_true]
          constructor
          · by_contra hn
            exact h2 ((IeeeOrd.lt_iff _ _).mpr ⟨IeeeOrd.le_right _ _ hord, hx, by simpa using hn⟩)
          · by_contra hn
            exact h1 ((IeeeOrd.lt_iff _ _).mpr ⟨hx, IeeeOrd.le_left _ _ hord, by simpa using hn⟩)

/-- **C09**: for every mesh and every list of (non-NaN) points in any order, the array overload
returns one value per point without reading outside the arrays, and the value returned for each
point is a value of the eigenfunction there — exactly the specification the scalar overload
satisfies. The only freedom is which sector is used at a shared boundary point. -/
theorem C09_array_evaluation [IeeeOrd K] {f : EigenObj K V Yv} (h : f.WF) (xs : List K)
    (hxs : ∀ x ∈ xs, CCmp.le x x = true) :
    (∃ vs, f.evalArray xs = .ok vs ∧ List.Forall₂ f.IsValueAt xs vs) ∧
    (∀ x ∈ xs, ∃ v, f.eval x = .ok v ∧ f.IsValueAt x v) := by
  refine ⟨?_, fun x hx => eval_value h x (hxs x hx)⟩
  unfold EigenObj.evalArray
  have : ∀ (xs : List K) (k : Nat), k < f.secs.length → (∀ x ∈ xs, CCmp.le x x = true) →
      ∃ vs, f.arrayLoop k xs = .ok vs ∧ List.Forall₂ f.IsValueAt xs vs := by
    intro xs
    induction xs with
    | nil => intro k _ _; exact ⟨[], rfl, .nil⟩
    | cons x xs ih =>
      intro k hk hx
      obtain ⟨v, k', e, hk', hv⟩ := arrayStep_value h k hk x (hx x (by simp))
      obtain ⟨vs, e2, hvs⟩ := ih k' hk' (fun y hy => hx y (by simp [hy]))
      exact ⟨v :: vs, by simp [EigenObj.arrayLoop, e, e2], .cons hv hvs⟩
  exact this xs 0 h.mesh.length_pos hxs

/-- The eigenfunction object is single valued: two sectors containing the same point give the same
value there (that is continuity at the mesh points, see C55). -/
def EigenObj.SingleValued (f : EigenObj K V Yv) : Prop :=
  ∀ x i j, ∀ hi : i < f.secs.length, ∀ hj : j < f.secs.length,
    f.secs[i].contains x = true → f.secs[j].contains x = true → f.evalIn i x = f.evalIn j x

/-- **C09**, as an equation: if the pieces agree at shared boundary points, evaluating an array is
the same as evaluating each entry, whatever the order of the points. -/
theorem C09_array_equals_pointwise [IeeeOrd K] {f : EigenObj K V Yv} (h : f.WF)
    (hsv : f.SingleValued) (xs : List K) (hxs : ∀ x ∈ xs, CCmp.le x x = true) :
    ∃ vs, f.evalArray xs = .ok vs ∧ vs.length = xs.length ∧
      ∀ (i : Nat) (hi : i < xs.length) (hi' : i < vs.length), f.eval xs[i] = .ok vs[i] := by
  obtain ⟨⟨vs, e, hvs⟩, _⟩ := C09_array_evaluation h xs hxs
  have hlen := hvs.length_eq
  refine ⟨vs, e, hlen.symm, ?_⟩
  intro i hi hi'
  have hv : f.IsValueAt xs[i] vs[i] := by
    have := List.forall₂_iff_get.mp hvs
    exact this.2 i hi hi'
  obtain ⟨w, ew, hw⟩ := eval_value h xs[i] (hxs _ (List.getElem_mem _))
  rw [ew]
  congr 1
  rcases hv with ⟨h1, h2⟩ | ⟨p, hp, h1, h2⟩ <;> rcases hw with ⟨g1, g2⟩ | ⟨q, hq, g1, g2⟩
  · rw [g2, h2]
  · rw [h.mesh.sector_in_domain hq g1] at h1; exact absurd h1 (by simp)
  · rw [h.mesh.sector_in_domain hp h1] at g1; exact absurd g1 (by simp)
  · have := hsv _ p q hp hq h1 g1
    rw [h2, g2] at this
    injection this with this
    exact this.symm

/-- **C09**, memory safety including NaN entries: no law about comparisons is used at all, only that
the last sector ends at `domain.max`. -/
theorem C09_array_safe {f : EigenObj K V Yv} (hne : f.secs ≠ [])
    (hlast : ∀ s, f.secs.getLast? = some s → s.max = f.dmax)
    (hsteps : f.steps.length = f.secs.length + 1) (xs : List K) :
    (f.evalArray xs).isOk = true ∧ ∀ x, (f.eval x).isOk = true := by
  have hl : 0 < f.secs.length := List.length_pos_iff.mpr hne
  have hin : ∀ i (_ : i < f.secs.length) x, ∃ v, f.evalIn i x = .ok v := by
    intro i hi x
    have h1 : i < f.steps.length := by omega
    have h2 : i + 1 < f.steps.length := by omega
    unfold EigenObj.evalIn
    rw [List.getElem?_eq_getElem hi, List.getElem?_eq_getElem h1, List.getElem?_eq_getElem h2]
    simp only
    split <;> exact ⟨_, rfl⟩
  have hstep : ∀ k (hk : k < f.secs.length) x, ∃ v k', f.arrayStep k x = .ok (v, k') ∧
      k' < f.secs.length := by
    intro k hk x
    unfold EigenObj.arrayStep
    by_cases ho : f.outside x = true
    · exact ⟨0, k, by simp [ho], hk⟩
    · have ho' : f.outside x = false := by simpa using ho
      simp only [ho']
      rw [List.getElem?_eq_getElem hk]
      simp only [EigenObj.outside, Bool.or_eq_false_iff] at ho'
      have hmove : ∃ j, f.moveCursor k f.secs[k] x = .ok j ∧ j < f.secs.length := by
        unfold EigenObj.moveCursor
        by_cases h1 : CCmp.lt x f.secs[k].min = true
        · simp only [h1, if_true]
          obtain ⟨j, e, _, h3⟩ := findRange_total f.secs x f.secs.length 0 k (by omega) (by omega)
            (by omega)
          exact ⟨j, e, by omega⟩
        · by_cases h2 : CCmp.lt f.secs[k].max x = true
          · simp only [h1, h2, if_true]
            obtain ⟨j, e, h3, h4⟩ := findRange_total f.secs x f.secs.length (k + 1) f.secs.length
              (by omega) le_rfl (by omega)
            refine ⟨j, by simp [e], ?_⟩
            rcases h4 with h4 | h4
            · exact h4
            · -- k + 1 = length would mean the last sector ends before x
              by_contra hge
              have hk' : k = f.secs.length - 1 := by omega
              have := hlast f.secs[k] (by
                rw [List.getLast?_eq_getElem?, ← hk', List.getElem?_eq_getElem hk])
              rw [this, ho'.2] at h2
              exact absurd h2 (by simp)
          · exact ⟨k, by simp [h1, h2], hk⟩
      obtain ⟨j, e, hj⟩ := hmove
      obtain ⟨v, hv⟩ := hin j hj x
      exact ⟨v, j, by simp [e, hv], hj⟩
  constructor
  · unfold EigenObj.evalArray
    have : ∀ (xs : List K) (k : Nat), k < f.secs.length → ∃ vs, f.arrayLoop k xs = .ok vs := by
      intro xs
      induction xs with
      | nil => intro k _; exact ⟨[], rfl⟩
      | cons x xs ih =>
        intro k hk
        obtain ⟨v, k', e, hk'⟩ := hstep k hk x
        obtain ⟨vs, e2⟩ := ih k' hk'
        exact ⟨v :: vs, by simp [EigenObj.arrayLoop, e, e2]⟩
    obtain ⟨vs, e⟩ := this xs 0 hl
    rw [e]; rfl
  · intro x
    unfold EigenObj.eval
    by_cases ho : f.outside x = true
    · simp [ho, Outcome.isOk]
    · obtain ⟨j, e, _, h3⟩ := findRange_total f.secs x f.secs.length 0 f.secs.length (by omega)
        le_rfl (by omega)
      obtain ⟨v, hv⟩ := hin j (by omega) x
      simp [ho, e, hv, Outcome.isOk]

/-- **C54**: both overloads return zero for every (non-NaN) point outside `[min, max]`, and do so
without touching any sector: the result is the same for every mesh and every stored value. -/
theorem C54_zero_outside_domain [IeeeOrd K] (f : EigenObj K V Yv) (x : K)
    (hx : CCmp.le x x = true) (hmin : CCmp.le f.dmin f.dmin = true)
    (hmax : CCmp.le f.dmax f.dmax = true)
    (hout : domainContains f.dmin f.dmax x = false) :
    f.eval x = .ok 0 ∧ ∀ k, f.arrayStep k x = .ok (0, k) := by
  have ho : f.outside x = true := by
    simp only [EigenObj.outside, Bool.or_eq_true, IeeeOrd.lt_iff]
    simp only [domainContains, Bool.and_eq_false_iff] at hout
    rcases hout with h | h
    · exact .inl ⟨hx, hmin, h⟩
    · exact .inr ⟨hmax, hx, h⟩
  exact ⟨by simp [EigenObj.eval, ho], fun k => by simp [EigenObj.arrayStep, ho]⟩

/-- **C54** for a whole array of outside points. -/
theorem C54_zero_outside_domain_array [IeeeOrd K] (f : EigenObj K V Yv) (xs : List K)
    (hx : ∀ x ∈ xs, CCmp.le x x = true ∧ domainContains f.dmin f.dmax x = false)
    (hmin : CCmp.le f.dmin f.dmin = true) (hmax : CCmp.le f.dmax f.dmax = true) :
    f.evalArray xs = .ok (xs.map fun _ => 0) := by
  unfold EigenObj.evalArray
  generalize 0 = k
  induction xs generalizing k with
  | nil => rfl
  | cons x xs ih =>
    have h1 := (C54_zero_outside_domain f x (hx x (by simp)).1 hmin hmax (hx x (by simp)).2).2 k
    simp [EigenObj.arrayLoop, h1, ih (fun y hy => hx y (by simp [hy])) k]

end eval

/-- Non-vacuity: an eigenfunction object on `exMesh`; points are out of order, on boundaries and
outside. -/
def exObj : EigenObj ℚ ℚ ℚ := ⟨exMesh, 0, 3, [1, 2, 3, 4], fun _ y a x => y + (x - a)⟩

theorem exObj_wf : exObj.WF := ⟨exMesh_isMesh, rfl⟩

example : exObj.evalArray [2, 1/2, 7, 3, 0] = .ok [3, 3/2, 0, 4, 1] := by decide +kernel

end Verif.Mesh
