import Verif.Model.Bindings
import Verif.Props.MeshUniform
import Verif.Props.MeshAuto
import Verif.Props.Lookup
import Mathlib.Data.List.Sort

/-!
# Binding arguments: C60, C61, C68
-/
namespace Verif.Bindings
open Verif.Mesh Verif.Spec

/-! ## C61 -/

/-- **C61.** For every scalar type (doubles and NaN jumps included): the jump list handed to the mesh builder consists of exactly the user's
jumps strictly inside the domain, with the same multiplicities. -/
theorem C61_jumps_are_the_inner_ones {K : Type} [CCmp K] [BEq K] [LawfulBEq K] (xmin xmax : K) (jumps : List K) :
    (∀ j, j ∈ pyJumps xmin xmax jumps ↔ j ∈ jumps ∧ CCmp.lt xmin j = true ∧ CCmp.lt j xmax = true) ∧
    ∀ j, CCmp.lt xmin j = true → CCmp.lt j xmax = true → (pyJumps xmin xmax jumps).count j = jumps.count j := by
  have hp := List.mergeSort_perm (jumps.filter (fun j => CCmp.lt xmin j && CCmp.lt j xmax)) (fun a b => !(CCmp.lt b a))
  constructor
  · intro j
    unfold pyJumps
    rw [hp.mem_iff, List.mem_filter, Bool.and_eq_true]
  · intro j h1 h2
    unfold pyJumps
    rw [hp.count_eq, List.count_filter]
    simp [h1, h2]

/-- **C61.** The list is sorted. -/
theorem C61_jumps_sorted {K : Type} [Field K] [LinearOrder K] (xmin xmax : K) (jumps : List K) :
    (pyJumps xmin xmax jumps).Pairwise (· ≤ ·) := by
  unfold pyJumps
  have := List.pairwise_mergeSort (le := fun a b : K => !(CCmp.lt b a))
    (fun a b c h1 h2 => by simp only [ccmp_lt, Bool.not_eq_true', decide_eq_false_iff_not, not_lt] at *; exact h1.trans h2)
    (fun a b => by simp only [ccmp_lt, Bool.or_eq_true, Bool.not_eq_true', decide_eq_false_iff_not, not_lt]; exact le_total a b)
    (jumps.filter (fun j => CCmp.lt xmin j && CCmp.lt j xmax))
  simpa using this

/-- **C61**, end to end: with distinct jumps in any order, some possibly outside the domain, the mesh built by the Python constructor is complete,
has only sectors of positive width, tiles the domain, and every inner jump is a sector boundary. -/
theorem C61_python_mesh {K : Type} [Field K] [LinearOrder K] [IsStrictOrderedRing K] [Archimedean K] (O : K → ErrOracle K) (tolerance : K) (hO : (O tolerance).Lawful)
    (cmp : Sec K → Sec K → Bool) (xmin xmax : K) (hlt : xmin < xmax) (jumps : List K) (hnd : jumps.Nodup) :
    ∃ fuel₀ r, (∀ fuel, fuel₀ ≤ fuel → (pysliseBuilder xmin xmax tolerance jumps).run fuel O cmp xmin xmax = .ok r) ∧
      PositiveWidths (bounds r.sectors) ∧ IsTiling (· = ·) (bounds r.sectors) xmin xmax ∧
      ∀ j ∈ jumps, xmin < j → j < xmax → IsBoundary (bounds r.sectors) j := by
  have hmem := (C61_jumps_are_the_inner_ones xmin xmax jumps).1
  have hJ : (pyJumps xmin xmax jumps).Pairwise (· < ·) := by
    have h1 := C61_jumps_sorted xmin xmax jumps
    have h2 : (pyJumps xmin xmax jumps).Nodup := by
      unfold pyJumps
      rw [(List.mergeSort_perm _ _).nodup_iff]
      exact hnd.filter _
    exact (h1.and h2).imp (fun h => lt_of_le_of_ne h.1 h.2)
  have hin : ∀ j ∈ pyJumps xmin xmax jumps, xmin < j ∧ j < xmax := by
    intro j hj
    have := (hmem j).mp hj
    simpa using this.2
  obtain ⟨f1, r1, h1, hp, ht⟩ := C04_automatic_terminates (O tolerance) hO cmp _ xmin xmax hlt hJ hin
  refine ⟨f1, r1, fun fuel hf => h1 fuel hf, hp, ht, ?_⟩
  intro j hj hj1 hj2
  exact (C05_no_sector_straddles_a_jump (O tolerance) hO cmp _ xmin xmax hlt hJ hin f1 r1 (h1 f1 le_rfl) j
    ((hmem j).mpr ⟨hj, by simpa using hj1, by simpa using hj2⟩)).1

/-- Non-vacuity: jumps in the wrong order, two of them outside. -/
example : pyJumps (0 : ℚ) 3 [2, -1, 1/2, 3] = [1/2, 2] := by
  simp only [pyJumps, List.filter, ccmp_lt]
  norm_num [List.mergeSort, List.merge, List.MergeSort.Internal.splitInTwo, List.splitAt, List.splitAt.go]
example : ∃ fuel₀ r, (∀ fuel, fuel₀ ≤ fuel → (pysliseBuilder (0 : ℚ) 3 (1/100) [2, -1, 1/2, 3]).run fuel (fun _ => acceptAll) (fun _ _ => true) 0 3 = .ok r) ∧
      PositiveWidths (bounds r.sectors) ∧ IsTiling (· = ·) (bounds r.sectors) 0 3 ∧ ∀ j ∈ [2, -1, (1/2 : ℚ), 3], 0 < j → j < 3 → IsBoundary (bounds r.sectors) j :=
  C61_python_mesh (fun _ => acceptAll) (1/100) ⟨by simp [acceptAll], by simp [acceptAll]⟩ _ 0 3 (by norm_num) _ (by decide +kernel)

/-! ## C60 -/

section c60
variable {K : Type} [CCmp K]

/-- **C60.** Exactly what the argument checks accept, for every scalar type (a NaN tolerance compares false to everything): a call is refused iff
both or neither argument is set, or steps are combined with jumps; an accepted call uses the automatic builder iff `tolerance >= 0`. -/
theorem C60_checks (xmin xmax : K) (steps : Int) (tolerance : K) (jumps : List K) :
    ((pyscsBuilder xmin xmax steps tolerance jumps).isThrow = true ↔
      (steps ≠ -1 ∧ CCmp.eq tolerance (CCmp.lit (-1)) = false) ∨ (steps = -1 ∧ CCmp.eq tolerance (CCmp.lit (-1)) = true) ∨ (steps ≠ -1 ∧ jumps ≠ [])) ∧
    ((pyscsBuilder xmin xmax steps tolerance jumps).isThrow = false →
      pyscsBuilder xmin xmax steps tolerance jumps =
        .ok (if CCmp.le (CCmp.lit 0) tolerance then .automatic tolerance (pyJumps xmin xmax jumps) else .uniform steps)) := by
  unfold pyscsBuilder
  by_cases h1 : steps ≠ -1 ∧ CCmp.eq tolerance (CCmp.lit (-1)) = false
  · simp [h1, Outcome.isThrow]
  · by_cases h2 : steps = -1 ∧ CCmp.eq tolerance (CCmp.lit (-1)) = true
    · simp [h2, Outcome.isThrow]
    · by_cases h3 : steps ≠ -1 ∧ jumps ≠ []
      · rw [if_neg h1, if_neg h2, if_pos h3]
        simp [Outcome.isThrow]
        exact Or.inr (Or.inr (by simpa using h3))
      · rw [if_neg h1, if_neg h2, if_neg h3]
        constructor
        · constructor
          · intro h
            split at h <;> simp [Outcome.isThrow] at h
          · rintro (h | h | h)
            · exact absurd h h1
            · exact absurd h h2
            · exact absurd h h3
        · intro _
          split <;> rfl

end c60

section c60e
variable {K : Type} [Field K] [LinearOrder K] [IsStrictOrderedRing K]

/-- **C60 (negation).** The checks let unusable requests through. For every domain: a negative tolerance other than -1 builds a uniform mesh of -1 sectors, which fails with
`std::length_error` from deep inside; zero steps read the first element of an empty vector (undefined behaviour); other negative step counts
fail like the first. -/
theorem C60_fails (xmin xmax : K) (fuel : Nat) (O : K → ErrOracle K) (cmp : Sec K → Sec K → Bool) :
    (∀ tolerance : K, tolerance < 0 → tolerance ≠ -1 → ∀ jumps, pyscsBuilder xmin xmax (-1) tolerance jumps = .ok (.uniform (-1)) ∧
      ((Builder.uniform (-1) : Builder K).run fuel O cmp xmin xmax).isThrow = true) ∧
    (pyscsBuilder xmin xmax 0 (-1) [] = .ok (.uniform 0) ∧ ((Builder.uniform 0 : Builder K).run fuel O cmp xmin xmax).isUb = true) := by
  refine ⟨fun tolerance h1 h2 jumps => ⟨?_, ?_⟩, ?_, ?_⟩
  · have h3 : ¬ (0 ≤ tolerance) := not_le.mpr h1
    simp [pyscsBuilder, h2, h3]
  · exact ((C01_uniform_mesh_guard cmp (-1) xmin xmax).2.2).mpr (by norm_num)
  · simp [pyscsBuilder]
  · exact ((C01_uniform_mesh_guard cmp 0 xmin xmax).2.1).mpr rfl

/-- **C60 (partial).** With sensible arguments (a positive step count alone, or a non-negative tolerance alone) the constructor chooses the builder meant,
and the uniform mesh is complete. Missing for the full property: the other requests are not all refused (`C60_fails`). -/
theorem C60_sensible_partial (xmin xmax : K) (hlt : xmin < xmax) (fuel : Nat) (O : K → ErrOracle K) (cmp : Sec K → Sec K → Bool) :
    (∀ steps : Int, 1 ≤ steps → pyscsBuilder xmin xmax steps (-1) [] = .ok (.uniform steps) ∧
      ∃ r, (Builder.uniform steps : Builder K).run fuel O cmp xmin xmax = .ok r ∧ r.sectors.length = steps.toNat ∧ IsTiling (· = ·) (bounds r.sectors) xmin xmax) ∧
    (∀ tolerance : K, 0 ≤ tolerance → ∀ jumps, pyscsBuilder xmin xmax (-1) tolerance jumps = .ok (.automatic tolerance (pyJumps xmin xmax jumps))) := by
  refine ⟨fun steps hs => ⟨?_, ?_⟩, fun tolerance h jumps => ?_⟩
  · have : steps ≠ -1 := by omega
    simp [pyscsBuilder, this]
  · obtain ⟨r, h1, h2, h3, -⟩ := C01_uniform_mesh cmp steps hs xmin xmax hlt
    exact ⟨r, h1, h2, h3⟩
  · have h2 : tolerance ≠ -1 := by intro h2; rw [h2] at h; linarith
    simp [pyscsBuilder, h2, h]

end c60e

/-- Non-vacuity: an accepted call of each kind and a wrongly accepted one. -/
example : pyscsBuilder (0 : ℚ) 1 10 (-1) [] = .ok (.uniform 10) ∧ pyscsBuilder (0 : ℚ) 1 (-1) (1/100) [3/4, 1/2] = .ok (.automatic (1/100) (pyJumps 0 1 [3/4, 1/2])) ∧
    pyscsBuilder (0 : ℚ) 1 (-1) (-1/100) [] = .ok (.uniform (-1)) ∧ (pyscsBuilder (0 : ℚ) 1 10 (1/100) []).isThrow = true := by
  refine ⟨by decide +kernel, ?_, by decide +kernel, by decide +kernel⟩
  exact (C60_sensible_partial (0 : ℚ) 1 (by norm_num) 0 (fun _ => acceptAll) (fun _ _ => true)).2 (1/100) (by norm_num) _

/-! ## C68 -/

theorem sectorPoints_eq {K : Type} [CCmp K] (secs : List (Sec K)) : sectorPoints secs = secs.tail.map Sec.min := by
  unfold sectorPoints
  cases secs with
  | nil => rfl
  | cons s l =>
    simp only [List.length_cons, Nat.add_sub_cancel, List.tail_cons]
    apply List.ext_getElem?
    intro i
    have : (List.range' 1 l.length).filterMap (fun i => (s :: l)[i]?.map Sec.min) = (List.range' 1 l.length).map (fun i => ((s :: l)[i]?.map Sec.min).getD s.min) := by
      rw [← List.filterMap_eq_map]
      apply List.filterMap_congr
      intro k hk
      rw [List.mem_range'_1] at hk
      have hk' : k < (s :: l).length := by simp; omega
      simp [List.getElem?_eq_getElem hk']
    rw [this]
    by_cases hi : i < l.length
    · rw [List.getElem?_map, List.getElem?_range' hi, List.getElem?_map, List.getElem?_eq_getElem hi]
      simp [show 1 + i = i + 1 by omega, List.getElem?_eq_getElem hi]
    · rw [List.getElem?_eq_none (by simpa using hi), List.getElem?_eq_none (by simpa using hi)]

/-- **C68.** For every mesh of sectors with positive width that tiles `[xmin, xmax]`: `sectorPoints` has one entry less than there are sectors, its entries
increase strictly, and a number is among them iff it is a sector boundary strictly inside the domain. -/
theorem C68_sector_points {K : Type} [Field K] [LinearOrder K] [IsStrictOrderedRing K] {secs : List (Sec K)} {xmin xmax : K}
    (ht : IsTiling (· = ·) (bounds secs) xmin xmax) (hw : PositiveWidths (bounds secs)) :
    (sectorPoints secs).length + 1 = secs.length ∧ (sectorPoints secs).Pairwise (· < ·) ∧
    ∀ x, x ∈ sectorPoints secs ↔ IsBoundary (bounds secs) x ∧ xmin < x ∧ x < xmax := by
  rw [sectorPoints_eq]
  have hne : secs ≠ [] := by intro h; exact ht.nonempty (by simp [h, bounds])
  have hlen : (bounds secs).length = secs.length := by simp [bounds]
  have hpos : 0 < secs.length := List.length_pos_iff.mpr hne
  have hb : ∀ i (h : i < secs.length), (bounds secs)[i]'(by rw [hlen]; exact h) = (secs[i].min, secs[i].max) := by intro i h; simp [bounds]
  have hw' : ∀ i (h : i < secs.length), secs[i].min < secs[i].max := by
    intro i h
    exact hw (secs[i].min, secs[i].max) (by simp only [bounds, List.mem_map]; exact ⟨secs[i], List.getElem_mem h, rfl⟩)
  have hj : ∀ i (h : i + 1 < secs.length), (secs[i]'(by omega)).max = secs[i + 1].min := by
    intro i h
    have := ht.joined i (by rw [hlen]; exact h)
    rwa [hb i (by omega), hb (i + 1) h] at this
  have hfirst : (secs[0]'hpos).min = xmin := by
    have := ht.first ((secs[0]'hpos).min, (secs[0]'hpos).max) (by
      rw [List.head?_eq_getElem?, List.getElem?_eq_getElem (by rw [hlen]; exact hpos), hb 0 hpos])
    exact this
  have hlast : (secs[secs.length - 1]'(by omega)).max = xmax := by
    have := ht.last ((secs[secs.length - 1]'(by omega)).min, (secs[secs.length - 1]'(by omega)).max) (by
      rw [List.getLast?_eq_getElem?, hlen, List.getElem?_eq_getElem (by rw [hlen]; omega), hb _ (by omega)])
    exact this
  have hmono : ∀ d i (h : i + d < secs.length), (secs[i]'(by omega)).min ≤ secs[i + d].min ∧ (0 < d → (secs[i]'(by omega)).max ≤ secs[i + d].min) := by
    intro d
    induction d with
    | zero => intro i h; exact ⟨le_rfl, fun h => absurd h (by omega)⟩
    | succ d ih =>
      intro i h
      have h1 := ih i (by omega)
      have h2 := hj (i + d) (by omega)
      have h3 := hw' (i + d) (by omega)
      have h4 := hw' i (by omega)
      have h5 : (secs[i]'(by omega)).max ≤ secs[i + (d + 1)].min := by
        rcases Nat.eq_zero_or_pos d with hd | hd
        · subst hd
          exact h2.le
        · have := h1.2 hd
          have h6 : (secs[i + d]'(by omega)).max = secs[i + (d + 1)].min := h2
          linarith
      exact ⟨by linarith, fun _ => h5⟩
  have hmem : ∀ x, x ∈ secs.tail.map Sec.min ↔ ∃ i, ∃ h : i + 1 < secs.length, secs[i + 1].min = x := by
    intro x
    rw [List.mem_map]
    constructor
    · rintro ⟨s, hs, rfl⟩
      obtain ⟨i, hi, rfl⟩ := List.getElem_of_mem hs
      rw [List.length_tail] at hi
      exact ⟨i, by omega, by simp⟩
    · rintro ⟨i, h, rfl⟩
      exact ⟨secs[i + 1], by
        have : secs[i + 1] = secs.tail[i]'(by simp; omega) := by simp
        rw [this]; exact List.getElem_mem _, rfl⟩
  refine ⟨by simp; omega, ?_, ?_⟩
  · rw [List.pairwise_iff_getElem]
    intro i j hi hj' hij
    simp only [List.getElem_map, List.getElem_tail]
    simp only [List.length_map, List.length_tail] at hi hj'
    have h1 := hmono (j - i) (i + 1) (by omega)
    have h2 := hw' (i + 1) (by omega)
    have h3 := h1.2 (by omega)
    have e : i + 1 + (j - i) = j + 1 := by omega
    simp only [e] at h3
    linarith
  · intro x
    rw [hmem]
    constructor
    · rintro ⟨i, h, rfl⟩
      refine ⟨⟨(secs[i + 1].min, secs[i + 1].max), ?_, Or.inl rfl⟩, ?_, ?_⟩
      · simp only [bounds, List.mem_map]; exact ⟨secs[i + 1], List.getElem_mem h, rfl⟩
      · have h1 := (hmono (i + 1) 0 (by omega)).2 (by omega)
        have e : 0 + (i + 1) = i + 1 := by omega
        simp only [e] at h1
        have h2 := hw' 0 hpos
        linarith
      · have h1 := (hmono (secs.length - 1 - (i + 1)) (i + 1) (by omega)).1
        have e : i + 1 + (secs.length - 1 - (i + 1)) = secs.length - 1 := by omega
        simp only [e] at h1
        have h2 := hw' (secs.length - 1) (by omega)
        linarith
    · rintro ⟨⟨p, hp, hpx⟩, hx1, hx2⟩
      simp only [bounds, List.mem_map] at hp
      obtain ⟨s, hs, rfl⟩ := hp
      obtain ⟨i, hi, rfl⟩ := List.getElem_of_mem hs
      rcases hpx with h | h
      · rcases i with _ | i
        · have h : (secs[0]'hpos).min = x := h
          rw [hfirst] at h
          exact absurd h (ne_of_lt hx1)
        · exact ⟨i, hi, h⟩
      · have h : secs[i].max = x := h
        by_cases hil : i + 1 < secs.length
        · exact ⟨i, hil, by rw [← hj i hil]; exact h⟩
        · have e : i = secs.length - 1 := by omega
          subst e
          rw [hlast] at h
          exact absurd h (ne_of_gt hx2)

/-- **C68** for the half-range problem: the points listed are those of the inner problem on `[0, xmax]`; the mirrored negative ones and 0 are not listed. -/
theorem C68_half_range_points {K : Type} [Field K] [LinearOrder K] [IsStrictOrderedRing K] {inner : List (Sec K)} {xmax : K}
    (ht : IsTiling (· = ·) (bounds inner) 0 xmax) (hw : PositiveWidths (bounds inner)) :
    ∀ x, x ∈ sectorPointsHalf inner ↔ IsBoundary (bounds inner) x ∧ 0 < x ∧ x < xmax :=
  (C68_sector_points ht hw).2.2

/-- Non-vacuity: the three-sector mesh of `Verif.Props.Lookup`. -/
example : sectorPoints exMesh = [1, 5/2] ∧ IsTiling (· = ·) (bounds exMesh) 0 3 ∧ PositiveWidths (bounds exMesh) := by
  refine ⟨by decide +kernel, ⟨by simp [exMesh, bounds], by simp [exMesh, bounds], by simp [exMesh, bounds], ?_⟩, ?_⟩
  · intro i hi
    simp [exMesh, bounds] at hi
    have : i = 0 ∨ i = 1 := by omega
    rcases this with rfl | rfl <;> simp [exMesh, bounds]
  · intro p hp
    simp only [exMesh, bounds, List.map_cons, List.map_nil, List.mem_cons, List.not_mem_nil, or_false] at hp
    rcases hp with rfl | rfl | rfl <;> norm_num

end Verif.Bindings
