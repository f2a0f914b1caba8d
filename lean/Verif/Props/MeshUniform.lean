import Verif.Lemmas.Mesh

/-!
# C01, C02 for `UniformSectorBuilder`
-/
namespace Verif.Mesh
open Verif.Spec

section anyArithmetic
variable {K : Type u} [Add K] [Sub K] [Mul K] [Div K] [CCmp K]

/-- **C01**, for arbitrary arithmetic (floating point included): the uniform builder with `n ≥ 1`
sectors returns normally for every comparison oracle, with exactly `n` sectors that tile
`[min, max]`. The only law used is `1 * x = x`, which IEEE arithmetic satisfies. -/
theorem C01_uniform_mesh_any_arithmetic (hone : ∀ x : K, CCmp.lit 1 * x = x)
    (cmp : Sec K → Sec K → Bool) (n : Int) (hn : 1 ≤ n) (min max : K) :
    ∃ r, uniformBuild cmp n min max = .ok r ∧ r.sectors.length = n.toNat ∧
      IsTiling (· = ·) (bounds r.sectors) min max := by
  by_cases h1 : n = 1
  · subst h1
    refine ⟨⟨[⟨min, max, .forward⟩], 0⟩, by simp [uniformBuild], by simp, ?_⟩
    constructor <;> simp [bounds]
  · obtain ⟨m, hm, hr⟩ := uniformBuild_closed cmp n (by omega) min max
    refine ⟨_, hr, by simp, ?_⟩
    set h : K := (max - min) / CCmp.lit n with hh
    set c := n.toNat with hc
    obtain ⟨c', hc'⟩ : ∃ c', c = c' + 2 := ⟨c - 2, by omega⟩
    constructor
    · simp [bounds, hc']
    · intro p hp
      simp only [bounds, List.map_map] at hp
      rw [hc', List.range_succ_eq_map] at hp
      simp [uF] at hp
      rw [← hp]
    · intro p hp
      simp only [bounds, List.map_map, hc'] at hp
      rw [List.range_succ] at hp
      have : ¬ c' + 1 ≤ m := by omega
      simp [uB, this] at hp
      rw [← hp]
    · intro i hi
      simp only [bounds, List.length_map, List.length_range] at hi
      simp only [bounds, List.getElem_map, List.getElem_range]
      -- right end of sector i
      have hr' : (if i ≤ m then uF min h i else uB min max h c i).max
          = min + CCmp.lit ((i + 1 : Nat)) * h := by
        by_cases him : i ≤ m
        · by_cases h0 : i = 0
          · subst h0; simp [uF, hone]
          · simp [him, uF, h0]
        · have : i + 1 ≠ c := by omega
          simp [him, uB, this]
      have hl : (if i + 1 ≤ m then uF min h (i + 1) else uB min max h c (i + 1)).min
          = min + CCmp.lit ((i + 1 : Nat)) * h := by
        by_cases him : i + 1 ≤ m
        · simp [him, uF]
        · by_cases hlast : i + 1 + 1 = c
          · have : c - 1 = i + 1 := by omega
            simp [him, uB, hlast, this]
          · simp [him, uB, hlast]
      exact hr'.trans hl.symm

/-- **C02** for the uniform builder: the sectors `0 .. matchIndex` are forward, the others
backward, and with at least two sectors the matching sector is not the last one. -/
theorem C02_uniform_split (cmp : Sec K → Sec K → Bool) (n : Int) (hn : 1 ≤ n) (min max : K) :
    ∃ r, uniformBuild cmp n min max = .ok r ∧ IsSplitAfter (fwdFlags r.sectors) r.matchIndex ∧
      Directed r.sectors ∧ (2 ≤ n → r.matchIndex + 1 < r.sectors.length) := by
  by_cases h1 : n = 1
  · subst h1
    refine ⟨_, by simp [uniformBuild]; rfl, ?_, ?_, by omega⟩
    · constructor
      · simp [fwdFlags]
      · intro i hi
        simp [fwdFlags] at hi
        subst hi
        simp [fwdFlags]
    · intro s hs
      simp at hs
      subst hs
      simp
  · obtain ⟨m, hm, hr⟩ := uniformBuild_closed cmp n (by omega) min max
    refine ⟨_, hr, ?_, ?_, fun _ => by simpa using hm⟩
    · constructor
      · simp [fwdFlags]; omega
      · intro i hi
        simp only [fwdFlags, List.getElem_map, List.getElem_range, decide_eq_true_eq]
        by_cases him : i ≤ m
        · simp only [him, if_true, iff_true]
          unfold uF; split <;> rfl
        · simp only [him, if_false, iff_false]
          unfold uB; split <;> simp
    · intro s hs
      simp only [List.mem_map] at hs
      obtain ⟨k, _, rfl⟩ := hs
      by_cases him : k ≤ m
      · left; simp only [him, if_true]; unfold uF; split <;> rfl
      · right; simp only [him, if_false]; unfold uB; split <;> rfl

/-- The guard of C01 is exact: a count of zero reads `sectors[0]` of an empty vector and a negative
count makes `resize` throw. -/
theorem C01_uniform_mesh_guard (cmp : Sec K → Sec K → Bool) (n : Int) (min max : K) :
    ((uniformBuild cmp n min max).isOk = true ↔ 1 ≤ n) ∧
    ((uniformBuild cmp n min max).isUb = true ↔ n = 0) ∧
    ((uniformBuild cmp n min max).isThrow = true ↔ n < 0) := by
  by_cases h : n < 0
  · simp [uniformBuild, h, Outcome.isOk, Outcome.isUb, Outcome.isThrow]; omega
  · by_cases h0 : n = 0
    · simp [uniformBuild, h0, Outcome.isOk, Outcome.isUb, Outcome.isThrow]
    · obtain ⟨r, hr, _⟩ := C02_uniform_split cmp n (by omega) min max
      simp [hr, Outcome.isOk, Outcome.isUb, Outcome.isThrow]; omega

end anyArithmetic

section exact
variable {K : Type u} [Field K] [LinearOrder K] [IsStrictOrderedRing K]

/-- **C01**: in exact arithmetic, for every `n ≥ 1`, every `min < max` and every outcome of the
comparisons, the uniform builder returns `n` sectors that tile `[min, max]` and all have the same
positive width `(max - min) / n`. -/
theorem C01_uniform_mesh (cmp : Sec K → Sec K → Bool) (n : Int) (hn : 1 ≤ n) (min max : K)
    (hlt : min < max) :
    ∃ r, uniformBuild cmp n min max = .ok r ∧ r.sectors.length = n.toNat ∧
      IsTiling (· = ·) (bounds r.sectors) min max ∧ PositiveWidths (bounds r.sectors) ∧
      ∀ s ∈ r.sectors, s.max - s.min = (max - min) / n := by
  obtain ⟨r, hr, hlen, htil⟩ := C01_uniform_mesh_any_arithmetic (by simp) cmp n hn min max
  have hw : ∀ s ∈ r.sectors, s.max - s.min = (max - min) / n := by
    by_cases h1 : n = 1
    · subst h1
      simp [uniformBuild] at hr
      subst hr
      simp
    · obtain ⟨m, hm, hr'⟩ := uniformBuild_closed cmp n (by omega) min max
      rw [hr] at hr'
      injection hr' with hr'
      subst hr'
      intro s hs
      simp only [List.mem_map, List.mem_range] at hs
      obtain ⟨k, hk, rfl⟩ := hs
      have hn0 : (n : K) ≠ 0 := by
        have : (0:K) < n := by exact_mod_cast (by omega : (0:Int) < n)
        exact this.ne'
      by_cases him : k ≤ m
      · simp only [him, if_true]
        unfold uF
        split
        · simp
        · simp; ring
      · simp only [him, if_false]
        unfold uB
        split
        · rename_i h2
          have h3 : ((n.toNat - 1 : Nat) : K) = (n : K) - 1 := by
            have : ((n.toNat - 1 : Nat) : Int) = n - 1 := by omega
            exact_mod_cast congrArg (fun z : Int => (z : K)) this
          simp only [ccmp_lit, Rat.cast_natCast, h3, Rat.cast_intCast]
          field_simp
          ring
        · simp; ring
  refine ⟨r, hr, hlen, htil, ?_, hw⟩
  intro p hp
  simp only [bounds, List.mem_map] at hp
  obtain ⟨s, hs, rfl⟩ := hp
  have := hw s hs
  have hpos : (0:K) < (max - min) / n := by
    apply div_pos (by linarith)
    exact_mod_cast (by omega : (0:Int) < n)
  simp only
  linarith

/-- A concrete instance: five sectors on `[-1, 3]`, with a comparison oracle that alternates. -/
example : ∃ r, uniformBuild (fun a b : Sec ℚ => decide (a.min + b.max < 3)) 5 (-1) 3 = .ok r ∧
    r.sectors.length = 5 ∧ r.matchIndex = 2 ∧ IsTiling (· = ·) (bounds r.sectors) (-1) 3 := by
  obtain ⟨r, hr, hl, ht, _⟩ := C01_uniform_mesh
    (fun a b : Sec ℚ => decide (a.min + b.max < 3)) 5 (by norm_num) (-1) 3 (by norm_num)
  refine ⟨r, hr, hl, ?_, ht⟩
  have : (uniformBuild (fun a b : Sec ℚ => decide (a.min + b.max < 3)) 5 (-1) 3).map
      BuildResult.matchIndex = .ok 2 := by decide +kernel
  rw [hr] at this
  simpa [Outcome.map] using this

end exact
end Verif.Mesh
