import Verif.Spec.Coupled
import Verif.Lemmas.MatscsPert

/-! # The literals of the formula tables of coupled systems -/
namespace Verif.NP
open Verif.MFormulas

theorem rnd_eq (t : MTerm) : rnd t = round ((t.num : ℚ) / 10 ^ t.dec * 40320) := by
  unfold rnd LL
  rw [round_eq]
  have h1 : (t.num : ℚ) / 10 ^ t.dec * 40320 + 1 / 2 = ((2 * t.num * 40320 + 10 ^ t.dec : ℤ) : ℚ) / ((2 * 10 ^ t.dec : ℕ) : ℚ) := by
    push_cast
    field_simp
  rw [h1]
  have := Rat.floor_intCast_div_natCast (2 * t.num * 40320 + 10 ^ t.dec) (2 * 10 ^ t.dec)
  rw [this]
  push_cast
  rfl

theorem exactLit_eq (t : MTerm) : exactLit t = rnd t / 40320 := by rw [exactLit, rnd_eq]

theorem mem_terms4 {e : MEntry4} {t : MTerm} : t ∈ terms4 e ↔ ∃ p ∈ e.a ++ e.b ++ e.c ++ e.d, t ∈ p.2 := by
  unfold terms4; rw [List.mem_flatMap]

theorem mem_allTerms {t : MTerm} : t ∈ allTerms ↔ InTables t := by
  unfold allTerms InTables
  simp only [List.mem_append, List.mem_flatMap, List.mem_flatten, mem_terms4]
  constructor
  · rintro (⟨e, ⟨row, hr, he⟩, hp⟩ | ⟨e, he, hp⟩)
    · exact ⟨e, .inr ⟨row, hr, he⟩, hp⟩
    · exact ⟨e, .inl he, hp⟩
  · rintro ⟨e, he | ⟨row, hr, he⟩, hp⟩
    · exact .inr ⟨e, he, hp⟩
    · exact .inl ⟨e, ⟨row, hr, he⟩, hp⟩

set_option maxRecDepth 1000000 in
theorem unit_lits : allTerms.all (fun t => !t.w.isEmpty || t.num * LL == rnd t * 10 ^ t.dec) = true := by decide +kernel

/-- The literals of the code. -/
theorem litWithin_code : LitWithin (5 / 10 ^ 12) (MTerm.lit (K := ℝ)) := by
  refine ⟨by positivity, fun t ht => ?_⟩
  have hm := mem_allTerms.mpr ht
  have h10 : (0 : ℝ) < 10 ^ t.dec := by positivity
  have e1 : (MTerm.lit t : ℝ) - exactLit t = ((t.num * LL - rnd t * 10 ^ t.dec : ℤ) : ℝ) / (40320 * 10 ^ t.dec) := by
    rw [exactLit_eq, MTerm.lit]
    unfold LL
    push_cast
    field_simp
  constructor
  · have h1 := List.all_eq_true.mp lits_ok t hm
    unfold litOk at h1
    have h2 : |t.num * LL - rnd t * 10 ^ t.dec| * 10 ^ 12 ≤ 5 * |rnd t| * 10 ^ t.dec := of_decide_eq_true h1
    have h3 : |((t.num * LL - rnd t * 10 ^ t.dec : ℤ) : ℝ)| * 10 ^ 12 ≤ 5 * |(rnd t : ℝ)| * 10 ^ t.dec := by exact_mod_cast h2
    rw [e1, exactLit_eq, abs_div, abs_div, abs_of_pos (by positivity : (0 : ℝ) < 40320 * 10 ^ t.dec), abs_of_pos (by norm_num : (0 : ℝ) < 40320)]
    rw [div_le_iff₀ (by positivity)]
    have e2 : 5 / 10 ^ 12 * (|(rnd t : ℝ)| / 40320) * (40320 * 10 ^ t.dec) = 5 * |(rnd t : ℝ)| * 10 ^ t.dec / 10 ^ 12 := by field_simp
    rw [e2, le_div_iff₀ (by positivity)]
    exact h3
  · intro hw
    have h1 := List.all_eq_true.mp unit_lits t hm
    simp only [hw, List.isEmpty_nil, Bool.not_true, Bool.false_or, beq_iff_eq] at h1
    have : (MTerm.lit t : ℝ) - exactLit t = 0 := by rw [e1, h1]; simp
    linarith

/-! ### The lists of terms -/

theorem mem_entryF {i j : ℕ} {e : MEntry} {f : FT} (hf : f ∈ entryF i j e) : f.i = i ∧ f.j = j ∧ ∃ p ∈ e, f.t ∈ p.2 := by
  unfold entryF at hf
  rw [List.mem_flatMap] at hf
  obtain ⟨pt, hp, hf⟩ := hf
  rw [List.mem_map] at hf
  obtain ⟨t, ht, rfl⟩ := hf
  exact ⟨rfl, rfl, pt, hp, ht⟩

theorem mem_rowF {sel : MEntry4 → MEntry} {i j : ℕ} {row : List MEntry4} {f : FT} (hf : f ∈ rowF sel i j row) : f.i = i ∧ ∃ e ∈ row, ∃ p ∈ sel e, f.t ∈ p.2 := by
  induction row generalizing j with
  | nil => simp [rowF] at hf
  | cons e row ih =>
    rw [rowF, List.mem_append] at hf
    rcases hf with hf | hf
    · obtain ⟨h1, -, h2⟩ := mem_entryF hf
      exact ⟨h1, e, by simp, h2⟩
    · obtain ⟨h1, e', he, h2⟩ := ih hf
      exact ⟨h1, e', by simp [he], h2⟩

theorem mem_rowsF {sel : MEntry4 → MEntry} {i : ℕ} {rows : List (List MEntry4)} {f : FT} (hf : f ∈ rowsF sel i rows) :
    f.i < i + rows.length ∧ ∃ row ∈ rows, ∃ e ∈ row, ∃ p ∈ sel e, f.t ∈ p.2 := by
  induction rows generalizing i with
  | nil => simp [rowsF] at hf
  | cons r rows ih =>
    rw [rowsF, List.mem_append] at hf
    rcases hf with hf | hf
    · obtain ⟨h1, h2⟩ := mem_rowF hf
      exact ⟨by rw [List.length_cons]; omega, r, by simp, h2⟩
    · obtain ⟨h1, r', hr, h2⟩ := ih hf
      exact ⟨by rw [List.length_cons]; omega, r', by simp [hr], h2⟩

theorem mem_hF {sel : MEntry4 → MEntry} {i : ℕ} {row : List MEntry4} {f : FT} (hf : f ∈ hF sel i row) :
    f.i < i + row.length ∧ ∃ e ∈ row, ∃ p ∈ sel e, f.t ∈ p.2 := by
  induction row generalizing i with
  | nil => simp [hF] at hf
  | cons e row ih =>
    rw [hF, List.mem_append] at hf
    rcases hf with hf | hf
    · obtain ⟨h1, -, h2⟩ := mem_entryF hf
      exact ⟨by rw [List.length_cons]; omega, e, by simp, h2⟩
    · obtain ⟨h1, e', he, h2⟩ := ih hf
      exact ⟨by rw [List.length_cons]; omega, e', by simp [he], h2⟩

/-- `sel` is one of the four blocks. -/
def IsBlock (sel : MEntry4 → MEntry) : Prop := sel = MEntry4.a ∨ sel = MEntry4.b ∨ sel = MEntry4.c ∨ sel = MEntry4.d

theorem IsBlock.sub {sel : MEntry4 → MEntry} (hs : IsBlock sel) {e : MEntry4} {p : ℕ × List MTerm} (hp : p ∈ sel e) : p ∈ e.a ++ e.b ++ e.c ++ e.d := by
  simp only [List.mem_append]
  rcases hs with rfl | rfl | rfl | rfl <;> tauto

theorem hom_tab {sel : MEntry4 → MEntry} (hs : IsBlock sel) {m : RM} (hm : m ∈ tD sel ∨ m ∈ hNP sel 0 tH) : hom m = true := by
  have := List.all_eq_true.mp hom_all m
  simp only [List.mem_append] at this
  apply this
  rcases hs with rfl | rfl | rfl | rfl <;> tauto

theorem hom_spec {f : FT} (h : hom f.rm = true) : f.t.w = [] ∨ f.t.w.sum + 1 ≤ f.j + f.p := by
  unfold hom at h
  rw [Bool.or_eq_true] at h
  rcases h with h | h
  · exact .inl (List.isEmpty_iff.mp h)
  · exact .inr (Nat.ble_eq.mp h)

theorem termOk_D {sel : MEntry4 → MEntry} (hs : IsBlock sel) {ρ : ℝ} {q : MTerm → ℝ} (hq : LitWithin ρ q) {f : FT} (hf : f ∈ rowsF sel 0 tDelta) : TermOk 5 ρ q f := by
  obtain ⟨h1, row, hr, e, he, p, hp, ht⟩ := mem_rowsF hf
  have hl := hq.2 f.t ⟨e, .inr ⟨row, hr, he⟩, p, hs.sub hp, ht⟩
  rw [exactLit_eq] at hl
  refine ⟨by rw [tDelta_shape.1] at h1; omega, hl.1, hl.2, hom_spec (hom_tab hs (.inl ?_))⟩
  unfold tD
  rw [rowsNP_eq]
  exact List.mem_map_of_mem hf

theorem termOk_H {sel : MEntry4 → MEntry} (hs : IsBlock sel) {ρ : ℝ} {q : MTerm → ℝ} (hq : LitWithin ρ q) {f : FT} (hf : f ∈ hF sel 0 tH) : TermOk 6 ρ q f := by
  obtain ⟨h1, e, he, p, hp, ht⟩ := mem_hF hf
  have hl := hq.2 f.t ⟨e, .inl he, p, hs.sub hp, ht⟩
  rw [exactLit_eq] at hl
  refine ⟨by rw [tDelta_shape.2.2] at h1; omega, hl.1, hl.2, hom_spec (hom_tab hs (.inr ?_))⟩
  rw [hNP_eq]
  exact List.mem_map_of_mem hf

end Verif.NP
