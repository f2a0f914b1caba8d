import Verif.Props.MeshUniform
import Verif.Props.MeshAuto

/-!
# C79: the match point is next to the lowest sector

`Sector::compare(a, b)` is `a.vs[0] < b.vs[0]` (matslise.h:246-248; matscs.h:118-120 compares the traces): `v s` is the mean potential of a
sector, any function into a linear order.
-/
namespace Verif.Mesh
open Verif.Spec

section
variable {K : Type u} [Add K] [Sub K] [Mul K] [Div K] [CCmp K] {L : Type v} [LinearOrder L]

/-- The two ends of the built part are the lowest: `v s` is at least the smaller of them. -/
def LowEnds (v : Sec K → L) (f b : Sec K) (s : Sec K) : Prop := v f ≤ v s ∨ v b ≤ v s

theorem LowEnds.advance_left {v : Sec K → L} {f b s f' : Sec K} (h : LowEnds v f b s) (hlt : v b < v f) :
    LowEnds v f' b s := by
  rcases h with h | h
  · exact .inr (hlt.le.trans h)
  · exact .inr h

theorem LowEnds.advance_right {v : Sec K → L} {f b s b' : Sec K} (h : LowEnds v f b s) (hle : ¬ v b < v f) :
    LowEnds v f b' s := by
  rcases h with h | h
  · exact .inl h
  · exact .inl ((not_lt.mp hle).trans h)

/-- The loop of the uniform builder keeps the lowest sectors at the ends of the built part. -/
theorem uniformLoop_low (v : Sec K → L) (cmp : Sec K → Sec K → Bool) (hcmp : ∀ a b, cmp a b = true ↔ v a < v b)
    (min h : K) (c : Nat) :
    ∀ (fuel i j : Nat) (sl : Slots K) (f b : Sec K), i < j → sl i = some f → sl j = some b →
      (∀ k s, (k ≤ i ∨ j ≤ k ∧ k < c) → sl k = some s → LowEnds v f b s) →
      ∀ m sl', uniformLoop cmp min h fuel i j sl = .ok (m, sl') →
      ∃ f' b', sl' m = some f' ∧ sl' (m + 1) = some b' ∧
        ∀ k s, k < c → sl' k = some s → LowEnds v f' b' s := by
  intro fuel
  induction fuel with
  | zero =>
    intro i j sl f b hij hf hb hall m sl' hr
    unfold uniformLoop at hr
    split at hr
    · rename_i hd
      simp only [Outcome.ok.injEq, Prod.mk.injEq] at hr
      obtain ⟨rfl, rfl⟩ := hr
      exact ⟨f, b, hf, by rw [hd]; exact hb, fun k s hk hs => hall k s (by omega) hs⟩
    · simp at hr
  | succ fuel ih =>
    intro i j sl f b hij hf hb hall m sl' hr
    unfold uniformLoop at hr
    split at hr
    · rename_i hd
      simp only [Outcome.ok.injEq, Prod.mk.injEq] at hr
      obtain ⟨rfl, rfl⟩ := hr
      exact ⟨f, b, hf, by rw [hd]; exact hb, fun k s hk hs => hall k s (by omega) hs⟩
    · rename_i hd
      simp only [Slots.deref, hf, hb, Outcome.bind_ok] at hr
      split at hr
      · rename_i hc
        have hlt := (hcmp _ _).mp hc
        refine ih (i + 1) j _ _ b (by omega) (show Slots.set _ _ _ _ = some _ from if_pos rfl) ?_ ?_ m sl' hr
        · have : j ≠ i + 1 := by omega
          simp [Slots.set, this, hb]
        · intro k s hk hs
          unfold Slots.set at hs
          split at hs
          · simp only [Option.some.injEq] at hs
            subst hs
            exact .inl le_rfl
          · exact (hall k s (by omega) hs).advance_left hlt
      · rename_i hc
        have hle : ¬ v b < v f := fun h => hc ((hcmp _ _).mpr h)
        refine ih i (j - 1) _ f _ (by omega) ?_ (show Slots.set _ _ _ _ = some _ from if_pos rfl) ?_ m sl' hr
        · have : i ≠ j - 1 := by omega
          simp [Slots.set, this, hf]
        · intro k s hk hs
          unfold Slots.set at hs
          split at hs
          · simp only [Option.some.injEq] at hs
            subst hs
            exact .inr le_rfl
          · exact (hall k s (by omega) hs).advance_right hle

omit [Add K] [Sub K] [Mul K] [Div K] [CCmp K] in
theorem collect_ok (sl : Slots K) : ∀ n l, collect sl n = .ok l →
    l.length = n ∧ ∀ k (hk : k < l.length), sl k = some l[k] := by
  intro n
  induction n with
  | zero => intro l h; simp [collect] at h; subst h; simp
  | succ n ih =>
    intro l h
    unfold collect at h
    obtain ⟨a, ha, h⟩ := Outcome.bind_eq_ok.mp h
    obtain ⟨s, hs, h⟩ := Outcome.bind_eq_ok.mp h
    simp only [Outcome.pure_eq, Outcome.ok.injEq] at h
    subst h
    obtain ⟨h1, h2⟩ := ih a ha
    refine ⟨by simp [h1], fun k hk => ?_⟩
    by_cases hka : k < a.length
    · rw [List.getElem_append_left hka]; exact h2 k hka
    · simp at hk
      have : k = n := by omega
      subst this
      rw [List.getElem_append_right (by omega)]
      simp only [h1, Nat.sub_self, List.getElem_cons_zero]
      unfold Slots.deref at hs
      split at hs
      · simp_all
      · simp at hs

/-- **C79**, uniform builder: one of the two sectors at the match point has the lowest mean potential of
all sectors, for every number of sectors, any arithmetic and any potential. -/
theorem C79_uniform_match_at_lowest (v : Sec K → L) (cmp : Sec K → Sec K → Bool)
    (hcmp : ∀ a b, cmp a b = true ↔ v a < v b) (n : Int) (hn : 2 ≤ n) (min max : K) :
    ∃ r, uniformBuild cmp n min max = .ok r ∧ ∃ (h : r.matchIndex + 1 < r.sectors.length),
      ((∀ s ∈ r.sectors, v r.sectors[r.matchIndex] ≤ v s) ∨
       (∀ s ∈ r.sectors, v r.sectors[r.matchIndex + 1] ≤ v s)) := by
  obtain ⟨r, hr, -, -, hlast⟩ := C02_uniform_split cmp n (by omega) min max
  refine ⟨r, hr, hlast hn, ?_⟩
  have hlast := hlast hn
  unfold uniformBuild at hr
  rw [if_neg (by omega), if_neg (by omega), if_neg (by omega)] at hr
  dsimp only at hr
  obtain ⟨⟨i, sl⟩, hl, hr⟩ := Outcome.bind_eq_ok.mp hr
  obtain ⟨secs, hc, hr⟩ := Outcome.bind_eq_ok.mp hr
  simp only [Outcome.pure_eq, Outcome.ok.injEq] at hr
  subst hr
  obtain ⟨hlen, hget⟩ := collect_ok _ _ _ hc
  dsimp only at hlast ⊢
  obtain ⟨f, b, hf, hb, hall⟩ := uniformLoop_low v cmp hcmp min ((max - min) / CCmp.lit n) n.toNat n.toNat 0 (n.toNat - 1) _ _ _
    (by omega)
    (show Slots.set _ _ _ 0 = some (⟨min, min + (max - min) / CCmp.lit n, .forward⟩ : Sec K) by
      have : 0 ≠ n.toNat - 1 := by omega
      simp [Slots.set, this])
    (show Slots.set _ _ _ (n.toNat - 1) = some (⟨min + CCmp.lit ((n.toNat - 1 : Nat)) * ((max - min) / CCmp.lit n), max, .backward⟩ : Sec K) by
      simp [Slots.set])
    (by
      intro k s hk hs
      have hk : k = 0 ∨ k = n.toNat - 1 := by omega
      have h0 : (0 : Nat) ≠ n.toNat - 1 := by omega
      rcases hk with rfl | rfl
      · simp [Slots.set, h0] at hs; subst hs; exact .inl le_rfl
      · simp [Slots.set] at hs; subst hs; exact .inr le_rfl) i sl hl
  have e1 : secs[i] = f := by
    have := hget i (by omega); dsimp only at this; rw [hf] at this; exact (Option.some.inj this).symm
  have e2 : secs[i + 1] = b := by
    have := hget (i + 1) hlast; dsimp only at this; rw [hb] at this; exact (Option.some.inj this).symm
  rw [e1, e2]
  have hall' : ∀ s ∈ secs, LowEnds v f b s := by
    intro s hs
    obtain ⟨k, hk, rfl⟩ := List.mem_iff_getElem.mp hs
    exact hall k _ (by omega) (hget k hk)
  rcases le_total (v f) (v b) with hfb | hfb
  · left; intro s hs
    rcases hall' s hs with h | h
    · exact h
    · exact hfb.trans h
  · right; intro s hs
    rcases hall' s hs with h | h
    · exact hfb.trans h
    · exact h

/-- All sectors built so far are at least as high as the lower of the two newest ones. -/
def AutoLow (v : Sec K → L) (s : AutoState K) : Prop :=
  ∀ t ∈ (s.f :: s.fs) ++ (s.b :: s.bs), LowEnds v s.f s.b t

theorem autoStep_low (v : Sec K → L) (O : ErrOracle K) (cmp : Sec K → Sec K → Bool) (hcmp : ∀ a b, cmp a b = true ↔ v a < v b)
    (min max : K) {s s' : AutoState K} (h : AutoLow v s) (hr : autoStep O cmp min max s = .ok s') : AutoLow v s' := by
  unfold autoStep at hr
  split at hr
  · rename_i hc
    obtain ⟨fj, -, hr⟩ := Outcome.bind_eq_ok.mp hr
    simp only [Outcome.pure_eq, Outcome.ok.injEq] at hr
    subst hr
    intro t ht
    simp only [List.cons_append, List.mem_cons, List.mem_append] at ht
    rcases ht with rfl | ht
    · exact .inl le_rfl
    · exact (h t (by simp only [List.cons_append, List.mem_cons, List.mem_append]; exact ht)).advance_left ((hcmp _ _).mp hc)
  · rename_i hc
    obtain ⟨bj, -, hr⟩ := Outcome.bind_eq_ok.mp hr
    simp only [Outcome.pure_eq, Outcome.ok.injEq] at hr
    subst hr
    intro t ht
    have hle : ¬ v s.b < v s.f := fun h => hc ((hcmp _ _).mpr h)
    simp only [List.cons_append, List.mem_cons, List.mem_append] at ht
    rcases ht with rfl | ht | rfl | ht
    · exact .inl le_rfl
    · exact (h t (by simp [ht])).advance_right hle
    · exact .inr le_rfl
    · exact (h t (by simp only [List.cons_append, List.mem_cons, List.mem_append]; tauto)).advance_right hle

theorem autoLoop_low (v : Sec K → L) (O : ErrOracle K) (cmp : Sec K → Sec K → Bool) (hcmp : ∀ a b, cmp a b = true ↔ v a < v b)
    (min max : K) : ∀ fuel (s s' : AutoState K), AutoLow v s → autoLoop O cmp min max fuel s = .ok s' → AutoLow v s' := by
  intro fuel
  induction fuel with
  | zero =>
    intro s s' h hr
    unfold autoLoop at hr
    split at hr
    · simp only [Outcome.ok.injEq] at hr; subst hr; exact h
    · simp at hr
  | succ fuel ih =>
    intro s s' h hr
    unfold autoLoop at hr
    split at hr
    · simp only [Outcome.ok.injEq] at hr; subst hr; exact h
    · obtain ⟨s₁, h1, hr⟩ := Outcome.bind_eq_ok.mp hr
      exact ih s₁ s' (autoStep_low v O cmp hcmp min max h h1) hr

/-- **C79**, automatic builder: one of the two sectors at the match point has the lowest mean potential
of all sectors, whatever the error estimates and jumps, in any arithmetic. -/
theorem C79_automatic_match_at_lowest (v : Sec K → L) (cmp : Sec K → Sec K → Bool)
    (hcmp : ∀ a b, cmp a b = true ↔ v a < v b) (fuel : Nat) (O : ErrOracle K) (jumps : List K) (min max : K)
    (r : BuildResult K) (hr : autoBuild fuel O cmp jumps min max = .ok r) :
    ∃ (h : r.matchIndex + 1 < r.sectors.length),
      ((∀ s ∈ r.sectors, v r.sectors[r.matchIndex] ≤ v s) ∨
       (∀ s ∈ r.sectors, v r.sectors[r.matchIndex + 1] ≤ v s)) := by
  refine ⟨(C02_automatic_split fuel O cmp jumps min max r hr).2.2, ?_⟩
  unfold autoBuild at hr
  obtain ⟨s, hs, hr⟩ := Outcome.bind_eq_ok.mp hr
  simp only [Outcome.pure_eq, Outcome.ok.injEq] at hr
  subst hr
  have hlow := autoLoop_low v O cmp hcmp min max fuel _ s (by
    intro t ht
    simp only [autoInit, List.cons_append, List.nil_append, List.mem_cons, List.not_mem_nil, or_false] at ht
    rcases ht with rfl | rfl
    · exact .inl le_rfl
    · exact .inr le_rfl) hs
  have hall : ∀ t ∈ (s.f :: s.fs).reverse ++ (s.b :: s.bs), LowEnds v s.f s.b t := by
    intro t ht
    refine hlow t ?_
    simp only [List.mem_append, List.mem_reverse] at ht ⊢
    exact ht
  have e1 : ((s.f :: s.fs).reverse ++ (s.b :: s.bs))[(s.f :: s.fs).length - 1]'(by simp) = s.f := by
    rw [List.getElem_append_left (by simp)]
    simp
  have e2 : ((s.f :: s.fs).reverse ++ (s.b :: s.bs))[(s.f :: s.fs).length - 1 + 1]'(by simp) = s.b := by
    rw [List.getElem_append_right (by simp)]
    simp
  dsimp only
  rw [e1, e2]
  rcases le_total (v s.f) (v s.b) with hfb | hfb
  · left; intro t ht
    rcases hall t ht with h | h
    · exact h
    · exact hfb.trans h
  · right; intro t ht
    rcases hall t ht with h | h
    · exact hfb.trans h
    · exact h

/-- Non-vacuity: a potential well at 2 on `[-1, 3]`, eight sectors: the match point is at the well. -/
example : ∃ r, uniformBuild (fun a b : Sec ℚ => decide (((a.min + a.max) / 2 - 2) ^ 2 < ((b.min + b.max) / 2 - 2) ^ 2)) 8 (-1) 3 = .ok r ∧
    r.matchIndex = 5 := by
  obtain ⟨r, hr, -⟩ := C79_uniform_match_at_lowest (fun s : Sec ℚ => ((s.min + s.max) / 2 - 2) ^ 2)
    (fun a b : Sec ℚ => decide (((a.min + a.max) / 2 - 2) ^ 2 < ((b.min + b.max) / 2 - 2) ^ 2)) (by simp) 8 (by norm_num) (-1) 3
  refine ⟨r, hr, ?_⟩
  have : (uniformBuild (fun a b : Sec ℚ => decide (((a.min + a.max) / 2 - 2) ^ 2 < ((b.min + b.max) / 2 - 2) ^ 2)) 8 (-1) 3).map
      BuildResult.matchIndex = .ok 5 := by decide +kernel
  rw [hr] at this
  simpa [Outcome.map] using this

end
end Verif.Mesh
