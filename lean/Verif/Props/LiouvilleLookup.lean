import Verif.Props.LiouvillePieces
import Mathlib.Topology.Order.IntermediateValue

/-!
# Liouville transformation, lookup and inverse map: C46, C47
-/
namespace Verif.Liouville
open Verif.Poly

/-! ## C47: the piece found contains the value -/

/-- `std::lower_bound` on a partitioned range returns the partition point. -/
theorem lowerBound_spec (pred : Nat → Bool) (first len : Nat) (hpart : ∀ i j, first ≤ i → i ≤ j → j < first + len → pred j = true → pred i = true) :
    first ≤ lowerBound pred first len ∧ lowerBound pred first len ≤ first + len ∧
    (∀ i, first ≤ i → i < lowerBound pred first len → pred i = true) ∧
    (∀ i, lowerBound pred first len ≤ i → i < first + len → pred i = false) := by
  induction len using Nat.strong_induction_on generalizing first with
  | _ len ih =>
    rw [lowerBound]
    split
    · next h => subst h; exact ⟨le_rfl, by omega, fun i h1 h2 => by omega, fun i h1 h2 => by omega⟩
    · next h =>
      dsimp only
      split
      · next hp =>
        have := ih (len - len / 2 - 1) (by omega) (first + len / 2 + 1) (fun i j h1 h2 h3 h4 => hpart i j (by omega) h2 (by omega) h4)
        refine ⟨by omega, by omega, fun i h1 h2 => ?_, fun i h1 h2 => this.2.2.2 i h1 (by omega)⟩
        by_cases hi : i ≤ first + len / 2
        · exact hpart i _ h1 hi (by omega) hp
        · exact this.2.2.1 i (by omega) h2
      · next hp =>
        have := ih (len / 2) (by omega) first (fun i j h1 h2 h3 h4 => hpart i j h1 h2 (by omega) h4)
        refine ⟨by omega, by omega, this.2.2.1, fun i h1 h2 => ?_⟩
        by_cases hi : i < first + len / 2
        · exact this.2.2.2 i h1 hi
        · by_contra hc
          exact hp (hpart _ i (by omega) (by omega) h2 (by simpa using hc))

theorem tiles_get {K : Type} {lo hi : Piece K → K} : ∀ {a b : K} {ps : List (Piece K)}, Tiles lo hi a ps b →
    ∀ i (h : i < ps.length), (i = 0 → lo ps[i] = a) ∧ (∀ h' : 0 < i, lo ps[i] = hi ps[i - 1]) ∧ (i + 1 = ps.length → hi ps[i] = b)
  | _, _, [], _, i, h => by simp at h
  | a, b, p :: ps, ht, 0, _ => ⟨fun _ => ht.1, fun h' => absurd h' (lt_irrefl 0), fun he => by
      cases ps with
      | nil => have := ht.2; simpa [Tiles] using this
      | cons q qs => simp at he⟩
  | a, b, p :: ps, ht, i + 1, h => by
      have h1 : i < ps.length := by simpa using h
      have ih := tiles_get ht.2 i h1
      refine ⟨by simp, fun _ => ?_, fun he => ih.2.2 (by simpa using he)⟩
      rcases Nat.eq_zero_or_pos i with rfl | hi
      · simpa using ih.1 rfl
      · have := ih.2.1 hi
        obtain ⟨k, rfl⟩ : ∃ k, i = k + 1 := ⟨i - 1, by omega⟩
        simpa using this

section exact
variable {K : Type} [Field K] [LinearOrder K] [IsStrictOrderedRing K]

omit [IsStrictOrderedRing K] in
theorem tiles_mono {lo hi : Piece K → K} {a b : K} {ps : List (Piece K)} (ht : Tiles lo hi a ps b) (hpos : ∀ pc ∈ ps, lo pc < hi pc) :
    ∀ j (hj : j < ps.length) i (hij : i ≤ j), hi (ps[i]'(by omega)) ≤ hi ps[j] := by
  intro j
  induction j with
  | zero =>
    intro hj i hij
    obtain rfl : i = 0 := by omega
    exact le_rfl
  | succ j ih =>
    intro hj i hij
    rcases Nat.lt_or_ge j i with h | h
    · obtain rfl : i = j + 1 := by omega
      exact le_rfl
    · refine (ih (by omega) i h).trans ?_
      have := (tiles_get ht (j + 1) hj).2.1 (by omega)
      simp only [Nat.add_sub_cancel] at this
      rw [← this]
      exact (hpos _ (List.getElem_mem hj)).le

omit [IsStrictOrderedRing K] in
/-- **C47.** For pieces that tile `[a, b]` (in either coordinate), `findPiece` never runs off the array: for every value it returns
one of the pieces; for a value in `[a, b]` that piece contains the value (its left end included; its right end excluded unless it
is the end of the domain), so the assertion in the code holds; a value to the left of the domain gets the first piece and one to
the right the last piece. -/
theorem C47_findPiece {lo hi : Piece K → K} {a b : K} {ps : List (Piece K)} (hne : ps ≠ []) (ht : Tiles lo hi a ps b)
    (hpos : ∀ pc ∈ ps, lo pc < hi pc) (v : K) :
    ∃ (i : Nat) (h : i < ps.length), findPiece ps hi v = .ok ps[i] ∧
      (a ≤ v → lo ps[i] ≤ v) ∧ (v < b → v < hi ps[i]) ∧ (v = b → v = hi ps[i]) ∧
      (v < a → i = 0) ∧ (b ≤ v → i + 1 = ps.length) := by
  have hlen : 0 < ps.length := List.length_pos_iff.mpr hne
  have hpart : ∀ i j, 0 ≤ i → i ≤ j → j < 0 + ps.length →
      (match ps[j]? with | some pc => CCmp.le (hi pc) v | none => false) = true →
      (match ps[i]? with | some pc => CCmp.le (hi pc) v | none => false) = true := by
    intro i j _ hij hj h
    rw [List.getElem?_eq_getElem (by omega)] at h ⊢
    simp only [ccmp_le, decide_eq_true_eq] at h ⊢
    exact (tiles_mono ht hpos j (by omega) i hij).trans h
  have hs := lowerBound_spec _ 0 ps.length hpart
  set r := lowerBound (fun i => match ps[i]? with | some pc => CCmp.le (hi pc) v | none => false) 0 ps.length with hr
  have hfp : findPiece ps hi v = (match ps[if r = ps.length then r - 1 else r]? with
    | some pc => .ok pc | none => .ub "findPiece on an empty vector") := rfl
  have below : ∀ i (h : i < ps.length), i < r → hi ps[i] ≤ v := by
    intro i h hir
    have := hs.2.2.1 i (Nat.zero_le i) hir
    rw [List.getElem?_eq_getElem h] at this
    simpa using this
  have above : ∀ i (h : i < ps.length), r ≤ i → v < hi ps[i] := by
    intro i h hir
    have := hs.2.2.2 i hir (by omega)
    rw [List.getElem?_eq_getElem h] at this
    simpa using this
  have hlast := (tiles_get ht (ps.length - 1) (by omega)).2.2 (by omega)
  by_cases hrl : r = ps.length
  · refine ⟨ps.length - 1, by omega, ?_, ?_, ?_, ?_, ?_, fun _ => by omega⟩
    · rw [hfp, if_pos hrl, hrl, List.getElem?_eq_getElem (by omega)]
    · intro _
      exact (hpos _ (List.getElem_mem (by omega))).le.trans (below _ (by omega) (by omega))
    · intro h; rw [hlast]; exact h
    · intro h; rw [hlast]; exact h
    · intro h
      have h1 := below 0 hlen (by omega)
      have h2 := (tiles_get ht 0 hlen).1 rfl
      have h3 := hpos _ (List.getElem_mem hlen)
      exact absurd (h3.trans_le h1) (by rw [h2]; exact not_lt.mpr h.le)
  · have hrl' : r < ps.length := by omega
    have hb : v < b := by
      have h1 := above r hrl' le_rfl
      rw [← hlast]
      exact h1.trans_le (tiles_mono ht hpos _ (by omega) r (by omega))
    refine ⟨r, hrl', ?_, ?_, fun _ => above r hrl' le_rfl, fun h => absurd h hb.ne, ?_, fun h => absurd h (not_le.mpr hb)⟩
    · rw [hfp, if_neg hrl, List.getElem?_eq_getElem hrl']
    · intro hav
      rcases Nat.eq_zero_or_pos r with h0 | h0
      · rw [(tiles_get ht r hrl').1 h0]; exact hav
      · rw [(tiles_get ht r hrl').2.1 h0]; exact below _ (by omega) (by omega)
    · intro hva
      by_contra h0
      have h1 := below 0 hlen (by omega)
      have h2 := (tiles_get ht 0 hlen).1 rfl
      have h3 := hpos _ (List.getElem_mem hlen)
      rw [h2] at h3
      exact absurd (h3.trans_le h1) (not_lt.mpr hva.le)

omit [IsStrictOrderedRing K] in
/-- On an empty piece list the lookup would read before the array. -/
theorem C47_empty (hi : Piece K → K) (v : K) : findPiece ([] : List (Piece K)) hi v = .ub "findPiece on an empty vector" := by
  rw [findPiece]; simp

/-- Three pieces tiling `[0, 4]` in `r`: values inside, on a border, at the right end and outside. -/
example : let pc := fun a b : ℚ => (⟨a, b, 0, 0, zero 8, zero 8, zero 8, zero 10⟩ : Piece ℚ)
    let ps := [pc 0 1, pc 1 3, pc 3 4]
    Tiles Piece.rmin Piece.rmax 0 ps 4 ∧ (∀ q ∈ ps, q.rmin < q.rmax) ∧
    (findPiece ps Piece.rmax (1/2) = .ok (pc 0 1) ∧ findPiece ps Piece.rmax 1 = .ok (pc 1 3) ∧
     findPiece ps Piece.rmax 4 = .ok (pc 3 4) ∧ findPiece ps Piece.rmax 9 = .ok (pc 3 4) ∧ findPiece ps Piece.rmax (-2) = .ok (pc 0 1)) := by
  refine ⟨⟨rfl, rfl, rfl, rfl⟩, ?_, ?_⟩
  · intro q hq
    simp only [List.mem_cons, List.not_mem_nil, or_false] at hq
    rcases hq with rfl | rfl | rfl <;> norm_num
  · refine ⟨?_, ?_, ?_, ?_, ?_⟩ <;> simp [findPiece, lowerBound] <;> norm_num

/-! ## C46: the inverse map -/

/-- After 50 halvings, and not before, the loop stops. -/
theorem C46_halvings (f : K → K) (x : K) : x2rLoop f x 49 0 1 = .timeout ∧ ∃ v, ∀ n, 50 ≤ n → x2rLoop f x n 0 1 = .ok v := by
  have w : ∀ k : Nat, k ≤ 49 → (1 / 10 ^ 15 : K) < 1 / 2 ^ k := by
    intro k hk
    have h1 : (1 / 10 ^ 15 : K) < 1 / 2 ^ 49 := by norm_num
    refine h1.trans_le (one_div_le_one_div_of_le (by positivity) ?_)
    exact pow_le_pow_right₀ (by norm_num) hk
  have lit : (CCmp.lit (1 / 10 ^ 15) : K) = 1 / 10 ^ 15 := by simp
  constructor
  · have : ∀ (k : Nat), k ≤ 49 → ∀ low high : K, high - low = 1 / 2 ^ (49 - k) → x2rLoop f x k low high = .timeout := by
      intro k
      induction k with
      | zero =>
        intro _ low high h
        rw [x2rLoop, if_pos]
        rw [lit, h]; simpa using w 49 le_rfl
      | succ k ih =>
        intro hk low high h
        rw [x2rLoop, if_pos (by rw [lit, h]; simpa using w (49 - (k + 1)) (by omega))]
        dsimp only
        have e : (1 : K) / 2 ^ (49 - k) = 1 / 2 ^ (49 - (k + 1)) / 2 := by
          rw [show 49 - k = 49 - (k + 1) + 1 by omega, pow_succ]; field_simp
        have e2 : (CCmp.lit 2 : K) = 2 := by simp
        split
        · exact ih (by omega) _ _ (by rw [e, ← h, e2]; ring)
        · exact ih (by omega) _ _ (by rw [e, ← h, e2]; ring)
    exact this 49 le_rfl 0 1 (by norm_num)
  · have : ∀ (k : Nat), k ≤ 50 → ∀ low high : K, high - low = 1 / 2 ^ (50 - k) → ∃ v, ∀ n, k ≤ n → x2rLoop f x n low high = .ok v := by
      intro k
      induction k with
      | zero =>
        intro _ low high h
        refine ⟨(low + high) / CCmp.lit 2, fun n _ => ?_⟩
        rw [x2rLoop.eq_def]; dsimp only; rw [if_neg]
        rw [lit, h]; simp only [ccmp_lt, decide_eq_true_eq, not_lt]; norm_num
      | succ k ih =>
        intro hk low high h
        have e : (1 : K) / 2 ^ (50 - k) = 1 / 2 ^ (50 - (k + 1)) / 2 := by
          rw [show 50 - k = 50 - (k + 1) + 1 by omega, pow_succ]; field_simp
        have e2 : (CCmp.lit 2 : K) = 2 := by simp
        by_cases hm : CCmp.lt x (f ((high + low) / CCmp.lit 2)) = true
        · obtain ⟨v, hv⟩ := ih (by omega) low ((high + low) / CCmp.lit 2) (by rw [e, ← h, e2]; ring)
          refine ⟨v, fun n hn => ?_⟩
          obtain ⟨n, rfl⟩ : ∃ l, n = l + 1 := ⟨n - 1, by omega⟩
          rw [x2rLoop, if_pos (by rw [lit, h]; simpa using w (50 - (k + 1)) (by omega))]
          dsimp only
          rw [if_pos hm]; exact hv n (by omega)
        · obtain ⟨v, hv⟩ := ih (by omega) ((high + low) / CCmp.lit 2) high (by rw [e, ← h, e2]; ring)
          refine ⟨v, fun n hn => ?_⟩
          obtain ⟨n, rfl⟩ : ∃ l, n = l + 1 := ⟨n - 1, by omega⟩
          rw [x2rLoop, if_pos (by rw [lit, h]; simpa using w (50 - (k + 1)) (by omega))]
          dsimp only
          rw [if_neg hm]; exact hv n (by omega)
    exact this 50 le_rfl 0 1 (by norm_num)

/-- Invariant form: any property of a bracket that survives the right halving holds of the last bracket, of width `2⁻⁵⁰`. -/
theorem x2r_bracket (f : K → K) (x : K) (J : K → K → Prop) (h0 : J 0 1)
    (hl : ∀ low high, J low high → x < f ((high + low) / 2) → J low ((high + low) / 2))
    (hh : ∀ low high, J low high → f ((high + low) / 2) ≤ x → J ((high + low) / 2) high) (n : Nat) (v : K)
    (h : x2rLoop f x n 0 1 = .ok v) : ∃ low high, J low high ∧ high - low ≤ 1 / 10 ^ 15 ∧ (∃ k, high - low = 1 / 2 ^ k) ∧ v = (low + high) / 2 := by
  have : ∀ (n : Nat) (low high : K), J low high → (∃ k, high - low = 1 / 2 ^ k) → x2rLoop f x n low high = .ok v →
      ∃ low high, J low high ∧ high - low ≤ 1 / 10 ^ 15 ∧ (∃ k, high - low = 1 / 2 ^ k) ∧ v = (low + high) / 2 := by
    intro n
    induction n with
    | zero =>
      intro low high hJ hk h
      rw [x2rLoop] at h
      split at h
      · simp at h
      · next hc =>
        refine ⟨low, high, hJ, ?_, hk, ?_⟩
        · simpa using hc
        · simp only [Outcome.ok.injEq, ccmp_lit] at h; rw [← h]; push_cast; rfl
    | succ n ih =>
      intro low high hJ hk h
      rw [x2rLoop] at h
      obtain ⟨k, hk'⟩ := hk
      split at h
      · dsimp only at h
        have e2 : (CCmp.lit 2 : K) = 2 := by simp
        rw [e2] at h
        split at h
        · next hm =>
          refine ih _ _ (hl _ _ hJ (by simpa using hm)) ⟨k + 1, ?_⟩ h
          rw [pow_succ, one_div, mul_inv, ← one_div, ← hk']; ring
        · next hm =>
          refine ih _ _ (hh _ _ hJ (by simpa using hm)) ⟨k + 1, ?_⟩ h
          rw [pow_succ, one_div, mul_inv, ← one_div, ← hk']; ring
      · next hc =>
        refine ⟨low, high, hJ, ?_, ⟨k, hk'⟩, ?_⟩
        · simpa using hc
        · simp only [Outcome.ok.injEq, ccmp_lit] at h; rw [← h]; push_cast; rfl
  exact this n 0 1 h0 ⟨0, by norm_num⟩ h

theorem two_pow_small {k : Nat} {K : Type} [Field K] [LinearOrder K] [IsStrictOrderedRing K] (h : (1 : K) / 2 ^ k ≤ 1 / 10 ^ 15) :
    (1 : K) / 2 ^ k ≤ 1 / 2 ^ 50 := by
  rcases Nat.lt_or_ge k 50 with hk | hk
  · exfalso
    have h1 : (1 / 10 ^ 15 : K) < 1 / 2 ^ 49 := by norm_num
    have h2 : (1 : K) / 2 ^ 49 ≤ 1 / 2 ^ k := one_div_le_one_div_of_le (by positivity) (pow_le_pow_right₀ (by norm_num) (by omega))
    linarith
  · exact one_div_le_one_div_of_le (by positivity) (pow_le_pow_right₀ (by norm_num) hk)

/-- **C46, increasing maps.** If `f` is strictly increasing on `[0, 1]` and `f ρ = x`, the result is within `2⁻⁵¹` of `ρ`. -/
theorem C46_increasing (r2x : Poly K DEGREE) (hmono : ∀ s t, 0 ≤ s → s < t → t ≤ 1 → eval r2x s < eval r2x t) {x ρ : K} (h0 : 0 ≤ ρ)
    (h1 : ρ ≤ 1) (hx : eval r2x ρ = x) : |x2rImpl r2x x - ρ| ≤ 1 / 2 ^ 51 := by
  obtain ⟨v, hv⟩ := (C46_halvings (eval r2x) x).2
  have hv := hv 100 (by norm_num)
  rw [x2rImpl, hv]
  obtain ⟨low, high, ⟨a1, a2, a3, a4⟩, hw, ⟨k, hk⟩, rfl⟩ := x2r_bracket (eval r2x) x (fun l h => 0 ≤ l ∧ l ≤ ρ ∧ ρ ≤ h ∧ h ≤ 1) ⟨le_rfl, h0, h1, le_rfl⟩
    (fun l h hJ hlt => ⟨hJ.1, hJ.2.1, by
      by_contra hc
      push Not at hc
      have := hmono _ _ (by linarith [hJ.1, hJ.2.1, hJ.2.2.1]) hc h1
      rw [hx] at this; exact absurd hlt (not_lt.mpr this.le), by linarith [hJ.2.1, hJ.2.2.1, hJ.2.2.2]⟩)
    (fun l h hJ hle => ⟨by linarith [hJ.1, hJ.2.1, hJ.2.2.1], by
      by_contra hc
      push Not at hc
      have := hmono _ _ h0 hc (by linarith [hJ.2.1, hJ.2.2.1, hJ.2.2.2])
      rw [hx] at this; exact absurd hle (not_le.mpr this), hJ.2.2.1, hJ.2.2.2⟩) 100 v hv
  rw [hk] at hw
  have := two_pow_small hw
  rw [← hk] at this
  have e : (1 : K) / 2 ^ 51 = 1 / 2 ^ 50 / 2 := by norm_num
  dsimp only
  rw [e, abs_le]; constructor <;> linarith

end exact

/-- **C46, arbitrary pieces.** Even when the stored polynomial is not monotone: whenever `x` lies between the values at the two
ends, the result is within `2⁻⁵¹` of a point that the map takes to `x`. -/
theorem C46_preimage (r2x : Poly ℝ DEGREE) {x : ℝ} (h0 : eval r2x 0 ≤ x) (h1 : x ≤ eval r2x 1) :
    ∃ ρ, 0 ≤ ρ ∧ ρ ≤ 1 ∧ eval r2x ρ = x ∧ |x2rImpl r2x x - ρ| ≤ 1 / 2 ^ 51 := by
  obtain ⟨v, hv⟩ := (C46_halvings (eval r2x) x).2
  have hv := hv 100 (by norm_num)
  rw [x2rImpl, hv]
  obtain ⟨low, high, ⟨a1, a2, a3, a4, a5⟩, hw, ⟨k, hk⟩, rfl⟩ := x2r_bracket (eval r2x) x
    (fun l h => 0 ≤ l ∧ l ≤ h ∧ h ≤ 1 ∧ eval r2x l ≤ x ∧ x ≤ eval r2x h) ⟨le_rfl, zero_le_one, le_rfl, h0, h1⟩
    (fun l h hJ hlt => ⟨hJ.1, by linarith [hJ.2.1], by linarith [hJ.2.1, hJ.2.2.1], hJ.2.2.2.1, hlt.le⟩)
    (fun l h hJ hle => ⟨by linarith [hJ.1, hJ.2.1], by linarith [hJ.2.1], hJ.2.2.1, hle, hJ.2.2.2.2⟩) 100 v hv
  have hc : ContinuousOn (fun t => eval r2x t) (Set.Icc low high) := by
    have e : (fun t => eval r2x t) = fun t => (toPoly r2x).eval t := by funext t; rw [toPoly_eval]
    rw [e]; exact (toPoly r2x).continuous.continuousOn
  obtain ⟨ρ, hρ, hρx⟩ := intermediate_value_Icc a2 hc ⟨a4, a5⟩
  refine ⟨ρ, by linarith [hρ.1], by linarith [hρ.2], hρx, ?_⟩
  rw [hk] at hw
  have := two_pow_small hw
  rw [← hk] at this
  have e : (1 : ℝ) / 2 ^ 51 = 1 / 2 ^ 50 / 2 := by norm_num
  dsimp only
  rw [e, abs_le]; constructor <;> linarith [hρ.1, hρ.2]

/-! ## The maps of the whole transformation -/

/-- **C45/C47, ends.** `r2x` sends the ends of the r-domain to the ends of the x-domain, and at the common end of two pieces both
give the same value: at every `r` of a piece (its ends included) the global map is that piece's map. -/
theorem r2x_piece {ps : List (Piece ℝ)} {rmin rmax X : ℝ} (hne : ps ≠ []) (htr : Tiles Piece.rmin Piece.rmax rmin ps rmax)
    (htx : Tiles Piece.xmin Piece.xmax 0 ps X) (hpc : ∀ pc ∈ ps, pc.rmin < pc.rmax ∧ eval pc.r2x 0 = pc.xmin ∧ eval pc.r2x 1 = pc.xmax)
    (i : ℕ) (hi : i < ps.length) (r : ℝ) (h1 : ps[i].rmin ≤ r) (h2 : r ≤ ps[i].rmax) :
    r2x ps r = .ok (eval ps[i].r2x (ps[i].normR r)) := by
  have hpos : ∀ pc ∈ ps, pc.rmin < pc.rmax := fun pc h => (hpc pc h).1
  obtain ⟨j, hj, hf, f1, f2, f3, f4, f5⟩ := C47_findPiece hne htr hpos r
  have hlast : ∀ k (hk : k < ps.length), ps[k].rmax ≤ rmax := by
    intro k hk
    rw [← (tiles_get htr (ps.length - 1) (by omega)).2.2 (by omega)]
    exact tiles_mono htr hpos _ (by omega) k (by omega)
  have hfirst : rmin ≤ ps[i].rmin := by
    rcases Nat.eq_zero_or_pos i with h | h
    · rw [(tiles_get htr i hi).1 h]
    · rw [(tiles_get htr i hi).2.1 h]
      have h00 := (tiles_get htr 0 (by omega)).1 rfl
      rw [← h00]
      exact (hpos _ (List.getElem_mem _)).le.trans (tiles_mono htr hpos (i - 1) (by omega) 0 (by omega))
  simp only [r2x, hf, Outcome.bind_ok, Outcome.pure_eq]
  -- the piece found is `i`, or the next one when `r` is the right end of `i`
  rcases Nat.lt_trichotomy j i with hji | hji | hji
  · exfalso
    have hm : ps[j].rmax ≤ ps[i].rmin := by
      rw [(tiles_get htr i hi).2.1 (by omega)]
      exact tiles_mono htr hpos (i - 1) (by omega) j (by omega)
    rcases lt_or_ge r rmax with h | h
    · exact absurd (f2 h) (not_lt.mpr (hm.trans h1))
    · have := f5 h; omega
  · subst hji; rfl
  · have hm : ps[i].rmax ≤ ps[j].rmin := by
      rw [(tiles_get htr j hj).2.1 (by omega)]
      exact tiles_mono htr hpos (j - 1) (by omega) i (by omega)
    have e1 : r = ps[j].rmin := le_antisymm (h2.trans hm) (f1 (hfirst.trans h1))
    have e2 : r = ps[i].rmax := le_antisymm h2 (e1 ▸ hm)
    have hjeq : j = i + 1 := by
      by_contra hne'
      have h3 : ps[i + 1].rmax ≤ ps[j - 1].rmax := tiles_mono htr hpos (j - 1) (by omega) (i + 1) (by omega)
      have h4 := (tiles_get htr (i + 1) (by omega)).2.1 (by omega)
      simp only [Nat.add_sub_cancel] at h4
      have h5 := hpos _ (List.getElem_mem (l := ps) (n := i + 1) (by omega))
      have h6 := (tiles_get htr j hj).2.1 (by omega)
      rw [← h6, ← e1, e2, ← h4] at h3
      exact absurd h5 (not_lt.mpr h3)
    subst hjeq
    have n1 : ps[i + 1].normR r = 0 := by rw [Piece.normR, e1, sub_self, zero_div]
    have n2 : ps[i].normR r = 1 := by
      rw [Piece.normR, e2]; exact div_self (sub_ne_zero.mpr (hpos _ (List.getElem_mem hi)).ne')
    rw [n1, n2, (hpc _ (List.getElem_mem hj)).2.1, (hpc _ (List.getElem_mem hi)).2.2]
    have := (tiles_get htx (i + 1) hj).2.1 (by omega)
    simp only [Nat.add_sub_cancel] at this
    rw [this]

/-- **C46, round trip.** For the transformation built from `p` and `w` (with `x` increasing on every piece) and every `x` in the
x-domain, `x2r(x)` is within `2⁻⁵¹ (rmax - rmin)` of a point `r` of the r-domain with `r2x(r) = x`; and `r2x` sends the ends of
the r-domain to the ends of the x-domain. -/
theorem C46_roundtrip (sqrt P W : ℝ → ℝ) (acc : Piece ℝ → Piece ℝ → Piece ℝ → Bool) (fuel : ℕ) {rmin rmax : ℝ} (hr : rmin < rmax)
    (ps : List (Piece ℝ)) (h : constructPiecewise (mkPiece sqrt P W) acc fuel rmin rmax = .ok ps) (hx : ∀ pc ∈ ps, pc.xmin < pc.xmax) :
    ∃ X, Tiles Piece.xmin Piece.xmax 0 ps X ∧ r2x ps rmin = .ok 0 ∧ r2x ps rmax = .ok X ∧
      ∀ x, 0 ≤ x → x ≤ X → ∃ r r', rmin ≤ r ∧ r ≤ rmax ∧ r2x ps r = .ok x ∧ x2r ps x = .ok r' ∧ |r' - r| ≤ 1 / 2 ^ 51 * (rmax - rmin) := by
  obtain ⟨hne, htr, ⟨X, htx⟩, hpc⟩ := C45_tiling sqrt P W acc fuel hr ps h
  have hposr : ∀ pc ∈ ps, pc.rmin < pc.rmax := fun pc h => (hpc pc h).1
  have hlen : 0 < ps.length := List.length_pos_iff.mpr hne
  have first := tiles_get htr 0 hlen
  have firstx := tiles_get htx 0 hlen
  have last := tiles_get htr (ps.length - 1) (by omega)
  have lastx := tiles_get htx (ps.length - 1) (by omega)
  have inside : ∀ i (hi : i < ps.length), rmin ≤ ps[i].rmin ∧ ps[i].rmax ≤ rmax := by
    intro i hi
    constructor
    · rcases Nat.eq_zero_or_pos i with h | h
      · rw [(tiles_get htr i hi).1 h]
      · rw [(tiles_get htr i hi).2.1 h, ← first.1 rfl]
        exact (hposr _ (List.getElem_mem _)).le.trans (tiles_mono htr hposr (i - 1) (by omega) 0 (by omega))
    · rw [← last.2.2 (by omega)]
      exact tiles_mono htr hposr _ (by omega) i (by omega)
  refine ⟨X, htx, ?_, ?_, ?_⟩
  · rw [r2x_piece hne htr htx hpc 0 hlen rmin (first.1 rfl).le (by
      rw [← first.1 rfl]; exact (hposr _ (List.getElem_mem _)).le)]
    have : ps[0].normR rmin = 0 := by rw [Piece.normR, first.1 rfl, sub_self, zero_div]
    rw [this, (hpc _ (List.getElem_mem _)).2.1, firstx.1 rfl]
  · rw [r2x_piece hne htr htx hpc (ps.length - 1) (by omega) rmax (by
      rw [← last.2.2 (by omega)]; exact (hposr _ (List.getElem_mem _)).le) (last.2.2 (by omega)).ge]
    have : ps[ps.length - 1].normR rmax = 1 := by
      rw [Piece.normR, last.2.2 (by omega)]
      refine div_self (sub_ne_zero.mpr ?_)
      have := hposr _ (List.getElem_mem (l := ps) (n := ps.length - 1) (by omega))
      rw [last.2.2 (by omega)] at this; exact this.ne'
    rw [this, (hpc _ (List.getElem_mem _)).2.2, lastx.2.2 (by omega)]
  · intro x h0 h1
    obtain ⟨i, hi, hf, f1, f2, f3, -, -⟩ := C47_findPiece hne htx hx x
    have hl : ps[i].xmin ≤ x := f1 h0
    have hu : x ≤ ps[i].xmax := by
      rcases lt_or_eq_of_le h1 with h | h
      · exact (f2 h).le
      · exact (f3 h).le
    obtain ⟨hlt, e0, e1⟩ := hpc _ (List.getElem_mem hi)
    have hxx := hx _ (List.getElem_mem hi)
    obtain ⟨ρ, p0, p1, pv, pd⟩ := C46_preimage ps[i].r2x (x := x) (by rw [e0]; exact hl) (by rw [e1]; exact hu)
    have hin := inside i hi
    refine ⟨ps[i].rmin + (ps[i].rmax - ps[i].rmin) * ρ, ps[i].x2r (ps[i].normX x), ?_, ?_, ?_, ?_, ?_⟩
    · nlinarith
    · nlinarith
    · rw [r2x_piece hne htr htx hpc i hi _ (by nlinarith) (by nlinarith)]
      have : ps[i].normR (ps[i].rmin + (ps[i].rmax - ps[i].rmin) * ρ) = ρ := by
        rw [Piece.normR]
        have : ps[i].rmax - ps[i].rmin ≠ 0 := by linarith
        field_simp
        ring
      rw [this, pv]
    · simp only [x2r, hf, Outcome.bind_ok, Outcome.pure_eq]
    · have : ps[i].xmin + ps[i].normX x * (ps[i].xmax - ps[i].xmin) = x := by
        rw [Piece.normX, div_mul_cancel₀ _ (by linarith)]; ring
      rw [Piece.x2r, this]
      have : ps[i].rmin + (ps[i].rmax - ps[i].rmin) * x2rImpl ps[i].r2x x - (ps[i].rmin + (ps[i].rmax - ps[i].rmin) * ρ) =
        (ps[i].rmax - ps[i].rmin) * (x2rImpl ps[i].r2x x - ρ) := by ring
      rw [this, abs_mul, abs_of_pos (by linarith), mul_comm]
      exact mul_le_mul pd (by linarith) (by linarith) (by norm_num)

/-- The hypotheses are met, e.g. for `p = 1`, `w = 4` on `[0, 1]`. -/
example : ∃ fuel ps, constructPiecewise (mkPiece Real.sqrt (fun _ => 1) (fun _ => 4)) accept fuel 0 1 = .ok ps ∧
    ∀ pc ∈ ps, pc.xmin < pc.xmax := by
  obtain ⟨fuel, ps, h⟩ := C45_terminates (P := fun _ => 1) (W := fun _ => 4) (zero_lt_one) continuousOn_const continuousOn_const
    (fun _ _ => one_pos) (fun _ _ => by norm_num)
  refine ⟨fuel, ps, h, fun pc hpc => ?_⟩
  obtain ⟨C, -, near⟩ := asPolynomial_near
  have hlt := ((C45_tiling _ _ _ _ _ zero_lt_one ps h).2.2.2 pc hpc).1
  refine C45_x_increases Real.sqrt _ _ (fun t ht => Real.sqrt_pos.mpr ht) accept fuel zero_lt_one ps h pc hpc (fun t h0 h1 => ?_) (fun t h0 h1 => ?_)
  · have := near (fun _ => 1) pc.rmin pc.rmax 1 0 hlt (by simp) t h0.le h1.le
    rw [abs_le] at this
    have h2 := this.1
    norm_num at h2
    have e : eval (⟨Legendre.asPolynomial 9 (fun _ => 1) pc.rmin pc.rmax⟩ : Poly ℝ 8) t > 0 := by linarith
    exact e
  · have := near (fun _ => 4) pc.rmin pc.rmax 4 0 hlt (by simp) t h0.le h1.le
    rw [abs_le] at this
    have h2 := this.1
    norm_num at h2
    have e : eval (⟨Legendre.asPolynomial 9 (fun _ => 4) pc.rmin pc.rmax⟩ : Poly ℝ 8) t > 0 := by linarith
    exact e

end Verif.Liouville
