import Verif.Props.Search

/-!
# The doubling loops of `eigenvaluesByIndex` stop at the first power of two that brackets
-/
namespace Verif.Search
open Verif

variable {K : Type} [Field K] [LinearOrder K] [IsStrictOrderedRing K] [FloorRing K]

theorem expandMax_finds (θ : K → K) (Imin Imax : Int) : ∀ (n fuel : ℕ) (lo hi : K), n ≤ fuel → 0 < hi → lo < hi →
    (Imax : K) ≤ θ (hi * 2 ^ n) → ∃ w, expandMax θ Imin Imax fuel (lo, hi) = .ok w ∧ lo ≤ w.1 ∧ w.2 ≤ hi * 2 ^ n := by
  intro n
  induction n with
  | zero =>
    intro fuel lo hi _ _ _ h
    have hi' : Imax ≤ ⌊θ hi⌋ := Int.le_floor.mpr (by simpa using h)
    have e : CInt.floor (θ hi) = some ⌊θ hi⌋ := rfl
    refine ⟨(lo, hi), ?_, le_rfl, by simp⟩
    unfold expandMax
    simp [e, toInt, hi']
  | succ n ih =>
    intro fuel lo hi hf hp hlh h
    obtain ⟨fuel, rfl⟩ : ∃ f, fuel = f + 1 := ⟨fuel - 1, by omega⟩
    have e : CInt.floor (θ hi) = some ⌊θ hi⌋ := rfl
    have e2 : hi * 2 ^ (n + 1) = hi * 2 * 2 ^ n := by rw [pow_succ]; ring
    rw [e2] at h ⊢
    unfold expandMax
    simp only [e, toInt, Outcome.bind_ok, ccmp_lit, Rat.cast_ofNat]
    split
    · refine ⟨(lo, hi), rfl, le_rfl, ?_⟩
      have : (1 : K) ≤ 2 * 2 ^ n := by
        have := one_le_pow₀ (n := n) (show (1 : K) ≤ 2 by norm_num)
        linarith
      show hi ≤ _
      rw [mul_assoc]
      exact le_mul_of_one_le_right hp.le this
    · split
      · obtain ⟨w, w1, w2, w3⟩ := ih fuel hi (hi * 2) (by omega) (by linarith) (by linarith) h
        exact ⟨w, w1, by linarith, w3⟩
      · exact ih fuel lo (hi * 2) (by omega) (by linarith) (by linarith) h

theorem expandMin_finds (θ : K → K) (Imin Imax : Int) : ∀ (n fuel : ℕ) (lo hi : K), n ≤ fuel → lo < 0 → lo < hi →
    θ (lo * 2 ^ n) ≤ Imin → ∃ w, expandMin θ Imin Imax fuel (lo, hi) = .ok w ∧ lo * 2 ^ n ≤ w.1 ∧ w.2 ≤ hi := by
  intro n
  induction n with
  | zero =>
    intro fuel lo hi _ _ _ h
    have hi' : ⌈θ lo⌉ ≤ Imin := Int.ceil_le.mpr (by simpa using h)
    have e : CInt.ceil (θ lo) = some ⌈θ lo⌉ := rfl
    refine ⟨(lo, hi), ?_, by simp, le_rfl⟩
    unfold expandMin
    simp [e, toInt, hi']
  | succ n ih =>
    intro fuel lo hi hf hp hlh h
    obtain ⟨fuel, rfl⟩ : ∃ f, fuel = f + 1 := ⟨fuel - 1, by omega⟩
    have e : CInt.ceil (θ lo) = some ⌈θ lo⌉ := rfl
    have e2 : lo * 2 ^ (n + 1) = lo * 2 * 2 ^ n := by rw [pow_succ]; ring
    rw [e2] at h ⊢
    unfold expandMin
    simp only [e, toInt, Outcome.bind_ok, ccmp_lit, Rat.cast_ofNat]
    split
    · refine ⟨(lo, hi), rfl, ?_, le_rfl⟩
      have : (1 : K) ≤ 2 * 2 ^ n := by
        have := one_le_pow₀ (n := n) (show (1 : K) ≤ 2 by norm_num)
        linarith
      show _ ≤ lo
      rw [mul_assoc]
      have := mul_le_mul_of_nonpos_left this hp.le
      linarith
    · split
      · obtain ⟨w, w1, w2, w3⟩ := ih fuel (lo * 2) lo (by omega) (by linarith) (by linarith) h
        exact ⟨w, w1, w2, by linarith⟩
      · exact ih fuel (lo * 2) hi (by omega) (by linarith) (by linarith) h

/-- If the angle has reached `Imax` at `2^p` and is at most `Imin` at `-2^q`, the window search stops with a window inside `[-2^q, 2^p]`, whatever the angle does
elsewhere. -/
theorem window_finds (θ : K → K) (Imin Imax : Int) (p q fuel : ℕ) (hp : p ≤ fuel) (hq : q ≤ fuel) (h1 : (Imax : K) ≤ θ (2 ^ p)) (h2 : θ (-2 ^ q) ≤ Imin) :
    ∃ w, window θ Imin Imax fuel = .ok w ∧ -2 ^ q ≤ w.1 ∧ w.2 ≤ 2 ^ p := by
  have e1 : (CCmp.lit (-1) : K) = -1 := by simp
  have e2 : (CCmp.lit 1 : K) = 1 := by simp
  have one : (1 : K) ≤ 2 ^ q := one_le_pow₀ (by norm_num)
  obtain ⟨w, w1, w2, w3⟩ := expandMax_finds θ Imin Imax p fuel (-1) 1 hp one_pos (by linarith [zero_lt_one (α := K)]) (by rwa [one_mul])
  have w4 := (expandMax_spec θ Imin Imax fuel (-1) 1 w (by linarith [zero_lt_one (α := K)]) one_pos (.inl rfl) w1).1
  unfold window
  rw [e1, e2, w1]
  simp only [Outcome.bind_ok, ccmp_eq, decide_eq_true_eq]
  rw [one_mul] at w3
  split
  · rename_i hc
    obtain ⟨v1, v2⟩ := w
    simp only at hc w3 w4
    subst hc
    obtain ⟨v, g1, g2, g3⟩ := expandMin_finds θ Imin Imax q fuel (-1) v2 hq (by linarith [zero_lt_one (α := K)]) w4 (by rwa [neg_one_mul])
    rw [neg_one_mul] at g2
    exact ⟨v, g1, g2, g3.trans w3⟩
  · exact ⟨w, rfl, by linarith, w3⟩

end Verif.Search
