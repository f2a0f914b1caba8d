import Verif.Model.Ieee
import Verif.Spec.Ieee

/-!
# `rne` gives the nearest number
-/
namespace Verif.Fp

theorem roundEven_nearest (q : ℝ) (k : ℤ) : |(roundEven q : ℝ) - q| ≤ |(k : ℝ) - q| := by
  have h1 := Int.floor_le q
  have h2 := Int.lt_floor_add_one q
  have key : |(roundEven q : ℝ) - q| ≤ q - ⌊q⌋ ∧ |(roundEven q : ℝ) - q| ≤ ⌊q⌋ + 1 - q := by
    unfold roundEven
    split_ifs <;> push_cast <;> refine ⟨abs_le.mpr ⟨?_, ?_⟩, abs_le.mpr ⟨?_, ?_⟩⟩ <;> linarith
  rcases le_or_gt k ⌊q⌋ with h | h
  · have h' : (k : ℝ) ≤ ⌊q⌋ := by exact_mod_cast h
    rw [abs_of_nonpos (a := (k : ℝ) - q) (by linarith)]
    linarith [key.1]
  · have h' : (⌊q⌋ : ℝ) + 1 ≤ k := by exact_mod_cast h
    rw [abs_of_nonneg (a := (k : ℝ) - q) (by linarith)]
    linarith [key.2]

variable {p : ℕ} {emin : ℤ}

theorem rnePos_nearest_mult {x : ℝ} (k : ℤ) : |rnePos p emin x - x| ≤ |k * 2 ^ ulpExp p emin x - x| := by
  unfold rnePos
  set t : ℝ := 2 ^ ulpExp p emin x with ht
  have t0 : 0 < t := by positivity
  have e : ∀ n : ℤ, (n : ℝ) * t - x = (n - x / t) * t := fun n => by field_simp
  rw [e, e, abs_mul, abs_mul]
  exact mul_le_mul_of_nonneg_right (roundEven_nearest _ _) (abs_nonneg _)

theorem rnePos_nearest (hp : 1 ≤ p) {x y : ℝ} (hx : 0 < x) (hy : Representable p emin y) : |rnePos p emin x - x| ≤ |y - x| := by
  obtain ⟨m, f, hm, hf, rfl⟩ := hy
  have l0 : (2 : ℝ) ≠ 0 := by norm_num
  have hl : (2 : ℝ) ^ Int.log 2 x ≤ x := by exact_mod_cast Int.zpow_log_le_self (b := 2) (by norm_num) hx
  rcases le_or_gt (ulpExp p emin x) f with h | h
  · have := rnePos_nearest_mult (p := p) (emin := emin) (x := x) (m * 2 ^ (f - ulpExp p emin x).toNat)
    have e : ((m * 2 ^ (f - ulpExp p emin x).toNat : ℤ) : ℝ) * 2 ^ ulpExp p emin x = m * 2 ^ f := by
      push_cast
      rw [← zpow_natCast, Int.toNat_of_nonneg (by omega), mul_assoc, ← zpow_add₀ l0]
      congr 2; ring
    rwa [e] at this
  · have eu : ulpExp p emin x = Int.log 2 x - p + 1 := by
      unfold ulpExp at h ⊢
      rw [max_def] at h ⊢
      split_ifs at h ⊢ <;> omega
    have key := rnePos_nearest_mult (p := p) (emin := emin) (x := x) (2 ^ (p - 1))
    have e : ((2 ^ (p - 1) : ℤ) : ℝ) * 2 ^ ulpExp p emin x = 2 ^ Int.log 2 x := by
      push_cast
      rw [eu, ← zpow_natCast, ← zpow_add₀ l0]
      congr 1; omega
    rw [e] at key
    have hmy : (m : ℝ) * 2 ^ f ≤ 2 ^ Int.log 2 x := by
      have a1 : (m : ℝ) ≤ 2 ^ p := by exact_mod_cast (le_abs_self m).trans hm
      have a2 : (m : ℝ) * 2 ^ f ≤ 2 ^ p * 2 ^ f := mul_le_mul_of_nonneg_right a1 (by positivity)
      refine a2.trans ?_
      rw [← zpow_natCast, ← zpow_add₀ l0]
      exact zpow_le_zpow_right₀ (by norm_num) (by omega)
    rw [abs_of_nonpos (a := (2 : ℝ) ^ Int.log 2 x - x) (by linarith)] at key
    rw [abs_of_nonpos (a := (m : ℝ) * 2 ^ f - x) (by linarith)]
    linarith

theorem rnePos_representable {x : ℝ} (hx : 0 ≤ x) : Representable p emin (rnePos p emin x) := by
  rcases hx.eq_or_lt with rfl | hx
  · rw [rnePos_zero]; exact ⟨0, emin, by simp, le_rfl, by simp⟩
  have l0 : (2 : ℝ) ≠ 0 := by norm_num
  have hl : x < (2 : ℝ) ^ (Int.log 2 x + 1) := by exact_mod_cast Int.lt_zpow_succ_log_self (b := 2) (by norm_num) x
  refine ⟨_, _, ?_, le_max_right _ _, rfl⟩
  have t0 : (0 : ℝ) < 2 ^ ulpExp p emin x := by positivity
  have h0 := roundEven_nonneg (div_nonneg hx.le t0.le)
  rw [abs_of_nonneg h0]
  have hb : x / 2 ^ ulpExp p emin x ≤ ((2 ^ p : ℤ) : ℝ) := by
    push_cast
    rw [div_le_iff₀ t0, ← zpow_natCast, ← zpow_add₀ l0]
    refine hl.le.trans (zpow_le_zpow_right₀ (by norm_num) ?_)
    have : Int.log 2 x - p + 1 ≤ ulpExp p emin x := le_max_left _ _
    omega
  have := roundEven_mono hb
  rwa [roundEven_int] at this

theorem Representable.neg {y : ℝ} (h : Representable p emin y) : Representable p emin (-y) := by
  obtain ⟨m, e, h1, h2, rfl⟩ := h
  exact ⟨-m, e, by rwa [abs_neg], h2, by push_cast; ring⟩

theorem rne_representable (x : ℝ) : Representable p emin (rne p emin x) := by
  unfold rne
  split_ifs with h
  · exact rnePos_representable h
  · exact (rnePos_representable (by linarith)).neg

theorem rne_nearest (hp : 1 ≤ p) (x : ℝ) {y : ℝ} (hy : Representable p emin y) : |rne p emin x - x| ≤ |y - x| := by
  unfold rne
  split_ifs with h
  · rcases h.eq_or_lt with rfl | h
    · rw [rnePos_zero]; simp
    · exact rnePos_nearest hp h hy
  · have := rnePos_nearest hp (x := -x) (by linarith) hy.neg
    rw [show -rnePos p emin (-x) - x = -(rnePos p emin (-x) - -x) by ring, abs_neg, show y - x = -(-y - -x) by ring, abs_neg]
    exact this

/-- Ties. -/
theorem rne_tie (hp : 1 ≤ p) (k : ℕ) (e : ℤ) (he : emin ≤ e) (hk : k < 2 ^ p) (hl : 2 ^ (p - 1) ≤ k ∨ e = emin) :
    rne p emin ((k + 1 / 2) * 2 ^ e) = (if k % 2 = 0 then k else k + 1 : ℕ) * 2 ^ e := by
  have l0 : (2 : ℝ) ≠ 0 := by norm_num
  have t0 : (0 : ℝ) < 2 ^ e := by positivity
  have hx : (0 : ℝ) < (k + 1 / 2) * 2 ^ e := by positivity
  have hu : ulpExp p emin ((k + 1 / 2) * 2 ^ e) = e := by
    have up : Int.log 2 (((k : ℝ) + 1 / 2) * 2 ^ e) < p + e := by
      rw [← Int.lt_zpow_iff_log_lt (by norm_num) hx]
      push_cast
      rw [zpow_add₀ l0]
      refine mul_lt_mul_of_pos_right ?_ t0
      have : (k : ℝ) + 1 ≤ 2 ^ p := by exact_mod_cast hk
      rw [zpow_natCast]; linarith
    unfold ulpExp
    rcases hl with hl | rfl
    · have lo : p - 1 + e ≤ Int.log 2 (((k : ℝ) + 1 / 2) * 2 ^ e) := by
        rw [← Int.zpow_le_iff_le_log (by norm_num) hx]
        push_cast
        rw [zpow_add₀ l0]
        refine mul_le_mul_of_nonneg_right ?_ t0.le
        have : (2 : ℝ) ^ (p - 1) ≤ k := by exact_mod_cast hl
        have e' : (2 : ℝ) ^ ((p : ℤ) - 1) = 2 ^ (p - 1) := by
          rw [← zpow_natCast]; congr 1; omega
        rw [e']; linarith
      rw [max_eq_left] <;> omega
    · exact max_eq_right (by omega)
  unfold rne rnePos
  rw [if_pos hx.le, hu, mul_div_assoc, div_self t0.ne', mul_one]
  congr 1
  have hfl : ⌊(k : ℝ) + 1 / 2⌋ = k := by
    rw [Int.floor_eq_iff]; push_cast; constructor <;> linarith
  unfold roundEven
  rw [hfl]
  have hc : (k : ℝ) + 1 / 2 - ((k : ℤ) : ℝ) = 1 / 2 := by push_cast; ring
  rw [hc, if_neg (lt_irrefl _), if_neg (lt_irrefl _)]
  rcases Nat.mod_two_eq_zero_or_one k with h | h
  · rw [if_pos (by omega), if_pos h]; push_cast; rfl
  · rw [if_neg (by omega), if_neg (by omega)]; push_cast; rfl

end Verif.Fp
