import Verif.Model.Rounded
import Mathlib.Data.Int.Log
import Mathlib.Algebra.Order.Floor.Ring
import Mathlib.Tactic.Positivity
import Mathlib.Tactic.FieldSimp

/-!
# IEEE 754 rounding to nearest, ties to even
`matslise/matslise.h:121-122` (`Scalar_ = double`)

`rne p emin x`: the multiple of `2^e` nearest to `x`, where `2^e` is the distance of the floating point numbers with `p` significant bits around `x`,
and at least `2^emin` (gradual underflow); at equal distance the even multiple. `double` has `p = 53`, `emin = -1074`; `float` `p = 24`, `emin = -149`. Simplification: no largest number.
-/
namespace Verif.Fp

/-- Nearest integer, ties to even. -/
noncomputable def roundEven (q : ℝ) : ℤ :=
  if q - ⌊q⌋ < 1 / 2 then ⌊q⌋ else if 1 / 2 < q - ⌊q⌋ then ⌊q⌋ + 1 else if ⌊q⌋ % 2 = 0 then ⌊q⌋ else ⌊q⌋ + 1

/-- Exponent of the last place of `x ≥ 0`. -/
noncomputable def ulpExp (p : ℕ) (emin : ℤ) (x : ℝ) : ℤ := max (Int.log 2 x - p + 1) emin

/-- Rounding of a number `x ≥ 0`. -/
noncomputable def rnePos (p : ℕ) (emin : ℤ) (x : ℝ) : ℝ := roundEven (x / 2 ^ ulpExp p emin x) * 2 ^ ulpExp p emin x

/-- Round to nearest, ties to even. -/
noncomputable def rne (p : ℕ) (emin : ℤ) (x : ℝ) : ℝ := if 0 ≤ x then rnePos p emin x else -rnePos p emin (-x)

theorem roundEven_cases (q : ℝ) : roundEven q = ⌊q⌋ ∨ roundEven q = ⌊q⌋ + 1 := by
  unfold roundEven; split_ifs <;> simp

theorem roundEven_mono : Monotone roundEven := by
  intro q q' h
  have hf : ⌊q⌋ ≤ ⌊q'⌋ := Int.floor_le_floor h
  rcases hf.lt_or_eq with hlt | heq
  · have h1 : roundEven q ≤ ⌊q⌋ + 1 := by rcases roundEven_cases q with h | h <;> rw [h]; linarith
    have h2 : ⌊q'⌋ ≤ roundEven q' := by rcases roundEven_cases q' with h | h <;> rw [h]; linarith
    omega
  · unfold roundEven
    rw [← heq]
    split_ifs <;> first | omega | (exfalso; linarith)

theorem roundEven_err (q : ℝ) : |(roundEven q : ℝ) - q| ≤ 1 / 2 := by
  have h1 := Int.floor_le q
  have h2 := Int.lt_floor_add_one q
  unfold roundEven
  split_ifs <;> rw [abs_le] <;> push_cast <;> constructor <;> linarith

theorem roundEven_int (n : ℤ) : roundEven n = n := by
  unfold roundEven; simp

theorem roundEven_nonneg {q : ℝ} (h : 0 ≤ q) : 0 ≤ roundEven q := by
  have := roundEven_mono h
  have e := roundEven_int 0
  rw [Int.cast_zero] at e
  rwa [e] at this

variable {p : ℕ} {emin : ℤ}

theorem rnePos_zero : rnePos p emin 0 = 0 := by
  unfold rnePos
  have e := roundEven_int 0
  rw [Int.cast_zero] at e
  rw [zero_div, e]; simp

theorem rnePos_nonneg {x : ℝ} (h : 0 ≤ x) : 0 ≤ rnePos p emin x := by
  unfold rnePos
  have : (0 : ℝ) ≤ 2 ^ ulpExp p emin x := by positivity
  have h1 : (0 : ℝ) ≤ roundEven (x / 2 ^ ulpExp p emin x) := by exact_mod_cast roundEven_nonneg (div_nonneg h this)
  exact mul_nonneg h1 this

theorem rnePos_err {x : ℝ} : |rnePos p emin x - x| ≤ 2 ^ ulpExp p emin x / 2 := by
  unfold rnePos
  set t : ℝ := 2 ^ ulpExp p emin x with ht
  have t0 : 0 < t := by positivity
  have e : (roundEven (x / t) : ℝ) * t - x = (roundEven (x / t) - x / t) * t := by field_simp
  rw [e, abs_mul, abs_of_pos t0]
  have := mul_le_mul_of_nonneg_right (roundEven_err (x / t)) t0.le
  linarith

theorem ulpExp_le {x : ℝ} (hx : 0 < x) : (2 : ℝ) ^ ulpExp p emin x / 2 ≤ 2 ^ (-(p : ℤ)) * max x (2 ^ (emin + p - 1)) := by
  have l0 : (2 : ℝ) ≠ 0 := by norm_num
  have hl : (2 : ℝ) ^ Int.log 2 x ≤ x := by exact_mod_cast Int.zpow_log_le_self (b := 2) (by norm_num) hx
  have hp : (0 : ℝ) < 2 ^ (-(p : ℤ)) := by positivity
  unfold ulpExp
  rcases le_total (Int.log 2 x - p + 1) emin with h | h
  · rw [max_eq_right h]
    have e : (2 : ℝ) ^ emin / 2 = 2 ^ (-(p : ℤ)) * 2 ^ (emin + p - 1) := by
      rw [← zpow_add₀ l0, div_eq_iff l0, ← zpow_add_one₀ l0]; congr 1; ring
    rw [e]; exact mul_le_mul_of_nonneg_left (le_max_right _ _) hp.le
  · rw [max_eq_left h]
    have e : (2 : ℝ) ^ (Int.log 2 x - p + 1) / 2 = 2 ^ (-(p : ℤ)) * 2 ^ (Int.log 2 x) := by
      rw [← zpow_add₀ l0, div_eq_iff l0, ← zpow_add_one₀ l0]; congr 1; ring
    rw [e]; exact mul_le_mul_of_nonneg_left (hl.trans (le_max_left _ _)) hp.le

theorem rnePos_mono (hp : 1 ≤ p) {x y : ℝ} (hx : 0 < x) (hxy : x ≤ y) : rnePos p emin x ≤ rnePos p emin y := by
  have hy := hx.trans_le hxy
  have l0 : (2 : ℝ) ≠ 0 := by norm_num
  have hlog : Int.log 2 x ≤ Int.log 2 y := Int.log_mono_right hx hxy
  have he : ulpExp p emin x ≤ ulpExp p emin y := by unfold ulpExp; exact max_le_max (by omega) le_rfl
  rcases he.lt_or_eq with hlt | heq
  · have ey : ulpExp p emin y = Int.log 2 y - p + 1 := by
      unfold ulpExp at hlt ⊢
      rw [max_def] at hlt ⊢
      split_ifs at hlt ⊢ <;> omega
    have h1 : Int.log 2 x - p + 1 < Int.log 2 y - p + 1 := by
      have : Int.log 2 x - p + 1 ≤ ulpExp p emin x := le_max_left _ _
      omega
    -- the power of two below `y` separates the results
    set q : ℝ := 2 ^ Int.log 2 y with hq
    have a1 : x < q := by
      have : x < (2 : ℝ) ^ (Int.log 2 x + 1) := by exact_mod_cast Int.lt_zpow_succ_log_self (b := 2) (by norm_num) x
      exact this.trans_le (zpow_le_zpow_right₀ (by norm_num) (by omega))
    have a2 : q ≤ y := by exact_mod_cast Int.zpow_log_le_self (b := 2) (by norm_num) hy
    have grid : ∀ e : ℤ, e ≤ Int.log 2 y → ∃ n : ℤ, q / 2 ^ e = n := by
      intro e h
      refine ⟨2 ^ (Int.log 2 y - e).toNat, ?_⟩
      rw [hq, ← zpow_sub₀ l0]
      push_cast
      rw [← zpow_natCast, Int.toNat_of_nonneg (by omega)]
    have b1 : rnePos p emin x ≤ q := by
      obtain ⟨n, hn⟩ := grid (ulpExp p emin x) (by omega)
      unfold rnePos
      have t0 : (0 : ℝ) < 2 ^ ulpExp p emin x := by positivity
      have : roundEven (x / 2 ^ ulpExp p emin x) ≤ n := by
        rw [← roundEven_int n, ← hn]
        exact roundEven_mono ((div_le_div_iff_of_pos_right t0).mpr a1.le)
      have h2 : (roundEven (x / 2 ^ ulpExp p emin x) : ℝ) ≤ q / 2 ^ ulpExp p emin x := by rw [hn]; exact_mod_cast this
      rwa [le_div_iff₀ t0] at h2
    have b2 : q ≤ rnePos p emin y := by
      obtain ⟨n, hn⟩ := grid (ulpExp p emin y) (by omega)
      unfold rnePos
      have t0 : (0 : ℝ) < 2 ^ ulpExp p emin y := by positivity
      have : n ≤ roundEven (y / 2 ^ ulpExp p emin y) := by
        rw [← roundEven_int n, ← hn]
        exact roundEven_mono ((div_le_div_iff_of_pos_right t0).mpr a2)
      have h2 : q / 2 ^ ulpExp p emin y ≤ (roundEven (y / 2 ^ ulpExp p emin y) : ℝ) := by rw [hn]; exact_mod_cast this
      rwa [div_le_iff₀ t0] at h2
    exact b1.trans b2
  · unfold rnePos
    rw [heq]
    have t0 : (0 : ℝ) < 2 ^ ulpExp p emin y := by positivity
    refine mul_le_mul_of_nonneg_right ?_ t0.le
    exact_mod_cast roundEven_mono ((div_le_div_iff_of_pos_right t0).mpr hxy)

/-- **IEEE 754 rounding obeys the laws of `Rounding`**, with unit roundoff `2^-p` and smallest normal number `2^(emin + p - 1)`. -/
theorem rounding_rne (p : ℕ) (hp : 1 ≤ p) (emin : ℤ) : Rounding (2 ^ (-(p : ℤ))) (2 ^ (emin + p - 1)) (rne p emin) where
  err := by
    have key : ∀ x : ℝ, 0 ≤ x → |rnePos p emin x - x| ≤ 2 ^ (-(p : ℤ)) * max x (2 ^ (emin + p - 1)) := by
      intro x hx
      rcases hx.lt_or_eq with h | h
      · exact rnePos_err.trans (ulpExp_le h)
      · subst h; rw [rnePos_zero]; simp only [sub_self, abs_zero]; positivity
    intro x
    unfold rne
    split_ifs with h
    · rw [abs_of_nonneg h]; exact key x h
    · push Not at h
      have := key (-x) (by linarith)
      rw [abs_of_neg h]
      rwa [show -rnePos p emin (-x) - x = -(rnePos p emin (-x) - -x) by ring, abs_neg]
  mono := by
    have pos : ∀ x y : ℝ, 0 ≤ x → x ≤ y → rnePos p emin x ≤ rnePos p emin y := by
      intro x y hx hxy
      rcases hx.lt_or_eq with h | h
      · exact rnePos_mono hp h hxy
      · subst h; rw [rnePos_zero]; exact rnePos_nonneg hxy
    intro x y hxy
    unfold rne
    split_ifs with h1 h2 h2
    · exact pos x y h1 hxy
    · exact absurd (h1.trans hxy) h2
    · push Not at h1
      have := rnePos_nonneg (p := p) (emin := emin) (show 0 ≤ -x by linarith)
      have := rnePos_nonneg (p := p) (emin := emin) h2
      linarith
    · push Not at h2
      have := pos (-y) (-x) (by linarith) (by linarith)
      linarith
  neg := by
    intro x
    unfold rne
    rcases lt_trichotomy x 0 with h | h | h
    · rw [if_pos (by linarith), if_neg (by linarith)]; ring
    · subst h; simp [rnePos_zero]
    · rw [if_neg (by linarith), if_pos h.le, neg_neg]

end Verif.Fp
