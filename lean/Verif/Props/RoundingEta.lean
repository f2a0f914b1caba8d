import Verif.Lemmas.FlEta
import Verif.Spec.FinitePrecision
import Verif.Model.Ieee

/-!
# The η functions in finite precision: C117
-/
namespace Verif.Fp
open Verif.Eta

variable {u mu : ℝ} {fl : ℝ → ℝ}

/-- **C117.** `calculateEta` in finite precision, every operation rounded: with unit roundoff `u ≤ 1/1000`, smallest normal number at most `10⁻¹⁵⁰` (`double`: `2⁻⁵³`, `2⁻¹⁰²²`) and elementary functions accurate to `a`, each of the first
`n ≤ 10` values, at every argument `Z`, in both branches, differs from `η_i(Z)` by at most `(e^(320 u + (3 + √|Z|) a) - 1 + 10⁻³⁸) cosh √max(|Z|, 1)`: some 320 units of roundoff, relative to the size of the η functions at `|Z|`. -/
theorem C117_eta (hr : Rounding u mu fl) (hu : 0 ≤ u) (hu' : u ≤ 1 / 1000) (hmu0 : 0 ≤ mu) (hmu : mu ≤ 1 / 10 ^ 150) (h100 : fl 100 = 100) {a : ℝ} (ha : a ≤ 1 / 1000) {F : Elem (Fl fl)} (hF : ElemFl a F)
    {n : ℕ} (hn2 : 2 ≤ n) (hn : n ≤ 10) (junk : ℕ → Fl fl) (Z : Fl fl) {i : ℕ} (hi : i < n) :
    |(calculateEta F n junk Z i).val - eta i Z.val| ≤ (Real.exp (320 * u + (3 + Real.sqrt |Z.val|) * a) - 1 + 1 / 10 ^ 38) * Real.cosh (Real.sqrt (max |Z.val| 1)) := by
  have ha0 := hF.a0
  have sa : 0 ≤ (3 + Real.sqrt |Z.val|) * a := mul_nonneg (by linarith [Real.sqrt_nonneg |Z.val|]) ha0
  set G := Real.cosh (Real.sqrt (max |Z.val| 1)) with hG
  have G0 : 0 < G := Real.cosh_pos _
  by_cases hZ : |Z.val| < 100
  · have h1 := eta_small hr hu hu' hmu0 hmu h100 hF (by omega : n ≤ 25) junk (fun _ => 0) Z hZ hi
    have g1 : eta i (max |Z.val| 1) ≤ G := eta_le_cosh i (by positivity) le_rfl
    have h2 := (h1.mono (by positivity) (show 320 * u ≤ 320 * u + (3 + Real.sqrt |Z.val|) * a by linarith) g1).2
    have h3 := C80_eta_accuracy n hn2 (fun _ => 0) Z.val i hi
    have g2 : eta i |Z.val| ≤ G := eta_le_cosh i (abs_nonneg _) (le_max_left _ _)
    have h4 := h3.trans (mul_le_mul_of_nonneg_left g2 (by norm_num))
    have e : (calculateEta F n junk Z i).val - eta i Z.val = ((calculateEta F n junk Z i).val - calculateEta elemReal n (fun _ => 0) Z.val i) + (calculateEta elemReal n (fun _ => 0) Z.val i - eta i Z.val) := by ring
    rw [e]; refine (abs_add_le _ _).trans ?_
    linarith
  · push Not at hZ
    have h1 := eta_large hr hu (hmu.trans (by norm_num)) h100 ha hF hn2 hn junk Z hZ hi
    have em : max |Z.val| 1 = |Z.val| := max_eq_left (by linarith)
    rw [hG, em]
    have h2 := (h1.mono (by positivity) (show 33 * u + (3 + Real.sqrt |Z.val|) * a ≤ 320 * u + (3 + Real.sqrt |Z.val|) * a by linarith) le_rfl).2
    rw [hG, em] at G0
    have : 0 ≤ (1 : ℝ) / 10 ^ 38 * Real.cosh (Real.sqrt |Z.val|) := by positivity
    linarith

/-- C117 as a uniform bound: the η functions of the code satisfy the assumption of the convergence theorems, with an accuracy `σ` proportional to `u + a`, up to the truncation error of the series. -/
theorem C117_uniform (hr : Rounding u mu fl) (hu : 0 ≤ u) (hu' : u ≤ 1 / 1000) (hmu0 : 0 ≤ mu) (hmu : mu ≤ 1 / 10 ^ 150) (h100 : fl 100 = 100) {a : ℝ} (ha : a ≤ 1 / 1000) {F : Elem (Fl fl)} (hF : ElemFl a F)
    (junk : ℕ → Fl fl) {R : ℝ} (hR : 1 ≤ R) (hs : 320 * u + (3 + Real.sqrt R) * a ≤ 1) :
    EtaFl ((2 * (320 * u + (3 + Real.sqrt R) * a) + 1 / 10 ^ 38) * Real.cosh (Real.sqrt R)) R (fun n Z => calculateEta F n junk Z) := by
  intro n hn2 hn Z hZ i hi
  refine (C117_eta hr hu hu' hmu0 hmu h100 ha hF hn2 hn junk Z hi).trans ?_
  have ha0 := hF.a0
  have r1 : Real.sqrt |Z.val| ≤ Real.sqrt R := Real.sqrt_le_sqrt hZ
  have r2 : Real.sqrt (max |Z.val| 1) ≤ Real.sqrt R := Real.sqrt_le_sqrt (max_le hZ hR)
  have c1 : Real.cosh (Real.sqrt (max |Z.val| 1)) ≤ Real.cosh (Real.sqrt R) :=
    Real.cosh_le_cosh.mpr (by rw [abs_of_nonneg (Real.sqrt_nonneg _), abs_of_nonneg (Real.sqrt_nonneg _)]; exact r2)
  set t := 320 * u + (3 + Real.sqrt |Z.val|) * a with ht
  set t' := 320 * u + (3 + Real.sqrt R) * a with ht'
  have t0 : 0 ≤ t := by
    have := mul_nonneg (show 0 ≤ 3 + Real.sqrt |Z.val| by linarith [Real.sqrt_nonneg |Z.val|]) ha0
    rw [ht]; linarith
  have tt : t ≤ t' := by
    have := mul_le_mul_of_nonneg_right r1 ha0
    rw [ht, ht']; linarith
  have x1 : Real.exp t - 1 ≤ 2 * t' := by
    have := Real.abs_exp_sub_one_le (x := t) (by rw [abs_of_nonneg t0]; linarith)
    rw [abs_of_nonneg t0] at this
    linarith [le_abs_self (Real.exp t - 1)]
  have x0 := Real.one_le_exp t0
  exact mul_le_mul (by linarith) c1 (Real.cosh_pos _).le (by linarith)

/-- `100` is a floating point number. -/
theorem rne_100 (p : ℕ) (hp : 7 ≤ p) (emin : ℤ) (he : emin ≤ 0) : rne p emin 100 = 100 := by
  have hl : Int.log 2 (100 : ℝ) = 6 := by
    have h1 : Int.log 2 ((100 : ℕ) : ℝ) = Nat.log 2 100 := Int.log_natCast 2 100
    have h2 : Nat.log 2 100 = 6 := by
      rw [Nat.log_eq_iff (by norm_num)]; norm_num
    rw [h2] at h1; exact_mod_cast h1
  unfold rne rnePos
  rw [if_pos (by norm_num)]
  obtain ⟨e, hedef⟩ : ∃ e, e = ulpExp p emin (100 : ℝ) := ⟨_, rfl⟩
  have e0 : e ≤ 0 := by rw [hedef]; unfold ulpExp; rw [hl]; exact max_le (by omega) he
  rw [← hedef]
  have x : (100 : ℝ) / 2 ^ e = ((100 * 2 ^ (-e).toNat : ℤ) : ℝ) := by
    push_cast
    rw [← zpow_natCast, Int.toNat_of_nonneg (by omega), div_eq_mul_inv, zpow_neg]
  rw [x, roundEven_int, ← x]
  field_simp

/-- The exact elementary functions, each result rounded. -/
noncomputable def elemRounded (fl : ℝ → ℝ) : Elem (Fl fl) where
  sqrt x := ⟨fl (Real.sqrt x.val)⟩
  cosh x := ⟨fl (Real.cosh x.val)⟩
  sinh x := ⟨fl (Real.sinh x.val)⟩
  cos x := ⟨fl (Real.cos x.val)⟩
  sin x := ⟨fl (Real.sin x.val)⟩
  absInt x := ⌊|x.val|⌋₊

theorem elemRounded_ok (hr : Rounding u mu fl) (hu : 0 ≤ u) (hmu : mu ≤ 1) : ElemFl u (elemRounded fl) where
  a0 := hu
  sqrt x hx := by
    have h10 : 10 ≤ Real.sqrt x.val := Real.le_sqrt_of_sq_le (by norm_num; exact hx)
    refine (hr.err _).trans (mul_le_mul_of_nonneg_left ?_ hu)
    rw [abs_of_nonneg (Real.sqrt_nonneg _)]
    exact max_le le_rfl (by linarith)
  cosh x := by
    have h1 := Real.one_le_cosh x.val
    refine (hr.err _).trans (mul_le_mul_of_nonneg_left ?_ hu)
    rw [abs_of_pos (by linarith)]
    exact max_le le_rfl (by linarith)
  sinh x := by
    have h1 := Real.one_le_cosh x.val
    refine (hr.err _).trans (mul_le_mul_of_nonneg_left (max_le ?_ (by linarith)) hu)
    rw [abs_le]
    have := Real.sinh_lt_cosh x.val
    have h2 := Real.sinh_lt_cosh (-x.val)
    rw [Real.sinh_neg, Real.cosh_neg] at h2
    constructor <;> linarith
  cos x := by
    refine (hr.err _).trans ?_
    exact mul_le_of_le_one_right hu (max_le (Real.abs_cos_le_one _) hmu)
  sin x := by
    refine (hr.err _).trans ?_
    exact mul_le_of_le_one_right hu (max_le (Real.abs_sin_le_one _) hmu)
  absInt x _ := rfl

/-- In `double` precision with correctly rounded elementary functions, the ten η values at every `|Z| ≤ 1` are accurate to `2·10⁻¹³`. -/
example (junk : ℕ → Fl (rne 53 (-1074))) (Z : Fl (rne 53 (-1074))) (hZ : |Z.val| ≤ 1) (i : ℕ) (hi : i < 10) :
    |(calculateEta (elemRounded (rne 53 (-1074))) 10 junk Z i).val - eta i Z.val| ≤ 2 / 10 ^ 13 := by
  have hr := rounding_rne 53 (by norm_num) (-1074)
  have e1 : ((2 : ℝ) ^ (-((53 : ℕ) : ℤ))) = 1 / 2 ^ 53 := by norm_num [zpow_neg]
  have e2 : ((2 : ℝ) ^ ((-1074 : ℤ) + ((53 : ℕ) : ℤ) - 1)) = 1 / 2 ^ 1022 := by
    rw [show (-1074 : ℤ) + ((53 : ℕ) : ℤ) - 1 = -((1022 : ℕ) : ℤ) by norm_num, zpow_neg, zpow_natCast, one_div]
  rw [e1, e2] at hr
  have m1 : (1 : ℝ) / 2 ^ 1022 ≤ 1 / 10 ^ 150 := one_div_le_one_div_of_le (by norm_num) (by
    calc (10 : ℝ) ^ 150 = (10 ^ 3) ^ 50 := by rw [← pow_mul]
      _ ≤ (2 ^ 10) ^ 50 := pow_le_pow_left₀ (by norm_num) (by norm_num) 50
      _ = 2 ^ 500 := by rw [← pow_mul]
      _ ≤ 2 ^ 1022 := pow_le_pow_right₀ (by norm_num) (by norm_num))
  have hF := elemRounded_ok hr (by positivity) (m1.trans (by norm_num))
  have h := C117_uniform hr (by positivity) (by norm_num) (by positivity) m1 (rne_100 53 (by norm_num) (-1074) (by norm_num)) (by norm_num) hF junk (R := 1) le_rfl (by
    rw [Real.sqrt_one]; norm_num) 10 (by norm_num) le_rfl Z hZ i hi
  refine h.trans ?_
  rw [Real.sqrt_one]
  have c : Real.cosh 1 ≤ 2 := by
    rw [Real.cosh_eq]
    have h1 := Real.exp_one_lt_d9
    have h2 : Real.exp (-1) ≤ 1 := Real.exp_le_one_iff.mpr (by norm_num)
    linarith
  refine (mul_le_mul_of_nonneg_left c (by positivity)).trans ?_
  norm_num

end Verif.Fp
