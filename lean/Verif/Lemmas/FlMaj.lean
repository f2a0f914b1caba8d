import Verif.Model.Rounded
import Mathlib.Analysis.Complex.Exponential
import Mathlib.Tactic.Positivity
import Mathlib.Tactic.Linarith
import Mathlib.Tactic.FieldSimp

/-!
# Accumulated roundoff, relative to a majorant
-/
namespace Verif.Fp

variable {u mu : ℝ} {fl : ℝ → ℝ}

/-- `x` is `x'` with accumulated roundoff `t`, relative to `m ≥ |x'|`. -/
def Maj (t m x x' : ℝ) : Prop := |x'| ≤ m ∧ |x - x'| ≤ (Real.exp t - 1) * m

theorem Maj.nonneg {t m x x' : ℝ} (h : Maj t m x x') : 0 ≤ m := (abs_nonneg _).trans h.1

theorem Maj.bound {t m x x' : ℝ} (h : Maj t m x x') : |x| ≤ Real.exp t * m := by
  have e : x = (x - x') + x' := by ring
  rw [e]; refine (abs_add_le _ _).trans ?_
  have h1 := h.1
  have h2 := h.2
  linarith

theorem Maj.mono {s t m p x x' : ℝ} (h : Maj s m x x') (hs : 0 ≤ s) (hst : s ≤ t) (hm : m ≤ p) : Maj t p x x' := by
  refine ⟨h.1.trans hm, h.2.trans ?_⟩
  have h1 := Real.one_le_exp hs
  have h2 := Real.exp_le_exp.mpr hst
  exact mul_le_mul (by linarith) hm h.nonneg (by linarith)

theorem Maj.exact {m x : ℝ} (h : |x| ≤ m) : Maj 0 m x x := ⟨h, by simp⟩

theorem Maj.neg {t m x x' : ℝ} (h : Maj t m x x') : Maj t m (-x) (-x') :=
  ⟨by rw [abs_neg]; exact h.1, by rw [show -x - -x' = -(x - x') by ring, abs_neg]; exact h.2⟩

/-- one more rounding -/
theorem Maj.round (hr : Rounding u mu fl) (hu : 0 ≤ u) {t m x x' : ℝ} (h : Maj t m x x') (ht : 0 ≤ t) (hm : mu ≤ m) : Maj (t + u) m (fl x) x' := by
  refine ⟨h.1, ?_⟩
  have h1 := Real.one_le_exp ht
  have h2 : max |x| mu ≤ Real.exp t * m := max_le h.bound (hm.trans (le_mul_of_one_le_left h.nonneg h1))
  have h3 := (hr.err x).trans (mul_le_mul_of_nonneg_left h2 hu)
  have h4 := h.2
  have e : fl x - x' = (fl x - x) + (x - x') := by ring
  rw [e]; refine (abs_add_le _ _).trans ?_
  have h5 : Real.exp t * m * (1 + u) ≤ Real.exp t * m * Real.exp u :=
    mul_le_mul_of_nonneg_left (by linarith [Real.add_one_le_exp u]) (mul_nonneg (by linarith) h.nonneg)
  have : (Real.exp (t + u) - 1) * m = Real.exp t * m * Real.exp u - m := by rw [Real.exp_add]; ring
  rw [this]; linarith

/-- product before rounding -/
theorem Maj.prod {s t m p x x' y y' : ℝ} (hx : Maj s m x x') (hy : Maj t p y y') (hs : 0 ≤ s) : Maj (s + t) (m * p) (x * y) (x' * y') := by
  have m0 := hx.nonneg
  have p0 := hy.nonneg
  refine ⟨by rw [abs_mul]; exact mul_le_mul hx.1 hy.1 (abs_nonneg _) m0, ?_⟩
  have e : x * y - x' * y' = (x - x') * y + x' * (y - y') := by ring
  rw [e]; refine (abs_add_le _ _).trans ?_
  rw [abs_mul, abs_mul]
  have h1 := Real.one_le_exp hs
  have h2 := mul_le_mul hx.2 hy.bound (abs_nonneg _) (mul_nonneg (by linarith) m0)
  have h3 := mul_le_mul hx.1 hy.2 (abs_nonneg _) m0
  have : (Real.exp (s + t) - 1) * (m * p) = (Real.exp s - 1) * m * (Real.exp t * p) + m * ((Real.exp t - 1) * p) := by rw [Real.exp_add]; ring
  rw [this]; linarith

theorem Maj.sum {t m p x x' y y' : ℝ} (hx : Maj t m x x') (hy : Maj t p y y') : Maj t (m + p) (x + y) (x' + y') := by
  refine ⟨(abs_add_le _ _).trans (add_le_add hx.1 hy.1), ?_⟩
  have e : x + y - (x' + y') = (x - x') + (y - y') := by ring
  rw [e]; refine (abs_add_le _ _).trans ?_
  have := hx.2
  have := hy.2
  linarith

theorem Maj.mul (hr : Rounding u mu fl) (hu : 0 ≤ u) {s t m p x' y' : ℝ} {x y : Fl fl} (hx : Maj s m x.val x') (hy : Maj t p y.val y') (hs : 0 ≤ s) (ht : 0 ≤ t) (hm : mu ≤ m * p) :
    Maj (s + t + u) (m * p) (x * y).val (x' * y') := (hx.prod hy hs).round hr hu (by linarith) hm

theorem Maj.add (hr : Rounding u mu fl) (hu : 0 ≤ u) {t m p x' y' : ℝ} {x y : Fl fl} (hx : Maj t m x.val x') (hy : Maj t p y.val y') (ht : 0 ≤ t) (hm : mu ≤ m + p) :
    Maj (t + u) (m + p) (x + y).val (x' + y') := (hx.sum hy).round hr hu ht hm

theorem Maj.sub (hr : Rounding u mu fl) (hu : 0 ≤ u) {t m p x' y' : ℝ} {x y : Fl fl} (hx : Maj t m x.val x') (hy : Maj t p y.val y') (ht : 0 ≤ t) (hm : mu ≤ m + p) :
    Maj (t + u) (m + p) (x - y).val (x' - y') := by
  have := (hx.sum hy.neg).round hr hu ht hm
  rw [← sub_eq_add_neg, ← sub_eq_add_neg] at this
  exact this

/-- reciprocal before rounding -/
theorem Maj.recip {t y y' : ℝ} (h : Maj t y' y y') (ht : 0 ≤ t) (hy : 0 < y') (ha : Real.exp t ≤ 3 / 2) : Maj (2 * t) (1 / y') (1 / y) (1 / y') := by
  refine ⟨by rw [abs_of_pos (by positivity)], ?_⟩
  obtain ⟨a, hadef⟩ : ∃ a, a = Real.exp t := ⟨_, rfl⟩
  have a1 : 1 ≤ a := by rw [hadef]; exact Real.one_le_exp ht
  have h1 := h.2
  rw [← hadef] at ha h1
  have h2 := abs_le.mp h1
  have ylow : (2 - a) * y' ≤ y := by linarith
  have c0 : 0 < 2 - a := by linarith
  have y0 : 0 < y := lt_of_lt_of_le (mul_pos c0 hy) ylow
  have e : 1 / y - 1 / y' = (y' - y) * (1 / (y * y')) := by field_simp
  have e2 : Real.exp (2 * t) = a ^ 2 := by rw [hadef, ← Real.exp_nat_mul]; norm_num
  rw [e, abs_mul, abs_of_pos (show 0 < 1 / (y * y') by positivity), e2, abs_sub_comm]
  have h3 : |y - y'| * (1 / (y * y')) ≤ (a - 1) * y' * (1 / (y * y')) := mul_le_mul_of_nonneg_right h1 (by positivity)
  refine h3.trans ?_
  have e3 : (a - 1) * y' * (1 / (y * y')) = (a - 1) / y := by field_simp
  have e4 : (a ^ 2 - 1) * (1 / y') = (a ^ 2 - 1) / y' := by ring
  rw [e3, e4, div_le_div_iff₀ y0 hy]
  have h5 : (a - 1) * 1 ≤ (a - 1) * ((a + 1) * (2 - a)) := by
    refine mul_le_mul_of_nonneg_left ?_ (by linarith)
    nlinarith
  have h6 : (a ^ 2 - 1) * ((2 - a) * y') ≤ (a ^ 2 - 1) * y := mul_le_mul_of_nonneg_left ylow (by nlinarith)
  have h7 := mul_le_mul_of_nonneg_right h5 hy.le
  have e5 : (a ^ 2 - 1) * ((2 - a) * y') = (a - 1) * ((a + 1) * (2 - a)) * y' := by ring
  linarith

theorem exp_le_three_half {t : ℝ} (ht : t ≤ 1 / 4) : Real.exp t ≤ 3 / 2 := by
  have h1 := Real.exp_le_exp.mpr ht
  refine h1.trans ?_
  have h2 := Real.add_one_le_exp (-(1 / 4 : ℝ))
  have h3 : Real.exp (1 / 4) * Real.exp (-(1 / 4)) = 1 := by rw [← Real.exp_add]; simp
  have := Real.exp_pos (1 / 4 : ℝ)
  nlinarith

/-- quotient before rounding -/
theorem Maj.quot {s t m x x' y y' : ℝ} (hx : Maj s m x x') (hy : Maj t y' y y') (hs : 0 ≤ s) (ht : 0 ≤ t) (hy0 : 0 < y') (ha : t ≤ 1 / 4) : Maj (s + 2 * t) (m / y') (x / y) (x' / y') := by
  have := hx.prod (hy.recip ht hy0 (exp_le_three_half ha)) hs
  rwa [mul_one_div, mul_one_div, mul_one_div] at this

theorem Maj.div (hr : Rounding u mu fl) (hu : 0 ≤ u) {s t m x' y' : ℝ} {x y : Fl fl} (hx : Maj s m x.val x') (hy : Maj t y' y.val y') (hs : 0 ≤ s) (ht : 0 ≤ t) (hy0 : 0 < y') (ha : t ≤ 1 / 4)
    (hm : mu ≤ m / y') : Maj (s + 2 * t + u) (m / y') (x / y).val (x' / y') := (hx.quot hy hs ht hy0 ha).round hr hu (by linarith) hm

/-- a literal -/
theorem Maj.litNat (hr : Rounding u mu fl) (hu : 0 ≤ u) {n : ℕ} (hn : 0 < n) (hmu : mu ≤ 1) : Maj u (n : ℝ) (CCmp.lit ((n : ℕ) : ℚ) : Fl fl).val (n : ℝ) := by
  have n1 : (1 : ℝ) ≤ n := by exact_mod_cast hn
  have h := (Maj.exact (x := (n : ℝ)) (m := n) (by rw [abs_of_nonneg (by linarith)])).round hr hu le_rfl (by linarith)
  rw [zero_add] at h
  have e : (CCmp.lit ((n : ℕ) : ℚ) : Fl fl).val = fl (n : ℝ) := by simp
  rwa [e]

theorem Maj.divLit (hr : Rounding u mu fl) (hu : 0 ≤ u) (hu' : u ≤ 1 / 4) {s m x' : ℝ} {x : Fl fl} (hx : Maj s m x.val x') (hs : 0 ≤ s) {n : ℕ} (hn : 0 < n) (hmu : mu ≤ 1) (hm : mu ≤ m / n) :
    Maj (s + 3 * u) (m / n) (x / CCmp.lit ((n : ℕ) : ℚ)).val (x' / n) := by
  have n1 : (0 : ℝ) < n := by exact_mod_cast hn
  have h := hx.div hr hu (Maj.litNat hr hu hn hmu) hs hu n1 hu' hm
  exact h.mono (by linarith) (by linarith) le_rfl

end Verif.Fp
