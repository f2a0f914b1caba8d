import Verif.Model.Rounded

/-!
# Rounding errors of single operations

`Rel w s B x x'`: the exact value `x'` has size at most `B s`, and the computed value `x` is wrong by at most `B s w`.
-/
namespace Verif.Fp
open Verif.YT Verif.CalcT Verif.Formulas

/-- An arithmetic with unit roundoff below `w`. -/
structure Arith (u mu w : ℝ) (fl : ℝ → ℝ) : Prop where
  r : Rounding u mu fl
  u0 : 0 ≤ u
  uw : u ≤ w
  w1 : w ≤ 1 / 8
  mu0 : 0 ≤ mu
  mu1 : mu ≤ 1

/-- accuracy of a computed number -/
def Rel {fl : ℝ → ℝ} (w s B : ℝ) (x : Fl fl) (x' : ℝ) : Prop := |x'| ≤ B * s ∧ |x.val - x'| ≤ B * s * w

section
variable {u mu w : ℝ} {fl : ℝ → ℝ}

theorem Arith.w0 (h : Arith u mu w fl) : 0 ≤ w := h.u0.trans h.uw

theorem Arith.fl0 (h : Arith u mu w fl) : fl 0 = 0 := by
  have := h.r.neg 0
  rw [neg_zero] at this
  linarith

theorem Rel.abs_val {s B : ℝ} (hA : Arith u mu w fl) (hs : 0 ≤ s) (hB : 0 ≤ B) {x : Fl fl} {x' : ℝ} (h : Rel w s B x x') : |x.val| ≤ 2 * B * s := by
  have e : x.val = x' + (x.val - x') := by ring
  rw [e]
  refine (abs_add_le _ _).trans ?_
  have h1 : B * s * w ≤ B * s * 1 := mul_le_mul_of_nonneg_left (by linarith [hA.w1]) (by positivity)
  linarith [h.1, h.2]

theorem Rel.mono {s B B' : ℝ} (hA : Arith u mu w fl) (hs : 0 ≤ s) {x : Fl fl} {x' : ℝ} (h : Rel w s B x x') (hB : B ≤ B') : Rel w s B' x x' := by
  have h1 := mul_le_mul_of_nonneg_right hB hs
  exact ⟨h.1.trans h1, h.2.trans (mul_le_mul_of_nonneg_right h1 hA.w0)⟩

theorem Rel.scale {s s' B : ℝ} (hA : Arith u mu w fl) (hB : 0 ≤ B) {x : Fl fl} {x' : ℝ} (h : Rel w s B x x') (hs : s ≤ s') : Rel w s' B x x' := by
  have h1 := mul_le_mul_of_nonneg_left hs hB
  exact ⟨h.1.trans h1, h.2.trans (mul_le_mul_of_nonneg_right h1 hA.w0)⟩

/-- one rounding -/
theorem Rel.round {s B : ℝ} (hA : Arith u mu w fl) (hs : mu ≤ s) (hB : 1 ≤ B) {z z' : ℝ} (h1 : |z'| ≤ B * s) (h2 : |z - z'| ≤ B * s * w) :
    Rel w s (4 * B) (⟨fl z⟩ : Fl fl) z' := by
  have hw := hA.w0
  have hw1 := hA.w1
  have hs0 : 0 ≤ s := hA.mu0.trans hs
  have hBs : 0 ≤ B * s := by positivity
  have hBs1 : s ≤ B * s := le_mul_of_one_le_left hs0 hB
  have hz : |z| ≤ 2 * (B * s) := by
    have e : z = z' + (z - z') := by ring
    rw [e]
    refine (abs_add_le _ _).trans ?_
    have : B * s * w ≤ B * s * 1 := mul_le_mul_of_nonneg_left (by linarith) hBs
    linarith
  refine ⟨by linarith, ?_⟩
  have e : fl z - z' = (fl z - z) + (z - z') := by ring
  show |fl z - z'| ≤ _
  rw [e]
  refine (abs_add_le _ _).trans ?_
  have r := hA.r.err z
  have m : max |z| mu ≤ 2 * (B * s) := max_le hz (by linarith)
  have : u * max |z| mu ≤ w * (2 * (B * s)) := mul_le_mul hA.uw m (le_max_of_le_right hA.mu0) hw
  have h3 : 0 ≤ B * s * w := by positivity
  linarith

theorem Rel.add {s A B : ℝ} (hA : Arith u mu w fl) (hs : mu ≤ s) (a1 : 1 ≤ A) (b1 : 1 ≤ B) {x y : Fl fl} {x' y' : ℝ} (hx : Rel w s A x x') (hy : Rel w s B y y') :
    Rel w s (4 * (A + B)) (x + y) (x' + y') := by
  refine Rel.round hA hs (by linarith) ?_ ?_
  · refine (abs_add_le _ _).trans ?_
    rw [add_mul]; exact add_le_add hx.1 hy.1
  · have e : x.val + y.val - (x' + y') = (x.val - x') + (y.val - y') := by ring
    rw [e]
    refine (abs_add_le _ _).trans ?_
    rw [add_mul, add_mul]; exact add_le_add hx.2 hy.2

theorem Rel.neg {s A : ℝ} {x : Fl fl} {x' : ℝ} (hx : Rel w s A x x') : Rel w s A (-x) (-x') := by
  refine ⟨by rw [abs_neg]; exact hx.1, ?_⟩
  have e : (-x).val - -x' = -(x.val - x') := by simp only [Fl.neg_val]; ring
  rw [e, abs_neg]; exact hx.2

theorem Rel.sub {s A B : ℝ} (hA : Arith u mu w fl) (hs : mu ≤ s) (a1 : 1 ≤ A) (b1 : 1 ≤ B) {x y : Fl fl} {x' y' : ℝ} (hx : Rel w s A x x') (hy : Rel w s B y y') :
    Rel w s (4 * (A + B)) (x - y) (x' - y') := by
  have := Rel.add hA hs a1 b1 hx hy.neg
  have e : x - y = x + -y := by ext; simp [sub_eq_add_neg]
  rw [e, sub_eq_add_neg]; exact this

theorem Rel.mul {s t A B : ℝ} (hA : Arith u mu w fl) (hs : 0 ≤ s) (ht : 0 ≤ t) (hst : mu ≤ s * t) (a1 : 1 ≤ A) (b1 : 1 ≤ B) {x y : Fl fl} {x' y' : ℝ}
    (hx : Rel w s A x x') (hy : Rel w t B y y') : Rel w (s * t) (12 * (A * B)) (x * y) (x' * y') := by
  have hw := hA.w0
  have ab1 : 1 ≤ A * B := one_le_mul_of_one_le_of_one_le a1 b1
  have e12 : 12 * (A * B) = 4 * (3 * (A * B)) := by ring
  rw [e12]
  have hAs : 0 ≤ A * s := by positivity
  have hBt : 0 ≤ B * t := by positivity
  refine Rel.round hA hst (by linarith) ?_ ?_
  · rw [abs_mul]
    refine (mul_le_mul hx.1 hy.1 (abs_nonneg _) hAs).trans ?_
    have : 0 ≤ A * s * (B * t) := by positivity
    calc A * s * (B * t) ≤ 3 * (A * s * (B * t)) := by linarith
      _ = _ := by ring
  · have e : x.val * y.val - x' * y' = (x.val - x') * y.val + x' * (y.val - y') := by ring
    rw [e]
    refine (abs_add_le _ _).trans ?_
    rw [abs_mul, abs_mul]
    have h1 := mul_le_mul hx.2 (hy.abs_val hA ht (by linarith)) (abs_nonneg _) (by positivity)
    have h2 := mul_le_mul hx.1 hy.2 (abs_nonneg _) hAs
    calc _ ≤ A * s * w * (2 * B * t) + A * s * (B * t * w) := add_le_add h1 h2
      _ = _ := by ring

/-- a literal -/
theorem Rel.lit (hA : Arith u mu w fl) (q : ℚ) : Rel w 1 (|(q : ℝ)| + 1) (CCmp.lit q : Fl fl) (q : ℝ) := by
  constructor
  · rw [mul_one]; linarith
  · rw [mul_one]
    refine (hA.r.err q).trans ?_
    rw [mul_comm]
    refine mul_le_mul ?_ hA.uw hA.u0 (by positivity)
    exact max_le (by linarith) (by linarith [hA.mu1, abs_nonneg (q : ℝ)])

/-- an exact number -/
theorem Rel.exact {s B : ℝ} (hA : Arith u mu w fl) (hs : 0 ≤ s) (hB : 0 ≤ B) {x : Fl fl} (h : |x.val| ≤ B * s) : Rel w s B x x.val := by
  refine ⟨h, ?_⟩
  have := hA.w0
  rw [sub_self, abs_zero]; positivity

theorem Rel.zero {s B : ℝ} (hA : Arith u mu w fl) (hs : 0 ≤ s) (hB : 0 ≤ B) : Rel w s B (0 : Fl fl) 0 :=
  Rel.exact hA hs hB (x := (0 : Fl fl)) (by simp only [Fl.zero_val, abs_zero]; positivity)

theorem Rel.one (hA : Arith u mu w fl) : Rel w 1 1 (1 : Fl fl) 1 :=
  Rel.exact hA zero_le_one zero_le_one (x := (1 : Fl fl)) (by simp)

/-- division by a literal that is at least 1 -/
theorem Rel.divLit {s A : ℝ} (hA : Arith u mu w fl) (hs : mu ≤ s) (a1 : 1 ≤ A) {x : Fl fl} {x' : ℝ} (hx : Rel w s A x x') {q : ℚ} (hq : 1 ≤ q) :
    Rel w s (24 * A) (x / CCmp.lit q) (x' / (q : ℝ)) := by
  have hw := hA.w0
  have hw1 := hA.w1
  have hs0 : 0 ≤ s := hA.mu0.trans hs
  have hq1 : (1 : ℝ) ≤ q := by exact_mod_cast hq
  have hd : |fl q - q| ≤ w * q := by
    refine (hA.r.err q).trans (mul_le_mul hA.uw ?_ (le_max_of_le_right hA.mu0) hw)
    exact max_le (by rw [abs_of_nonneg (by linarith)]) (by linarith [hA.mu1])
  have hl : (q : ℝ) / 2 ≤ fl q := by
    have := (abs_le.mp hd).1
    nlinarith
  set p := fl (q : ℝ) with hp
  have p0 : 0 < p := by linarith
  have q0 : (0 : ℝ) < q := by linarith
  have p1 : 1 / 2 ≤ p := by linarith
  have As : 0 ≤ A * s := by positivity
  have e24 : 24 * A = 4 * (6 * A) := by ring
  rw [e24]
  refine Rel.round hA hs (by linarith) ?_ ?_
  · rw [abs_div, abs_of_pos q0]
    refine (div_le_self (abs_nonneg _) hq1).trans (hx.1.trans ?_)
    have : 6 * A * s = 6 * (A * s) := by ring
    linarith
  · show |x.val / p - x' / q| ≤ _
    have e : x.val / p - x' / q = (x.val - x') / p + x' * (q - p) / (q * p) := by field_simp; ring
    rw [e]
    refine (abs_add_le _ _).trans ?_
    have h1 : |(x.val - x') / p| ≤ 2 * (A * s * w) := by
      rw [abs_div, abs_of_pos p0, div_le_iff₀ p0]
      have := hx.2
      have h0 : 0 ≤ A * s * w := by positivity
      nlinarith
    have h2 : |x' * (q - p) / (q * p)| ≤ 2 * (A * s * w) := by
      rw [abs_div, abs_of_pos (by positivity : 0 < (q : ℝ) * p), div_le_iff₀ (by positivity), abs_mul, abs_sub_comm]
      have h3 := mul_le_mul hx.1 hd (abs_nonneg _) As
      refine h3.trans ?_
      have h0 : 0 ≤ A * s * w * q := by positivity
      calc A * s * (w * q) = (A * s * w * q) * 1 := by ring
        _ ≤ (A * s * w * q) * (2 * p) := mul_le_mul_of_nonneg_left (by linarith) h0
        _ = _ := by ring
    have h0 : 0 ≤ A * s * w := by positivity
    have : 6 * A * s * w = 6 * (A * s * w) := by ring
    linarith

end
end Verif.Fp
