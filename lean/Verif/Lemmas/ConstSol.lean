import Verif.Lemmas.Lift
import Mathlib.Analysis.SpecialFunctions.ExpDeriv
import Mathlib.Analysis.SpecialFunctions.Trigonometric.Deriv
import Mathlib.Analysis.Calculus.Deriv.Shift

/-!
# The Prüfer step is exact for a constant potential
-/
namespace Verif.Prufer
open Verif.YT
open Real (pi sin cos)
open Set (Icc Ioo Ioc Ico Ioi Iio)

/-- Specification: `y` with derivative `dy` solves `y'' = q y` on the whole line. -/
structure ConstSol (q : ℝ) (y dy : ℝ → ℝ) : Prop where
  d1 : ∀ x, HasDerivAt y (dy x) x
  d2 : ∀ x, HasDerivAt dy (q * y x) x

namespace ConstSol
variable {q : ℝ} {y dy : ℝ → ℝ}

theorem shift (h : ConstSol q y dy) (c : ℝ) : ConstSol q (fun x => y (x + c)) (fun x => dy (x + c)) where
  d1 x := (h.d1 (x + c)).comp_add_const x c
  d2 x := (h.d2 (x + c)).comp_add_const x c

theorem reflect (h : ConstSol q y dy) (c : ℝ) : ConstSol q (fun x => y (c - x)) (fun x => -dy (c - x)) where
  d1 x := by
    have := (h.d1 (c - x)).comp_const_sub c x
    exact this
  d2 x := by
    have := ((h.d2 (c - x)).comp_const_sub c x).fun_neg
    exact this.congr_deriv (by ring)

theorem neg (h : ConstSol q y dy) : ConstSol q (fun x => -y x) (fun x => -dy x) where
  d1 x := (h.d1 x).neg
  d2 x := (h.d2 x).fun_neg.congr_deriv (by ring)

theorem cont_y (h : ConstSol q y dy) : Continuous y := continuous_iff_continuousAt.mpr fun x => (h.d1 x).continuousAt
theorem cont_dy (h : ConstSol q y dy) : Continuous dy := continuous_iff_continuousAt.mpr fun x => (h.d2 x).continuousAt

/-- A solution that vanishes with its derivative somewhere vanishes everywhere. -/
theorem nonzero (h : ConstSol q y dy) {x₀ : ℝ} (h0 : ¬ (y x₀ = 0 ∧ dy x₀ = 0)) (x : ℝ) : ¬ (y x = 0 ∧ dy x = 0) := by
  rintro ⟨hy, hd⟩
  apply h0
  set c : ℝ := 1 + |q| with hc
  have hq := le_abs_self q
  have hq' := neg_abs_le q
  have habs := abs_nonneg q
  have hr : ∀ t, HasDerivAt (fun t => y t ^ 2 + dy t ^ 2) (2 * y t * dy t * (1 + q)) t := by
    intro t
    have h1 : HasDerivAt (fun t => y t ^ 2) (2 * y t * dy t) t := ((h.d1 t).fun_pow 2).congr_deriv (by push_cast; ring)
    have h2 : HasDerivAt (fun t => dy t ^ 2) (2 * dy t * (q * y t)) t := ((h.d2 t).fun_pow 2).congr_deriv (by push_cast; ring)
    exact (h1.add h2).congr_deriv (by ring)
  have he : ∀ k t : ℝ, HasDerivAt (fun t => Real.exp (k * t)) (Real.exp (k * t) * k) t := by
    intro k t
    exact (((hasDerivAt_id t).const_mul k).exp).congr_deriv (by simp)
  have hbound : ∀ t, |2 * y t * dy t * (1 + q)| ≤ c * (y t ^ 2 + dy t ^ 2) := by
    intro t
    rw [abs_le]
    have s1 := sq_nonneg (y t + dy t)
    have s2 := sq_nonneg (y t - dy t)
    constructor <;> nlinarith [mul_nonneg (by linarith : (0:ℝ) ≤ c + (1 + q)) s1, mul_nonneg (by linarith : (0:ℝ) ≤ c - (1 + q)) s2,
      mul_nonneg (by linarith : (0:ℝ) ≤ c + (1 + q)) s2, mul_nonneg (by linarith : (0:ℝ) ≤ c - (1 + q)) s1]
  have hmono : Monotone (fun t => (y t ^ 2 + dy t ^ 2) * Real.exp (c * t)) := by
    refine monotone_of_hasDerivAt_nonneg (f' := fun t => (2 * y t * dy t * (1 + q) + c * (y t ^ 2 + dy t ^ 2)) * Real.exp (c * t)) ?_ ?_
    · intro t
      exact ((hr t).mul (he c t)).congr_deriv (by ring)
    · intro t
      have := abs_le.mp (hbound t)
      exact mul_nonneg (by linarith [this.1]) (Real.exp_pos _).le
  have hanti : Antitone (fun t => (y t ^ 2 + dy t ^ 2) * Real.exp (-c * t)) := by
    refine antitone_of_hasDerivAt_nonpos (f' := fun t => (2 * y t * dy t * (1 + q) - c * (y t ^ 2 + dy t ^ 2)) * Real.exp (-c * t)) ?_ ?_
    · intro t
      exact ((hr t).mul (he (-c) t)).congr_deriv (by ring)
    · intro t
      have := abs_le.mp (hbound t)
      exact mul_nonpos_of_nonpos_of_nonneg (by linarith [this.2]) (Real.exp_pos _).le
  have hz : y x₀ ^ 2 + dy x₀ ^ 2 ≤ 0 := by
    rcases le_total x₀ x with hx | hx
    · have := hmono hx
      simp only [hy, hd] at this
      have e := Real.exp_pos (c * x₀)
      by_contra hcon; push Not at hcon
      have := mul_pos hcon e
      simp at *; linarith
    · have := hanti hx
      simp only [hy, hd] at this
      have e := Real.exp_pos (-c * x₀)
      by_contra hcon; push Not at hcon
      have := mul_pos hcon e
      simp at *; linarith
  constructor <;> nlinarith [sq_nonneg (y x₀), sq_nonneg (dy x₀)]

/-- `y y'` does not decrease when `q ≥ 0`. -/
theorem prod_mono (h : ConstSol q y dy) (hq : 0 ≤ q) : Monotone (fun t => y t * dy t) := by
  refine monotone_of_hasDerivAt_nonneg (f' := fun t => dy t ^ 2 + q * y t ^ 2) ?_ ?_
  · intro t
    exact ((h.d1 t).mul (h.d2 t)).congr_deriv (by ring)
  · intro t
    exact add_nonneg (sq_nonneg _) (mul_nonneg hq (sq_nonneg _))

theorem sq_deriv (h : ConstSol q y dy) (t : ℝ) : HasDerivAt (fun t => y t ^ 2) (2 * (y t * dy t)) t := by
  have h1 : HasDerivAt (fun t => y t ^ 2) (2 * y t * dy t) t := ((h.d1 t).fun_pow 2).congr_deriv (by push_cast; ring)
  exact h1.congr_deriv (by ring)

/-- If `y y'` vanishes at two points (`q ≥ 0`) and `y` vanishes at one of them, the solution is zero. -/
theorem prod_zero_twice (h : ConstSol q y dy) (hq : 0 ≤ q) {c d : ℝ} (hcd : c < d)
    (hc : y c * dy c = 0) (hd : y d * dy d = 0) (hz : y c = 0 ∨ y d = 0) : y c = 0 ∧ dy c = 0 := by
  have hp : ∀ t ∈ Icc c d, y t * dy t = 0 := by
    intro t ht
    have h1 := h.prod_mono hq ht.1
    have h2 := h.prod_mono hq ht.2
    simp only at h1 h2
    linarith
  have hconst : ∀ t ∈ Icc c d, y t ^ 2 = y c ^ 2 := by
    refine constant_of_has_deriv_right_zero ((h.cont_y.pow 2).continuousOn) ?_
    intro t ht
    have := (h.sq_deriv t).hasDerivWithinAt (s := Set.Ici t)
    rwa [hp t ⟨ht.1, ht.2.le⟩, mul_zero] at this
  have hyc : y c = 0 := by
    rcases hz with h0 | h0
    · exact h0
    · have := hconst d ⟨hcd.le, le_rfl⟩
      rw [h0] at this
      nlinarith [sq_nonneg (y c)]
  have hall : ∀ t ∈ Icc c d, y t = 0 := by
    intro t ht
    have := hconst t ht
    rw [hyc] at this
    nlinarith [sq_nonneg (y t)]
  refine ⟨hyc, ?_⟩
  -- the derivative from the right is zero
  have e1 : HasDerivWithinAt y (dy c) (Icc c d) c := (h.d1 c).hasDerivWithinAt
  have e2 : HasDerivWithinAt y 0 (Icc c d) c :=
    (hasDerivWithinAt_const c (Icc c d) (0:ℝ)).congr (fun t ht => hall t ht) hyc
  exact (uniqueDiffOn_Icc hcd c ⟨le_rfl, hcd.le⟩).eq_deriv _ e1 e2

/-- After a zero, `y y' > 0`. -/
theorem prod_pos_after (h : ConstSol q y dy) (hq : 0 ≤ q) {c d : ℝ} (hcd : c < d) (hc : y c = 0) (hn : dy c ≠ 0) :
    0 < y d * dy d := by
  have h1 := h.prod_mono hq hcd.le
  simp only [hc, zero_mul] at h1
  rcases eq_or_lt_of_le h1 with h2 | h2
  · exact absurd (h.prod_zero_twice hq hcd (by rw [hc, zero_mul]) h2.symm (Or.inl hc)).2 hn
  · exact h2

/-- Before a zero, `y y' < 0`. -/
theorem prod_neg_before (h : ConstSol q y dy) (hq : 0 ≤ q) {c d : ℝ} (hcd : d < c) (hc : y c = 0) (hn : dy c ≠ 0) :
    y d * dy d < 0 := by
  have := (h.reflect 0).prod_pos_after hq (c := -c) (d := -d) (by linarith) (by simpa using hc) (by simpa using hn)
  simp at this
  linarith

/-- With `q ≥ 0` a zero strictly inside forces opposite signs at the ends. -/
theorem sign_change (h : ConstSol q y dy) (hq : 0 ≤ q) {a b c : ℝ} (hac : a < c) (hcb : c < b) (hc : y c = 0)
    (hn : dy c ≠ 0) : y a * y b < 0 := by
  have ha : ∀ x, x < c → y x ≠ 0 := fun x hx h0 => by
    have := h.prod_neg_before hq hx hc hn; rw [h0] at this; simp at this
  have hb : ∀ x, c < x → y x ≠ 0 := fun x hx h0 => by
    have := h.prod_pos_after hq hx hc hn; rw [h0] at this; simp at this
  -- dy has no zero at all, hence constant sign; compare signs through y dy
  have hdy : ∀ x, dy x ≠ 0 := fun x h0 => by
    rcases lt_trichotomy x c with hx | hx | hx
    · have := h.prod_neg_before hq hx hc hn; rw [h0] at this; simp at this
    · exact hn (hx ▸ h0)
    · have := h.prod_pos_after hq hx hc hn; rw [h0] at this; simp at this
  have hsame : 0 < dy a * dy b := by
    by_contra hcon; push Not at hcon
    have hlt : dy a * dy b < 0 := lt_of_le_of_ne hcon (mul_ne_zero (hdy a) (hdy b))
    have hab : a ≤ b := by linarith
    rcases mul_neg_iff.mp hlt with ⟨h1, h2⟩ | ⟨h1, h2⟩
    · obtain ⟨z, -, hz⟩ := intermediate_value_Icc' hab h.cont_dy.continuousOn ⟨h2.le, h1.le⟩
      exact hdy z hz
    · obtain ⟨z, -, hz⟩ := intermediate_value_Icc hab h.cont_dy.continuousOn ⟨h1.le, h2.le⟩
      exact hdy z hz
  have h1 := h.prod_neg_before hq hac hc hn
  have h2 := h.prod_pos_after hq hcb hc hn
  have h3 : (y a * dy a) * (y b * dy b) < 0 := mul_neg_of_neg_of_pos h1 h2
  by_contra hcon; push Not at hcon
  nlinarith [mul_nonneg hcon hsame.le]

end ConstSol

/-! ### The oscillatory branch -/

/-- The direction `(ω y, y')` turns uniformly. -/
theorem osc_angle {w : ℝ} {y dy : ℝ → ℝ} (h : ConstSol (-(w ^ 2)) y dy) {a t0 : ℝ} (h0 : IsAngle t0 (y a * w) (dy a)) (x : ℝ) :
    IsAngle (t0 + w * (x - a)) (y x * w) (dy x) := by
  have hd : ∀ t, HasDerivAt (fun t => y t * w * cos (t0 + w * (t - a)) - dy t * sin (t0 + w * (t - a))) 0 t := by
    intro t
    have hl : HasDerivAt (fun t => t0 + w * (t - a)) w t := by
      have := (((hasDerivAt_id t).sub_const a).const_mul w).const_add t0
      exact this.congr_deriv (by simp)
    have h1 : HasDerivAt (fun t => cos (t0 + w * (t - a))) (-sin (t0 + w * (t - a)) * w) t := hl.cos
    have h2 : HasDerivAt (fun t => sin (t0 + w * (t - a))) (cos (t0 + w * (t - a)) * w) t := hl.sin
    exact ((((h.d1 t).mul_const w).mul h1).sub ((h.d2 t).mul h2)).congr_deriv (by ring)
  have hc := is_const_of_deriv_eq_zero (fun t => (hd t).differentiableAt) (fun t => (hd t).deriv) x a
  simp only [sub_self, mul_zero, add_zero] at hc
  unfold IsAngle at *
  linarith

/-- The oscillatory branch computes `theta1 = theta0 + ω δ` when the end values are the exact ones. -/
theorem osc_theta1 {w δ t0 ps : ℝ} (hwd : 0 ≤ w * δ) (hps : -pi / 2 < ps ∧ ps ≤ pi / 2) {k : ℤ}
    (hk : ps = t0 + w * δ + k * pi) :
    (let phi_bar := w * δ + t0
     let phi_bar := phi_bar - (⌊phi_bar / pi⌋ : ℝ) * pi
     let theta1 := ps - phi_bar
     let theta1 := if theta1 < -pi / 2 then theta1 + pi else if pi / 2 < theta1 then theta1 - pi else theta1
     let theta1 := theta1 + (t0 + w * δ)
     if theta1 < t0 then theta1 + pi else theta1) = t0 + w * δ := by
  have hp := Real.pi_pos
  have f1 : ((⌊(w * δ + t0) / pi⌋ : ℤ) : ℝ) * pi ≤ w * δ + t0 := by
    have := Int.floor_le ((w * δ + t0) / pi)
    rwa [le_div_iff₀ hp] at this
  have f2 : w * δ + t0 < ((⌊(w * δ + t0) / pi⌋ : ℤ) + 1 : ℝ) * pi := by
    have := Int.lt_floor_add_one ((w * δ + t0) / pi)
    rwa [div_lt_iff₀ hp] at this
  dsimp only
  generalize (⌊(w * δ + t0) / pi⌋ : ℤ) = m at *
  have e : ps - (w * δ + t0 - m * pi) = ((k + m : ℤ) : ℝ) * pi := by rw [hk]; push_cast; ring
  rw [e]
  have b1 : ((k + m : ℤ) : ℝ) < 1 := by
    by_contra hc; push Not at hc; nlinarith
  have b2 : (-2 : ℝ) < ((k + m : ℤ) : ℝ) := by
    by_contra hc; push Not at hc; nlinarith
  have b1' : k + m < 1 := by exact_mod_cast b1
  have b2' : -2 < k + m := by exact_mod_cast b2
  have hcase : k + m = 0 ∨ k + m = -1 := by omega
  rcases hcase with h | h
  · rw [h]
    have c1 : ¬ ((0 : ℤ) : ℝ) * pi < -pi / 2 := by push_cast; linarith
    have c2 : ¬ pi / 2 < ((0 : ℤ) : ℝ) * pi := by push_cast; linarith
    rw [if_neg c1, if_neg c2, if_neg (by push_cast; linarith)]
    push_cast; ring
  · rw [h]
    have c1 : ((-1 : ℤ) : ℝ) * pi < -pi / 2 := by push_cast; linarith
    rw [if_pos c1, if_neg (by push_cast; linarith)]
    push_cast; ring

theorem rescale_continuous {σ : ℝ} (hσ : 0 < σ) : Continuous (fun θ => rescale θ σ) := by
  unfold rescale atan2
  refine continuous_id.add ?_
  rw [continuous_iff_continuousAt]
  intro θ
  have hc : Continuous (fun θ : ℝ => (⟨1 + (σ - 1) * sin θ * sin θ, (σ - 1) * sin θ * cos θ⟩ : ℂ)) := by
    have : (fun θ : ℝ => (⟨1 + (σ - 1) * sin θ * sin θ, (σ - 1) * sin θ * cos θ⟩ : ℂ)) =
        fun θ : ℝ => ((1 + (σ - 1) * sin θ * sin θ : ℝ) : ℂ) + ((σ - 1) * sin θ * cos θ : ℝ) * Complex.I := by
      funext θ; exact Complex.mk_eq_add_mul_I _ _
    rw [this]
    have h1 : Continuous (fun θ : ℝ => (1 + (σ - 1) * sin θ * sin θ : ℝ)) := by fun_prop
    have h2 : Continuous (fun θ : ℝ => ((σ - 1) * sin θ * cos θ : ℝ)) := by fun_prop
    exact (Complex.continuous_ofReal.comp h1).add ((Complex.continuous_ofReal.comp h2).mul continuous_const)
  refine ContinuousAt.comp (g := Complex.arg) (Complex.continuousAt_arg ?_) hc.continuousAt
  left
  show (0 : ℝ) < 1 + (σ - 1) * sin θ * sin θ
  have hsc := Real.sin_sq_add_cos_sq θ
  rcases eq_or_ne (sin θ) 0 with h | h
  · rw [h]; norm_num
  · have : 0 < sin θ ^ 2 := by positivity
    nlinarith [mul_pos hσ this, sq_nonneg (cos θ)]

theorem prufer_exact_osc (v0M v0 E : ℝ) (hE : v0 < E) {y dy : ℝ → ℝ} (h : ConstSol (v0 - E) y dy) {a b : ℝ}
    (hab : a ≤ b) (hn : ¬ (y a = 0 ∧ dy a = 0)) {Θ : ℝ → ℝ} (hΘ : ContinuousOn Θ (Icc a b))
    (hang : ∀ x ∈ Icc a b, IsAngle (Θ x) (scaling v0M E * y x) (dy x)) {y0 y1 : Y ℝ}
    (h0 : y0.y = y a ∧ y0.dy = dy a) (h1 : y1.y = y b ∧ y1.dy = dy b) :
    pruferHelper v0M v0 E (b - a) y0 y1 = Θ b - Θ a := by
  have hs := scaling_pos v0M E
  have hw : 0 < Real.sqrt (E - v0) := Real.sqrt_pos.mpr (by linarith)
  have hw2 : Real.sqrt (E - v0) ^ 2 = E - v0 := Real.sq_sqrt (by linarith)
  unfold pruferHelper
  simp only [hE, if_true, h0.1, h0.2, h1.1, h1.2]
  set w := Real.sqrt (E - v0)
  have h' : ConstSol (-(w ^ 2)) y dy := by rw [hw2]; convert h using 1; ring
  set t0 := atanSafe (y a * w) (dy a)
  have a0 : IsAngle t0 (y a * w) (dy a) := atanSafe_angle _ _
  have hφ : ∀ x, IsAngle (t0 + w * (x - a)) (y x * w) (dy x) := osc_angle h' a0
  have hnb : ¬ (y b * w = 0 ∧ dy b = 0) := fun hb =>
    h.nonzero hn b ⟨(mul_eq_zero.mp hb.1).resolve_right hw.ne', hb.2⟩
  obtain ⟨k, hk⟩ := (hφ b).unique (atanSafe_angle (y b * w) (dy b)) hnb
  have ht1 := osc_theta1 (mul_nonneg hw.le (by linarith : (0:ℝ) ≤ b - a)) (atanSafe_range (y b * w) (dy b)) hk
  dsimp only at ht1
  rw [ht1]
  have hq := div_pos hs hw
  have e : ∀ u, scaling v0M E / w * (u * w) = scaling v0M E * u := fun u => by field_simp
  have hl := lift_unique (S := Icc a b) isPreconnected_Icc (f := fun x => rescale (t0 + w * (x - a)) (scaling v0M E / w))
    (g := Θ) (u := fun x => scaling v0M E * y x) (v := dy)
    ((rescale_continuous hq).comp (by fun_prop)).continuousOn hΘ
    (fun x _ => by have := rescale_angle hq (hφ x); rwa [e] at this) hang
    (fun x _ hx => h.nonzero hn x ⟨(mul_eq_zero.mp hx.1).resolve_left hs.ne', hx.2⟩)
    (x := a) (y := b) ⟨le_rfl, hab⟩ ⟨hab, le_rfl⟩
  simp only [sub_self, mul_zero, add_zero] at hl
  exact hl

/-! ### The other branch -/

theorem angle_neg {θ u v : ℝ} (h : IsAngle θ u v) (hr : -pi / 2 < θ ∧ θ ≤ pi / 2) (huv : u * v < 0) : θ < 0 := by
  obtain ⟨ρ, h1, h2⟩ := h.rep
  by_contra hc; push Not at hc
  have hp := Real.pi_pos
  have s := Real.sin_nonneg_of_nonneg_of_le_pi hc (by linarith)
  have c := Real.cos_nonneg_of_neg_pi_div_two_le_of_le (by linarith : -(pi / 2) ≤ θ) hr.2
  rw [h1, h2] at huv
  nlinarith [mul_nonneg (mul_nonneg s c) (sq_nonneg ρ)]

theorem angle_pos {θ u v : ℝ} (h : IsAngle θ u v) (hr : -pi / 2 < θ ∧ θ ≤ pi / 2) (huv : 0 < u * v) : 0 < θ := by
  obtain ⟨ρ, h1, h2⟩ := h.rep
  by_contra hc; push Not at hc
  have hp := Real.pi_pos
  have s := Real.sin_nonpos_of_nonpos_of_neg_pi_le hc (by linarith)
  have c := Real.cos_nonneg_of_neg_pi_div_two_le_of_le (by linarith : -(pi / 2) ≤ θ) hr.2
  rw [h1, h2] at huv
  nlinarith [mul_nonneg (mul_nonneg (neg_nonneg.mpr s) c) (sq_nonneg ρ)]

/-- Inside `(kπ, (k+1)π)` the sign of `u v` tells the half. -/
theorem half_of_pos {θ u v : ℝ} {k : ℤ} (h : IsAngle θ u v) (h1 : k * pi < θ) (h2 : θ < (k + 1) * pi) (huv : 0 < u * v) :
    θ < k * pi + pi / 2 := by
  obtain ⟨ρ, e1, e2⟩ := h.rep
  by_contra hc; push Not at hc
  have s : 0 < sin (θ - k * pi) := Real.sin_pos_of_pos_of_lt_pi (by linarith) (by linarith)
  have c : cos (θ - k * pi) ≤ 0 := Real.cos_nonpos_of_pi_div_two_le_of_le (by linarith) (by linarith [Real.pi_pos])
  rw [Real.sin_sub_int_mul_pi] at s
  rw [Real.cos_sub_int_mul_pi] at c
  have e : ((-1 : ℝ) ^ k) * (-1) ^ k = 1 := by rw [← mul_zpow]; norm_num
  have hm : ((-1 : ℝ) ^ k * sin θ) * ((-1) ^ k * cos θ) ≤ 0 := mul_nonpos_of_nonneg_of_nonpos s.le c
  have hm' : sin θ * cos θ ≤ 0 := by
    have : ((-1 : ℝ) ^ k * sin θ) * ((-1) ^ k * cos θ) = sin θ * cos θ := by linear_combination sin θ * cos θ * e
    linarith
  rw [e1, e2] at huv
  nlinarith [mul_nonneg (neg_nonneg.mpr hm') (sq_nonneg ρ)]

theorem half_of_neg {θ u v : ℝ} {k : ℤ} (h : IsAngle θ u v) (h1 : k * pi < θ) (h2 : θ < (k + 1) * pi) (huv : u * v < 0) :
    k * pi + pi / 2 < θ := by
  obtain ⟨ρ, e1, e2⟩ := h.rep
  by_contra hc; push Not at hc
  have s : 0 < sin (θ - k * pi) := Real.sin_pos_of_pos_of_lt_pi (by linarith) (by linarith)
  have c : 0 ≤ cos (θ - k * pi) := Real.cos_nonneg_of_neg_pi_div_two_le_of_le (by linarith [Real.pi_pos]) (by linarith)
  rw [Real.sin_sub_int_mul_pi] at s
  rw [Real.cos_sub_int_mul_pi] at c
  have e : ((-1 : ℝ) ^ k) * (-1) ^ k = 1 := by rw [← mul_zpow]; norm_num
  have hm : 0 ≤ ((-1 : ℝ) ^ k * sin θ) * ((-1) ^ k * cos θ) := mul_nonneg s.le c
  have hm' : 0 ≤ sin θ * cos θ := by
    have : ((-1 : ℝ) ^ k * sin θ) * ((-1) ^ k * cos θ) = sin θ * cos θ := by linear_combination sin θ * cos θ * e
    linarith
  rw [e1, e2] at huv
  nlinarith [mul_nonneg hm' (sq_nonneg ρ)]

theorem prufer_exact_non (v0M v0 E : ℝ) (hE : ¬ v0 < E) {y dy : ℝ → ℝ} (h : ConstSol (v0 - E) y dy) {a b : ℝ}
    (hab : a < b) (hn : ¬ (y a = 0 ∧ dy a = 0)) {Θ : ℝ → ℝ} (hΘ : ContinuousOn Θ (Icc a b))
    (hang : ∀ x ∈ Icc a b, IsAngle (Θ x) (scaling v0M E * y x) (dy x)) {y0 y1 : Y ℝ}
    (h0 : y0.y = y a ∧ y0.dy = dy a) (h1 : y1.y = y b ∧ y1.dy = dy b) :
    pruferHelper v0M v0 E (b - a) y0 y1 = Θ b - Θ a := by
  have hp := Real.pi_pos
  have hs := scaling_pos v0M E
  have hq : 0 ≤ v0 - E := by linarith [not_lt.mp hE]
  set sc := scaling v0M E with hsc
  have hnz : ∀ x, ¬ (sc * y x = 0 ∧ dy x = 0) := fun x hx =>
    h.nonzero hn x ⟨(mul_eq_zero.mp hx.1).resolve_left hs.ne', hx.2⟩
  have hma : a ∈ Icc a b := ⟨le_rfl, hab.le⟩
  have hmb : b ∈ Icc a b := ⟨hab.le, le_rfl⟩
  set t0 := atanSafe (sc * y a) (dy a) with ht0
  set t1 := atanSafe (sc * y b) (dy b) with ht1
  have a0 : IsAngle t0 (sc * y a) (dy a) := atanSafe_angle _ _
  have a1 : IsAngle t1 (sc * y b) (dy b) := atanSafe_angle _ _
  have r0 := atanSafe_range (sc * y a) (dy a)
  have r1 := atanSafe_range (sc * y b) (dy b)
  rw [← ht0] at r0
  rw [← ht1] at r1
  obtain ⟨m0, hm0⟩ := a0.unique (hang a hma) (hnz a)
  obtain ⟨m1, hm1⟩ := a1.unique (hang b hmb) (hnz b)
  unfold pruferHelper
  simp only [hE, if_false, h0.1, h0.2, h1.1, h1.2, ← hsc, ← ht0, ← ht1]
  by_cases hyy : 0 ≤ y a * y b
  · rw [if_pos hyy]
    -- no zero strictly inside
    have hin : ∀ x ∈ Ioo a b, y x ≠ 0 := by
      intro x hx h0
      have hd : dy x ≠ 0 := fun hd => h.nonzero hn x ⟨h0, hd⟩
      exact absurd (h.sign_change hq hx.1 hx.2 h0 hd) (not_lt.mpr hyy)
    have hsin : ∀ x ∈ Ioo a b, sin (Θ x) ≠ 0 := by
      intro x hx h0
      have := ((hang x ⟨hx.1.le, hx.2.le⟩).sin_eq_zero (hnz x)).mp h0
      exact hin x hx ((mul_eq_zero.mp this).resolve_left hs.ne')
    have hΘo : ContinuousOn Θ (Ioo a b) := hΘ.mono Set.Ioo_subset_Icc_self
    have hmid : (a + b) / 2 ∈ Ioo a b := ⟨by linarith, by linarith⟩
    obtain ⟨k, hk⟩ : ∃ k, k = ⌊Θ ((a + b) / 2) / pi⌋ := ⟨_, rfl⟩
    have hint : ∀ x ∈ Ioo a b, (k : ℝ) * pi < Θ x ∧ Θ x < (k + 1) * pi := by
      intro x hx
      have hf : ⌊Θ x / pi⌋ = k := by rw [hk]; exact floor_const isPreconnected_Ioo hΘo hsin hx hmid
      have f1 := Int.floor_le (Θ x / pi)
      have f2 := Int.lt_floor_add_one (Θ x / pi)
      rw [hf] at f1 f2
      rw [le_div_iff₀ hp] at f1
      rw [div_lt_iff₀ hp] at f2
      refine ⟨lt_of_le_of_ne f1 fun e => hsin x hx ?_, f2⟩
      rw [← e]; exact Real.sin_int_mul_pi k
    have hcl : closure (Ioo a b) = Icc a b := closure_Ioo hab.ne
    have lower : ∀ c : ℝ, (∀ x ∈ Ioo a b, c ≤ Θ x) → ∀ x ∈ Icc a b, c ≤ Θ x := by
      intro c hc x hx
      exact le_on_closure (s := Ioo a b) (f := fun _ => c) hc continuousOn_const (by rwa [hcl]) (by rwa [hcl])
    have upper : ∀ c : ℝ, (∀ x ∈ Ioo a b, Θ x ≤ c) → ∀ x ∈ Icc a b, Θ x ≤ c := by
      intro c hc x hx
      exact le_on_closure (s := Ioo a b) (g := fun _ => c) hc (by rwa [hcl]) continuousOn_const (by rwa [hcl])
    have hL := lower (k * pi) (fun x hx => (hint x hx).1.le)
    have hU := upper ((k + 1) * pi) (fun x hx => (hint x hx).2.le)
    have la := hL a hma
    have lb := hL b hmb
    have ua := hU a hma
    have ub := hU b hmb
    rw [hm0] at la ua
    rw [hm1] at lb ub
    -- the branch numbers at the two ends
    have toInt : ∀ {m n : ℤ}, (m : ℝ) * pi < (n : ℝ) * pi → m < n := by
      intro m n hmn
      exact_mod_cast lt_of_mul_lt_mul_right hmn hp.le
    have A : (0 < t0 → m0 = k) ∧ (t0 < 0 → m0 = k + 1) ∧ (t0 = 0 → m0 = k) := by
      refine ⟨fun ht => ?_, fun ht => ?_, fun ht => ?_⟩
      · have i1 : m0 < k + 1 := toInt (by push_cast; linarith)
        have i2 : k < m0 + 1 := toInt (by push_cast; linarith)
        omega
      · have i1 : m0 < k + 2 := toInt (by push_cast; linarith)
        have i2 : k < m0 := toInt (by linarith)
        omega
      · have hya : y a = 0 := by
          have : sin t0 = 0 := by rw [ht, Real.sin_zero]
          exact (mul_eq_zero.mp ((a0.sin_eq_zero (hnz a)).mp this)).resolve_left hs.ne'
        have hda : dy a ≠ 0 := fun hd => hn ⟨hya, hd⟩
        have hh := upper (k * pi + pi / 2) (fun x hx => by
          have hpx := h.prod_pos_after hq hx.1 hya hda
          exact (half_of_pos (hang x ⟨hx.1.le, hx.2.le⟩) (hint x hx).1 (hint x hx).2
            (by rw [mul_assoc]; exact mul_pos hs hpx)).le) a hma
        rw [hm0, ht] at hh
        rw [ht] at la
        have i1 : m0 < k + 1 := toInt (by push_cast; linarith)
        have i2 : k < m0 + 1 := toInt (by push_cast; linarith)
        omega
    have B : (0 < t1 → m1 = k) ∧ (t1 < 0 → m1 = k + 1) ∧ (t1 = 0 → m1 = k + 1) := by
      refine ⟨fun ht => ?_, fun ht => ?_, fun ht => ?_⟩
      · have i1 : m1 < k + 1 := toInt (by push_cast; linarith)
        have i2 : k < m1 + 1 := toInt (by push_cast; linarith)
        omega
      · have i1 : m1 < k + 2 := toInt (by push_cast; linarith)
        have i2 : k < m1 := toInt (by linarith)
        omega
      · have hyb : y b = 0 := by
          have : sin t1 = 0 := by rw [ht, Real.sin_zero]
          exact (mul_eq_zero.mp ((a1.sin_eq_zero (hnz b)).mp this)).resolve_left hs.ne'
        have hdb : dy b ≠ 0 := fun hd => h.nonzero hn b ⟨hyb, hd⟩
        have hh := lower (k * pi + pi / 2) (fun x hx => by
          have hpx := h.prod_neg_before hq hx.2 hyb hdb
          exact (half_of_neg (hang x ⟨hx.1.le, hx.2.le⟩) (hint x hx).1 (hint x hx).2
            (by rw [mul_assoc]; exact mul_neg_of_pos_of_neg hs hpx)).le) b hmb
        rw [hm1, ht] at hh
        rw [ht] at ub
        have i1 : m1 < k + 2 := toInt (by push_cast; linarith)
        have i2 : k < m1 := toInt (by linarith)
        omega
    rw [hm0, hm1]
    have fin : ∀ (s0 s1 : ℤ), (s0 = 1 ∧ m0 = k ∨ s0 = -1 ∧ m0 = k + 1) → (s1 = 1 ∧ m1 = k ∨ s1 = -1 ∧ m1 = k + 1) →
        (if s0 * s1 < 0 then t1 + (s0 : ℝ) * pi else t1) - t0 = t1 + m1 * pi - (t0 + m0 * pi) := by
      rintro s0 s1 (⟨rfl, e0⟩ | ⟨rfl, e0⟩) (⟨rfl, e1⟩ | ⟨rfl, e1⟩) <;> rw [e0, e1] <;> norm_num <;> ring
    apply fin
    · rcases lt_trichotomy t0 0 with ht | ht | ht
      · right; simp [ht.ne, sign, ht, not_lt.mpr ht.le, A.2.1 ht]
      · left; simp [ht, A.2.2 ht]
      · left; simp [ht.ne', sign, ht, A.1 ht]
    · rcases lt_trichotomy t1 0 with ht | ht | ht
      · right; simp [ht.ne, sign, ht, not_lt.mpr ht.le, B.2.1 ht]
      · right; simp [ht, B.2.2 ht]
      · left; simp [ht.ne', sign, ht, B.1 ht]
  · rw [if_neg hyy]
    have hlt : y a * y b < 0 := not_le.mp hyy
    -- a zero inside
    obtain ⟨c, hc, hyc⟩ : ∃ c ∈ Ioo a b, y c = 0 := by
      rcases mul_neg_iff.mp hlt with ⟨p1, p2⟩ | ⟨p1, p2⟩
      · obtain ⟨z, hz, e⟩ := intermediate_value_Icc' hab.le h.cont_y.continuousOn ⟨p2.le, p1.le⟩
        refine ⟨z, ⟨lt_of_le_of_ne hz.1 ?_, lt_of_le_of_ne hz.2 ?_⟩, e⟩
        · rintro rfl; linarith
        · rintro rfl; linarith
      · obtain ⟨z, hz, e⟩ := intermediate_value_Icc hab.le h.cont_y.continuousOn ⟨p1.le, p2.le⟩
        refine ⟨z, ⟨lt_of_le_of_ne hz.1 ?_, lt_of_le_of_ne hz.2 ?_⟩, e⟩
        · rintro rfl; linarith
        · rintro rfl; linarith
    have hdc : dy c ≠ 0 := fun hd => h.nonzero hn c ⟨hyc, hd⟩
    have pa := h.prod_neg_before hq hc.1 hyc hdc
    have pb := h.prod_pos_after hq hc.2 hyc hdc
    have hdy : ∀ x, dy x ≠ 0 := fun x hx => by
      rcases lt_trichotomy x c with hxc | hxc | hxc
      · have := h.prod_neg_before hq hxc hyc hdc; rw [hx] at this; simp at this
      · exact hdc (hxc ▸ hx)
      · have := h.prod_pos_after hq hxc hyc hdc; rw [hx] at this; simp at this
    have t0n : t0 < 0 := angle_neg a0 r0 (by rw [mul_assoc]; exact mul_neg_of_pos_of_neg hs pa)
    have t1p : 0 < t1 := angle_pos a1 r1 (by rw [mul_assoc]; exact mul_pos hs pb)
    rw [if_neg (not_lt.mpr (mul_nonpos_of_nonpos_of_nonneg t0n.le t1p.le))]
    have hfl := floor_const (S := Icc a b) isPreconnected_Icc (f := fun x => Θ x + pi / 2) (hΘ.add continuousOn_const) (by
      intro x hx h0
      rw [Real.sin_add_pi_div_two] at h0
      exact hdy x (((hang x hx).cos_eq_zero (hnz x)).mp h0)) hma hmb
    simp only [hm0, hm1] at hfl
    have fl : ∀ (t : ℝ) (m : ℤ), -pi / 2 < t → t < pi / 2 → ⌊(t + m * pi + pi / 2) / pi⌋ = m := by
      intro t m u1 u2
      rw [Int.floor_eq_iff]
      constructor
      · rw [le_div_iff₀ hp]; linarith
      · rw [div_lt_iff₀ hp]; linarith
    have t1lt : t1 < pi / 2 := by
      refine lt_of_le_of_ne r1.2 fun e => ?_
      have : cos t1 = 0 := by rw [e, Real.cos_pi_div_two]
      exact hdy b ((a1.cos_eq_zero (hnz b)).mp this)
    rw [fl t0 m0 r0.1 (by linarith), fl t1 m1 r1.1 t1lt] at hfl
    rw [hm0, hm1, hfl]; ring

end Verif.Prufer
