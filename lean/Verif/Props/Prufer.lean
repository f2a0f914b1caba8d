import Verif.Model.Prufer
import Verif.Props.Propagate
import Mathlib.Tactic.Linarith
import Mathlib.Tactic.Positivity
import Mathlib.Tactic.LinearCombination

/-!
# The Prüfer angle: C36–C40
-/
namespace Verif.Prufer
open Verif.YT Verif.Propag Verif.Mesh Verif.Spec
open Real (pi sin cos)

/-- Specification: `θ` is an angle, modulo π, of the direction with sine-component `u` and
cosine-component `v`: the point `(v, u)` lies on the line through the origin at angle `θ`. -/
def IsAngle (θ u v : ℝ) : Prop := u * cos θ = v * sin θ

/-! ### Directions -/

theorem IsAngle.add_int_mul_pi {θ u v : ℝ} (h : IsAngle θ u v) (k : ℤ) : IsAngle (θ + k * pi) u v := by
  unfold IsAngle at *
  rw [Real.cos_add_int_mul_pi, Real.sin_add_int_mul_pi]
  linear_combination (-1) ^ k * h

theorem IsAngle.add_pi {θ u v : ℝ} (h : IsAngle θ u v) : IsAngle (θ + pi) u v := by
  simpa using h.add_int_mul_pi 1

theorem IsAngle.sub_pi {θ u v : ℝ} (h : IsAngle θ u v) : IsAngle (θ - pi) u v := by
  simpa [sub_eq_add_neg] using h.add_int_mul_pi (-1)

/-- Two angles of the same direction differ by a multiple of π. -/
theorem IsAngle.unique {θ θ' u v : ℝ} (h : IsAngle θ u v) (h' : IsAngle θ' u v) (hne : ¬ (u = 0 ∧ v = 0)) :
    ∃ k : ℤ, θ' = θ + k * pi := by
  unfold IsAngle at *
  have e : sin (θ' - θ) = sin θ' * cos θ - cos θ' * sin θ := Real.sin_sub _ _
  have hu : u * sin (θ' - θ) = 0 := by rw [e]; linear_combination sin θ' * h - sin θ * h'
  have hv : v * sin (θ' - θ) = 0 := by rw [e]; linear_combination cos θ' * h - cos θ * h'
  have h0 : sin (θ' - θ) = 0 := by
    rcases mul_eq_zero.mp hu with h | h
    · rcases mul_eq_zero.mp hv with h' | h'
      · exact absurd ⟨h, h'⟩ hne
      · exact h'
    · exact h
  obtain ⟨k, hk⟩ := Real.sin_eq_zero_iff.mp h0
  exact ⟨k, by linarith⟩

/-- A common factor does not matter. -/
theorem IsAngle.smul {θ u v : ℝ} (h : IsAngle θ u v) (c : ℝ) : IsAngle θ (c * u) (c * v) := by
  unfold IsAngle at *; linear_combination c * h

theorem IsAngle.of_smul {θ u v c : ℝ} (hc : c ≠ 0) (h : IsAngle θ (c * u) (c * v)) : IsAngle θ u v := by
  unfold IsAngle at *
  exact mul_left_cancel₀ hc (by linear_combination h)

theorem atan2_angle (y x : ℝ) : IsAngle (atan2 y x) y x := by
  unfold IsAngle atan2
  have h1 := Complex.norm_mul_cos_arg ⟨x, y⟩
  have h2 := Complex.norm_mul_sin_arg ⟨x, y⟩
  simp only at h1 h2
  linear_combination (-cos (Complex.arg ⟨x, y⟩)) * h2 + sin (Complex.arg ⟨x, y⟩) * h1

theorem atanSafe_angle (y x : ℝ) : IsAngle (atanSafe y x) y x := by
  unfold atanSafe
  have h := atan2_angle y x
  dsimp only
  split
  · exact h.sub_pi
  · split
    · exact h.add_pi
    · exact h

theorem atanSafe_range (y x : ℝ) : -pi / 2 < atanSafe y x ∧ atanSafe y x ≤ pi / 2 := by
  have h1 := Complex.arg_le_pi ⟨x, y⟩
  have h2 := Complex.neg_pi_lt_arg ⟨x, y⟩
  have hp := Real.pi_pos
  unfold atanSafe atan2
  dsimp only
  split
  · constructor <;> linarith
  · split
    · constructor <;> linarith
    · constructor <;> linarith

/-- Angles in `(-π/2, π/2]` are determined by the direction. -/
theorem IsAngle.eq_of_range {θ θ' u v : ℝ} (h : IsAngle θ u v) (h' : IsAngle θ' u v) (hne : ¬ (u = 0 ∧ v = 0))
    (hr : -pi / 2 < θ ∧ θ ≤ pi / 2) (hr' : -pi / 2 < θ' ∧ θ' ≤ pi / 2) : θ' = θ := by
  obtain ⟨k, hk⟩ := h.unique h' hne
  have hp := Real.pi_pos
  have h1 : (k : ℝ) < 1 := by
    by_contra hc; push Not at hc; nlinarith
  have h2 : (-1 : ℝ) < k := by
    by_contra hc; push Not at hc; nlinarith
  have h1' : k < 1 := by exact_mod_cast h1
  have h2' : -1 < k := by exact_mod_cast h2
  have : k = 0 := by omega
  simpa [this] using hk

/-- **C36**: the safe arctangent. -/
theorem C36_atan_safe (y x : ℝ) (hne : ¬ (y = 0 ∧ x = 0)) :
    (-pi / 2 < atanSafe y x ∧ atanSafe y x ≤ pi / 2) ∧
    (x ≠ 0 → Real.tan (atanSafe y x) = y / x) ∧
    (x = 0 → atanSafe y x = pi / 2) ∧
    (y = 0 → atanSafe y x = 0) ∧
    (∀ c : ℝ, c ≠ 0 → atanSafe (c * y) (c * x) = atanSafe y x) := by
  have ha := atanSafe_angle y x
  have hr := atanSafe_range y x
  have hp := Real.pi_pos
  refine ⟨hr, ?_, ?_, ?_, ?_⟩
  · intro hx
    have hc : cos (atanSafe y x) ≠ 0 := by
      intro hc
      unfold IsAngle at ha
      rw [hc, mul_zero] at ha
      have hs : sin (atanSafe y x) = 0 := by
        rcases mul_eq_zero.mp ha.symm with h | h
        · exact absurd h hx
        · exact h
      have := Real.sin_sq_add_cos_sq (atanSafe y x)
      rw [hc, hs] at this; norm_num at this
    rw [Real.tan_eq_sin_div_cos, div_eq_div_iff hc hx]
    unfold IsAngle at ha; linarith
  · intro hx
    subst hx
    refine IsAngle.eq_of_range (θ := pi / 2) (u := y) (v := 0) ?_ ha hne ⟨by linarith, le_rfl⟩ hr
    simp [IsAngle]
  · intro hy
    subst hy
    refine IsAngle.eq_of_range (θ := 0) (u := 0) (v := x) ?_ ha hne ⟨by linarith, by linarith⟩ hr
    simp [IsAngle]
  · intro c hc
    have hc' : ¬ (c * y = 0 ∧ c * x = 0) := fun h =>
      hne ⟨(mul_eq_zero.mp h.1).resolve_left hc, (mul_eq_zero.mp h.2).resolve_left hc⟩
    exact IsAngle.eq_of_range (ha.smul c) (atanSafe_angle _ _) hc' hr (atanSafe_range _ _)

/-- The direction (3, 4) in the third quadrant, where `atan2` leaves the range. -/
example : ¬ ((-4 : ℝ) = 0 ∧ (-3 : ℝ) = 0) ∧ atanSafe (-4) (-3) = atanSafe 4 3 := by
  refine ⟨by norm_num, ?_⟩
  have := (C36_atan_safe 4 3 (by norm_num)).2.2.2.2 (-1) (by norm_num)
  norm_num at this; exact this

/-! ### Rescaling -/

/-- Sine and cosine after rescaling: both divided by the same positive number. -/
theorem rescale_sincos (θ σ : ℝ) (hσ : 0 < σ) :
    ∃ r : ℝ, 0 < r ∧ r * sin (rescale θ σ) = σ * sin θ ∧ r * cos (rescale θ σ) = cos θ := by
  have hsc := Real.sin_sq_add_cos_sq θ
  set z : ℂ := ⟨1 + (σ - 1) * sin θ * sin θ, (σ - 1) * sin θ * cos θ⟩ with hz
  have hre : 0 < z.re := by
    have : z.re = σ * sin θ ^ 2 + cos θ ^ 2 := by simp only [hz]; linear_combination (-1 : ℝ) * hsc
    rw [this]
    rcases eq_or_ne (sin θ) 0 with h | h
    · rw [h] at hsc ⊢; nlinarith
    · have : 0 < sin θ ^ 2 := by positivity
      have := sq_nonneg (cos θ)
      nlinarith [mul_pos hσ ‹0 < sin θ ^ 2›]
  have hz0 : z ≠ 0 := fun h => by rw [h] at hre; simp at hre
  have hn : 0 < ‖z‖ := norm_pos_iff.mpr hz0
  have h1 := Complex.norm_mul_cos_arg z
  have h2 := Complex.norm_mul_sin_arg z
  have hr : rescale θ σ = θ + Complex.arg z := rfl
  refine ⟨‖z‖, hn, ?_, ?_⟩
  · rw [hr, Real.sin_add]
    have : z.re = 1 + (σ - 1) * sin θ * sin θ := rfl
    have : z.im = (σ - 1) * sin θ * cos θ := rfl
    linear_combination sin θ * h1 + cos θ * h2 + (σ - 1) * sin θ * hsc
  · rw [hr, Real.cos_add]
    have : z.re = 1 + (σ - 1) * sin θ * sin θ := rfl
    have : z.im = (σ - 1) * sin θ * cos θ := rfl
    linear_combination cos θ * h1 - sin θ * h2

/-- The correction is less than a quarter turn. -/
theorem rescale_close (θ σ : ℝ) (hσ : 0 < σ) : |rescale θ σ - θ| < pi / 2 := by
  have hsc := Real.sin_sq_add_cos_sq θ
  have hr : rescale θ σ - θ = Complex.arg ⟨1 + (σ - 1) * sin θ * sin θ, (σ - 1) * sin θ * cos θ⟩ := by
    unfold rescale atan2; ring
  rw [hr, Complex.abs_arg_lt_pi_div_two_iff]
  left
  show (0 : ℝ) < 1 + (σ - 1) * sin θ * sin θ
  rcases eq_or_ne (sin θ) 0 with h | h
  · rw [h]; norm_num
  · have : 0 < sin θ ^ 2 := by positivity
    nlinarith [mul_pos hσ this, sq_nonneg (cos θ)]

theorem rescale_angle {θ σ u v : ℝ} (hσ : 0 < σ) (h : IsAngle θ u v) : IsAngle (rescale θ σ) (σ * u) v := by
  obtain ⟨r, hr, h1, h2⟩ := rescale_sincos θ σ hσ
  unfold IsAngle at *
  refine mul_left_cancel₀ hr.ne' ?_
  linear_combination σ * u * h2 - v * h1 + σ * h

theorem rescale_add_int_mul_pi (θ σ : ℝ) (k : ℤ) : rescale (θ + k * pi) σ = rescale θ σ + k * pi := by
  unfold rescale
  dsimp only
  rw [Real.sin_add_int_mul_pi, Real.cos_add_int_mul_pi]
  have e : ((-1 : ℝ) ^ k) * (-1) ^ k = 1 := by
    rw [← mul_zpow]; norm_num
  have e1 : (σ - 1) * ((-1) ^ k * sin θ) * ((-1) ^ k * cos θ) = (σ - 1) * sin θ * cos θ := by
    linear_combination (σ - 1) * sin θ * cos θ * e
  have e2 : 1 + (σ - 1) * ((-1) ^ k * sin θ) * ((-1) ^ k * sin θ) = 1 + (σ - 1) * sin θ * sin θ := by
    linear_combination (σ - 1) * sin θ * sin θ * e
  rw [e1, e2]; ring

theorem rescale_strictMono {σ : ℝ} (hσ : 0 < σ) : StrictMono (fun θ => rescale θ σ) := by
  have hp := Real.pi_pos
  have small : ∀ a b : ℝ, a < b → b < a + pi → rescale a σ < rescale b σ := by
    intro a b h1 h2
    obtain ⟨r, hr, s1, c1⟩ := rescale_sincos a σ hσ
    obtain ⟨r', hr', s2, c2⟩ := rescale_sincos b σ hσ
    have hs : 0 < sin (rescale b σ - rescale a σ) := by
      have hb : 0 < sin (b - a) := Real.sin_pos_of_pos_of_lt_pi (by linarith) (by linarith)
      have e : r * r' * sin (rescale b σ - rescale a σ) = σ * sin (b - a) := by
        rw [Real.sin_sub, Real.sin_sub]
        linear_combination (r * cos (rescale a σ)) * s2 + σ * sin b * c1
          - (r' * cos (rescale b σ)) * s1 - σ * sin a * c2
      by_contra hc; push Not at hc
      have := mul_pos hσ hb
      nlinarith [mul_pos hr hr']
    have ha := abs_lt.mp (rescale_close a σ hσ)
    have hb := abs_lt.mp (rescale_close b σ hσ)
    by_contra hc; push Not at hc
    have : sin (rescale b σ - rescale a σ) ≤ 0 :=
      Real.sin_nonpos_of_nonpos_of_neg_pi_le (by linarith) (by linarith)
    linarith
  intro a b hab
  show rescale a σ < rescale b σ
  set k := ⌊(b - a) / pi⌋ with hk
  have h1 : (k : ℝ) * pi ≤ b - a := by
    have := Int.floor_le ((b - a) / pi)
    rwa [le_div_iff₀ hp] at this
  have h2 : b - a < (k + 1) * pi := by
    have := Int.lt_floor_add_one ((b - a) / pi)
    rwa [div_lt_iff₀ hp] at this
  have hk0 : 0 ≤ k := Int.floor_nonneg.mpr (div_nonneg (by linarith) hp.le)
  have e : rescale (a + k * pi) σ = rescale a σ + k * pi := rescale_add_int_mul_pi a σ k
  have hk0' : (0 : ℝ) ≤ k := by exact_mod_cast hk0
  rcases eq_or_lt_of_le h1 with h | h
  · have hb : b = a + k * pi := by linarith
    have hkp : (0 : ℝ) < k * pi := by rw [h]; linarith
    rw [hb, e]; linarith
  · have := small (a + k * pi) b (by linarith) (by linarith)
    rw [e] at this
    nlinarith [mul_nonneg hk0' hp.le]

/-- **C37**: `rescale` multiplies the tangent by `σ` along the same branch: it takes an angle of the
direction `(u, v)` to one of `(σ u, v)`, commutes with half turns, fixes the multiples of π/2, moves no
angle by a quarter turn or more, and is strictly increasing. -/
theorem C37_rescale (σ : ℝ) (hσ : 0 < σ) :
    (∀ θ, cos θ ≠ 0 → Real.tan (rescale θ σ) = σ * Real.tan θ) ∧
    (∀ θ u v, IsAngle θ u v → IsAngle (rescale θ σ) (σ * u) v) ∧
    (∀ θ, rescale (θ + pi) σ = rescale θ σ + pi) ∧
    (∀ k : ℤ, rescale (k * (pi / 2)) σ = k * (pi / 2)) ∧
    (∀ θ, |rescale θ σ - θ| < pi / 2) ∧
    StrictMono (fun θ => rescale θ σ) := by
  refine ⟨?_, fun θ u v h => rescale_angle hσ h, ?_, ?_, fun θ => rescale_close θ σ hσ, rescale_strictMono hσ⟩
  · intro θ hc
    obtain ⟨r, hr, h1, h2⟩ := rescale_sincos θ σ hσ
    have hc' : cos (rescale θ σ) ≠ 0 := fun h => hc (by rw [← h2, h, mul_zero])
    rw [Real.tan_eq_sin_div_cos, Real.tan_eq_sin_div_cos, mul_div_assoc', div_eq_div_iff hc' hc]
    refine mul_left_cancel₀ hr.ne' ?_
    linear_combination cos θ * h1 - σ * sin θ * h2
  · intro θ; simpa using rescale_add_int_mul_pi θ σ 1
  · intro k
    have h0 : rescale 0 σ = 0 := by
      simp [rescale, atan2, show (⟨1, 0⟩ : ℂ) = 1 from rfl]
    have h1 : rescale (pi / 2) σ = pi / 2 := by
      have : (⟨1 + (σ - 1) * 1 * 1, (σ - 1) * 1 * 0⟩ : ℂ) = ((σ : ℝ) : ℂ) := by
        apply Complex.ext <;> simp
      unfold rescale atan2
      dsimp only
      rw [Real.sin_pi_div_two, Real.cos_pi_div_two, this, Complex.arg_ofReal_of_nonneg hσ.le, add_zero]
    obtain ⟨m, hm | hm⟩ := Int.even_or_odd' k
    · have : (k : ℝ) * (pi / 2) = 0 + (m : ℝ) * pi := by rw [hm]; push_cast; ring
      rw [this, rescale_add_int_mul_pi, h0]
    · have : (k : ℝ) * (pi / 2) = pi / 2 + (m : ℝ) * pi := by rw [hm]; push_cast; ring
      rw [this, rescale_add_int_mul_pi, h1]

/-! ### One sector -/

theorem scaling_pos (v0M E : ℝ) : 0 < scaling v0M E := by
  unfold scaling
  split
  · exact Real.sqrt_pos.mpr (by linarith)
  · exact one_pos

theorem theta0_angle (v0M v0 E : ℝ) (y : Y ℝ) : IsAngle (theta0 v0M v0 E y) (scaling v0M E * y.y) y.dy := by
  unfold theta0
  dsimp only
  split
  · rename_i h
    have hw : 0 < Real.sqrt (E - v0) := Real.sqrt_pos.mpr (by linarith)
    have := rescale_angle (div_pos (scaling_pos v0M E) hw) (atanSafe_angle (y.y * Real.sqrt (E - v0)) y.dy)
    have e : scaling v0M E / Real.sqrt (E - v0) * (y.y * Real.sqrt (E - v0)) = scaling v0M E * y.y := by
      field_simp
    rwa [e] at this
  · exact atanSafe_angle _ _

/-- The final angle of the oscillatory branch is `phi_star` plus a multiple of π. -/
theorem osc_shift (w δ t0 ps : ℝ) : ∃ k : ℤ,
    (let phi_bar := w * δ + t0
     let phi_bar := phi_bar - (⌊phi_bar / pi⌋ : ℝ) * pi
     let theta1 := ps - phi_bar
     let theta1 := if theta1 < -pi / 2 then theta1 + pi else if pi / 2 < theta1 then theta1 - pi else theta1
     let theta1 := theta1 + (t0 + w * δ)
     if theta1 < t0 then theta1 + pi else theta1) = ps + k * pi := by
  dsimp only
  generalize ⌊(w * δ + t0) / pi⌋ = m
  split_ifs
  · exact ⟨m + 1 + 1, by push_cast; ring⟩
  · exact ⟨m + 1, by push_cast; ring⟩
  · exact ⟨m, by push_cast; ring⟩
  · exact ⟨m - 1, by push_cast; ring⟩
  · exact ⟨m + 1, by push_cast; ring⟩
  · exact ⟨m, by push_cast; ring⟩

/-- One step takes an angle of the start direction to an angle of the end direction. -/
theorem prufer_angle (v0M v0 E δ : ℝ) (y0 y1 : Y ℝ) (h0 : ¬ (y0.y = 0 ∧ y0.dy = 0)) (θ : ℝ)
    (hθ : IsAngle θ (scaling v0M E * y0.y) y0.dy) :
    IsAngle (θ + pruferHelper v0M v0 E δ y0 y1) (scaling v0M E * y1.y) y1.dy := by
  have hs := scaling_pos v0M E
  have hne : ¬ (scaling v0M E * y0.y = 0 ∧ y0.dy = 0) := fun h =>
    h0 ⟨(mul_eq_zero.mp h.1).resolve_left hs.ne', h.2⟩
  unfold pruferHelper
  dsimp only
  split
  · rename_i h
    have hw : 0 < Real.sqrt (E - v0) := Real.sqrt_pos.mpr (by linarith)
    set w := Real.sqrt (E - v0)
    obtain ⟨k, hk⟩ := osc_shift w δ (atanSafe (y0.y * w) y0.dy) (atanSafe (y1.y * w) y1.dy)
    dsimp only at hk
    rw [hk]
    have hq := div_pos hs hw
    have e : ∀ u, scaling v0M E / w * (u * w) = scaling v0M E * u := fun u => by field_simp
    have a0 := rescale_angle hq (atanSafe_angle (y0.y * w) y0.dy)
    have a1 := rescale_angle hq ((atanSafe_angle (y1.y * w) y1.dy).add_int_mul_pi k)
    rw [e] at a0 a1
    obtain ⟨n, hn⟩ := a0.unique hθ hne
    have := a1.add_int_mul_pi n
    rw [hn]
    convert this using 1
    ring
  · have a0 := atanSafe_angle (scaling v0M E * y0.y) y0.dy
    have a1 := atanSafe_angle (scaling v0M E * y1.y) y1.dy
    obtain ⟨n, hn⟩ := a0.unique hθ hne
    have key : ∀ k : ℤ, IsAngle (θ + (atanSafe (scaling v0M E * y1.y) y1.dy + (k : ℝ) * pi
        - atanSafe (scaling v0M E * y0.y) y0.dy)) (scaling v0M E * y1.y) y1.dy := by
      intro k
      have := (a1.add_int_mul_pi k).add_int_mul_pi n
      rw [hn]; convert this using 1; ring
    have key0 := key 0
    have key1 := key 1
    rw [Int.cast_zero, zero_mul, add_zero] at key0
    rw [Int.cast_one, one_mul] at key1
    generalize (if atanSafe (scaling v0M E * y0.y) y0.dy = 0 then (1 : ℤ)
      else sign (atanSafe (scaling v0M E * y0.y) y0.dy)) = s0
    generalize (if atanSafe (scaling v0M E * y1.y) y1.dy = 0 then (-1 : ℤ)
      else sign (atanSafe (scaling v0M E * y1.y) y1.dy)) = s1
    by_cases c1 : 0 ≤ y0.y * y1.y
    · rw [if_pos c1]
      by_cases c2 : s0 * s1 < 0
      · rw [if_pos c2]; exact key s0
      · rw [if_neg c2]; exact key0
    · rw [if_neg c1]
      by_cases c2 : 0 < atanSafe (scaling v0M E * y0.y) y0.dy * atanSafe (scaling v0M E * y1.y) y1.dy
      · rw [if_pos c2]; exact key1
      · rw [if_neg c2]; exact key0

/-- **C40**: in a sector with `E` above the mean potential, the angle contributed by a step of
non-negative width from `y0` to any `y1` is non-negative. -/
theorem C40_prufer_nonneg (v0M v0 E δ : ℝ) (hE : v0 < E) (hδ : 0 ≤ δ) (y0 y1 : Y ℝ) :
    0 ≤ pruferHelper v0M v0 E δ y0 y1 := by
  have hs := scaling_pos v0M E
  have hw : 0 < Real.sqrt (E - v0) := Real.sqrt_pos.mpr (by linarith)
  have hp := Real.pi_pos
  unfold pruferHelper
  simp only [hE, if_true]
  refine sub_nonneg.mpr ((rescale_strictMono (div_pos hs hw)).monotone ?_)
  have h0 := atanSafe_range (y0.y * Real.sqrt (E - v0)) y0.dy
  have h1 := atanSafe_range (y1.y * Real.sqrt (E - v0)) y1.dy
  have hwd : 0 ≤ Real.sqrt (E - v0) * δ := mul_nonneg hw.le hδ
  generalize atanSafe (y0.y * Real.sqrt (E - v0)) y0.dy = t0 at *
  generalize atanSafe (y1.y * Real.sqrt (E - v0)) y1.dy = ps at *
  generalize Real.sqrt (E - v0) * δ = wd at *
  have f1 : ((⌊(wd + t0) / pi⌋ : ℤ) : ℝ) * pi ≤ wd + t0 := by
    have := Int.floor_le ((wd + t0) / pi)
    rwa [le_div_iff₀ hp] at this
  have f2 : wd + t0 < ((⌊(wd + t0) / pi⌋ : ℤ) + 1 : ℝ) * pi := by
    have := Int.lt_floor_add_one ((wd + t0) / pi)
    rwa [div_lt_iff₀ hp] at this
  generalize (⌊(wd + t0) / pi⌋ : ℤ) = m at *
  split_ifs <;> linarith

/-! ### The whole mesh -/

/-- The transfer matrices are invertible and the widths non-negative. -/
def Invertible (P : Prob ℝ) (E : ℝ) (useH : Bool) : Prop :=
  ∀ s ∈ P.secs, 0 ≤ s.h ∧ ∀ δ, 0 ≤ δ → δ ≤ s.h → (s.tr E δ useH).t.det ≠ 0

/-- A non-zero column. -/
def NonZero (y : Y ℝ) : Prop := ¬ (y.y = 0 ∧ y.dy = 0)

theorem NonZero.reverse {y : Y ℝ} (h : NonZero y) : NonZero y.reverse := by
  unfold NonZero Y.reverse at *; simpa using h

theorem NonZero.mul {A : T ℝ} (hA : A.t.det ≠ 0) {y : Y ℝ} (h : NonZero y) : NonZero (A.mul y) := by
  unfold NonZero T.mul M2.mulVec M2.det at *
  rintro ⟨h1, h2⟩
  dsimp only at h1 h2
  refine h ⟨?_, ?_⟩
  · exact mul_left_cancel₀ hA (by linear_combination A.t.d * h1 - A.t.b * h2)
  · exact mul_left_cancel₀ hA (by linear_combination A.t.a * h2 - A.t.c * h1)

theorem NonZero.div {A : T ℝ} (hA : A.t.det ≠ 0) {y : Y ℝ} (h : NonZero y) : NonZero (A.div y) := by
  unfold NonZero T.div M2.mulVec M2.adj M2.det at *
  rintro ⟨h1, h2⟩
  dsimp only at h1 h2
  refine h ⟨?_, ?_⟩
  · exact mul_left_cancel₀ hA (by linear_combination A.t.a * h1 + A.t.b * h2)
  · exact mul_left_cancel₀ hA (by linear_combination A.t.d * h2 + A.t.c * h1)

/-- A state whose accumulated angle, from the base angle `θ`, is an angle of its column. -/
def Tracks (sc θ : ℝ) (st : Y ℝ × ℝ) : Prop := NonZero st.1 ∧ IsAngle (θ + st.2) (sc * st.1.y) st.1.dy

theorem delta_tracks {s : PSec ℝ} {v0M v0 E : ℝ} {useH : Bool} (hh : 0 ≤ s.h)
    (hdet : ∀ δ, 0 ≤ δ → δ ≤ s.h → (s.tr E δ useH).t.det ≠ 0) (hp : s.prufer = pruferHelper v0M v0)
    (θ δ : ℝ) (st : Y ℝ × ℝ) (h : Tracks (scaling v0M E) θ st) :
    Tracks (scaling v0M E) θ (s.propagateDelta E useH st δ) := by
  have hnz : NonZero (s.propagateDelta E useH st δ).1 := by
    unfold PSec.propagateDelta
    simp only [ccmp_le, ccmp_lt, decide_eq_true_eq]
    generalize (if s.dir = .backward then -δ else δ) = ε
    have hr : ∀ ε : ℝ, 0 ≤ ε → 0 ≤ (if s.h < ε then s.h else ε) ∧ (if s.h < ε then s.h else ε) ≤ s.h := by
      intro ε he
      split
      · exact ⟨hh, le_rfl⟩
      · exact ⟨he, not_lt.mp (by assumption)⟩
    by_cases hb : s.dir = .backward
    · simp only [hb, if_true]
      apply NonZero.reverse
      split
      · rename_i h'; exact NonZero.mul (hdet _ (hr _ h').1 (hr _ h').2) h.1.reverse
      · rename_i h'
        exact NonZero.div (hdet _ (hr _ (by linarith)).1 (hr _ (by linarith)).2) h.1.reverse
    · simp only [hb, if_false]
      split
      · rename_i h'; exact NonZero.mul (hdet _ (hr _ h').1 (hr _ h').2) h.1
      · rename_i h'
        exact NonZero.div (hdet _ (hr _ (by linarith)).1 (hr _ (by linarith)).2) h.1
  refine ⟨hnz, ?_⟩
  have hs := scaling_pos v0M E
  have hsnz : ∀ {y : Y ℝ}, NonZero y → ¬ (scaling v0M E * y.y = 0 ∧ y.dy = 0) := fun hy h =>
    hy ⟨(mul_eq_zero.mp h.1).resolve_left hs.ne', h.2⟩
  obtain ⟨d, c, y1, he⟩ : ∃ (d : ℝ) (c : Bool) (y1 : Y ℝ), s.propagateDelta E useH st δ =
      (y1, st.2 + (if c then s.prufer E d st.1 y1 else -(s.prufer E d y1 st.1))) := ⟨_, _, _, rfl⟩
  rw [he] at hnz ⊢
  rw [hp]
  dsimp only at hnz ⊢
  cases c
  · have a1 := atanSafe_angle (scaling v0M E * y1.y) y1.dy
    have a2 := prufer_angle v0M v0 E d y1 st.1 hnz _ a1
    obtain ⟨k, hk⟩ := a2.unique h.2 (hsnz h.1)
    have a3 := a1.add_int_mul_pi k
    convert a3 using 1
    simp only [Bool.false_eq_true, if_false]
    linarith
  · have := prufer_angle v0M v0 E d st.1 y1 h.1 (θ + st.2) h.2
    rw [add_assoc] at this; exact this

theorem sector_tracks {s : PSec ℝ} {v0M v0 E : ℝ} {useH : Bool} (hh : 0 ≤ s.h)
    (hdet : ∀ δ, 0 ≤ δ → δ ≤ s.h → (s.tr E δ useH).t.det ≠ 0) (hp : s.prufer = pruferHelper v0M v0)
    (a b θ : ℝ) (y : Y ℝ) (h : Tracks (scaling v0M E) θ (y, 0)) :
    Tracks (scaling v0M E) θ (s.propagate E useH y a b) := by
  unfold PSec.propagate
  have key : ∀ (c1 c2 : Bool) (d1 d2 : ℝ), Tracks (scaling v0M E) θ
      (if c2 = true then s.propagateDelta E useH
          (if c1 = true then s.propagateDelta E useH (y, 0) d1 else (y, 0)) d2
        else (if c1 = true then s.propagateDelta E useH (y, 0) d1 else (y, 0))) := by
    intro c1 c2 d1 d2
    have h1 : Tracks (scaling v0M E) θ (if c1 = true then s.propagateDelta E useH (y, 0) d1 else (y, 0)) := by
      cases c1
      · exact h
      · exact delta_tracks hh hdet hp _ _ _ h
    cases c2
    · exact h1
    · exact delta_tracks hh hdet hp _ _ _ h1
  dsimp only
  split
  · split
    · exact key _ _ _ _
    · exact key _ _ _ _
  · exact h

/-- **C38**: the angle returned by `propagate` is an angle of the direction `(y'(b), scaling · y(b))`
of the returned column. -/
theorem C38_angle_of_solution (P : Prob ℝ) (hm : IsMesh P.mesh P.dmin P.dmax) (v0M E : ℝ) (useH : Bool)
    (ha : HasAngles P v0M) (hi : Invertible P E useH) (y : Y ℝ) (hy : ¬ (y.y = 0 ∧ y.dy = 0))
    {a b : ℝ} (hA : P.dmin ≤ a ∧ a ≤ P.dmax) (hB : P.dmin ≤ b ∧ b ≤ P.dmax) :
    ∃ r : Y ℝ × ℝ, P.propagate pi E y a b useH = .ok r ∧
      ¬ (r.1.y = 0 ∧ r.1.dy = 0) ∧ IsAngle r.2 (scaling v0M E * r.1.y) r.1.dy := by
  have hA' : domainContains P.dmin P.dmax a = true := by simpa [domainContains] using hA
  have hB' : domainContains P.dmin P.dmax b = true := by simpa [domainContains] using hB
  obtain ⟨i, j, hi', hj, -, -, -, -, he⟩ := propagate_closed P hm pi a b useH hA' hB'
  refine ⟨_, he E y, ?_⟩
  have hinit : Tracks (scaling v0M E) 0 (y, P.initTheta pi E y a b i) := by
    refine ⟨hy, ?_⟩
    obtain ⟨v0, h1, -⟩ := ha.secs _ (List.getElem_mem hi')
    unfold Prob.initTheta
    rw [List.getElem?_eq_getElem hi']
    dsimp only
    rw [h1]
    have := theta0_angle v0M v0 E y
    simp only [zero_add]
    split
    · exact this.add_pi
    · exact this
  have hfold : ∀ (l : List Nat) (st : Y ℝ × ℝ), Tracks (scaling v0M E) 0 st →
      Tracks (scaling v0M E) 0 (l.foldl (P.stepAt E useH a b) st) := by
    intro l
    induction l with
    | nil => exact fun st h => h
    | cons k l ih =>
      intro st h
      refine ih _ ?_
      unfold Prob.stepAt
      cases hk : P.secs[k]? with
      | none => exact h
      | some s =>
        have hs := List.mem_of_getElem? hk
        obtain ⟨v0, -, h2⟩ := ha.secs s hs
        have := sector_tracks (hi s hs).1 (hi s hs).2 h2 a b (0 + st.2) st.1
          ⟨h.1, by simpa using h.2⟩
        exact ⟨this.1, by simpa [add_assoc] using this.2⟩
  have := hfold (visited i j) _ hinit
  exact ⟨this.1, by simpa using this.2⟩

/-- **C39**: the matching angle is an integer multiple of π exactly when the matching error is zero. -/
theorem C39_integer_iff_zero (P : Prob ℝ) (hm : IsMesh P.mesh P.dmin P.dmax) (hmi : P.matchIndex < P.secs.length)
    (v0M E : ℝ) (useH : Bool) (ha : HasAngles P v0M) (hi : Invertible P E useH)
    (left right : Y ℝ) (hl : ¬ (left.y = 0 ∧ left.dy = 0)) (hr : ¬ (right.y = 0 ∧ right.dy = 0)) :
    ∃ err derr θ, P.matchingError pi E left right useH = .ok (err, derr, θ) ∧
      (err = 0 ↔ ∃ k : ℤ, θ = k * pi) := by
  have hd := max_in_domain hm hmi
  have hdom : P.dmin ≤ P.dmax := hd.1.trans hd.2
  obtain ⟨l, l1, l2, l3⟩ := C38_angle_of_solution P hm v0M E useH ha hi left hl (a := P.dmin) (b := (P.secs[P.matchIndex]).max)
    ⟨le_rfl, hdom⟩ hd
  obtain ⟨r, r1, r2, r3⟩ := C38_angle_of_solution P hm v0M E useH ha hi right hr (a := P.dmax) (b := (P.secs[P.matchIndex]).max)
    ⟨hdom, le_rfl⟩ hd
  refine ⟨l.1.dy * r.1.y - r.1.dy * l.1.y, l.1.dyE * r.1.y + l.1.dy * r.1.yE - (r.1.dyE * l.1.y + r.1.dy * l.1.yE),
    l.2 - r.2, ?_, ?_⟩
  · unfold Prob.matchingError
    rw [List.getElem?_eq_getElem hmi]
    simp only [l1, r1, Outcome.bind_ok]
    rfl
  · have hs := scaling_pos v0M E
    constructor
    · intro h0
      -- parallel columns: the left angle is also an angle of the right column
      have : IsAngle l.2 (scaling v0M E * r.1.y) r.1.dy := by
        unfold IsAngle at *
        by_cases c : l.1.y = 0
        · have hdy : l.1.dy ≠ 0 := fun h => l2 ⟨c, h⟩
          rw [c, mul_zero, zero_mul] at l3
          have hsin : sin l.2 = 0 := (mul_eq_zero.mp l3.symm).resolve_left hdy
          have : r.1.y = 0 := by
            rw [c, mul_zero, sub_zero] at h0
            exact (mul_eq_zero.mp h0).resolve_left hdy
          rw [this, hsin]; ring
        · refine mul_left_cancel₀ c ?_
          linear_combination r.1.y * l3 + sin l.2 * h0
      obtain ⟨k, hk⟩ := r3.unique this (fun h => r2 ⟨(mul_eq_zero.mp h.1).resolve_left hs.ne', h.2⟩)
      exact ⟨k, by linarith⟩
    · rintro ⟨k, hk⟩
      have e : IsAngle l.2 (scaling v0M E * r.1.y) r.1.dy := by
        have := r3.add_int_mul_pi k
        rwa [← hk, add_sub_cancel] at this
      unfold IsAngle at *
      have hsc := Real.sin_sq_add_cos_sq l.2
      have h1 : cos l.2 * (scaling v0M E * (l.1.dy * r.1.y - r.1.dy * l.1.y)) = 0 := by
        linear_combination l.1.dy * e - r.1.dy * l3
      have h2 : sin l.2 * (scaling v0M E * (l.1.dy * r.1.y - r.1.dy * l.1.y)) = 0 := by
        linear_combination scaling v0M E * l.1.y * e - scaling v0M E * r.1.y * l3
      have h3 : scaling v0M E * (l.1.dy * r.1.y - r.1.dy * l.1.y) = 0 := by
        by_contra hne
        have hc := (mul_eq_zero.mp h1).resolve_right hne
        have hs' := (mul_eq_zero.mp h2).resolve_right hne
        rw [hc, hs'] at hsc; norm_num at hsc
      exact (mul_eq_zero.mp h3).resolve_left hs.ne'

end Verif.Prufer
