import Verif.Lemmas.ConstSol
import Mathlib.Analysis.SpecialFunctions.Trigonometric.Arctan
import Mathlib.Analysis.SpecialFunctions.Trigonometric.Bounds

/-!
# One step of the Prüfer angle when the column changes little
-/
namespace Verif.Prufer
open Verif.YT Verif.Propag
open Real (pi sin cos arctan)

/-- The rotation from the direction `(u, v)` to `(u', v')` by less than a right angle. -/
noncomputable def rot (u v u' v' : ℝ) : ℝ := arctan ((u' * v - u * v') / (u * u' + v * v'))

theorem rot_range (u v u' v' : ℝ) : -(pi / 2) < rot u v u' v' ∧ rot u v u' v' < pi / 2 :=
  ⟨Real.neg_pi_div_two_lt_arctan _, Real.arctan_lt_pi_div_two _⟩

theorem IsAngle.rot {θ u v u' v' : ℝ} (h : IsAngle θ u v) (hd : 0 < u * u' + v * v') : IsAngle (θ + rot u v u' v') u' v' := by
  obtain ⟨ρ, e1, e2⟩ := h.rep
  have hρ : ρ ≠ 0 := by rintro rfl; rw [e1, e2] at hd; simp at hd
  set t := (u' * v - u * v') / (u * u' + v * v') with ht
  have hc := Real.cos_arctan_pos t
  have ht' : sin (arctan t) * (u * u' + v * v') = cos (arctan t) * (u' * v - u * v') := by
    have h1 : sin (arctan t) = t * cos (arctan t) := by
      have := Real.tan_arctan t
      rw [Real.tan_eq_sin_div_cos, div_eq_iff hc.ne'] at this
      exact this
    have h2 : t * (u * u' + v * v') = u' * v - u * v' := by rw [ht]; exact div_mul_cancel₀ _ hd.ne'
    rw [h1]; linear_combination cos (arctan t) * h2
  unfold IsAngle Prufer.rot
  rw [← ht, Real.cos_add, Real.sin_add]
  rw [e1, e2] at ht'
  have : ρ * (u' * (cos θ * cos (arctan t) - sin θ * sin (arctan t))) = ρ * (v' * (sin θ * cos (arctan t) + cos θ * sin (arctan t))) := by
    linear_combination -ht'
  exact mul_left_cancel₀ hρ this

/-- The sign of the rotation. -/
theorem rot_nonneg {u v u' v' : ℝ} (hd : 0 < u * u' + v * v') (h : 0 ≤ u' * v - u * v') : 0 ≤ rot u v u' v' :=
  Real.arctan_nonneg.mpr (div_nonneg h hd.le)

theorem rot_pos {u v u' v' : ℝ} (hd : 0 < u * u' + v * v') (h : 0 < u' * v - u * v') : 0 < rot u v u' v' :=
  Real.arctan_pos.mpr (div_pos h hd)

theorem rot_abs {u v u' v' c : ℝ} (hd : 0 < u * u' + v * v') (h : |u' * v - u * v'| ≤ c * (u * u' + v * v')) : |rot u v u' v'| ≤ c := by
  have h1 : |(u' * v - u * v') / (u * u' + v * v')| ≤ c := by
    rw [abs_div, abs_of_pos hd, div_le_iff₀ hd]; exact h
  have h2 : |rot u v u' v'| ≤ |(u' * v - u * v') / (u * u' + v * v')| := by
    unfold rot
    generalize (u' * v - u * v') / (u * u' + v * v') = t
    have key : ∀ t : ℝ, 0 ≤ t → arctan t ≤ t := by
      intro t ht
      by_contra hc
      push Not at hc
      have h1 : arctan t < pi / 2 := Real.arctan_lt_pi_div_two t
      have := Real.lt_tan (x := arctan t) (by linarith) h1
      rw [Real.tan_arctan] at this
      linarith
    rcases le_total 0 t with h | h
    · rw [abs_of_nonneg (Real.arctan_nonneg.mpr h), abs_of_nonneg h]; exact key t h
    · have h' := key (-t) (by linarith)
      rw [Real.arctan_neg] at h'
      have h3 : arctan t ≤ 0 := by
        have := Real.arctan_nonneg.mpr (show 0 ≤ -t by linarith)
        rw [Real.arctan_neg] at this; linarith
      rw [abs_of_nonpos h3, abs_of_nonpos h]; exact h'
  exact h2.trans h1

/-- Both directions in terms of one signed length. -/
theorem IsAngle.rot_rep {θ u v u' v' : ℝ} (h : IsAngle θ u v) (hd : 0 < u * u' + v * v') :
    ∃ r, 0 < r ∧ u * u' = r * (sin θ * sin (θ + Prufer.rot u v u' v')) ∧ v * v' = r * (cos θ * cos (θ + Prufer.rot u v u' v')) := by
  obtain ⟨ρ, e1, e2⟩ := h.rep
  obtain ⟨ρ', e3, e4⟩ := (h.rot hd).rep
  have hr := rot_range u v u' v'
  set p := Prufer.rot u v u' v'
  have hc : 0 < cos p := Real.cos_pos_of_mem_Ioo ⟨by linarith [hr.1], hr.2⟩
  refine ⟨ρ * ρ', ?_, ?_, ?_⟩
  · rw [e3, e4, e1, e2] at hd
    have : ρ * sin θ * (ρ' * sin (θ + p)) + ρ * cos θ * (ρ' * cos (θ + p)) = ρ * ρ' * cos p := by
      have : cos p = cos (θ + p) * cos θ + sin (θ + p) * sin θ := by rw [← Real.cos_sub]; ring_nf
      rw [this]; ring
    rw [this] at hd
    exact pos_of_mul_pos_left hd hc.le
  · rw [e3, e1]; ring
  · rw [e4, e2]; ring

/-- The branch for `E ≤ vs[0]`: the code's case distinction picks the rotation by less than a right angle when `y` only crosses
zero upwards. -/
theorem prufer_non_small {sc p q p1 q1 θ0 θ1 : ℝ} (hsc : 0 < sc) (hd : 0 < sc * p * (sc * p1) + q * q1)
    (hz : p * p1 ≤ 0 → 0 < p1 * q - p * q1) (h0 : IsAngle θ0 (sc * p) q) (r0 : -pi / 2 < θ0 ∧ θ0 ≤ pi / 2)
    (h1 : IsAngle θ1 (sc * p1) q1) (r1 : -pi / 2 < θ1 ∧ θ1 ≤ pi / 2) :
    (if 0 ≤ p * p1 then
        if (if θ0 = 0 then 1 else sign θ0) * (if θ1 = 0 then -1 else sign θ1) < 0 then
          θ1 + ((if θ0 = 0 then 1 else sign θ0 : ℤ) : ℝ) * pi else θ1
      else if 0 < θ0 * θ1 then θ1 + pi else θ1) - θ0 = rot (sc * p) q (sc * p1) q1 := by
  have hp := Real.pi_pos
  have ha := h0.rot hd
  obtain ⟨r, hr, hs, hc⟩ := h0.rot_rep hd
  have hrr := rot_range (sc * p) q (sc * p1) q1
  have hD : p * p1 ≤ 0 → 0 < rot (sc * p) q (sc * p1) q1 := fun h => rot_pos hd (by
    have := mul_pos hsc (hz h); linarith)
  have hne1 : ¬ (sc * p1 = 0 ∧ q1 = 0) := by
    rintro ⟨e1, e2⟩; rw [e1, e2] at hd; simp at hd
  set ρ := rot (sc * p) q (sc * p1) q1 with hρ
  have hpp : p * p1 = r / sc ^ 2 * (sin θ0 * sin (θ0 + ρ)) := by
    field_simp; linarith
  have hrs : 0 < r / sc ^ 2 := by positivity
  -- principal value of the end angle
  have hθ1 : ∀ k : ℤ, -pi / 2 < θ0 + ρ + k * pi → θ0 + ρ + k * pi ≤ pi / 2 → θ1 = θ0 + ρ + k * pi := by
    intro k k1 k2
    exact (ha.add_int_mul_pi k).eq_of_range h1 hne1 ⟨k1, k2⟩ r1
  have sgn_pos : ∀ x : ℝ, 0 < x → sign x = 1 := fun x hx => by unfold sign; rw [if_pos hx]
  have sgn_neg : ∀ x : ℝ, x < 0 → sign x = -1 := fun x hx => by unfold sign; rw [if_neg (by linarith), if_pos hx]
  rcases lt_trichotomy (p * p1) 0 with hc0 | hc0 | hc0
  · -- a sign change of y
    have hρ0 := hD hc0.le
    rw [if_neg (by linarith)]
    have hss : sin θ0 * sin (θ0 + ρ) < 0 := by
      rw [hpp] at hc0
      by_contra h
      push Not at h
      nlinarith [mul_nonneg hrs.le h]
    have t0 : θ0 < 0 := by
      by_contra h
      push Not at h
      have s1 := Real.sin_nonneg_of_nonneg_of_le_pi h (by linarith)
      have s2 := Real.sin_nonneg_of_nonneg_of_le_pi (x := θ0 + ρ) (by linarith) (by linarith)
      nlinarith [mul_nonneg s1 s2]
    have t1 : 0 < θ0 + ρ := by
      by_contra h
      push Not at h
      have s1 := Real.sin_nonpos_of_nonpos_of_neg_pi_le t0.le (by linarith)
      have s2 := Real.sin_nonpos_of_nonpos_of_neg_pi_le h (by linarith)
      nlinarith [mul_nonneg_of_nonpos_of_nonpos s1 s2]
    have e := hθ1 0 (by push_cast; linarith) (by push_cast; linarith)
    rw [Int.cast_zero, zero_mul, add_zero] at e
    rw [e, if_neg (by nlinarith)]
    ring
  · have hρ0 := hD hc0.le
    rw [if_pos hc0.ge]
    have hss : sin θ0 = 0 ∨ sin (θ0 + ρ) = 0 := by
      rw [hpp] at hc0
      exact mul_eq_zero.mp ((mul_eq_zero.mp hc0).resolve_left hrs.ne')
    rcases hss with h | h
    · have t0 : θ0 = 0 := by
        rcases lt_trichotomy θ0 0 with h' | h' | h'
        · exact absurd h (Real.sin_neg_of_neg_of_neg_pi_lt h' (by linarith)).ne
        · exact h'
        · exact absurd h (Real.sin_pos_of_pos_of_lt_pi h' (by linarith)).ne'
      have e := hθ1 0 (by push_cast; linarith) (by push_cast; linarith)
      rw [Int.cast_zero, zero_mul, add_zero] at e
      have t1 : 0 < θ1 := by linarith
      rw [if_pos t0, if_neg t1.ne', sgn_pos θ1 t1, if_neg (by norm_num), e]
      ring
    · have t1 : θ0 + ρ = 0 := by
        rcases lt_trichotomy (θ0 + ρ) 0 with h' | h' | h'
        · exact absurd h (Real.sin_neg_of_neg_of_neg_pi_lt h' (by linarith)).ne
        · exact h'
        · exact absurd h (Real.sin_pos_of_pos_of_lt_pi h' (by linarith)).ne'
      have e := hθ1 0 (by push_cast; linarith) (by push_cast; linarith)
      rw [Int.cast_zero, zero_mul, add_zero, t1] at e
      have t0 : θ0 < 0 := by linarith
      rw [if_neg t0.ne, if_pos e, sgn_neg θ0 t0, if_neg (by norm_num), e]
      linarith
  · rw [if_pos hc0.le]
    have hss : 0 < sin θ0 * sin (θ0 + ρ) := by
      rw [hpp] at hc0
      exact pos_of_mul_pos_right hc0 hrs.le
    rcases lt_trichotomy θ0 0 with t0 | t0 | t0
    · have s0 := Real.sin_neg_of_neg_of_neg_pi_lt t0 (by linarith)
      have t1 : θ0 + ρ < 0 := by
        by_contra h
        push Not at h
        have s2 := Real.sin_nonneg_of_nonneg_of_le_pi h (by linarith)
        nlinarith
      by_cases h2 : -pi / 2 < θ0 + ρ
      · have e := hθ1 0 (by push_cast; linarith) (by push_cast; linarith)
        rw [Int.cast_zero, zero_mul, add_zero] at e
        have t1' : θ1 < 0 := by linarith
        rw [if_neg t0.ne, if_neg t1'.ne, sgn_neg θ0 t0, sgn_neg θ1 t1', if_neg (by norm_num), e]
        ring
      · push Not at h2
        have e := hθ1 1 (by push_cast; linarith) (by push_cast; linarith)
        rw [Int.cast_one, one_mul] at e
        have t1' : 0 < θ1 := by rw [e]; linarith
        rw [if_neg t0.ne, if_neg t1'.ne', sgn_neg θ0 t0, sgn_pos θ1 t1', if_pos (by norm_num), e]
        push_cast; ring
    · rw [t0, Real.sin_zero, zero_mul] at hss
      exact absurd hss (lt_irrefl _)
    · have s0 := Real.sin_pos_of_pos_of_lt_pi t0 (by linarith)
      have t1 : 0 < θ0 + ρ := by
        by_contra h
        push Not at h
        have s2 := Real.sin_nonpos_of_nonpos_of_neg_pi_le h (by linarith)
        nlinarith
      by_cases h2 : θ0 + ρ ≤ pi / 2
      · have e := hθ1 0 (by push_cast; linarith) (by push_cast; linarith)
        rw [Int.cast_zero, zero_mul, add_zero] at e
        have t1' : 0 < θ1 := by linarith
        rw [if_neg t0.ne', if_neg t1'.ne', sgn_pos θ0 t0, sgn_pos θ1 t1', if_neg (by norm_num), e]
        ring
      · push Not at h2
        have e := hθ1 (-1) (by push_cast; linarith) (by push_cast; linarith)
        have t1' : θ1 < 0 := by rw [e]; push_cast; linarith
        rw [if_neg t0.ne', if_neg t1'.ne, sgn_pos θ0 t0, sgn_neg θ1 t1', if_pos (by norm_num), e]
        push_cast; ring

/-- The branch for `E > vs[0]`: the code picks the rotation when the angle does not decrease. -/
theorem prufer_osc_small {v0M v0 E δ : ℝ} (hE : v0 < E) (hδ : 0 ≤ δ) (hw1 : Real.sqrt (E - v0) * δ < pi / 2) {y0 y1 : Y ℝ}
    (hd : 0 < scaling v0M E * y0.y * (scaling v0M E * y1.y) + y0.dy * y1.dy) (hD : 0 ≤ y1.y * y0.dy - y0.y * y1.dy) :
    pruferHelper v0M v0 E δ y0 y1 = rot (scaling v0M E * y0.y) y0.dy (scaling v0M E * y1.y) y1.dy := by
  have hp := Real.pi_pos
  have hs := scaling_pos v0M E
  have hw : 0 < Real.sqrt (E - v0) := Real.sqrt_pos.mpr (by linarith)
  unfold pruferHelper
  simp only [hE, if_true]
  set w := Real.sqrt (E - v0)
  set sc := scaling v0M E
  set t0 := atanSafe (y0.y * w) y0.dy with ht0
  have a0 : IsAngle t0 (y0.y * w) y0.dy := atanSafe_angle _ _
  obtain ⟨k, hk⟩ := osc_shift w δ t0 (atanSafe (y1.y * w) y1.dy)
  dsimp only at hk
  have r1 := atanSafe_range (y1.y * w) y1.dy
  have a1 : IsAngle (atanSafe (y1.y * w) y1.dy + k * pi) (y1.y * w) y1.dy := (atanSafe_angle _ _).add_int_mul_pi k
  rw [← hk] at a1
  have hwd : 0 ≤ w * δ := mul_nonneg hw.le hδ
  have f1 : ((⌊(w * δ + t0) / pi⌋ : ℤ) : ℝ) * pi ≤ w * δ + t0 := by
    have := Int.floor_le ((w * δ + t0) / pi)
    rwa [le_div_iff₀ hp] at this
  have f2 : w * δ + t0 < ((⌊(w * δ + t0) / pi⌋ : ℤ) + 1 : ℝ) * pi := by
    have := Int.lt_floor_add_one ((w * δ + t0) / pi)
    rwa [div_lt_iff₀ hp] at this
  generalize (⌊(w * δ + t0) / pi⌋ : ℤ) = m at *
  generalize atanSafe (y1.y * w) y1.dy = ps at *
  clear hk
  -- the final angle is in [t0, t0 + π)
  have range : ∀ t : ℝ, t = (if (if ps - (w * δ + t0 - m * pi) < -pi / 2 then ps - (w * δ + t0 - m * pi) + pi
        else if pi / 2 < ps - (w * δ + t0 - m * pi) then ps - (w * δ + t0 - m * pi) - pi else ps - (w * δ + t0 - m * pi)) + (t0 + w * δ) < t0
      then (if ps - (w * δ + t0 - m * pi) < -pi / 2 then ps - (w * δ + t0 - m * pi) + pi
        else if pi / 2 < ps - (w * δ + t0 - m * pi) then ps - (w * δ + t0 - m * pi) - pi else ps - (w * δ + t0 - m * pi)) + (t0 + w * δ) + pi
      else (if ps - (w * δ + t0 - m * pi) < -pi / 2 then ps - (w * δ + t0 - m * pi) + pi
        else if pi / 2 < ps - (w * δ + t0 - m * pi) then ps - (w * δ + t0 - m * pi) - pi else ps - (w * δ + t0 - m * pi)) + (t0 + w * δ)) →
      t0 ≤ t ∧ t < t0 + pi := by
    rintro t rfl
    split_ifs <;> constructor <;> linarith
  have rg := range _ rfl
  generalize (if (if ps - (w * δ + t0 - m * pi) < -pi / 2 then ps - (w * δ + t0 - m * pi) + pi
        else if pi / 2 < ps - (w * δ + t0 - m * pi) then ps - (w * δ + t0 - m * pi) - pi else ps - (w * δ + t0 - m * pi)) + (t0 + w * δ) < t0
      then (if ps - (w * δ + t0 - m * pi) < -pi / 2 then ps - (w * δ + t0 - m * pi) + pi
        else if pi / 2 < ps - (w * δ + t0 - m * pi) then ps - (w * δ + t0 - m * pi) - pi else ps - (w * δ + t0 - m * pi)) + (t0 + w * δ) + pi
      else (if ps - (w * δ + t0 - m * pi) < -pi / 2 then ps - (w * δ + t0 - m * pi) + pi
        else if pi / 2 < ps - (w * δ + t0 - m * pi) then ps - (w * δ + t0 - m * pi) - pi else ps - (w * δ + t0 - m * pi)) + (t0 + w * δ)) = t at *
  have hq := div_pos hs hw
  have e : ∀ u, sc / w * (u * w) = sc * u := fun u => by field_simp
  have b0 := rescale_angle hq a0
  have b1 := rescale_angle hq a1
  rw [e] at b0 b1
  have c1 := b0.rot hd
  have rr := rot_range (sc * y0.y) y0.dy (sc * y1.y) y1.dy
  have rn := rot_nonneg (u := sc * y0.y) (v := y0.dy) (u' := sc * y1.y) (v' := y1.dy) hd (by
    have := mul_nonneg hs.le hD; linarith)
  have hne : ¬ (sc * y1.y = 0 ∧ y1.dy = 0) := by
    rintro ⟨e1, e2⟩; rw [e1, e2] at hd; simp at hd
  obtain ⟨n, hn⟩ := c1.unique b1 hne
  have m1 : rescale t0 (sc / w) ≤ rescale t (sc / w) := (rescale_strictMono hq).monotone rg.1
  have m2 : rescale t (sc / w) < rescale t0 (sc / w) + pi := by
    have := rescale_add_int_mul_pi t0 (sc / w) 1
    rw [Int.cast_one, one_mul] at this
    rw [← this]
    exact rescale_strictMono hq rg.2
  have n1 : (-1 : ℝ) < n := by
    by_contra hc; push Not at hc; nlinarith
  have n2 : (n : ℝ) < 1 := by
    by_contra hc; push Not at hc; nlinarith
  have n1' : -1 < n := by exact_mod_cast n1
  have n2' : n < 1 := by exact_mod_cast n2
  have : n = 0 := by omega
  rw [this, Int.cast_zero, zero_mul, add_zero] at hn
  rw [hn]; ring

/-- **The angle of one step.** When the direction turns by less than a right angle, `pruferHelper` is that turn, provided the angle
does not decrease (`E > vs[0]`) respectively `y` crosses zero only upwards (`E ≤ vs[0]`). -/
theorem prufer_small {v0M v0 E δ : ℝ} (hδ : 0 ≤ δ) {y0 y1 : Y ℝ}
    (hd : 0 < scaling v0M E * y0.y * (scaling v0M E * y1.y) + y0.dy * y1.dy)
    (hosc : v0 < E → Real.sqrt (E - v0) * δ < pi / 2 ∧ 0 ≤ y1.y * y0.dy - y0.y * y1.dy)
    (hnon : ¬ v0 < E → y0.y * y1.y ≤ 0 → 0 < y1.y * y0.dy - y0.y * y1.dy) :
    pruferHelper v0M v0 E δ y0 y1 = rot (scaling v0M E * y0.y) y0.dy (scaling v0M E * y1.y) y1.dy := by
  by_cases hE : v0 < E
  · exact prufer_osc_small hE hδ (hosc hE).1 hd (hosc hE).2
  · have := prufer_non_small (scaling_pos v0M E) hd (hnon hE) (atanSafe_angle (scaling v0M E * y0.y) y0.dy) (atanSafe_range _ _)
      (atanSafe_angle (scaling v0M E * y1.y) y1.dy) (atanSafe_range _ _)
    rw [← this]
    unfold pruferHelper
    simp only [hE, if_false]

end Verif.Prufer
