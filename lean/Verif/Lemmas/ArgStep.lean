import Verif.Model.MatscsArg
import Verif.Lemmas.ConstSol
import Verif.Lemmas.Eta

/-!
# The angle increment of one component (`Matscs`)
-/
namespace Verif.Matscs
open Verif.Prufer
open Real (pi sin cos)

/-- Two angles less than `π` apart, whose sines have the same sign, lie between the same multiples of `π`. -/
theorem ceil_same {a b : ℝ} (h1 : |a - b| < pi) (h2 : 0 ≤ sin a * sin b) (h3 : sin a = 0 ↔ sin b = 0) : ⌈a / pi⌉ = ⌈b / pi⌉ := by
  have hp := Real.pi_pos
  have key : ∀ a b : ℝ, |a - b| < pi → 0 ≤ sin a * sin b → (sin a = 0 → sin b = 0) → ⌈b / pi⌉ ≤ ⌈a / pi⌉ := by
    intro a b h1 h2 h3
    by_contra hc
    push Not at hc
    obtain ⟨m, hm⟩ : ∃ m : ℤ, m = ⌈a / pi⌉ := ⟨_, rfl⟩
    have ha1 : a ≤ m * pi := by rw [hm]; exact (div_le_iff₀ hp).mp (Int.le_ceil _)
    have ha2 : m * pi - pi < a := by
      have := Int.ceil_lt_add_one (a / pi)
      rw [← hm] at this
      have h : ((m : ℝ) - 1) < a / pi := by linarith
      rw [lt_div_iff₀ hp] at h
      linarith
    have hb1 : m * pi < b := by
      have := Int.lt_ceil.mp hc
      rw [← hm] at this
      exact (lt_div_iff₀ hp).mp this
    rw [abs_lt] at h1
    have hb2 : b < a + pi := by linarith
    have hs : sin (a - m * pi) * sin (b - m * pi) = sin a * sin b := by
      rw [Real.sin_sub_int_mul_pi, Real.sin_sub_int_mul_pi]
      have : ((-1 : ℝ) ^ m) * ((-1 : ℝ) ^ m) = 1 := by
        rw [← mul_zpow]; simp
      linear_combination (sin a * sin b) * this
    have hbp : 0 < sin (b - m * pi) := Real.sin_pos_of_pos_of_lt_pi (by linarith) (by linarith)
    rcases eq_or_lt_of_le ha1 with h | h
    · have h0 : sin b = 0 := h3 (by rw [h]; exact Real.sin_int_mul_pi m)
      rw [Real.sin_sub_int_mul_pi, h0, mul_zero] at hbp
      exact lt_irrefl _ hbp
    · have : sin (a - m * pi) < 0 := Real.sin_neg_of_neg_of_neg_pi_lt (by linarith) (by linarith)
      have := mul_neg_of_neg_of_pos this hbp
      rw [hs] at this
      linarith
  exact le_antisymm (key b a (by rwa [abs_sub_comm]) (by rwa [mul_comm]) h3.mpr) (key a b h1 h2 h3.mp)

/-- Two continuous angles of `(u, v)` and `(u, w)`, equal at one point, between the same multiples of `π`. -/
theorem ceil_path {S : Set ℝ} (hS : IsPreconnected S) {f g u v w : ℝ → ℝ} (hf : ContinuousOn f S) (hg : ContinuousOn g S)
    (hu : ContinuousOn u S) (hv : ContinuousOn v S) (hw : ContinuousOn w S)
    (ha : ∀ x ∈ S, IsAngle (f x) (u x) (v x)) (hb : ∀ x ∈ S, IsAngle (g x) (u x) (w x))
    (hne : ∀ x ∈ S, ¬ (u x = 0 ∧ v x = 0)) (hne' : ∀ x ∈ S, ¬ (u x = 0 ∧ w x = 0)) (hz : ∀ x ∈ S, u x = 0 → 0 < v x * w x)
    {x0 x : ℝ} (hx0 : x0 ∈ S) (h0 : f x0 = g x0) (h1 : v x0 = w x0) (hx : x ∈ S) : ⌈f x / pi⌉ = ⌈g x / pi⌉ := by
  have hp := Real.pi_pos
  obtain ⟨ρ, hρ⟩ : ∃ ρ : ℝ → ℝ, ρ = fun x => (u x * sin (f x) + v x * cos (f x)) * (u x * sin (g x) + w x * cos (g x)) := ⟨_, rfl⟩
  have rep : ∀ x ∈ S, sin (f x) * sin (g x) * ρ x = u x ^ 2 ∧ cos (f x) * cos (g x) * ρ x = v x * w x ∧ ρ x ≠ 0 := by
    intro x hx
    have e1 := ha x hx
    have e2 := hb x hx
    have s1 := Real.sin_sq_add_cos_sq (f x)
    have s2 := Real.sin_sq_add_cos_sq (g x)
    unfold IsAngle at e1 e2
    have a1 : u x = (u x * sin (f x) + v x * cos (f x)) * sin (f x) := by linear_combination (-u x) * s1 + cos (f x) * e1
    have a2 : v x = (u x * sin (f x) + v x * cos (f x)) * cos (f x) := by linear_combination (-v x) * s1 - sin (f x) * e1
    have b1 : u x = (u x * sin (g x) + w x * cos (g x)) * sin (g x) := by linear_combination (-u x) * s2 + cos (g x) * e2
    have b2 : w x = (u x * sin (g x) + w x * cos (g x)) * cos (g x) := by linear_combination (-w x) * s2 - sin (g x) * e2
    have n1 : u x * sin (f x) + v x * cos (f x) ≠ 0 := fun h => hne x hx ⟨by rw [a1, h, zero_mul], by rw [a2, h, zero_mul]⟩
    have n2 : u x * sin (g x) + w x * cos (g x) ≠ 0 := fun h => hne' x hx ⟨by rw [b1, h, zero_mul], by rw [b2, h, zero_mul]⟩
    rw [hρ]
    dsimp only
    generalize u x * sin (f x) + v x * cos (f x) = r1 at *
    generalize u x * sin (g x) + w x * cos (g x) = r2 at *
    refine ⟨?_, ?_, mul_ne_zero n1 n2⟩
    · calc sin (f x) * sin (g x) * (r1 * r2) = (r1 * sin (f x)) * (r2 * sin (g x)) := by ring
        _ = u x * u x := by rw [← a1, ← b1]
        _ = u x ^ 2 := by ring
    · calc cos (f x) * cos (g x) * (r1 * r2) = (r1 * cos (f x)) * (r2 * cos (g x)) := by ring
        _ = v x * w x := by rw [← a2, ← b2]
  have hρc : ContinuousOn ρ S := by
    rw [hρ]
    exact ((hu.mul (Real.continuous_sin.comp_continuousOn hf)).add (hv.mul (Real.continuous_cos.comp_continuousOn hf))).mul
      ((hu.mul (Real.continuous_sin.comp_continuousOn hg)).add (hw.mul (Real.continuous_cos.comp_continuousOn hg)))
  have hρ0 : 0 < ρ x0 := by
    obtain ⟨-, -, h⟩ := rep x0 hx0
    rw [hρ] at h ⊢
    dsimp only at h ⊢
    rw [h0, ← h1] at h ⊢
    exact mul_self_pos.mpr fun h' => h (by rw [h', zero_mul])
  have hρp : ∀ x ∈ S, 0 < ρ x := by
    intro x hx
    by_contra hc
    obtain ⟨z, hz, e⟩ := hS.intermediate_value hx hx0 hρc ⟨not_lt.mp hc, hρ0.le⟩
    exact (rep z hz).2.2 e
  have hss : ∀ x ∈ S, 0 ≤ sin (f x) * sin (g x) := by
    intro x hx
    have := (rep x hx).1
    refine nonneg_of_mul_nonneg_left (b := ρ x) ?_ (hρp x hx)
    rw [this]; positivity
  have hcc : ∀ x ∈ S, u x = 0 → 0 < cos (f x) * cos (g x) := by
    intro x hx h
    refine pos_of_mul_pos_left (b := ρ x) ?_ (hρp x hx).le
    rw [(rep x hx).2.1]; exact hz x hx h
  have hz0 : ∀ x ∈ S, sin (f x) * sin (g x) = 0 → u x = 0 := by
    intro x hx h
    have := (rep x hx).1
    rw [h, zero_mul] at this
    exact pow_eq_zero_iff (two_ne_zero) |>.mp this.symm
  have hbad : ∀ x ∈ S, cos (f x - g x) ≠ -1 := by
    intro x hx h
    have hsin : sin (f x - g x) = 0 := by
      have := Real.sin_sq_add_cos_sq (f x - g x)
      rw [h] at this
      nlinarith [sq_nonneg (sin (f x - g x))]
    have e : sin (f x) = -sin (g x) := by
      have : sin (f x) = sin ((f x - g x) + g x) := by ring_nf
      rw [this, Real.sin_add, h, hsin]; ring
    have h3 := hss x hx
    rw [e] at h3
    have h4 : sin (g x) = 0 := by nlinarith [sq_nonneg (sin (g x))]
    have h5 := hcc x hx (hz0 x hx (by rw [h4, mul_zero]))
    rw [Real.cos_sub, h4, mul_zero] at h
    linarith
  have hg : ∀ x ∈ S, |f x - g x| < pi := by
    intro x hx
    by_contra hc
    push Not at hc
    obtain ⟨z, hz, e⟩ := hS.intermediate_value hx0 hx ((hf.sub hg).abs) (by
      show pi ∈ Set.Icc |f x0 - g x0| |f x - g x|
      rw [h0, sub_self, abs_zero]; exact ⟨hp.le, hc⟩)
    refine hbad z hz ?_
    have e : |f z - g z| = pi := e
    rw [← Real.cos_abs, e, Real.cos_pi]
  refine ceil_same (hg x hx) (hss x hx) ?_
  have e1 := ha x hx
  have e2 := hb x hx
  rw [IsAngle.sin_eq_zero e1 (hne x hx), IsAngle.sin_eq_zero e2 (hne' x hx)]

/-- The argument in `(0, 2π]` of a number with angle `2 a`. -/
theorem posArg_two {r a : ℝ} (hr : 0 < r) : posArg (r * Complex.exp (Complex.I * (2 * a : ℝ))) = 2 * a - 2 * pi * (⌈a / pi⌉ - 1) := by
  have hp := Real.pi_pos
  obtain ⟨m, hm⟩ : ∃ m : ℤ, m = ⌈a / pi⌉ := ⟨_, rfl⟩
  have ha1 : a ≤ m * pi := by rw [hm]; exact (div_le_iff₀ hp).mp (Int.le_ceil _)
  have ha2 : m * pi - pi < a := by
    have := Int.ceil_lt_add_one (a / pi)
    rw [← hm] at this
    have h : ((m : ℝ) - 1) < a / pi := by linarith
    rw [lt_div_iff₀ hp] at h
    linarith
  rw [← hm]
  have harg : ∀ k : ℤ, 2 * a - 2 * pi * k ∈ Set.Ioc (-pi) pi →
      (r * Complex.exp (Complex.I * (2 * a : ℝ)) : ℂ).arg = 2 * a - 2 * pi * k := by
    intro k hk
    have e : (r * Complex.exp (Complex.I * (2 * a : ℝ)) : ℂ) = r * (Complex.cos ((2 * a - 2 * pi * k : ℝ)) + Complex.sin ((2 * a - 2 * pi * k : ℝ)) * Complex.I) := by
      rw [← Complex.exp_mul_I]
      congr 1
      rw [Complex.exp_eq_exp_iff_exists_int]
      refine ⟨k, ?_⟩
      push_cast; ring
    rw [e, Complex.arg_mul_cos_add_sin_mul_I hr hk]
  unfold posArg
  by_cases h : 2 * a - 2 * pi * (m - 1) ≤ pi
  · have := harg (m - 1) ⟨by push_cast; linarith, by push_cast; linarith⟩
    rw [show ((m - 1 : ℤ) : ℝ) = m - 1 by push_cast; ring] at this
    rw [this, if_neg (by linarith)]
  · have := harg m ⟨by linarith, by linarith⟩
    rw [this, if_pos (by linarith)]
    ring

/-! ### The turn in a constant potential -/

theorem eta0_cos (w d : ℝ) : Eta.eta 0 (d * d * (-(w * w))) = cos (w * d) := by
  have e : d * d * (-(w * w)) = -((w * d) ^ 2) := by ring
  rw [e, Eta.eta0_neg (by nlinarith [sq_nonneg (w * d)]), neg_neg, Real.sqrt_sq_eq_abs, Real.cos_abs]

theorem eta1_sin (w d : ℝ) : w * d * Eta.eta 1 (d * d * (-(w * w))) = sin (w * d) := by
  have e : d * d * (-(w * w)) = -((w * d) ^ 2) := by ring
  rw [e]
  by_cases h : w * d = 0
  · rw [h]; simp
  · have h2 : -((w * d) ^ 2) < 0 := by
      have := sq_nonneg (w * d)
      have h3 : (w * d) ^ 2 ≠ 0 := pow_ne_zero 2 h
      have := lt_of_le_of_ne this h3.symm
      linarith
    rw [Eta.eta1_neg h2, neg_neg, Real.sqrt_sq_eq_abs]
    rcases abs_cases (w * d) with ⟨ha, -⟩ | ⟨ha, -⟩
    · rw [ha, mul_div_cancel₀ _ h]
    · rw [ha, Real.sin_neg, neg_div_neg_eq, mul_div_cancel₀ _ h]

/-- The turn as one formula for each sign of `q`. -/
noncomputable def turn (q d : ℝ) : ℝ := constTurn (Eta.eta 0 (d * d * q)) (Eta.eta 1 (d * d * q)) (d * d * q) d

theorem turn_nonneg {q : ℝ} (hq : 0 ≤ q) (d : ℝ) :
    turn q d = Complex.arg ⟨Eta.eta 0 (d * d * q), d * Eta.eta 1 (d * d * q)⟩ := by
  unfold turn constTurn
  rw [if_neg (by nlinarith [mul_self_nonneg d, mul_nonneg (mul_self_nonneg d) hq])]
  rfl

theorem turn_neg {w : ℝ} (hw : 0 < w) (d : ℝ) :
    turn (-(w * w)) d = w * d + Complex.arg ⟨1 + (1 / w - 1) * sin (w * d) ^ 2, (1 / w - 1) * (sin (w * d) * cos (w * d))⟩ := by
  have e1 := eta1_sin w d
  have e0 := eta0_cos w d
  have re : (1 + (d * (w * d) + d * d * (-(w * w))) * Eta.eta 1 (d * d * (-(w * w))) * Eta.eta 1 (d * d * (-(w * w))))
      = 1 + (1 / w - 1) * sin (w * d) ^ 2 := by
    rw [← e1]; field_simp; ring
  have im : (d - w * d) * Eta.eta 1 (d * d * (-(w * w))) * Eta.eta 0 (d * d * (-(w * w))) = (1 / w - 1) * (sin (w * d) * cos (w * d)) := by
    rw [e0, ← e1]; field_simp
  unfold turn constTurn
  by_cases hd : d = 0
  · subst hd
    simp [atan2, Eta.eta_zero_right, Eta.oddFact, Complex.arg]
  · have hZ : d * d * (-(w * w)) < 0 := by
      have h1 := mul_self_pos.mpr hd
      have h2 := mul_pos hw hw
      have := mul_pos h1 h2
      linarith
    have hs : (if d < 0 then (-1 : ℝ) else 1) * Real.sqrt (-(d * d * (-(w * w)))) = w * d := by
      have e : -(d * d * (-(w * w))) = (w * d) ^ 2 := by ring
      rw [e, Real.sqrt_sq_eq_abs, abs_mul, abs_of_pos hw]
      split
      · next h => rw [abs_of_neg h]; ring
      · next h => rw [abs_of_nonneg (not_lt.mp h)]; ring
    rw [if_pos hZ]
    dsimp only
    rw [hs, re, im]
    rfl

theorem re_pos {w : ℝ} (hw : 0 < w) (t : ℝ) : 0 < 1 + (1 / w - 1) * sin t ^ 2 := by
  have h1 := Real.sin_sq_add_cos_sq t
  have h2 : 1 + (1 / w - 1) * sin t ^ 2 = cos t ^ 2 + 1 / w * sin t ^ 2 := by linear_combination -h1
  rw [h2]
  have h3 : 0 < 1 / w := by positivity
  by_cases h : sin t = 0
  · rw [h] at h1 ⊢; nlinarith
  · have : 0 < sin t ^ 2 := by positivity
    have := mul_pos h3 this
    have := sq_nonneg (cos t)
    linarith

theorem exists_neg {q : ℝ} (hq : q < 0) : ∃ w : ℝ, 0 < w ∧ q = -(w * w) :=
  ⟨Real.sqrt (-q), Real.sqrt_pos.mpr (by linarith), by rw [Real.mul_self_sqrt (by linarith)]; ring⟩

theorem cont_eta (m : ℕ) (q : ℝ) : Continuous (fun d : ℝ => Eta.eta m (d * d * q)) :=
  (continuous_iff_continuousAt.mpr fun Z => (Eta.hasDerivAt_eta m Z).continuousAt).comp (by fun_prop)

theorem turn_continuous (q : ℝ) : Continuous (turn q) := by
  rcases lt_or_ge q 0 with h | h
  · obtain ⟨w, hw, rfl⟩ := exists_neg h
    rw [funext (turn_neg hw)]
    refine (by fun_prop : Continuous fun d : ℝ => w * d).add ?_
    rw [continuous_iff_continuousAt]
    intro d
    refine (Complex.continuousAt_arg (.inl (re_pos hw (w * d)))).comp ?_
    refine Continuous.continuousAt ?_
    have : (fun d : ℝ => (⟨1 + (1 / w - 1) * sin (w * d) ^ 2, (1 / w - 1) * (sin (w * d) * cos (w * d))⟩ : ℂ))
        = fun d : ℝ => ((1 + (1 / w - 1) * sin (w * d) ^ 2 : ℝ) : ℂ) + ((1 / w - 1) * (sin (w * d) * cos (w * d)) : ℝ) * Complex.I := by
      funext d; exact (Complex.mk_eq_add_mul_I _ _)
    rw [this]
    fun_prop
  · rw [funext (turn_nonneg h)]
    rw [continuous_iff_continuousAt]
    intro d
    refine (Complex.continuousAt_arg (.inl (Eta.eta_pos 0 (mul_nonneg (mul_self_nonneg d) h)))).comp ?_
    refine Continuous.continuousAt ?_
    have : (fun d : ℝ => (⟨Eta.eta 0 (d * d * q), d * Eta.eta 1 (d * d * q)⟩ : ℂ))
        = fun d : ℝ => ((Eta.eta 0 (d * d * q) : ℝ) : ℂ) + ((d * Eta.eta 1 (d * d * q) : ℝ) : ℂ) * Complex.I := by
      funext d; exact (Complex.mk_eq_add_mul_I _ _)
    rw [this]
    have h0 := cont_eta 0 q
    have h1 := cont_eta 1 q
    fun_prop

/-- `η₀ + i d η₁` has the angle `turn`. -/
theorem turn_spec (q d : ℝ) : ∃ r : ℝ, 0 < r ∧
    ((Eta.eta 0 (d * d * q) : ℝ) : ℂ) + Complex.I * d * (Eta.eta 1 (d * d * q) : ℝ) = r * Complex.exp (Complex.I * (turn q d : ℝ)) := by
  rcases lt_or_ge q 0 with h | h
  · obtain ⟨w, hw, rfl⟩ := exists_neg h
    rw [turn_neg hw]
    obtain ⟨z, hz⟩ : ∃ z : ℂ, z = ⟨1 + (1 / w - 1) * sin (w * d) ^ 2, (1 / w - 1) * (sin (w * d) * cos (w * d))⟩ := ⟨_, rfl⟩
    rw [← hz]
    have hz0 : z ≠ 0 := by
      intro h
      have : z.re = 0 := by rw [h]; rfl
      rw [hz] at this
      have h1 := re_pos hw (w * d)
      dsimp only at this
      linarith
    refine ⟨‖z‖, norm_pos_iff.mpr hz0, ?_⟩
    push_cast
    rw [mul_add, Complex.exp_add]
    have hzz : (‖z‖ : ℂ) * Complex.exp (Complex.I * z.arg) = z := by
      rw [mul_comm Complex.I]; exact Complex.norm_mul_exp_arg_mul_I z
    calc _ = Complex.exp (Complex.I * (w * d)) * z := ?_
      _ = _ := by linear_combination (-Complex.exp (Complex.I * (w * d))) * hzz
    rw [eta0_cos, mul_comm Complex.I (w * d : ℂ), show ((w : ℂ) * d) = ((w * d : ℝ) : ℂ) by push_cast; ring, Complex.exp_mul_I, ← Complex.ofReal_cos, ← Complex.ofReal_sin, hz]
    have e1 := eta1_sin w d
    have e1' : d * Eta.eta 1 (d * d * (-(w * w))) = sin (w * d) / w := by rw [← e1]; field_simp
    have s := Real.sin_sq_add_cos_sq (w * d)
    have e2 : Complex.I * d * ((Eta.eta 1 (d * d * (-(w * w))) : ℝ) : ℂ) = ((sin (w * d) / w : ℝ) : ℂ) * Complex.I := by
      rw [← e1']; push_cast; ring
    rw [e2]
    generalize sin (w * d) = a at *
    generalize cos (w * d) = b at *
    apply Complex.ext
    · simp
      field_simp
      ring
    · simp
      field_simp
      linear_combination (a * w - a) * s
  · rw [turn_nonneg h]
    obtain ⟨z, hz⟩ : ∃ z : ℂ, z = ⟨Eta.eta 0 (d * d * q), d * Eta.eta 1 (d * d * q)⟩ := ⟨_, rfl⟩
    rw [← hz]
    have hz0 : z ≠ 0 := by
      intro h'
      have : z.re = 0 := by rw [h']; rfl
      rw [hz] at this
      have h1 := Eta.eta_pos 0 (mul_nonneg (mul_self_nonneg d) h)
      dsimp only at this
      linarith
    refine ⟨‖z‖, norm_pos_iff.mpr hz0, ?_⟩
    rw [mul_comm Complex.I (z.arg : ℂ), Complex.norm_mul_exp_arg_mul_I z, hz, Complex.mk_eq_add_mul_I]
    push_cast; ring

/-- The unit number `(v + i u) / (v - i u)`. -/
noncomputable def cay (u v : ℝ) : ℂ := ((v : ℂ) + Complex.I * u) / ((v : ℂ) - Complex.I * u)

theorem conj_exp (r a : ℝ) {u v : ℝ} (h : (v : ℂ) + Complex.I * u = r * Complex.exp (Complex.I * a)) :
    (v : ℂ) - Complex.I * u = r * Complex.exp (-(Complex.I * a)) := by
  have := congrArg (starRingEnd ℂ) h
  simp only [map_add, map_mul, Complex.conj_ofReal, Complex.conj_I, ← Complex.exp_conj, neg_mul] at this
  linear_combination this

theorem cay_of_exp {r a u v : ℝ} (hr : r ≠ 0) (h : (v : ℂ) + Complex.I * u = r * Complex.exp (Complex.I * a)) :
    cay u v = Complex.exp (Complex.I * (2 * a : ℝ)) := by
  unfold cay
  have hr' : (r : ℂ) ≠ 0 := by exact_mod_cast hr
  rw [conj_exp r a h, h, mul_div_mul_left _ _ hr', ← Complex.exp_sub]
  congr 1
  push_cast; ring

theorem angle_exp {a u v : ℝ} (h : IsAngle a u v) (hn : ¬ (u = 0 ∧ v = 0)) : ∃ r : ℝ, r ≠ 0 ∧ (v : ℂ) + Complex.I * u = r * Complex.exp (Complex.I * a) := by
  obtain ⟨ρ, h1, h2⟩ := h.rep
  refine ⟨ρ, ?_, ?_⟩
  · rintro rfl; exact hn ⟨by rw [h1]; ring, by rw [h2]; ring⟩
  · rw [mul_comm Complex.I (a : ℂ), Complex.exp_mul_I, ← Complex.ofReal_cos, ← Complex.ofReal_sin, h1, h2]
    push_cast; ring

/-- The solution in closed form. -/
theorem const_closed {q : ℝ} {y dy : ℝ → ℝ} (h : ConstSol q y dy) (p x : ℝ) :
    y x = Eta.eta 0 ((x - p) * (x - p) * q) * y p + (x - p) * Eta.eta 1 ((x - p) * (x - p) * q) * dy p ∧
    dy x = q * (x - p) * Eta.eta 1 ((x - p) * (x - p) * q) * y p + Eta.eta 0 ((x - p) * (x - p) * q) * dy p := by
  have hZ : ∀ x, HasDerivAt (fun x => (x - p) * (x - p) * q) (2 * (x - p) * q) x := fun x =>
    ((((hasDerivAt_id x).sub_const p).mul ((hasDerivAt_id x).sub_const p)).mul_const q).congr_deriv (by simp only [id_eq]; ring)
  have h0 : ∀ x, HasDerivAt (fun x => Eta.eta 0 ((x - p) * (x - p) * q)) (q * (x - p) * Eta.eta 1 ((x - p) * (x - p) * q)) x := fun x =>
    ((Eta.hasDerivAt_eta 0 _).comp x (hZ x)).congr_deriv (by ring)
  have h1 : ∀ x, HasDerivAt (fun x => (x - p) * Eta.eta 1 ((x - p) * (x - p) * q)) (Eta.eta 0 ((x - p) * (x - p) * q)) x := fun x =>
    ((((hasDerivAt_id x).sub_const p).mul ((Eta.hasDerivAt_eta 1 _).comp x (hZ x)))).congr_deriv (by
      have := Eta.eta_rec 0 ((x - p) * (x - p) * q)
      simp only [Function.comp, id_eq]
      norm_num at this
      linear_combination -this)
  have k1 : ∀ x, HasDerivAt (fun x => Eta.eta 0 ((x - p) * (x - p) * q) * y x - (x - p) * Eta.eta 1 ((x - p) * (x - p) * q) * dy x) 0 x := fun x =>
    (((h0 x).mul (h.d1 x)).sub ((h1 x).mul (h.d2 x))).congr_deriv (by ring)
  have k2 : ∀ x, HasDerivAt (fun x => Eta.eta 0 ((x - p) * (x - p) * q) * dy x - q * ((x - p) * Eta.eta 1 ((x - p) * (x - p) * q)) * y x) 0 x := fun x =>
    (((h0 x).mul (h.d2 x)).sub (((h1 x).const_mul q).mul (h.d1 x))).congr_deriv (by ring)
  have c1 := is_const_of_deriv_eq_zero (fun x => (k1 x).differentiableAt) (fun x => (k1 x).deriv) x p
  have c2 := is_const_of_deriv_eq_zero (fun x => (k2 x).differentiableAt) (fun x => (k2 x).deriv) x p
  have z : Eta.eta 0 0 = 1 := by simp [Eta.eta_zero_right, Eta.oddFact]
  simp only [sub_self, zero_mul, z, one_mul, mul_zero, sub_zero] at c1 c2
  have w := Eta.eta_wronskian ((x - p) * (x - p) * q)
  generalize Eta.eta 0 ((x - p) * (x - p) * q) = A at *
  generalize Eta.eta 1 ((x - p) * (x - p) * q) = B at *
  constructor
  · linear_combination A * c1 + (x - p) * B * c2 - y x * w
  · linear_combination A * c2 + q * (x - p) * B * c1 - dy x * w

/-- One component, constant potential: the increment is twice the change of the continuous angle. -/
theorem comp_step {q p d : ℝ} {y dy φ : ℝ → ℝ} (h : ConstSol q y dy) (hn : ¬ (y p = 0 ∧ dy p = 0)) (hc : ContinuousOn φ (Set.uIcc p (p + d)))
    (ha : ∀ x ∈ Set.uIcc p (p + d), IsAngle (φ x) (y x) (dy x)) :
    2 * turn q d + (posArg (cay (y (p + d)) (dy (p + d))) - posArg (cay (d * Eta.eta 1 (d * d * q)) (Eta.eta 0 (d * d * q)) * cay (y p) (dy p)))
      = 2 * (φ (p + d) - φ p) := by
  have mp : p ∈ Set.uIcc p (p + d) := Set.left_mem_uIcc
  have mq : p + d ∈ Set.uIcc p (p + d) := Set.right_mem_uIcc
  have T0 : turn q 0 = 0 := by
    obtain ⟨r, hr, e⟩ := turn_spec q 0
    unfold turn constTurn
    simp [atan2, Eta.eta_zero_right, Eta.oddFact]
    exact Complex.arg_one
  obtain ⟨ψ, hψ⟩ : ∃ ψ : ℝ → ℝ, ψ = fun x => φ p + turn q (x - p) := ⟨_, rfl⟩
  obtain ⟨w, hw⟩ : ∃ w : ℝ → ℝ, w = fun x => Eta.eta 0 ((x - p) * (x - p) * q) * dy p - (x - p) * Eta.eta 1 ((x - p) * (x - p) * q) * y p := ⟨_, rfl⟩
  obtain ⟨ρ, hρ, eρ⟩ := angle_exp (ha p mp) hn
  -- the product of the two numbers
  have prod : ∀ x, ((w x : ℝ) : ℂ) + Complex.I * (y x : ℝ) =
      (((Eta.eta 0 ((x - p) * (x - p) * q) : ℝ) : ℂ) + Complex.I * ((x - p : ℝ) : ℂ) * (Eta.eta 1 ((x - p) * (x - p) * q) : ℝ)) * (((dy p : ℝ) : ℂ) + Complex.I * (y p : ℝ)) := by
    intro x
    rw [(const_closed h p x).1, hw]
    push_cast
    linear_combination (-(((x : ℂ) - p) * ((Eta.eta 1 ((x - p) * (x - p) * q) : ℝ) : ℂ) * (y p : ℂ))) * Complex.I_sq
  have wexp : ∀ x, ∃ r : ℝ, r ≠ 0 ∧ ((w x : ℝ) : ℂ) + Complex.I * (y x : ℝ) = r * Complex.exp (Complex.I * (ψ x : ℝ)) := by
    intro x
    obtain ⟨r, hr, e⟩ := turn_spec q (x - p)
    refine ⟨r * ρ, mul_ne_zero hr.ne' hρ, ?_⟩
    rw [prod x, e, eρ, hψ]
    push_cast
    rw [mul_add, Complex.exp_add]
    ring
  have hang : ∀ x, IsAngle (ψ x) (y x) (w x) := by
    intro x
    obtain ⟨r, hr, e⟩ := wexp x
    rw [mul_comm Complex.I ((ψ x : ℝ) : ℂ), Complex.exp_mul_I, ← Complex.ofReal_cos, ← Complex.ofReal_sin] at e
    have e1 := congrArg Complex.re e
    have e2 := congrArg Complex.im e
    simp at e1 e2
    have c1 : (Complex.cos ((ψ x : ℝ) : ℂ)).re = cos (ψ x) := by rw [← Complex.ofReal_cos]; rfl
    have c2 : (Complex.sin ((ψ x : ℝ) : ℂ)).re = sin (ψ x) := by rw [← Complex.ofReal_sin]; rfl
    unfold IsAngle
    rw [e1, e2, c1, c2]; ring
  have hwn : ∀ x, ¬ (y x = 0 ∧ w x = 0) := by
    rintro x ⟨h1, h2⟩
    obtain ⟨r, hr, e⟩ := wexp x
    rw [h1, h2] at e
    simp at e
    exact hr e
  have hzero : ∀ x, y x = 0 → 0 < dy x * w x := by
    intro x hx
    have c := const_closed h p x
    have wr := Eta.eta_wronskian ((x - p) * (x - p) * q)
    have hne := h.nonzero hn x
    rw [hx] at c
    have hdy : dy x ≠ 0 := fun h0 => hne ⟨hx, h0⟩
    have hwx : w x = Eta.eta 0 ((x - p) * (x - p) * q) * dy p - (x - p) * Eta.eta 1 ((x - p) * (x - p) * q) * y p := by rw [hw]
    rw [hwx]
    generalize Eta.eta 0 ((x - p) * (x - p) * q) = A at *
    generalize Eta.eta 1 ((x - p) * (x - p) * q) = B at *
    obtain ⟨c1, c2⟩ := c
    have e1 : y p = -(dy x) * ((x - p) * B) := by rw [c2]; linear_combination (-A) * c1 - y p * wr
    have e2 : dy p = dy x * A := by rw [c2]; linear_combination (q * (x - p) * B) * c1 - dy p * wr
    have : dy x * (A * dy p - (x - p) * B * y p) = dy x ^ 2 * (A ^ 2 + ((x - p) * B) ^ 2) := by rw [e1, e2]; ring
    rw [this]
    have h1 : 0 < dy x ^ 2 := by positivity
    have h2 : A ^ 2 + ((x - p) * B) ^ 2 ≠ 0 := by
      intro h0
      have ha : A = 0 := by nlinarith [sq_nonneg A, sq_nonneg ((x - p) * B)]
      have hb : (x - p) * B = 0 := by nlinarith [sq_nonneg A, sq_nonneg ((x - p) * B)]
      rw [ha, mul_zero] at e2
      rw [hb, mul_zero] at e1
      exact hn ⟨e1, e2⟩
    exact mul_pos h1 (lt_of_le_of_ne (by positivity) h2.symm)
  have hψc : Continuous ψ := by rw [hψ]; exact continuous_const.add ((turn_continuous q).comp (by fun_prop))
  have hwc : Continuous w := by
    rw [hw]
    have h0 := (cont_eta 0 q).comp (continuous_id.sub (continuous_const (y := p)))
    have h1 := (cont_eta 1 q).comp (continuous_id.sub (continuous_const (y := p)))
    exact (h0.mul continuous_const).sub (((continuous_id.sub continuous_const).mul h1).mul continuous_const)
  have key := ceil_path (S := Set.uIcc p (p + d)) isPreconnected_uIcc (v := dy) hc hψc.continuousOn h.cont_y.continuousOn h.cont_dy.continuousOn hwc.continuousOn
    ha (fun x _ => hang x) (fun x _ => h.nonzero hn x) (fun x _ => hwn x) (fun x _ => hzero x) mp
    (by rw [hψ]; simp [T0]) (by rw [hw]; simp [Eta.eta_zero_right, Eta.oddFact]) mq
  -- the two arguments
  obtain ⟨r1, hr1, e1⟩ := angle_exp (ha _ mq) (h.nonzero hn _)
  have a1 : posArg (cay (y (p + d)) (dy (p + d))) = 2 * φ (p + d) - 2 * pi * (⌈φ (p + d) / pi⌉ - 1) := by
    have := posArg_two (a := φ (p + d)) one_pos
    rw [Complex.ofReal_one, one_mul] at this
    rw [cay_of_exp hr1 e1, this]
  have a2 : posArg (cay (d * Eta.eta 1 (d * d * q)) (Eta.eta 0 (d * d * q)) * cay (y p) (dy p)) = 2 * ψ (p + d) - 2 * pi * (⌈ψ (p + d) / pi⌉ - 1) := by
    have := posArg_two (a := ψ (p + d)) one_pos
    rw [Complex.ofReal_one, one_mul] at this
    rw [← this]
    obtain ⟨r, hr, e⟩ := turn_spec q d
    rw [cay_of_exp (r := r) (a := turn q d) hr.ne' (by rw [← e]; push_cast; ring), cay_of_exp hρ eρ, ← Complex.exp_add, hψ]
    congr 2
    push_cast
    rw [add_sub_cancel_left]; ring
  rw [a1, a2, key, hψ]
  simp only [add_sub_cancel_left]
  ring

end Verif.Matscs
