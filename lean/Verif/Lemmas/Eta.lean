import Verif.Spec.Eta
import Mathlib.Analysis.Calculus.SmoothSeries
import Mathlib.Analysis.SpecialFunctions.Trigonometric.Series
import Mathlib.Analysis.SpecialFunctions.Exponential
import Mathlib.Analysis.Calculus.Deriv.Pow
import Mathlib.Tactic.Linarith
import Mathlib.Tactic.FieldSimp
import Mathlib.Tactic.Positivity
import Mathlib.Tactic.Ring

/-! # The functions η_m: recurrence, derivative, closed forms -/
namespace Verif.Eta
open scoped BigOperators

theorem hasSum_congr' {f g : ℕ → ℝ} {a : ℝ} (h : ∀ q, f q = g q) : HasSum f a ↔ HasSum g a := by
  rw [show f = g from funext h]

/-- coefficient of `Z^q` in η_m -/
noncomputable def coef (m q : ℕ) : ℝ := 1 / (evenFact q * oddFact (q + m))

theorem oddFact_succ (k : ℕ) : oddFact (k + 1) = oddFact k * (2 * (k : ℝ) + 1) := by
  simp [oddFact, Finset.prod_range_succ]
theorem evenFact_succ (k : ℕ) : evenFact (k + 1) = evenFact k * (2 * (k : ℝ) + 2) := by
  simp [evenFact, Finset.prod_range_succ]
theorem oddFact_pos (k : ℕ) : 0 < oddFact k := Finset.prod_pos (fun _ _ => by positivity)
theorem evenFact_pos (k : ℕ) : 0 < evenFact k := Finset.prod_pos (fun _ _ => by positivity)
theorem oddFact_ge_one (k : ℕ) : 1 ≤ oddFact k := by
  induction k with
  | zero => simp [oddFact]
  | succ k ih =>
    rw [oddFact_succ]
    have : (0 : ℝ) ≤ k := Nat.cast_nonneg k
    nlinarith
theorem evenFact_ge (k : ℕ) : (k.factorial : ℝ) ≤ evenFact k := by
  induction k with
  | zero => simp [evenFact]
  | succ k ih =>
    rw [evenFact_succ, Nat.factorial_succ]
    push_cast
    have : (0 : ℝ) ≤ k := Nat.cast_nonneg k
    have h2 : (0 : ℝ) ≤ k.factorial := Nat.cast_nonneg _
    nlinarith
/-- `(2q)!! (2q-1)!! = (2q)!` -/
theorem even_mul_odd (q : ℕ) : evenFact q * oddFact q = ((2 * q).factorial : ℝ) := by
  induction q with
  | zero => simp [evenFact, oddFact]
  | succ q ih =>
    rw [evenFact_succ, oddFact_succ, show 2 * (q + 1) = 2 * q + 1 + 1 by ring, Nat.factorial_succ,
      Nat.factorial_succ]
    push_cast
    rw [← ih]; ring
theorem even_mul_odd' (q : ℕ) : evenFact q * oddFact (q + 1) = ((2 * q + 1).factorial : ℝ) := by
  rw [oddFact_succ, Nat.factorial_succ]
  push_cast
  rw [← even_mul_odd]; ring

theorem coef_pos (m q : ℕ) : 0 < coef m q := by
  unfold coef; have := evenFact_pos q; have := oddFact_pos (q + m); positivity
theorem coef_le (m q : ℕ) : coef m q ≤ 1 / (q.factorial : ℝ) := by
  unfold coef
  have h1 := evenFact_ge q
  have h2 := oddFact_ge_one (q + m)
  have h3 : (0 : ℝ) < q.factorial := by exact_mod_cast q.factorial_pos
  apply one_div_le_one_div_of_le h3
  nlinarith

theorem eta_eq (m : ℕ) (Z : ℝ) : eta m Z = ∑' q, coef m q * Z ^ q := by
  unfold eta coef; congr 1; funext q; ring

theorem summable_eta (m : ℕ) (Z : ℝ) : Summable (fun q => coef m q * Z ^ q) := by
  refine Summable.of_norm_bounded (g := fun q => |Z| ^ q / (q.factorial : ℝ))
    (Real.summable_pow_div_factorial |Z|) (fun q => ?_)
  rw [norm_mul, Real.norm_eq_abs, Real.norm_eq_abs, abs_of_pos (coef_pos m q), abs_pow]
  have := coef_le m q
  have h : (0 : ℝ) ≤ |Z| ^ q := by positivity
  calc coef m q * |Z| ^ q ≤ 1 / (q.factorial : ℝ) * |Z| ^ q := by gcongr
    _ = _ := by ring

theorem hasSum_eta (m : ℕ) (Z : ℝ) : HasSum (fun q => coef m q * Z ^ q) (eta m Z) := by
  rw [eta_eq]; exact (summable_eta m Z).hasSum

theorem coef_m_succ (m q : ℕ) : coef (m + 1) q * (2 * ((q : ℝ) + m) + 1) = coef m q := by
  unfold coef
  rw [show q + (m + 1) = (q + m) + 1 by ring, oddFact_succ]
  have h1 := evenFact_pos q; have h2 := oddFact_pos (q + m)
  push_cast
  have h3 : (0 : ℝ) < 2 * ((q : ℝ) + m) + 1 := by positivity
  field_simp
theorem coef_shift (m q : ℕ) : coef (m + 1) q = coef m (q + 1) * (2 * (q : ℝ) + 2) := by
  unfold coef
  rw [show q + (m + 1) = q + 1 + m by ring, evenFact_succ]
  have h1 := evenFact_pos q; have h2 := oddFact_pos (q + 1 + m)
  have h3 : (0 : ℝ) < 2 * (q : ℝ) + 2 := by positivity
  field_simp

/-- `η_m = (2m+1) η_{m+1} + Z η_{m+2}` -/
theorem eta_rec (m : ℕ) (Z : ℝ) : eta m Z = (2 * m + 1) * eta (m + 1) Z + Z * eta (m + 2) Z := by
  have h0 := hasSum_eta m Z
  have h1 := (hasSum_eta (m + 1) Z).mul_left (2 * (m : ℝ) + 1)
  have h2 := (hasSum_eta (m + 2) Z).mul_left Z
  have h3 : HasSum (fun q => (2 * (m : ℝ) + 1) * (coef (m + 1) (q + 1) * Z ^ (q + 1)))
      ((2 * m + 1) * eta (m + 1) Z - (2 * m + 1) * (coef (m + 1) 0)) := by
    have := (hasSum_nat_add_iff' (f := fun q => (2 * (m : ℝ) + 1) * (coef (m + 1) q * Z ^ q)) 1).mpr h1
    simpa using this
  have h4 : HasSum (fun q => coef m (q + 1) * Z ^ (q + 1)) (eta m Z - coef m 0) := by
    have := (hasSum_nat_add_iff' (f := fun q => coef m q * Z ^ q) 1).mpr h0
    simpa using this
  have h5 := h3.add h2
  have h6 : (fun q => (2 * (m : ℝ) + 1) * (coef (m + 1) (q + 1) * Z ^ (q + 1)) + Z * (coef (m + 2) q * Z ^ q))
      = (fun q => coef m (q + 1) * Z ^ (q + 1)) := by
    funext q
    have e1 := coef_m_succ m (q + 1)
    have e2 := coef_shift (m + 1) q
    rw [← e1, e2]; push_cast; ring
  rw [h6] at h5
  have := h5.unique h4
  have e := coef_m_succ m 0
  push_cast at e
  have : coef m 0 = (2 * (m : ℝ) + 1) * coef (m + 1) 0 := by rw [← e]; ring
  linarith

/-- `η_m' = η_{m+1} / 2` -/
theorem hasDerivAt_eta (m : ℕ) (Z : ℝ) : HasDerivAt (eta m) (eta (m + 1) Z / 2) Z := by
  set R := |Z| + 1
  have hfun : eta m = fun y => ∑' q, coef m q * y ^ q := by funext y; exact eta_eq m y
  have hbound : Summable (fun q : ℕ => R ^ (q - 1) * (q : ℝ) * coef m q) := by
    rw [← summable_nat_add_iff 1]
    have := (summable_eta (m + 1) R).mul_left (1 / 2)
    refine (summable_congr (fun q => ?_)).mpr this
    rw [coef_shift]; push_cast; ring
  have key := hasDerivAt_tsum_of_isPreconnected (g := fun q y => coef m q * y ^ q)
    (g' := fun q y => coef m q * (q * y ^ (q - 1))) (t := Metric.ball (0 : ℝ) R)
    (u := fun q : ℕ => R ^ (q - 1) * (q : ℝ) * coef m q) hbound Metric.isOpen_ball
    (convex_ball (0 : ℝ) R).isPreconnected
    (fun q y _ => (hasDerivAt_pow q y).const_mul _)
    (fun q y hy => by
      rw [norm_mul, norm_mul, Real.norm_eq_abs, abs_of_pos (coef_pos m q), norm_pow, Real.norm_natCast]
      have h1 : ‖y‖ ≤ R := by
        rw [Metric.mem_ball, dist_zero_right] at hy; exact hy.le
      have h2 : ‖y‖ ^ (q - 1) ≤ R ^ (q - 1) := by gcongr
      have h3 := (coef_pos m q).le
      calc coef m q * (↑q * ‖y‖ ^ (q - 1)) ≤ coef m q * (↑q * R ^ (q - 1)) := by gcongr
        _ = _ := by ring)
    (y₀ := 0) (y := Z) (by simp [R]; positivity) (summable_eta m 0)
    (by rw [Metric.mem_ball, dist_zero_right, Real.norm_eq_abs]; simp [R])
  rw [hfun]
  refine key.congr_deriv ?_
  have h0 := (hasSum_eta (m + 1) Z).mul_left (1 / 2)
  have h1 : HasSum (fun q => coef m q * (q * Z ^ (q - 1))) (1 / 2 * eta (m + 1) Z) := by
    rw [← hasSum_nat_add_iff' 1]
    simp only [Finset.range_one, Finset.sum_singleton, Nat.cast_zero, zero_mul, mul_zero, sub_zero]
    refine (hasSum_congr' (fun q => ?_)).mpr h0
    rw [coef_shift]; push_cast; ring
  rw [h1.tsum_eq]; ring

theorem eta_zero_right (m : ℕ) : eta m 0 = 1 / oddFact m := by
  have h := hasSum_eta m 0
  have h2 : HasSum (fun q => coef m q * (0 : ℝ) ^ q) (coef m 0) := by
    convert hasSum_single (f := fun q => coef m q * (0 : ℝ) ^ q) 0 (fun q hq => by simp [hq]) using 1
    simp
  rw [h.unique h2]; simp [coef, evenFact]

theorem eta0_nonneg {Z : ℝ} (hZ : 0 ≤ Z) : eta 0 Z = Real.cosh (Real.sqrt Z) := by
  have h := hasSum_eta 0 Z
  have h2 := Real.hasSum_cosh (Real.sqrt Z)
  refine h.unique ?_
  refine (hasSum_congr' (fun q => ?_)).mpr h2
  rw [pow_mul, Real.sq_sqrt hZ]
  unfold coef; rw [Nat.add_zero, even_mul_odd]; ring

theorem eta0_neg {Z : ℝ} (hZ : Z ≤ 0) : eta 0 Z = Real.cos (Real.sqrt (-Z)) := by
  have h := hasSum_eta 0 Z
  have h2 := Real.hasSum_cos (Real.sqrt (-Z))
  refine h.unique ?_
  refine (hasSum_congr' (fun q => ?_)).mpr h2
  rw [pow_mul, Real.sq_sqrt (by linarith), neg_pow Z]
  unfold coef; rw [Nat.add_zero, even_mul_odd]
  have : ((-1 : ℝ) ^ q) * (-1) ^ q = 1 := by rw [← mul_pow]; simp
  rw [← mul_assoc, this]; ring

theorem eta1_pos {Z : ℝ} (hZ : 0 < Z) : eta 1 Z = Real.sinh (Real.sqrt Z) / Real.sqrt Z := by
  have hs : 0 < Real.sqrt Z := Real.sqrt_pos.mpr hZ
  have h := hasSum_eta 1 Z
  have h2 := (Real.hasSum_sinh (Real.sqrt Z)).div_const (Real.sqrt Z)
  refine h.unique ?_
  refine (hasSum_congr' (fun q => ?_)).mpr h2
  rw [pow_succ, pow_mul, Real.sq_sqrt hZ.le]
  unfold coef; rw [even_mul_odd']
  have : (0 : ℝ) < ((2 * q + 1).factorial : ℝ) := by exact_mod_cast Nat.factorial_pos _
  field_simp

theorem eta1_neg {Z : ℝ} (hZ : Z < 0) : eta 1 Z = Real.sin (Real.sqrt (-Z)) / Real.sqrt (-Z) := by
  have hs : 0 < Real.sqrt (-Z) := Real.sqrt_pos.mpr (by linarith)
  have h := hasSum_eta 1 Z
  have h2 := (Real.hasSum_sin (Real.sqrt (-Z))).div_const (Real.sqrt (-Z))
  refine h.unique ?_
  refine (hasSum_congr' (fun q => ?_)).mpr h2
  rw [pow_succ, pow_mul, Real.sq_sqrt (by linarith), neg_pow Z]
  unfold coef; rw [even_mul_odd']
  have : (0 : ℝ) < ((2 * q + 1).factorial : ℝ) := by exact_mod_cast Nat.factorial_pos _
  have h1 : ((-1 : ℝ) ^ q) * (-1) ^ q = 1 := by rw [← mul_pow]; simp
  field_simp
  rw [sq, h1, mul_one]

/-- `η_0² - Z η_1² = 1` -/
theorem eta_wronskian (Z : ℝ) : eta 0 Z ^ 2 - Z * eta 1 Z ^ 2 = 1 := by
  rcases lt_trichotomy Z 0 with h | h | h
  · rw [eta0_neg h.le, eta1_neg h]
    have hs : 0 < Real.sqrt (-Z) := Real.sqrt_pos.mpr (by linarith)
    have hq := Real.sq_sqrt (show (0 : ℝ) ≤ -Z by linarith)
    have := Real.sin_sq_add_cos_sq (Real.sqrt (-Z))
    rw [div_pow, hq]
    have : Z ≠ 0 := h.ne
    field_simp
    linarith
  · subst h; rw [eta_zero_right]; simp [oddFact]
  · rw [eta0_nonneg h.le, eta1_pos h]
    have hq := Real.sq_sqrt h.le
    have := Real.cosh_sq (Real.sqrt Z)
    rw [div_pow, hq]
    field_simp
    linarith

theorem eta_pos (m : ℕ) {Z : ℝ} (hZ : 0 ≤ Z) : 0 < eta m Z := by
  have h := hasSum_eta m Z
  have : coef m 0 ≤ eta m Z := by
    have := h.summable.sum_le_tsum {0} (fun q _ => by have := coef_pos m q; positivity)
    simpa [← eta_eq] using this
  exact lt_of_lt_of_le (coef_pos m 0) this

theorem coef_zero_le_eta (m : ℕ) {Z : ℝ} (hZ : 0 ≤ Z) : coef m 0 ≤ eta m Z := by
  have h := hasSum_eta m Z
  have := h.summable.sum_le_tsum {0} (fun q _ => by have := coef_pos m q; positivity)
  simpa [← eta_eq] using this

end Verif.Eta
