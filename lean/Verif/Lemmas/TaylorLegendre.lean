import Verif.Lemmas.Taylor
import Verif.Props.Legendre
import Verif.Spec.Accuracy

/-!
# The computed coefficients of a smooth potential
-/
namespace Verif.Legendre
open scoped BigOperators Nat

theorem weight_sum_check : (List.range 16).all (fun i => decide (2 ^ i * ∑ j ∈ Finset.range 16, |weight 16 i j| ≤ 6)) = true := by
  decide +kernel

/-- The scaled weights of the 16-point rule. -/
theorem weight_sum_le {i : ℕ} (hi : i < 16) : 2 ^ i * ∑ j ∈ Finset.range 16, |(weight 16 i j : ℝ)| ≤ 6 := by
  have := of_decide_eq_true (List.all_eq_true.mp weight_sum_check i (List.mem_range.mpr hi))
  exact_mod_cast this

/-- A scaled coefficient of a function bounded by `c` inside the interval is bounded by `6 c`. -/
theorem coeff_le {f : ℝ → ℝ} {a b c : ℝ} (hab : a < b) (hf : ∀ x, a < x → x < b → |f x| ≤ c) {i : ℕ} (hi : i < 16) :
    |getCoefficients 16 f a b i * (b - a) ^ i| ≤ 6 * c := by
  rw [coeff_scaled (by norm_num) f hab.ne]
  have hk : kOf 16 = 16 := rfl
  rw [hk, abs_mul, abs_of_pos (by positivity : (0 : ℝ) < 2 ^ i)]
  have hs : ∀ j ∈ Finset.range 16, |(weight 16 i j : ℝ) * f (samplePoint 16 a b j)| ≤ |(weight 16 i j : ℝ)| * c := by
    intro j hj
    rw [abs_mul]
    obtain ⟨h1, h2, _⟩ := C65_samples_inside (n := 16) (by norm_num) (by norm_num) hab le_rfl le_rfl j (Finset.mem_range.mp hj)
    exact mul_le_mul_of_nonneg_left (hf _ h1 h2) (abs_nonneg _)
  have hc : 0 ≤ c := (abs_nonneg _).trans (hf ((a + b) / 2) (by linarith) (by linarith))
  calc 2 ^ i * |∑ j ∈ Finset.range 16, (weight 16 i j : ℝ) * f (samplePoint 16 a b j)|
      ≤ 2 ^ i * ∑ j ∈ Finset.range 16, |(weight 16 i j : ℝ)| * c :=
        mul_le_mul_of_nonneg_left ((Finset.abs_sum_le_sum_abs _ _).trans (Finset.sum_le_sum hs)) (by positivity)
    _ = (2 ^ i * ∑ j ∈ Finset.range 16, |(weight 16 i j : ℝ)|) * c := by rw [← Finset.sum_mul]; ring
    _ ≤ 6 * c := mul_le_mul_of_nonneg_right (weight_sum_le hi) hc

/-- The coefficients are additive in the function. -/
theorem coeff_sub (f g : ℝ → ℝ) {a b : ℝ} (hab : a < b) (i : ℕ) :
    getCoefficients 16 f a b i * (b - a) ^ i - getCoefficients 16 g a b i * (b - a) ^ i =
      getCoefficients 16 (fun x => f x - g x) a b i * (b - a) ^ i := by
  rw [coeff_scaled (by norm_num) f hab.ne, coeff_scaled (by norm_num) g hab.ne, coeff_scaled (by norm_num) _ hab.ne, ← mul_sub,
    ← Finset.sum_sub_distrib]
  congr 1
  exact Finset.sum_congr rfl (fun j _ => by ring)

/-- The moments of low powers vanish. -/
theorem moment_zero {i m : ℕ} (hi : i < 16) (hm : m < i) : ∫ t in (0 : ℝ)..1, (2 * t - 1) ^ m * shiftedP i t = 0 := by
  have hI : ∫ t in (0 : ℝ)..1, (2 * t - 1) ^ m * shiftedP i t = (dotL 16 (m + 1) (poly i) (powC m) : ℝ) / L60 := by
    rw [dotL_eq _ _ (by omega), mul_div_cancel_left₀ _ L60_pos.ne']
    congr 1
    ext t
    rw [powC_eq, mul_comm, ← tableP_eq_shiftedP hi]; rfl
  have hchk := List.all_eq_true.mp tab_complete m (List.mem_range.mpr (by omega))
  rw [Bool.and_eq_true, List.all_eq_true, List.all_eq_true] at hchk
  have h0 : (2 * (i : ℤ) + 1) * dotL 16 (m + 1) (poly i) (powC m) = momE m i :=
    beq_iff_eq.mp (List.all_eq_true.mp (List.all_eq_true.mp tab_mom m (List.mem_range.mpr (by omega))) i (List.mem_range.mpr hi))
  have := hchk.1 i (List.mem_range.mpr hi)
  simp only [Bool.or_eq_true, decide_eq_true_eq, beq_iff_eq] at this
  have hd : dotL 16 (m + 1) (poly i) (powC m) = 0 := by
    rcases this with h | h
    · omega
    · rw [h] at h0
      exact (mul_eq_zero.mp h0).resolve_left (by positivity)
  rw [hI, hd]; simp

theorem moment_le {i m : ℕ} (hi : i < 16) : |(2 * (i : ℝ) + 1) * ∫ t in (0 : ℝ)..1, (2 * t - 1) ^ m * shiftedP i t| ≤ 31 := by
  have h1 : ‖∫ t in (0 : ℝ)..1, (2 * t - 1) ^ m * shiftedP i t‖ ≤ 1 * |1 - 0| := by
    refine intervalIntegral.norm_integral_le_of_norm_le_const (fun t ht => ?_)
    rw [Set.uIoc_of_le zero_le_one] at ht
    rw [Real.norm_eq_abs, abs_mul, abs_pow]
    have e1 : |2 * t - 1| ≤ 1 := abs_le.mpr ⟨by linarith [ht.1], by linarith [ht.2]⟩
    have e2 := (C41_table hi t).2.2.2 ht.1.le ht.2
    calc |2 * t - 1| ^ m * |shiftedP i t| ≤ 1 * 1 := mul_le_mul (pow_le_one₀ (abs_nonneg _) e1) e2 (abs_nonneg _) zero_le_one
      _ = 1 := by ring
  rw [Real.norm_eq_abs, sub_zero, abs_one, mul_one] at h1
  rw [abs_mul, abs_of_nonneg (by positivity)]
  have h2 : 2 * (i : ℝ) + 1 ≤ 31 := by
    have : (i : ℝ) ≤ 15 := by exact_mod_cast Nat.le_of_lt_succ hi
    linarith
  calc (2 * (i : ℝ) + 1) * |∫ t in (0 : ℝ)..1, (2 * t - 1) ^ m * shiftedP i t| ≤ 31 * 1 :=
        mul_le_mul h2 h1 (abs_nonneg _) (by norm_num)
    _ = 31 := by ring

/-- A Legendre coefficient of a difference that is bounded by `c`. -/
theorem legendreCoeff_sub_le {f g : ℝ → ℝ} {a b c : ℝ} (hab : a < b) (hf : ContinuousOn f (Set.Icc a b)) (hg : ContinuousOn g (Set.Icc a b))
    (h : ∀ x ∈ Set.Icc a b, |f x - g x| ≤ c) {i : ℕ} (hi : i < 16) : |legendreCoeff f a b i - legendreCoeff g a b i| ≤ 31 * c := by
  have hm : Set.MapsTo (fun t : ℝ => a + (b - a) * t) (Set.Icc 0 1) (Set.Icc a b) := by
    intro t ht
    have h1 : 0 ≤ (b - a) * t := mul_nonneg (by linarith) ht.1
    have h2 : (b - a) * t ≤ (b - a) * 1 := mul_le_mul_of_nonneg_left ht.2 (by linarith)
    exact ⟨by linarith, by linarith⟩
  have hP : Continuous (fun t : ℝ => shiftedP i t) := by unfold shiftedP; fun_prop
  have hc : ∀ {u : ℝ → ℝ}, ContinuousOn u (Set.Icc a b) → ContinuousOn (fun t : ℝ => u (a + (b - a) * t) * shiftedP i t) (Set.uIcc 0 1) := by
    intro u hu
    rw [Set.uIcc_of_le zero_le_one]
    exact (hu.comp (by fun_prop) hm).mul hP.continuousOn
  unfold legendreCoeff
  rw [← mul_sub, ← intervalIntegral.integral_sub (hc hf).intervalIntegrable (hc hg).intervalIntegrable, abs_mul,
    abs_of_nonneg (by positivity : (0 : ℝ) ≤ 2 * (i : ℝ) + 1)]
  have h1 : ‖∫ t in (0 : ℝ)..1, (f (a + (b - a) * t) * shiftedP i t - g (a + (b - a) * t) * shiftedP i t)‖ ≤ c * |1 - 0| := by
    refine intervalIntegral.norm_integral_le_of_norm_le_const (fun t ht => ?_)
    rw [Set.uIoc_of_le zero_le_one] at ht
    rw [Real.norm_eq_abs, ← sub_mul, abs_mul]
    have e1 := h _ (hm ⟨ht.1.le, ht.2⟩)
    have e2 := (C41_table hi t).2.2.2 ht.1.le ht.2
    have c0 : 0 ≤ c := (abs_nonneg _).trans e1
    calc _ ≤ c * 1 := mul_le_mul e1 e2 (abs_nonneg _) c0
      _ = c := mul_one c
  rw [Real.norm_eq_abs, sub_zero, abs_one, mul_one] at h1
  have h2 : 2 * (i : ℝ) + 1 ≤ 31 := by
    have : (i : ℝ) ≤ 15 := by exact_mod_cast Nat.le_of_lt_succ hi
    linarith
  exact mul_le_mul h2 h1 (abs_nonneg _) (by norm_num)

/-- error of the scaled coefficients as coefficients of the Taylor polynomial -/
noncomputable def tau (M τ h : ℝ) : ℝ := τ + 31 * M * h ^ 16

theorem tau_nonneg {M τ h : ℝ} (hM : 0 ≤ M) (hτ : 0 ≤ τ) (h0 : 0 ≤ h) : 0 ≤ tau M τ h := by
  unfold tau; positivity

/-- The Taylor polynomial of a smooth potential about the midpoint. -/
theorem taylor_poly {M : ℝ} {W : ℝ → ℝ} {a b : ℝ} (hab : a < b) (hW : SmoothOn M W a b) :
    ∃ (P : ℝ → ℝ) (g : ℕ → ℝ), Continuous P ∧ (∀ s, P ((a + b) / 2 + (b - a) / 2 * s) = ∑ m ∈ Finset.range 16, g m * s ^ m) ∧
      (∀ m < 16, |g m| ≤ M * (b - a) ^ m) ∧ ∀ x ∈ Set.Icc a b, |W x - P x| ≤ M * (b - a) ^ 16 := by
  obtain ⟨D, d0, d1, d2⟩ := hW
  set h := b - a with hh
  have h0 : 0 < h := by linarith
  set c := (a + b) / 2 with hc
  have hcm : c ∈ Set.Icc a b := ⟨by rw [hc]; linarith, by rw [hc]; linarith⟩
  have hM : 0 ≤ M := (abs_nonneg _).trans (d2 0 (by norm_num) c hcm)
  set P : ℝ → ℝ := taylorSum D c 0 16 with hP
  set g : ℕ → ℝ := fun m => D m c * (h / 2) ^ m / (m ! : ℝ) with hg
  have hPg : ∀ s, P ((a + b) / 2 + (b - a) / 2 * s) = ∑ m ∈ Finset.range 16, g m * s ^ m := by
    intro s
    rw [hP, taylorSum]
    refine Finset.sum_congr rfl (fun m _ => ?_)
    rw [hg, hc]
    simp only [add_sub_cancel_left, zero_add, mul_pow]
    rw [← hh]; ring
  have hfac : ∀ m : ℕ, (1 : ℝ) ≤ (m ! : ℝ) := fun m => by exact_mod_cast Nat.one_le_iff_ne_zero.mpr (Nat.factorial_ne_zero m)
  have hgb : ∀ m < 16, |g m| ≤ M * h ^ m := by
    intro m hm
    rw [hg]
    simp only
    rw [abs_div, abs_mul, abs_of_nonneg (by positivity : 0 ≤ (h / 2) ^ m), abs_of_nonneg (by positivity : (0 : ℝ) ≤ (m ! : ℝ))]
    have e1 : (h / 2) ^ m ≤ h ^ m := pow_le_pow_left₀ (by positivity) (by linarith) m
    have e2 := d2 m (by omega) c hcm
    calc |D m c| * (h / 2) ^ m / (m ! : ℝ) ≤ |D m c| * (h / 2) ^ m := div_le_self (by positivity) (hfac m)
      _ ≤ M * h ^ m := mul_le_mul e2 e1 (by positivity) hM
  refine ⟨P, g, by rw [hP]; unfold taylorSum; fun_prop, hPg, hgb, fun x hx => ?_⟩
  have := taylor_bound hcm d1 d2 16 le_rfl 0 rfl x hx
  rw [d0 x hx] at this
  refine this.trans (mul_le_mul_of_nonneg_left (pow_le_pow_left₀ (abs_nonneg _) ?_ 16) hM)
  rw [abs_le]; constructor <;> rw [hc] <;> linarith [hx.1, hx.2]

/-- The accuracy of the coefficients the code computes of a smooth potential. -/
theorem coeffWithin_code {M : ℝ} {f W : ℝ → ℝ} {a b : ℝ} (hab : a < b) (h1 : b - a ≤ 1) (hW : SmoothOn M W a b)
    (hf : ∀ x, a < x → x < b → f x = W x) :
    CoeffWithin (16 * M / 10 ^ 14 + 37 * M * (b - a) ^ 16) W a b (fun k => if k < 16 then getCoefficients 16 f a b k else 0) := by
  obtain ⟨P, g, hPc, hPg, hgb, hWP⟩ := taylor_poly hab hW
  have hM : 0 ≤ M := (abs_nonneg _).trans (hW.bound ⟨le_rfl, hab.le⟩)
  have h0 : 0 < b - a := by linarith
  refine ⟨fun i hi => ?_, fun k hk => by rw [if_neg (by omega)]⟩
  rw [if_pos hi]
  have e1 := C42_coefficients (n := 16) (by norm_num) (by norm_num) hi hab.ne P 16 (by omega) g hPg
  have e2 : |getCoefficients 16 f a b i * (b - a) ^ i - getCoefficients 16 P a b i * (b - a) ^ i| ≤ 6 * (M * (b - a) ^ 16) := by
    rw [coeff_sub f P hab]
    refine coeff_le hab (fun x hx1 hx2 => ?_) hi
    rw [hf x hx1 hx2]
    exact hWP x ⟨hx1.le, hx2.le⟩
  have e3 : ∑ m ∈ Finset.range 16, |g m| ≤ 16 * M := by
    have hs : ∀ m ∈ Finset.range 16, |g m| ≤ M := by
      intro m hm
      refine (hgb m (Finset.mem_range.mp hm)).trans ?_
      have : (b - a) ^ m ≤ 1 := pow_le_one₀ h0.le h1
      nlinarith
    refine (Finset.sum_le_sum hs).trans (le_of_eq ?_)
    rw [Finset.sum_const, Finset.card_range, nsmul_eq_mul]; push_cast; ring
  have e6 : |legendreCoeff P a b i - legendreCoeff W a b i| ≤ 31 * (M * (b - a) ^ 16) :=
    legendreCoeff_sub_le hab hPc.continuousOn hW.continuousOn (fun x hx => by rw [abs_sub_comm]; exact hWP x hx) hi
  have e4 : getCoefficients 16 f a b i * (b - a) ^ i - legendreCoeff W a b i = (getCoefficients 16 f a b i * (b - a) ^ i - getCoefficients 16 P a b i * (b - a) ^ i) +
    (getCoefficients 16 P a b i * (b - a) ^ i - legendreCoeff P a b i) + (legendreCoeff P a b i - legendreCoeff W a b i) := by ring
  rw [e4]
  refine (abs_add_three _ _ _).trans ?_
  have e5 : 1 / 10 ^ 14 * ∑ m ∈ Finset.range 16, |g m| ≤ 1 / 10 ^ 14 * (16 * M) := mul_le_mul_of_nonneg_left e3 (by norm_num)
  have e7 : 37 * M * (b - a) ^ 16 = 6 * (M * (b - a) ^ 16) + 31 * (M * (b - a) ^ 16) := by ring
  rw [e7]
  linarith

set_option maxHeartbeats 1000000 in
/-- Beside coefficients `v` of a smooth potential accurate to `τ` there are coefficients `w` that are bounded independently
of the width, differ little from `v`, and whose series approximates the potential. -/
theorem coeff_near {M τ : ℝ} {W : ℝ → ℝ} {v : ℕ → ℝ} {a b : ℝ} (hab : a < b) (h1 : b - a ≤ 1) (hW : SmoothOn M W a b)
    (hv : CoeffWithin τ W a b v) :
    ∃ w : ℕ → ℝ, w 0 = v 0 ∧ (∀ k, 16 ≤ k → w k = 0) ∧ (∀ k, 1 ≤ k → |w k| ≤ 496 * M) ∧
      (∀ k < 16, |v k - w k| * (b - a) ^ k ≤ tau M τ (b - a)) ∧
      ∀ x ∈ Set.Icc 0 (b - a), |W (a + x) - legendreSeries 16 w (b - a) x| ≤ M * (b - a) ^ 16 + tau M τ (b - a) := by
  obtain ⟨P, g, hPc, hPg, hgb, hWP⟩ := taylor_poly hab hW
  have hM : 0 ≤ M := (abs_nonneg _).trans (hW.bound ⟨le_rfl, hab.le⟩)
  have hτ0 := hv.nonneg
  set h := b - a with hh
  have h0 : 0 < h := by linarith
  -- the Legendre coefficients of the Taylor polynomial
  set ℓ : ℕ → ℝ := legendreCoeff P a b with hℓ
  have hℓe : ∀ i, ℓ i = ∑ m ∈ Finset.range 16, g m * ((2 * i + 1) * ∫ t in (0 : ℝ)..1, (2 * t - 1) ^ m * shiftedP i t) :=
    legendreCoeff_poly P 16 g hPg
  have hℓb : ∀ i < 16, |ℓ i| ≤ 496 * M * h ^ i := by
    intro i hi
    rw [hℓe]
    have hs : ∀ m ∈ Finset.range 16, |g m * ((2 * (i : ℝ) + 1) * ∫ t in (0 : ℝ)..1, (2 * t - 1) ^ m * shiftedP i t)| ≤ M * h ^ i * 31 := by
      intro m hm
      rw [Finset.mem_range] at hm
      by_cases hmi : m < i
      · rw [moment_zero hi hmi]; simp; positivity
      · rw [abs_mul]
        have e1 : h ^ m ≤ h ^ i := pow_le_pow_of_le_one h0.le h1 (by omega)
        have e2 : |g m| ≤ M * h ^ i := (hgb m hm).trans (mul_le_mul_of_nonneg_left e1 hM)
        exact mul_le_mul e2 (moment_le hi) (abs_nonneg _) (by positivity)
    refine ((Finset.abs_sum_le_sum_abs _ _).trans (Finset.sum_le_sum hs)).trans (le_of_eq ?_)
    rw [Finset.sum_const, Finset.card_range, nsmul_eq_mul]; push_cast; ring
  have hnear : ∀ i < 16, |v i * h ^ i - ℓ i| ≤ tau M τ h := by
    intro i hi
    have e1 := hv.near i hi
    have e6 : |legendreCoeff W a b i - legendreCoeff P a b i| ≤ 31 * (M * (b - a) ^ 16) :=
      legendreCoeff_sub_le hab hW.continuousOn hPc.continuousOn (fun x hx => hWP x hx) hi
    have e4 : v i * h ^ i - ℓ i = (v i * h ^ i - legendreCoeff W a b i) + (legendreCoeff W a b i - ℓ i) := by ring
    rw [e4]
    refine (abs_add_le _ _).trans ?_
    unfold tau
    rw [← hh] at e1 e6
    linarith
  set w : ℕ → ℝ := fun k => if k = 0 then v 0 else if k < 16 then ℓ k / h ^ k else 0 with hw
  have hwk : ∀ k, 1 ≤ k → k < 16 → w k = ℓ k / h ^ k := fun k h1 h2 => by
    rw [hw]; simp only; rw [if_neg (by omega), if_pos h2]
  have hτ := tau_nonneg hM hτ0 h0.le
  refine ⟨w, by rw [hw]; simp, fun k hk => ?_, fun k hk => ?_, fun k hk => ?_, fun x hx => ?_⟩
  · rw [hw]; simp only; rw [if_neg (by omega), if_neg (by omega)]
  · by_cases h16 : k < 16
    · rw [hwk k hk h16, abs_div, abs_of_pos (by positivity : 0 < h ^ k), div_le_iff₀ (by positivity)]
      exact hℓb k h16
    · rw [hw]; simp only; rw [if_neg (by omega), if_neg (by omega)]; simp; linarith
  · by_cases hk0 : k = 0
    · subst hk0; rw [hw]; simpa using hτ
    · rw [hwk k (by omega) hk]
      have e : |v k - ℓ k / h ^ k| * h ^ k = |v k * h ^ k - ℓ k| := by
        rw [← abs_of_pos (by positivity : 0 < h ^ k), ← abs_mul, sub_mul, abs_of_pos (by positivity : 0 < h ^ k), div_mul_cancel₀ _ (by positivity)]
      rw [e]
      exact hnear k hk
  · -- the series
    set t := x / h with ht
    have hxt : x = (b - a) * t := by rw [ht, ← hh]; field_simp
    have e3 : P (a + x) = ∑ i ∈ Finset.range 16, ℓ i * shiftedP i t := by
      have := hPg (2 * t - 1)
      rw [show (a + b) / 2 + (b - a) / 2 * (2 * t - 1) = a + (b - a) * t by ring, ← hxt] at this
      rw [this]
      simp only [hℓe, Finset.sum_mul]
      rw [Finset.sum_comm]
      refine Finset.sum_congr rfl (fun m hm => ?_)
      have := power_expansion le_rfl (Finset.mem_range.mp hm) t
      rw [← this, Finset.mul_sum]
      exact Finset.sum_congr rfl (fun i _ => by ring)
    have e4 : legendreSeries 16 w h x = P (a + x) + (v 0 - ℓ 0) := by
      rw [e3, legendreSeries, Finset.sum_range_succ', Finset.sum_range_succ' _ 15]
      have hp0 : shiftedP 0 t = 1 := by simp [shiftedP]
      have hw0 : w 0 = v 0 := by rw [hw]; simp
      have : ∀ k ∈ Finset.range 15, w (k + 1) * h ^ (k + 1) * shiftedP (k + 1) (x / h) = ℓ (k + 1) * shiftedP (k + 1) t := by
        intro k hk
        rw [Finset.mem_range] at hk
        rw [hwk (k + 1) (by omega) (by omega), div_mul_cancel₀ _ (by positivity)]
      rw [Finset.sum_congr rfl this, ← ht, hp0, hw0]
      ring
    rw [e4]
    have hx' : a + x ∈ Set.Icc a b := ⟨by linarith [hx.1], by linarith [hx.2]⟩
    have f1 := hWP _ hx'
    have f2 := hnear 0 (by norm_num)
    rw [pow_zero, mul_one] at f2
    have e5 : W (a + x) - (P (a + x) + (v 0 - ℓ 0)) = (W (a + x) - P (a + x)) - (v 0 - ℓ 0) := by ring
    rw [e5]
    exact (abs_sub _ _).trans (add_le_add f1 f2)

/-! ### Mirror symmetry of the rule -/

theorem rule16_symm : (List.range 16).all (fun j => node 16 (15 - j) == -node 16 j &&
    (List.range 16).all (fun i => weight 16 i (15 - j) == (-1) ^ i * weight 16 i j)) = true := by
  decide +kernel

/-- The coefficients of the mirrored potential are those of the potential with the odd ones negated. -/
theorem coeff_mirror (f : ℝ → ℝ) {a b : ℝ} (i : ℕ) (hi : i < 16) :
    getCoefficients 16 (fun x => f (a + b - x)) a b i = (-1) ^ i * getCoefficients 16 f a b i := by
  unfold getCoefficients
  have hk : kOf 16 = 16 := rfl
  rw [hk, integrate_eq (by norm_num), integrate_eq (by norm_num), mul_div_assoc', Finset.mul_sum]
  congr 1
  rw [← Finset.sum_range_reflect]
  refine Finset.sum_congr rfl (fun j hj => ?_)
  rw [Finset.mem_range] at hj
  have h := List.all_eq_true.mp rule16_symm j (List.mem_range.mpr hj)
  rw [Bool.and_eq_true, List.all_eq_true] at h
  have e1 : node 16 (15 - j) = -node 16 j := beq_iff_eq.mp h.1
  have e2 : weight 16 i (15 - j) = (-1) ^ i * weight 16 i j := beq_iff_eq.mp (h.2 i (List.mem_range.mpr hi))
  rw [show 16 - 1 - j = 15 - j from rfl, e2]
  have e3 : a + b - samplePoint 16 a b (15 - j) = samplePoint 16 a b j := by
    simp only [samplePoint, e1, ccmp_lit]; push_cast; ring
  dsimp only
  rw [e3]; push_cast; ring

end Verif.Legendre
