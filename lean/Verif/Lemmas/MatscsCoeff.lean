import Verif.Spec.Coupled
import Verif.Lemmas.TaylorLegendre

/-!
# The computed coefficients of a coupled potential
-/
namespace Verif.Legendre
open scoped BigOperators Nat

theorem weight_sum_check10 : (List.range 9).all (fun i => decide (2 ^ i * ∑ j ∈ Finset.range 10, |weight 10 i j| ≤ 6)) = true := by
  decide +kernel

theorem weight_sum_le10 {i : ℕ} (hi : i < 9) : 2 ^ i * ∑ j ∈ Finset.range 10, |(weight 10 i j : ℝ)| ≤ 6 := by
  have := of_decide_eq_true (List.all_eq_true.mp weight_sum_check10 i (List.mem_range.mpr hi))
  exact_mod_cast this

theorem coeff_le9 {f : ℝ → ℝ} {a b c : ℝ} (hab : a < b) (hf : ∀ x, a < x → x < b → |f x| ≤ c) {i : ℕ} (hi : i < 9) :
    |getCoefficients 9 f a b i * (b - a) ^ i| ≤ 6 * c := by
  rw [coeff_scaled (by norm_num) f hab.ne]
  have hk : kOf 9 = 10 := rfl
  rw [hk, abs_mul, abs_of_pos (by positivity : (0 : ℝ) < 2 ^ i)]
  have hs : ∀ j ∈ Finset.range 10, |(weight 10 i j : ℝ) * f (samplePoint 10 a b j)| ≤ |(weight 10 i j : ℝ)| * c := by
    intro j hj
    rw [abs_mul]
    obtain ⟨h1, h2, _⟩ := C65_samples_inside (n := 9) (by norm_num) (by norm_num) hab le_rfl le_rfl j (Finset.mem_range.mp hj)
    exact mul_le_mul_of_nonneg_left (hf _ h1 h2) (abs_nonneg _)
  have hc : 0 ≤ c := (abs_nonneg _).trans (hf ((a + b) / 2) (by linarith) (by linarith))
  calc 2 ^ i * |∑ j ∈ Finset.range 10, (weight 10 i j : ℝ) * f (samplePoint 10 a b j)|
      ≤ 2 ^ i * ∑ j ∈ Finset.range 10, |(weight 10 i j : ℝ)| * c :=
        mul_le_mul_of_nonneg_left ((Finset.abs_sum_le_sum_abs _ _).trans (Finset.sum_le_sum hs)) (by positivity)
    _ = (2 ^ i * ∑ j ∈ Finset.range 10, |(weight 10 i j : ℝ)|) * c := by rw [← Finset.sum_mul]; ring
    _ ≤ 6 * c := mul_le_mul_of_nonneg_right (weight_sum_le10 hi) hc

theorem coeff_sub9 (f g : ℝ → ℝ) {a b : ℝ} (hab : a < b) (i : ℕ) :
    getCoefficients 9 f a b i * (b - a) ^ i - getCoefficients 9 g a b i * (b - a) ^ i =
      getCoefficients 9 (fun x => f x - g x) a b i * (b - a) ^ i := by
  rw [coeff_scaled (by norm_num) f hab.ne, coeff_scaled (by norm_num) g hab.ne, coeff_scaled (by norm_num) _ hab.ne, ← mul_sub,
    ← Finset.sum_sub_distrib]
  congr 1
  exact Finset.sum_congr rfl (fun j _ => by ring)

/-- The remainder of order `n` is bounded by `M |x - c|^n`. -/
theorem taylor_bound_le {M a b c : ℝ} {D : ℕ → ℝ → ℝ} (hc : c ∈ Set.Icc a b)
    (hD : ∀ j < 16, ∀ x ∈ Set.Icc a b, HasDerivWithinAt (D j) (D (j + 1) x) (Set.Icc a b) x)
    (hM : ∀ j ≤ 16, ∀ x ∈ Set.Icc a b, |D j x| ≤ M) (n : ℕ) (hn : n ≤ 16) :
    ∀ j, j + n ≤ 16 → ∀ x ∈ Set.Icc a b, |D j x - taylorSum D c j n x| ≤ M * |x - c| ^ n := by
  induction n with
  | zero =>
    intro j hj x hx
    simpa [taylorSum] using hM j (by omega) x hx
  | succ n ih =>
    intro j hj x hx
    have ih := ih (by omega) (j + 1) (by omega)
    have hM0 : 0 ≤ M := (abs_nonneg _).trans (hM 0 (by omega) x hx)
    have hsub : Set.uIcc c x ⊆ Set.Icc a b := Set.uIcc_subset_Icc hc hx
    have key := (convex_uIcc c x).norm_image_sub_le_of_norm_hasDerivWithin_le (f := fun t => D j t - taylorSum D c j (n + 1) t)
      (f' := fun t => D (j + 1) t - taylorSum D c (j + 1) n t) (C := M * |x - c| ^ n) (x := c) (y := x)
      (fun t ht => ((hD j (by omega) t (hsub ht)).mono hsub).sub (hasDerivAt_taylorSum D c j n t).hasDerivWithinAt)
      (fun t ht => by
        rw [Real.norm_eq_abs]
        refine (ih t (hsub ht)).trans ?_
        refine mul_le_mul_of_nonneg_left (pow_le_pow_left₀ (abs_nonneg _) ?_ n) hM0
        exact Set.abs_sub_left_of_mem_uIcc ht)
      Set.left_mem_uIcc Set.right_mem_uIcc
    have h0 : taylorSum D c j (n + 1) c = D j c := by
      unfold taylorSum
      rw [Finset.sum_range_succ']
      simp
    simp only [h0, sub_self, sub_zero, Real.norm_eq_abs] at key
    rw [pow_succ, ← mul_assoc]
    exact key

/-- The Taylor polynomial of degree 11 about the midpoint. -/
theorem taylor_poly12 {M : ℝ} {W : ℝ → ℝ} {a b : ℝ} (hab : a < b) (hW : SmoothOn M W a b) :
    ∃ (P : ℝ → ℝ) (g : ℕ → ℝ), Continuous P ∧ (∀ s, P ((a + b) / 2 + (b - a) / 2 * s) = ∑ m ∈ Finset.range 12, g m * s ^ m) ∧
      (∀ m < 12, |g m| ≤ M * (b - a) ^ m) ∧ ∀ x ∈ Set.Icc a b, |W x - P x| ≤ M * (b - a) ^ 12 := by
  obtain ⟨D, d0, d1, d2⟩ := hW
  set h := b - a with hh
  have h0 : 0 < h := by linarith
  set c := (a + b) / 2 with hc
  have hcm : c ∈ Set.Icc a b := ⟨by rw [hc]; linarith, by rw [hc]; linarith⟩
  have hM : 0 ≤ M := (abs_nonneg _).trans (d2 0 (by norm_num) c hcm)
  set P : ℝ → ℝ := taylorSum D c 0 12 with hP
  set g : ℕ → ℝ := fun m => D m c * (h / 2) ^ m / (m ! : ℝ) with hg
  have hPg : ∀ s, P ((a + b) / 2 + (b - a) / 2 * s) = ∑ m ∈ Finset.range 12, g m * s ^ m := by
    intro s
    rw [hP, taylorSum]
    refine Finset.sum_congr rfl (fun m _ => ?_)
    rw [hg, hc]
    simp only [add_sub_cancel_left, zero_add, mul_pow]
    rw [← hh]; ring
  have hfac : ∀ m : ℕ, (1 : ℝ) ≤ (m ! : ℝ) := fun m => by exact_mod_cast Nat.one_le_iff_ne_zero.mpr (Nat.factorial_ne_zero m)
  have hgb : ∀ m < 12, |g m| ≤ M * h ^ m := by
    intro m hm
    rw [hg]
    simp only
    rw [abs_div, abs_mul, abs_of_nonneg (by positivity : 0 ≤ (h / 2) ^ m), abs_of_nonneg (by positivity : (0 : ℝ) ≤ (m ! : ℝ))]
    have e1 : (h / 2) ^ m ≤ h ^ m := pow_le_pow_left₀ (by positivity) (by linarith) m
    have e2 := d2 m (by omega) c hcm
    calc |D m c| * (h / 2) ^ m / (m ! : ℝ) ≤ |D m c| * (h / 2) ^ m := div_le_self (by positivity) (hfac m)
      _ ≤ M * h ^ m := mul_le_mul e2 e1 (by positivity) hM
  refine ⟨P, g, by rw [hP]; unfold taylorSum; fun_prop, hPg, hgb, fun x hx => ?_⟩
  have := taylor_bound_le hcm d1 d2 12 (by norm_num) 0 (by norm_num) x hx
  rw [d0 x hx] at this
  refine this.trans (mul_le_mul_of_nonneg_left (pow_le_pow_left₀ (abs_nonneg _) ?_ 12) hM)
  rw [abs_le]; constructor <;> rw [hc] <;> linarith [hx.1, hx.2]

/-- The accuracy of the coefficients the code computes of an entry of a coupled potential. -/
theorem coeffWithin_code9 {M : ℝ} {f W : ℝ → ℝ} {a b : ℝ} (hab : a < b) (h1 : b - a ≤ 1) (hW : SmoothOn M W a b)
    (hf : ∀ x, a < x → x < b → f x = W x) {i : ℕ} (hi : i < 9) :
    |getCoefficients 9 f a b i * (b - a) ^ i - legendreCoeff W a b i| ≤ 12 * M / 10 ^ 14 + 37 * M * (b - a) ^ 12 := by
  obtain ⟨P, g, hPc, hPg, hgb, hWP⟩ := taylor_poly12 hab hW
  have hM : 0 ≤ M := (abs_nonneg _).trans (hW.bound ⟨le_rfl, hab.le⟩)
  have h0 : 0 < b - a := by linarith
  have e1 := C42_coefficients (n := 9) (by norm_num) (by norm_num) hi hab.ne P 12 (by omega) g hPg
  have e2 : |getCoefficients 9 f a b i * (b - a) ^ i - getCoefficients 9 P a b i * (b - a) ^ i| ≤ 6 * (M * (b - a) ^ 12) := by
    rw [coeff_sub9 f P hab]
    refine coeff_le9 hab (fun x hx1 hx2 => ?_) hi
    rw [hf x hx1 hx2]
    exact hWP x ⟨hx1.le, hx2.le⟩
  have e3 : ∑ m ∈ Finset.range 12, |g m| ≤ 12 * M := by
    have hs : ∀ m ∈ Finset.range 12, |g m| ≤ M := by
      intro m hm
      refine (hgb m (Finset.mem_range.mp hm)).trans ?_
      have : (b - a) ^ m ≤ 1 := pow_le_one₀ h0.le h1
      nlinarith
    refine (Finset.sum_le_sum hs).trans (le_of_eq ?_)
    rw [Finset.sum_const, Finset.card_range, nsmul_eq_mul]; push_cast; ring
  have e6 : |legendreCoeff P a b i - legendreCoeff W a b i| ≤ 31 * (M * (b - a) ^ 12) :=
    legendreCoeff_sub_le hab hPc.continuousOn hW.continuousOn (fun x hx => by rw [abs_sub_comm]; exact hWP x hx) (by omega)
  have e4 : getCoefficients 9 f a b i * (b - a) ^ i - legendreCoeff W a b i = (getCoefficients 9 f a b i * (b - a) ^ i - getCoefficients 9 P a b i * (b - a) ^ i) +
    (getCoefficients 9 P a b i * (b - a) ^ i - legendreCoeff P a b i) + (legendreCoeff P a b i - legendreCoeff W a b i) := by ring
  rw [e4]
  refine (abs_add_three _ _ _).trans ?_
  have e5 : 1 / 10 ^ 14 * ∑ m ∈ Finset.range 12, |g m| ≤ 1 / 10 ^ 14 * (12 * M) := mul_le_mul_of_nonneg_left e3 (by norm_num)
  have e7 : 37 * M * (b - a) ^ 12 = 6 * (M * (b - a) ^ 12) + 31 * (M * (b - a) ^ 12) := by ring
  rw [e7]
  linarith

end Verif.Legendre

namespace Verif
open Verif.MFormulas

/-- The coefficients the code computes of a coupled potential. -/
theorem mcoeff_code {n : ℕ} {M H : ℝ} (hM : 0 ≤ M) {V W : ℝ → Mat n ℝ} {s : Mesh.Sec ℝ} (hlt : s.min < s.max) (hn : s.max - s.min ≤ H) (hH : H ≤ 1)
    (hW : MSmoothOn M W s.min s.max) (hV : ∀ x, s.min < x → x < s.max → V x = W x) :
    MCoeffWithin (12 * M / 10 ^ 14 + 37 * M * H ^ 12) W s.min s.max (coeffsM V s) := by
  intro k hk i j
  have := Legendre.coeffWithin_code9 hlt (hn.trans hH) (hW i j) (f := fun x => V x i j) (fun x h1 h2 => by rw [hV x h1 h2]) hk
  refine le_trans this ?_
  have := mul_le_mul_of_nonneg_left (pow_le_pow_left₀ (by linarith) hn 12) (show 0 ≤ 37 * M by linarith)
  linarith

end Verif
