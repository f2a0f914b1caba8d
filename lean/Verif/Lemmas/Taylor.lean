import Verif.Spec.Smooth
import Mathlib.Analysis.Calculus.MeanValue
import Mathlib.Analysis.Calculus.Deriv.Pow
import Mathlib.Analysis.Calculus.IteratedDeriv.Defs
import Mathlib.Analysis.Convex.Basic

/-!
# Taylor expansion of a smooth function about a point of the interval
-/
namespace Verif
open scoped BigOperators Nat

/-- The Taylor sum of the functions `D j, D (j+1), …` about `c`. -/
noncomputable def taylorSum (D : ℕ → ℝ → ℝ) (c : ℝ) (j n : ℕ) (x : ℝ) : ℝ :=
  ∑ m ∈ Finset.range n, D (j + m) c * (x - c) ^ m / (m ! : ℝ)

theorem hasDerivAt_taylorSum (D : ℕ → ℝ → ℝ) (c : ℝ) (j n : ℕ) (x : ℝ) :
    HasDerivAt (taylorSum D c j (n + 1)) (taylorSum D c (j + 1) n x) x := by
  unfold taylorSum
  have h : ∀ m ∈ Finset.range (n + 1), HasDerivAt (fun x => D (j + m) c * (x - c) ^ m / (m ! : ℝ))
      (D (j + m) c * (m * (x - c) ^ (m - 1)) / (m ! : ℝ)) x := by
    intro m _
    have h1 : HasDerivAt (fun x => (x - c) ^ m) (m * (x - c) ^ (m - 1)) x :=
      (((hasDerivAt_id x).sub_const c).fun_pow m).congr_deriv (by simp)
    exact (h1.const_mul _).div_const _
  refine (HasDerivAt.fun_sum h).congr_deriv ?_
  rw [Finset.sum_range_succ']
  simp only [Nat.cast_zero, zero_mul, mul_zero, zero_div, add_zero]
  refine Finset.sum_congr rfl (fun m _ => ?_)
  rw [Nat.add_sub_cancel, Nat.factorial_succ, show j + (m + 1) = j + 1 + m by ring]
  have h1 : ((m : ℝ) + 1) ≠ 0 := by positivity
  have h2 : (m ! : ℝ) ≠ 0 := by positivity
  push_cast
  field_simp

/-- The remainder of order `n` is bounded by `M |x - c|^n`. -/
theorem taylor_bound {M a b c : ℝ} {D : ℕ → ℝ → ℝ} (hc : c ∈ Set.Icc a b)
    (hD : ∀ j < 16, ∀ x ∈ Set.Icc a b, HasDerivWithinAt (D j) (D (j + 1) x) (Set.Icc a b) x)
    (hM : ∀ j ≤ 16, ∀ x ∈ Set.Icc a b, |D j x| ≤ M) (n : ℕ) (hn : n ≤ 16) :
    ∀ j, j + n = 16 → ∀ x ∈ Set.Icc a b, |D j x - taylorSum D c j n x| ≤ M * |x - c| ^ n := by
  induction n with
  | zero =>
    intro j hj x hx
    simpa [taylorSum] using hM j (by omega) x hx
  | succ n ih =>
    intro j hj x hx
    have ih := ih (by omega) (j + 1) (by omega)
    have hM0 : 0 ≤ M := (abs_nonneg _).trans (hM 0 (by omega) x hx)
    have hsub : Set.uIcc c x ⊆ Set.Icc a b := Set.uIcc_subset_Icc hc hx
    have key := (convex_uIcc c x).norm_image_sub_le_of_norm_hasDerivWithin_le (f := fun t => D j t - taylorSum D c j (n + 1) t)
      (f' := fun t => D (j + 1) t - taylorSum D c (j + 1) n t) (C := M * |x - c| ^ n) (x := c) (y := x)
      (fun t ht => ((hD j (by omega) t (hsub ht)).mono hsub).sub (hasDerivAt_taylorSum D c j n t).hasDerivWithinAt)
      (fun t ht => by
        rw [Real.norm_eq_abs]
        refine (ih t (hsub ht)).trans ?_
        refine mul_le_mul_of_nonneg_left (pow_le_pow_left₀ (abs_nonneg _) ?_ n) hM0
        exact Set.abs_sub_left_of_mem_uIcc ht)
      Set.left_mem_uIcc Set.right_mem_uIcc
    have h0 : taylorSum D c j (n + 1) c = D j c := by
      unfold taylorSum
      rw [Finset.sum_range_succ']
      simp
    simp only [h0, sub_self, sub_zero, Real.norm_eq_abs] at key
    rw [pow_succ, ← mul_assoc]
    exact key

/-- Sixteen times continuously differentiable functions with bounded derivatives meet the definition. -/
theorem SmoothOn.of_contDiffOn {M : ℝ} {W : ℝ → ℝ} {a b : ℝ} (hab : a < b) (hW : ContDiffOn ℝ 16 W (Set.Icc a b))
    (hM : ∀ j ≤ 16, ∀ x ∈ Set.Icc a b, |iteratedDerivWithin j W (Set.Icc a b) x| ≤ M) : SmoothOn M W a b := by
  refine ⟨fun j => iteratedDerivWithin j W (Set.Icc a b), fun x _ => by simp, fun j hj x hx => ?_, hM⟩
  have := (hW.differentiableOn_iteratedDerivWithin (m := j) (by exact_mod_cast hj) (uniqueDiffOn_Icc hab)) x hx
  exact this.hasDerivWithinAt.congr_deriv (by simp only [iteratedDerivWithin_succ])

theorem SmoothOn.continuousOn {M : ℝ} {W : ℝ → ℝ} {a b : ℝ} (h : SmoothOn M W a b) : ContinuousOn W (Set.Icc a b) := by
  obtain ⟨D, h0, h1, _⟩ := h
  refine ContinuousOn.congr (f := D 0) (fun x hx => (h1 0 (by norm_num) x hx).continuousWithinAt) (fun x hx => (h0 x hx).symm)

theorem SmoothOn.mono {M : ℝ} {W : ℝ → ℝ} {a b c d : ℝ} (h : SmoothOn M W a b) (hc : a ≤ c) (hd : d ≤ b) : SmoothOn M W c d := by
  obtain ⟨D, h0, h1, h2⟩ := h
  have hs : Set.Icc c d ⊆ Set.Icc a b := Set.Icc_subset_Icc hc hd
  exact ⟨D, fun x hx => h0 x (hs hx), fun j hj x hx => (h1 j hj x (hs hx)).mono hs, fun j hj x hx => h2 j hj x (hs hx)⟩

theorem SmoothOn.bound {M : ℝ} {W : ℝ → ℝ} {a b : ℝ} (h : SmoothOn M W a b) {x : ℝ} (hx : x ∈ Set.Icc a b) : |W x| ≤ M := by
  obtain ⟨D, h0, _, h2⟩ := h
  rw [← h0 x hx]; exact h2 0 (by norm_num) x hx

/-- Reflection. -/
theorem SmoothOn.reflect {M : ℝ} {W : ℝ → ℝ} {a b : ℝ} (h : SmoothOn M W a b) : SmoothOn M (fun x => W (a + b - x)) a b := by
  obtain ⟨D, h0, h1, h2⟩ := h
  have hm : Set.MapsTo (fun x => a + b - x) (Set.Icc a b) (Set.Icc a b) := fun x hx => ⟨by linarith [hx.2], by linarith [hx.1]⟩
  refine ⟨fun j x => (-1) ^ j * D j (a + b - x), fun x hx => by simpa using h0 _ (hm hx), fun j hj x hx => ?_, fun j hj x hx => ?_⟩
  · have hd : HasDerivWithinAt (fun x => a + b - x) (-1) (Set.Icc a b) x := ((hasDerivAt_id x).const_sub (a + b)).hasDerivWithinAt
    exact (((h1 j hj _ (hm hx)).comp x hd hm).const_mul _).congr_deriv (by dsimp only; rw [pow_succ]; ring)
  · rw [abs_mul, abs_pow, abs_neg, abs_one, one_pow, one_mul]
    exact h2 j hj _ (hm hx)

end Verif
