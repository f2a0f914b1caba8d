import Verif.Lemmas.MeshOde

/-!
# How the mismatch at the right end point depends on the energy
-/
namespace Verif
open Verif.Mesh Verif.Spec

theorem quad_lower {y0 d0 ℓ : ℝ} (h0 : 0 < ℓ) (h1 : ℓ ≤ 1) :
    ℓ ^ 3 / 12 * sz (y0, d0) ^ 2 ≤ y0 ^ 2 * ℓ + y0 * d0 * ℓ ^ 2 + d0 ^ 2 * ℓ ^ 3 / 3 := by
  have hy : ℓ ^ 3 / 12 * y0 ^ 2 ≤ y0 ^ 2 * ℓ + y0 * d0 * ℓ ^ 2 + d0 ^ 2 * ℓ ^ 3 / 3 := by
    have e : y0 ^ 2 * ℓ + y0 * d0 * ℓ ^ 2 + d0 ^ 2 * ℓ ^ 3 / 3 = ℓ * (y0 ^ 2 / 4 + (3 / 2 * y0 + d0 * ℓ) ^ 2 / 3) := by ring
    have e2 : ℓ ^ 3 ≤ ℓ := by
      calc ℓ ^ 3 = ℓ * ℓ ^ 2 := by ring
        _ ≤ ℓ * 1 := mul_le_mul_of_nonneg_left (pow_le_one₀ h0.le h1) h0.le
        _ = ℓ := by ring
    rw [e]
    have a1 : ℓ ^ 3 / 12 * y0 ^ 2 ≤ ℓ / 12 * y0 ^ 2 := mul_le_mul_of_nonneg_right (by linarith) (sq_nonneg _)
    have a2 : 0 ≤ ℓ * ((3 / 2 * y0 + d0 * ℓ) ^ 2 / 3) := by positivity
    have a3 : 0 ≤ ℓ * y0 ^ 2 := by positivity
    linarith only [a1, a2, a3, mul_add ℓ (y0 ^ 2 / 4) ((3 / 2 * y0 + d0 * ℓ) ^ 2 / 3), mul_div_assoc ℓ (y0 ^ 2) 4, mul_div_right_comm ℓ (y0 ^ 2) 12]
  have hd : ℓ ^ 3 / 12 * d0 ^ 2 ≤ y0 ^ 2 * ℓ + y0 * d0 * ℓ ^ 2 + d0 ^ 2 * ℓ ^ 3 / 3 := by
    have e : y0 ^ 2 * ℓ + y0 * d0 * ℓ ^ 2 + d0 ^ 2 * ℓ ^ 3 / 3 = ℓ * (y0 + d0 * ℓ / 2) ^ 2 + ℓ ^ 3 / 12 * d0 ^ 2 := by ring
    rw [e]
    have : 0 ≤ ℓ * (y0 + d0 * ℓ / 2) ^ 2 := by positivity
    linarith
  unfold sz
  rcases le_total |y0| |d0| with h | h
  · rw [max_eq_right h, sq_abs]; exact hd
  · rw [max_eq_left h, sq_abs]; exact hy

/-- A solution is not small in the mean. -/
theorem norm_lower {q : ℝ → ℝ} {a b K B ℓ : ℝ} {y dy : ℝ → ℝ} (hy : SolvesR q a b y dy) (hK : 0 ≤ K) (hB : 0 ≤ B)
    (hq : ∀ x ∈ Set.Ico a b, |q x| ≤ K) (hb : ∀ x ∈ Set.Ico a b, |y x| ≤ B) (h0 : 0 < ℓ) (h1 : ℓ ≤ 1) (hl : a + ℓ ≤ b)
    (hs : 48 * (K * B * ℓ) ^ 2 ≤ sz (y a, dy a) ^ 2) : ℓ ^ 3 / 48 * sz (y a, dy a) ^ 2 ≤ ∫ t in a..b, y t * y t := by
  have hKB : 0 ≤ K * B := mul_nonneg hK hB
  have sub : Set.Icc a (a + ℓ) ⊆ Set.Icc a b := Set.Icc_subset_Icc_right hl
  have sub' : ∀ t ∈ Set.Ico a (a + ℓ), t ∈ Set.Ico a b := fun t ht => ⟨ht.1, ht.2.trans_le hl⟩
  have d1 : ∀ x ∈ Set.Icc a (a + ℓ), |dy x - dy a| ≤ K * B * ℓ := by
    intro x hx
    have := norm_image_sub_le_of_norm_deriv_right_le_segment (f := dy) (f' := fun t => q t * y t) (C := K * B) (hy.c2.mono sub)
      (fun t ht => hy.d2 t (sub' t ht)) (fun t ht => by
        rw [Real.norm_eq_abs, abs_mul]
        exact mul_le_mul (hq t (sub' t ht)) (hb t (sub' t ht)) (abs_nonneg _) hK) x hx
    rw [Real.norm_eq_abs] at this
    exact this.trans (mul_le_mul_of_nonneg_left (by linarith [hx.2]) hKB)
  have r : ∀ x ∈ Set.Icc a (a + ℓ), |y x - (y a + dy a * (x - a))| ≤ K * B * ℓ ^ 2 := by
    intro x hx
    have := norm_image_sub_le_of_norm_deriv_right_le_segment (f := fun t => y t - dy a * (t - a)) (f' := fun t => dy t - dy a) (C := K * B * ℓ)
      ((hy.c1.mono sub).sub (by fun_prop))
      (fun t ht => by
        have hd := ((hasDerivAt_id t).sub_const a).const_mul (dy a)
        exact ((hy.d1 t (sub' t ht)).sub hd.hasDerivWithinAt).congr_deriv (by ring))
      (fun t ht => by rw [Real.norm_eq_abs]; exact d1 t ⟨ht.1, ht.2.le⟩) x hx
    rw [Real.norm_eq_abs] at this
    have e : y x - (y a + dy a * (x - a)) = y x - dy a * (x - a) - (y a - dy a * (a - a)) := by ring
    rw [e]
    refine this.trans ?_
    calc K * B * ℓ * (x - a) ≤ K * B * ℓ * ℓ := mul_le_mul_of_nonneg_left (by linarith [hx.2]) (by positivity)
      _ = K * B * ℓ ^ 2 := by ring
  set c := (K * B * ℓ ^ 2) ^ 2 with hc
  have low : ∀ x ∈ Set.Icc a (a + ℓ), (y a + dy a * (x - a)) ^ 2 / 2 - c ≤ y x * y x := by
    intro x hx
    have h := r x hx
    set p := y a + dy a * (x - a)
    have h2 : (y x - p) ^ 2 ≤ c := by
      rw [hc, ← sq_abs (y x - p)]
      exact pow_le_pow_left₀ (abs_nonneg _) h 2
    have e : y x * y x + (y x - p) ^ 2 - p ^ 2 / 2 = 2 * (y x - p / 2) ^ 2 := by ring
    have := sq_nonneg (y x - p / 2)
    linarith only [h2, e, this]
  have cyy : ContinuousOn (fun t => y t * y t) (Set.Icc a b) := hy.c1.mul hy.c1
  have i1 : IntervalIntegrable (fun t => y t * y t) MeasureTheory.volume a (a + ℓ) :=
    ContinuousOn.intervalIntegrable (by rw [Set.uIcc_of_le (by linarith)]; exact cyy.mono sub)
  have i2 : IntervalIntegrable (fun t => y t * y t) MeasureTheory.volume (a + ℓ) b :=
    ContinuousOn.intervalIntegrable (by rw [Set.uIcc_of_le hl]; exact cyy.mono (Set.Icc_subset_Icc_left (by linarith)))
  rw [← intervalIntegral.integral_add_adjacent_intervals i1 i2]
  have p2 : 0 ≤ ∫ t in (a + ℓ)..b, y t * y t := intervalIntegral.integral_nonneg hl (fun t _ => mul_self_nonneg _)
  have p1 : (∫ t in a..(a + ℓ), ((y a + dy a * (t - a)) ^ 2 / 2 - c)) ≤ ∫ t in a..(a + ℓ), y t * y t :=
    intervalIntegral.integral_mono_on (by linarith) (Continuous.intervalIntegrable (by fun_prop) _ _) i1 low
  have ev : (∫ t in a..(a + ℓ), ((y a + dy a * (t - a)) ^ 2 / 2 - c)) =
      (y a ^ 2 * ℓ + y a * dy a * ℓ ^ 2 + dy a ^ 2 * ℓ ^ 3 / 3) / 2 - c * ℓ := by
    have := intervalIntegral.integral_eq_sub_of_hasDerivAt (a := a) (b := a + ℓ)
      (f := fun t => (y a ^ 2 * (t - a) + y a * dy a * (t - a) ^ 2 + dy a ^ 2 * (t - a) ^ 3 / 3) / 2 - c * (t - a))
      (f' := fun t => (y a + dy a * (t - a)) ^ 2 / 2 - c)
      (fun t _ => by
        have h := (hasDerivAt_id t).sub_const a
        have := ((((h.const_mul (y a ^ 2)).add ((h.fun_pow 2).const_mul (y a * dy a))).add (((h.fun_pow 3).const_mul (dy a ^ 2)).div_const 3)).div_const 2).sub (h.const_mul c)
        exact this.congr_deriv (by simp only [id]; push_cast; ring))
      (Continuous.intervalIntegrable (by fun_prop) _ _)
    rw [this]; ring
  rw [ev] at p1
  have ql := quad_lower (y0 := y a) (d0 := dy a) h0 h1
  have e3 : c * ℓ = ℓ ^ 3 * (K * B * ℓ) ^ 2 := by rw [hc]; ring
  have e4 : ℓ ^ 3 * (48 * (K * B * ℓ) ^ 2) ≤ ℓ ^ 3 * sz (y a, dy a) ^ 2 := mul_le_mul_of_nonneg_left hs (by positivity)
  have e5 : 0 ≤ ℓ ^ 3 * sz (y a, dy a) ^ 2 := by positivity
  rw [e3] at p1
  linarith only [p1, p2, ql, e4, e5]

end Verif
