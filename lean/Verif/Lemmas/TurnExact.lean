import Verif.Lemmas.Flow
import Verif.Spec.LegendreCoeff
import Mathlib.MeasureTheory.Integral.IntervalIntegral.FundThmCalculus
import Mathlib.Analysis.SpecialFunctions.Integrals.Basic

/-!
# The direction of the solution over a short interval

`z(b) z'(a) - z(a) z'(b)` measures the turn of `(z', z)` between `a` and `b`. On a short interval it is positive when `z'` dominates, and
at least proportional to the energy above the mean potential otherwise.
-/
namespace Verif
open MeasureTheory intervalIntegral

theorem exp_le_two {x : ℝ} (h : x ≤ 1 / 2) : Real.exp x ≤ 2 := by
  have h1 := Real.add_one_le_exp (-x)
  have h2 : 0 < Real.exp (-x) := Real.exp_pos _
  have h3 : Real.exp x * Real.exp (-x) = 1 := by rw [← Real.exp_add]; simp
  have h4 := Real.exp_pos x
  nlinarith

section
variable {V : ℝ → ℝ} {E a b K : ℝ} {z dz : ℝ → ℝ}

theorem short_bound (hK : 1 ≤ K) (hq : ∀ x ∈ Set.Icc a b, |V x - E| ≤ K) (hs : SolvesOn V E a b z dz)
    (h : 2 * K * (b - a) ≤ 1) {x : ℝ} (hx : x ∈ Set.Icc a b) : sz (z x, dz x) ≤ 2 * sz (z a, dz a) := by
  have := flow_bound hK hq hs (x := a) (x' := x) ⟨le_rfl, hx.1.trans hx.2⟩ hx
  refine this.trans (mul_le_mul_of_nonneg_right (exp_le_two ?_) (sz_nonneg _))
  rw [abs_of_nonneg (by linarith [hx.1])]
  nlinarith [hx.2]

theorem short_first (hK : 1 ≤ K) (hq : ∀ x ∈ Set.Icc a b, |V x - E| ≤ K) (hs : SolvesOn V E a b z dz)
    (h : 2 * K * (b - a) ≤ 1) {x : ℝ} (hx : x ∈ Set.Icc a b) :
    |z x - z a| ≤ 2 * sz (z a, dz a) * (x - a) ∧ |dz x - dz a| ≤ 2 * K * sz (z a, dz a) * (x - a) := by
  have ha : a ∈ Set.Icc a b := ⟨le_rfl, hx.1.trans hx.2⟩
  constructor
  · have := (convex_Icc a b).norm_image_sub_le_of_norm_hasDerivWithin_le (f := z) (f' := dz) (C := 2 * sz (z a, dz a))
      (fun t ht => hs.d1 t ht) (fun t ht => (le_sz2 (z t, dz t)).trans (short_bound hK hq hs h ht)) ha hx
    simpa [Real.norm_eq_abs, abs_of_nonneg (show 0 ≤ x - a by linarith [hx.1])] using this
  · have := (convex_Icc a b).norm_image_sub_le_of_norm_hasDerivWithin_le (f := dz) (f' := fun t => (V t - E) * z t) (C := 2 * K * sz (z a, dz a))
      (fun t ht => hs.d2 t ht) (fun t ht => by
        have h1 := hq t ht
        have h2 := (le_sz1 (z t, dz t)).trans (short_bound hK hq hs h ht)
        rw [Real.norm_eq_abs, abs_mul]
        calc |V t - E| * |z t| ≤ K * (2 * sz (z a, dz a)) := mul_le_mul h1 h2 (abs_nonneg _) (by linarith)
          _ = _ := by ring) ha hx
    simpa [Real.norm_eq_abs, abs_of_nonneg (show 0 ≤ x - a by linarith [hx.1])] using this

theorem short_second (hK : 1 ≤ K) (hq : ∀ x ∈ Set.Icc a b, |V x - E| ≤ K) (hs : SolvesOn V E a b z dz)
    (h : 2 * K * (b - a) ≤ 1) (hab : a ≤ b) : |z b - z a - (b - a) * dz a| ≤ 2 * K * sz (z a, dz a) * (b - a) ^ 2 := by
  have ha : a ∈ Set.Icc a b := ⟨le_rfl, hab⟩
  have hb : b ∈ Set.Icc a b := ⟨hab, le_rfl⟩
  have s0 := sz_nonneg (z a, dz a)
  have := (convex_Icc a b).norm_image_sub_le_of_norm_hasDerivWithin_le (f := fun t => z t - t * dz a) (f' := fun t => dz t - 1 * dz a)
      (C := 2 * K * sz (z a, dz a) * (b - a))
      (fun t ht => (hs.d1 t ht).sub ((hasDerivWithinAt_id t _).mul_const (dz a))) (fun t ht => by
        rw [one_mul, Real.norm_eq_abs]
        refine (short_first hK hq hs h ht).2.trans (mul_le_mul_of_nonneg_left ?_ (by positivity))
        linarith [ht.2]) ha hb
  rw [Real.norm_eq_abs, Real.norm_eq_abs, abs_of_nonneg (show 0 ≤ b - a by linarith)] at this
  have e : z b - b * dz a - (z a - a * dz a) = z b - z a - (b - a) * dz a := by ring
  rw [e] at this
  refine this.trans (le_of_eq ?_)
  ring

/-- The derivative dominates: the direction turns upwards. -/
theorem turn_steep (hK : 1 ≤ K) (hq : ∀ x ∈ Set.Icc a b, |V x - E| ≤ K) (hs : SolvesOn V E a b z dz)
    (h : 16 * K * (b - a) ≤ 1) (hab : a ≤ b) (hst : 16 * K * |z a| ≤ |dz a|) :
    3 / 4 * ((b - a) * dz a ^ 2) ≤ z b * dz a - z a * dz b := by
  have h2 : 2 * K * (b - a) ≤ 1 := by nlinarith
  have a0 := abs_nonneg (z a)
  have s : sz (z a, dz a) = |dz a| := max_eq_right (by show |z a| ≤ |dz a|; nlinarith)
  have r1 := short_second hK hq hs h2 hab
  have r2 := (short_first hK hq hs h2 (x := b) ⟨hab, le_rfl⟩).2
  rw [s] at r1 r2
  set u := b - a with hu
  have u0 : 0 ≤ u := by linarith
  set R := z b - z a - u * dz a
  set R' := dz b - dz a
  have e : z b * dz a - z a * dz b = u * dz a ^ 2 + R * dz a - z a * R' := by simp only [R, R']; ring
  have b1 : |R * dz a| ≤ u * dz a ^ 2 / 8 := by
    rw [abs_mul]
    have q2 := sq_abs (dz a)
    calc |R| * |dz a| ≤ 2 * K * |dz a| * u ^ 2 * |dz a| := mul_le_mul_of_nonneg_right r1 (abs_nonneg _)
      _ = 2 * K * u * (u * |dz a| ^ 2) := by ring
      _ ≤ 1 / 8 * (u * |dz a| ^ 2) := mul_le_mul_of_nonneg_right (by linarith) (by positivity)
      _ = _ := by rw [q2]; ring
  have b2 : |z a * R'| ≤ u * dz a ^ 2 / 8 := by
    rw [abs_mul]
    have q2 := sq_abs (dz a)
    calc |z a| * |R'| ≤ |z a| * (2 * K * |dz a| * u) := mul_le_mul_of_nonneg_left r2 a0
      _ = (16 * K * |z a|) * (|dz a| * u / 8) := by ring
      _ ≤ |dz a| * (|dz a| * u / 8) := mul_le_mul_of_nonneg_right hst (by positivity)
      _ = u * |dz a| ^ 2 / 8 := by ring
      _ = _ := by rw [q2]
  have := (abs_le.mp b1).1
  have := (abs_le.mp b2).2
  rw [e]; linarith

/-- The value dominates: it keeps its sign, and the direction turns at least by the energy above the mean potential. -/
theorem turn_flat (hK : 1 ≤ K) (hV : ContinuousOn V (Set.Icc a b)) (hq : ∀ x ∈ Set.Icc a b, |V x - E| ≤ K) (hs : SolvesOn V E a b z dz)
    (h : 128 * K * (b - a) ≤ 1) (hab : a ≤ b) (hfl : |dz a| ≤ 16 * K * |z a|) (hz : z a ≠ 0) :
    3 / 4 * z a ^ 2 ≤ z a * z b ∧ z a * z b * ((b - a) * E - ∫ x in a..b, V x) ≤ z b * dz a - z a * dz b := by
  have h2 : 2 * K * (b - a) ≤ 1 := by nlinarith
  have a0 := abs_pos.mpr hz
  have s : sz (z a, dz a) ≤ 16 * K * |z a| := sz_le (by show |z a| ≤ _; nlinarith) hfl
  have near : ∀ x ∈ Set.Icc a b, |z x - z a| ≤ |z a| / 4 := by
    intro x hx
    refine (short_first hK hq hs h2 hx).1.trans ?_
    calc 2 * sz (z a, dz a) * (x - a) ≤ 2 * (16 * K * |z a|) * (b - a) := by
          refine mul_le_mul (by linarith) (by linarith [hx.2]) (by linarith [hx.1]) (by positivity)
      _ = 128 * K * (b - a) * (|z a| / 4) := by ring
      _ ≤ 1 * (|z a| / 4) := mul_le_mul_of_nonneg_right h (by positivity)
      _ = _ := one_mul _
  have sign : ∀ x ∈ Set.Icc a b, 3 / 4 * z a ^ 2 ≤ z a * z x := by
    intro x hx
    have h1 := near x hx
    have h3 : |z a * (z x - z a)| ≤ z a ^ 2 / 4 := by
      rw [abs_mul]
      calc |z a| * |z x - z a| ≤ |z a| * (|z a| / 4) := mul_le_mul_of_nonneg_left h1 (abs_nonneg _)
        _ = |z a| ^ 2 / 4 := by ring
        _ = _ := by rw [sq_abs]
    have := (abs_le.mp h3).1
    linarith
  have zsq : 0 < z a ^ 2 := by positivity
  have nz : ∀ x ∈ Set.Icc a b, z x ≠ 0 := by
    intro x hx h0
    have := sign x hx
    rw [h0, mul_zero] at this
    linarith
  refine ⟨sign b ⟨hab, le_rfl⟩, ?_⟩
  have cz : ContinuousOn z (Set.Icc a b) := fun x hx => (hs.d1 x hx).continuousWithinAt
  have cdz : ContinuousOn dz (Set.Icc a b) := fun x hx => (hs.d2 x hx).continuousWithinAt
  have cr : ContinuousOn (fun x => dz x / z x) (Set.Icc a b) := cdz.div cz nz
  have cf : ContinuousOn (fun x => V x - E - (dz x / z x) ^ 2) (Set.Icc a b) := (hV.sub continuousOn_const).sub (cr.pow 2)
  have ii : IntervalIntegrable (fun x => V x - E - (dz x / z x) ^ 2) volume a b := by
    refine ContinuousOn.intervalIntegrable ?_
    rwa [Set.uIcc_of_le hab]
  have iV : IntervalIntegrable (fun x => V x - E) volume a b := by
    refine ContinuousOn.intervalIntegrable ?_
    rw [Set.uIcc_of_le hab]
    exact hV.sub continuousOn_const
  have ftc := integral_eq_sub_of_hasDerivAt_of_le hab cr (f' := fun x => V x - E - (dz x / z x) ^ 2) (fun x hx => by
    have hx' := Set.Ioo_subset_Icc_self hx
    have nb : Set.Icc a b ∈ nhds x := Icc_mem_nhds hx.1 hx.2
    have n0 := nz x hx'
    refine (((hs.d2 x hx').hasDerivAt nb).div ((hs.d1 x hx').hasDerivAt nb) n0).congr_deriv ?_
    field_simp) ii
  have mono := integral_mono_on hab ii iV (fun x _ => by
    have := sq_nonneg (dz x / z x)
    linarith)
  rw [ftc] at mono
  have iV' : IntervalIntegrable V volume a b := by
    refine ContinuousOn.intervalIntegrable ?_
    rwa [Set.uIcc_of_le hab]
  rw [integral_sub iV' intervalIntegrable_const, intervalIntegral.integral_const, smul_eq_mul] at mono
  have zz : 0 < z a * z b := by have := sign b ⟨hab, le_rfl⟩; linarith
  have e : z b * dz a - z a * dz b = z a * z b * (dz a / z a - dz b / z b) := by
    have := nz b ⟨hab, le_rfl⟩
    field_simp
  rw [e]
  refine mul_le_mul_of_nonneg_left ?_ zz.le
  linarith

/-- The zeroth Legendre coefficient is the mean. -/
theorem legendreCoeff_zero_mean {f : ℝ → ℝ} (hab : a < b) : (b - a) * legendreCoeff f a b 0 = ∫ x in a..b, f x := by
  unfold legendreCoeff
  have e : ∀ t, f (a + (b - a) * t) * shiftedP 0 t = f (a + (b - a) * t) := by
    intro t; simp [shiftedP]
  simp only [e]
  have h := intervalIntegral.integral_comp_add_mul (a := (0 : ℝ)) (b := 1) (fun x => f x) (c := b - a) (by linarith : b - a ≠ 0) a
  rw [h]
  have : b - a ≠ 0 := by linarith
  simp only [mul_zero, add_zero, mul_one, add_sub_cancel, smul_eq_mul, Nat.cast_zero]
  field_simp
  ring_nf
end

end Verif
