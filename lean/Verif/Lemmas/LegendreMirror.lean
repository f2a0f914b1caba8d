import Verif.Lemmas.TaylorLegendre
import Mathlib.Analysis.SpecialFunctions.Integrals.Basic

/-! # Legendre coefficients of a mirrored function -/
namespace Verif.Legendre
open scoped BigOperators

theorem shiftedP_mirror {i : ℕ} (hi : i < 16) (x : ℝ) : shiftedP i (1 - x) = (-1) ^ i * shiftedP i x := by
  have key : ∀ m, ∀ i, i ≤ m → i < 16 → ∀ x : ℝ, shiftedP i (1 - x) = (-1) ^ i * shiftedP i x := by
    intro m
    induction m with
    | zero =>
      intro i hi _ x
      obtain rfl : i = 0 := by omega
      simp [shiftedP]
    | succ m ih =>
      intro i hi h16 x
      by_cases h : i ≤ m
      · exact ih i h h16 x
      · obtain rfl : i = m + 1 := by omega
        have r := C41_recurrence (i := m) (by omega)
        have e : ∀ k, k < 16 → ∀ x : ℝ, (∑ j ∈ Finset.range 16, (poly k j : ℝ) * x ^ j) = shiftedP k x := fun k hk x => (C41_table hk x).1
        have r1 := r x
        have r2 := r (1 - x)
        rw [e _ h16, e _ (by omega), e _ (by omega)] at r1 r2
        rw [ih m le_rfl (by omega), ih (m - 1) (by omega) (by omega)] at r2
        have hm : (m : ℝ) + 1 ≠ 0 := by positivity
        apply mul_left_cancel₀ hm
        rw [r2, mul_left_comm ((m : ℝ) + 1), r1]
        rcases Nat.eq_zero_or_pos m with rfl | hp
        · norm_num; ring
        · obtain ⟨k, rfl⟩ : ∃ k, m = k + 1 := ⟨m - 1, by omega⟩
          simp only [Nat.add_sub_cancel]
          push_cast
          ring
  exact key i i le_rfl hi x

theorem legendreCoeff_mirror (f : ℝ → ℝ) (a b : ℝ) {i : ℕ} (hi : i < 16) :
    legendreCoeff (fun x => f (a + b - x)) a b i = (-1) ^ i * legendreCoeff f a b i := by
  unfold legendreCoeff
  have h1 := intervalIntegral.integral_comp_sub_left (a := 0) (b := 1) (fun t : ℝ => f (a + (b - a) * t) * shiftedP i (1 - t)) 1
  have e1 : (fun t : ℝ => f (a + (b - a) * (1 - t)) * shiftedP i (1 - (1 - t))) = fun t => f (a + b - (a + (b - a) * t)) * shiftedP i t := by
    funext t; congr 2 <;> ring
  have e2 : (fun t : ℝ => f (a + (b - a) * t) * shiftedP i (1 - t)) = fun t => (-1) ^ i * (f (a + (b - a) * t) * shiftedP i t) := by
    funext t; rw [shiftedP_mirror hi]; ring
  rw [e2] at h1
  have h1' : ∫ t in (0 : ℝ)..1, f (a + b - (a + (b - a) * t)) * shiftedP i t = ∫ t in (0 : ℝ)..1, (-1) ^ i * (f (a + (b - a) * t) * shiftedP i t) := by
    rw [← e1]
    simp only [sub_self, sub_zero] at h1
    rw [← h1]
  rw [h1', intervalIntegral.integral_const_mul]
  ring

end Verif.Legendre
