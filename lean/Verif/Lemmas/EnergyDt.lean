import Verif.Lemmas.EnergyStep
import Verif.Lemmas.EnergyLocal

/-!
# The computed energy derivative of one step is near the exact one
-/
namespace Verif.CalcT
open Verif.YT Verif.Formulas Verif.PL Verif.Legendre
open scoped BigOperators

/-- the part outside the sum, exact -/
noncomputable def preZ (p : Cp) (u δ : ℝ) : ℝ := match p with
  | .c => D * (δ * Eta.eta 1 (u * δ ^ 2) + u * δ * (δ ^ 2 / 2 * Eta.eta 2 (u * δ ^ 2)))
  | _ => 0

set_option maxHeartbeats 1000000 in
/-- The computed second member against the derivative of the certified tables, at nearby coefficients. -/
theorem body_dt_close (p : Cp) {N : ℕ} (hN : 3 ≤ N) {hor : ℕ → M2 ℝ} {e : ℕ → ℝ} {f : ℕ → PL} {v w : ℕ → ℝ} {h δ u B P σ t : ℝ}
    (hB : 1 ≤ B) (h0 : 0 < h) (h1 : h ≤ 1) (hδ : δ ∈ Set.Icc 0 h) (hu : |u| ≤ B) (hσ1 : σ ≤ 1) (hw : ∀ k, 1 ≤ k → |w k| ≤ B)
    (vB : ∀ k, 1 ≤ k → |v k| * h ^ k ≤ B) (wB : ∀ k, 1 ≤ k → |w k| * h ^ k ≤ B) (vd : ∀ k, 1 ≤ k → |v k - w k| * h ^ k ≤ t)
    (he : ∀ i < N, |e i - Eta.eta i (u * (δ * δ))| ≤ σ) (hf : ∀ i, p.of (hor i) = eval v h (δ / h) (f i) / D)
    (hg : ∀ i < N, Good 0 (f i)) (hh : ∀ i < N, Hom 1 (f i)) (hP : ∀ i < N, bnd B (f i) + bndD B (f i) ≤ P) (hl : ∀ m ∈ f (N - 1), 15 ≤ m.ord) :
    |p.of (body N hor e u δ).dt - -((preZ p u δ + UZ N f w h u δ) / D)| ≤ (B + 1 + N * (P * (Real.exp B + 2))) * (h ^ 17 + h * t + σ) := by
  have t0 : 0 ≤ t := le_trans (by positivity) (vd 1 le_rfl)
  have hσ : 0 ≤ σ := (abs_nonneg _).trans (he 0 (by omega))
  have s0 : 0 ≤ δ / h := div_nonneg hδ.1 h0.le
  have s1 : δ / h ≤ 1 := (div_le_one h0).mpr hδ.2
  have δ1 : δ ≤ 1 := hδ.2.trans h1
  have δ0 := hδ.1
  have hB0 : 0 ≤ B := by linarith
  have ex := Real.exp_pos B
  have sq : δ * δ = δ ^ 2 := by ring
  have dd1 : δ ^ 2 ≤ 1 := pow_le_one₀ δ0 δ1
  have dd0 : 0 ≤ δ ^ 2 := by positivity
  have ddh : δ ^ 2 ≤ h ^ 2 := pow_le_pow_left₀ δ0 hδ.2 2
  have hz : |u * δ ^ 2| ≤ B := by
    rw [abs_mul, abs_of_nonneg dd0]
    have := abs_nonneg u
    nlinarith
  have heta : ∀ i, |Eta.eta i (u * δ ^ 2)| ≤ Real.exp B := fun i => (abs_eta_le i _).trans (Real.exp_le_exp.mpr hz)
  rw [sq] at he
  have heb : ∀ i < N, |e i| ≤ Real.exp B + 1 := by
    intro i hi
    have e3 : e i = (e i - Eta.eta i (u * δ ^ 2)) + Eta.eta i (u * δ ^ 2) := by ring
    rw [e3]
    have := he i hi
    have := heta i
    exact (abs_add_le _ _).trans (by linarith)
  have hb0 : ∀ i < N, 0 ≤ bnd B (f i) ∧ 0 ≤ bndD B (f i) := fun i _ => ⟨bnd_nonneg hB0 _, bndD_nonneg hB0 _⟩
  have hP0 : 0 ≤ P := by have := hb0 0 (by omega); linarith [hP 0 (by omega), this.1, this.2]
  set S := h ^ 17 + h * t + σ with hS
  have hS0 : 0 ≤ S := by positivity
  have term : ∀ j ∈ Finset.range N, |(if j + 1 < N then p.of (hor j) * (-(δ * δ) * e (j + 1) / 2) else 0) +
      eval w h (δ / h) (f j) * (δ ^ 2 / 2 * Eta.eta (j + 1) (u * δ ^ 2)) / D| ≤ P * (Real.exp B + 2) * S := by
    intro j hj
    have hj := Finset.mem_range.mp hj
    have k1 := eval_diff h0.le h1 s0 s1 hB vB wB vd (f j) (hh j hj) (hg j hj)
    rw [pow_one] at k1
    have b2 := (hb0 j hj).2
    have b1 := (hb0 j hj).1
    have bP := hP j hj
    have lD := D_ge
    have pD := D_pos
    split
    · rename_i hjN
      have k2 := eval_bound0 (hg j hj) hB hw h0 h1 hδ
      have e1 : p.of (hor j) * (-(δ * δ) * e (j + 1) / 2) + eval w h (δ / h) (f j) * (δ ^ 2 / 2 * Eta.eta (j + 1) (u * δ ^ 2)) / D =
          -(δ ^ 2 / 2 * (((eval v h (δ / h) (f j) - eval w h (δ / h) (f j)) * e (j + 1) + eval w h (δ / h) (f j) * (e (j + 1) - Eta.eta (j + 1) (u * δ ^ 2))) / D)) := by
        rw [hf]; ring
      rw [e1, abs_neg, abs_mul, abs_of_nonneg (by positivity : 0 ≤ δ ^ 2 / 2), abs_div, abs_of_pos pD]
      have c1 : |(eval v h (δ / h) (f j) - eval w h (δ / h) (f j)) * e (j + 1)| ≤ P * (h * t) * (Real.exp B + 1) := by
        rw [abs_mul]
        refine mul_le_mul (k1.trans (mul_le_mul_of_nonneg_right (by linarith) (by positivity))) (heb _ hjN) (abs_nonneg _) (by positivity)
      have c2 : |eval w h (δ / h) (f j) * (e (j + 1) - Eta.eta (j + 1) (u * δ ^ 2))| ≤ P * σ := by
        rw [abs_mul]
        exact mul_le_mul (k2.trans (by linarith)) (he _ hjN) (abs_nonneg _) hP0
      have c3 := (abs_add_le _ _).trans (add_le_add c1 c2)
      set X := |(eval v h (δ / h) (f j) - eval w h (δ / h) (f j)) * e (j + 1) + eval w h (δ / h) (f j) * (e (j + 1) - Eta.eta (j + 1) (u * δ ^ 2))| with hX
      have X0 : 0 ≤ X := abs_nonneg _
      have c4 : δ ^ 2 / 2 * (X / D) ≤ 1 * X := mul_le_mul (by linarith) (div_le_self X0 lD) (by positivity) zero_le_one
      have c5 : P * (Real.exp B + 2) * S = P * (h * t) * (Real.exp B + 1) + P * σ + P * (h * t) + P * (Real.exp B + 1) * σ + P * (Real.exp B + 2) * h ^ 17 := by
        rw [hS]; ring
      have c6 : 0 ≤ P * (h * t) + P * (Real.exp B + 1) * σ + P * (Real.exp B + 2) * h ^ 17 := by positivity
      linarith
    · rename_i hjN
      have hj' : j = N - 1 := by omega
      have k2 := eval_bound hB hw h0.le h1 s0 s1 (N := 15) (p := 0) (f j) (by rw [hj']; exact hl) (hg j hj)
      rw [pow_zero, mul_one] at k2
      rw [zero_add, abs_div, abs_of_pos pD, abs_mul, abs_mul, abs_of_nonneg (by positivity : 0 ≤ δ ^ 2 / 2)]
      have c1 : δ ^ 2 / 2 * |Eta.eta (j + 1) (u * δ ^ 2)| ≤ h ^ 2 * Real.exp B := mul_le_mul (by linarith) (heta _) (abs_nonneg _) (by positivity)
      have c2 : |eval w h (δ / h) (f j)| * (δ ^ 2 / 2 * |Eta.eta (j + 1) (u * δ ^ 2)|) ≤ (P * h ^ 15) * (h ^ 2 * Real.exp B) :=
        mul_le_mul (k2.trans (mul_le_mul_of_nonneg_right (by linarith) (by positivity))) c1 (by positivity) (by positivity)
      have c3 : |eval w h (δ / h) (f j)| * (δ ^ 2 / 2 * |Eta.eta (j + 1) (u * δ ^ 2)|) / D ≤ |eval w h (δ / h) (f j)| * (δ ^ 2 / 2 * |Eta.eta (j + 1) (u * δ ^ 2)|) :=
        div_le_self (by positivity) lD
      have c5 : P * (Real.exp B + 2) * S = (P * h ^ 15) * (h ^ 2 * Real.exp B) + (2 * P * h ^ 17 + P * (Real.exp B + 2) * (h * t + σ)) := by
        rw [hS]; ring
      have c6 : 0 ≤ 2 * P * h ^ 17 + P * (Real.exp B + 2) * (h * t + σ) := by positivity
      linarith
  have sum := (Finset.abs_sum_le_sum_abs _ _).trans (Finset.sum_le_sum term)
  rw [Finset.sum_add_distrib, Finset.sum_const, Finset.card_range, nsmul_eq_mul, ← Finset.sum_div] at sum
  rw [body_dt]
  unfold UZ
  have e2 : ∀ A B' C' D' : ℝ, A + B' - -((C' + D') / D) = (A + C' / D) + (B' + D' / D) := by intros; ring
  rw [e2]
  have e3 : (B + 1 + N * (P * (Real.exp B + 2))) * S = (B + 1) * S + N * (P * (Real.exp B + 2) * S) := by ring
  rw [e3]
  refine (abs_add_le _ _).trans (add_le_add ?_ sum)
  have hSσ : σ ≤ S := by
    have : 0 ≤ h ^ 17 + h * t := by positivity
    rw [hS]; linarith
  cases p with
  | c =>
    simp only [preZ]
    rw [mul_div_cancel_left₀ _ D_pos.ne']
    have a1 := he 1 (by omega)
    have a2 := he 2 (by omega)
    have e1 : -δ * e 1 - u * (δ * δ) * δ * e 2 / 2 + (δ * Eta.eta 1 (u * δ ^ 2) + u * δ * (δ ^ 2 / 2 * Eta.eta 2 (u * δ ^ 2))) =
      -(δ * (e 1 - Eta.eta 1 (u * δ ^ 2)) + (u * δ ^ 2) * (δ / 2) * (e 2 - Eta.eta 2 (u * δ ^ 2))) := by ring
    rw [e1, abs_neg]
    refine (abs_add_le _ _).trans ?_
    have b1 : |δ * (e 1 - Eta.eta 1 (u * δ ^ 2))| ≤ 1 * σ := by
      rw [abs_mul, abs_of_nonneg δ0]; exact mul_le_mul δ1 a1 (abs_nonneg _) zero_le_one
    have b2 : |(u * δ ^ 2) * (δ / 2) * (e 2 - Eta.eta 2 (u * δ ^ 2))| ≤ (B * 1) * σ := by
      rw [abs_mul, abs_mul, abs_of_nonneg (by positivity : 0 ≤ δ / 2)]
      exact mul_le_mul (mul_le_mul hz (by linarith) (by positivity) hB0) a2 (abs_nonneg _) (by positivity)
    have b3 := mul_le_mul_of_nonneg_left hSσ (show 0 ≤ B + 1 by linarith)
    linarith
  | a => simp [preZ]; positivity
  | b => simp [preZ]; positivity
  | d => simp [preZ]; positivity

end Verif.CalcT
