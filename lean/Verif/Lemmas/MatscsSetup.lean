import Verif.Lemmas.MatscsLit
import Verif.Lemmas.MatscsStep
import Verif.Lemmas.LegendreMirror
import Verif.Lemmas.CPM

/-!
# A sector of a coupled system: coefficients and η functions
-/
namespace Verif.NP
open Verif.MFormulas Verif.Legendre
open scoped BigOperators

attribute [local instance] Matrix.linftyOpNormedAddCommGroup Matrix.linftyOpNormedSpace Matrix.linftyOpNormedRing Matrix.linftyOpNormedAlgebra

section
variable {n r : ℕ}

theorem orth_entry {Q : Mat n ℝ} (hQ : Q.transpose * Q = 1) (i j : Fin n) : |Q i j| ≤ 1 := by
  have h1 : (Q.transpose * Q) j j = 1 := by rw [hQ]; simp
  rw [Matrix.mul_apply] at h1
  have h2 : Q.transpose j i * Q i j ≤ ∑ k, Q.transpose j k * Q k j :=
    Finset.single_le_sum (f := fun k => Q.transpose j k * Q k j) (fun k _ => by rw [Matrix.transpose_apply]; exact mul_self_nonneg _) (Finset.mem_univ i)
  rw [h1, Matrix.transpose_apply] at h2
  rw [abs_le_one_iff_mul_self_le_one]
  exact h2

theorem norm_orth {Q : Mat n ℝ} (hQ : Q.transpose * Q = 1) : ‖Q‖ ≤ n ∧ ‖Q.transpose‖ ≤ n := by
  constructor
  · simpa using norm_le_entries (Y := Q) zero_le_one (fun i j => orth_entry hQ i j)
  · simpa using norm_le_entries (Y := Q.transpose) zero_le_one (fun i j => orth_entry hQ j i)

theorem norm_conj {Q X : Mat n ℝ} {c : ℝ} (hQ : Q.transpose * Q = 1) (hX : ‖X‖ ≤ c) : ‖Q * X * Q.transpose‖ ≤ n * c * n ∧ ‖Q.transpose * X * Q‖ ≤ n * c * n := by
  obtain ⟨h1, h2⟩ := norm_orth hQ
  have hn : (0 : ℝ) ≤ n := Nat.cast_nonneg _
  have hc : 0 ≤ c := (norm_nonneg _).trans hX
  constructor
  · exact (norm_mul_le _ _).trans (mul_le_mul ((norm_mul_le _ _).trans (mul_le_mul h1 hX (norm_nonneg _) hn)) h2 (norm_nonneg _) (by positivity))
  · exact (norm_mul_le _ _).trans (mul_le_mul ((norm_mul_le _ _).trans (mul_le_mul h2 hX (norm_nonneg _) hn)) h1 (norm_nonneg _) (by positivity))

theorem norm_diag_le {f : Fin n → ℝ} {c : ℝ} (hc : 0 ≤ c) (hf : ∀ j, |f j| ≤ c) : ‖Matrix.diagonal f‖ ≤ c := by
  rw [Matrix.linfty_opNorm_diagonal, pi_norm_le_iff_of_nonneg hc]
  exact hf

/-- the η functions in the original basis -/
noncomputable def etaM (Q : Mat n ℝ) (Z : Fin n → ℝ) (i : ℕ) (δ : ℝ) : Mat n ℝ := Q * Matrix.diagonal (fun j => Eta.eta i (Z j * δ ^ 2)) * Q.transpose

theorem etaFam {Q : Mat n ℝ} (hQ : Q.transpose * Q = 1) {Z : Fin n → ℝ} {v : ℕ → Mat n ℝ} (h9 : v 9 = Q * Matrix.diagonal Z * Q.transpose) : EtaFam v (etaM Q Z) := by
  constructor
  · intro i δ
    have h1 : HasDerivWithinAt (fun δ => (Matrix.diagonal (fun j => Eta.eta i (Z j * δ ^ 2)) : Mat n ℝ))
        (Matrix.diagonal (fun j => Z j * δ * Eta.eta (i + 1) (Z j * δ ^ 2))) Set.univ δ := by
      refine matrix_deriv (fun k l => ?_)
      by_cases hkl : k = l
      · subst hkl
        simp only [Matrix.diagonal_apply_eq]
        exact (PL.hasDerivAt_etaZ i (Z k) δ).hasDerivWithinAt
      · simp only [Matrix.diagonal_apply_ne _ hkl]
        exact hasDerivWithinAt_const _ _ _
    have h2 : HasDerivAt (etaM Q Z i) (Q * Matrix.diagonal (fun j => Z j * δ * Eta.eta (i + 1) (Z j * δ ^ 2)) * Q.transpose) δ :=
      (((hasDerivWithinAt_univ.mp h1).const_mul Q).mul_const Q.transpose)
    refine h2.congr_deriv ?_
    unfold etaM
    rw [h9, ← conj_mul hQ, Matrix.diagonal_mul_diagonal, ← Matrix.smul_mul, ← Matrix.mul_smul]
    congr 2
    ext k l
    by_cases hkl : k = l
    · subst hkl; simp; ring
    · simp [Matrix.diagonal_apply_ne _ hkl]
  · intro i δ
    unfold etaM
    rw [h9, ← conj_mul hQ, Matrix.diagonal_mul_diagonal, ← Matrix.smul_mul, ← Matrix.mul_smul, ← Matrix.smul_mul, ← Matrix.mul_smul, ← Matrix.add_mul, ← Matrix.mul_add]
    congr 2
    ext k l
    by_cases hkl : k = l
    · subst hkl
      have := Eta.eta_rec i (Z k * δ ^ 2)
      simp only [Matrix.diagonal_apply_eq, Matrix.add_apply, Matrix.smul_apply, smul_eq_mul]
      rw [this]; ring
    · simp [Matrix.diagonal_apply_ne _ hkl]

theorem etaM_zero {Q : Mat n ℝ} (hQ : Q.transpose * Q = 1) (Z : Fin n → ℝ) : etaM Q Z 0 0 = 1 := by
  unfold etaM
  have : (fun j => Eta.eta 0 (Z j * 0 ^ 2)) = fun _ : Fin n => (1 : ℝ) := by
    funext j
    simp [Eta.eta_zero_right, Eta.oddFact]
  rw [this, Matrix.diagonal_one, Matrix.mul_one]
  exact mul_eq_one_comm.mp hQ

/-! ### Coefficients -/

/-- Bounded coefficients near the ones used, and the potential near their series. -/
theorem coeffs_near {M τ : ℝ} {W : ℝ → Mat n ℝ} {vo : ℕ → Mat n ℝ} {a b : ℝ} (hab : a < b) (h1 : b - a ≤ 1) (hW : MSmoothOn M W a b) (hv : MCoeffWithin τ W a b vo) :
    ∃ w : ℕ → Mat n ℝ, w 0 = vo 0 ∧ (∀ i j, |w 0 i j| ≤ 31 * M + τ) ∧ (∀ k, 1 ≤ k → ∀ i j, |w k i j| ≤ 496 * M) ∧
      (∀ k < 9, ∀ i j, |vo k i j - w k i j| * (b - a) ^ k ≤ tau M τ (b - a)) ∧
      ∀ x ∈ Set.Icc 0 (b - a), ∀ i j, |W (a + x) i j - (w 0 + dVm w (b - a) x) i j| ≤ 3504 * M * (b - a) ^ 9 + τ := by
  have h0 : 0 < b - a := by linarith
  have entry : ∀ i j, ∃ w : ℕ → ℝ, w 0 = vo 0 i j ∧ |w 0| ≤ 31 * M + τ ∧ (∀ k, 1 ≤ k → |w k| ≤ 496 * M) ∧ (∀ k < 9, |vo k i j - w k| * (b - a) ^ k ≤ tau M τ (b - a)) ∧
      ∀ x ∈ Set.Icc 0 (b - a), |W (a + x) i j - (w 0 + ∑ k ∈ Finset.range 8, (b - a) ^ (k + 1) * shiftedP (k + 1) (x / (b - a)) * w (k + 1))| ≤ 3504 * M * (b - a) ^ 9 + τ := by
    intro i j
    have hs := hW i j
    have hM : 0 ≤ M := (abs_nonneg _).trans (hs.bound ⟨le_rfl, hab.le⟩)
    have hc : CoeffWithin τ (fun x => W x i j) a b (fun k => if k < 9 then vo k i j else if k < 16 then legendreCoeff (fun x => W x i j) a b k / (b - a) ^ k else 0) := by
      constructor
      · intro k hk
        have hτ : 0 ≤ τ := (abs_nonneg _).trans (hv 0 (by norm_num) i j)
        by_cases h9 : k < 9
        · simp only [h9, if_true]; exact hv k h9 i j
        · simp only [h9, if_false, hk, if_true]
          rw [div_mul_cancel₀ _ (pow_ne_zero _ h0.ne'), sub_self, abs_zero]; exact hτ
      · intro k hk
        simp [show ¬ k < 9 by omega, show ¬ k < 16 by omega]
    obtain ⟨w, w0, wz, wb, wd, wV⟩ := coeff_near hab h1 hs hc
    have w0' : w 0 = vo 0 i j := by rw [w0]; simp
    have hτ : 0 ≤ τ := hc.nonneg
    refine ⟨w, w0', ?_, wb, fun k hk => ?_, fun x hx => ?_⟩
    · have e1 := hv 0 (by norm_num) i j
      have e2 := legendreCoeff_sub_le (f := fun x => W x i j) (g := fun _ => 0) hab hs.continuousOn continuousOn_const (c := M)
        (fun x hx => by simpa using hs.bound hx) (i := 0) (by norm_num)
      have e3 : legendreCoeff (fun _ => (0 : ℝ)) a b 0 = 0 := by simp [legendreCoeff]
      rw [e3, sub_zero] at e2
      rw [pow_zero, mul_one] at e1
      rw [w0']
      have := abs_sub_abs_le_abs_sub (vo 0 i j) (legendreCoeff (fun x => W x i j) a b 0)
      linarith
    · have := wd k (by omega)
      simpa only [hk, if_true] using this
    · have e1 := wV x hx
      have e2 : legendreSeries 16 w (b - a) x = (w 0 + ∑ k ∈ Finset.range 8, (b - a) ^ (k + 1) * shiftedP (k + 1) (x / (b - a)) * w (k + 1)) +
          ∑ k ∈ Finset.range 7, w (9 + k) * (b - a) ^ (9 + k) * shiftedP (9 + k) (x / (b - a)) := by
        unfold legendreSeries
        rw [show 16 = 9 + 7 from rfl, Finset.sum_range_add, Finset.sum_range_succ' _ 8]
        congr 1
        rw [add_comm]
        congr 1
        · simp [shiftedP]
        · exact Finset.sum_congr rfl (fun k _ => by ring)
      have e3 : |∑ k ∈ Finset.range 7, w (9 + k) * (b - a) ^ (9 + k) * shiftedP (9 + k) (x / (b - a))| ≤ 7 * (496 * M * (b - a) ^ 9) := by
        refine (Finset.abs_sum_le_sum_abs _ _).trans ?_
        calc ∑ k ∈ Finset.range 7, |w (9 + k) * (b - a) ^ (9 + k) * shiftedP (9 + k) (x / (b - a))| ≤ ∑ _k ∈ Finset.range 7, 496 * M * (b - a) ^ 9 := by
              refine Finset.sum_le_sum (fun k hk => ?_)
              rw [Finset.mem_range] at hk
              rw [abs_mul, abs_mul, abs_of_nonneg (by positivity : 0 ≤ (b - a) ^ (9 + k))]
              have q1 := (C41_table (i := 9 + k) (by omega) (x / (b - a))).2.2.2 (div_nonneg hx.1 h0.le) (by rw [div_le_one h0]; exact hx.2)
              have q2 : (b - a) ^ (9 + k) ≤ (b - a) ^ 9 := pow_le_pow_of_le_one h0.le h1 (by omega)
              have q3 : |w (9 + k)| * (b - a) ^ (9 + k) ≤ 496 * M * (b - a) ^ 9 := mul_le_mul (wb _ (by omega)) q2 (by positivity) (by positivity)
              calc |w (9 + k)| * (b - a) ^ (9 + k) * |shiftedP (9 + k) (x / (b - a))| ≤ 496 * M * (b - a) ^ 9 * 1 := mul_le_mul q3 q1 (abs_nonneg _) (by positivity)
                _ = _ := mul_one _
          _ = 7 * (496 * M * (b - a) ^ 9) := by simp
      have e4 : (b - a) ^ 16 ≤ (b - a) ^ 9 := pow_le_pow_of_le_one h0.le h1 (by norm_num)
      have e5 := mul_le_mul_of_nonneg_left e4 hM
      rw [e2] at e1
      unfold tau at e1
      have e6 := abs_le.mp e1
      have e7 := abs_le.mp e3
      rw [abs_le]
      constructor
      · linarith [e6.1, e7.1]
      · linarith [e6.2, e7.2]
  choose w w0 wb0 wb wd wV using entry
  refine ⟨fun k => Matrix.of (fun i j => w i j k), ?_, fun i j => wb0 i j, fun k hk i j => wb i j k hk, fun k hk i j => wd i j k hk, fun x hx i j => ?_⟩
  · ext i j; exact w0 i j
  · have := wV i j x hx
    simpa only [dVm, Matrix.add_apply, Matrix.sum_apply, Matrix.smul_apply, smul_eq_mul, Matrix.of_apply] using this

end
end Verif.NP
