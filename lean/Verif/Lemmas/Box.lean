import Verif.Props.SturmCount
import Mathlib.Analysis.SpecialFunctions.Trigonometric.Deriv
import Mathlib.Data.Set.Card

/-!
# A concrete problem with all eigenvalues known: `V = 0` on `[0, π/s]`, `s² = 3/2`, with `y = 0` at both ends

Eigenvalue number `n` is `3/2 (n+1)²`: `3/2`, `6`, `27/2`, `24`, … (used in the non-vacuity examples only).
-/
namespace Verif.Solver
open Verif Verif.Prufer Verif.YT Verif.CalcT Verif.Mesh Verif.Propag Verif.Formulas Verif.Legendre Verif.Spec Verif.Search
open Real (pi)

/-- `s`, with `s² = 3/2`. -/
noncomputable def boxS : ℝ := Real.sqrt (3 / 2)

/-- The right end `π / s`. -/
noncomputable def boxB : ℝ := pi / boxS

theorem boxS_pos : 0 < boxS := Real.sqrt_pos.mpr (by norm_num)

theorem boxS_sq : boxS ^ 2 = 3 / 2 := Real.sq_sqrt (by norm_num)

theorem boxS_le : boxS ≤ 3 / 2 ∧ 1 ≤ boxS := by
  have h1 := boxS_sq
  have h2 := boxS_pos
  constructor <;> nlinarith

theorem boxB_range : 2 ≤ boxB ∧ boxB ≤ 4 := by
  have h1 := boxS_le
  have h2 := boxS_pos
  have h3 := Real.pi_gt_three
  have h4 := Real.pi_le_four
  unfold boxB
  rw [le_div_iff₀ h2, div_le_iff₀ h2]
  constructor <;> linarith

theorem box_solves (n : ℕ) : SolvesOn (fun _ => 0) (3 / 2 * ((n : ℝ) + 1) ^ 2) 0 boxB (fun x => Real.sin ((n + 1) * boxS * x)) (fun x => (n + 1) * boxS * Real.cos ((n + 1) * boxS * x)) := by
  have h1 : ∀ x : ℝ, HasDerivAt (fun x => (n + 1) * boxS * x) ((n + 1) * boxS) x := fun x => ((hasDerivAt_id x).const_mul _).congr_deriv (by simp)
  refine ⟨fun x _ => ((h1 x).sin.congr_deriv (by ring)).hasDerivWithinAt, fun x _ => (((h1 x).cos.const_mul _).congr_deriv ?_).hasDerivWithinAt⟩
  have := boxS_sq
  show (n + 1) * boxS * (-Real.sin ((n + 1) * boxS * x) * ((n + 1) * boxS)) = (0 - 3 / 2 * ((n : ℝ) + 1) ^ 2) * Real.sin ((n + 1) * boxS * x)
  rw [← this]; ring

theorem box_zeros (n : ℕ) : ({x ∈ Set.Ioo 0 boxB | Real.sin ((n + 1) * boxS * x) = 0} : Set ℝ) = (fun j : ℕ => ((j : ℝ) + 1) * pi / ((n + 1) * boxS)) '' Set.Iio n := by
  have hs := boxS_pos
  have hp := Real.pi_pos
  have hn : (0 : ℝ) < (n + 1) * boxS := by positivity
  ext x
  simp only [Set.mem_ofPred_eq, Set.mem_image, Set.mem_Iio, Set.mem_Ioo]
  have hb : (n + 1) * boxS * boxB = (n + 1) * pi := by unfold boxB; field_simp
  constructor
  · rintro ⟨⟨h1, h2⟩, h3⟩
    obtain ⟨j, hj⟩ := Real.sin_eq_zero_iff.mp h3
    have h4 : (n + 1) * boxS * x < (n + 1) * pi := by rw [← hb]; exact mul_lt_mul_of_pos_left h2 hn
    have h5 : 0 < (n + 1) * boxS * x := by positivity
    rw [← hj] at h4 h5
    have h6 : 0 < j := by
      have := (pos_iff_pos_of_mul_pos h5).mpr hp
      exact_mod_cast this
    have h7 : j < n + 1 := by
      have := lt_of_mul_lt_mul_right h4 hp.le
      exact_mod_cast this
    refine ⟨(j - 1).toNat, by omega, ?_⟩
    have e : (((j - 1).toNat : ℕ) : ℝ) + 1 = j := by
      have : ((j - 1).toNat : ℤ) + 1 = j := by omega
      exact_mod_cast this
    rw [e, hj]
    field_simp
  · rintro ⟨j, hj, rfl⟩
    have e : (n + 1) * boxS * (((j : ℝ) + 1) * pi / ((n + 1) * boxS)) = (j + 1) * pi := by field_simp
    refine ⟨⟨by positivity, ?_⟩, ?_⟩
    · rw [div_lt_iff₀ hn, mul_comm boxB, hb]
      have : (j : ℝ) + 1 < n + 1 := by exact_mod_cast Nat.succ_lt_succ hj
      exact mul_lt_mul_of_pos_right this hp
    · rw [e]
      exact_mod_cast Real.sin_nat_mul_pi (j + 1)

theorem box_count (n : ℕ) : ({x ∈ Set.Ioo 0 boxB | Real.sin ((n + 1) * boxS * x) = 0} : Set ℝ).Finite ∧
    ({x ∈ Set.Ioo 0 boxB | Real.sin ((n + 1) * boxS * x) = 0} : Set ℝ).ncard = n := by
  rw [box_zeros]
  refine ⟨(Set.finite_Iio n).image _, ?_⟩
  rw [Set.ncard_image_of_injective]
  · rw [← Finset.coe_Iio, Set.ncard_coe_finset, Nat.card_Iio]
  · intro i j h
    have hs := boxS_pos
    have hp := Real.pi_pos
    have hn : (0 : ℝ) < (n + 1) * boxS := by positivity
    simp only at h
    rw [div_left_inj' hn.ne'] at h
    have := mul_right_cancel₀ hp.ne' h
    have : (i : ℝ) = j := by linarith
    exact_mod_cast this

theorem box_smooth : SmoothOn (1 / 2) (fun _ => 0) 0 boxB :=
  ⟨fun _ _ => 0, fun _ _ => rfl, fun _ _ _ _ => hasDerivWithinAt_const _ _ _, fun _ _ _ _ => by rw [abs_zero]; norm_num⟩

/-- The mesh, the eigenvalues, and `AngleFit` for all energies at least 1. -/
theorem box_fit {C : ℝ} (hC : 1 ≤ C) {n : ℕ} (hn : 16 * C ≤ n) (cmp : Sec ℝ → Sec ℝ → Bool) : ∃ r, uniformBuild cmp n 0 boxB = .ok r ∧ r.matchIndex + 1 < r.sectors.length ∧
    FitMesh 0 30 ((boxB - 0) / n) (fun _ _ => 0) 0 boxB r.sectors ∧ AccurateTo 0 (fun _ _ => 0) r.sectors etaExact (exactVs fun _ => 0) ∧
    (∀ j : ℕ, IsEigenvalueNr (fun _ _ => 0) r.sectors 0 boxB (0, 1) (0, 1) j (3 / 2 * ((j : ℝ) + 1) ^ 2)) ∧
    C * (((boxB - 0) / n) ^ 16 + 0) ≤ 1 / 4 ∧ ∀ F, 1 ≤ F → AngleFit C ((boxB - 0) / n) 0 16 (exactVs fun _ => 0) r.sectors F := by
  have hn0 : (0 : ℝ) < n := by linarith
  have hB := boxB_range
  set h : ℝ := (boxB - 0) / n with hh
  have h1 : h ≤ 1 / (4 * C) := by
    rw [hh, div_le_div_iff₀ hn0 (by linarith)]
    have := mul_le_mul_of_nonneg_right hB.2 (by linarith : 0 ≤ 4 * C)
    linarith
  have h2 : h ≤ 1 := h1.trans (by rw [div_le_one (by linarith)]; linarith)
  have h3 : 0 < h := div_pos (by linarith) hn0
  have h4 : C * h ≤ 1 / 4 := by
    have := mul_le_mul_of_nonneg_left h1 (by linarith : 0 ≤ C)
    rwa [show C * (1 / (4 * C)) = 1 / 4 by field_simp] at this
  have h5 : C * h ^ 16 ≤ 1 / 4 := (mul_le_mul_of_nonneg_left (pow_le_of_le_one h3.le h2 (by norm_num)) (by linarith)).trans h4
  have hn2 : 2 ≤ n := by
    have : (2 : ℝ) ≤ n := by linarith
    exact_mod_cast this
  obtain ⟨r, e1, hlen, hm, hf, hc, hp, hne⟩ := uniform_fit cmp (by omega : 1 ≤ n) le_rfl box_smooth h2 h3
  have hv : CoeffsWithin 0 (fun _ _ => 0) r.sectors (exactVs fun _ => 0) := coeffs_on_mesh (exact_coeffs _ _ _ _) hf hc hp
  obtain ⟨r', f1, -, -, f4⟩ := C02_uniform_split cmp n (by omega) (0 : ℝ) boxB
  rw [e1] at f1
  cases f1
  refine ⟨r, e1, f4 (by omega), ⟨hf.mesh, hf.directed, hf.eps_nonneg, hf.wide, hf.narrow, hf.small, fun s hs => ?_⟩, ⟨by norm_num, 0, 0, etaWithin_exact, hv, by simp⟩, fun j => ?_,
    by simpa using h5, fun F hF => ?_⟩
  · obtain ⟨D, h0, h1, h2⟩ := hf.smooth s hs
    exact ⟨D, h0, h1, fun j hj x hx => (h2 j hj x hx).trans (by norm_num)⟩
  · have hs := boxS_pos
    have hp' := Real.pi_pos
    have hb : (j + 1) * boxS * boxB = ((j + 1 : ℕ) : ℝ) * pi := by unfold boxB; push_cast; field_simp
    refine ⟨_, _, (solvesMesh_iff hc hp hne).mpr (box_solves j), ⟨pi / 2 / ((j + 1) * boxS), ⟨by positivity, ?_⟩, ?_⟩, by simp, ?_, (box_count j).1, (box_count j).2⟩
    · rw [div_le_iff₀ (by positivity), mul_comm boxB, hb]
      have : (1 : ℝ) ≤ (j + 1 : ℕ) := by exact_mod_cast Nat.succ_le_succ (Nat.zero_le j)
      have := mul_le_mul_of_nonneg_right this hp'.le
      linarith
    · rw [mul_div_cancel₀ _ (by positivity : ((j : ℝ) + 1) * boxS ≠ 0), Real.sin_pi_div_two]
      exact one_ne_zero
    · simp only [mul_one, mul_zero]
      rw [hb, Real.sin_nat_mul_pi]
  · refine ⟨by linarith, fun s hs => by have := hp s hs; linarith, fun s hs => Or.inr ?_⟩
    have rg := (chn_range hc hp).2 s hs
    have := (coeff_zero_bound (hp s hs) (SmoothOn.shrink box_smooth rg.1 rg.2) (hv s hs)).1
    rw [abs_le] at this
    rw [zero_div, add_zero]
    linarith [this.2]

end Verif.Solver
