import Verif.Props.SearchConverge

/-!
# At an energy away from an exact eigenvalue the computed angle is on the correct side of its number
-/
namespace Verif.Solver
open Verif Verif.Prufer Verif.YT Verif.CalcT Verif.Mesh Verif.Propag Verif.Formulas Verif.Legendre Verif.Spec Verif.Search
open Real (pi)

theorem not_halving {x s : ℝ} (hs : 0 < s) : ¬ Halving (x - s) (x + 2 * s) x := by
  rintro ⟨j, m, -, -, h⟩
  have h2 : (0 : ℝ) < 2 ^ j := by positivity
  have e : (2 : ℝ) ^ j = 3 * m := by
    have : s * (2 : ℝ) ^ j = s * (3 * m) := by
      have := congrArg (fun t => (t - x) * (2 : ℝ) ^ j) h
      simp only [sub_self, zero_mul] at this
      field_simp at this
      linarith
    exact mul_left_cancel₀ hs.ne' this
  have e' : (2 : ℤ) ^ j = 3 * m := by exact_mod_cast e
  have := Int.Prime.dvd_pow' (by norm_num : Nat.Prime 3) (⟨m, e'⟩ : ((3 : ℕ) : ℤ) ∣ 2 ^ j)
  norm_num at this

theorem angle_sides (M : ℝ) (hM : 1 ≤ M) : ∃ C : ℝ, 1 ≤ C ∧ ∀ (eps ε : ℝ) (eta : ℕ → ℝ → ℕ → ℝ) (vs : Sec ℝ → ℕ → ℝ) (W : Sec ℝ → ℝ → ℝ)
    (dmin dmax H : ℝ) (r : BuildResult ℝ) (useH : Bool) (left right : Y ℝ) (me : ℝ → ℝ × ℝ × ℝ),
    FitMesh eps M H W dmin dmax r.sectors → AccurateTo ε W r.sectors eta vs → dmax - dmin ≤ M → 1 / M ≤ dmax - dmin →
    r.matchIndex + 1 < r.sectors.length → (left.y ≠ 0 ∨ left.dy ≠ 0) → (right.y ≠ 0 ∨ right.dy ≠ 0) → C * (H ^ ord useH + ε) ≤ 1 →
    (∀ E, (constructOf eps eta vs dmin dmax r).matchingError pi E left right useH = .ok (me E)) →
    ∀ x, |x| + 2 ≤ M → AngleFit C H ε (ord useH) vs r.sectors x → ∀ (n : ℕ) (lam : ℝ), |lam| ≤ M →
      IsEigenvalueNr W r.sectors dmin dmax (left.y, left.dy) (right.y, right.dy) n lam →
      (x + C * (H ^ ord useH + ε) < lam → (me x).2.2 < n * pi) ∧ (lam < x - C * (H ^ ord useH + ε) → n * pi < (me x).2.2) := by
  obtain ⟨C1, C', C0, hC1, hC', hC0, hC'1, hC01, k1⟩ := counting_instance M hM
  obtain ⟨C2, hC2, k2⟩ := C91_exact_eigenvalues_apart M hM
  have hC02 := one_le_mul_of_one_le_of_one_le hC0 hC2
  refine ⟨C1 + 16 * (C0 * C2), by linarith, ?_⟩
  have m1 : C1 ≤ C1 + 16 * (C0 * C2) := by linarith
  have m2 : 16 * (C0 * C2) ≤ C1 + 16 * (C0 * C2) := by linarith
  generalize C1 + 16 * (C0 * C2) = C at m1 m2
  intro eps ε eta vs W dmin dmax H r useH left right me hf hacc hd hd' hmi hl hr hκ hme x hx hfit n lam hlam hev
  have hε0 := accurate_nonneg hacc hf.mesh.length_pos
  have hH0 := (fit_pos hf).le
  set κ := H ^ ord useH + ε with hκd
  have κ0 : 0 ≤ κ := add_nonneg (pow_nonneg hH0 _) hε0
  have t1 : C1 * κ ≤ C * κ := mul_le_mul_of_nonneg_right m1 κ0
  have t0 : C0 * κ ≤ C1 * κ := mul_le_mul_of_nonneg_right hC01 κ0
  have t2 : 16 * (C0 * C2) * κ ≤ C * κ := mul_le_mul_of_nonneg_right m2 κ0
  have okm := fit_okMesh hf (E := 0) (by rw [abs_zero]; linarith)
  obtain ⟨D, y, dy, z, dz, hD, kD⟩ := k1 eps ε eta vs W dmin dmax H r useH left right me hf hacc hd hd' hmi hl hr (by rw [← hκd]; linarith) hme
  have hc2 : 0 < 1 / C2 := by positivity
  have hc2' : 1 / C2 ≤ 1 := by rw [div_le_one (by linarith)]; exact hC2
  set s := 1 / C2 / 4 with hs
  have hs0 : 0 < s := by positivity
  rw [← hκd] at kD
  have hδ : 8 * (C0 * κ) ≤ 1 / C2 / 2 := by
    rw [le_div_iff₀ (by norm_num), le_div_iff₀ (by linarith)]
    have : 8 * (C0 * κ) * 2 * C2 = 16 * (C0 * C2) * κ := by ring
    linarith
  have δ0 : 0 ≤ C0 * κ := mul_nonneg (by linarith) κ0
  have hab : |x| ≤ M - 2 := by linarith
  rw [abs_le] at hab
  have R := kD (x - s) (x + 2 * s) (1 / C2) (by linarith) (by linarith) (by linarith)
    (fun n m lam mu h1 h2 h3 h4 h5 h6 h7 => by
      have := ((k2 eps H W dmin dmax r.sectors _ _ hf hd hd' hl hr n m lam mu (abs_le.mpr ⟨by linarith, by linarith⟩) (abs_le.mpr ⟨by linarith, by linarith⟩) h1 h2).2).mp h3
      linarith)
    (by
      have e : (x + 2 * s - (x - s)) / 2 ^ 31 ≤ s := by
        rw [div_le_iff₀ (by positivity)]
        linarith
      linarith)
  have hg : GoodAt C1 H ε (ord useH) vs r.sectors me (x - s) (x + 2 * s) x :=
    ⟨hfit.mono m1 hH0 hε0 okm.pos, fun h => absurd h (not_halving hs0)⟩
  have hDl := (hD.index lam hlam n).mpr ⟨n, rfl, hev⟩
  have hp0 := Real.pi_pos
  have ok : ∀ t, |t - x| ≤ 2 → |t| ≤ M := fun t ht => by
    rw [abs_le] at ht ⊢
    exact ⟨by linarith, by linarith⟩
  constructor
  · intro h
    have := R.below x hg (by linarith) (by linarith) n (by
      show D (x + C0 * κ) / pi < ((n : ℤ) : ℝ)
      rw [div_lt_iff₀ hp0, ← hDl]
      exact (hD.mono' hC' (ok _ (by rw [add_sub_cancel_left, abs_of_nonneg δ0]; linarith)) hlam).mpr (by linarith))
    simpa [div_lt_iff₀ hp0] using this
  · intro h
    have := R.above x hg (by linarith) (by linarith) n (by
      show ((n : ℤ) : ℝ) < D (x - C0 * κ) / pi
      rw [lt_div_iff₀ hp0, ← hDl]
      exact (hD.mono' hC' hlam (ok _ (by rw [sub_sub_cancel_left, abs_neg, abs_of_nonneg δ0]; linarith))).mpr (by linarith))
    simpa [lt_div_iff₀ hp0] using this

end Verif.Solver
