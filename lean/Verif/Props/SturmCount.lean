import Verif.Lemmas.CountInstance

/-!
# C92: the computed matching angle counts the exact eigenvalues

`IsEigenvalueNr … n lam` (`Spec/EigenNr.lean`): `lam` is an exact eigenvalue, and its eigenfunction has `n` zeros in the open domain.
-/
namespace Verif.Solver
open Verif Verif.Prufer Verif.YT Verif.CalcT Verif.Mesh Verif.Propag Verif.Formulas Verif.Legendre Verif.Spec Verif.Search
open Real (pi)

/-- **C92**. `κ = H^16 + ε` (without the coefficients `h`: `H^14 + ε`). At an energy farther than `C κ` from every exact eigenvalue the computed angle is not
a multiple of `π`; and between two such energies there are exactly as many exact eigenvalues as multiples of `π` between the computed angles, with the numbers
in between. -/
theorem C92_sturm_count (M : ℝ) (hM : 1 ≤ M) : ∃ C : ℝ, 1 ≤ C ∧ ∀ (eps ε : ℝ) (eta : ℕ → ℝ → ℕ → ℝ) (vs : Sec ℝ → ℕ → ℝ) (W : Sec ℝ → ℝ → ℝ)
    (dmin dmax H : ℝ) (r : BuildResult ℝ) (useH : Bool) (left right : Y ℝ),
    FitMesh eps M H W dmin dmax r.sectors → AccurateTo ε W r.sectors eta vs → dmax - dmin ≤ M → 1 / M ≤ dmax - dmin →
    r.matchIndex + 1 < r.sectors.length → (left.y ≠ 0 ∨ left.dy ≠ 0) → (right.y ≠ 0 ∨ right.dy ≠ 0) → C * (H ^ (if useH then 16 else 14) + ε) ≤ 1 →
    ∃ me : ℝ → ℝ × ℝ × ℝ, (∀ E, (constructOf eps eta vs dmin dmax r).matchingError pi E left right useH = .ok (me E)) ∧
      (∀ E, |E| + 1 ≤ M → AngleFit C H ε (if useH then 16 else 14) vs r.sectors E →
        (∀ (n : ℕ) (lam : ℝ), IsEigenvalueNr W r.sectors dmin dmax (left.y, left.dy) (right.y, right.dy) n lam → C * (H ^ (if useH then 16 else 14) + ε) < |E - lam|) →
        ∀ k : ℤ, (me E).2.2 ≠ k * pi) ∧
      ∀ E F, E < F → |E| + 1 ≤ M → |F| + 1 ≤ M → AngleFit C H ε (if useH then 16 else 14) vs r.sectors E → AngleFit C H ε (if useH then 16 else 14) vs r.sectors F →
        (∀ (n : ℕ) (lam : ℝ), IsEigenvalueNr W r.sectors dmin dmax (left.y, left.dy) (right.y, right.dy) n lam →
          C * (H ^ (if useH then 16 else 14) + ε) < |E - lam| ∧ C * (H ^ (if useH then 16 else 14) + ε) < |F - lam|) →
        ({lam | E < lam ∧ lam < F ∧ ∃ n, IsEigenvalueNr W r.sectors dmin dmax (left.y, left.dy) (right.y, right.dy) n lam} : Set ℝ).Finite ∧
        (({lam | E < lam ∧ lam < F ∧ ∃ n, IsEigenvalueNr W r.sectors dmin dmax (left.y, left.dy) (right.y, right.dy) n lam} : Set ℝ).ncard : ℤ) =
          ⌈(me F).2.2 / pi⌉ - ⌈(me E).2.2 / pi⌉ ∧
        ∀ k : ℤ, (⌈(me E).2.2 / pi⌉ ≤ k ∧ k < ⌈(me F).2.2 / pi⌉) ↔ ∃ (n : ℕ) (lam : ℝ), k = n ∧ E < lam ∧ lam < F ∧
          IsEigenvalueNr W r.sectors dmin dmax (left.y, left.dy) (right.y, right.dy) n lam := by
  obtain ⟨C, C', hC, hC', k0⟩ := count_near M hM
  refine ⟨C, hC, ?_⟩
  intro eps ε eta vs W dmin dmax H r useH left right hf hacc hd hd' hmi hl hr hκ
  have hord : (if useH then 16 else 14) = ord useH := rfl
  rw [hord] at hκ ⊢
  obtain ⟨me, hme⟩ := matching_total hf (by omega : r.matchIndex < r.sectors.length) eta vs pi useH left right
  obtain ⟨D, y, dy, z, dz, hD, kD⟩ := k0 eps ε eta vs W dmin dmax H r useH left right hf hacc hd hd' hmi hl hr hκ
  have hp0 := Real.pi_pos
  have side : ∀ E, |E| + 1 ≤ M → AngleFit C H ε (ord useH) vs r.sectors E →
      (∀ (n : ℕ) (lam : ℝ), IsEigenvalueNr W r.sectors dmin dmax (left.y, left.dy) (right.y, right.dy) n lam → C * (H ^ ord useH + ε) < |E - lam|) →
      ∀ k : ℤ, D E ≠ k * pi ∧ (D E < k * pi → (me E).2.2 < k * pi) ∧ (k * pi < D E → k * pi < (me E).2.2) := by
    intro E hE ha hfar k
    obtain ⟨err, e1, e2⟩ := kD E hE ha.fine ha.accurate (fun s hs hv => by rcases ha.clear s hs with h | h <;> linarith) (fun lam k hlam hk => by
      obtain ⟨n, -, hn⟩ := (hD.index lam hlam k).mp hk
      exact hfar n lam hn)
    rw [hme] at e1
    cases e1
    refine ⟨fun h => ?_, e2 k⟩
    obtain ⟨n, -, hn⟩ := (hD.index E (by linarith) k).mp h
    have := hfar n E hn
    rw [sub_self, abs_zero] at this
    have h1 := accurate_nonneg hacc hf.mesh.length_pos
    have h2 := mul_nonneg (show 0 ≤ C by linarith) (add_nonneg (pow_nonneg (fit_pos hf).le (ord useH)) h1)
    linarith
  refine ⟨me, hme, ?_, ?_⟩
  · intro E hE ha hfar k h
    obtain ⟨s1, s2, s3⟩ := side E hE ha hfar k
    rcases lt_or_gt_of_ne s1 with q | q
    · exact (s2 q).ne h
    · exact (s3 q).ne' h
  · intro E F hEF hE hF haE haF hfar
    have sE := side E hE haE (fun n lam hn => (hfar n lam hn).1)
    have sF := side F hF haF (fun n lam hn => (hfar n lam hn).2)
    have hE' : |E| ≤ M := by linarith
    have hF' : |F| ≤ M := by linarith
    have inM : ∀ {x : ℝ}, E ≤ x → x ≤ F → |x| ≤ M := fun h1 h2 => abs_le.mpr ⟨by linarith [(abs_le.mp hE').1], by linarith [(abs_le.mp hF').2]⟩
    have key : ∀ k : ℤ, (⌈(me E).2.2 / pi⌉ ≤ k ∧ k < ⌈(me F).2.2 / pi⌉) ↔ ∃ lam, E < lam ∧ lam < F ∧ D lam = k * pi := by
      intro k
      rw [Int.ceil_le, Int.lt_ceil, div_le_iff₀ hp0, lt_div_iff₀ hp0]
      constructor
      · rintro ⟨h1, h2⟩
        have d1 : D E < k * pi := by
          rcases lt_or_gt_of_ne (sE k).1 with q | q
          · exact q
          · exact absurd ((sE k).2.2 q) (not_lt.mpr h1)
        have d2 : k * pi < D F := by
          rcases lt_or_gt_of_ne (sF k).1 with q | q
          · exact absurd ((sF k).2.1 q) (not_lt.mpr h2.le)
          · exact q
        obtain ⟨x, x1, x2, x3, x4⟩ := hD.ivt hC' hE' hF' hEF.le d1.le d2.le
        refine ⟨x, (hD.mono' hC' hE' x3).mp (by rw [x4]; exact d1), (hD.mono' hC' x3 hF').mp (by rw [x4]; exact d2), x4⟩
      · rintro ⟨lam, l1, l2, l3⟩
        have hlam := inM l1.le l2.le
        have d1 := hD.mono hC' hE' hlam l1
        have d2 := hD.mono hC' hlam hF' l2
        rw [l3] at d1 d2
        exact ⟨((sE k).2.1 d1).le, (sF k).2.2 d2⟩
    have hset : ({lam | E < lam ∧ lam < F ∧ ∃ n, IsEigenvalueNr W r.sectors dmin dmax (left.y, left.dy) (right.y, right.dy) n lam} : Set ℝ) =
        {lam | E < lam ∧ lam < F ∧ ∃ k : ℤ, D lam = k * pi} := by
      ext lam
      simp only [Set.mem_ofPred_eq]
      constructor
      · rintro ⟨h1, h2, n, hn⟩
        exact ⟨h1, h2, n, (hD.index lam (inM h1.le h2.le) n).mpr ⟨n, rfl, hn⟩⟩
      · rintro ⟨h1, h2, k, hk⟩
        obtain ⟨n, -, hn⟩ := (hD.index lam (inM h1.le h2.le) k).mp hk
        exact ⟨h1, h2, n, hn⟩
    rw [hset]
    set S : Set ℝ := {lam | E < lam ∧ lam < F ∧ ∃ k : ℤ, D lam = k * pi} with hS
    have hg : ∀ lam ∈ S, D lam = (⌊D lam / pi⌋ : ℤ) * pi := by
      rintro lam ⟨-, -, k, hk⟩
      rw [hk, mul_div_cancel_right₀ _ hp0.ne', Int.floor_intCast]
    have hinj : Set.InjOn (fun lam => ⌊D lam / pi⌋) S := by
      intro u hu v hv huv
      have huv : ⌊D u / pi⌋ = ⌊D v / pi⌋ := huv
      have e : D u = D v := by rw [hg u hu, hg v hv, huv]
      have mu := inM hu.1.le hu.2.1.le
      have mv := inM hv.1.le hv.2.1.le
      rcases lt_trichotomy u v with q | q | q
      · exact absurd e (hD.mono hC' mu mv q).ne
      · exact q
      · exact absurd e (hD.mono hC' mv mu q).ne'
    have himg : (fun lam => ⌊D lam / pi⌋) '' S = ((Finset.Ico ⌈(me E).2.2 / pi⌉ ⌈(me F).2.2 / pi⌉ : Finset ℤ) : Set ℤ) := by
      ext k
      simp only [Set.mem_image, Finset.coe_Ico, Set.mem_Ico]
      rw [key k]
      constructor
      · rintro ⟨lam, hl, rfl⟩
        exact ⟨lam, hl.1, hl.2.1, hg lam hl⟩
      · rintro ⟨lam, l1, l2, l3⟩
        refine ⟨lam, ⟨l1, l2, k, l3⟩, ?_⟩
        rw [l3, mul_div_cancel_right₀ _ hp0.ne', Int.floor_intCast]
    have hle : ⌈(me E).2.2 / pi⌉ ≤ ⌈(me F).2.2 / pi⌉ := by
      rw [Int.ceil_le, div_le_iff₀ hp0]
      by_contra hc
      push Not at hc
      set k := ⌈(me F).2.2 / pi⌉ with hk
      have h1 : (me F).2.2 ≤ k * pi := by rw [← div_le_iff₀ hp0]; exact Int.le_ceil _
      have d1 : k * pi < D E := by
        rcases lt_or_gt_of_ne (sE k).1 with q | q
        · exact absurd ((sE k).2.1 q) (not_lt.mpr hc.le)
        · exact q
      have d2 := (sF k).2.2 (d1.trans (hD.mono hC' hE' hF' hEF))
      linarith
    refine ⟨?_, ?_, ?_⟩
    · exact Set.Finite.of_finite_image (by rw [himg]; exact Finset.finite_toSet _) hinj
    · rw [← hinj.ncard_image, himg, Set.ncard_coe_finset, Int.card_Ico, Int.toNat_of_nonneg (by omega)]
    · intro k
      rw [key k]
      constructor
      · rintro ⟨lam, l1, l2, l3⟩
        obtain ⟨n, e, hn⟩ := (hD.index lam (inM l1.le l2.le) k).mp l3
        exact ⟨n, lam, e, l1, l2, hn⟩
      · rintro ⟨n, lam, e, l1, l2, hn⟩
        exact ⟨lam, l1, l2, (hD.index lam (inM l1.le l2.le) k).mpr ⟨n, e, hn⟩⟩

end Verif.Solver
