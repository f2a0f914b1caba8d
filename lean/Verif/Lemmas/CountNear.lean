import Verif.Lemmas.ExactCount

/-!
# The computed matching angle against the exact count of eigenvalues
-/
namespace Verif.Solver
open Verif Verif.Prufer Verif.YT Verif.CalcT Verif.Mesh Verif.Propag Verif.Formulas Verif.Legendre Verif.Spec
open Real (pi)

section exact
variable {C M : ℝ} {W : Sec ℝ → ℝ → ℝ} {a b : ℝ} {l : List (Sec ℝ)} {L R : ℝ × ℝ} {D : ℝ → ℝ} {y dy z dz : ℝ → ℝ → ℝ}

theorem ExactCount.mono (hC : 1 ≤ C) (h : ExactCount C M W a b l L R D y dy z dz) {E F : ℝ} (hE : |E| ≤ M) (hF : |F| ≤ M) (hEF : E < F) : D E < D F := by
  have hC0 : 0 < C := by linarith
  have key : ∀ (n : ℕ) (E : ℝ), |E| ≤ M → E < F → F - E ≤ n * (1 / C) → D E < D F := by
    intro n
    induction n with
    | zero => intro E _ h1 h2; push_cast at h2; linarith
    | succ n ih =>
      intro E hE h1 h2
      have small : ∀ {G : ℝ}, |G| ≤ M → E < G → G - E ≤ 1 / C → D E < D G := by
        intro G hG h3 h4
        have := (h.rate E G hE hG h3.le (by rw [le_div_iff₀ hC0] at h4; linarith)).2
        by_contra hc
        push Not at hc
        have := mul_nonpos_of_nonneg_of_nonpos hC0.le (sub_nonpos.mpr hc)
        linarith
      rcases le_or_gt (F - E) (1 / C) with h3 | h3
      · exact small hF h1 h3
      · have c0 : 0 < 1 / C := by positivity
        rw [abs_le] at hE hF
        have hG : |E + 1 / C| ≤ M := abs_le.mpr ⟨by linarith, by linarith⟩
        have s1 := small hG (by linarith) (by linarith)
        have s2 := ih (E + 1 / C) hG (by linarith) (by push_cast at h2; linarith)
        linarith
  obtain ⟨n, hn⟩ := exists_nat_gt ((F - E) * C)
  refine key n E hE hEF ?_
  rw [mul_one_div, le_div_iff₀ hC0]
  exact hn.le

theorem ExactCount.mono' (hC : 1 ≤ C) (h : ExactCount C M W a b l L R D y dy z dz) {E F : ℝ} (hE : |E| ≤ M) (hF : |F| ≤ M) : D E < D F ↔ E < F := by
  refine ⟨fun hd => ?_, h.mono hC hE hF⟩
  by_contra hc
  push Not at hc
  rcases hc.eq_or_lt with e | e
  · rw [e] at hd; exact lt_irrefl _ hd
  · have := h.mono hC hF hE e
    linarith

theorem ExactCount.cont (hC : 1 ≤ C) (h : ExactCount C M W a b l L R D y dy z dz) : ContinuousOn D (Set.Icc (-M) M) := by
  have hC0 : 0 < C := by linarith
  have lip : ∀ E F, |E| ≤ M → |F| ≤ M → C * |F - E| ≤ 1 → |D F - D E| ≤ C * |F - E| := by
    intro E F hE hF hc
    rcases le_total E F with q | q
    · rw [abs_of_nonneg (show 0 ≤ F - E by linarith)] at hc ⊢
      have h1 := h.rate E F hE hF q hc
      have : 0 ≤ D F - D E := by
        by_contra hn
        push Not at hn
        have := mul_neg_of_pos_of_neg hC0 hn
        linarith
      rw [abs_of_nonneg this]; exact h1.1
    · rw [abs_sub_comm F E, abs_of_nonneg (show 0 ≤ E - F by linarith)] at hc ⊢
      have h1 := h.rate F E hF hE q hc
      have : 0 ≤ D E - D F := by
        by_contra hn
        push Not at hn
        have := mul_neg_of_pos_of_neg hC0 hn
        linarith
      rw [abs_sub_comm (D F), abs_of_nonneg this]; exact h1.1
  rw [Metric.continuousOn_iff]
  intro E hE ε hε
  refine ⟨min (1 / C) (ε / (2 * C)), by positivity, fun F hF hd => ?_⟩
  rw [Real.dist_eq] at hd ⊢
  have d1 := hd.trans_le (min_le_left _ _)
  have d2 := hd.trans_le (min_le_right _ _)
  rw [lt_div_iff₀ (by positivity)] at d1 d2
  have := lip E F (abs_le.mpr hE) (abs_le.mpr hF) (by linarith)
  linarith

theorem ExactCount.ivt (hC : 1 ≤ C) (h : ExactCount C M W a b l L R D y dy z dz) {E F t : ℝ} (hE : |E| ≤ M) (hF : |F| ≤ M) (hEF : E ≤ F) (h1 : D E ≤ t) (h2 : t ≤ D F) :
    ∃ x, E ≤ x ∧ x ≤ F ∧ |x| ≤ M ∧ D x = t := by
  rw [abs_le] at hE hF
  have hs : Set.Icc E F ⊆ Set.Icc (-M) M := Set.Icc_subset_Icc hE.1 hF.2
  obtain ⟨x, hx, e⟩ := intermediate_value_Icc hEF ((h.cont hC).mono hs) ⟨h1, h2⟩
  exact ⟨x, hx.1, hx.2, abs_le.mpr (hs hx), e⟩

theorem ExactCount.near (hC : 1 ≤ C) (h : ExactCount C M W a b l L R D y dy z dz) {E t η : ℝ} (hE : |E| + 1 ≤ M) (hη : C * (C * η) ≤ 1) (hd : |D E - t| ≤ η) :
    ∃ x, |x - E| ≤ C * η ∧ |x| ≤ M ∧ D x = t := by
  have hC0 : 0 < C := by linarith
  have η0 : 0 ≤ η := (abs_nonneg _).trans hd
  have c0 : 0 ≤ C * η := by positivity
  have c1 : C * η ≤ 1 := by
    have := le_mul_of_one_le_left c0 hC
    linarith
  have hE' : |E| ≤ M := by linarith
  have hE2 := abs_le.mp hE'
  have hE3 : -M + 1 ≤ E ∧ E ≤ M - 1 := by
    have := abs_le.mp (show |E| ≤ M - 1 by linarith)
    exact ⟨by linarith [this.1], this.2⟩
  rw [abs_le] at hd
  rcases le_total (D E) t with q | q
  · have hF : |E + C * η| ≤ M := abs_le.mpr ⟨by linarith, by linarith⟩
    have r := (h.rate E (E + C * η) hE' hF (by linarith) (by rw [add_sub_cancel_left]; exact hη)).2
    rw [add_sub_cancel_left] at r
    have r := le_of_mul_le_mul_left r hC0
    obtain ⟨x, x1, x2, x3, x4⟩ := h.ivt hC hE' hF (by linarith) q (by linarith : t ≤ D (E + C * η))
    exact ⟨x, abs_le.mpr ⟨by linarith, by linarith⟩, x3, x4⟩
  · have hF : |E - C * η| ≤ M := abs_le.mpr ⟨by linarith, by linarith⟩
    have r := (h.rate (E - C * η) E hF hE' (by linarith) (by rw [sub_sub_cancel]; exact hη)).2
    rw [sub_sub_cancel] at r
    have r := le_of_mul_le_mul_left r hC0
    obtain ⟨x, x1, x2, x3, x4⟩ := h.ivt hC hF hE' (by linarith) (by linarith : D (E - C * η) ≤ t) q
    exact ⟨x, abs_le.mpr ⟨by linarith, by linarith⟩, x3, x4⟩

theorem ExactCount.gap (hC : 1 ≤ C) (h : ExactCount C M W a b l L R D y dy z dz) {N N' : ℤ} {E F : ℝ} (hE : |E| ≤ M) (hF : |F| ≤ M) (h1 : D E = N * pi)
    (h2 : D F = N' * pi) (hN : N < N') : E + 1 / C < F := by
  have hp := Real.pi_gt_three
  have hN1 : (N : ℝ) * pi + pi ≤ N' * pi := by
    have : ((N : ℝ) + 1) * pi ≤ N' * pi := mul_le_mul_of_nonneg_right (by exact_mod_cast hN) Real.pi_pos.le
    linarith
  have hEF : E < F := (h.mono' hC hE hF).mp (by rw [h1, h2]; linarith)
  by_contra hc
  push Not at hc
  have hC0 : 0 < C := by linarith
  have : C * (F - E) ≤ 1 := by
    have := mul_le_mul_of_nonneg_left (show F - E ≤ 1 / C by linarith) hC0.le
    rwa [mul_one_div_cancel hC0.ne'] at this
  have := (h.rate E F hE hF hEF.le this).1
  rw [h1, h2] at this
  linarith

end exact

/-- The angle component of `matchingError` against the exact angles at the match point. -/
theorem matching_angle (M : ℝ) (hM : 1 ≤ M) : ∃ C : ℝ, 1 ≤ C ∧ ∀ (eps ε : ℝ) (eta : ℕ → ℝ → ℕ → ℝ) (vs : Sec ℝ → ℕ → ℝ) (W : Sec ℝ → ℝ → ℝ)
    (dmin dmax H E : ℝ) (r : BuildResult ℝ) (m : Sec ℝ) (useH : Bool) (left right : Y ℝ) (y dy z dz Θl Θr : ℝ → ℝ),
    FitMesh eps M H W dmin dmax r.sectors → AccurateTo ε W r.sectors eta vs → dmax - dmin ≤ M → |E| ≤ M →
    r.sectors[r.matchIndex]? = some m → m.max < dmax → (left.y ≠ 0 ∨ left.dy ≠ 0) → (right.y ≠ 0 ∨ right.dy ≠ 0) →
    SolvesMesh W E r.sectors y dy → SolvesMesh W E r.sectors z dz → y dmin = left.y → dy dmin = left.dy → z dmax = right.y → dz dmax = right.dy →
    ContAngle dmin dmax (scaling (vs m 0) E) y dy Θl → ContAngle dmin dmax (scaling (vs m 0) E) z dz Θr →
    (0 ≤ Θl dmin ∧ Θl dmin < pi) → (0 < Θr dmax ∧ Θr dmax ≤ pi) →
    C * H ≤ 1 → (∀ s ∈ r.sectors, C * ε ≤ s.max - s.min) →
    (∀ s ∈ r.sectors, vs s 0 < E → C * (H ^ ord useH + ε / (s.max - s.min)) ≤ E - vs s 0) →
    m.max ∈ Set.Icc dmin dmax ∧ 1 ≤ scaling (vs m 0) E ∧ scaling (vs m 0) E ^ 2 ≤ 3 * M ∧
    ∃ err, (constructOf eps eta vs dmin dmax r).matchingError pi E left right useH = .ok err ∧
      |err.2.2 - (Θl m.max - Θr m.max)| ≤ C * (H ^ ord useH + ε) := by
  obtain ⟨C, hC, key⟩ := angle_converge M hM
  refine ⟨2 * C, by linarith, ?_⟩
  intro eps ε eta vs W dmin dmax H E r m useH left right y dy z dz Θl Θr hf hacc hd hE hmm hmax hl hr hy hz y1 y2 z1 z2 hΘl hΘr nl nr ha1 ha2 ha3
  have hH0 := (fit_pos hf).le
  have ok := fit_okMesh hf hE
  obtain ⟨hε1, σ, τ, he, hv, hε⟩ := hacc
  have hmem : m ∈ r.sectors := List.mem_of_getElem? hmm
  have hε0 : 0 ≤ ε := by
    have h1 := (hv _ hmem).nonneg
    have h2 := mul_nonneg (Nat.cast_nonneg (α := ℝ) r.sectors.length) he.nonneg
    linarith
  have rg := (chn_range ok.chn ok.pos).2
  have rgm := rg m hmem
  have hmp := ok.pos m hmem
  have hlt : dmin < dmax := by linarith
  have hA : dmin ∈ Set.Icc dmin dmax := ⟨le_rfl, hlt.le⟩
  have hB : dmax ∈ Set.Icc dmin dmax := ⟨hlt.le, le_rfl⟩
  have hMm : m.max ∈ Set.Icc dmin dmax := ⟨by linarith, hmax.le⟩
  have bA : IsBoundary (bounds r.sectors) dmin := by
    rw [← hf.mesh.first]; exact (boundary_of_mem (List.getElem_mem _)).1
  have bB : IsBoundary (bounds r.sectors) dmax := by
    rw [← hf.mesh.last]; exact (boundary_of_mem (List.getElem_mem _)).2
  have bM : IsBoundary (bounds r.sectors) m.max := (boundary_of_mem hmem).2
  have ha1' : C * H ≤ 1 := by
    have := mul_nonneg (show 0 ≤ C by linarith) hH0
    linarith
  have ha2' : ∀ s ∈ r.sectors, C * ε ≤ s.max - s.min := fun s hs => by
    have := mul_nonneg (show 0 ≤ C by linarith) hε0
    linarith [ha2 s hs]
  have ha3' : ∀ s ∈ r.sectors, vs s 0 < E → C * (H ^ ord useH + ε / (s.max - s.min)) ≤ E - vs s 0 := fun s hs h' => by
    have h1 : 0 ≤ H ^ ord useH + ε / (s.max - s.min) := add_nonneg (pow_nonneg hH0 _) (div_nonneg hε0 (by linarith [ok.pos s hs]))
    have := mul_nonneg (show 0 ≤ C by linarith) h1
    linarith [ha3 s hs h']
  have hvM : E - vs m 0 ≤ 3 * M := by
    have h1 := (coeff_zero_bound hmp (hf.smooth m hmem) (hv m hmem)).1
    rw [abs_le] at h1 hE
    have hN1 : (1 : ℝ) ≤ r.sectors.length := by exact_mod_cast hf.mesh.length_pos
    have : τ ≤ 1 := by
      have h2 := mul_nonneg (Nat.cast_nonneg (α := ℝ) r.sectors.length) he.nonneg
      linarith
    linarith [h1.1, hE.2]
  refine ⟨hMm, scaling_one _ _, scaling_sq (by linarith) hvM, ?_⟩
  obtain ⟨P, P1, P2⟩ := key eps σ τ ε eta vs W dmin dmax H E E r m y dy Θl useH dmin m.max 1 left hf he hv hε hε1 hd hE hE hmm ha1' ha2' ha3' (by simp)
    hy hΘl one_ne_zero (by rw [y1, one_mul]) (by rw [y2, one_mul]) hl hA hMm bA bM (fun _ => nl) (fun h => absurd hMm.1 (not_le.mpr h))
  obtain ⟨Q, Q1, Q2⟩ := key eps σ τ ε eta vs W dmin dmax H E E r m z dz Θr useH dmax m.max 1 right hf he hv hε hε1 hd hE hE hmm ha1' ha2' ha3' (by simp)
    hz hΘr one_ne_zero (by rw [z1, one_mul]) (by rw [z2, one_mul]) hr hB hMm bB bM (fun h => absurd hmax (not_lt.mpr h)) (fun _ => nr)
  refine ⟨(P.1.dy * Q.1.y - Q.1.dy * P.1.y, P.1.dyE * Q.1.y + P.1.dy * Q.1.yE - (Q.1.dyE * P.1.y + Q.1.dy * P.1.yE), P.2 - Q.2), ?_, ?_⟩
  · set Pr := constructOf eps eta vs dmin dmax r with hPr
    obtain ⟨v0M, hsecs⟩ := construct_secs eps eta vs dmin dmax r
    rw [← hPr] at hsecs
    have hm0 : r.matchIndex < r.sectors.length := (List.getElem?_eq_some_iff.mp hmm).1
    have hlen : r.matchIndex < Pr.secs.length := by rw [hsecs, List.length_map]; exact hm0
    have hget : Pr.secs[Pr.matchIndex]? = some (sectorOf eps eta (vs m) v0M m) := by
      rw [show Pr.matchIndex = r.matchIndex from rfl, List.getElem?_eq_getElem hlen]
      simp only [hsecs, List.getElem_map, (List.getElem?_eq_some_iff.mp hmm).2]
    unfold Prob.matchingError
    rw [hget]
    simp only [show Pr.dmin = dmin from rfl, show Pr.dmax = dmax from rfl, show (sectorOf eps eta (vs m) v0M m).max = m.max from rfl]
    rw [P1, Q1]
    rfl
  · rw [sub_self, abs_zero, add_zero] at P2 Q2
    have : P.2 - Q.2 - (Θl m.max - Θr m.max) = (P.2 - Θl m.max) - (Q.2 - Θr m.max) := by ring
    show |P.2 - Q.2 - (Θl m.max - Θr m.max)| ≤ _
    rw [this]
    refine (abs_sub _ _).trans ?_
    linarith

/-- **Counting.** Away from the eigenvalues the computed matching angle lies on the same side of every multiple of `π` as the exact one. -/
theorem count_near (M : ℝ) (hM : 1 ≤ M) : ∃ C C' : ℝ, 1 ≤ C ∧ 1 ≤ C' ∧ ∀ (eps ε : ℝ) (eta : ℕ → ℝ → ℕ → ℝ) (vs : Sec ℝ → ℕ → ℝ) (W : Sec ℝ → ℝ → ℝ)
    (dmin dmax H : ℝ) (r : BuildResult ℝ) (useH : Bool) (left right : Y ℝ),
    FitMesh eps M H W dmin dmax r.sectors → AccurateTo ε W r.sectors eta vs → dmax - dmin ≤ M → 1 / M ≤ dmax - dmin →
    r.matchIndex + 1 < r.sectors.length → (left.y ≠ 0 ∨ left.dy ≠ 0) → (right.y ≠ 0 ∨ right.dy ≠ 0) → C * (H ^ ord useH + ε) ≤ 1 →
    ∃ D y dy z dz, ExactCount C' M W dmin dmax r.sectors (left.y, left.dy) (right.y, right.dy) D y dy z dz ∧
      ∀ E, |E| + 1 ≤ M → C * H ≤ 1 → (∀ s ∈ r.sectors, C * ε ≤ s.max - s.min) →
        (∀ s ∈ r.sectors, vs s 0 < E → C * (H ^ ord useH + ε / (s.max - s.min)) ≤ E - vs s 0) →
        (∀ (lam : ℝ) (k : ℤ), |lam| ≤ M → D lam = k * pi → C * (H ^ ord useH + ε) < |E - lam|) →
        ∃ err, (constructOf eps eta vs dmin dmax r).matchingError pi E left right useH = .ok err ∧
          ∀ k : ℤ, (D E < k * pi → err.2.2 < k * pi) ∧ (k * pi < D E → k * pi < err.2.2) := by
  obtain ⟨C1, hC1, k1⟩ := exact_count M hM
  obtain ⟨C2, hC2, k2⟩ := matching_angle M hM
  have h1 : C2 ≤ C1 * C2 := le_mul_of_one_le_left (by linarith) hC1
  have h2 : C1 * C2 ≤ C1 * (C1 * C2) := le_mul_of_one_le_left (by linarith) hC1
  have h3 : C1 * (C1 * C2) ≤ C1 * (C1 * (C1 * C2)) := le_mul_of_one_le_left (by linarith) hC1
  have c1 : 1 ≤ (C1 * (C1 * (C1 * C2))) := by linarith
  have c3 : C2 ≤ (C1 * (C1 * (C1 * C2))) := by linarith
  refine ⟨(C1 * (C1 * (C1 * C2))), C1, c1, hC1, ?_⟩
  intro eps ε eta vs W dmin dmax H r useH left right hf hacc hd hd' hmi hl hr hκ
  have pos : ∀ Y : Y ℝ, (Y.y ≠ 0 ∨ Y.dy ≠ 0) → 0 < sz (Y.y, Y.dy) := fun Y h => sz_pos_iff.mpr (fun h' => h.elim (fun q => q h'.1) (fun q => q h'.2))
  obtain ⟨D, y, dy, z, dz, hD⟩ := k1 W dmin dmax r.sectors (left.y, left.dy) (right.y, right.dy) (fit_ok hf hd hd') (pos _ hl) (pos _ hr)
  refine ⟨D, y, dy, z, dz, hD, ?_⟩
  intro E hE ha1 ha2 ha3 hfar
  have hE' : |E| ≤ M := by linarith
  have hH0 := (fit_pos hf).le
  have ok := fit_okMesh hf hE'
  have hm0 : r.matchIndex < r.sectors.length := by omega
  have hmm : r.sectors[r.matchIndex]? = some r.sectors[r.matchIndex] := List.getElem?_eq_getElem hm0
  set m := r.sectors[r.matchIndex] with hm
  have hmem : m ∈ r.sectors := List.getElem_mem hm0
  have hε0 : 0 ≤ ε := by
    obtain ⟨-, σ, τ, he, hv, hε⟩ := hacc
    have h1 := (hv _ hmem).nonneg
    have h2 := mul_nonneg (Nat.cast_nonneg (α := ℝ) r.sectors.length) he.nonneg
    linarith
  set κ := H ^ ord useH + ε with hκd
  have κ0 : 0 ≤ κ := add_nonneg (pow_nonneg hH0 _) hε0
  have rg := (chn_range ok.chn ok.pos).2
  have hmax : m.max < dmax := by
    have h1 := hf.mesh.max_le_min (i := r.matchIndex) (j := r.matchIndex + 1) (by omega) hmi
    have h2 := ok.pos _ (List.getElem_mem hmi)
    have h3 := rg _ (List.getElem_mem hmi)
    have h1 : m.max ≤ (r.sectors[r.matchIndex + 1]).min := by simpa using h1
    linarith
  have hsc2 : scaling (vs m 0) E ^ 2 ≤ 3 * M := by
    obtain ⟨hε1, σ, τ, he, hv, hε⟩ := hacc
    have h1 := (coeff_zero_bound (ok.pos m hmem) (hf.smooth m hmem) (hv m hmem)).1
    have h2 := mul_nonneg (Nat.cast_nonneg (α := ℝ) r.sectors.length) he.nonneg
    rw [abs_le] at h1 hE'
    exact scaling_sq (by linarith) (by linarith [h1.1, hE'.2])
  obtain ⟨Θl, Θr, al, ar, nl, nr, facts⟩ := hD.angles E hE' (scaling (vs m 0) E) (scaling_one _ _) hsc2
  obtain ⟨y1, y2, y3⟩ := hD.ysol E hE'
  obtain ⟨z1, z2, z3⟩ := hD.zsol E hE'
  obtain ⟨hMm, -, -, err, e1, e2⟩ := k2 eps ε eta vs W dmin dmax H E r m useH left right (y E) (dy E) (z E) (dz E) Θl Θr hf hacc hd hE' hmm hmax hl hr y1 z1 y2 y3 z2 z3 al ar nl nr
    ((mul_le_mul_of_nonneg_right c3 hH0).trans ha1) (fun s hs => (mul_le_mul_of_nonneg_right c3 hε0).trans (ha2 s hs))
    (fun s hs h' => (mul_le_mul_of_nonneg_right c3 (add_nonneg (pow_nonneg hH0 _) (div_nonneg hε0 (by linarith [ok.pos s hs])))).trans (ha3 s hs h'))
  refine ⟨err, e1, ?_⟩
  obtain ⟨cmp, near⟩ := facts m.max hMm
  rw [← hκd] at e2
  have far : ∀ k : ℤ, ¬ |Θl m.max - Θr m.max - k * pi| ≤ C2 * κ := by
    intro k hk
    obtain ⟨k', hk'⟩ := near k (C2 * κ) hk
    obtain ⟨x, x1, x2, x3⟩ := hD.near hC1 hE (by
      have e : C1 * (C1 * (C1 * (C2 * κ))) = (C1 * (C1 * (C1 * C2))) * κ := by ring
      linarith) hk'
    have := hfar x k' x2 x3
    rw [abs_sub_comm] at x1
    have e : C1 * (C1 * (C2 * κ)) = (C1 * (C1 * C2)) * κ := by ring
    have := mul_le_mul_of_nonneg_right h3 κ0
    linarith
  rw [abs_le] at e2
  intro k
  constructor
  · intro h
    by_contra hc
    push Not at hc
    have := (cmp k).1 h
    exact far k (abs_le.mpr ⟨by linarith, by linarith⟩)
  · intro h
    by_contra hc
    push Not at hc
    have := (cmp k).2 h
    exact far k (abs_le.mpr ⟨by linarith, by linarith⟩)

end Verif.Solver
