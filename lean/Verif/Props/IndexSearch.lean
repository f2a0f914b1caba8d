import Verif.Props.SearchConverge
import Verif.Lemmas.Box

/-!
# C95: `eigenvaluesByIndex(Imin, Imax)` on a smooth problem finds exactly the eigenvalues number `Imin … Imax - 1`
-/
namespace Verif.Solver
open Verif Verif.Prufer Verif.YT Verif.CalcT Verif.Mesh Verif.Propag Verif.Formulas Verif.Legendre Verif.Spec Verif.Search
open Real (pi)

/-- **C95**. Let `eigenvaluesByIndex(Imin, Imax)` return, with the energy window `w` found by its doubling loops. If every energy at which the search on `w` evaluates the
matching angle is one at which the angle is meaningful (`AngleFit`; at a point of repeated halving the angle is not exactly a multiple of `π`), then the eigenvalues with the numbers
`Imin … Imax - 1` all exist, each of them has exactly one candidate with its number, whose bracket contains it up to `C κ`, there are no other candidates, the result has `Imax - Imin` entries, and
a candidate within `1 / C` of its eigenvalue gives a result with the correct number, as accurate as Newton's method and the solver allow. -/
theorem C95_by_index (M : ℝ) (hM : 1 ≤ M) : ∃ C : ℝ, 1 ≤ C ∧ ∀ (eps ε : ℝ) (eta : ℕ → ℝ → ℕ → ℝ) (vs : Sec ℝ → ℕ → ℝ) (W : Sec ℝ → ℝ → ℝ)
    (dmin dmax H : ℝ) (r : BuildResult ℝ) (useH : Bool) (left right : Y ℝ),
    FitMesh eps M H W dmin dmax r.sectors → AccurateTo ε W r.sectors eta vs → dmax - dmin ≤ M → 1 / M ≤ dmax - dmin →
    r.matchIndex + 1 < r.sectors.length → (left.y ≠ 0 ∨ left.dy ≠ 0) → (right.y ≠ 0 ∨ right.dy ≠ 0) →
    left.yE = 0 → left.dyE = 0 → right.yE = 0 → right.dyE = 0 → C * (H ^ (if useH then 16 else 14) + ε) ≤ 1 →
    ∃ me : ℝ → ℝ × ℝ × ℝ, (∀ E, (constructOf eps eta vs dmin dmax r).matchingError pi E left right useH = .ok (me E)) ∧
      ∀ (tol g : ℝ) (Imin Imax : Int) (fuel : Nat) (w : ℝ × ℝ) (L : List (Int × ℝ)) (f : Found ℝ),
        window (fun E => (me E).2.2 / pi) Imin Imax fuel = .ok w → -M + 2 ≤ w.1 → w.2 ≤ M - 2 →
        EigenGap W r.sectors dmin dmax (left.y, left.dy) (right.y, right.dy) (w.1 - C * (H ^ (if useH then 16 else 14) + ε)) (w.2 + C * (H ^ (if useH then 16 else 14) + ε)) g →
        8 * (C * (H ^ (if useH then 16 else 14) + ε)) + (w.2 - w.1) / 2 ^ 31 < g →
        eigenvaluesByIndex (fun E => (me E).2.2 / pi) (newton me pi tol) Imin Imax fuel = .ok (L, f) →
        (∀ E ∈ f.evals, AngleFit C H ε (if useH then 16 else 14) vs r.sectors E ∧ (Halving w.1 w.2 E → ∀ j : ℤ, (me E).2.2 ≠ j * pi)) →
        (∀ k : ℤ, (f.cands.map Cand.idx).count k = if Imin ≤ k ∧ k < Imax then 1 else 0) ∧
        (∀ c ∈ f.cands, ∃ (n : ℕ) (lam : ℝ), c.idx = (n : ℤ) ∧ IsEigenvalueNr W r.sectors dmin dmax (left.y, left.dy) (right.y, right.dy) n lam ∧
          w.1 ≤ c.item.a ∧ c.item.a < c.c ∧ c.c < c.item.b ∧ c.item.b ≤ w.2 ∧
          c.item.a - C * (H ^ (if useH then 16 else 14) + ε) ≤ lam ∧ lam ≤ c.item.b + C * (H ^ (if useH then 16 else 14) + ε) ∧
          (|c.c - lam| ≤ 1 / C → (∀ F, |F - lam| ≤ |c.c - lam| + C * (H ^ (if useH then 16 else 14) + ε) → AngleFit C H ε (if useH then 16 else 14) vs r.sectors F) →
            ∃ E', newton me pi tol c.c = .ok ((n : ℤ), E') ∧ ((n : ℤ), E') ∈ L ∧ |E' - lam| ≤ C * (tol ^ 2 + H ^ (if useH then 16 else 14) + ε) + (1 / 2) ^ 2 ^ 20)) ∧
        (∀ n : ℕ, Imin ≤ n → n < Imax → ∃ lam, IsEigenvalueNr W r.sectors dmin dmax (left.y, left.dy) (right.y, right.dy) n lam) ∧
        (L.length : ℤ) = Imax - Imin := by
  obtain ⟨C1, C', C0, hC1, hC', hC0, hC'1, hC01, k1⟩ := counting_instance M hM
  obtain ⟨C2, hC2, k2⟩ := C90_newton_index M hM
  refine ⟨C1 + 2 * C2, by linarith, ?_⟩
  have m1 : C1 ≤ C1 + 2 * C2 := by linarith
  have m2 : 2 * C2 ≤ C1 + 2 * C2 := by linarith
  have m3 : C2 ≤ C1 + 2 * C2 := by linarith
  generalize C1 + 2 * C2 = C at m1 m2 m3
  have hC0' : 0 < C := by linarith
  intro eps ε eta vs W dmin dmax H r useH left right hf hacc hd hd' hmi hl hr l3 l4 r3 r4 hκ
  have hε0 := accurate_nonneg hacc hf.mesh.length_pos
  have hH0 := (fit_pos hf).le
  have hord : (if useH then 16 else 14) = ord useH := rfl
  rw [hord] at hκ ⊢
  set κ := H ^ ord useH + ε with hκd
  have κ0 : 0 ≤ κ := add_nonneg (pow_nonneg hH0 _) hε0
  obtain ⟨me, hme⟩ := matching_total hf (by omega : r.matchIndex < r.sectors.length) eta vs pi useH left right
  refine ⟨me, hme, ?_⟩
  intro tol g Imin Imax fuel w L f hwin hmin hmax hgap hres hrun hgood
  obtain ⟨Emin, Emax⟩ := w
  simp only at hmin hmax hgap hres hgood
  obtain ⟨hlt, hw1, hw2⟩ := C23_window_brackets _ Imin Imax fuel _ hwin
  simp only at hlt hw1 hw2
  unfold eigenvaluesByIndex at hrun
  rw [hwin, Outcome.bind_ok] at hrun
  simp only at hrun
  have hI : 0 ≤ Imin ∧ Imin ≤ Imax := by
    have h := hrun
    unfold helper at h
    by_cases h0 : Imin < 0
    · rw [if_pos h0] at h; cases h
    · rw [if_neg h0] at h
      by_cases h1 : Imax < Imin
      · rw [if_pos h1] at h; cases h
      · omega
  have t1 : C1 * κ ≤ C * κ := mul_le_mul_of_nonneg_right m1 κ0
  have t2 : C2 * κ ≤ C * κ := mul_le_mul_of_nonneg_right (by linarith) κ0
  have t0 : C0 * κ ≤ C * κ := mul_le_mul_of_nonneg_right (by linarith) κ0
  obtain ⟨D, y, dy, z, dz, hD, kD⟩ := k1 eps ε eta vs W dmin dmax H r useH left right me hf hacc hd hd' hmi hl hr (by rw [← hκd]; linarith) hme
  have R := kD Emin Emax g hlt (by linarith) (by linarith) (fun n m lam mu h1 h2 h3 h4 h5 h6 h7 => hgap n m lam mu h1 h2 h3 (by linarith) (by linarith) (by linarith) (by linarith)) (by linarith)
  have okm := fit_okMesh hf (E := 0) (by rw [abs_zero]; linarith)
  obtain ⟨g1, g2, hcount, hcands, hlen⟩ := counting_search R (newton me pi tol) Imin Imax fuel L f hrun
    (fun e he => ⟨(hgood e he).1.mono m1 hH0 hε0 okm.pos, (hgood e he).2⟩)
  have hperm := C20_permutation_of_polished _ _ Emin Emax Imin Imax fuel L f hrun
  have hp0 := Real.pi_pos
  have hcount' : ∀ k : ℤ, (f.cands.map Cand.idx).count k = if Imin ≤ k ∧ k < Imax then 1 else 0 := by
    intro k
    rw [hcount]
    by_cases hk : Imin ≤ k ∧ k < Imax
    · have hne := g1.2 ⟨0, 0, by omega, by simp, by simp⟩ k
      have e1 : (me Emin).2.2 / pi < k := by
        refine lt_of_le_of_ne (hw1.trans (by exact_mod_cast hk.1)) (fun h => hne ?_)
        rw [div_eq_iff hp0.ne'] at h; exact h
      have e2 : (k : ℝ) < (me Emax).2.2 / pi := lt_of_lt_of_le (by exact_mod_cast hk.2) hw2
      rw [if_pos ⟨hk.1, hk.2, e1, e2⟩, if_pos hk]
    · rw [if_neg (fun h => hk ⟨h.1, h.2.1⟩), if_neg hk]
  set δ := C0 * κ with hδ
  have δ0 : 0 ≤ δ := R.nonneg
  have c0 : 0 ≤ C * κ := by positivity
  have ok : ∀ x, Emin - δ ≤ x → x ≤ Emax + δ → |x| ≤ M := fun x h1 h2 => abs_le.mpr ⟨by linarith, by linarith⟩
  have hcand : ∀ c ∈ f.cands, ∃ (n : ℕ) (lam : ℝ), c.idx = (n : ℤ) ∧ IsEigenvalueNr W r.sectors dmin dmax (left.y, left.dy) (right.y, right.dy) n lam ∧
          Emin ≤ c.item.a ∧ c.item.a < c.c ∧ c.c < c.item.b ∧ c.item.b ≤ Emax ∧ c.item.a - C * κ ≤ lam ∧ lam ≤ c.item.b + C * κ ∧
          (|c.c - lam| ≤ 1 / C → (∀ F, |F - lam| ≤ |c.c - lam| + C * κ → AngleFit C H ε (ord useH) vs r.sectors F) →
            ∃ E', newton me pi tol c.c = .ok ((n : ℤ), E') ∧ ((n : ℤ), E') ∈ L ∧ |E' - lam| ≤ C * (tol ^ 2 + H ^ ord useH + ε) + (1 / 2) ^ 2 ^ 20) := by
    intro c hc
    obtain ⟨q1, q2, q3, q4, q5, q6⟩ := hcands c hc
    rw [div_le_iff₀ hp0] at q5
    rw [le_div_iff₀ hp0] at q6
    obtain ⟨lam, l1, l2, l3', l4'⟩ := hD.ivt hC' (ok (c.item.a - δ) (by linarith) (by linarith)) (ok (c.item.b + δ) (by linarith) (by linarith)) (by linarith) q5 q6
    obtain ⟨n, hn1, hn2⟩ := (hD.index lam l3' c.idx).mp l4'
    refine ⟨n, lam, hn1, hn2, q1, q3, q4, q2, by linarith, by linarith, ?_⟩
    intro hcl hfit
    obtain ⟨y, dy, hy, hne, el, er, hfin, hnn⟩ := hn2
    obtain ⟨me', hme', nk⟩ := k2 eps ε eta vs W dmin dmax H lam r useH left right y dy hf hacc hd hd' (by
        have : |lam| ≤ M - 1 := abs_le.mpr ⟨by linarith, by linarith⟩
        linarith) hmi hl hr l3 l4 r3 r4 hy hne el er (by rw [hord, ← hκd]; linarith)
    have hmm : me' = me := by
      funext E
      have := hme E
      rw [hme' E] at this
      exact Outcome.ok.inj this
    subst hmm
    rw [hord, ← hκd] at nk
    obtain ⟨E', e1, e2⟩ := nk c.c tol (hcl.trans (one_div_le_one_div_of_le (by linarith) m3))
      (fun F hF => (hfit F (by linarith)).mono m3 hH0 hε0 okm.pos)
    rw [hnn] at e1
    refine ⟨E', e1, ?_, ?_⟩
    · rw [hperm.1.mem_iff]
      have hfa := hperm.2
      clear hperm
      have : ∀ {l1 : List (Cand ℝ)} {l2 : List (Int × ℝ)}, List.Forall₂ (fun (c : Cand ℝ) (v : Int × ℝ) => newton me' pi tol c.c = .ok v) l1 l2 → c ∈ l1 → ((n : ℤ), E') ∈ l2 := by
        intro l1 l2 h
        induction h with
        | nil => intro h; simp at h
        | cons hab _ ih =>
          intro hm
          rcases List.mem_cons.mp hm with rfl | hm
          · rw [e1] at hab
            have := Outcome.ok.inj hab
            rw [← this]; exact List.mem_cons_self
          · exact List.mem_cons_of_mem _ (ih hm)
      exact this hfa hc
    · refine e2.trans ?_
      have : C2 * (tol ^ 2 + κ) ≤ C * (tol ^ 2 + κ) := mul_le_mul_of_nonneg_right m3 (by positivity)
      rw [hκd] at this
      have r1 : tol ^ 2 + (H ^ ord useH + ε) = tol ^ 2 + H ^ ord useH + ε := by ring
      rw [r1] at this
      linarith only [this, e2]
  refine ⟨hcount', hcand, ?_, ?_⟩
  · intro n h1 h2
    have : 0 < (f.cands.map Cand.idx).count (n : ℤ) := by rw [hcount', if_pos ⟨h1, h2⟩]; norm_num
    obtain ⟨c, hc, hcn⟩ := List.mem_map.mp (List.count_pos_iff.mp this)
    obtain ⟨n', lam, e1, e2, -⟩ := hcand c hc
    have : n' = n := by rw [hcn] at e1; exact_mod_cast e1.symm
    exact ⟨lam, this ▸ e2⟩
  · have hp : (f.cands.map Cand.idx).Perm ((Finset.Ico Imin Imax).toList) := by
      rw [List.perm_iff_count]
      intro k
      rw [hcount']
      by_cases hk : Imin ≤ k ∧ k < Imax
      · rw [if_pos hk, List.count_eq_one_of_mem (Finset.nodup_toList _) (by simpa using hk)]
      · rw [if_neg hk, List.count_eq_zero_of_not_mem (by simpa using hk)]
    have := hp.length_eq
    rw [List.length_map, Finset.length_toList, Int.card_Ico] at this
    rw [hlen, this, Int.toNat_of_nonneg (by omega)]

/-! ### Non-vacuity: `V = 0` on `[0, π/√(3/2)]`, eigenvalues `3/2, 6, 27/2, 24, …`; `eigenvaluesByIndex(1, 2)` finds the window `[4, 16]` -/

/-- No point of repeated halving of `[4, 16]` is close to `6` or to `27/2`. -/
theorem halving_box {E : ℝ} (h : Halving 4 16 E) : 1 / 2 ^ 32 ≤ |E - 6| ∧ 1 / 2 ^ 32 ≤ |E - 27 / 2| := by
  obtain ⟨j, m, hj, hm, rfl⟩ := h
  have h2 : (0 : ℝ) < 2 ^ j := by positivity
  have hj2 : (2 : ℝ) ^ j ≤ 2 ^ 31 := pow_le_pow_right₀ (by norm_num) hj
  have key : ∀ c : ℤ, ¬ (3 : ℤ) ∣ c → (1 : ℝ) / 2 ^ 32 ≤ |4 + (16 - 4) * (m : ℝ) / 2 ^ j - (4 + c / 2)| := by
    intro c hc
    have e : 4 + (16 - 4) * (m : ℝ) / 2 ^ j - (4 + c / 2) = (24 * m - c * 2 ^ j) / (2 * 2 ^ j) := by field_simp; ring
    rw [e, abs_div, abs_of_pos (show (0 : ℝ) < 2 * 2 ^ j by positivity)]
    have hne : (1 : ℝ) ≤ |24 * (m : ℝ) - c * 2 ^ j| := by
      have : (24 * (m : ℤ) - c * 2 ^ j) ≠ 0 := by
        intro h
        have h3 : (3 : ℤ) ∣ c * 2 ^ j := ⟨8 * m, by linarith⟩
        rcases Int.Prime.dvd_mul' (by norm_num : Nat.Prime 3) h3 with h | h
        · exact hc h
        · have := Int.Prime.dvd_pow' (by norm_num : Nat.Prime 3) h
          norm_num at this
      have := Int.one_le_abs this
      exact_mod_cast this
    rw [div_le_div_iff₀ (by positivity) (by positivity)]
    have : (1 : ℝ) * 2 ^ 32 ≤ |24 * (m : ℝ) - c * 2 ^ j| * 2 ^ 32 := mul_le_mul_of_nonneg_right hne (by positivity)
    linarith
  have k1 := key 4 (by norm_num)
  have k2 := key 19 (by norm_num)
  norm_num at k1 k2 ⊢
  exact ⟨k1, k2⟩

theorem box_index : ∃ N0 : ℕ, ∀ (n : ℕ) (cmp : Sec ℝ → Sec ℝ → Bool), N0 ≤ n → ∃ r me, uniformBuild cmp n 0 boxB = .ok r ∧
    (∀ F, (constructOf 0 etaExact (exactVs fun _ => 0) 0 boxB r).matchingError pi F ⟨0, 1, 0, 0⟩ ⟨0, 1, 0, 0⟩ true = .ok (me F)) ∧
    ∀ (tol : ℝ) (fuel : ℕ), 2 ^ 32 ≤ fuel → window (fun E => (me E).2.2 / pi) 1 2 fuel = .ok (4, 16) ∧
      ∃ L f c, eigenvaluesByIndex (fun E => (me E).2.2 / pi) (newton me pi tol) 1 2 fuel = .ok (L, f) ∧ L.length = 1 ∧ f.cands = [c] ∧ c.idx = 1 ∧
        c.item.a - 1 ≤ 6 ∧ 6 ≤ c.item.b + 1 := by
  obtain ⟨C1, hC1, k1⟩ := C95_by_index 30 (by norm_num)
  obtain ⟨C2, hC2, k2⟩ := C91_exact_eigenvalues_apart 30 (by norm_num)
  obtain ⟨C3, hC3, k3⟩ := C92_sturm_count 30 (by norm_num)
  set C := C1 + C2 + C3 with hC
  have c1 : 1 ≤ C := by linarith
  obtain ⟨N0, hN0⟩ := exists_nat_gt (max (16 * C) (4 * C * 2 ^ 32))
  refine ⟨N0, fun n cmp hn => ?_⟩
  have hn' : (N0 : ℝ) ≤ n := by exact_mod_cast hn
  have hn8 : 16 * C ≤ n := (le_max_left _ _).trans (hN0.le.trans hn')
  have hnw : 4 * C * 2 ^ 32 < n := (le_max_right _ _).trans_lt (hN0.trans_le hn')
  have hn0 : (0 : ℝ) < n := by linarith
  obtain ⟨r, e1, hm, hf, hacc, hev, hκ, hfit⟩ := box_fit c1 hn8 cmp
  have hB := boxB_range
  have hH0 := (fit_pos hf).le
  have okm := fit_okMesh hf (E := 0) (by norm_num)
  set h : ℝ := (boxB - 0) / n with hh
  have hh1 : h ≤ 1 := hf.small
  have hκw : C * (h ^ 16 + 0) < 1 / 2 ^ 32 := by
    have a1 : h ^ 16 ≤ h := pow_le_of_le_one hH0 hh1 (by norm_num)
    have a2 : C * h ^ 16 ≤ C * h := mul_le_mul_of_nonneg_left a1 (by linarith)
    have a3 : C * h < 1 / 2 ^ 32 := by
      rw [hh, lt_div_iff₀ (by positivity), show C * ((boxB - 0) / n) * 2 ^ 32 = (boxB * C * 2 ^ 32) / n by ring, div_lt_iff₀ hn0]
      have : boxB * C ≤ 4 * C := mul_le_mul_of_nonneg_right hB.2 (by linarith)
      linarith
    rw [add_zero]; linarith
  have κ0 : 0 ≤ h ^ 16 + 0 := by positivity
  have le1 : C1 * (h ^ 16 + 0) ≤ C * (h ^ 16 + 0) := mul_le_mul_of_nonneg_right (by linarith) κ0
  have le3 : C3 * (h ^ 16 + 0) ≤ C * (h ^ 16 + 0) := mul_le_mul_of_nonneg_right (by linarith) κ0
  have w32 : (1 : ℝ) / 2 ^ 32 ≤ 1 / 2 := by norm_num
  have hB0 : boxB - 0 ≤ 30 := by linarith
  have hB1 : 1 / 30 ≤ boxB - 0 := by linarith
  have ap := fun m m' mu mu' => k2 0 h _ 0 boxB r.sectors (0, 1) (0, 1) hf hB0 hB1 (Or.inr one_ne_zero) (Or.inr one_ne_zero) m m' mu mu'
  have l0 : IsEigenvalueNr (fun _ _ => 0) r.sectors 0 boxB (0, 1) (0, 1) 0 (3 / 2) := by have := hev 0; norm_num at this; norm_num; exact this
  have l1 : IsEigenvalueNr (fun _ _ => 0) r.sectors 0 boxB (0, 1) (0, 1) 1 6 := by have := hev 1; norm_num at this; exact this
  have l2 : IsEigenvalueNr (fun _ _ => 0) r.sectors 0 boxB (0, 1) (0, 1) 2 (27 / 2) := by have := hev 2; norm_num at this; norm_num; exact this
  have l3 : IsEigenvalueNr (fun _ _ => 0) r.sectors 0 boxB (0, 1) (0, 1) 3 24 := by have := hev 3; norm_num at this; exact this
  -- the eigenvalues below 24 are 3/2, 6 and 27/2
  have hall : ∀ (m : ℕ) (mu : ℝ), IsEigenvalueNr (fun _ _ => 0) r.sectors 0 boxB (0, 1) (0, 1) m mu → -30 ≤ mu → mu < 24 → (m = 0 ∧ mu = 3 / 2) ∨ (m = 1 ∧ mu = 6) ∨ (m = 2 ∧ mu = 27 / 2) := by
    intro m mu hmu h1 h2
    have hM : |mu| ≤ 30 := abs_le.mpr ⟨h1, by linarith⟩
    have hlt : m < 3 := by
      rcases lt_trichotomy m 3 with q | q | q
      · exact q
      · have := (ap m 3 mu 24 hM (by norm_num) hmu l3).1.mp q
        linarith
      · have := (ap 3 m 24 mu (by norm_num) hM l3 hmu).2.mp q
        have : 0 < 1 / C2 := by positivity
        linarith
    interval_cases m
    · exact Or.inl ⟨rfl, (ap 0 0 mu (3 / 2) hM (by norm_num [abs_of_pos]) hmu l0).1.mp rfl⟩
    · exact Or.inr (Or.inl ⟨rfl, (ap 1 1 mu 6 hM (by norm_num [abs_of_pos]) hmu l1).1.mp rfl⟩)
    · exact Or.inr (Or.inr ⟨rfl, (ap 2 2 mu (27 / 2) hM (by norm_num [abs_of_pos]) hmu l2).1.mp rfl⟩)
  have hfar : ∀ E, 1 ≤ E → E ≤ 16 → 1 / 2 ^ 32 ≤ |E - 3 / 2| → 1 / 2 ^ 32 ≤ |E - 6| → 1 / 2 ^ 32 ≤ |E - 27 / 2| → ∀ (m : ℕ) (mu : ℝ),
      IsEigenvalueNr (fun _ _ => 0) r.sectors 0 boxB (0, 1) (0, 1) m mu → 1 / 2 ^ 32 ≤ |E - mu| := by
    intro E hE1 hE2 h1 h2 h3 m mu hmu
    by_cases hmu2 : -30 ≤ mu ∧ mu < 24
    · rcases hall m mu hmu hmu2.1 hmu2.2 with ⟨-, rfl⟩ | ⟨-, rfl⟩ | ⟨-, rfl⟩
      · exact h1
      · exact h2
      · exact h3
    · rw [not_and_or, not_le, not_lt] at hmu2
      rcases hmu2 with q | q
      · rw [abs_of_nonneg (show 0 ≤ E - mu by linarith)]; linarith
      · rw [abs_of_nonpos (show E - mu ≤ 0 by linarith)]; linarith
  obtain ⟨me, m1, m2, m3⟩ := k3 0 0 etaExact (exactVs fun _ => 0) (fun _ _ => 0) 0 boxB h r true ⟨0, 1, 0, 0⟩ ⟨0, 1, 0, 0⟩ hf hacc
    hB0 hB1 hm (Or.inr one_ne_zero) (Or.inr one_ne_zero) (by simp only [if_true]; linarith)
  obtain ⟨me', n1, n2⟩ := k1 0 0 etaExact (exactVs fun _ => 0) (fun _ _ => 0) 0 boxB h r true ⟨0, 1, 0, 0⟩ ⟨0, 1, 0, 0⟩ hf hacc
    hB0 hB1 hm (Or.inr one_ne_zero) (Or.inr one_ne_zero) rfl rfl rfl rfl (by simp only [if_true]; linarith)
  have hmm : me' = me := by
    funext E
    have := m1 E
    rw [n1 E] at this
    exact Outcome.ok.inj this
  subst hmm
  simp only [if_true] at m2 m3 n2
  have fit3 : ∀ E, 1 ≤ E → AngleFit C3 h 0 16 (exactVs fun _ => 0) r.sectors E := fun E hE => (hfit E hE).mono (by linarith) hH0 le_rfl okm.pos
  have inM : ∀ E : ℝ, 1 ≤ E → E ≤ 16 → |E| + 1 ≤ 30 := fun E h1 h2 => by rw [abs_of_pos (by linarith)]; linarith
  have far : ∀ E : ℝ, E = 1 ∨ E = 2 ∨ E = 4 ∨ E = 8 ∨ E = 16 → ∀ (m : ℕ) (mu : ℝ),
      IsEigenvalueNr (fun _ _ => 0) r.sectors 0 boxB (0, 1) (0, 1) m mu → C3 * (h ^ 16 + 0) < |E - mu| := by
    intro E hE m mu hmu
    refine le3.trans_lt (hκw.trans_le (hfar E ?_ ?_ ?_ ?_ ?_ m mu hmu)) <;> rcases hE with rfl | rfl | rfl | rfl | rfl <;> norm_num [abs_of_pos, abs_of_neg]
  have cnt : ∀ E F : ℝ, (E = 1 ∨ E = 2 ∨ E = 4 ∨ E = 8 ∨ E = 16) → (F = 1 ∨ F = 2 ∨ F = 4 ∨ F = 8 ∨ F = 16) → E < F → ∀ k : ℤ, _ := fun E F hE hF hEF =>
    (m3 E F hEF (inM E (by rcases hE with rfl | rfl | rfl | rfl | rfl <;> norm_num) (by rcases hE with rfl | rfl | rfl | rfl | rfl <;> norm_num))
      (inM F (by rcases hF with rfl | rfl | rfl | rfl | rfl <;> norm_num) (by rcases hF with rfl | rfl | rfl | rfl | rfl <;> norm_num))
      (fit3 E (by rcases hE with rfl | rfl | rfl | rfl | rfl <;> norm_num)) (fit3 F (by rcases hF with rfl | rfl | rfl | rfl | rfl <;> norm_num))
      (fun m mu hmu => ⟨far E hE m mu hmu, far F hF m mu hmu⟩)).2.2
  have ne : ∀ E : ℝ, (E = 1 ∨ E = 2 ∨ E = 4 ∨ E = 8 ∨ E = 16) → ∀ k : ℤ, (me' E).2.2 / pi ≠ k := fun E hE k hk => by
    refine m2 E (inM E (by rcases hE with rfl | rfl | rfl | rfl | rfl <;> norm_num) (by rcases hE with rfl | rfl | rfl | rfl | rfl <;> norm_num))
      (fit3 E (by rcases hE with rfl | rfl | rfl | rfl | rfl <;> norm_num)) (far E hE) k ?_
    rwa [div_eq_iff Real.pi_ne_zero] at hk
  set θ : ℝ → ℝ := fun E => (me' E).2.2 / pi with hθ
  have c12 := (cnt 1 2 (by simp) (by simp) (by norm_num) 0).mpr ⟨0, 3 / 2, by simp, by norm_num, by norm_num, l0⟩
  have c28 := (cnt 2 8 (by simp) (by simp) (by norm_num) 1).mpr ⟨1, 6, by simp, by norm_num, by norm_num, l1⟩
  have c48 := (cnt 4 8 (by simp) (by simp) (by norm_num) 1).mpr ⟨1, 6, by simp, by norm_num, by norm_num, l1⟩
  have c816 := (cnt 8 16 (by simp) (by simp) (by norm_num) 2).mpr ⟨2, 27 / 2, by simp, by norm_num, by norm_num, l2⟩
  have f1 : ⌊θ 1⌋ < 1 := by
    have : θ 1 ≤ (0 : ℤ) := Int.ceil_le.mp c12.1
    rw [Int.floor_lt]; push_cast at this ⊢; linarith
  have f2 : ⌊θ 2⌋ < 1 := by
    rw [Int.floor_lt]
    exact lt_of_le_of_ne (Int.ceil_le.mp c28.1) (ne 2 (by simp) 1)
  have f4 : ⌊θ 4⌋ < 1 := by
    rw [Int.floor_lt]
    exact lt_of_le_of_ne (Int.ceil_le.mp c48.1) (ne 4 (by simp) 1)
  have f8 : ⌊θ 8⌋ = 1 := by
    rw [Int.floor_eq_iff]
    refine ⟨(Int.lt_ceil.mp c48.2).le, ?_⟩
    have := lt_of_le_of_ne (Int.ceil_le.mp c816.1) (ne 8 (by simp) 2)
    push_cast at this ⊢
    linarith
  have f16 : 2 ≤ ⌊θ 16⌋ := by
    rw [Int.le_floor]
    exact (Int.lt_ceil.mp c816.2).le
  refine ⟨r, me', e1, m1, fun tol fuel hfuel => ?_⟩
  have hwin : window θ 1 2 fuel = .ok (4, 16) := by
    obtain ⟨k, rfl⟩ : ∃ k, fuel = k + 4 := ⟨fuel - 4, by omega⟩
    have e : ∀ x, CInt.floor (θ x) = some ⌊θ x⌋ := fun _ => rfl
    unfold window
    have s1 : ∀ (k : ℕ) (a b : ℝ), ⌊θ b⌋ < 1 → expandMax θ 1 2 (k + 1) (a, b) = expandMax θ 1 2 k (b, b * 2) := by
      intro k a b hb
      rw [expandMax]
      simp only [e, toInt, Outcome.bind_ok, ccmp_lit, Rat.cast_ofNat]
      rw [if_neg (by omega), if_pos hb]
    have s2 : ∀ (k : ℕ) (a b : ℝ), ⌊θ b⌋ = 1 → expandMax θ 1 2 (k + 1) (a, b) = expandMax θ 1 2 k (a, b * 2) := by
      intro k a b hb
      rw [expandMax]
      simp only [e, toInt, Outcome.bind_ok, ccmp_lit, Rat.cast_ofNat]
      rw [if_neg (by omega), if_neg (by omega)]
    have s3 : ∀ (k : ℕ) (a b : ℝ), 2 ≤ ⌊θ b⌋ → expandMax θ 1 2 k (a, b) = .ok (a, b) := by
      intro k a b hb
      rw [expandMax.eq_def]
      simp only [e, toInt, Outcome.bind_ok]
      rw [if_pos hb]; rfl
    simp only [ccmp_lit]
    push_cast
    rw [s1 _ _ _ f1, s1 _ _ _ (by norm_num; exact f2), s1 _ _ _ (by norm_num; exact f4), s2 _ _ _ (by norm_num; exact f8), s3 _ _ _ (by norm_num; exact f16)]
    simp only [Outcome.bind_ok, ccmp_eq]
    norm_num
  refine ⟨hwin, ?_⟩
  obtain ⟨L, f, hrun⟩ := helper_ok θ me' tol 4 16 (Imin := 1) (Imax := 2) (by norm_num) (by norm_num) (by omega : 2 ^ 32 - 1 ≤ fuel)
  have hrun' : eigenvaluesByIndex θ (newton me' pi tol) 1 2 fuel = .ok (L, f) := by
    unfold eigenvaluesByIndex
    rw [hwin, Outcome.bind_ok]
    exact hrun
  have hmem := evals_mem (by norm_num) hrun
  obtain ⟨g1, g2, -, g4⟩ := n2 tol 4 1 2 fuel (4, 16) L f hwin (by norm_num) (by norm_num)
    (fun m m' lam mu h1 h2 h3 a1 a2 a3 a4 => by
      simp only at a1 a2 a3 a4
      rcases hall m lam h1 (by linarith) (by linarith) with ⟨q, rfl⟩ | ⟨q, rfl⟩ | ⟨q, rfl⟩ <;>
      rcases hall m' mu h2 (by linarith) (by linarith) with ⟨q', rfl⟩ | ⟨q', rfl⟩ | ⟨q', rfl⟩ <;> first | omega | norm_num)
    (by norm_num at hκw ⊢; linarith) hrun'
    (fun E hE => by
      obtain ⟨b1, b2⟩ := hmem E hE
      refine ⟨(hfit E (by linarith)).mono (by linarith) hH0 le_rfl okm.pos, fun hhalf => ?_⟩
      obtain ⟨v1, v2⟩ := halving_box hhalf
      exact m2 E (inM E (by linarith) b2) (fit3 E (by linarith)) (fun m mu hmu => le3.trans_lt (hκw.trans_le
        (hfar E (by linarith) b2 (by rw [abs_of_pos (show 0 < E - 3 / 2 by linarith)]; linarith) v1 v2 m mu hmu))))
  have hlen : f.cands.length = 1 := by
    have := (C20_permutation_of_polished _ _ 4 16 1 2 fuel L f hrun)
    have h1 := this.1.length_eq
    have h2 := this.2.length_eq
    omega
  obtain ⟨c, hc⟩ := List.length_eq_one_iff.mp hlen
  have hidx : c.idx = 1 := by
    have := g1 1
    rw [hc] at this
    by_contra hne
    rw [List.map_cons, List.map_nil, List.count_eq_zero_of_not_mem (by simpa using fun h => hne h.symm)] at this
    norm_num at this
  obtain ⟨m, lam, p1, p2, p3, p4, p5, p6, p7, p8, -⟩ := g2 c (by rw [hc]; simp)
  have hm1 : m = 1 := by rw [hidx] at p1; exact_mod_cast p1.symm
  subst hm1
  refine ⟨L, f, c, hrun', by omega, hc, hidx, ?_⟩
  simp only at p3 p6
  rcases hall 1 lam p2 (by linarith) (by linarith) with ⟨q, -⟩ | ⟨-, rfl⟩ | ⟨q, -⟩
  · omega
  · exact ⟨by linarith, by linarith⟩
  · omega

end Verif.Solver
