import Verif.Props.SturmCount

/-!
# C91: `eigenvalues` on a smooth problem finds every eigenvalue of the window, with its number

`constructOf …` is the solver as constructed (`Model/Solver.lean`), `helper`, `eigenvalues` and `newton` the search and the polishing
(`Model/Search.lean`). `IsEigenvalueNr … n lam` (`Spec/EigenNr.lean`): `lam` is an exact eigenvalue, and its eigenfunction has `n` zeros.
`AngleFit` (`Props/AngleConverge.lean`): the energy is not just above the average of the potential over a sector, where the code's angle is
off by `π` (finding of C89).
-/
namespace Verif.Solver
open Verif Verif.Prufer Verif.YT Verif.CalcT Verif.Mesh Verif.Propag Verif.Formulas Verif.Legendre Verif.Spec Verif.Search
open Real (pi)

theorem loop_ok {θ : ℝ → ℝ} {nw : ℝ → Outcome (Int × ℝ)} (hnw : ∀ c, ∃ v, nw c = .ok v) (Imin Imax : Int) (fuel : Nat) :
    ∀ (qs : List (Item ℝ)) (acc : Found ℝ), searchLoop θ nw Imin Imax fuel qs acc ≠ .timeout → ∃ f, searchLoop θ nw Imin Imax fuel qs acc = .ok f := by
  induction fuel with
  | zero =>
    intro qs acc h
    cases qs with
    | nil => exact ⟨acc, by simp [searchLoop]⟩
    | cons q qs => simp [searchLoop] at h
  | succ fuel ih =>
    intro qs acc h
    cases qs with
    | nil => exact ⟨acc, by simp [searchLoop]⟩
    | cons q qs =>
      unfold searchLoop at h ⊢
      have hs := stepItem_exact θ Imin Imax q
      simp only [] at hs
      rw [hs, Outcome.bind_ok] at h ⊢
      generalize (if q.tb ≤ q.ta ∨ ⌈q.ta⌉ = ⌈q.tb⌉ ∨ ⌈q.tb⌉ ≤ Imin ∨ Imax ≤ ⌈q.ta⌉ then Action.skip else _) = act at h ⊢
      cases act with
      | skip => exact ih _ _ h
      | push items e => exact ih _ _ h
      | drop e => exact ih _ _ h
      | cand c e =>
        obtain ⟨v, hv⟩ := hnw c.c
        simp only [hv, Outcome.bind_ok] at h ⊢
        exact ih _ _ h

theorem newton_ok (me : ℝ → ℝ × ℝ × ℝ) (tol c : ℝ) : ∃ v, newton me pi tol c = .ok v := by
  unfold newton
  exact ⟨_, rfl⟩

theorem helper_ok (θ : ℝ → ℝ) (me : ℝ → ℝ × ℝ × ℝ) (tol Emin Emax : ℝ) {Imin Imax : Int} (h0 : 0 ≤ Imin) (h1 : Imin ≤ Imax) {fuel : Nat} (hf : 2 ^ 32 - 1 ≤ fuel) :
    ∃ L f, helper θ (newton me pi tol) Emin Emax Imin Imax fuel = .ok (L, f) := by
  have ht := (C19_search_terminates θ (newton me pi tol) (fun c => by obtain ⟨v, hv⟩ := newton_ok me tol c; rw [hv]; simp) Emin Emax Imin Imax fuel hf).1
  unfold helper at ht ⊢
  rw [if_neg (by omega), if_neg (by omega)] at ht ⊢
  obtain ⟨f, hf⟩ := loop_ok (newton_ok me tol) Imin Imax fuel [⟨Emin, θ Emin, Emax, θ Emax, 0⟩] ⟨[], [], [Emin, Emax]⟩ (fun h => by rw [h] at ht; exact ht rfl)
  rw [hf]
  exact ⟨_, _, rfl⟩

theorem evals_mem {θ : ℝ → ℝ} {nw : ℝ → Outcome (Int × ℝ)} {Emin Emax : ℝ} {Imin Imax : Int} {fuel : Nat} {L : List (Int × ℝ)} {f : Found ℝ} (hE : Emin ≤ Emax)
    (h : helper θ nw Emin Emax Imin Imax fuel = .ok (L, f)) : ∀ e ∈ f.evals, Emin ≤ e ∧ e ≤ Emax := (C25_energies_inside θ nw Emin Emax hE Imin Imax fuel L f h).2

/-- **C91** (every eigenvalue of the window is located, once, under its number, and nothing else is). `κ = H^16 + ε` (without the coefficients `h`:
`H^14 + ε`) is the accuracy of the solver. If exact eigenvalues with different numbers are at least `g` apart, more than `2⁻³¹` of the window (`C91_exact_eigenvalues_apart`
gives such a `g` for every problem), no exact eigenvalue lies within `C κ` of an end of the window, and every energy at which the search
evaluates the matching angle is one at which the angle is meaningful (`AngleFit`; and at a point of repeated halving the angle is not exactly a
multiple of `π`), then: each exact eigenvalue of the window whose number is requested has exactly one candidate with that number, and lies up to `C κ`
in its bracket; each candidate comes from such an eigenvalue; and a candidate within `1 / C` of its eigenvalue gives a result with the correct number,
as accurate as Newton's method and the solver allow. -/
theorem C91_search_complete (M : ℝ) (hM : 1 ≤ M) : ∃ C : ℝ, 1 ≤ C ∧ ∀ (eps ε : ℝ) (eta : ℕ → ℝ → ℕ → ℝ) (vs : Sec ℝ → ℕ → ℝ) (W : Sec ℝ → ℝ → ℝ)
    (dmin dmax H : ℝ) (r : BuildResult ℝ) (useH : Bool) (left right : Y ℝ),
    FitMesh eps M H W dmin dmax r.sectors → AccurateTo ε W r.sectors eta vs → dmax - dmin ≤ M → 1 / M ≤ dmax - dmin →
    r.matchIndex + 1 < r.sectors.length → (left.y ≠ 0 ∨ left.dy ≠ 0) → (right.y ≠ 0 ∨ right.dy ≠ 0) →
    left.yE = 0 → left.dyE = 0 → right.yE = 0 → right.dyE = 0 → C * (H ^ (if useH then 16 else 14) + ε) ≤ 1 →
    ∃ me : ℝ → ℝ × ℝ × ℝ, (∀ E, (constructOf eps eta vs dmin dmax r).matchingError pi E left right useH = .ok (me E)) ∧
      ∀ (tol Emin Emax g : ℝ) (Imin Imax : Int) (fuel : Nat) (L : List (Int × ℝ)) (f : Found ℝ),
        Emin < Emax → -M + 1 ≤ Emin → Emax ≤ M - 1 →
        EigenGap W r.sectors dmin dmax (left.y, left.dy) (right.y, right.dy) (Emin - C * (H ^ (if useH then 16 else 14) + ε)) (Emax + C * (H ^ (if useH then 16 else 14) + ε)) g →
        8 * (C * (H ^ (if useH then 16 else 14) + ε)) + (Emax - Emin) / 2 ^ 31 < g →
        helper (fun E => (me E).2.2 / pi) (newton me pi tol) Emin Emax Imin Imax fuel = .ok (L, f) →
        (∀ E ∈ f.evals, AngleFit C H ε (if useH then 16 else 14) vs r.sectors E ∧ (Halving Emin Emax E → ∀ j : ℤ, (me E).2.2 ≠ j * pi)) →
        (∀ (n : ℕ) (lam : ℝ), IsEigenvalueNr W r.sectors dmin dmax (left.y, left.dy) (right.y, right.dy) n lam →
          C * (H ^ (if useH then 16 else 14) + ε) < |Emin - lam| ∧ C * (H ^ (if useH then 16 else 14) + ε) < |Emax - lam|) →
        (∀ (n : ℕ) (lam : ℝ), IsEigenvalueNr W r.sectors dmin dmax (left.y, left.dy) (right.y, right.dy) n lam → Emin < lam → lam < Emax → Imin ≤ n → n < Imax →
          (f.cands.map Cand.idx).count (n : ℤ) = 1) ∧
        (∀ c ∈ f.cands, ∃ (n : ℕ) (lam : ℝ), c.idx = (n : ℤ) ∧ IsEigenvalueNr W r.sectors dmin dmax (left.y, left.dy) (right.y, right.dy) n lam ∧
          Emin < lam ∧ lam < Emax ∧ Imin ≤ n ∧ n < Imax ∧ Emin ≤ c.item.a ∧ c.item.a < c.c ∧ c.c < c.item.b ∧ c.item.b ≤ Emax ∧
          c.item.a - C * (H ^ (if useH then 16 else 14) + ε) ≤ lam ∧ lam ≤ c.item.b + C * (H ^ (if useH then 16 else 14) + ε) ∧
          (|c.c - lam| ≤ 1 / C → (∀ F, |F - lam| ≤ |c.c - lam| + C * (H ^ (if useH then 16 else 14) + ε) → AngleFit C H ε (if useH then 16 else 14) vs r.sectors F) →
            ∃ E', newton me pi tol c.c = .ok ((n : ℤ), E') ∧ ((n : ℤ), E') ∈ L ∧ |E' - lam| ≤ C * (tol ^ 2 + H ^ (if useH then 16 else 14) + ε) + (1 / 2) ^ 2 ^ 20)) ∧
        L.length = f.cands.length := by
  obtain ⟨C1, C', C0, hC1, hC', hC0, hC'1, hC01, k1⟩ := counting_instance M hM
  obtain ⟨C2, hC2, k2⟩ := C90_newton_index M hM
  refine ⟨max C1 C2, hC1.trans (le_max_left _ _), ?_⟩
  have m1 : C1 ≤ max C1 C2 := le_max_left _ _
  have m2 : C2 ≤ max C1 C2 := le_max_right _ _
  generalize max C1 C2 = C at m1 m2
  have hC0' : 0 < C := by linarith
  intro eps ε eta vs W dmin dmax H r useH left right hf hacc hd hd' hmi hl hr l3 l4 r3 r4 hκ
  have hε0 := accurate_nonneg hacc hf.mesh.length_pos
  have hH0 := (fit_pos hf).le
  have hord : (if useH then 16 else 14) = ord useH := rfl
  rw [hord] at hκ ⊢
  set κ := H ^ ord useH + ε with hκd
  have κ0 : 0 ≤ κ := add_nonneg (pow_nonneg hH0 _) hε0
  obtain ⟨me, hme⟩ := matching_total hf (by omega : r.matchIndex < r.sectors.length) eta vs pi useH left right
  refine ⟨me, hme, ?_⟩
  intro tol Emin Emax g Imin Imax fuel L f hlt hmin hmax hgap hres hrun hgood hends
  have t1 : C1 * κ ≤ C * κ := mul_le_mul_of_nonneg_right m1 κ0
  have t2 : C2 * κ ≤ C * κ := mul_le_mul_of_nonneg_right m2 κ0
  have t0 : C0 * κ ≤ C * κ := mul_le_mul_of_nonneg_right (by linarith) κ0
  obtain ⟨D, y, dy, z, dz, hD, kD⟩ := k1 eps ε eta vs W dmin dmax H r useH left right me hf hacc hd hd' hmi hl hr (by rw [← hκd]; linarith) hme
  have R := kD Emin Emax g hlt (by linarith) (by linarith) (fun n m lam mu h1 h2 h3 h4 h5 h6 h7 => hgap n m lam mu h1 h2 h3 (by linarith) (by linarith) (by linarith) (by linarith)) (by linarith)
  have okm := fit_okMesh hf (E := 0) (by rw [abs_zero]; linarith)
  obtain ⟨g1, g2, hcount, hcands, hlen⟩ := counting_search R (newton me pi tol) Imin Imax fuel L f hrun
    (fun e he => ⟨(hgood e he).1.mono m1 hH0 hε0 okm.pos, (hgood e he).2⟩)
  have hperm := C20_permutation_of_polished _ _ Emin Emax Imin Imax fuel L f hrun
  set δ := C0 * κ with hδ
  have δ0 : 0 ≤ δ := R.nonneg
  have hp0 := Real.pi_pos
  have c0 : 0 ≤ C * κ := by positivity
  have δ1 : δ ≤ 1 := by linarith
  have ok : ∀ x, Emin - δ ≤ x → x ≤ Emax + δ → |x| ≤ M := fun x h1 h2 => abs_le.mpr ⟨by linarith, by linarith⟩
  refine ⟨?_, ?_, hlen⟩
  · intro n lam hn e1 e2 i1 i2
    have hlam := ok lam (by linarith) (by linarith)
    have hDn := (hD.index lam hlam n).mpr ⟨n, rfl, hn⟩
    obtain ⟨h1, h2⟩ := hends n lam hn
    rw [hcount, if_pos]
    refine ⟨i1, i2, R.below Emin g1 le_rfl hlt.le n ?_, R.above Emax g2 hlt.le le_rfl n ?_⟩
    · rw [div_lt_iff₀ hp0]
      rw [← hDn]
      rw [abs_sub_comm, abs_of_pos (by linarith)] at h1
      exact hD.mono hC' (ok _ (by linarith) (by linarith)) hlam (by linarith)
    · rw [lt_div_iff₀ hp0]
      rw [← hDn]
      rw [abs_of_pos (by linarith)] at h2
      exact hD.mono hC' hlam (ok _ (by linarith) (by linarith)) (by linarith)
  · intro c hc
    obtain ⟨q1, q2, q3, q4, q5, q6⟩ := hcands c hc
    have hpos : 0 < (f.cands.map Cand.idx).count c.idx := List.count_pos_iff.mpr (List.mem_map_of_mem hc)
    rw [hcount] at hpos
    split at hpos
    · rename_i hin
      obtain ⟨i1, i2, i3, i4⟩ := hin
      rw [div_le_iff₀ hp0] at q5
      rw [le_div_iff₀ hp0] at q6
      obtain ⟨lam, l1, l2, l3', l4'⟩ := hD.ivt hC' (ok (c.item.a - δ) (by linarith) (by linarith)) (ok (c.item.b + δ) (by linarith) (by linarith)) (by linarith) q5 q6
      obtain ⟨n, hn1, hn2⟩ := (hD.index lam l3' c.idx).mp l4'
      obtain ⟨h1, h2⟩ := hends n lam hn2
      have w1 : Emin < lam := by
        by_contra hcon
        rw [abs_of_nonneg (by linarith)] at h1
        linarith
      have w2 : lam < Emax := by
        by_contra hcon
        rw [abs_sub_comm, abs_of_nonneg (by linarith)] at h2
        linarith
      refine ⟨n, lam, hn1, hn2, w1, w2, by omega, by omega, q1, q3, q4, q2, by linarith, by linarith, ?_⟩
      intro hcl hfit
      obtain ⟨y, dy, hy, hne, el, er, hfin, hnn⟩ := hn2
      obtain ⟨me', hme', nk⟩ := k2 eps ε eta vs W dmin dmax H lam r useH left right y dy hf hacc hd hd' (by
          have : |lam| ≤ M - 1 := abs_le.mpr ⟨by linarith, by linarith⟩
          linarith) hmi hl hr l3 l4 r3 r4 hy hne el er (by rw [hord, ← hκd]; linarith)
      have hmm : me' = me := by
        funext E
        have := hme E
        rw [hme' E] at this
        exact Outcome.ok.inj this
      subst hmm
      rw [hord, ← hκd] at nk
      obtain ⟨E', e1, e2⟩ := nk c.c tol (hcl.trans (one_div_le_one_div_of_le (by linarith) m2))
        (fun F hF => (hfit F (by linarith)).mono m2 hH0 hε0 okm.pos)
      rw [hnn] at e1
      refine ⟨E', e1, ?_, ?_⟩
      · rw [hperm.1.mem_iff]
        have hfa := hperm.2
        clear hperm
        have : ∀ {l1 : List (Cand ℝ)} {l2 : List (Int × ℝ)}, List.Forall₂ (fun (c : Cand ℝ) (v : Int × ℝ) => newton me' pi tol c.c = .ok v) l1 l2 → c ∈ l1 → ((n : ℤ), E') ∈ l2 := by
          intro l1 l2 h
          induction h with
          | nil => intro h; simp at h
          | cons hab _ ih =>
            intro hm
            rcases List.mem_cons.mp hm with rfl | hm
            · rw [e1] at hab
              have := Outcome.ok.inj hab
              rw [← this]; exact List.mem_cons_self
            · exact List.mem_cons_of_mem _ (ih hm)
        exact this hfa hc
      · refine e2.trans ?_
        have : C2 * (tol ^ 2 + κ) ≤ C * (tol ^ 2 + κ) := mul_le_mul_of_nonneg_right m2 (by positivity)
        rw [hκd] at this
        have r1 : tol ^ 2 + (H ^ ord useH + ε) = tol ^ 2 + H ^ ord useH + ε := by ring
        rw [r1] at this
        linarith only [this, e2]
    · exact absurd hpos (lt_irrefl 0)

/-- The exact eigenvalues of a problem: a larger number means a larger eigenvalue, by more than `1 / C` with `C` depending on the size of the problem only. -/
theorem C91_exact_eigenvalues_apart (M : ℝ) (hM : 1 ≤ M) : ∃ C : ℝ, 1 ≤ C ∧ ∀ (eps H : ℝ) (W : Sec ℝ → ℝ → ℝ) (dmin dmax : ℝ) (secs : List (Sec ℝ)) (L R : ℝ × ℝ),
    FitMesh eps M H W dmin dmax secs → dmax - dmin ≤ M → 1 / M ≤ dmax - dmin → (L.1 ≠ 0 ∨ L.2 ≠ 0) → (R.1 ≠ 0 ∨ R.2 ≠ 0) →
    ∀ (n m : ℕ) (lam mu : ℝ), |lam| ≤ M → |mu| ≤ M → IsEigenvalueNr W secs dmin dmax L R n lam → IsEigenvalueNr W secs dmin dmax L R m mu →
      (n = m ↔ lam = mu) ∧ (n < m ↔ lam + 1 / C < mu) := by
  obtain ⟨C, hC, key⟩ := exact_count M hM
  refine ⟨C, hC, ?_⟩
  intro eps H W dmin dmax secs L R hf hd hd' hL hR n m lam mu hlam hmu hn hm
  have pos : ∀ Y : ℝ × ℝ, (Y.1 ≠ 0 ∨ Y.2 ≠ 0) → 0 < sz Y := fun Y h => sz_pos_iff.mpr (fun h' => h.elim (fun q => q h'.1) (fun q => q h'.2))
  obtain ⟨D, y, dy, z, dz, hD⟩ := key W dmin dmax secs L R (fit_ok hf hd hd') (pos _ hL) (pos _ hR)
  have d1 := (hD.index lam hlam n).mpr ⟨n, rfl, hn⟩
  have d2 := (hD.index mu hmu m).mpr ⟨m, rfl, hm⟩
  have c0 : 0 < 1 / C := by positivity
  have up : ∀ {n m : ℕ} {lam mu : ℝ}, |lam| ≤ M → |mu| ≤ M → D lam = ((n : ℤ) : ℝ) * pi → D mu = ((m : ℤ) : ℝ) * pi → n < m → lam + 1 / C < mu :=
    fun h1 h2 h3 h4 h => hD.gap hC h1 h2 h3 h4 (by exact_mod_cast h)
  rcases lt_trichotomy n m with h | h | h
  · have := up hlam hmu d1 d2 h
    exact ⟨⟨fun e => by omega, fun e => by linarith⟩, ⟨fun _ => this, fun _ => h⟩⟩
  · subst h
    have : lam = mu := by
      rcases lt_trichotomy lam mu with q | q | q
      · have := hD.mono hC hlam hmu q
        rw [d1, d2] at this
        exact absurd this (lt_irrefl _)
      · exact q
      · have := hD.mono hC hmu hlam q
        rw [d1, d2] at this
        exact absurd this (lt_irrefl _)
    exact ⟨⟨fun _ => this, fun _ => rfl⟩, ⟨fun e => by omega, fun e => by linarith⟩⟩
  · have := up hmu hlam d2 d1 h
    exact ⟨⟨fun e => by omega, fun e => by linarith⟩, ⟨fun e => by omega, fun e => by linarith⟩⟩

/-- **C91** (the whole call, on a narrow window). If the window is at most `1 / C` wide, `eigenvalues(Emin, Emax)` returns exactly one pair, the number
of the eigenvalue in it with an accurate value, or nothing if there is none. -/
theorem C91_narrow_window (M : ℝ) (hM : 1 ≤ M) : ∃ C : ℝ, 1 ≤ C ∧ ∀ (eps ε : ℝ) (eta : ℕ → ℝ → ℕ → ℝ) (vs : Sec ℝ → ℕ → ℝ) (W : Sec ℝ → ℝ → ℝ)
    (dmin dmax H : ℝ) (r : BuildResult ℝ) (useH : Bool) (left right : Y ℝ),
    FitMesh eps M H W dmin dmax r.sectors → AccurateTo ε W r.sectors eta vs → dmax - dmin ≤ M → 1 / M ≤ dmax - dmin →
    r.matchIndex + 1 < r.sectors.length → (left.y ≠ 0 ∨ left.dy ≠ 0) → (right.y ≠ 0 ∨ right.dy ≠ 0) →
    left.yE = 0 → left.dyE = 0 → right.yE = 0 → right.dyE = 0 → C * (H ^ (if useH then 16 else 14) + ε) ≤ 1 →
    ∃ me : ℝ → ℝ × ℝ × ℝ, (∀ E, (constructOf eps eta vs dmin dmax r).matchingError pi E left right useH = .ok (me E)) ∧
      ∀ (tol Emin Emax : ℝ) (fuel : Nat), Emin < Emax → -M + 1 ≤ Emin → Emax ≤ M - 1 → C * (Emax - Emin) ≤ 1 → 2 ^ 32 - 1 ≤ fuel →
        (∀ F, Emin - (Emax - Emin) - C * (H ^ (if useH then 16 else 14) + ε) ≤ F → F ≤ Emax + (Emax - Emin) + C * (H ^ (if useH then 16 else 14) + ε) →
          AngleFit C H ε (if useH then 16 else 14) vs r.sectors F) →
        (∀ E, Halving Emin Emax E → ∀ j : ℤ, (me E).2.2 ≠ j * pi) →
        (∀ (n : ℕ) (lam : ℝ), IsEigenvalueNr W r.sectors dmin dmax (left.y, left.dy) (right.y, right.dy) n lam →
          C * (H ^ (if useH then 16 else 14) + ε) < |Emin - lam| ∧ C * (H ^ (if useH then 16 else 14) + ε) < |Emax - lam|) →
        ∃ L f, eigenvalues (fun E => (me E).2.2 / pi) (newton me pi tol) Emin Emax fuel = .ok (L, f) ∧
          (∀ (n : ℕ) (lam : ℝ), IsEigenvalueNr W r.sectors dmin dmax (left.y, left.dy) (right.y, right.dy) n lam → Emin < lam → lam < Emax → n < 2147483647 →
            ∃ E', L = [((n : ℤ), E')] ∧ |E' - lam| ≤ C * (tol ^ 2 + H ^ (if useH then 16 else 14) + ε) + (1 / 2) ^ 2 ^ 20) ∧
          ((∀ (n : ℕ) (lam : ℝ), IsEigenvalueNr W r.sectors dmin dmax (left.y, left.dy) (right.y, right.dy) n lam → ¬ (Emin < lam ∧ lam < Emax)) → L = []) := by
  obtain ⟨C1, hC1, k1⟩ := C91_search_complete M hM
  obtain ⟨C2, hC2, k2⟩ := C91_exact_eigenvalues_apart M hM
  have u1 : C1 ≤ C1 * C2 := le_mul_of_one_le_right (by linarith) hC2
  have u2 : C2 ≤ C1 * C2 := le_mul_of_one_le_left (by linarith) hC1
  refine ⟨32 * (C1 * C2), by linarith, ?_⟩
  obtain ⟨C, m3⟩ : ∃ C, C = 32 * (C1 * C2) := ⟨_, rfl⟩
  rw [← m3]
  have m1 : C1 ≤ C := by linarith
  have m2 : C2 ≤ C := by linarith
  have m4 : 32 * C2 ≤ C := by linarith
  have hC0' : 0 < C := by linarith
  intro eps ε eta vs W dmin dmax H r useH left right hf hacc hd hd' hmi hl hr l3 l4 r3 r4 hκ
  have hε0 := accurate_nonneg hacc hf.mesh.length_pos
  have hH0 := (fit_pos hf).le
  have hord : (if useH then 16 else 14) = ord useH := rfl
  rw [hord] at hκ ⊢
  set κ := H ^ ord useH + ε with hκd
  have κ0 : 0 ≤ κ := add_nonneg (pow_nonneg hH0 _) hε0
  have t1 : C1 * κ ≤ C * κ := mul_le_mul_of_nonneg_right m1 κ0
  have okm := fit_okMesh hf (E := 0) (by rw [abs_zero]; linarith)
  obtain ⟨me, hme, key⟩ := k1 eps ε eta vs W dmin dmax H r useH left right hf hacc hd hd' hmi hl hr l3 l4 r3 r4 (by rw [hord, ← hκd]; linarith)
  refine ⟨me, hme, ?_⟩
  intro tol Emin Emax fuel hlt hmin hmax hw hfuel hfit hgen hends
  obtain ⟨L, f, hrun⟩ := helper_ok (fun E => (me E).2.2 / pi) me tol Emin Emax (Imin := 0) (Imax := intMax) le_rfl (by decide) hfuel
  refine ⟨L, f, hrun, ?_⟩
  have hw' : Emax - Emin ≤ 1 / C := by rw [le_div_iff₀ hC0']; linarith
  have c1 : 0 < 1 / C := by positivity
  have hw1 : C1 * (Emax - Emin) ≤ 1 := (mul_le_mul_of_nonneg_right m1 (by linarith)).trans hw
  have hev := evals_mem hlt.le hrun
  rw [hord, ← hκd] at key
  obtain ⟨q1, q2, q3⟩ := key tol Emin Emax (1 / C2) 0 intMax fuel L f hlt hmin hmax
    (fun n m lam mu h1 h2 h3 h4 h5 h6 h7 => by
      have := ((k2 eps H W dmin dmax r.sectors _ _ hf hd hd' hl hr n m lam mu (abs_le.mpr ⟨by linarith, by linarith⟩) (abs_le.mpr ⟨by linarith, by linarith⟩) h1 h2).2).mp h3
      linarith)
    (by
      rw [lt_div_iff₀ (by linarith)]
      have e1 : C1 * C2 * κ * 32 ≤ 1 := by
        have := mul_le_mul_of_nonneg_right m3.ge κ0
        linarith
      have e2 : C2 * (Emax - Emin) * 32 ≤ 1 := by
        have := mul_le_mul_of_nonneg_right m4 (show 0 ≤ Emax - Emin by linarith)
        linarith
      have e3 : (8 * (C1 * κ) + (Emax - Emin) / 2 ^ 31) * C2 = 8 * (C1 * C2 * κ) + C2 * (Emax - Emin) / 2 ^ 31 := by ring
      rw [e3]
      have e4 : C2 * (Emax - Emin) / 2 ^ 31 ≤ C2 * (Emax - Emin) := div_le_self (mul_nonneg (by linarith) (by linarith)) (by norm_num)
      linarith) hrun
    (fun E hE => ⟨(hfit E (by have := mul_nonneg hC0'.le κ0; linarith [(hev E hE).1]) (by have := mul_nonneg hC0'.le κ0; linarith [(hev E hE).2])).mono m1 hH0 hε0 okm.pos, hgen E⟩)
    (fun n lam hn => ⟨t1.trans_lt (hends n lam hn).1, t1.trans_lt (hends n lam hn).2⟩)
  have inM : ∀ {x : ℝ}, Emin < x → x < Emax → |x| ≤ M := fun h1 h2 => abs_le.mpr ⟨by linarith, by linarith⟩
  constructor
  · intro n lam hn e1 e2 i2
    have hc := q1 n lam hn e1 e2 (by omega) (by show (n : ℤ) < 2147483647; exact_mod_cast i2)
    have one : ∀ c ∈ f.cands, c.idx = (n : ℤ) := by
      intro c hc
      obtain ⟨n', mu, g1, g2, g3, g4, -⟩ := q2 c hc
      rcases lt_trichotomy n n' with h | h | h
      · have := ((k2 eps H W dmin dmax r.sectors _ _ hf hd hd' hl hr n n' lam mu (inM e1 e2) (inM g3 g4) hn g2).2).mp h
        have := one_div_le_one_div_of_le (by linarith) m2
        linarith
      · rw [g1, h]
      · have := ((k2 eps H W dmin dmax r.sectors _ _ hf hd hd' hl hr n' n mu lam (inM g3 g4) (inM e1 e2) g2 hn).2).mp h
        have := one_div_le_one_div_of_le (by linarith) m2
        linarith
    have hall : f.cands.map Cand.idx = List.replicate f.cands.length (n : ℤ) := by
      rw [List.eq_replicate_iff]
      refine ⟨by simp, fun b hb => ?_⟩
      obtain ⟨c, hc, rfl⟩ := List.mem_map.mp hb
      exact one c hc
    rw [hall, List.count_replicate_self] at hc
    obtain ⟨c, hcc⟩ := List.length_eq_one_iff.mp hc
    have hcm : c ∈ f.cands := by rw [hcc]; simp
    obtain ⟨n', mu, g1, g2, g3, g4, -, -, p1, p2, p3, p4, -, -, gN⟩ := q2 c hcm
    have hnn : n' = n := by
      have := one c hcm
      rw [g1] at this
      exact_mod_cast this
    subst hnn
    have hmu : mu = lam := ((k2 eps H W dmin dmax r.sectors _ _ hf hd hd' hl hr n' n' mu lam (inM g3 g4) (inM e1 e2) g2 hn).1).mp rfl
    subst hmu
    have hcl : |c.c - mu| ≤ Emax - Emin := abs_le.mpr ⟨by linarith, by linarith⟩
    obtain ⟨E', n1, n2, n3⟩ := gN ((hcl.trans hw').trans (one_div_le_one_div_of_le (by linarith) m1)) (fun F hF => by
      have hF := abs_le.mp (hF.trans (add_le_add hcl t1))
      exact (hfit F (by linarith [hF.1]) (by linarith [hF.2])).mono m1 hH0 hε0 okm.pos)
    refine ⟨E', ?_, ?_⟩
    · rw [hc] at q3
      obtain ⟨v, rfl⟩ := List.length_eq_one_iff.mp q3
      rw [List.mem_singleton] at n2
      rw [n2]
    · refine n3.trans ?_
      have : C1 * (tol ^ 2 + H ^ ord useH + ε) ≤ C * (tol ^ 2 + H ^ ord useH + ε) := mul_le_mul_of_nonneg_right m1 (by have := sq_nonneg tol; linarith)
      linarith only [this]
  · intro hno
    have : f.cands = [] := by
      rw [List.eq_nil_iff_forall_not_mem]
      intro c hc
      obtain ⟨n', mu, g1, g2, g3, g4, -⟩ := q2 c hc
      exact hno n' mu g2 ⟨g3, g4⟩
    rw [this] at q3
    exact List.length_eq_zero_iff.mp q3

/-! ### Non-vacuity: `V = x²` on `[-1, 1]` with conditions `y' = 0`, eigenvalue `3` of number 1 -/

theorem FitMesh.larger {eps M M' H : ℝ} {W : Sec ℝ → ℝ → ℝ} {dmin dmax : ℝ} {secs : List (Sec ℝ)} (h : FitMesh eps M H W dmin dmax secs) (hM : M ≤ M') : FitMesh eps M' H W dmin dmax secs :=
  ⟨h.mesh, h.directed, h.eps_nonneg, h.wide, h.narrow, h.small, fun s hs => by
    obtain ⟨D, h0, h1, h2⟩ := h.smooth s hs
    exact ⟨D, h0, h1, fun j hj x hx => (h2 j hj x hx).trans hM⟩⟩

theorem halving_mem {a b E : ℝ} (hab : a ≤ b) (h : Halving a b E) : a ≤ E ∧ E ≤ b := by
  obtain ⟨j, m, hj, hm, rfl⟩ := h
  have h2 : (0 : ℝ) < 2 ^ j := by positivity
  have hm' : (m : ℝ) ≤ 2 ^ j := by exact_mod_cast hm.le
  have h3 : 0 ≤ (b - a) * m / 2 ^ j := by
    have : 0 ≤ b - a := by linarith
    positivity
  have h4 : (b - a) * m / 2 ^ j ≤ b - a := by
    rw [div_le_iff₀ h2]
    exact mul_le_mul_of_nonneg_left hm' (by linarith)
  exact ⟨by linarith, by linarith⟩

/-- No point of repeated halving is close to one third of the interval. -/
theorem halving_third {w E : ℝ} (hw : 0 < w) (h : Halving (3 - w) (3 + 2 * w) E) : w / 2 ^ 31 ≤ |E - 3| := by
  obtain ⟨j, m, hj, hm, rfl⟩ := h
  have h2 : (0 : ℝ) < 2 ^ j := by positivity
  have hj2 : (2 : ℝ) ^ j ≤ 2 ^ 31 := pow_le_pow_right₀ (by norm_num) hj
  have e : 3 - w + (3 + 2 * w - (3 - w)) * m / 2 ^ j - 3 = w * (3 * m - 2 ^ j) / 2 ^ j := by field_simp; ring
  rw [e, abs_div, abs_mul, abs_of_pos hw, abs_of_pos h2]
  have hne : (1 : ℝ) ≤ |3 * (m : ℝ) - 2 ^ j| := by
    have : (3 * (m : ℤ) - 2 ^ j) ≠ 0 := by
      intro h
      have h3 : 3 ∣ 2 ^ j := ⟨m, by
        have : (2 : ℤ) ^ j = 3 * m := by linarith
        exact_mod_cast this⟩
      have := Nat.Prime.dvd_of_dvd_pow (by norm_num : Nat.Prime 3) h3
      norm_num at this
    have := Int.one_le_abs this
    have h4 : ((|3 * (m : ℤ) - 2 ^ j| : ℤ) : ℝ) = |3 * (m : ℝ) - 2 ^ j| := by push_cast; rfl
    rw [← h4]
    exact_mod_cast this
  rw [div_le_div_iff₀ (by positivity) h2]
  have h5 := mul_le_mul_of_nonneg_left hne hw.le
  have h6 := mul_le_mul h5 hj2 h2.le (by positivity)
  linarith

/-- C91 and C92 on a window around the eigenvalue: the count is one, and the call returns one pair, with the number 1 and a value close to 3. -/
theorem osc1_window : ∃ C w : ℝ, 0 < w ∧ ∃ N0 : ℕ, ∀ (n : ℕ) (cmp : Sec ℝ → Sec ℝ → Bool), N0 ≤ n → ∃ r me, uniformBuild cmp n (-1) 1 = .ok r ∧
    (∀ F, (constructOf 0 etaExact (exactVs fun x => x ^ 2) (-1) 1 r).matchingError pi F ⟨1, 0, 0, 0⟩ ⟨1, 0, 0, 0⟩ true = .ok (me F)) ∧
    (⌈(me (3 - w)).2.2 / pi⌉ = 1 ∧ ⌈(me (3 + 2 * w)).2.2 / pi⌉ = 2) ∧
    ∀ tol, ∃ E' f, eigenvalues (fun E => (me E).2.2 / pi) (newton me pi tol) (3 - w) (3 + 2 * w) (2 ^ 32) = .ok ([(1, E')], f) ∧
      |E' - 3| ≤ C * (tol ^ 2 + ((1 - -1) / n) ^ 16 + 0) + (1 / 2) ^ 2 ^ 20 := by
  obtain ⟨C1, hC1, k1⟩ := C91_narrow_window 6 (by norm_num)
  obtain ⟨C2, hC2, k2⟩ := C91_exact_eigenvalues_apart 6 (by norm_num)
  obtain ⟨C3, hC3, k3⟩ := C92_sturm_count 6 (by norm_num)
  set C := C1 + C2 + C3 with hC
  have c1 : 1 ≤ C := by linarith
  set w := 1 / (16 * C) with hw
  have w0 : 0 < w := by positivity
  have w1 : C * w = 1 / 16 := by rw [hw]; field_simp
  have w2 : w ≤ 1 / 16 := by
    have := le_mul_of_one_le_left w0.le c1
    linarith
  obtain ⟨N0, hN0⟩ := exists_nat_gt (max (8 * C) (2 * C * 2 ^ 32 / w))
  refine ⟨C1, w, w0, N0, fun n cmp hn => ?_⟩
  have hn' : (N0 : ℝ) ≤ n := by exact_mod_cast hn
  have hn8 : 8 * C ≤ n := (le_max_left _ _).trans (hN0.le.trans hn')
  have hnw : 2 * C * 2 ^ 32 / w < n := (le_max_right _ _).trans_lt (hN0.trans_le hn')
  have hn0 : (0 : ℝ) < n := by linarith
  obtain ⟨r, e1, hm, hf, hacc, hy, hκ, hfit⟩ := osc1_fit c1 hn8 cmp
  have hf := FitMesh.larger hf (show (4 : ℝ) ≤ 6 by norm_num)
  have hH0 := (fit_pos hf).le
  have okm := fit_okMesh hf (E := 0) (by norm_num)
  set h : ℝ := (1 - -1) / n with hh
  have hh1 : h ≤ 1 := hf.small
  have hκw : C * (h ^ 16 + 0) < w / 2 ^ 31 := by
    have a1 : h ^ 16 ≤ h := pow_le_of_le_one hH0 hh1 (by norm_num)
    have a2 : C * h ^ 16 ≤ C * h := mul_le_mul_of_nonneg_left a1 (by linarith)
    have a3 : C * h < w / 2 ^ 32 := by
      rw [div_lt_iff₀ w0] at hnw
      rw [hh, lt_div_iff₀ (by positivity), show C * ((1 - -1) / n) * 2 ^ 32 = (2 * C * 2 ^ 32) / n by ring, div_lt_iff₀ hn0]
      linarith
    have a4 : w / 2 ^ 32 ≤ w / 2 ^ 31 := div_le_div_of_nonneg_left w0.le (by positivity) (by norm_num)
    rw [add_zero]; linarith
  have κ0 : 0 ≤ h ^ 16 + 0 := by positivity
  have le1 : C1 * (h ^ 16 + 0) ≤ C * (h ^ 16 + 0) := mul_le_mul_of_nonneg_right (by linarith) κ0
  have le3 : C3 * (h ^ 16 + 0) ≤ C * (h ^ 16 + 0) := mul_le_mul_of_nonneg_right (by linarith) κ0
  have w31 : w / 2 ^ 31 ≤ w := div_le_self w0.le (by norm_num)
  have hev : IsEigenvalueNr (fun _ x => x ^ 2) r.sectors (-1) 1 (1, 0) (1, 0) 1 3 := by
    refine ⟨_, _, hy, ⟨1, by norm_num, by simp⟩, by norm_num, by norm_num, ?_, ?_⟩
    · rw [osc1_zeros]; exact Set.finite_singleton _
    · rw [osc1_zeros]; simp
  -- all other eigenvalues are far away
  have hother : ∀ (m : ℕ) (mu : ℝ), IsEigenvalueNr (fun _ x => x ^ 2) r.sectors (-1) 1 (1, 0) (1, 0) m mu → (m = 1 ∧ mu = 3) ∨ 16 * w ≤ |3 - mu| := by
    intro m mu hmu
    by_cases hM : |mu| ≤ 6
    · have h16 : 16 * w ≤ 1 / C2 := by
        rw [le_div_iff₀ (by linarith)]
        have := mul_le_mul_of_nonneg_right (show C2 ≤ C by linarith) w0.le
        linarith
      have q1 := k2 0 h _ (-1) 1 r.sectors (1, 0) (1, 0) hf (by norm_num) (by norm_num) (Or.inl one_ne_zero) (Or.inl one_ne_zero) m 1 mu 3 hM (by norm_num) hmu hev
      have q2 := k2 0 h _ (-1) 1 r.sectors (1, 0) (1, 0) hf (by norm_num) (by norm_num) (Or.inl one_ne_zero) (Or.inl one_ne_zero) 1 m 3 mu (by norm_num) hM hev hmu
      rcases lt_trichotomy m 1 with q | q | q
      · right
        have := q1.2.mp q
        rw [abs_of_nonneg (by have : 0 < 1 / C2 := by positivity
                              linarith)]
        linarith
      · exact Or.inl ⟨q, q1.1.mp q⟩
      · right
        have := q2.2.mp q
        rw [abs_sub_comm, abs_of_nonneg (by have : 0 < 1 / C2 := by positivity
                                            linarith)]
        linarith
    · right
      push Not at hM
      rcases lt_abs.mp hM with q | q
      · rw [abs_sub_comm, abs_of_nonneg (by linarith)]; linarith
      · rw [abs_of_nonneg (by linarith)]; linarith
  have hfar : ∀ E, 3 - w ≤ E → E ≤ 3 + 2 * w → w / 2 ^ 31 ≤ |E - 3| → ∀ (m : ℕ) (mu : ℝ), IsEigenvalueNr (fun _ x => x ^ 2) r.sectors (-1) 1 (1, 0) (1, 0) m mu → C * (h ^ 16 + 0) < |E - mu| := by
    intro E hE1 hE2 hE m mu hmu
    rcases hother m mu hmu with ⟨-, rfl⟩ | q
    · linarith
    · have a1 : |E - 3| ≤ 2 * w := abs_le.mpr ⟨by linarith, by linarith⟩
      have a2 : |3 - mu| ≤ |3 - E| + |E - mu| := abs_sub_le _ _ _
      rw [abs_sub_comm 3 E] at a2
      linarith
  have fmin := hfar (3 - w) le_rfl (by linarith) (by rw [show 3 - w - 3 = -w by ring, abs_neg, abs_of_pos w0]; exact w31)
  have fmax := hfar (3 + 2 * w) (by linarith) le_rfl (by rw [add_sub_cancel_left, abs_of_pos (by linarith)]; linarith)
  obtain ⟨me, m1, m2, m3⟩ := k3 0 0 etaExact (exactVs fun x => x ^ 2) (fun _ x => x ^ 2) (-1) 1 h r true ⟨1, 0, 0, 0⟩ ⟨1, 0, 0, 0⟩ hf hacc
    (by norm_num) (by norm_num) hm (Or.inl one_ne_zero) (Or.inl one_ne_zero) (by simp only [if_true]; linarith)
  obtain ⟨me', n1, n2⟩ := k1 0 0 etaExact (exactVs fun x => x ^ 2) (fun _ x => x ^ 2) (-1) 1 h r true ⟨1, 0, 0, 0⟩ ⟨1, 0, 0, 0⟩ hf hacc
    (by norm_num) (by norm_num) hm (Or.inl one_ne_zero) (Or.inl one_ne_zero) rfl rfl rfl rfl (by simp only [if_true]; linarith)
  have hmm : me' = me := by
    funext E
    have := m1 E
    rw [n1 E] at this
    exact Outcome.ok.inj this
  subst hmm
  simp only [if_true] at m2 m3 n2
  refine ⟨r, me', e1, m1, ?_, fun tol => ?_⟩
  · obtain ⟨-, q2, q3⟩ := m3 (3 - w) (3 + 2 * w) (by linarith) (by rw [abs_of_pos (by linarith)]; linarith) (by rw [abs_of_pos (by linarith)]; linarith)
      ((hfit _ (by linarith)).mono (by linarith) hH0 le_rfl okm.pos) ((hfit _ (by linarith)).mono (by linarith) hH0 le_rfl okm.pos)
      (fun m mu hmu => ⟨le3.trans_lt (fmin m mu hmu), le3.trans_lt (fmax m mu hmu)⟩)
    have hone : ({lam | 3 - w < lam ∧ lam < 3 + 2 * w ∧ ∃ n, IsEigenvalueNr (fun _ x => x ^ 2) r.sectors (-1) 1 (1, 0) (1, 0) n lam} : Set ℝ) = {3} := by
      ext lam
      simp only [Set.mem_ofPred_eq, Set.mem_singleton_iff]
      constructor
      · rintro ⟨l1, l2, m, hm⟩
        rcases hother m lam hm with q | q
        · exact q.2
        · have : |3 - lam| ≤ 2 * w := abs_le.mpr ⟨by linarith, by linarith⟩
          linarith
      · rintro rfl
        exact ⟨by linarith, by linarith, 1, hev⟩
    rw [hone, Set.ncard_singleton] at q2
    have h1 := (q3 1).mpr ⟨1, 3, rfl, by linarith, by linarith, hev⟩
    push_cast at q2
    exact ⟨by omega, by omega⟩
  · obtain ⟨L, f, p1, p2, -⟩ := n2 tol (3 - w) (3 + 2 * w) (2 ^ 32) (by linarith) (by linarith) (by linarith)
      (by
        have := mul_le_mul_of_nonneg_right (show C1 ≤ C by linarith) w0.le
        rw [show C1 * (3 + 2 * w - (3 - w)) = 3 * (C1 * w) by ring]
        linarith) (by norm_num)
      (fun F hF _ => (hfit F (by linarith)).mono (by linarith) hH0 le_rfl okm.pos)
      (fun E hE => by
        obtain ⟨b1, b2⟩ := halving_mem (by linarith) hE
        exact m2 E (by rw [abs_of_pos (by linarith)]; linarith) ((hfit _ (by linarith)).mono (by linarith) hH0 le_rfl okm.pos)
          (fun m mu hmu => le3.trans_lt (hfar E b1 b2 (halving_third w0 hE) m mu hmu)))
      (fun m mu hmu => ⟨le1.trans_lt (fmin m mu hmu), le1.trans_lt (fmax m mu hmu)⟩)
    obtain ⟨E', q1, q2⟩ := p2 1 3 hev (by linarith) (by linarith) (by decide)
    refine ⟨E', f, ?_, q2⟩
    rw [p1, q1]
    rfl

end Verif.Solver
