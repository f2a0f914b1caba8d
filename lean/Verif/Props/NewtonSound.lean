import Verif.Props.AngleConverge
import Verif.Spec.EigenNr
import Verif.Lemmas.ExactCount

/-!
# C93, C94: what Newton's iteration returns is close to an exact eigenvalue; `eigenvalueError`

No assumption on the starting point: if the iteration stopped because its last correction was at most `tol`, the result is close to an exact eigenvalue, and the
reported index is its number.
-/
namespace Verif.Solver
open Verif Verif.Prufer Verif.YT Verif.CalcT Verif.Mesh Verif.Propag Verif.Formulas Verif.Legendre Verif.Spec Verif.Search
open Real (pi)

set_option maxHeartbeats 1600000 in
/-- **C93** (soundness of the polished eigenvalues). `κ = H^16 + ε` (without the coefficients `h`: `H^14 + ε`). Let Newton's iteration, from any start, return
`(idx, E')` after fewer than 20 evaluations, the last one at `E`, where the derivative of the matching error was not zero. If `C (tol + κ) ≤ 1`, there is an exact eigenvalue within
`C (tol² + κ)` of `E'`; and if the angle is meaningful at `E` (`AngleFit`), `idx` is its number: the number of zeros of its eigenfunction. -/
theorem C93_newton_sound (M : ℝ) (hM : 1 ≤ M) : ∃ C : ℝ, 1 ≤ C ∧ ∀ (eps ε : ℝ) (eta : ℕ → ℝ → ℕ → ℝ) (vs : Sec ℝ → ℕ → ℝ) (W : Sec ℝ → ℝ → ℝ)
    (dmin dmax H : ℝ) (r : BuildResult ℝ) (useH : Bool) (left right : Y ℝ),
    FitMesh eps M H W dmin dmax r.sectors → AccurateTo ε W r.sectors eta vs → dmax - dmin ≤ M → 1 / M ≤ dmax - dmin →
    r.matchIndex + 1 < r.sectors.length → (left.y ≠ 0 ∨ left.dy ≠ 0) → (right.y ≠ 0 ∨ right.dy ≠ 0) →
    left.yE = 0 → left.dyE = 0 → right.yE = 0 → right.dyE = 0 →
    ∃ me : ℝ → ℝ × ℝ × ℝ, (∀ E, (constructOf eps eta vs dmin dmax r).matchingError pi E left right useH = .ok (me E)) ∧
      ∀ (tol E0 E E' : ℝ) (idx : ℤ), newton me pi tol E0 = .ok (idx, E') → (newtonLoop me tol 19 E0).2.2.length < 20 → (newtonLoop me tol 19 E0).2.2.getLast? = some E →
        |E| + 1 ≤ M → (me E).2.1 ≠ 0 → C * (tol + H ^ (if useH then 16 else 14) + ε) ≤ 1 →
        ∃ lam, IsEigenvalue W r.sectors dmin dmax (left.y, left.dy) (right.y, right.dy) lam ∧
          |E' - lam| ≤ C * (tol ^ 2 + H ^ (if useH then 16 else 14) + ε) ∧
          (AngleFit C H ε (if useH then 16 else 14) vs r.sectors E →
            ∃ n : ℕ, idx = n ∧ IsEigenvalueNr W r.sectors dmin dmax (left.y, left.dy) (right.y, right.dy) n lam) := by
  obtain ⟨C1, hC1, k1⟩ := C85_small_error_eigenvalue M hM
  obtain ⟨C2, hC2, k2⟩ := matching_energy M hM
  obtain ⟨C3, hC3, k3⟩ := newton_step M hM
  obtain ⟨C4, hC4, k4⟩ := C90_index M hM
  -- the distance of `E` from the eigenvalue is at most `A (tol + κ)`
  set A := C1 * C2 with hA
  have A1 : 1 ≤ A := one_le_mul_of_one_le_of_one_le hC1 hC2
  have cA : C1 ≤ A := le_mul_of_one_le_right (by linarith) hC2
  set B := C3 * A with hB
  have B1 : 1 ≤ B := one_le_mul_of_one_le_of_one_le hC3 A1
  have cB : A ≤ B := le_mul_of_one_le_left (by linarith) hC3
  have cB3 : C3 ≤ B := le_mul_of_one_le_right (by linarith) A1
  set F := C4 * A with hF
  have F1 : 1 ≤ F := one_le_mul_of_one_le_of_one_le hC4 A1
  have cF4 : C4 ≤ F := le_mul_of_one_le_right (by linarith) A1
  set C := 2 * F + 4 * (B * A) + 2 * B with hC
  have BA : A ≤ B * A := le_mul_of_one_le_left (by linarith) B1
  refine ⟨C, by linarith, ?_⟩
  intro eps ε eta vs W dmin dmax H r useH left right hf hacc hd hd' hmi hl hr l3 l4 r3 r4
  have hord : (if useH then 16 else 14) = ord useH := rfl
  rw [hord]
  have hε0 := accurate_nonneg hacc hf.mesh.length_pos
  have hH0 := (fit_pos hf).le
  have hm : r.matchIndex < r.sectors.length := by omega
  obtain ⟨me, hme⟩ := matching_total hf hm eta vs pi useH left right
  refine ⟨me, hme, ?_⟩
  intro tol E0 E E' idx hnew hlen hlast hE hd0 hκ
  obtain ⟨m, m1, m2, m3, m4, m5, -, -, k, m6, m7⟩ := C24_newton me pi tol E0 idx E' hnew
  rw [m4] at hlen hlast
  rw [List.length_map, List.length_range] at hlen
  have hEm : iterate me E0 (m - 1) = E := by
    obtain ⟨m, rfl⟩ : ∃ m', m = m' + 1 := ⟨m - 1, by omega⟩
    rw [List.range_succ, List.map_append, List.map_singleton, List.getLast?_concat] at hlast
    simpa using hlast
  have hE' : E' = E - (me E).1 / (me E).2.1 := by
    rw [m3]
    obtain ⟨m, rfl⟩ : ∃ m', m = m' + 1 := ⟨m - 1, by omega⟩
    rw [Nat.add_sub_cancel] at hEm
    rw [iterate, hEm]
  have hstop : |(me E).1 / (me E).2.1| ≤ tol := by
    have := m5 hlen
    unfold correction at this
    rw [hEm, absK_eq] at this
    simpa using this
  have htol : 0 ≤ tol := (abs_nonneg _).trans hstop
  set κ := H ^ ord useH + ε with hκd
  have κ0 : 0 ≤ κ := add_nonneg (pow_nonneg hH0 _) hε0
  have hκ : C * (tol + κ) ≤ 1 := by rw [hκd, ← add_assoc]; exact hκ
  have tκ : 0 ≤ tol + κ := by linarith
  have hEM : |E| ≤ M := by linarith
  have szL : 0 < sz (pr left) := sz_pos_iff.mpr (fun h' => hl.elim (fun q => q h'.1) (fun q => q h'.2))
  have szR : 0 < sz (pr right) := sz_pos_iff.mpr (fun h' => hr.elim (fun q => q h'.1) (fun q => q h'.2))
  have pL : pe left = 0 := by simp [pe, l3, l4]
  have pR : pe right = 0 := by simp [pe, r3, r4]
  obtain ⟨hε1, σ, τ, he, hv, hε⟩ := id hacc
  -- the matching error at `E` is small
  obtain ⟨err, err', e1, -, -, e4⟩ := k2 eps σ τ ε eta vs W dmin dmax H E E pi r useH left right hf he hv hε hε1 hd hEM hEM hm pL pR
  rw [hme] at e1
  cases e1
  set S := sz (pr left) * sz (pr right) with hS
  have S0 : 0 < S := mul_pos szL szR
  have herr : |(me E).1| ≤ tol * (C2 * S) := by
    rw [abs_div, div_le_iff₀ (abs_pos.mpr hd0)] at hstop
    exact hstop.trans (mul_le_mul_of_nonneg_left e4 htol)
  obtain ⟨err, f1, f2⟩ := k1 eps ε eta vs W dmin dmax H E pi r useH left right hf hacc hd hd' hEM hm hl hr
  rw [hme] at f1
  cases f1
  have hη : |(me E).1| / (max |left.y| |left.dy| * max |right.y| |right.dy|) + H ^ ord useH + ε ≤ C2 * (tol + κ) := by
    have : |(me E).1| / (max |left.y| |left.dy| * max |right.y| |right.dy|) ≤ C2 * tol := by
      show |(me E).1| / S ≤ _
      rw [div_le_iff₀ S0]
      linarith
    have h2 : κ ≤ C2 * κ := le_mul_of_one_le_left κ0 hC2
    have h3 : C2 * (tol + κ) = C2 * tol + C2 * κ := by ring
    rw [h3]
    linarith
  have small : ∀ {D : ℝ}, D ≤ C → D * (tol + κ) ≤ 1 := fun h => (mul_le_mul_of_nonneg_right h tκ).trans hκ
  obtain ⟨lam, g1, g2, -⟩ := f2 _ hη (by
    rw [← mul_assoc]
    exact small (by linarith))
  rw [← mul_assoc, ← hA] at g2
  have hEl : |E - lam| ≤ A * (tol + κ) := by rw [abs_sub_comm]; exact g2
  have hEl1 : |E - lam| ≤ 1 := hEl.trans (small (by linarith))
  have hlam : |lam| ≤ M := by
    have := abs_sub_abs_le_abs_sub lam E
    rw [abs_sub_comm] at this
    linarith
  refine ⟨lam, g1, ?_, ?_⟩
  · have hC3E : |E - lam| ≤ 1 / C3 := by
      rw [le_div_iff₀ (by linarith)]
      have := mul_le_mul_of_nonneg_left hEl (show 0 ≤ C3 by linarith)
      rw [← mul_assoc, ← hB] at this
      have := small (D := B) (by linarith)
      linarith
    obtain ⟨err, e1, -, e3⟩ := k3 eps σ τ ε eta vs W dmin dmax H lam E pi r useH left right hf he hv hε hε1 hd hd' hlam hm pL pR szL szR g1 (by
      have : C3 * κ ≤ C3 * (tol + κ) := mul_le_mul_of_nonneg_left (by linarith) (by linarith)
      have := small (D := C3) (by linarith)
      linarith) hC3E
    rw [hme] at e1
    cases e1
    rw [hE']
    refine e3.trans ?_
    -- `(E - lam)² ≤ A² (tol + κ)² ≤ 2 A² tol² + A (tol + κ) ... `
    have q1 : (E - lam) ^ 2 ≤ (A * (tol + κ)) ^ 2 := sq_le_sq' (by linarith [(abs_le.mp hEl).1]) (abs_le.mp hEl).2
    have q2 : (A * (tol + κ)) ^ 2 ≤ 2 * A ^ 2 * (tol ^ 2 + κ ^ 2) := by
      have := mul_nonneg (sq_nonneg A) (sq_nonneg (tol - κ))
      have e : (A * (tol + κ)) ^ 2 + A ^ 2 * (tol - κ) ^ 2 = 2 * A ^ 2 * (tol ^ 2 + κ ^ 2) := by ring
      linarith
    have q3 : κ ^ 2 ≤ κ := by
      have : κ ≤ 1 := by
        have h1 : 1 * (tol + κ) ≤ 1 := small (by linarith)
        linarith
      have := mul_le_mul_of_nonneg_left this κ0
      rw [pow_two]
      linarith only [this]
    have q4 : C3 * (E - lam) ^ 2 ≤ C3 * (2 * A ^ 2 * (tol ^ 2 + κ)) := by
      refine mul_le_mul_of_nonneg_left ?_ (by linarith)
      have := mul_le_mul_of_nonneg_left (show tol ^ 2 + κ ^ 2 ≤ tol ^ 2 + κ by linarith) (show 0 ≤ 2 * A ^ 2 by positivity)
      linarith
    have e1 : C3 * (2 * A ^ 2 * (tol ^ 2 + κ)) = 2 * (B * A) * (tol ^ 2 + κ) := by rw [hB]; ring
    have q5 : C3 * κ ≤ B * (tol ^ 2 + κ) := mul_le_mul cB3 (by have := sq_nonneg tol; linarith) κ0 (by linarith)
    have e2 : C3 * ((E - lam) ^ 2 + κ) = C3 * (E - lam) ^ 2 + C3 * κ := by ring
    have q6 : (2 * (B * A) + B) * (tol ^ 2 + κ) ≤ C * (tol ^ 2 + κ) := mul_le_mul_of_nonneg_right (by linarith) (by have := sq_nonneg tol; linarith)
    have e3 : (2 * (B * A) + B) * (tol ^ 2 + κ) = 2 * (B * A) * (tol ^ 2 + κ) + B * (tol ^ 2 + κ) := by ring
    have e4 : C * (tol ^ 2 + H ^ ord useH + ε) = C * (tol ^ 2 + κ) := by rw [hκd]; ring
    rw [e4]
    linarith only [q4, e1, q5, e2, q6, e3]
  · intro hfit
    obtain ⟨y, dy, hy, hne, el, er⟩ := g1
    have okm := fit_okMesh hf hEM
    have hFE : C4 * |E - lam| ≤ F * (tol + κ) := by
      have := mul_le_mul_of_nonneg_left hEl (show 0 ≤ C4 by linarith)
      rw [hF, mul_assoc]
      exact this
    have h2F : 2 * F * (tol + κ) ≤ 1 := small (by linarith)
    obtain ⟨hfin, err, e1, e2⟩ := k4 eps ε eta vs W dmin dmax H lam E r useH left right y dy hf hacc hd hlam hEM hmi hl hr hy hne el er
      (hfit.mono (by linarith) hH0 hε0 okm.pos) (by
        have := mul_nonneg (show 0 ≤ F by linarith) tκ
        linarith)
    rw [hme] at e1
    cases e1
    have e2 : |(me E).2.2 - ({x ∈ Set.Ioo dmin dmax | y x = 0} : Set ℝ).ncard * pi| ≤ C4 * (H ^ ord useH + ε + |E - lam|) := e2
    have e3 : C4 * (H ^ ord useH + ε + |E - lam|) = C4 * κ + C4 * |E - lam| := by rw [hκd]; ring
    have e4 : C4 * κ ≤ F * (tol + κ) := mul_le_mul cF4 (by linarith) κ0 (by linarith)
    have hr := round_near (e2.trans (by rw [e3]; linarith))
    rw [hEm] at m6
    have hk : k = (({x ∈ Set.Ioo dmin dmax | y x = 0} : Set ℝ).ncard : ℤ) := by
      have : some (round ((me E).2.2 / pi)) = some k := m6
      rw [← hr]
      exact (Option.some.inj this).symm
    exact ⟨_, by rw [m7, hk]; exact max_eq_right (Int.natCast_nonneg _), y, dy, hy, hne, el, er, hfin, rfl⟩

/-- **C93**, for the whole search: every pair `eigenvalues` or `eigenvaluesByIndex` returns was polished from a candidate, and if the polishing from the candidates
stopped by the tolerance, it is close to an exact eigenvalue and carries its number. -/
theorem C93_results_sound (M : ℝ) (hM : 1 ≤ M) : ∃ C : ℝ, 1 ≤ C ∧ ∀ (eps ε : ℝ) (eta : ℕ → ℝ → ℕ → ℝ) (vs : Sec ℝ → ℕ → ℝ) (W : Sec ℝ → ℝ → ℝ)
    (dmin dmax H : ℝ) (r : BuildResult ℝ) (useH : Bool) (left right : Y ℝ),
    FitMesh eps M H W dmin dmax r.sectors → AccurateTo ε W r.sectors eta vs → dmax - dmin ≤ M → 1 / M ≤ dmax - dmin →
    r.matchIndex + 1 < r.sectors.length → (left.y ≠ 0 ∨ left.dy ≠ 0) → (right.y ≠ 0 ∨ right.dy ≠ 0) →
    left.yE = 0 → left.dyE = 0 → right.yE = 0 → right.dyE = 0 →
    ∃ me : ℝ → ℝ × ℝ × ℝ, (∀ E, (constructOf eps eta vs dmin dmax r).matchingError pi E left right useH = .ok (me E)) ∧
      ∀ (tol Emin Emax : ℝ) (Imin Imax : ℤ) (fuel : ℕ) (L : List (ℤ × ℝ)) (f : Found ℝ),
        (helper (fun E => (me E).2.2 / pi) (newton me pi tol) Emin Emax Imin Imax fuel = .ok (L, f) ∨
          eigenvaluesByIndex (fun E => (me E).2.2 / pi) (newton me pi tol) Imin Imax fuel = .ok (L, f)) →
        C * (tol + H ^ (if useH then 16 else 14) + ε) ≤ 1 →
        (∀ c ∈ f.cands, (newtonLoop me tol 19 c.c).2.2.length < 20 ∧ ∀ E, (newtonLoop me tol 19 c.c).2.2.getLast? = some E →
          |E| + 1 ≤ M ∧ (me E).2.1 ≠ 0 ∧ AngleFit C H ε (if useH then 16 else 14) vs r.sectors E) →
        ∀ p ∈ L, ∃ (n : ℕ) (lam : ℝ), p.1 = n ∧ IsEigenvalueNr W r.sectors dmin dmax (left.y, left.dy) (right.y, right.dy) n lam ∧
          |p.2 - lam| ≤ C * (tol ^ 2 + H ^ (if useH then 16 else 14) + ε) := by
  obtain ⟨C, hC, key⟩ := C93_newton_sound M hM
  refine ⟨C, hC, ?_⟩
  intro eps ε eta vs W dmin dmax H r useH left right hf hacc hd hd' hmi hl hr l3 l4 r3 r4
  obtain ⟨me, hme, key⟩ := key eps ε eta vs W dmin dmax H r useH left right hf hacc hd hd' hmi hl hr l3 l4 r3 r4
  refine ⟨me, hme, ?_⟩
  intro tol Emin Emax Imin Imax fuel L f hrun hκ hcands p hp
  have hrun : ∃ Emin Emax, helper (fun E => (me E).2.2 / pi) (newton me pi tol) Emin Emax Imin Imax fuel = .ok (L, f) := by
    rcases hrun with h | h
    · exact ⟨_, _, h⟩
    · unfold eigenvaluesByIndex at h
      obtain ⟨w, -, h⟩ := Outcome.bind_eq_ok.mp h
      exact ⟨_, _, h⟩
  obtain ⟨Emin, Emax, hrun⟩ := hrun
  obtain ⟨h1, h2⟩ := C20_permutation_of_polished _ _ Emin Emax Imin Imax fuel L f hrun
  rw [h1.mem_iff] at hp
  have : ∀ {l1 : List (Cand ℝ)} {l2 : List (ℤ × ℝ)}, List.Forall₂ (fun (c : Cand ℝ) (v : ℤ × ℝ) => newton me pi tol c.c = .ok v) l1 l2 → p ∈ l2 → ∃ c ∈ l1, newton me pi tol c.c = .ok p := by
    intro l1 l2 h
    induction h with
    | nil => intro h; simp at h
    | cons hab _ ih =>
      intro hm
      rcases List.mem_cons.mp hm with rfl | hm
      · exact ⟨_, List.mem_cons_self, hab⟩
      · obtain ⟨c, c1, c2⟩ := ih hm
        exact ⟨c, List.mem_cons_of_mem _ c1, c2⟩
  obtain ⟨c, hc, hn⟩ := this h2 hp
  obtain ⟨a1, a2⟩ := hcands c hc
  obtain ⟨m, m1, -, -, m4, -⟩ := C24_newton me pi tol c.c p.1 p.2 hn
  have hlast : (newtonLoop me tol 19 c.c).2.2.getLast? = some (iterate me c.c (m - 1)) := by
    rw [m4]
    obtain ⟨m, rfl⟩ : ∃ m', m = m' + 1 := ⟨m - 1, by omega⟩
    rw [List.range_succ, List.map_append, List.map_singleton, List.getLast?_concat, Nat.add_sub_cancel]
  obtain ⟨b1, b2, b3⟩ := a2 _ hlast
  obtain ⟨lam, -, g2, g3⟩ := key tol c.c _ p.2 p.1 hn a1 hlast b1 b2 hκ
  obtain ⟨n, e1, e2⟩ := g3 b3
  exact ⟨n, lam, e1, e2, g2⟩

/-- **C94**: `eigenvalueError(E)` estimates the distance of `E` from the exact eigenvalue `lam`: near `lam` it differs from `|E - lam|` by at most the accuracy of Newton's method
without the coefficients `h`. In particular it is small if and only if `E` is accurate, up to `H^14`. -/
theorem C94_eigenvalueError (M : ℝ) (hM : 1 ≤ M) : ∃ C : ℝ, 1 ≤ C ∧ ∀ (eps ε : ℝ) (eta : ℕ → ℝ → ℕ → ℝ) (vs : Sec ℝ → ℕ → ℝ) (W : Sec ℝ → ℝ → ℝ)
    (dmin dmax H lam : ℝ) (r : BuildResult ℝ) (left right : Y ℝ),
    FitMesh eps M H W dmin dmax r.sectors → AccurateTo ε W r.sectors eta vs → dmax - dmin ≤ M → 1 / M ≤ dmax - dmin → |lam| ≤ M →
    r.matchIndex < r.sectors.length → (left.y ≠ 0 ∨ left.dy ≠ 0) → (right.y ≠ 0 ∨ right.dy ≠ 0) →
    left.yE = 0 → left.dyE = 0 → right.yE = 0 → right.dyE = 0 →
    IsEigenvalue W r.sectors dmin dmax (left.y, left.dy) (right.y, right.dy) lam → C * (H ^ 14 + ε) ≤ 1 →
    ∃ me : ℝ → ℝ × ℝ × ℝ, (∀ E, (constructOf eps eta vs dmin dmax r).matchingError pi E left right false = .ok (me E)) ∧
      ∀ E tol, |E - lam| ≤ 1 / C → ∃ e, eigenvalueError me pi tol E = .ok e ∧ 0 ≤ e ∧
        abs (e - |E - lam|) ≤ C * (tol ^ 2 + H ^ 14 + ε) + (1 / 2) ^ 2 ^ 20 := by
  obtain ⟨C, hC, key⟩ := C88_newton_converges M hM
  refine ⟨C, hC, ?_⟩
  intro eps ε eta vs W dmin dmax H lam r left right hf hacc hd hd' hlam hm hl hr l3 l4 r3 r4 hev hκ
  obtain ⟨me, hme, key⟩ := key eps ε eta vs W dmin dmax H lam pi r false left right hf hacc hd hd' hlam hm hl hr l3 l4 r3 r4 hev (by simpa using hκ)
  refine ⟨me, hme, ?_⟩
  intro E tol hE
  obtain ⟨-, -, h3⟩ := key E hE
  obtain ⟨idx, E', h4, h5⟩ := h3 tol
  unfold eigenvalueError
  rw [h4]
  refine ⟨|E - E'|, by rw [Outcome.bind_ok, absK_eq]; rfl, abs_nonneg _, ?_⟩
  simp only [Bool.false_eq_true, if_false] at h5
  refine le_trans ?_ h5
  have := abs_abs_sub_abs_le_abs_sub (E - E') (E - lam)
  rwa [show E - E' - (E - lam) = -(E' - lam) by ring, abs_neg] at this

/-- Non-vacuity: for `V = x²` on `[-1, 1]` with `y' = 0` at the ends, eigenvalue 3, Newton's iteration from 3 stops after one evaluation and meets the hypotheses of C93; and those of C94
hold for `E = 3` (mesh `osc1_fit`). -/
example (C : ℝ) (hC : 1 ≤ C) : ∃ D : ℝ, 1 ≤ D ∧ ∀ (n : ℕ) (cmp : Sec ℝ → Sec ℝ → Bool) (tol : ℝ), 8 * D ≤ n → D * ((1 - -1) / n) ^ 16 ≤ tol → ∃ r me, uniformBuild cmp n (-1) 1 = .ok r ∧
    (∀ F, (constructOf 0 etaExact (exactVs fun x => x ^ 2) (-1) 1 r).matchingError pi F ⟨1, 0, 0, 0⟩ ⟨1, 0, 0, 0⟩ true = .ok (me F)) ∧
    (newtonLoop me tol 19 3).2.2 = [3] ∧ (me 3).2.1 ≠ 0 ∧ AngleFit C ((1 - -1) / n) 0 16 (exactVs fun x => x ^ 2) r.sectors 3 ∧
    IsEigenvalue (fun _ x => x ^ 2) r.sectors (-1) 1 (1, 0) (1, 0) 3 := by
  obtain ⟨C3, hC3, k3⟩ := newton_step 4 (by norm_num)
  refine ⟨C + C3, by linarith, fun n cmp tol hn htol => ?_⟩
  obtain ⟨r, e1, hm, hf, hacc, hy, hκ, hfit⟩ := osc1_fit (C := C + C3) (by linarith) hn cmp
  have hev : IsEigenvalue (fun _ x => x ^ 2) r.sectors (-1) 1 (1, 0) (1, 0) 3 := ⟨_, _, hy, ⟨1, by norm_num, by simp⟩, by norm_num, by norm_num⟩
  have hH0 := (fit_pos hf).le
  obtain ⟨me, hme⟩ := matching_total hf (by omega) etaExact (exactVs fun x => x ^ 2) pi true ⟨1, 0, 0, 0⟩ ⟨1, 0, 0, 0⟩
  obtain ⟨hε1, σ, τ, he, hv, hε⟩ := id hacc
  have hp : 0 ≤ ((1 - -1) / (n : ℝ)) ^ 16 := pow_nonneg hH0 _
  have hc : C3 * (((1 - -1) / (n : ℝ)) ^ 16 + 0) ≤ (C + C3) * (((1 - -1) / (n : ℝ)) ^ 16 + 0) := mul_le_mul_of_nonneg_right (by linarith) (by linarith)
  obtain ⟨err, f1, f2, f3⟩ := k3 0 σ τ 0 etaExact (exactVs fun x => x ^ 2) _ (-1) 1 ((1 - -1) / n) 3 3 pi r true ⟨1, 0, 0, 0⟩ ⟨1, 0, 0, 0⟩ hf he hv hε (by norm_num) (by norm_num) (by norm_num)
    (by norm_num) (by omega) (by simp [pe]) (by simp [pe]) (by simp [pr, sz]) (by simp [pr, sz]) hev (by show C3 * (((1 - -1) / (n : ℝ)) ^ 16 + 0) ≤ 1; linarith) (by simp; linarith)
  rw [hme] at f1
  cases f1
  have f3 : |3 - (me 3).1 / (me 3).2.1 - 3| ≤ C3 * ((3 - 3) ^ 2 + (((1 - -1) / (n : ℝ)) ^ 16 + 0)) := f3
  refine ⟨r, me, e1, hme, ?_, ?_, (hfit 3 (by norm_num)).mono (by linarith) hH0 le_rfl (fit_okMesh hf (E := 0) (by norm_num)).pos, hev⟩
  · have : |(me 3).1 / (me 3).2.1| ≤ tol := by
      rw [show 3 - (me 3).1 / (me 3).2.1 - 3 = -((me 3).1 / (me 3).2.1) by ring, abs_neg] at f3
      simp only [sub_self, add_zero] at f3 hc
      have z : (0 : ℝ) ^ 2 = 0 := by norm_num
      rw [z, zero_add] at f3
      linarith
    have hlt : CCmp.lt tol (absK ((me 3).1 / (me 3).2.1)) = false := by
      rw [absK_eq]; simpa using this
    unfold newtonLoop
    simp only [hlt, Bool.false_eq_true, if_false]
  · intro h0
    rw [h0, abs_zero, mul_zero] at f2
    have : sz (pr (⟨1, 0, 0, 0⟩ : Y ℝ)) = 1 := by simp [pr, sz]
    rw [this] at f2
    linarith

end Verif.Solver
