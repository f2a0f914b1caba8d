import Verif.Props.IndexSearch
import Verif.Props.Oscillation
import Verif.Lemmas.AngleSides
import Verif.Lemmas.WindowFind

/-!
# C113: `eigenvaluesByIndex(Imin, Imax)` on a smooth problem stops, inside a window known in advance
-/
namespace Verif.Solver
open Verif Verif.Prufer Verif.YT Verif.CalcT Verif.Mesh Verif.Propag Verif.Formulas Verif.Legendre Verif.Spec Verif.Search
open Real (pi)

theorem fit_bounded {eps M H : ℝ} {W : Sec ℝ → ℝ → ℝ} {dmin dmax vlo vhi : ℝ} {secs : List (Sec ℝ)} (h : FitMesh eps M H W dmin dmax secs)
    (hv : ∀ s ∈ secs, ∀ x ∈ Set.Icc s.min s.max, vlo ≤ W s x ∧ W s x ≤ vhi) : BoundedProblem W secs dmin dmax vlo vhi where
  mesh := h.mesh
  wide s hs := by have := h.wide s hs; have := h.eps_nonneg; linarith
  cont s hs := (h.smooth s hs).continuousOn
  lo s hs x hx := (hv s hs x hx).1
  hi s hs x hx := (hv s hs x hx).2

/-- **C113** (total correctness of `eigenvaluesByIndex`). Let the potential have values in `[vlo, vhi]`, and let `m > 0` bound the slopes prescribed by the boundary conditions. If `2^p` exceeds
`vhi + ((Imax + 1) π / ℓ)²` and `-2^q` is below `vlo - (m² + π m / ℓ)`, both with a margin of the accuracy `C κ` of the solver, neighbouring eigenvalues up to `2^p` are at least `g > 8 C κ + (2^p + 2^q) / 2^31` apart, and the computed angle is meaningful at these two
energies, then `eigenvaluesByIndex(Imin, Imax)` with `0 ≤ Imin ≤ Imax` does not run for ever, throw or do anything undefined: its doubling loops stop with a window inside `[-2^q, 2^p]` and the call returns.
If moreover the angle is meaningful at the energies at which the search evaluated it, the result has `Imax - Imin` entries, one candidate for each of the numbers `Imin … Imax - 1`, the bracket of which
contains the exact eigenvalue with that number up to `C κ`; a candidate within `1 / C` of it is polished to a result with that number and as accurate as Newton's method and the solver allow. -/
theorem C113_by_index_total (M : ℝ) (hM : 1 ≤ M) : ∃ C : ℝ, 1 ≤ C ∧ ∀ (eps ε : ℝ) (eta : ℕ → ℝ → ℕ → ℝ) (vs : Sec ℝ → ℕ → ℝ) (W : Sec ℝ → ℝ → ℝ)
    (dmin dmax H vlo vhi m : ℝ) (r : BuildResult ℝ) (useH : Bool) (left right : Y ℝ) (κ : ℝ),
    FitMesh eps M H W dmin dmax r.sectors → AccurateTo ε W r.sectors eta vs → dmax - dmin ≤ M → 1 / M ≤ dmax - dmin →
    r.matchIndex + 1 < r.sectors.length → (left.y ≠ 0 ∨ left.dy ≠ 0) → (right.y ≠ 0 ∨ right.dy ≠ 0) →
    left.yE = 0 → left.dyE = 0 → right.yE = 0 → right.dyE = 0 → κ = H ^ (if useH then 16 else 14) + ε →
    (∀ s ∈ r.sectors, ∀ x ∈ Set.Icc s.min s.max, vlo ≤ W s x ∧ W s x ≤ vhi) →
    0 < m → -(left.y * left.dy) ≤ m * left.y ^ 2 → right.y * right.dy ≤ m * right.y ^ 2 →
    ∃ me : ℝ → ℝ × ℝ × ℝ, (∀ E, (constructOf eps eta vs dmin dmax r).matchingError pi E left right useH = .ok (me E)) ∧
      ∃ lam : ℕ → ℝ, StrictMono lam ∧ (∀ n E, IsEigenvalueNr W r.sectors dmin dmax (left.y, left.dy) (right.y, right.dy) n E ↔ E = lam n) ∧
      ∀ (tol g : ℝ) (i j p q fuel : ℕ), i ≤ j → (2 : ℝ) ^ p ≤ M - 2 → (2 : ℝ) ^ q ≤ M - 2 → p ≤ fuel → q ≤ fuel → 2 ^ 32 - 1 ≤ fuel →
        vhi + ((j + 1) * pi / (dmax - dmin)) ^ 2 + C * κ < 2 ^ p → -2 ^ q + C * κ < vlo - (m ^ 2 + pi * m / (dmax - dmin)) →
        C * κ ≤ 1 → (∀ n, lam (n + 1) ≤ 2 ^ p + C * κ → g ≤ lam (n + 1) - lam n) → 8 * (C * κ) + (2 ^ p + 2 ^ q) / 2 ^ 31 < g →
        AngleFit C H ε (if useH then 16 else 14) vs r.sectors (2 ^ p) → AngleFit C H ε (if useH then 16 else 14) vs r.sectors (-2 ^ q) →
        ∃ w L f, window (fun E => (me E).2.2 / pi) i j fuel = .ok w ∧ -2 ^ q ≤ w.1 ∧ w.1 < w.2 ∧ w.2 ≤ 2 ^ p ∧
          eigenvaluesByIndex (fun E => (me E).2.2 / pi) (newton me pi tol) i j fuel = .ok (L, f) ∧ (∀ E ∈ f.evals, w.1 ≤ E ∧ E ≤ w.2) ∧
          ((∀ E ∈ f.evals, AngleFit C H ε (if useH then 16 else 14) vs r.sectors E ∧ (Halving w.1 w.2 E → ∀ j : ℤ, (me E).2.2 ≠ j * pi)) →
            L.length = j - i ∧ (∀ n : ℕ, (f.cands.map Cand.idx).count (n : ℤ) = if i ≤ n ∧ n < j then 1 else 0) ∧
            ∀ c ∈ f.cands, ∃ n : ℕ, c.idx = (n : ℤ) ∧ i ≤ n ∧ n < j ∧ c.item.a - C * κ ≤ lam n ∧ lam n ≤ c.item.b + C * κ ∧ c.item.a < c.c ∧ c.c < c.item.b ∧
              (|c.c - lam n| ≤ 1 / C → (∀ F, |F - lam n| ≤ |c.c - lam n| + C * κ → AngleFit C H ε (if useH then 16 else 14) vs r.sectors F) →
                ∃ E', ((n : ℤ), E') ∈ L ∧ |E' - lam n| ≤ C * (tol ^ 2 + κ) + (1 / 2) ^ 2 ^ 20)) := by
  obtain ⟨C1, hC1, k1⟩ := C95_by_index M hM
  obtain ⟨C2, hC2, k2⟩ := angle_sides M hM
  have hp0 := Real.pi_pos
  obtain ⟨C, hC⟩ : ∃ C, C = 8 * C1 + C2 := ⟨_, rfl⟩
  have m1 : 8 * C1 ≤ C := by linarith
  have m2 : C2 ≤ C := by linarith
  have mC : 1 ≤ C := by linarith
  clear hC
  refine ⟨C, mC, ?_⟩
  intro eps ε eta vs W dmin dmax H vlo vhi m r useH left right κ hf hacc hd hd' hmi hl hr l3 l4 r3 r4 hκd hv hm hm1 hm2
  have hε0 := accurate_nonneg hacc hf.mesh.length_pos
  have hH0 := (fit_pos hf).le
  have hord : (if useH then 16 else 14) = ord useH := rfl
  rw [hord] at hκd ⊢
  have κ0 : 0 ≤ κ := by rw [hκd]; exact add_nonneg (pow_nonneg hH0 _) hε0
  obtain ⟨me, hme⟩ := matching_total hf (by omega : r.matchIndex < r.sectors.length) eta vs pi useH left right
  obtain ⟨lam, g1, g2, -, g4, -⟩ := C112_oscillation W r.sectors dmin dmax vlo vhi m (left.y, left.dy) (right.y, right.dy) (fit_bounded hf hv) hl hr hm hm1 hm2
  refine ⟨me, hme, lam, g1, g2, ?_⟩
  intro tol g i j p q fuel hij hpM hqM hpf hqf hff hup hdn s2 hgap hres fp fq
  have okm := fit_okMesh hf (E := 0) (by rw [abs_zero]; linarith)
  have p2 : (0 : ℝ) < 2 ^ p := by positivity
  have q2 : (0 : ℝ) < 2 ^ q := by positivity
  have c0 : 0 ≤ C * κ := by positivity
  have t1 : 8 * (C1 * κ) ≤ C * κ := by have := mul_le_mul_of_nonneg_right m1 κ0; linarith
  have t1' : 0 ≤ C1 * κ := by positivity
  have t2 : C2 * κ ≤ C * κ := mul_le_mul_of_nonneg_right m2 κ0
  have hmono : i ≤ j → lam i ≤ lam j := fun h => g1.monotone h
  have hlo := fun n => (g4 n).1
  have hhi := fun n => (g4 n).2
  have hloj : ∀ n, -2 ^ q + C * κ < lam n := fun n => lt_of_lt_of_le hdn (hlo n)
  have hupj : ∀ n ≤ j, lam n + C * κ < 2 ^ p := fun n hn => by
    have := g1.monotone hn
    have := hhi j
    linarith
  have inM : ∀ n ≤ j, |lam n| ≤ M := fun n hn => abs_le.mpr ⟨by have := hloj n; linarith, by have := hupj n hn; linarith⟩
  have sides := k2 eps ε eta vs W dmin dmax H r useH left right me hf hacc hd hd' hmi hl hr (by rw [← hκd]; linarith) hme
  rw [← hκd] at sides
  have up := (sides (2 ^ p) (by rw [abs_of_pos p2]; linarith) (fp.mono m2 hH0 hε0 okm.pos) j (lam j) (inM j le_rfl) ((g2 j _).mpr rfl)).2 (by have := hupj j le_rfl; linarith)
  have dn := (sides (-2 ^ q) (by rw [abs_neg, abs_of_pos q2]; linarith) (fq.mono m2 hH0 hε0 okm.pos) i (lam i) (inM i hij) ((g2 i _).mpr rfl)).1 (by have := hloj i; linarith)
  obtain ⟨w, w1, w2, w3⟩ := window_finds (fun E => (me E).2.2 / pi) i j p q fuel hpf hqf (by push_cast; rw [le_div_iff₀ hp0]; exact up.le) (by push_cast; rw [div_le_iff₀ hp0]; exact dn.le)
  have wlt := (C23_window_brackets _ _ _ fuel w w1).1
  obtain ⟨L, f, hrun⟩ := helper_ok (fun E => (me E).2.2 / pi) me tol w.1 w.2 (Imin := i) (Imax := j) (by omega) (by omega) hff
  have hrun' : eigenvaluesByIndex (fun E => (me E).2.2 / pi) (newton me pi tol) i j fuel = .ok (L, f) := by
    unfold eigenvaluesByIndex
    rw [w1, Outcome.bind_ok]
    exact hrun
  refine ⟨w, L, f, w1, w2, wlt, w3, hrun', evals_mem wlt.le hrun, ?_⟩
  intro hgood
  obtain ⟨me', hme', k⟩ := k1 eps ε eta vs W dmin dmax H r useH left right hf hacc hd hd' hmi hl hr l3 l4 r3 r4 (by rw [hord, ← hκd]; linarith)
  have hmm : me' = me := by
    funext E
    have := hme E
    rw [hme' E] at this
    exact Outcome.ok.inj this
  subst hmm
  rw [hord, ← hκd] at k
  obtain ⟨b1, b2, -, b4⟩ := k tol g i j fuel w L f w1 (by linarith) (by linarith)
    (fun n n' x mu h1 h2 h3 h4 h5 h6 h7 => by
      rw [g2] at h1 h2
      subst h1 h2
      have a1 : lam (n + 1) ≤ lam n' := g1.monotone h3
      have a2 := hgap n (by linarith)
      linarith)
    (by
      have e1 : (w.2 - w.1) / 2 ^ 31 ≤ (2 ^ p + 2 ^ q) / 2 ^ 31 := div_le_div_of_nonneg_right (by linarith) (by positivity)
      linarith)
    hrun' (fun E hE => ⟨(hgood E hE).1.mono (by linarith) hH0 hε0 okm.pos, (hgood E hE).2⟩)
  refine ⟨by omega, fun n => ?_, ?_⟩
  · rw [b1]
    simp only [Nat.cast_le, Nat.cast_lt]
  · intro c hc
    obtain ⟨n, mu, e1, e2, e3, e4, e5, e6, e7, e8, e9⟩ := b2 c hc
    have hmu := (g2 n mu).mp e2
    subst hmu
    have hidx : i ≤ n ∧ n < j := by
      have : 0 < (f.cands.map Cand.idx).count (n : ℤ) := List.count_pos_iff.mpr (List.mem_map.mpr ⟨c, hc, e1⟩)
      rw [b1] at this
      by_contra hcon
      rw [if_neg (by simpa using hcon)] at this
      exact lt_irrefl _ this
    refine ⟨n, e1, hidx.1, hidx.2, by linarith, by linarith, e4, e5, fun h1 h2 => ?_⟩
    obtain ⟨E', -, f2, f3⟩ := e9 (h1.trans (one_div_le_one_div_of_le (by linarith) (by linarith))) (fun F hF => (h2 F (by linarith)).mono (by linarith) hH0 hε0 okm.pos)
    refine ⟨E', f2, f3.trans ?_⟩
    have : C1 * (tol ^ 2 + κ) ≤ C * (tol ^ 2 + κ) := mul_le_mul_of_nonneg_right (by linarith) (by positivity)
    have r1 : tol ^ 2 + H ^ ord useH + ε = tol ^ 2 + κ := by rw [hκd]; ring
    rw [r1]
    linarith

/-- Non-vacuity: `V = 0` on `[0, π/√(3/2)]` with `y = 0` at both ends, eigenvalues `3/2, 6, 27/2, …`, on every fine enough uniform mesh: `eigenvaluesByIndex(1, 2)` returns, having looked only at energies in
`[-1, 16]`. -/
theorem box_total : ∃ N0 : ℕ, ∀ (n : ℕ) (cmp : Sec ℝ → Sec ℝ → Bool), N0 ≤ n → ∃ r me, uniformBuild cmp n 0 boxB = .ok r ∧
    (∀ F, (constructOf 0 etaExact (exactVs fun _ => 0) 0 boxB r).matchingError pi F ⟨0, 1, 0, 0⟩ ⟨0, 1, 0, 0⟩ true = .ok (me F)) ∧
    ∀ (tol : ℝ) (fuel : ℕ), 2 ^ 32 ≤ fuel → ∃ L f, eigenvaluesByIndex (fun E => (me E).2.2 / pi) (newton me pi tol) 1 2 fuel = .ok (L, f) ∧ ∀ E ∈ f.evals, -1 ≤ E ∧ E ≤ 16 := by
  obtain ⟨C, hC, k⟩ := C113_by_index_total 30 (by norm_num)
  obtain ⟨N0, hN0⟩ := exists_nat_gt (16 * C)
  refine ⟨N0, fun n cmp hn => ?_⟩
  have hn' : (N0 : ℝ) ≤ n := by exact_mod_cast hn
  obtain ⟨r, e1, hm, hf, hacc, hev, hκ, hfit⟩ := box_fit hC (hN0.le.trans hn') cmp
  have hB := boxB_range
  have hH0 := (fit_pos hf).le
  set h : ℝ := (boxB - 0) / n with hh
  have hsq : (pi / (boxB - 0)) ^ 2 = 3 / 2 := by
    have e : pi / (boxB - 0) = boxS := by
      have := Real.pi_pos.ne'
      have := boxS_pos.ne'
      rw [sub_zero]; unfold boxB; field_simp
    rw [e]; exact boxS_sq
  have hpB : 0 < pi / (boxB - 0) := div_pos Real.pi_pos (by linarith)
  have hp2 : pi / (boxB - 0) ≤ 2 := by nlinarith
  have hfq : AngleFit C h 0 16 (exactVs fun _ => 0) r.sectors (-2 ^ 0) := by
    have hg := hfit 1 le_rfl
    refine ⟨hg.fine, hg.accurate, fun s hs => Or.inl ?_⟩
    have hc := chn_of_tiling _ hf.mesh.tiling
    have hp : ∀ s ∈ r.sectors, s.min < s.max := fun s hs => hf.wide s hs |> fun h => by linarith
    have hv : CoeffsWithin 0 (fun _ _ => 0) r.sectors (exactVs fun _ => 0) := coeffs_on_mesh (exact_coeffs _ _ _ _) hf hc hp
    have rg := (chn_range hc hp).2 s hs
    have := (coeff_zero_bound (hp s hs) (SmoothOn.shrink box_smooth rg.1 rg.2) (hv s hs)).1
    rw [abs_le] at this
    norm_num
    linarith [this.1]
  obtain ⟨me, m1, lam, -, q2, q3⟩ := k 0 0 etaExact (exactVs fun _ => 0) (fun _ _ => 0) 0 boxB h 0 0 (1 / 10) r true ⟨0, 1, 0, 0⟩ ⟨0, 1, 0, 0⟩ (h ^ 16 + 0) hf hacc
    (by linarith) (by linarith) hm (Or.inr one_ne_zero) (Or.inr one_ne_zero) rfl rfl rfl rfl (by simp) (fun s _ x _ => ⟨le_rfl, le_rfl⟩) (by norm_num) (by norm_num) (by norm_num)
  refine ⟨r, me, e1, m1, fun tol fuel hfuel => ?_⟩
  have hlam : ∀ j : ℕ, lam j = 3 / 2 * ((j : ℝ) + 1) ^ 2 := fun j => ((q2 j _).mp (hev j)).symm
  simp only [if_true] at q3
  have c0 : 0 ≤ C * (h ^ 16 + 0) := by positivity
  obtain ⟨w, L, f, -, w2, w3, w4, w5, w6, -⟩ := q3 tol 4 1 2 4 0 fuel (by norm_num) (by norm_num) (by norm_num) (by omega) (by omega) (by omega)
    (by
      have e : ((((2 : ℕ) : ℝ) + 1) * pi / (boxB - 0)) ^ 2 = 9 * (pi / (boxB - 0)) ^ 2 := by push_cast; ring
      rw [e, hsq]
      linarith)
    (by
      have e : pi * (1 / 10) / (boxB - 0) = 1 / 10 * (pi / (boxB - 0)) := by ring
      rw [e]
      linarith)
    (by linarith)
    (fun j hj => by
      rw [hlam, hlam]
      push_cast
      have : (0 : ℝ) ≤ j := Nat.cast_nonneg j
      nlinarith)
    (by linarith) (hfit _ (by norm_num)) hfq
  refine ⟨L, f, w5, fun E hE => ?_⟩
  obtain ⟨a1, a2⟩ := w6 E hE
  norm_num at w2 w4
  exact ⟨by linarith, by linarith⟩

end Verif.Solver
