import Verif.Lemmas.EigenNear

/-!
# Convergence: C83 – C86

The solver is `constructOf eps eta vs dmin dmax r`: the constructor of `Matslise` with the threshold `eps` of skipped steps, η functions `eta` and coefficients `vs`
(`Model/Solver`). The code's own `eta` and `vs` are `AccurateTo` about `10⁻¹⁴` (`C83_code_accuracy`); every theorem is stated for all
ingredients of any accuracy `ε`, with a constant `C` that depends only on the bound `M`, so the terms `H^16` and `ε` are separate.
-/
namespace Verif.Solver
open Verif.Mesh Verif.YT Verif.CalcT Verif.Propag Verif.Formulas Verif.Legendre Verif.Spec

/-- Number of sectors. -/
theorem chn_count {w : ℝ} : ∀ {l : List (Sec ℝ)} {a b : ℝ}, Chn a l b → (∀ s ∈ l, w ≤ s.max - s.min) → l.length * w ≤ b - a
  | [], a, b, h, _ => by simp only [Chn] at h; simp [h]
  | s :: l, a, b, h, hw => by
    have := chn_count h.2 (fun t ht => hw t (List.mem_cons_of_mem _ ht))
    have h1 := hw s (by simp)
    have e := h.1
    rw [List.length_cons]; push_cast
    linarith

/-- **The code's ingredients.** With the η functions of `calculateEta` and the coefficients of `getCoefficients`, sampled from a
potential that inside each sector has sixteen derivatives bounded by `M`, the accuracy is `17·10⁻¹⁴ M + 37 M H^16`. -/
theorem C83_code_accuracy {M H : ℝ} (hM : 1 ≤ M) (junk : ℕ → ℝ) {V : ℝ → ℝ} {W : Sec ℝ → ℝ → ℝ} {dmin dmax : ℝ} {secs : List (Sec ℝ)}
    (hf : FitMesh (1 / 10 ^ 12) M H W dmin dmax secs) (hV : Agrees V W secs) (hd : dmax - dmin ≤ M) (h1 : 17 * M / 10 ^ 14 + 37 * M * H ^ 16 ≤ 1) :
    AccurateTo (17 * M / 10 ^ 14 + 37 * M * H ^ 16) W secs (etaCode junk) (sectorVs V) := by
  refine ⟨h1, _, _, etaWithin_code junk, coeffsWithin_code hM hf hV, ?_⟩
  have hc := chn_count (w := 1 / 10 ^ 12) (chn_of_tiling _ hf.mesh.tiling) (fun s hs => (hf.wide s hs).le)
  have : (secs.length : ℝ) ≤ M * 10 ^ 12 := by
    have := hc.trans hd
    rw [mul_one_div, div_le_iff₀ (by norm_num)] at this
    exact this
  have h2 : (secs.length : ℝ) * (1 / 10 ^ 33) ≤ M * 10 ^ 12 * (1 / 10 ^ 33) := mul_le_mul_of_nonneg_right this (by norm_num)
  have h3 : M * 10 ^ 12 * (1 / 10 ^ 33) ≤ M / 10 ^ 14 := by
    rw [show M * 10 ^ 12 * (1 / 10 ^ 33) = M * (1 / 10 ^ 21) by ring, div_eq_mul_one_div]
    exact mul_le_mul_of_nonneg_left (by norm_num) (by linarith)
  linarith

/-- **C83.** `propagate` converges: on every mesh with sectors of width at most `H ≤ 1`, for every potential with sixteen derivatives
bounded by `M` in each sector, every energy and every solution `(y, dy)` of `y'' = (V - E) y`, `propagate` from `a` to `b` with the
exact values at `a` succeeds, and its result differs from the exact values at `b` by at most `C (H^16 + ε)` times their size at `a`
(`H^14` without `use_h`), when `a` and `b` are mesh points; and by `C (H^15 + ε + d)` (`H^14` without `use_h`) for any points of the
domain, where `d` bounds the distance to a mesh point of end points closer than `eps` to it (the threshold of skipped steps; the code's: `EPS = 10⁻¹²`). In either direction, across any
number of sectors, `C` depending on `M` only. -/
theorem C83_propagate (M : ℝ) (hM : 1 ≤ M) : ∃ C : ℝ, ∀ (eps ε : ℝ) (eta : ℕ → ℝ → ℕ → ℝ) (vs : Sec ℝ → ℕ → ℝ) (W : Sec ℝ → ℝ → ℝ)
    (dmin dmax H E pi : ℝ) (r : BuildResult ℝ) (y dy : ℝ → ℝ) (useH : Bool) (a b yE dyE : ℝ),
    FitMesh eps M H W dmin dmax r.sectors → AccurateTo ε W r.sectors eta vs → dmax - dmin ≤ M → |E| ≤ M →
    SolvesMesh W E r.sectors y dy → a ∈ Set.Icc dmin dmax → b ∈ Set.Icc dmin dmax →
    ∃ res, (constructOf eps eta vs dmin dmax r).propagate pi E ⟨y a, dy a, yE, dyE⟩ a b useH = .ok res ∧
      (IsBoundary (bounds r.sectors) a → IsBoundary (bounds r.sectors) b →
        |res.1.y - y b| ≤ C * (H ^ (if useH then 16 else 14) + ε) * max |y a| |dy a| ∧
        |res.1.dy - dy b| ≤ C * (H ^ (if useH then 16 else 14) + ε) * max |y a| |dy a|) ∧
      ∀ d, 0 ≤ d → d ≤ 1 → (∀ s ∈ r.sectors, Skips eps d s.min s.max a ∧ Skips eps d s.min s.max b) →
        |res.1.y - y b| ≤ C * (H ^ (if useH then 15 else 14) + ε + d) * max |y a| |dy a| ∧
        |res.1.dy - dy b| ≤ C * (H ^ (if useH then 15 else 14) + ε + d) * max |y a| |dy a| := by
  obtain ⟨C, hC, key⟩ := converge M hM
  refine ⟨C, ?_⟩
  intro eps ε eta vs W dmin dmax H E pi r y dy useH a b yE dyE hf ⟨hε1, σ, τ, he, hv, hε⟩ hd hE hy ha hb
  obtain ⟨res, h1, h2, h3⟩ := key eps σ τ ε eta vs W dmin dmax H E pi r y dy useH a b ⟨y a, dy a, yE, dyE⟩ hf he hv hε hε1 hd hE hy ha hb
  have z : sz (pr ⟨y a, dy a, yE, dyE⟩ - (y a, dy a)) = 0 := by simp [pr, sz]
  rw [z] at h2 h3
  simp only [zero_add, ← mul_assoc] at h2 h3
  have e : ∀ x : ℝ, H ^ min 15 (ord useH) = H ^ (if useH then 15 else 14) := fun _ => by cases useH <;> rfl
  rw [e 0] at h2
  exact ⟨res, h1, fun ba bb => ⟨(le_sz1 _).trans (h3 ba bb), (le_sz2 _).trans (h3 ba bb)⟩,
    fun d d0 d1 hs => ⟨(le_sz1 _).trans (h2 d d0 d1 hs), (le_sz2 _).trans (h2 d d0 d1 hs)⟩⟩

/-- **C84.** `matchingError` converges: with `yL` the exact solution with the left boundary values and `yR` the one with the right
boundary values, the first component differs from the Wronskian `dyL·yR - dyR·yL` (the same at every point) by at most
`C (H^16 + ε)` times the sizes of the boundary values. -/
theorem C84_matching_error (M : ℝ) (hM : 1 ≤ M) : ∃ C : ℝ, ∀ (eps ε : ℝ) (eta : ℕ → ℝ → ℕ → ℝ) (vs : Sec ℝ → ℕ → ℝ) (W : Sec ℝ → ℝ → ℝ)
    (dmin dmax H E pi : ℝ) (r : BuildResult ℝ) (useH : Bool) (left right : Y ℝ) (yL dyL yR dyR : ℝ → ℝ),
    FitMesh eps M H W dmin dmax r.sectors → AccurateTo ε W r.sectors eta vs → dmax - dmin ≤ M → |E| ≤ M →
    r.matchIndex < r.sectors.length →
    SolvesMesh W E r.sectors yL dyL → yL dmin = left.y → dyL dmin = left.dy →
    SolvesMesh W E r.sectors yR dyR → yR dmax = right.y → dyR dmax = right.dy →
    ∃ err, (constructOf eps eta vs dmin dmax r).matchingError pi E left right useH = .ok err ∧ ∀ x ∈ Set.Icc dmin dmax,
      |err.1 - (dyL x * yR x - dyR x * yL x)| ≤
        C * (H ^ (if useH then 16 else 14) + ε) * (max |left.y| |left.dy| * max |right.y| |right.dy|) := by
  obtain ⟨C, hC, key⟩ := matching_near M hM
  refine ⟨C, ?_⟩
  intro eps ε eta vs W dmin dmax H E pi r useH left right yL dyL yR dyR hf ⟨hε1, σ, τ, he, hv, hε⟩ hd hE hm a1 a2 a3 b1 b2 b3
  exact key eps σ τ ε eta vs W dmin dmax H E pi r useH left right yL dyL yR dyR hf he hv hε hε1 hd hE hm a1 a2 a3 b1 b2 b3

/-- Opposite signs of the exact mismatch enclose an eigenvalue. -/
theorem eigen_between {M : ℝ} (hM : 1 ≤ M) {W : Sec ℝ → ℝ → ℝ} {a b : ℝ} {l : List (Sec ℝ)} (h : Ok M W a l b) {L R : ℝ × ℝ} (hL : 0 < sz L)
    {f df : ℝ → ℝ → ℝ} (hf : ∀ E, |E| ≤ M + 1 → SolvesMesh W E l (f E) (df E) ∧ f E a = L.1 ∧ df E a = L.2) {E1 E2 σ : ℝ} (h12 : E1 ≤ E2)
    (h1 : |E1| ≤ M + 1) (h2 : |E2| ≤ M + 1) (s1 : 0 ≤ -σ * (df E1 b * R.1 - R.2 * f E1 b)) (s2 : 0 ≤ σ * (df E2 b * R.1 - R.2 * f E2 b)) (hσ : |σ| = 1) :
    ∃ lam, E1 ≤ lam ∧ lam ≤ E2 ∧ IsEigenvalue W l a b L R lam := by
  have b1 := (abs_le.mp h1).1
  have b2 := (abs_le.mp h2).2
  have hsub : Set.Icc E1 E2 ⊆ {E | |E| ≤ M + 1} := by
    intro x hx
    have i1 : E1 ≤ x := hx.1
    have i2 : x ≤ E2 := hx.2
    show |x| ≤ M + 1
    exact abs_le.mpr ⟨by linarith, by linarith⟩
  have hc : ContinuousOn (fun E => σ * (df E b * R.1 - R.2 * f E b)) (Set.Icc E1 E2) :=
    (continuousOn_const).mul ((mismatch_continuousOn hM h R hf).mono hsub)
  obtain ⟨lam, hl, hz⟩ := intermediate_value_Icc h12 hc ⟨by linarith, s2⟩
  have hE := hsub hl
  obtain ⟨i1, i2, i3⟩ := hf lam hE
  have hσ0 : σ ≠ 0 := by rintro rfl; simp at hσ
  have hz' : df lam b * R.1 - R.2 * f lam b = 0 := (mul_eq_zero.mp hz).resolve_left hσ0
  exact ⟨lam, hl.1, hl.2, isEigenvalue_of_zero hM h hE hL i1 i2 i3 hz'⟩

theorem sz_pos_of {y : Y ℝ} (h : y.y ≠ 0 ∨ y.dy ≠ 0) : 0 < sz (pr y) := by
  rcases h with h | h
  · exact lt_of_lt_of_le (abs_pos.mpr h) (le_max_left _ _)
  · exact lt_of_lt_of_le (abs_pos.mpr h) (le_max_right _ _)

set_option maxHeartbeats 1600000 in
/-- **C85, soundness of a small matching error.** For every bound `M` there is a constant `C` such that for every mesh, potential and
energy within the bounds and all non-zero boundary values: where the computed matching error, relative to the sizes of the boundary
values, plus `H^16 + ε` is some `η` with `C η ≤ 1`, there is an exact eigenvalue of the differential equation within `C η` of the
energy, and it is the only one at a distance less than `1/C` from itself. -/
theorem C85_small_error_eigenvalue (M : ℝ) (hM : 1 ≤ M) : ∃ C : ℝ, 1 ≤ C ∧ ∀ (eps ε : ℝ) (eta : ℕ → ℝ → ℕ → ℝ) (vs : Sec ℝ → ℕ → ℝ) (W : Sec ℝ → ℝ → ℝ)
    (dmin dmax H E pi : ℝ) (r : BuildResult ℝ) (useH : Bool) (left right : Y ℝ),
    FitMesh eps M H W dmin dmax r.sectors → AccurateTo ε W r.sectors eta vs → dmax - dmin ≤ M → 1 / M ≤ dmax - dmin → |E| ≤ M →
    r.matchIndex < r.sectors.length → (left.y ≠ 0 ∨ left.dy ≠ 0) → (right.y ≠ 0 ∨ right.dy ≠ 0) →
    ∃ err, (constructOf eps eta vs dmin dmax r).matchingError pi E left right useH = .ok err ∧
      ∀ η, |err.1| / (max |left.y| |left.dy| * max |right.y| |right.dy|) + H ^ (if useH then 16 else 14) + ε ≤ η → C * η ≤ 1 →
        ∃ lam, IsEigenvalue W r.sectors dmin dmax (left.y, left.dy) (right.y, right.dy) lam ∧ |lam - E| ≤ C * η ∧
          ∀ lam', IsEigenvalue W r.sectors dmin dmax (left.y, left.dy) (right.y, right.dy) lam' → |lam' - lam| < 1 / C → lam' = lam := by
  obtain ⟨C1, hC1, near⟩ := matching_near M hM
  obtain ⟨C2, ρ, hC2, ρ0, ρ1, sens⟩ := sensitivity M hM
  obtain ⟨C3, ρ', hC3, ρ0', ρ1', sens'⟩ := sensitivity (M + 1) (by linarith)
  have c12 : 1 ≤ C1 * C2 := one_le_mul_of_one_le_of_one_le hC1 hC2
  have cρ : C1 * C2 ≤ C1 * C2 / ρ := by rw [le_div_iff₀ ρ0]; nlinarith
  have iρ' : 0 < 1 / ρ' := by positivity
  refine ⟨C1 * C2 / ρ + 1 / ρ', by linarith, ?_⟩
  intro eps ε eta vs W dmin dmax H E pi r useH left right hf ⟨hε1, σ, τ, he, hv, hε⟩ hd hd' hE hm hl hr
  have ok := fit_ok hf hd hd'
  have hM1 : M ≤ M + 1 := by linarith
  have ok' : Ok (M + 1) W dmin r.sectors dmax := fit_ok (fit_le hf hM1) (by linarith)
    (le_trans (one_div_le_one_div_of_le (by linarith) hM1) hd')
  have hE1 : |E| ≤ M + 1 := by linarith
  have szL := sz_pos_of hl
  have szR := sz_pos_of hr
  set L := pr left with hLdef
  set R := pr right with hRdef
  obtain ⟨f, df, hfam⟩ := exists_family hM ok L
  obtain ⟨z1, z2, z3⟩ := hfam E hE1
  obtain ⟨yR, dyR, r1, r2, r3⟩ := exists_right (fit_okMesh hf hE) R
  obtain ⟨err, h1, h2⟩ := near eps σ τ ε eta vs W dmin dmax H E pi r useH left right (f E) (df E) yR dyR hf he hv hε hε1 hd hE hm z1 z2 z3 r1 r2 r3
  refine ⟨err, h1, ?_⟩
  intro η hη hCη
  have hab : dmin ≤ dmax := (chn_range ok.chn ok.pos).1
  have h3 := h2 dmax ⟨hab, le_rfl⟩
  rw [r2, r3] at h3
  have hS : 0 < sz L * sz R := by positivity
  change |err.1| / (sz L * sz R) + H ^ ord useH + ε ≤ η at hη
  set D0 := df E dmax * R.1 - R.2 * f E dmax with hD0
  have hH0 := fit_pos hf
  have hHp : 0 ≤ H ^ ord useH := by positivity
  have hε0 : 0 ≤ ε := by
    have h1 := (hv _ (List.getElem_mem hm)).nonneg
    have h2 := mul_nonneg (Nat.cast_nonneg (α := ℝ) r.sectors.length) he.nonneg
    linarith
  have herr : |err.1| = |err.1| / (sz L * sz R) * (sz L * sz R) := by field_simp
  have q0 : 0 ≤ |err.1| / (sz L * sz R) := by positivity
  have hη0 : 0 ≤ η := by linarith
  have bD : |D0| ≤ C1 * η * (sz L * sz R) := by
    have e1 : D0 = err.1 - (err.1 - D0) := by ring
    have e2 : |D0| ≤ |err.1| + |err.1 - D0| := by
      rw [e1]; exact (abs_sub _ _).trans (by rw [← e1])
    have e3 : |err.1| ≤ C1 * (|err.1| / (sz L * sz R)) * (sz L * sz R) := by
      rw [mul_assoc, ← herr]; exact le_mul_of_one_le_left (abs_nonneg _) hC1
    have e4 : C1 * (|err.1| / (sz L * sz R)) * (sz L * sz R) + C1 * (H ^ ord useH + ε) * (sz L * sz R) ≤ C1 * η * (sz L * sz R) := by
      rw [← add_mul, ← mul_add]
      exact mul_le_mul_of_nonneg_right (mul_le_mul_of_nonneg_left (by linarith) (by linarith)) hS.le
    linarith
  -- the enclosure
  set δ := C1 * C2 * η with hδ
  have hδ0 : 0 ≤ δ := by positivity
  have hδρ : δ ≤ ρ := by
    have e1 : C1 * C2 / ρ * η ≤ 1 := le_trans (by
      have := mul_nonneg iρ'.le hη0
      linarith [add_mul (C1 * C2 / ρ) (1 / ρ') η]) hCη
    have e2 : δ = C1 * C2 / ρ * η * ρ := by rw [hδ]; field_simp
    rw [e2]; nlinarith
  have hδC : δ ≤ (C1 * C2 / ρ + 1 / ρ') * η := mul_le_mul_of_nonneg_right (by linarith) hη0
  have cD : C2 * |D0| ≤ δ * (sz L * sz R) := by
    have := mul_le_mul_of_nonneg_left bD (show 0 ≤ C2 by linarith)
    rw [hδ]; linarith
  have zL : sz (f E dmin, df E dmin) = sz L := by rw [z2, z3]
  obtain ⟨s, hs1, hs⟩ := sens W dmin dmax E r.sectors R (f E) (df E) ok hE szR (by rw [zL]; exact szL) z1 (by
    rw [zL]
    refine cD.trans ?_
    have : δ ≤ 1 := hδρ.trans ρ1
    nlinarith)
  rw [zL] at hs
  have bE : |E + δ| ≤ M + 1 := (abs_add_le _ _).trans (by rw [abs_of_nonneg hδ0]; linarith)
  have bE' : |E - δ| ≤ M + 1 := (abs_sub _ _).trans (by rw [abs_of_nonneg hδ0]; linarith)
  have d1 : |E + δ - E| = δ := by rw [add_sub_cancel_left, abs_of_nonneg hδ0]
  have d2 : |E - δ - E| = δ := by rw [show E - δ - E = -δ by ring, abs_neg, abs_of_nonneg hδ0]
  obtain ⟨u1, u2, u3⟩ := hfam _ bE
  obtain ⟨w1, w2, w3⟩ := hfam _ bE'
  have p1 := (hs (E + δ) _ _ (by rw [d1]; exact hδρ) (by rw [d1]; exact cD) u1 (by rw [u2, z2]) (by rw [u3, z3])).1 (by linarith)
  have p2 := (hs (E - δ) _ _ (by rw [d2]; exact hδρ) (by rw [d2]; exact cD) w1 (by rw [w2, z2]) (by rw [w3, z3])).2 (by linarith)
  have hC20 : 0 < C2 := by linarith
  have t1 : 0 ≤ s * (df (E + δ) dmax * R.1 - R.2 * f (E + δ) dmax) := by
    have : 0 ≤ sz L * sz R * (E + δ - E) := mul_nonneg hS.le (by linarith)
    exact nonneg_of_mul_nonneg_right (this.trans p1) hC20
  have t2 : 0 ≤ -s * (df (E - δ) dmax * R.1 - R.2 * f (E - δ) dmax) := by
    have : 0 ≤ sz L * sz R * (E - (E - δ)) := mul_nonneg hS.le (by linarith)
    exact nonneg_of_mul_nonneg_right (this.trans p2) hC20
  obtain ⟨lam, l1, l2, hlam⟩ := eigen_between hM ok (R := R) szL hfam (by linarith) bE' bE t2 t1 hs1
  refine ⟨lam, hlam, ?_, ?_⟩
  · rw [abs_le]; constructor <;> linarith
  · -- isolation
    intro lam' hlam' hclose
    by_contra hne
    have hlamM : |lam| ≤ M + 1 := abs_le.mpr ⟨by linarith [(abs_le.mp bE').1], by linarith [(abs_le.mp bE).2]⟩
    obtain ⟨v1, v2, v3⟩ := hfam lam hlamM
    have vz : df lam dmax * R.1 - R.2 * f lam dmax = 0 := zero_of_isEigenvalue (K := 3 * M) (by linarith) (ok.okMesh hM hlamM) hlam v1 v2 v3
    have zv : sz (f lam dmin, df lam dmin) = sz L := by rw [v2, v3]
    obtain ⟨s', hs1', hs'⟩ := sens' W dmin dmax lam r.sectors R (f lam) (df lam) ok' hlamM szR (by rw [zv]; exact szL) v1 (by
      rw [vz, abs_zero, mul_zero, zv]; exact hS.le)
    rw [zv] at hs'
    have hcl : |lam' - lam| ≤ ρ' := by
      refine hclose.le.trans ?_
      rw [div_le_iff₀ (by linarith)]
      have : ρ' * (C1 * C2 / ρ + 1 / ρ') = ρ' * (C1 * C2 / ρ) + 1 := by field_simp
      rw [this]
      have : 0 ≤ ρ' * (C1 * C2 / ρ) := by positivity
      linarith
    have hlM' : |lam'| ≤ M + 1 + 1 := by
      have : lam' = lam + (lam' - lam) := by ring
      rw [this]; exact (abs_add_le _ _).trans (by linarith)
    obtain ⟨g, dg, g1, g2, g3⟩ := mesh_exists (ok'.okMesh (by linarith) hlM') L
    have gz : dg dmax * R.1 - R.2 * g dmax = 0 := zero_of_isEigenvalue (K := 3 * (M + 1)) (by linarith) (ok'.okMesh (by linarith) hlM') hlam' g1 g2 g3
    have := hs' lam' g dg hcl (by rw [vz, abs_zero, mul_zero]; positivity) g1 (by rw [g2, v2]) (by rw [g3, v3])
    rw [gz] at this
    simp only [mul_zero] at this
    rcases lt_or_gt_of_ne hne with h | h
    · have := this.2 h.le
      have : 0 < sz L * sz R * (lam - lam') := mul_pos hS (by linarith)
      linarith
    · have := this.1 h.le
      have : 0 < sz L * sz R * (lam' - lam) := mul_pos hS (by linarith)
      linarith

set_option maxHeartbeats 1600000 in
/-- **C86, every exact eigenvalue shows up.** For every bound `M` there is a constant `C` such that for every mesh and potential within
the bounds, all non-zero boundary values, every exact eigenvalue `λ`, `|λ| ≤ M`, and every distance `δ` with
`C (H^16 + ε) ≤ δ ≤ 1/C`: the computed matching errors at `λ - δ` and `λ + δ` have opposite signs, and their sizes are at least `δ / C`
relative to the boundary values. -/
theorem C86_eigenvalue_sign_change (M : ℝ) (hM : 1 ≤ M) : ∃ C : ℝ, 1 ≤ C ∧ ∀ (eps ε : ℝ) (eta : ℕ → ℝ → ℕ → ℝ) (vs : Sec ℝ → ℕ → ℝ) (W : Sec ℝ → ℝ → ℝ)
    (dmin dmax H lam δ pi : ℝ) (r : BuildResult ℝ) (useH : Bool) (left right : Y ℝ),
    FitMesh eps M H W dmin dmax r.sectors → AccurateTo ε W r.sectors eta vs → dmax - dmin ≤ M → 1 / M ≤ dmax - dmin → |lam| ≤ M →
    r.matchIndex < r.sectors.length → (left.y ≠ 0 ∨ left.dy ≠ 0) → (right.y ≠ 0 ∨ right.dy ≠ 0) →
    IsEigenvalue W r.sectors dmin dmax (left.y, left.dy) (right.y, right.dy) lam →
    C * (H ^ (if useH then 16 else 14) + ε) ≤ δ → δ ≤ 1 / C →
    ∃ lo hi, (constructOf eps eta vs dmin dmax r).matchingError pi (lam - δ) left right useH = .ok lo ∧
      (constructOf eps eta vs dmin dmax r).matchingError pi (lam + δ) left right useH = .ok hi ∧
      lo.1 * hi.1 < 0 ∧
      δ / C * (max |left.y| |left.dy| * max |right.y| |right.dy|) ≤ |lo.1| ∧
      δ / C * (max |left.y| |left.dy| * max |right.y| |right.dy|) ≤ |hi.1| := by
  obtain ⟨C1, hC1, near⟩ := matching_near (M + 1) (by linarith)
  obtain ⟨C2, ρ, hC2, ρ0, ρ1, sens⟩ := sensitivity M hM
  have iρ : 0 < 1 / ρ := by positivity
  have hC12 : 0 < C1 * C2 := by positivity
  refine ⟨2 * (C1 * C2) + 2 * C2 + 1 / ρ, by linarith, ?_⟩
  intro eps ε eta vs W dmin dmax H lam δ pi r useH left right hf ⟨hε1, σ, τ, he, hv, hε⟩ hd hd' hlam hm hl hr heig hδ hδ1
  set C := 2 * (C1 * C2) + 2 * C2 + 1 / ρ with hC
  have hC0 : 0 < C := by linarith
  have ok := fit_ok hf hd hd'
  have hf' := fit_le hf (show M ≤ M + 1 by linarith)
  have hH0 := fit_pos hf
  have hHp : 0 < H ^ ord useH := by positivity
  have hε0 : 0 ≤ ε := by
    have h1 := (hv _ (List.getElem_mem hm)).nonneg
    have h2 := mul_nonneg (Nat.cast_nonneg (α := ℝ) r.sectors.length) he.nonneg
    linarith
  change C * (H ^ ord useH + ε) ≤ δ at hδ
  have hδ0 : 0 < δ := lt_of_lt_of_le (by positivity) hδ
  have hδρ : δ ≤ ρ := by
    refine hδ1.trans ?_
    rw [div_le_iff₀ hC0]
    have : ρ * C = ρ * (2 * (C1 * C2) + 2 * C2) + 1 := by rw [hC]; field_simp
    rw [this]
    have : 0 ≤ ρ * (2 * (C1 * C2) + 2 * C2) := by positivity
    linarith
  have szL := sz_pos_of hl
  have szR := sz_pos_of hr
  set L := pr left with hLdef
  set R := pr right with hRdef
  have hS : 0 < sz L * sz R := by positivity
  have hab : dmin ≤ dmax := (chn_range ok.chn ok.pos).1
  have hlam1 : |lam| ≤ M + 1 := by linarith
  obtain ⟨f, df, hfam⟩ := exists_family hM ok L
  obtain ⟨z1, z2, z3⟩ := hfam lam hlam1
  have vz := zero_of_isEigenvalue (K := 3 * M) (by linarith) (ok.okMesh hM hlam1) heig z1 z2 z3
  have zL : sz (f lam dmin, df lam dmin) = sz L := by rw [z2, z3]
  obtain ⟨s, hs1, hs⟩ := sens W dmin dmax lam r.sectors R (f lam) (df lam) ok hlam szR (by rw [zL]; exact szL) z1 (by
    change C2 * |df lam dmax * R.1 - R.2 * f lam dmax| ≤ _
    rw [show df lam dmax * R.1 - R.2 * f lam dmax = 0 from vz, abs_zero, mul_zero, zL]; exact hS.le)
  rw [zL] at hs
  have vz' : df lam dmax * R.1 - R.2 * f lam dmax = 0 := vz
  -- one energy
  have one : ∀ F, |F - lam| = δ → ∃ err, (constructOf eps eta vs dmin dmax r).matchingError pi F left right useH = .ok err ∧
      |err.1 - (df F dmax * R.1 - R.2 * f F dmax)| ≤ C1 * (H ^ ord useH + ε) * (sz L * sz R) ∧
      SolvesMesh W F r.sectors (f F) (df F) ∧ f F dmin = L.1 ∧ df F dmin = L.2 := by
    intro F hF
    have bF : |F| ≤ M + 1 := by
      have : F = lam + (F - lam) := by ring
      rw [this]; exact (abs_add_le _ _).trans (by linarith)
    obtain ⟨u1, u2, u3⟩ := hfam F bF
    obtain ⟨yR, dyR, r1, r2, r3⟩ := exists_right (fit_okMesh hf' bF) R
    obtain ⟨err, h1, h2⟩ := near eps σ τ ε eta vs W dmin dmax H F pi r useH left right (f F) (df F) yR dyR hf' he hv hε hε1 (by linarith) bF hm u1 u2 u3 r1 r2 r3
    have h3 := h2 dmax ⟨hab, le_rfl⟩
    rw [r2, r3] at h3
    exact ⟨err, h1, h3, u1, u2, u3⟩
  have d1 : |lam + δ - lam| = δ := by rw [add_sub_cancel_left, abs_of_nonneg hδ0.le]
  have d2 : |lam - δ - lam| = δ := by rw [show lam - δ - lam = -δ by ring, abs_neg, abs_of_nonneg hδ0.le]
  obtain ⟨hi, e1, n1, u1, u2, u3⟩ := one _ d1
  obtain ⟨lo, e2, n2, w1, w2, w3⟩ := one _ d2
  have p1 := (hs (lam + δ) _ _ (by rw [d1]; exact hδρ) (by rw [vz', abs_zero, mul_zero]; positivity) u1 (by rw [u2, z2]) (by rw [u3, z3])).1 (by linarith)
  have p2 := (hs (lam - δ) _ _ (by rw [d2]; exact hδρ) (by rw [vz', abs_zero, mul_zero]; positivity) w1 (by rw [w2, z2]) (by rw [w3, z3])).2 (by linarith)
  have hC20 : 0 < C2 := by linarith
  -- the computed errors
  have small : C2 * (C1 * (H ^ ord useH + ε) * (sz L * sz R)) ≤ δ / 2 * (sz L * sz R) := by
    have a1 : 2 * (C1 * C2) * (H ^ ord useH + ε) ≤ C * (H ^ ord useH + ε) := mul_le_mul_of_nonneg_right (by rw [hC]; linarith) (by positivity)
    have a2 : C2 * C1 * (H ^ ord useH + ε) ≤ δ / 2 := by linarith [mul_comm C1 C2]
    have := mul_le_mul_of_nonneg_right a2 hS.le
    linarith
  have lowb : ∀ {e D t : ℝ}, |t| = 1 → |e - D| ≤ C1 * (H ^ ord useH + ε) * (sz L * sz R) → sz L * sz R * δ ≤ C2 * (t * D) →
      δ / 2 * (sz L * sz R) ≤ C2 * (t * e) := by
    intro e D t ht hn hp
    have a1 : t * e = t * D + t * (e - D) := by ring
    have a2 : -(C1 * (H ^ ord useH + ε) * (sz L * sz R)) ≤ t * (e - D) := by
      have : |t * (e - D)| ≤ C1 * (H ^ ord useH + ε) * (sz L * sz R) := by rw [abs_mul, ht, one_mul]; exact hn
      exact (abs_le.mp this).1
    have a3 := mul_le_mul_of_nonneg_left a2 hC20.le
    rw [a1, mul_add]
    linarith
  have b1 := lowb hs1 n1 (by simpa using p1)
  have b2 := lowb (t := -s) (by rw [abs_neg, hs1]) n2 (by simpa using p2)
  have sizeb : ∀ {e t : ℝ}, |t| = 1 → δ / 2 * (sz L * sz R) ≤ C2 * (t * e) → 0 < t * e ∧ δ / C * (sz L * sz R) ≤ |e| := by
    intro e t ht hb
    have a0 : 0 < C2 * (t * e) := lt_of_lt_of_le (by positivity) hb
    have a1 : 0 < t * e := pos_of_mul_pos_right a0 hC20.le
    have a2 : t * e ≤ |e| := by
      have := le_abs_self (t * e)
      rwa [abs_mul, ht, one_mul] at this
    refine ⟨a1, ?_⟩
    have a3 : δ / 2 * (sz L * sz R) ≤ C2 * |e| := hb.trans (mul_le_mul_of_nonneg_left a2 hC20.le)
    have a4 : δ / C * (sz L * sz R) = (δ * (sz L * sz R)) / C := by ring
    rw [a4, div_le_iff₀ hC0]
    have a5 : 2 * C2 * |e| ≤ |e| * C := by
      rw [mul_comm]; exact mul_le_mul_of_nonneg_left (by rw [hC]; linarith) (abs_nonneg _)
    linarith
  obtain ⟨c1, c2⟩ := sizeb hs1 b1
  obtain ⟨c3, c4⟩ := sizeb (t := -s) (by rw [abs_neg, hs1]) b2
  refine ⟨lo, hi, e2, e1, ?_, c4, c2⟩
  have hss : s * s = 1 := by
    have := abs_mul_abs_self s
    rw [hs1] at this; linarith
  have := mul_pos c3 c1
  have e : -s * lo.1 * (s * hi.1) = -(lo.1 * hi.1) * (s * s) := by ring
  rw [e, hss] at this
  linarith

end Verif.Solver
