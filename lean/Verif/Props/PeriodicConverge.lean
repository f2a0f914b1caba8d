import Verif.Lemmas.PeriodicNear
import Verif.Props.Periodic
import Verif.Props.UniformSolve
import Mathlib.Analysis.Complex.ExponentialBounds
import Mathlib.Analysis.SpecialFunctions.Trigonometric.Bounds

/-!
# Periodic problems: the determinant converges, and brackets exact eigenvalues (C107, C108)

`Periodic.matchingError P k pi E use_h` is `PeriodicMatslise::matchingError`, `Periodic.determinant` the determinant (and its energy
derivative) the search works with (`Model/Periodic`), on the solver's own sectors (`Model/Solver`). The specification is in
`Spec/Periodic`: eigenvalues of `(y, y')(dmax) = K (y, y')(dmin)`, and the monodromy matrix `Φ` of exact solutions.
-/
namespace Verif.Solver
open Verif.Mesh Verif.YT Verif.CalcT Verif.Propag Verif.Formulas Verif.Legendre Verif.Spec Verif.Periodic

/-- **C107.** For every bound `M` there is a constant `C` such that, for every mesh, potential and matrix `K` within the bounds, every
energy `|E| ≤ M` and the exact fundamental solutions: `matchingError` succeeds, the determinant computed from it is within
`C (H^16 + ε)` (`H^14` without the `h` terms) of `-2 det (Φ(E) - K)`, `Φ` the exact monodromy matrix; and its computed derivative is as
close to the derivative of that function with respect to the energy. -/
theorem C107_determinant (M : ℝ) (hM : 1 ≤ M) : ∃ C : ℝ, 1 ≤ C ∧ ∀ (eps ε : ℝ) (eta : ℕ → ℝ → ℕ → ℝ) (vs : Sec ℝ → ℕ → ℝ) (W : Sec ℝ → ℝ → ℝ) (dmin dmax H E pi : ℝ) (r : BuildResult ℝ)
    (useH : Bool) (k : M2 ℝ) (c dc s ds : ℝ → ℝ → ℝ),
    FitMesh eps M H W dmin dmax r.sectors → AccurateTo ε W r.sectors eta vs → dmax - dmin ≤ M → |E| ≤ M → r.matchIndex < r.sectors.length → EntriesLe M k →
    Fundamental W r.sectors dmin c dc s ds →
    ∃ err d, matchingError (constructOf eps eta vs dmin dmax r) k pi E useH = .ok err ∧
      |(determinant err.1).1 - -2 * perDet k (c E dmax) (dc E dmax) (s E dmax) (ds E dmax)| ≤ C * (H ^ (if useH then 16 else 14) + ε) ∧
      HasDerivAt (fun F => -2 * perDet k (c F dmax) (dc F dmax) (s F dmax) (ds F dmax)) d E ∧
      |(determinant err.1).2 - d| ≤ C * (H ^ (if useH then 16 else 14) + ε) := det_near M hM

/-- What the proofs below use of a problem: the exact determinant, its zeros and its distance to the computed one. -/
theorem exact_fun (M : ℝ) (hM : 1 ≤ M) : ∃ C : ℝ, 1 ≤ C ∧ ∀ (eps ε : ℝ) (eta : ℕ → ℝ → ℕ → ℝ) (vs : Sec ℝ → ℕ → ℝ) (W : Sec ℝ → ℝ → ℝ) (dmin dmax H pi : ℝ) (r : BuildResult ℝ)
    (useH : Bool) (k : M2 ℝ) (c dc s ds : ℝ → ℝ → ℝ),
    FitMesh eps M H W dmin dmax r.sectors → AccurateTo ε W r.sectors eta vs → dmax - dmin ≤ M → r.matchIndex < r.sectors.length → EntriesLe M k →
    Fundamental W r.sectors dmin c dc s ds → ∃ D : ℝ → ℝ, (∀ F, D F = -2 * perDet k (c F dmax) (dc F dmax) (s F dmax) (ds F dmax)) ∧
      (∀ F, D F = 0 ↔ IsPeriodicEigenvalue W r.sectors dmin dmax k F) ∧ (∀ F, |F| ≤ M → DifferentiableAt ℝ D F) ∧
      (∀ F, |F| ≤ M → ∀ err, matchingError (constructOf eps eta vs dmin dmax r) k pi F useH = .ok err →
        |(determinant err.1).1 - D F| ≤ C * (H ^ (if useH then 16 else 14) + ε)) ∧ 0 ≤ H ^ (if useH then 16 else 14) + ε := by
  obtain ⟨C, hC, key⟩ := det_near M hM
  refine ⟨C, hC, ?_⟩
  intro eps ε eta vs W dmin dmax H pi r useH k c dc s ds hf hacc hd hm hk hF
  refine ⟨_, fun F => rfl, fun F => ?_, fun F hF' => ?_, fun F hF' err herr => ?_, ?_⟩
  · have ok := okMesh_any hf hM F
    have hlt : dmin < dmax := by
      have h1 := (chn_range ok.chn ok.pos).2 _ (List.getElem_mem hm)
      have h2 := ok.pos _ (List.getElem_mem hm)
      linarith
    rw [← perDet_zero (show 1 ≤ M + |F| by linarith [abs_nonneg F]) hlt ok k (hF.solC F) (hF.solS F) (hF.initC F) (hF.initS F)]
    constructor <;> intro h <;> linarith
  · obtain ⟨_, d, -, -, h, -⟩ := key eps ε eta vs W dmin dmax H F pi r useH k c dc s ds hf hacc hd hF' hm hk hF
    exact h.differentiableAt
  · obtain ⟨err', _, h1, h2, -⟩ := key eps ε eta vs W dmin dmax H F pi r useH k c dc s ds hf hacc hd hF' hm hk hF
    rw [h1] at herr
    injection herr with herr
    rw [← herr]; exact h2
  · obtain ⟨_, _, -, h2, -⟩ := key eps ε eta vs W dmin dmax H 0 pi r useH k c dc s ds hf hacc hd (by simp; linarith) hm hk hF
    have := (abs_nonneg _).trans h2
    exact nonneg_of_mul_nonneg_right this (by linarith)

theorem ivt_zero {D : ℝ → ℝ} {a b : ℝ} (hab : a ≤ b) (hc : ContinuousOn D (Set.Icc a b)) (h : D a * D b ≤ 0) : ∃ z ∈ Set.Icc a b, D z = 0 := by
  rcases mul_nonpos_iff.mp h with ⟨h1, h2⟩ | ⟨h1, h2⟩
  · obtain ⟨z, hz, e⟩ := intermediate_value_Icc' hab hc ⟨h2, h1⟩
    exact ⟨z, hz, e⟩
  · obtain ⟨z, hz, e⟩ := intermediate_value_Icc hab hc ⟨h1, h2⟩
    exact ⟨z, hz, e⟩

/-- A value of large enough size has the sign of what it approximates. -/
theorem sign_of_near {f D e : ℝ} (h : |f - D| ≤ e) (hl : e < |f|) : 0 < f * D := by
  rw [abs_le] at h
  rcases lt_abs.mp hl with h1 | h1
  · exact mul_pos (by linarith [(abs_nonneg (f - D)), h.1, h.2]) (by linarith [h.1, h.2])
  · exact mul_pos_of_neg_of_neg (by linarith [h.1, h.2]) (by linarith [h.1, h.2])

theorem opposite_of {f1 f2 d1 d2 : ℝ} (h : f1 * f2 < 0) (h1 : 0 < f1 * d1) (h2 : 0 < f2 * d2) : d1 * d2 < 0 := by
  have := mul_pos h1 h2
  have e : f1 * d1 * (f2 * d2) = f1 * f2 * (d1 * d2) := by ring
  rw [e] at this
  by_contra hc
  exact absurd this (not_lt.mpr (mul_nonpos_of_nonpos_of_nonneg h.le (not_lt.mp hc)))

/-- **C108, sign change.** If the computed determinants at two energies have opposite signs and both exceed `C (H^16 + ε)`, there is an
exact eigenvalue between them. -/
theorem C108_sign_change (M : ℝ) (hM : 1 ≤ M) : ∃ C : ℝ, 1 ≤ C ∧ ∀ (eps ε : ℝ) (eta : ℕ → ℝ → ℕ → ℝ) (vs : Sec ℝ → ℕ → ℝ) (W : Sec ℝ → ℝ → ℝ) (dmin dmax H pi : ℝ) (r : BuildResult ℝ)
    (useH : Bool) (k : M2 ℝ) (E1 E2 : ℝ) (err1 err2 : (Y ℝ × Y ℝ) × (ℝ × ℝ)),
    FitMesh eps M H W dmin dmax r.sectors → AccurateTo ε W r.sectors eta vs → dmax - dmin ≤ M → r.matchIndex < r.sectors.length → EntriesLe M k →
    |E1| ≤ M → |E2| ≤ M → E1 ≤ E2 →
    matchingError (constructOf eps eta vs dmin dmax r) k pi E1 useH = .ok err1 → matchingError (constructOf eps eta vs dmin dmax r) k pi E2 useH = .ok err2 →
    (determinant err1.1).1 * (determinant err2.1).1 < 0 →
    C * (H ^ (if useH then 16 else 14) + ε) < |(determinant err1.1).1| → C * (H ^ (if useH then 16 else 14) + ε) < |(determinant err2.1).1| →
    ∃ lam ∈ Set.Ioo E1 E2, IsPeriodicEigenvalue W r.sectors dmin dmax k lam := by
  obtain ⟨C, hC, key⟩ := exact_fun M hM
  refine ⟨C, hC, ?_⟩
  intro eps ε eta vs W dmin dmax H pi r useH k E1 E2 err1 err2 hf hacc hd hm hk h1 h2 h12 e1 e2 hs l1 l2
  obtain ⟨c, dc, s, ds, hF⟩ := fundamental_exists hM hf
  obtain ⟨D, -, zero, diff, near, -⟩ := key eps ε eta vs W dmin dmax H pi r useH k c dc s ds hf hacc hd hm hk hF
  have p1 := sign_of_near (near E1 h1 err1 e1) l1
  have p2 := sign_of_near (near E2 h2 err2 e2) l2
  have hD := opposite_of hs p1 p2
  obtain ⟨z, hz, e⟩ := ivt_zero h12 (D := D) (fun F hF => (diff F (abs_le.mpr ⟨by linarith [(abs_le.mp h1).1, hF.1], by linarith [(abs_le.mp h2).2, hF.2]⟩)).continuousAt.continuousWithinAt) hD.le
  refine ⟨z, ⟨lt_of_le_of_ne hz.1 ?_, lt_of_le_of_ne hz.2 ?_⟩, (zero z).mp e⟩
  · rintro rfl; rw [e, zero_mul] at hD; exact lt_irrefl _ hD
  · rintro rfl; rw [e, mul_zero] at hD; exact lt_irrefl _ hD

/-- **C108, completeness.** At an exact eigenvalue the computed determinant is at most `C (H^16 + ε)`; at a double one so is its computed
derivative. -/
theorem C108_small_at_eigenvalue (M : ℝ) (hM : 1 ≤ M) : ∃ C : ℝ, 1 ≤ C ∧ ∀ (eps ε : ℝ) (eta : ℕ → ℝ → ℕ → ℝ) (vs : Sec ℝ → ℕ → ℝ) (W : Sec ℝ → ℝ → ℝ) (dmin dmax H pi : ℝ) (r : BuildResult ℝ)
    (useH : Bool) (k : M2 ℝ) (lam : ℝ),
    FitMesh eps M H W dmin dmax r.sectors → AccurateTo ε W r.sectors eta vs → dmax - dmin ≤ M → r.matchIndex < r.sectors.length → EntriesLe M k → |lam| ≤ M →
    IsPeriodicEigenvalue W r.sectors dmin dmax k lam →
    ∃ err, matchingError (constructOf eps eta vs dmin dmax r) k pi lam useH = .ok err ∧ |(determinant err.1).1| ≤ C * (H ^ (if useH then 16 else 14) + ε) ∧
      (IsDoubleEigenvalue W r.sectors dmin dmax k lam → |(determinant err.1).2| ≤ C * (H ^ (if useH then 16 else 14) + ε)) := by
  obtain ⟨C, hC, key⟩ := det_near M hM
  refine ⟨C, hC, ?_⟩
  intro eps ε eta vs W dmin dmax H pi r useH k lam hf hacc hd hm hk hl heig
  obtain ⟨c, dc, s, ds, hF⟩ := fundamental_exists hM hf
  obtain ⟨err, d, h1, h2, h3, h4⟩ := key eps ε eta vs W dmin dmax H lam pi r useH k c dc s ds hf hacc hd hl hm hk hF
  have ok := okMesh_any hf hM lam
  have hab := (chn_range ok.chn ok.pos).1
  have hlt : dmin < dmax := by
    have h1 := (chn_range ok.chn ok.pos).2 _ (List.getElem_mem hm)
    have h2 := ok.pos _ (List.getElem_mem hm)
    linarith
  have z := (perDet_zero (show 1 ≤ M + |lam| by linarith [abs_nonneg lam]) hlt ok k (hF.solC lam) (hF.solS lam) (hF.initC lam) (hF.initS lam)).mpr heig
  rw [z, mul_zero, sub_zero] at h2
  refine ⟨err, h1, h2, fun hdb => ?_⟩
  obtain ⟨a1, a2⟩ := hdb _ _ (hF.solC lam)
  obtain ⟨a3, a4⟩ := hdb _ _ (hF.solS lam)
  rw [(hF.initC lam).1, (hF.initC lam).2] at a1 a2
  rw [(hF.initS lam).1, (hF.initS lam).2] at a3 a4
  have cst : ∀ {g : ℝ → ℝ} {c : ℝ}, (∀ F, g F = c) → HasDerivAt g 0 lam := by
    intro g c h
    rw [show g = fun _ => c from funext h]; exact hasDerivAt_const _ _
  have aI : dmin ∈ Set.Icc dmin dmax := ⟨le_rfl, hab⟩
  have bI : dmax ∈ Set.Icc dmin dmax := ⟨hab, le_rfl⟩
  obtain ⟨zc, dzc, -, -, -, qc⟩ := family_deriv hM hf hl hF.solC aI (cst fun F => (hF.initC F).1) (cst fun F => (hF.initC F).2)
  obtain ⟨zs, dzs, -, -, -, qs⟩ := family_deriv hM hf hl hF.solS aI (cst fun F => (hF.initS F).1) (cst fun F => (hF.initS F).2)
  have e := (((((qc _ bI).1.sub_const k.a).mul ((qs _ bI).2.sub_const k.d)).sub (((qs _ bI).1.sub_const k.b).mul ((qc _ bI).2.sub_const k.c))).const_mul (-2))
  have := h3.unique e
  rw [this, a1, a2, a3, a4] at h4
  simpa using h4

/-- **C108, bisection.** Let the exact determinant have slope at least `m > 0` on `[E1, E2]` (the eigenvalues there are simple and separated) and the computed one
opposite signs, of size more than `C (H^16 + ε)`, at the ends. Then there is exactly one exact eigenvalue in the bracket, and the energy
returned by `binarySearch` on the computed determinant, with tolerance `tol`, is within `C (H^16 + ε) / m + tol M` of it. -/
theorem C108_bisection (M : ℝ) (hM : 1 ≤ M) : ∃ C : ℝ, 1 ≤ C ∧ ∀ (eps ε : ℝ) (eta : ℕ → ℝ → ℕ → ℝ) (vs : Sec ℝ → ℕ → ℝ) (W : Sec ℝ → ℝ → ℝ) (dmin dmax H pi : ℝ) (r : BuildResult ℝ)
    (useH : Bool) (k : M2 ℝ) (c dc s ds : ℝ → ℝ → ℝ) (E1 E2 m tol x : ℝ) (fuel : ℕ) (f : ℝ → ℝ),
    FitMesh eps M H W dmin dmax r.sectors → AccurateTo ε W r.sectors eta vs → dmax - dmin ≤ M → r.matchIndex < r.sectors.length → EntriesLe M k →
    Fundamental W r.sectors dmin c dc s ds → |E1| ≤ M → |E2| ≤ M → E1 ≤ E2 → 0 < m → 0 ≤ tol →
    (∀ E ∈ Set.Icc E1 E2, m ≤ |deriv (fun F => -2 * perDet k (c F dmax) (dc F dmax) (s F dmax) (ds F dmax)) E|) →
    (∀ E ∈ Set.Icc E1 E2, ∃ err, matchingError (constructOf eps eta vs dmin dmax r) k pi E useH = .ok err ∧ f E = (determinant err.1).1) →
    f E1 * f E2 < 0 → C * (H ^ (if useH then 16 else 14) + ε) < |f E1| → C * (H ^ (if useH then 16 else 14) + ε) < |f E2| →
    bisect' f tol fuel E1 E2 = .ok x →
    ∃ lam ∈ Set.Icc E1 E2, IsPeriodicEigenvalue W r.sectors dmin dmax k lam ∧
      (∀ lam' ∈ Set.Icc E1 E2, IsPeriodicEigenvalue W r.sectors dmin dmax k lam' → lam' = lam) ∧
      |x - lam| ≤ C * (H ^ (if useH then 16 else 14) + ε) / m + tol * M := by
  obtain ⟨C, hC, key⟩ := exact_fun M hM
  refine ⟨C, hC, ?_⟩
  intro eps ε eta vs W dmin dmax H pi r useH k c dc s ds E1 E2 m tol x fuel f hf hacc hd hm hk hF h1 h2 h12 m0 t0 hslope hfun hs l1 l2 hb
  obtain ⟨D, hDef, zero, diff, near, κ0⟩ := key eps ε eta vs W dmin dmax H pi r useH k c dc s ds hf hacc hd hm hk hF
  rw [show (fun F => -2 * perDet k (c F dmax) (dc F dmax) (s F dmax) (ds F dmax)) = D from (funext hDef).symm] at hslope
  obtain ⟨κ, hκ⟩ : ∃ κ, κ = C * (H ^ (if useH then 16 else 14) + ε) := ⟨_, rfl⟩
  rw [← hκ] at l1 l2 near ⊢
  have κ0 : 0 ≤ κ := by rw [hκ]; exact mul_nonneg (by linarith) κ0
  have hle : ∀ F ∈ Set.Icc E1 E2, |F| ≤ M := fun F hF => abs_le.mpr ⟨by linarith [(abs_le.mp h1).1, hF.1], by linarith [(abs_le.mp h2).2, hF.2]⟩
  have cont : ∀ {a b}, E1 ≤ a → b ≤ E2 → ContinuousOn D (Set.Icc a b) := fun ha hb F hF =>
    (diff F (hle F ⟨ha.trans hF.1, hF.2.trans hb⟩)).continuousAt.continuousWithinAt
  have nr : ∀ F ∈ Set.Icc E1 E2, |f F - D F| ≤ κ := fun F hF => by
    obtain ⟨err, e1, e2⟩ := hfun F hF
    rw [e2]; exact near F (hle F hF) err e1
  have I1 : E1 ∈ Set.Icc E1 E2 := ⟨le_rfl, h12⟩
  have I2 : E2 ∈ Set.Icc E1 E2 := ⟨h12, le_rfl⟩
  have p1 := sign_of_near (nr E1 I1) l1
  have p2 := sign_of_near (nr E2 I2) l2
  obtain ⟨lam, hl, el⟩ := ivt_zero h12 (cont le_rfl le_rfl) (opposite_of hs p1 p2).le
  -- the mean value theorem
  have mvt : ∀ u ∈ Set.Icc E1 E2, m * |u - lam| ≤ |D u| := by
    have base : ∀ p q, p ∈ Set.Icc E1 E2 → q ∈ Set.Icc E1 E2 → p < q → m * (q - p) ≤ |D q - D p| := by
      intro p q hp hq hpq
      obtain ⟨ξ, hξ, e⟩ := exists_deriv_eq_slope D hpq (cont hp.1 hq.2) (fun F hF =>
        (diff F (hle F ⟨hp.1.trans hF.1.le, hF.2.le.trans hq.2⟩)).differentiableWithinAt)
      have := hslope ξ ⟨hp.1.trans hξ.1.le, hξ.2.le.trans hq.2⟩
      have q0 : 0 < q - p := by linarith
      rw [e, abs_div, abs_of_pos q0, le_div_iff₀ q0] at this
      exact this
    intro u hu
    rcases lt_trichotomy u lam with h | h | h
    · have := base u lam hu hl h
      rw [el, zero_sub, abs_neg] at this
      rw [abs_of_neg (by linarith)]; linarith
    · rw [h]; simp
    · have := base lam u hl hu h
      rw [el, sub_zero] at this
      rw [abs_of_pos (by linarith)]; linarith
  refine ⟨lam, hl, (zero lam).mp el, ?_, ?_⟩
  · intro lam' hl' he'
    have := mvt lam' hl'
    rw [(zero lam').mpr he', abs_zero] at this
    have : |lam' - lam| ≤ 0 := by
      by_contra h
      have := mul_pos m0 (not_le.mp h)
      linarith
    linarith [abs_nonpos_iff.mp this]
  · obtain ⟨a, b, fa, ha, hab, hb', hx, hw, hla, hrb⟩ := bisect_spec f tol fuel E1 E2 (f E1) x h12 hb
    have aI : a ∈ Set.Icc E1 E2 := ⟨ha, hab.trans hb'⟩
    have bI : b ∈ Set.Icc E1 E2 := ⟨ha.trans hab, hb'⟩
    have hfa : fa = f a := by
      rcases hla with ⟨rfl, rfl⟩ | ⟨h, _⟩
      · rfl
      · exact h
    have hns : ¬ 0 < f a * f b := by
      rcases hrb with rfl | hrb
      · rcases hla with ⟨rfl, _⟩ | ⟨_, h⟩
        · exact not_lt.mpr hs.le
        · rw [sameSign_iff] at h
          intro hc
          rcases h with ⟨q1, q2⟩ | ⟨q1, q2⟩
          · have := (neg_iff_pos_of_mul_neg hs).mp q1
            linarith [mul_neg_of_neg_of_pos q2 this]
          · have := (pos_iff_neg_of_mul_neg hs).mp q1
            linarith [mul_neg_of_pos_of_neg q2 this]
      · rw [hfa] at hrb
        intro hc
        have : sameSign (f a) (f b) = true := by
          rw [sameSign_iff]
          rcases mul_pos_iff.mp hc with ⟨q1, q2⟩ | ⟨q1, q2⟩
          · exact .inr ⟨q1, q2⟩
          · exact .inl ⟨q1, q2⟩
        rw [this] at hrb
        exact absurd hrb (by simp)
    -- a point of the final bracket where the exact determinant is small
    have small : ∃ z ∈ Set.Icc a b, |D z| ≤ κ := by
      by_cases qa : |D a| ≤ κ
      · exact ⟨a, ⟨le_rfl, hab⟩, qa⟩
      by_cases qb : |D b| ≤ κ
      · exact ⟨b, ⟨hab, le_rfl⟩, qb⟩
      have s1 := sign_of_near (by rw [abs_sub_comm]; exact nr a aI) (not_le.mp qa)
      have s2 := sign_of_near (by rw [abs_sub_comm]; exact nr b bI) (not_le.mp qb)
      have : D a * D b ≤ 0 := by
        by_contra hc
        have h3 := mul_pos s1 s2
        rw [show D a * f a * (D b * f b) = (f a * f b) * (D a * D b) by ring] at h3
        exact hns ((pos_iff_pos_of_mul_pos h3).mpr (not_le.mp hc))
      obtain ⟨z, hz, e⟩ := ivt_zero hab (cont ha hb') this
      exact ⟨z, hz, by rw [e, abs_zero]; exact κ0⟩
    obtain ⟨z, hz, sz'⟩ := small
    have zI : z ∈ Set.Icc E1 E2 := ⟨ha.trans hz.1, hz.2.trans hb'⟩
    have d1 : |z - lam| ≤ κ / m := by
      rw [le_div_iff₀ m0, mul_comm]
      exact (mvt z zI).trans sz'
    have d2 : |x - z| ≤ tol * M := by
      have hT : threshold tol a ≤ tol * M := by
        unfold threshold
        split
        · nlinarith
        · have : absK a = |a| := by
            simp only [absK, ccmp_lt, decide_eq_true_eq]
            split
            · rename_i h; rw [abs_of_neg h]
            · rename_i h; rw [abs_of_nonneg (not_lt.mp h)]
          rw [this]
          exact mul_le_mul_of_nonneg_left (hle a aI) t0
      rw [hx, abs_le]
      constructor <;> linarith [hz.1, hz.2]
    calc |x - lam| ≤ |x - z| + |z - lam| := abs_sub_le _ _ _
      _ ≤ _ := by linarith

/-! ### A case that meets the hypotheses: the free particle on a circle -/

/-- the fundamental solutions of `y'' = -F y` from `-1` -/
noncomputable def frC (F x : ℝ) : ℝ := Eta.eta 0 (-F * (x + 1) ^ 2)
noncomputable def frS (F x : ℝ) : ℝ := (x + 1) * Eta.eta 1 (-F * (x + 1) ^ 2)
noncomputable def frDC (F x : ℝ) : ℝ := -F * (x + 1) * Eta.eta 1 (-F * (x + 1) ^ 2)

theorem fr_deriv (j : ℕ) (F x : ℝ) : HasDerivAt (fun x => Eta.eta j (-F * (x + 1) ^ 2)) (-F * (x + 1) * Eta.eta (j + 1) (-F * (x + 1) ^ 2)) x := by
  have h : HasDerivAt (fun x : ℝ => -F * (x + 1) ^ 2) (-F * (2 * (x + 1))) x :=
    ((((hasDerivAt_id x).add_const 1).fun_pow 2).const_mul (-F)).congr_deriv (by simp)
  exact (HasDerivAt.comp (h₂ := Eta.eta j) x (Eta.hasDerivAt_eta j _) h).congr_deriv (by ring)

theorem fr_derivS (F x : ℝ) : HasDerivAt (frS F) (frC F x) x := by
  refine (((hasDerivAt_id x).add_const 1).mul (fr_deriv 1 F x)).congr_deriv ?_
  have := Eta.eta_rec 0 (-F * (x + 1) ^ 2)
  unfold frC
  rw [this]; simp; ring

theorem fr_fundamental (secs : List (Sec ℝ)) : Fundamental (fun _ _ => 0) secs (-1) frC frDC frS frC where
  solC F s _ := ⟨fun x _ => (fr_deriv 0 F x).hasDerivWithinAt, fun x _ => by
    have : HasDerivAt (frDC F) ((0 - F) * frC F x) x := by
      have e : frDC F = fun x => -F * frS F x := by funext x; unfold frDC frS; ring
      rw [e]
      exact ((fr_derivS F x).const_mul (-F)).congr_deriv (by ring)
    exact this.hasDerivWithinAt⟩
  solS F s _ := ⟨fun x _ => (fr_derivS F x).hasDerivWithinAt, fun x _ =>
    ((fr_deriv 0 F x).congr_deriv (by simp only [frS]; ring)).hasDerivWithinAt⟩
  initC F := by simp [frC, frDC, Eta.eta_zero_right, Eta.oddFact]
  initS F := by simp [frC, frS, Eta.eta_zero_right, Eta.oddFact]

theorem fr_det (F : ℝ) : -2 * perDet ⟨1, 0, 0, 1⟩ (frC F 1) (frDC F 1) (frS F 1) (frC F 1) = 4 * Eta.eta 0 (-F * 4) - 4 := by
  have w := Eta.eta_wronskian (-F * 4)
  unfold perDet frC frDC frS
  rw [show (1 + 1 : ℝ) ^ 2 = 4 by norm_num]
  simp only [sub_zero]
  linear_combination (-2) * w

theorem fr_slope (F : ℝ) (hF : F ∈ Set.Icc (-1 / 4 : ℝ) (1 / 4)) : 6 ≤ |deriv (fun F => -2 * perDet ⟨1, 0, 0, 1⟩ (frC F 1) (frDC F 1) (frS F 1) (frC F 1)) F| := by
  have h : HasDerivAt (fun F => -2 * perDet ⟨1, 0, 0, 1⟩ (frC F 1) (frDC F 1) (frS F 1) (frC F 1)) (-8 * Eta.eta 1 (-F * 4)) F := by
    simp only [fr_det]
    have h1 : HasDerivAt (fun F : ℝ => -F * 4) (-1 * 4) F := ((hasDerivAt_id F).neg).mul_const 4
    exact (((HasDerivAt.comp (h₂ := Eta.eta 0) F (Eta.hasDerivAt_eta 0 _) h1).const_mul 4).sub_const 4).congr_deriv (by ring)
  have e1 : 3 / 4 ≤ Eta.eta 1 (-F * 4) := by
    rcases le_or_gt 0 (-F * 4) with hp | hn
    · refine le_trans ?_ (Eta.coef_zero_le_eta 1 hp)
      norm_num [Eta.coef, Eta.oddFact, Eta.evenFact]
    · rw [Eta.eta1_neg hn]
      have q0 : 0 < Real.sqrt (-(-F * 4)) := Real.sqrt_pos.mpr (by linarith)
      have q1 : Real.sqrt (-(-F * 4)) ≤ 1 := by rw [Real.sqrt_le_left zero_le_one]; linarith [hF.2]
      have := Real.sin_gt_sub_cube q0
      rw [le_div_iff₀ q0]
      nlinarith [pow_le_one₀ (n := 2) q0.le q1]
  rw [h.deriv, abs_mul, abs_of_pos (show 0 < Eta.eta 1 (-F * 4) by linarith)]
  rw [show |(-8 : ℝ)| = 8 by norm_num]; linarith

theorem fr_ends : 1 ≤ 4 * Eta.eta 0 (-(-1 / 4) * 4) - 4 ∧ 4 * Eta.eta 0 (-(1 / 4) * 4) - 4 ≤ -1 := by
  constructor
  · rw [show -(-1 / 4 : ℝ) * 4 = 1 by norm_num, Eta.eta0_nonneg zero_le_one, Real.sqrt_one, Real.cosh_eq]
    have := Real.exp_one_gt_d9
    have := Real.exp_pos (-1)
    linarith
  · rw [show -(1 / 4 : ℝ) * 4 = -1 by norm_num, Eta.eta0_neg (by norm_num), neg_neg, Real.sqrt_one]
    have := Real.cos_one_le
    linarith

/-- C107, C108: `V = 0` on `[-1, 1]` with `K` the identity: `0` is the only periodic eigenvalue in `[-1/4, 1/4]`. With enough uniform
sectors the bisection there, on the computed determinant, terminates within `C (2/n)^16 + 2 tol` of it. -/
example : ∃ C : ℝ, 1 ≤ C ∧ ∀ (n : ℕ) (cmp : Sec ℝ → Sec ℝ → Bool) (pi tol : ℝ), 2 * (4 * C) ≤ n → 0 < tol → ∃ (r : BuildResult ℝ) (f : ℝ → ℝ) (x : ℝ) (fuel : ℕ), uniformBuild cmp n (-1) 1 = .ok r ∧
    (∀ E ∈ Set.Icc (-1 / 4 : ℝ) (1 / 4), ∃ err, matchingError (constructOf 0 etaExact (exactVs fun _ => 0) (-1) 1 r) ⟨1, 0, 0, 1⟩ pi E true = .ok err ∧ f E = (determinant err.1).1) ∧
    bisect' f tol fuel (-1 / 4) (1 / 4) = .ok x ∧ |x - 0| ≤ C * (((1 - -1) / n) ^ 16 + 0) / 6 + tol * 2 := by
  obtain ⟨C1, hC1, k1⟩ := C107_determinant 2 (by norm_num)
  obtain ⟨C2, hC2, k2⟩ := C108_bisection 2 (by norm_num)
  refine ⟨C1 + C2, by linarith, fun n cmp pi tol hn ht => ?_⟩
  obtain ⟨h1, h2, h3, h4⟩ := inv_small (show 1 ≤ 4 * (C1 + C2) by linarith) hn
  have sm : SmoothOn 2 (fun _ => (0 : ℝ)) (-1) 1 := ⟨fun _ _ => 0, fun _ _ => rfl, fun _ _ x _ => hasDerivWithinAt_const _ _ _, fun _ _ _ _ => by simp⟩
  obtain ⟨r, e1, hlen, hm, hf, hc, hp, hne⟩ := uniform_fit cmp h1 le_rfl sm h2 h3
  have hv : CoeffsWithin 0 (fun _ _ => 0) r.sectors (exactVs fun _ => 0) := coeffs_on_mesh (exact_coeffs _ _ _ _) hf hc hp
  have acc : AccurateTo 0 (fun _ _ => 0) r.sectors etaExact (exactVs fun _ => 0) := ⟨by norm_num, 0, 0, etaWithin_exact, hv, by simp⟩
  have hk : EntriesLe 2 (⟨1, 0, 0, 1⟩ : M2 ℝ) := by simp [EntriesLe]
  have hF := fr_fundamental r.sectors
  have tot : ∀ E : ℝ, |E| ≤ 2 → ∃ v, ∃ err, matchingError (constructOf 0 etaExact (exactVs fun _ => 0) (-1) 1 r) ⟨1, 0, 0, 1⟩ pi E true = .ok err ∧ v = (determinant err.1).1 ∧
      |v - (4 * Eta.eta 0 (-E * 4) - 4)| ≤ 1 / 4 ∧ C2 * (((1 - -1) / n) ^ 16 + 0) ≤ 1 / 4 := by
    intro E hE
    obtain ⟨err, d, q1, q2, -⟩ := k1 0 0 etaExact (exactVs fun _ => 0) (fun _ _ => 0) (-1) 1 ((1 - -1) / n) E pi r true ⟨1, 0, 0, 1⟩ frC frDC frS frC hf acc (by norm_num) hE hm hk hF
    have z0 : (0 : ℝ) ≤ ((1 - -1) / n) ^ 16 := by positivity
    rw [if_pos rfl, add_zero, fr_det] at q2
    rw [add_zero]
    have b1 := mul_nonneg (show 0 ≤ C1 by linarith) z0
    have b2 := mul_nonneg (show 0 ≤ C2 by linarith) z0
    refine ⟨_, err, q1, rfl, q2.trans ?_, ?_⟩ <;> linarith
  have tot' : ∀ E : ℝ, ∃ v, |E| ≤ 2 → ∃ err, matchingError (constructOf 0 etaExact (exactVs fun _ => 0) (-1) 1 r) ⟨1, 0, 0, 1⟩ pi E true = .ok err ∧ v = (determinant err.1).1 ∧
      |v - (4 * Eta.eta 0 (-E * 4) - 4)| ≤ 1 / 4 ∧ C2 * (((1 - -1) / n) ^ 16 + 0) ≤ 1 / 4 := fun E => by
    by_cases hE : |E| ≤ 2
    · obtain ⟨v, hv⟩ := tot E hE
      exact ⟨v, fun _ => hv⟩
    · exact ⟨0, fun h => absurd h hE⟩
  choose f hfv using tot'
  have inM : ∀ E ∈ Set.Icc (-1 / 4 : ℝ) (1 / 4), |E| ≤ 2 := fun E hE => abs_le.mpr ⟨by linarith [hE.1], by linarith [hE.2]⟩
  have hfun : ∀ E ∈ Set.Icc (-1 / 4 : ℝ) (1 / 4), ∃ err, matchingError (constructOf 0 etaExact (exactVs fun _ => 0) (-1) 1 r) ⟨1, 0, 0, 1⟩ pi E true = .ok err ∧ f E = (determinant err.1).1 := fun E hE => by
    obtain ⟨err, a, b, -⟩ := hfv E (inM E hE)
    exact ⟨err, a, b⟩
  obtain ⟨fuel, x, hx⟩ := C31_bisection_terminates f tol (-1 / 4) (1 / 4) (f (-1 / 4)) ht
  have hx := hx fuel le_rfl
  obtain ⟨_, -, -, a1, a2⟩ := hfv (-1 / 4) (inM _ (by norm_num))
  obtain ⟨_, -, -, b1, b2⟩ := hfv (1 / 4) (inM _ (by norm_num))
  have ends := fr_ends
  rw [abs_le] at a1 b1
  have f1 : 3 / 4 ≤ f (-1 / 4) := by linarith [a1.1, ends.1]
  have f2 : f (1 / 4) ≤ -(3 / 4) := by linarith [b1.2, ends.2]
  obtain ⟨lam, hl, heig, huniq, hxl⟩ := k2 0 0 etaExact (exactVs fun _ => 0) (fun _ _ => 0) (-1) 1 ((1 - -1) / n) pi r true ⟨1, 0, 0, 1⟩ frC frDC frS frC (-1 / 4) (1 / 4) 6 tol x fuel f hf acc
    (by norm_num) hm hk hF (inM _ (by norm_num)) (inM _ (by norm_num)) (by norm_num) (by norm_num) ht.le fr_slope hfun (mul_neg_of_pos_of_neg (by linarith) (by linarith))
    (by rw [if_pos rfl, abs_of_pos (by linarith)]; linarith) (by rw [if_pos rfl, abs_of_neg (by linarith)]; linarith) hx
  have e0 : (0 : ℝ) = lam := huniq 0 (by norm_num) ⟨fun _ => 1, fun _ => 0, fun s _ => ⟨fun x _ => hasDerivWithinAt_const _ _ _, fun x _ => by
    simpa using hasDerivWithinAt_const x (Set.Icc s.min s.max) (0 : ℝ)⟩, ⟨0, by norm_num, one_ne_zero⟩, by simp [Joined]⟩
  refine ⟨r, f, x, fuel, e1, hfun, hx, ?_⟩
  rw [← e0] at hxl
  refine hxl.trans ?_
  rw [if_pos rfl, add_zero]
  have z0 : (0 : ℝ) ≤ ((1 - -1) / n) ^ 16 := by positivity
  generalize ((1 - -1) / (n : ℝ)) ^ 16 = z at z0
  have b1 := mul_nonneg (show 0 ≤ C1 by linarith) z0
  rw [add_mul]
  linarith only [b1]

end Verif.Solver
