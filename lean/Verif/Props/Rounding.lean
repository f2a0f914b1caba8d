import Verif.Lemmas.Ieee
import Verif.Lemmas.FlBox
import Verif.Model.Ieee

/-!
# Convergence in finite precision: C114 – C116

Every operation of `calculateT`, of the formula tables, of `propagate` and of `matchingError` is rounded (`Model/Rounded`); the rounding may be IEEE 754 `double`, or any other with unit roundoff `u` and
smallest normal number `mu` (`C114_ieee`). The energy, the points and the boundary values are numbers of the type. `FlFit` (`Spec/FinitePrecision`) collects the assumptions on the mesh, the η functions and the coefficients.
The angles, `th` and `pru`, are arbitrary: they do not influence the values.
-/
namespace Verif.Fp
open Verif.Mesh Verif.YT Verif.CalcT Verif.Propag Verif.Solver Verif.Spec Verif.Legendre

/-- IEEE 754 rounding to nearest, ties to even, with `p` bits and gradual underflow from `2^(emin+p-1)`, is covered by the theorems; `double`: `u = 2^-53`, `mu = 2^-1022`. -/
theorem C114_ieee (p : ℕ) (hp : 1 ≤ p) (emin : ℤ) : Rounding (2 ^ (-(p : ℤ))) (2 ^ (emin + p - 1)) (rne p emin) := rounding_rne p hp emin

example : Rounding (2 ^ (-53 : ℤ)) (2 ^ (-1022 : ℤ)) (rne 53 (-1074)) := by
  have := C114_ieee 53 (by norm_num) (-1074)
  norm_num at this ⊢
  exact this

/-- **C114.** The result of `rne` is a number of the type, no number of the type is nearer, and halfway between two consecutive numbers `k 2^e`, `(k + 1) 2^e` it is the one with an even last digit. -/
theorem C114_nearest (p : ℕ) (hp : 1 ≤ p) (emin : ℤ) : (∀ x, Representable p emin (rne p emin x)) ∧ (∀ x y, Representable p emin y → |rne p emin x - x| ≤ |y - x|) ∧
    ∀ (k : ℕ) (e : ℤ), emin ≤ e → k < 2 ^ p → (2 ^ (p - 1) ≤ k ∨ e = emin) → rne p emin ((k + 1 / 2) * 2 ^ e) = (if k % 2 = 0 then k else k + 1 : ℕ) * 2 ^ e :=
  ⟨rne_representable, fun x _ hy => rne_nearest hp x hy, fun k e => rne_tie hp k e⟩

/-- In `double`, `2^53 + 1` is halfway between two numbers; numbers of the type are not changed. -/
example : rne 53 (-1074) (2 ^ 53 + 1) = 2 ^ 53 := by
  have := (C114_nearest 53 (by norm_num) (-1074)).2.2 (2 ^ 52) 1 (by norm_num) (by norm_num) (.inl (by norm_num))
  norm_num at this ⊢
  exact this

example : rne 53 (-1074) (3 / 4) = 3 / 4 := by
  have := (C114_nearest 53 (by norm_num) (-1074)).2.1 (3 / 4) (3 / 4) ⟨3, -2, by norm_num, by norm_num, by norm_num⟩
  rw [sub_self, abs_zero] at this
  exact sub_eq_zero.mp (abs_eq_zero.mp (le_antisymm this (abs_nonneg _)))

/-- **C114.** `propagate` in finite precision: for every bound `M` there is a constant `C` such that for every rounding, every mesh with `N` sectors at most `H ≤ 1` wide, every potential with sixteen
derivatives bounded by `M` in each sector, every energy and every solution `(y, dy)` of `y'' = (V - E) y`: `propagate` between mesh points, in either direction, with the exact values at `a` succeeds, and its
result differs from the exact values at `b` by at most `C (H^16 + ε)` times their size at `a` (`H^14` without `use_h`), plus `C (H^16 + ε) mu`,
where `ε ≥ τ + N (u + σ)`: one unit roundoff and one error of an η function for every sector, and the error of the coefficients. -/
theorem C114_propagate (M : ℝ) (hM : 1 ≤ M) : ∃ C : ℝ, 1 ≤ C ∧ ∀ (fl : ℝ → ℝ) (H u mu σ τ ε : ℝ) (W : Sec ℝ → ℝ → ℝ) (dmin dmax eps : Fl fl) (r : BuildResult (Fl fl))
    (eta : ℕ → Fl fl → ℕ → Fl fl) (vs : Sec (Fl fl) → ℕ → Fl fl) (th : Fl fl → Fl fl → Fl fl → Y (Fl fl) → Fl fl) (pru : Fl fl → Fl fl → Fl fl → Fl fl → Y (Fl fl) → Y (Fl fl) → Fl fl)
    (pi E a b : Fl fl) (useH : Bool) (y dy : ℝ → ℝ) (c : Y (Fl fl)),
    FlFit M H u mu σ τ (6 * M * H) W dmin dmax eps r.sectors eta vs → 0 ≤ σ → τ + r.sectors.length * (u + σ) ≤ ε → ε ≤ 1 / 8 → dmax.val - dmin.val ≤ M → |E.val| ≤ M →
    SolvesMesh W E.val (realMesh r.sectors) y dy → IsBoundary (bounds (realMesh r.sectors)) a.val → IsBoundary (bounds (realMesh r.sectors)) b.val →
    c.y.val = y a.val → c.dy.val = dy a.val →
    ∃ res, (constructGen eps eta th pru vs dmin dmax r).propagate pi E c a b useH = .ok res ∧
      |res.1.y.val - y b.val| ≤ C * (H ^ (if useH then 16 else 14) + ε) * (max |y a.val| |dy a.val| + mu) ∧
      |res.1.dy.val - dy b.val| ≤ C * (H ^ (if useH then 16 else 14) + ε) * (max |y a.val| |dy a.val| + mu) := by
  obtain ⟨C, hC, key⟩ := converge_fl M hM
  refine ⟨C, hC, ?_⟩
  intro fl H u mu σ τ ε W dmin dmax eps r eta vs th pru pi E a b useH y dy c hF hσ hε hε1 hd hE hy ha hb c1 c2
  obtain ⟨res, h1, h2⟩ := key fl H u mu σ τ ε W dmin dmax eps r eta vs th pru pi E a b useH y dy c hF hσ hε hε1 hd hE hy ha hb
  have z : sz (pr (valY c) - (y a.val, dy a.val)) = 0 := by
    simp [pr, sz, valY, c1, c2]
  rw [z, zero_add, ← mul_assoc] at h2
  exact ⟨res, h1, (le_sz1 _).trans h2, (le_sz2 _).trans h2⟩

/-- **C115.** `matchingError` in finite precision: its first component differs from the Wronskian `dyL·yR - dyR·yL` of the exact solutions with the given boundary values (the same at every point) by at most
`C (H^16 + ε)` times the sizes of the boundary values, if these and their product are not below the smallest normal number. -/
theorem C115_matching_error (M : ℝ) (hM : 1 ≤ M) : ∃ C : ℝ, 1 ≤ C ∧ ∀ (fl : ℝ → ℝ) (H u mu σ τ ε : ℝ) (W : Sec ℝ → ℝ → ℝ) (dmin dmax eps : Fl fl) (r : BuildResult (Fl fl))
    (eta : ℕ → Fl fl → ℕ → Fl fl) (vs : Sec (Fl fl) → ℕ → Fl fl) (th : Fl fl → Fl fl → Fl fl → Y (Fl fl) → Fl fl) (pru : Fl fl → Fl fl → Fl fl → Fl fl → Y (Fl fl) → Y (Fl fl) → Fl fl)
    (pi E : Fl fl) (useH : Bool) (left right : Y (Fl fl)) (sL sR : ℝ) (yL dyL yR dyR : ℝ → ℝ),
    FlFit M H u mu σ τ (6 * M * H) W dmin dmax eps r.sectors eta vs → 0 ≤ σ → τ + r.sectors.length * (u + σ) ≤ ε → ε ≤ 1 / 8 → dmax.val - dmin.val ≤ M → |E.val| ≤ M →
    r.matchIndex < r.sectors.length → sL = max |left.y.val| |left.dy.val| → sR = max |right.y.val| |right.dy.val| → mu ≤ sL → mu ≤ sR → mu ≤ sL * sR →
    SolvesMesh W E.val (realMesh r.sectors) yL dyL → yL dmin.val = left.y.val → dyL dmin.val = left.dy.val →
    SolvesMesh W E.val (realMesh r.sectors) yR dyR → yR dmax.val = right.y.val → dyR dmax.val = right.dy.val →
    ∃ err, (constructGen eps eta th pru vs dmin dmax r).matchingError pi E left right useH = .ok err ∧ ∀ x ∈ Set.Icc dmin.val dmax.val,
      |err.1.val - (dyL x * yR x - dyR x * yL x)| ≤ C * (H ^ (if useH then 16 else 14) + ε) * (sL * sR) := by
  obtain ⟨C, hC, key⟩ := matching_fl M hM
  refine ⟨C, hC, ?_⟩
  intro fl H u mu σ τ ε W dmin dmax eps r eta vs th pru pi E useH left right sL sR yL dyL yR dyR hF hσ hε hε1 hd hE hm e1 e2 m1 m2 m3
  subst e1 e2
  exact key fl H u mu σ τ ε W dmin dmax eps r eta vs th pru pi E useH left right yL dyL yR dyR hF hσ hε hε1 hd hE hm m1 m2 m3

/-- The boundary values of a problem are not all zero, and not below the smallest normal number. -/
structure BoundaryFl {fl : ℝ → ℝ} (mu sL sR : ℝ) (left right : Y (Fl fl)) : Prop where
  left : sL = max |left.y.val| |left.dy.val|
  right : sR = max |right.y.val| |right.dy.val|
  posL : 0 < sL
  posR : 0 < sR
  muL : mu ≤ sL
  muR : mu ≤ sR
  muLR : mu ≤ sL * sR

set_option maxHeartbeats 1600000 in
/-- **C116, soundness of the computed matching error.** For every bound `M` there is a constant `C` such that for every rounding, mesh and potential within the bounds and all non-zero boundary values, with `q = C (H^16 + ε) ≤ 1`:
where the matching error computed in finite precision is `e` (relative to the sizes of the boundary values), there is an exact eigenvalue of the differential equation within `C |e| + q` of the energy if this is at most 1;
and between two energies where the computed matching errors have opposite signs (or vanish) there is, up to `q`, an exact eigenvalue. -/
theorem C116_sound (M : ℝ) (hM : 1 ≤ M) : ∃ C : ℝ, 1 ≤ C ∧ ∀ (fl : ℝ → ℝ) (H u mu σ τ ε : ℝ) (W : Sec ℝ → ℝ → ℝ) (dmin dmax eps : Fl fl) (r : BuildResult (Fl fl))
    (eta : ℕ → Fl fl → ℕ → Fl fl) (vs : Sec (Fl fl) → ℕ → Fl fl) (th : Fl fl → Fl fl → Fl fl → Y (Fl fl) → Fl fl) (pru : Fl fl → Fl fl → Fl fl → Fl fl → Y (Fl fl) → Y (Fl fl) → Fl fl)
    (pi : Fl fl) (useH : Bool) (left right : Y (Fl fl)) (sL sR q : ℝ),
    FlFit M H u mu σ τ (6 * M * H) W dmin dmax eps r.sectors eta vs → 0 ≤ σ → τ + r.sectors.length * (u + σ) ≤ ε → ε ≤ 1 / 8 → dmax.val - dmin.val ≤ M → 1 / M ≤ dmax.val - dmin.val →
    r.matchIndex < r.sectors.length → BoundaryFl mu sL sR left right → C * (H ^ (if useH then 16 else 14) + ε) = q → q ≤ 1 →
    ∃ err : Fl fl → Fl fl × Fl fl × Fl fl, (∀ E, |E.val| ≤ M → (constructGen eps eta th pru vs dmin dmax r).matchingError pi E left right useH = .ok (err E)) ∧
      (∀ E, |E.val| ≤ M → C * (|(err E).1.val| / (sL * sR)) + q ≤ 1 →
        ∃ lam, IsEigenvalue W (realMesh r.sectors) dmin.val dmax.val (left.y.val, left.dy.val) (right.y.val, right.dy.val) lam ∧ |lam - E.val| ≤ C * (|(err E).1.val| / (sL * sR)) + q) ∧
      (∀ E1 E2 : Fl fl, |E1.val| ≤ M → |E2.val| ≤ M → E1.val ≤ E2.val → (err E1).1.val * (err E2).1.val ≤ 0 →
        ∃ lam, IsEigenvalue W (realMesh r.sectors) dmin.val dmax.val (left.y.val, left.dy.val) (right.y.val, right.dy.val) lam ∧ E1.val - q ≤ lam ∧ lam ≤ E2.val + q) := by
  obtain ⟨C1, hC1, near⟩ := matching_fl M hM
  obtain ⟨C2, hC2, small⟩ := eigen_of_small M hM
  have hC12 : C2 ≤ C1 * C2 := le_mul_of_one_le_left (by linarith) hC1
  refine ⟨C1 * C2, by linarith, ?_⟩
  intro fl H u mu σ τ ε W dmin dmax eps r eta vs th pru pi useH left right sL sR q hF hσ hε hε1 hd hd' hm hB hq hq1
  set D : ℝ := H ^ ord useH + ε with hD
  change C1 * C2 * D = q at hq
  have ok := fit_ok hF.fit hd hd'
  have hab : dmin.val ≤ dmax.val := (chn_range ok.chn ok.pos).1
  have eL : sL = sz (pr (valY left)) := hB.left
  have eR : sR = sz (pr (valY right)) := hB.right
  set L := pr (valY left) with hL
  set R := pr (valY right) with hR
  have szL : 0 < sz L := by rw [← eL]; exact hB.posL
  have szR : 0 < sz R := by rw [← eR]; exact hB.posR
  have m1 := hB.muL
  have m2 := hB.muR
  have m3 := hB.muLR
  rw [eL] at m1 m3
  rw [eR] at m2 m3
  rw [eL, eR]
  set S := sz L * sz R with hS
  have S0 : 0 < S := mul_pos szL szR
  obtain ⟨f, df, hfam⟩ := exists_family hM ok L
  have one : ∀ E : Fl fl, ∃ err, |E.val| ≤ M → (constructGen eps eta th pru vs dmin dmax r).matchingError pi E left right useH = .ok err ∧
      |err.1.val - (df E.val dmax.val * R.1 - R.2 * f E.val dmax.val)| ≤ C1 * D * S := by
    intro E
    by_cases hE : |E.val| ≤ M
    · obtain ⟨u1, u2, u3⟩ := hfam E.val (by linarith)
      obtain ⟨yR, dyR, r1, r2, r3⟩ := exists_right (fit_okMesh hF.fit hE) R
      obtain ⟨err, h1, h2⟩ := near fl H u mu σ τ ε W dmin dmax eps r eta vs th pru pi E useH left right (f E.val) (df E.val) yR dyR hF hσ hε hε1 hd hE hm m1 m2 m3 u1 u2 u3 r1 r2 r3
      have h3 := h2 dmax.val ⟨hab, le_rfl⟩
      rw [r2, r3] at h3
      exact ⟨err, fun _ => ⟨h1, h3⟩⟩
    · exact ⟨⟨0, 0, 0⟩, fun h => absurd h hE⟩
  choose err herr using one
  have D0 : 0 ≤ D := by
    have hz : |(0 : Fl fl).val| ≤ M := by simp; linarith
    have h2 := nonneg_of_mul_nonneg_left ((abs_nonneg _).trans (herr 0 hz).2) S0
    exact nonneg_of_mul_nonneg_right h2 (by linarith)
  -- from a bound of the exact mismatch to an eigenvalue
  have eig : ∀ (E : Fl fl) (ρ : ℝ), |E.val| ≤ M → |df E.val dmax.val * R.1 - R.2 * f E.val dmax.val| ≤ ρ * S → C2 * ρ ≤ 1 →
      ∃ lam, IsEigenvalue W (realMesh r.sectors) dmin.val dmax.val L R lam ∧ |lam - E.val| ≤ C2 * ρ := by
    intro E ρ hE hρ hρ1
    obtain ⟨u1, u2, u3⟩ := hfam E.val (by linarith)
    exact small W dmin.val dmax.val E.val ρ _ L R (f E.val) (df E.val) ok hE szL szR u1 u2 u3 hρ hρ1
  refine ⟨err, fun E hE => (herr E hE).1, ?_, ?_⟩
  · intro E hE hle
    have h1 := (herr E hE).2
    set e := |(err E).1.val| / S with he
    have he0 : 0 ≤ e := by positivity
    have heS : |(err E).1.val| = e * S := by rw [he]; field_simp
    have h2 : |df E.val dmax.val * R.1 - R.2 * f E.val dmax.val| ≤ (e + C1 * D) * S := by
      set G := df E.val dmax.val * R.1 - R.2 * f E.val dmax.val
      have : G = (err E).1.val - ((err E).1.val - G) := by ring
      rw [this]; refine (abs_sub _ _).trans ?_
      rw [heS]; linarith
    have h3 : C2 * (e + C1 * D) ≤ C1 * C2 * e + q := by
      have := mul_le_mul_of_nonneg_right hC12 he0
      rw [← hq]; linarith
    obtain ⟨lam, l1, l2⟩ := eig E _ hE h2 (by linarith)
    exact ⟨lam, l1, by linarith⟩
  · intro E1 E2 b1 b2 h12 hsgn
    have h1 := (herr E1 b1).2
    have h2 := (herr E2 b2).2
    set G1 := df E1.val dmax.val * R.1 - R.2 * f E1.val dmax.val with hG1
    set G2 := df E2.val dmax.val * R.1 - R.2 * f E2.val dmax.val with hG2
    have hq0 : 0 ≤ q := by rw [← hq]; positivity
    by_cases s1 : |G1| ≤ C1 * D * S
    · obtain ⟨lam, l1, l2⟩ := eig E1 (C1 * D) b1 s1 (by linarith)
      have l3 := abs_le.mp l2
      exact ⟨lam, l1, by linarith, by linarith⟩
    by_cases s2 : |G2| ≤ C1 * D * S
    · obtain ⟨lam, l1, l2⟩ := eig E2 (C1 * D) b2 s2 (by linarith)
      have l3 := abs_le.mp l2
      exact ⟨lam, l1, by linarith, by linarith⟩
    push Not at s1 s2
    -- the exact signs are the computed ones
    have sgn : ∀ {e G : ℝ}, |e - G| ≤ C1 * D * S → C1 * D * S < |G| → 0 < e * G := by
      intro e G h1 h2
      have := abs_le.mp h1
      rcases le_total 0 G with hG | hG
      · rw [abs_of_nonneg hG] at h2
        exact mul_pos (by linarith) (by have := (abs_nonneg _).trans h1; linarith)
      · rw [abs_of_nonpos hG] at h2
        exact mul_pos_of_neg_of_neg (by linarith) (by have := (abs_nonneg _).trans h1; linarith)
    have t1 := sgn h1 s1
    have t2 := sgn h2 s2
    have t3 : G1 * G2 ≤ 0 := by
      by_contra hc
      push Not at hc
      have := mul_pos t1 t2
      have e : (err E1).1.val * G1 * ((err E2).1.val * G2) = (err E1).1.val * (err E2).1.val * (G1 * G2) := by ring
      rw [e] at this
      have := mul_nonneg_of_nonpos_of_nonpos hsgn (show -(G1 * G2) ≤ 0 by linarith)
      linarith
    obtain ⟨lam, l1, l2, l3⟩ : ∃ lam, E1.val ≤ lam ∧ lam ≤ E2.val ∧ IsEigenvalue W (realMesh r.sectors) dmin.val dmax.val L R lam := by
      have c0 : 0 ≤ C1 * D * S := by have : 0 ≤ C1 := by linarith
                                     positivity
      rcases le_total 0 G2 with hG | hG
      · have : G1 ≤ 0 := by
          by_contra hc; push Not at hc
          have : 0 < G2 := by rw [abs_of_nonneg hG] at s2; linarith
          exact absurd (mul_pos hc this) (by linarith)
        exact eigen_between hM ok (R := R) szL hfam h12 (by linarith) (by linarith) (σ := 1) (by linarith) (by linarith) (by simp)
      · have : 0 ≤ G1 := by
          by_contra hc; push Not at hc
          have : G2 < 0 := by rw [abs_of_nonpos hG] at s2; linarith
          exact absurd (mul_pos_of_neg_of_neg hc this) (by linarith)
        exact eigen_between hM ok (R := R) szL hfam h12 (by linarith) (by linarith) (σ := -1) (by linarith) (by linarith) (by simp)
    exact ⟨lam, l3, by linarith, by linarith⟩

/-- **C116, every exact eigenvalue shows up.** For every bound `M` there is a constant `C` such that, in every finite precision, for every exact eigenvalue `λ` and all energies `E₁ < λ < E₂` of the type at
least `C (H^16 + ε)` and at most `1/C` away from it, the computed matching errors at `E₁` and `E₂` have opposite signs, and sizes at least `|E - λ| / C` relative to the boundary values. -/
theorem C116_complete (M : ℝ) (hM : 1 ≤ M) : ∃ C : ℝ, 1 ≤ C ∧ ∀ (fl : ℝ → ℝ) (H u mu σ τ ε : ℝ) (W : Sec ℝ → ℝ → ℝ) (dmin dmax eps : Fl fl) (r : BuildResult (Fl fl))
    (eta : ℕ → Fl fl → ℕ → Fl fl) (vs : Sec (Fl fl) → ℕ → Fl fl) (th : Fl fl → Fl fl → Fl fl → Y (Fl fl) → Fl fl) (pru : Fl fl → Fl fl → Fl fl → Fl fl → Y (Fl fl) → Y (Fl fl) → Fl fl)
    (pi E1 E2 : Fl fl) (useH : Bool) (left right : Y (Fl fl)) (sL sR lam : ℝ),
    FlFit M H u mu σ τ (6 * M * H) W dmin dmax eps r.sectors eta vs → 0 ≤ σ → τ + r.sectors.length * (u + σ) ≤ ε → ε ≤ 1 / 8 → dmax.val - dmin.val ≤ M → 1 / M ≤ dmax.val - dmin.val →
    r.matchIndex < r.sectors.length → BoundaryFl mu sL sR left right → |lam| ≤ M → |E1.val| ≤ M → |E2.val| ≤ M →
    IsEigenvalue W (realMesh r.sectors) dmin.val dmax.val (left.y.val, left.dy.val) (right.y.val, right.dy.val) lam →
    C * (H ^ (if useH then 16 else 14) + ε) < lam - E1.val → C * (lam - E1.val) ≤ 1 → C * (H ^ (if useH then 16 else 14) + ε) < E2.val - lam → C * (E2.val - lam) ≤ 1 →
    ∃ lo hi, (constructGen eps eta th pru vs dmin dmax r).matchingError pi E1 left right useH = .ok lo ∧
      (constructGen eps eta th pru vs dmin dmax r).matchingError pi E2 left right useH = .ok hi ∧ lo.1.val * hi.1.val < 0 ∧
      (lam - E1.val) / C * (sL * sR) ≤ |lo.1.val| ∧ (E2.val - lam) / C * (sL * sR) ≤ |hi.1.val| := by
  obtain ⟨C1, hC1, near⟩ := matching_fl M hM
  obtain ⟨C2, hC2, sens⟩ := sign_of_eigen M hM
  have hC12 : 1 ≤ C1 * C2 := one_le_mul_of_one_le_of_one_le hC1 hC2
  have hC2' : C2 ≤ C1 * C2 := le_mul_of_one_le_left (by linarith) hC1
  refine ⟨2 * (C1 * C2), by linarith, ?_⟩
  intro fl H u mu σ τ ε W dmin dmax eps r eta vs th pru pi E1 E2 useH left right sL sR lam hF hσ hε hε1 hd hd' hm hB hlam b1 b2 heig a1 a2 a3 a4
  set D : ℝ := H ^ ord useH + ε with hD
  change 2 * (C1 * C2) * D < _ at a1
  change 2 * (C1 * C2) * D < _ at a3
  have ok := fit_ok hF.fit hd hd'
  have hab : dmin.val ≤ dmax.val := (chn_range ok.chn ok.pos).1
  have eL : sL = sz (pr (valY left)) := hB.left
  have eR : sR = sz (pr (valY right)) := hB.right
  set L := pr (valY left) with hL
  set R := pr (valY right) with hR
  have szL : 0 < sz L := by rw [← eL]; exact hB.posL
  have szR : 0 < sz R := by rw [← eR]; exact hB.posR
  have m1 := hB.muL
  have m2 := hB.muR
  have m3 := hB.muLR
  rw [eL] at m1 m3
  rw [eR] at m2 m3
  rw [eL, eR]
  set S := sz L * sz R with hS
  have S0 : 0 < S := mul_pos szL szR
  obtain ⟨f, df, hfam⟩ := exists_family hM ok L
  obtain ⟨s, hs1, hs⟩ := sens W dmin.val dmax.val lam _ L R ok hlam szL szR heig
  have one : ∀ E : Fl fl, |E.val| ≤ M → ∃ err, (constructGen eps eta th pru vs dmin dmax r).matchingError pi E left right useH = .ok err ∧
      |err.1.val - (df E.val dmax.val * R.1 - R.2 * f E.val dmax.val)| ≤ C1 * D * S := by
    intro E hE
    obtain ⟨u1, u2, u3⟩ := hfam E.val (by linarith)
    obtain ⟨yR, dyR, r1, r2, r3⟩ := exists_right (fit_okMesh hF.fit hE) R
    obtain ⟨err, h1, h2⟩ := near fl H u mu σ τ ε W dmin dmax eps r eta vs th pru pi E useH left right (f E.val) (df E.val) yR dyR hF hσ hε hε1 hd hE hm m1 m2 m3 u1 u2 u3 r1 r2 r3
    have h3 := h2 dmax.val ⟨hab, le_rfl⟩
    rw [r2, r3] at h3
    exact ⟨err, h1, h3⟩
  obtain ⟨lo, l1, l2⟩ := one E1 b1
  obtain ⟨hi, h1, h2⟩ := one E2 b2
  have D0 : 0 ≤ D := by
    have h := nonneg_of_mul_nonneg_left ((abs_nonneg _).trans l2) S0
    exact nonneg_of_mul_nonneg_right h (by linarith)
  have dd0 : 0 ≤ 2 * (C1 * C2) * D := by positivity
  obtain ⟨u1, u2, u3⟩ := hfam E1.val (by linarith)
  obtain ⟨w1, w2, w3⟩ := hfam E2.val (by linarith)
  have lowC : ∀ {t : ℝ}, 0 ≤ t → 2 * (C1 * C2) * t ≤ 1 → C2 * t ≤ 1 := by
    intro t ht h
    have := mul_le_mul_of_nonneg_right hC2' ht
    have : 0 ≤ C1 * C2 * t := by positivity
    linarith
  have p1 := (hs E1.val _ _ (by rw [abs_of_neg (by linarith)]; exact lowC (by linarith) (by linarith)) u1 u2 u3).2 (by linarith)
  have p2 := (hs E2.val _ _ (by rw [abs_of_pos (by linarith)]; exact lowC (by linarith) (by linarith)) w1 w2 w3).1 (by linarith)
  have fin : ∀ {e G t d : ℝ}, |t| = 1 → |e - G| ≤ C1 * D * S → S * d ≤ C2 * (t * G) → 2 * (C1 * C2) * D < d → 0 < t * e ∧ d / (2 * (C1 * C2)) * S ≤ |e| := by
    intro e G t d ht hn hp hd
    have a1 : t * e = t * G + t * (e - G) := by ring
    have a2 : -(C1 * D * S) ≤ t * (e - G) := by
      have : |t * (e - G)| ≤ C1 * D * S := by rw [abs_mul, ht, one_mul]; exact hn
      exact (abs_le.mp this).1
    have hC20 : 0 < C2 := by linarith
    have a3 := mul_le_mul_of_nonneg_left a2 hC20.le
    have a4 : C2 * (C1 * D * S) ≤ d / 2 * S := by
      have : C2 * (C1 * D) ≤ d / 2 := by linarith [mul_comm C1 C2, mul_assoc C2 C1 D]
      have := mul_le_mul_of_nonneg_right this S0.le
      linarith
    have a5 : d / 2 * S ≤ C2 * (t * e) := by rw [a1, mul_add]; linarith
    have d0 : 0 < d := by linarith
    have a6 : 0 < C2 * (t * e) := lt_of_lt_of_le (by positivity) a5
    have a7 : 0 < t * e := pos_of_mul_pos_right a6 hC20.le
    have a8 : t * e ≤ |e| := by
      have := le_abs_self (t * e)
      rwa [abs_mul, ht, one_mul] at this
    refine ⟨a7, ?_⟩
    have a9 : C2 * (t * e) ≤ C1 * C2 * |e| := mul_le_mul hC2' a8 a7.le (by positivity)
    rw [div_mul_eq_mul_div, div_le_iff₀ (by positivity)]
    linarith
  obtain ⟨c1, c2⟩ := fin hs1 h2 p2 a3
  obtain ⟨c3, c4⟩ := fin (t := -s) (by rw [abs_neg, hs1]) l2 p1 a1
  refine ⟨lo, hi, l1, h1, ?_, c4, c2⟩
  have hss : s * s = 1 := by
    have := abs_mul_abs_self s
    rw [hs1] at this; linarith
  have := mul_pos c3 c1
  have e : -s * lo.1.val * (s * hi.1.val) = -(lo.1.val * hi.1.val) * (s * s) := by ring
  rw [e, hss] at this
  linarith

/-- All the assumptions of C114 – C116 hold together: for `M = 30` and the constant of the theorem there are an IEEE type, a mesh, boundary values and eigenvalues (`V = 0`, with eigenvalues `3/2 (j+1)²`) with `q ≤ 1`. -/
example : ∃ C : ℝ, 1 ≤ C ∧ ∃ (p : ℕ) (H u ε : ℝ) (r : BuildResult (Fl (rne p (1 - 2 * p)))), 0 < u ∧
    ∃ err : Fl (rne p (1 - 2 * p)) → Fl (rne p (1 - 2 * p)) × Fl (rne p (1 - 2 * p)) × Fl (rne p (1 - 2 * p)),
      (∀ E, |E.val| ≤ 30 → (constructGen 0 (fun _ Z i => ⟨Eta.eta i Z.val⟩) (fun _ _ _ _ => 0) (fun _ _ _ _ _ _ => 0) (fun _ _ => 0) 0 ⟨boxB⟩ r).matchingError 0 E ⟨0, 1, 0, 0⟩ ⟨0, 1, 0, 0⟩ true = .ok (err E)) ∧
      (∀ E1 E2, |E1.val| ≤ 30 → |E2.val| ≤ 30 → E1.val ≤ E2.val → (err E1).1.val * (err E2).1.val ≤ 0 →
        ∃ lam, IsEigenvalue (fun _ _ => 0) (realMesh r.sectors) 0 boxB (0, 1) (0, 1) lam ∧ E1.val - C * (H ^ 16 + ε) ≤ lam ∧ lam ≤ E2.val + C * (H ^ 16 + ε)) ∧ C * (H ^ 16 + ε) ≤ 1 / 2 := by
  obtain ⟨C, hC, key⟩ := C116_sound 30 (by norm_num)
  obtain ⟨p, H, u, ε, r, hp, u0, u8, hF, h1, h2, h3, h4, -⟩ := fl_box hC
  have hB := boxB_range
  have hM : BoundaryFl (fl := rne p (1 - 2 * p)) u 1 1 ⟨0, 1, 0, 0⟩ ⟨0, 1, 0, 0⟩ :=
    ⟨by simp, by simp, one_pos, one_pos, by linarith, by linarith, by linarith⟩
  obtain ⟨err, e1, -, e3⟩ := key _ H u u 0 0 ε _ _ _ _ r _ _ (fun _ _ _ _ => 0) (fun _ _ _ _ _ _ => 0) 0 true _ _ 1 1 _ hF le_rfl h1 h2 (by show boxB - 0 ≤ 30; linarith)
    (by show 1 / 30 ≤ boxB - 0; linarith) h4 hM rfl (by show C * (H ^ 16 + ε) ≤ 1; linarith)
  exact ⟨C, hC, p, H, u, ε, r, u0, err, e1, e3, h3⟩

/-- C116, completeness: the computed matching errors at energies on both sides of the eigenvalue `3/2` have opposite signs. -/
example : ∃ C : ℝ, 1 ≤ C ∧ ∃ (p : ℕ) (u : ℝ) (r : BuildResult (Fl (rne p (1 - 2 * p)))), 0 < u ∧
    ∃ lo hi, (constructGen 0 (fun _ Z i => ⟨Eta.eta i Z.val⟩) (fun _ _ _ _ => 0) (fun _ _ _ _ _ _ => 0) (fun _ _ => 0) 0 ⟨boxB⟩ r).matchingError 0 ⟨3 / 2 - 1 / C⟩ ⟨0, 1, 0, 0⟩ ⟨0, 1, 0, 0⟩ true = .ok lo ∧
      (constructGen 0 (fun _ Z i => ⟨Eta.eta i Z.val⟩) (fun _ _ _ _ => 0) (fun _ _ _ _ _ _ => 0) (fun _ _ => 0) 0 ⟨boxB⟩ r).matchingError 0 ⟨3 / 2 + 1 / C⟩ ⟨0, 1, 0, 0⟩ ⟨0, 1, 0, 0⟩ true = .ok hi ∧
      lo.1.val * hi.1.val < 0 := by
  obtain ⟨C, hC, key⟩ := C116_complete 30 (by norm_num)
  have hC2 : 1 ≤ C * C := one_le_mul_of_one_le_of_one_le hC hC
  obtain ⟨p, H, u, ε, r, hp, u0, u8, hF, h1, h2, h3, h4, h5⟩ := fl_box hC2
  have hB := boxB_range
  have hM : BoundaryFl (fl := rne p (1 - 2 * p)) u 1 1 ⟨0, 1, 0, 0⟩ ⟨0, 1, 0, 0⟩ :=
    ⟨by simp, by simp, one_pos, one_pos, by linarith, by linarith, by linarith⟩
  have hev := h5 0
  have e0 : (3 / 2 * (((0 : ℕ) : ℝ) + 1) ^ 2) = 3 / 2 := by norm_num
  rw [e0] at hev
  have c1 : 1 / C ≤ 1 := by rw [div_le_one (by linarith)]; exact hC
  have c0 : 0 < 1 / C := by positivity
  have c2 : C * (H ^ 16 + ε) < 1 / C := by
    rw [lt_div_iff₀ (by linarith)]
    linarith
  have c3 : C * (1 / C) = 1 := by field_simp
  obtain ⟨lo, hi, l1, l2, l3, -, -⟩ := key _ H u u 0 0 ε _ _ _ _ r _ _ (fun _ _ _ _ => 0) (fun _ _ _ _ _ _ => 0) 0 ⟨3 / 2 - 1 / C⟩ ⟨3 / 2 + 1 / C⟩ true _ _ 1 1 (3 / 2) hF le_rfl h1 h2
    (by show boxB - 0 ≤ 30; linarith) (by show 1 / 30 ≤ boxB - 0; linarith) h4 hM (by norm_num) (by show |3 / 2 - 1 / C| ≤ 30; rw [abs_le]; constructor <;> linarith)
    (by show |3 / 2 + 1 / C| ≤ 30; rw [abs_le]; constructor <;> linarith) hev (by show C * (H ^ 16 + ε) < 3 / 2 - (3 / 2 - 1 / C); linarith)
    (by show C * (3 / 2 - (3 / 2 - 1 / C)) ≤ 1; rw [sub_sub_cancel]; exact c3.le) (by show C * (H ^ 16 + ε) < 3 / 2 + 1 / C - 3 / 2; linarith)
    (by show C * (3 / 2 + 1 / C - 3 / 2) ≤ 1; rw [add_sub_cancel_left]; exact c3.le)
  exact ⟨C, hC, p, u, r, u0, lo, hi, l1, l2, l3⟩

end Verif.Fp
