import Verif.Lemmas.LiouvilleOde
import Verif.Props.SturmLiouville
import Verif.Props.UniformSolve
import Verif.Props.HalfConverge
import Mathlib.MeasureTheory.Integral.IntervalIntegral.IntegrationByParts

/-!
# C100: Sturm–Liouville problems and their normal form
-/
namespace Verif.Liouville
open Verif Verif.Poly Verif.YT Verif.Legendre

variable {p q w X m m1 V : ℝ → ℝ} {a b : ℝ}

/-- **C100, core.** Solutions correspond: the same energy, the same zeros (moved by `X`), and boundary conditions transformed by `normalValues`. -/
theorem nf_correspond (h : NormalForm p q w a b X m m1 V) (L R : ℝ × ℝ) (E : ℝ) (P : Set ℝ → Prop) :
    (∃ z dz : ℝ → ℝ, SLSolvesOn p q w E a b z dz ∧ (∃ r ∈ Set.Icc a b, z r ≠ 0) ∧ z a * L.2 = dz a * L.1 ∧ z b * R.2 = dz b * R.1 ∧
      P (X '' {r ∈ Set.Ioo a b | z r = 0})) ↔
    (∃ y dy : ℝ → ℝ, SolvesOn V E (X a) (X b) y dy ∧ (∃ x ∈ Set.Icc (X a) (X b), y x ≠ 0) ∧
      y (X a) * (normalValues p w X m m1 a L).2 = dy (X a) * (normalValues p w X m m1 a L).1 ∧
      y (X b) * (normalValues p w X m m1 b R).2 = dy (X b) * (normalValues p w X m m1 b R).1 ∧ P {x ∈ Set.Ioo (X a) (X b) | y x = 0}) := by
  have ha : a ∈ Set.Icc a b := ⟨le_rfl, h.lt.le⟩
  have hb : b ∈ Set.Icc a b := ⟨h.lt.le, le_rfl⟩
  constructor
  · rintro ⟨z, dz, hz, ⟨r, hr, hne⟩, hl, hr', hP⟩
    obtain ⟨G, g1, g2, g3, g4⟩ := nf_inverse h
    have e1 : ∀ s ∈ Set.Icc a b, m (X s) * z (G (X s)) = m (X s) * z s := fun s hs => by rw [g3 s hs]
    have e2 : ∀ s ∈ Set.Icc a b, m1 (X s) * z (G (X s)) + p (G (X s)) * dz (G (X s)) / m (X s) =
        m1 (X s) * z s + m (X s) * (dz s / Real.sqrt (w s / p s)) := by
      intro s hs
      rw [g3 s hs]
      obtain ⟨s0, s1, -⟩ := nf_sqrt h hs
      have s2 := (h.m_pos s hs).ne'
      have s3 := s0.ne'
      have : p s / m (X s) = m (X s) / Real.sqrt (w s / p s) := by rw [div_eq_div_iff s2 s3]; linarith
      rw [mul_div_right_comm, this]
      ring
    refine ⟨_, _, nf_fromSL h g1 g2 g4 hz, ⟨X r, nf_maps h hr, ?_⟩, (nf_boundary h ha L (e1 a ha) (e2 a ha)).mpr hl,
      (nf_boundary h hb R (e1 b hb) (e2 b hb)).mpr hr', ?_⟩
    · rw [e1 r hr]; exact mul_ne_zero (h.m_pos r hr).ne' hne
    · rw [nf_zeros h e1]; exact hP
  · rintro ⟨y, dy, hy, ⟨x, hx, hne⟩, hl, hr, hP⟩
    have e1 : ∀ s ∈ Set.Icc a b, y (X s) = m (X s) * (y (X s) / m (X s)) := fun s hs => by
      have := (h.m_pos s hs).ne'
      field_simp
    have e2 : ∀ s ∈ Set.Icc a b, dy (X s) = m1 (X s) * (y (X s) / m (X s)) +
        m (X s) * (Real.sqrt (w s / p s) * ((dy (X s) * m (X s) - y (X s) * m1 (X s)) / m (X s) ^ 2) / Real.sqrt (w s / p s)) := by
      intro s hs
      have h1 := (h.m_pos s hs).ne'
      have h2 := (nf_sqrt h hs).1.ne'
      field_simp
      ring
    obtain ⟨r, hr', rfl⟩ := nf_surj h hx
    refine ⟨_, _, nf_toSL h hy, ⟨r, hr', div_ne_zero hne (h.m_pos r hr').ne'⟩, (nf_boundary h ha L (e1 a ha) (e2 a ha)).mp hl,
      (nf_boundary h hb R (e1 b hb) (e2 b hb)).mp hr, ?_⟩
    rw [nf_zeros h e1] at hP
    exact hP

/-- **C100.** The eigenvalues of a Sturm–Liouville problem are exactly those of its normal form with the transformed boundary conditions, with the same numbers. -/
theorem C100_spectrum (h : NormalForm p q w a b X m m1 V) (L R : ℝ × ℝ) (n : ℕ) (E : ℝ) :
    IsSLEigenvalueNr p q w a b L R n E ↔ IsEigenvalueNrOn V (X a) (X b) (normalValues p w X m m1 a L) (normalValues p w X m m1 b R) n E := by
  have := nf_correspond h L R E (fun S => S.Finite ∧ S.ncard = n)
  have inj : ∀ z : ℝ → ℝ, Set.InjOn X {r ∈ Set.Ioo a b | z r = 0} := fun z x hx y hy e =>
    (nf_mono h).injOn ⟨hx.1.1.le, hx.1.2.le⟩ ⟨hy.1.1.le, hy.1.2.le⟩ e
  unfold IsEigenvalueNrOn IsSLEigenvalueNr
  rw [← this]
  refine exists_congr fun z => exists_congr fun dz => and_congr Iff.rfl (and_congr Iff.rfl (and_congr Iff.rfl (and_congr Iff.rfl ?_)))
  rw [(inj z).ncard_image, Set.finite_image_iff (inj z)]

/-- **C100**, without the numbers. -/
theorem C100_spectrum_all (h : NormalForm p q w a b X m m1 V) (L R : ℝ × ℝ) (E : ℝ) :
    IsSLEigenvalue p q w a b L R E ↔ IsEigenvalueOn V (X a) (X b) (normalValues p w X m m1 a L) (normalValues p w X m m1 b R) E := by
  have := nf_correspond h L R E (fun _ => True)
  simp only [and_true] at this
  exact this

/-- **C100**, eigenfunctions: a normalised eigenfunction `u` of the normal form gives the eigenfunction `u(X(r)) / m(X(r))` of the Sturm–Liouville problem, and the integral of
`w z²` is one. -/
theorem C100_eigenfunction (h : NormalForm p q w a b X m m1 V) (hp : ContinuousOn p (Set.Icc a b)) (hw : ContinuousOn w (Set.Icc a b)) (L R : ℝ × ℝ) {lam : ℝ} {u du : ℝ → ℝ}
    (hu : IsEigenfunctionOn V (X a) (X b) (normalValues p w X m m1 a L) (normalValues p w X m m1 b R) lam u du) :
    IsSLEigenfunction p q w a b L R lam (fun r => u (X r) / m (X r))
      (fun r => Real.sqrt (w r / p r) * ((du (X r) * m (X r) - u (X r) * m1 (X r)) / m (X r) ^ 2)) := by
  have ha : a ∈ Set.Icc a b := ⟨le_rfl, h.lt.le⟩
  have hb : b ∈ Set.Icc a b := ⟨h.lt.le, le_rfl⟩
  have e1 : ∀ s ∈ Set.Icc a b, u (X s) = m (X s) * (u (X s) / m (X s)) := fun s hs => by
    have := (h.m_pos s hs).ne'
    field_simp
  have e2 : ∀ s ∈ Set.Icc a b, du (X s) = m1 (X s) * (u (X s) / m (X s)) +
      m (X s) * (Real.sqrt (w s / p s) * ((du (X s) * m (X s) - u (X s) * m1 (X s)) / m (X s) ^ 2) / Real.sqrt (w s / p s)) := by
    intro s hs
    have h1 := (h.m_pos s hs).ne'
    have h2 := (nf_sqrt h hs).1.ne'
    field_simp
    ring
  refine ⟨nf_toSL h hu.solves, (nf_boundary h ha L (e1 a ha) (e2 a ha)).mp hu.left, (nf_boundary h hb R (e1 b hb) (e2 b hb)).mp hu.right, ?_⟩
  have hXc : ContinuousOn X (Set.Icc a b) := fun r hr => (h.dX r hr).continuousWithinAt
  have hsc : ContinuousOn (fun r => Real.sqrt (w r / p r)) (Set.Icc a b) := (hw.div hp (fun r hr => (h.p_pos r hr).ne')).sqrt
  have huc : ContinuousOn u (Set.Icc (X a) (X b)) := fun x hx => (hu.solves.d1 x hx).continuousWithinAt
  have hI : Set.uIcc a b = Set.Icc a b := Set.uIcc_of_le h.lt.le
  have key := intervalIntegral.integral_comp_mul_deriv'' (a := a) (b := b) (f := X) (f' := fun r => Real.sqrt (w r / p r)) (g := fun x => u x * u x) (by rw [hI]; exact hXc)
    (by
      intro r hr
      rw [min_eq_left h.lt.le, max_eq_right h.lt.le] at hr
      exact ((h.dX r ⟨hr.1.le, hr.2.le⟩).hasDerivAt (Icc_mem_nhds hr.1 hr.2)).hasDerivWithinAt)
    (by rw [hI]; exact hsc) (by
      rw [hI]
      exact (huc.mul huc).mono (fun _ ⟨r, hr, e⟩ => e ▸ nf_maps h hr))
  rw [hu.norm] at key
  rw [← key]
  refine intervalIntegral.integral_congr (fun r hr => ?_)
  rw [hI] at hr
  obtain ⟨-, -, h2⟩ := nf_sqrt h hr
  have h3 := (h.m_pos r hr).ne'
  simp only [Function.comp]
  rw [show w r * (u (X r) / m (X r) * (u (X r) / m (X r))) = w r / m (X r) ^ 2 * (u (X r) * u (X r)) by field_simp, mul_comm]
  congr 1
  rw [div_eq_iff (pow_ne_zero _ h3)]; exact h2.symm

/-- **C100**, scaling the variable: `x` may be measured in any unit, i.e. `w` replaced by `c² w`; the eigenvalues are then divided by `c²`. -/
theorem C100_scale {c : ℝ} (hc : c ≠ 0) (L R : ℝ × ℝ) (n : ℕ) (E : ℝ) :
    IsSLEigenvalueNr p q (fun r => c ^ 2 * w r) a b L R n (E / c ^ 2) ↔ IsSLEigenvalueNr p q w a b L R n E := by
  refine exists_congr fun z => exists_congr fun dz => and_congr ⟨fun h => ⟨h.d1, fun r hr => (h.d2 r hr).congr_deriv ?_⟩, fun h => ⟨h.d1, fun r hr => (h.d2 r hr).congr_deriv ?_⟩⟩ Iff.rfl <;>
  · field_simp

/-- **C100**, existence: coefficients with two derivatives have a normal form, with `x` starting at 0. -/
theorem C100_normal_form_exists (q : ℝ → ℝ) {dp ddp dw ddw : ℝ → ℝ} (hab : a < b) (hp : ∀ r ∈ Set.Icc a b, 0 < p r) (hw : ∀ r ∈ Set.Icc a b, 0 < w r)
    (p1 : ∀ r ∈ Set.Icc a b, HasDerivWithinAt p (dp r) (Set.Icc a b) r) (p2 : ∀ r ∈ Set.Icc a b, HasDerivWithinAt dp (ddp r) (Set.Icc a b) r)
    (w1 : ∀ r ∈ Set.Icc a b, HasDerivWithinAt w (dw r) (Set.Icc a b) r) (w2 : ∀ r ∈ Set.Icc a b, HasDerivWithinAt dw (ddw r) (Set.Icc a b) r) :
    ∃ X m m1 V : ℝ → ℝ, X a = 0 ∧ NormalForm p q w a b X m m1 V := nf_exists q hab hp hw p1 p2 w1 w2

/-- **C100**, boundary values: where a piece's polynomials have the values and derivatives of `p` and `w` at the end point `r`, `z2y` gives the exact transformed boundary values. -/
theorem C100_z2y (h : NormalForm p q w a b X m m1 V) {r dp dw : ℝ} (hr : r ∈ Set.Icc a b) (p1 : HasDerivWithinAt p dp (Set.Icc a b) r)
    (w1 : HasDerivWithinAt w dw (Set.Icc a b) r) (pc : Piece ℝ) (nr : ℝ) (e1 : eval pc.p nr = p r) (e2 : eval pc.w nr = w r)
    (e3 : derivativeAt 1 pc.p nr / (pc.rmax - pc.rmin) = dp) (e4 : derivativeAt 1 pc.w nr / (pc.rmax - pc.rmin) = dw) (z : Y ℝ) :
    ((pieceZ2Y Real.sqrt pc nr z).y, (pieceZ2Y Real.sqrt pc nr z).dy) = normalValues p w X m m1 r (z.y, z.dy) := by
  obtain ⟨s0, s1, s2⟩ := nf_sqrt h hr
  have hm := h.m_pos r hr
  have h4 := h.fourth r hr
  have hp := h.p_pos r hr
  have hw := h.w_pos r hr
  have hd : 4 * m (X r) ^ 3 * (m1 (X r) * Real.sqrt (w r / p r)) = dp * w r + p r * dw := by
    have d1 := ((h.dm _ (nf_maps h hr)).comp r (h.dX r hr) (nf_maps h)).fun_pow 4
    have d2 := p1.mul w1
    have d3 : HasDerivWithinAt (fun s => m (X s) ^ 4) (dp * w r + p r * dw) (Set.Icc a b) r := HasDerivWithinAt.congr d2 (fun s hs => h.fourth s hs) h4
    have := (uniqueDiffOn_Icc h.lt r hr).eq_deriv _ d1 d3
    rw [← this]
    norm_num [Function.comp]
  have eσ : sigmaOf Real.sqrt (p r) (w r) = 1 / m (X r) := by
    simp only [sigmaOf, xdrOf, ccmp_lit]
    rw [mul_comm, s1, Real.sqrt_sq hm.le]
    norm_num
  have eD : dsigmaOf Real.sqrt (p r) (w r) dp dw = -(m1 (X r) * Real.sqrt (w r / p r)) / m (X r) ^ 2 := by
    simp only [dsigmaOf, ccmp_lit, eσ]
    have : dp / p r + dw / w r = 4 * m (X r) ^ 3 * (m1 (X r) * Real.sqrt (w r / p r)) / m (X r) ^ 4 := by
      rw [hd, h4]; field_simp
    rw [this]
    push_cast
    field_simp
  have s3 := s0.ne'
  simp only [pieceZ2Y, z2yCore, e1, e2, e3, e4, eσ, eD, ccmp_lit, normalValues, xdrOf]
  refine Prod.ext ?_ ?_
  · simp only; push_cast; field_simp
  · simp only; push_cast; field_simp; ring

/-- **C100**, boundary values in general: whatever values `z2y` computes, they are the exact transformed boundary values of exactly one pair `L'` of boundary values. -/
theorem C100_some_condition (h : NormalForm p q w a b X m m1 V) {r : ℝ} (hr : r ∈ Set.Icc a b) (v : ℝ × ℝ) :
    ∃! L' : ℝ × ℝ, normalValues p w X m m1 r L' = v := by
  have h1 := (h.m_pos r hr).ne'
  have h2 := (nf_sqrt h hr).1.ne'
  refine ⟨(v.1 / m (X r), (v.2 - m1 (X r) * (v.1 / m (X r))) * Real.sqrt (w r / p r) / m (X r)), ?_, ?_⟩
  · unfold normalValues
    refine Prod.ext ?_ ?_ <;> · simp only; field_simp; try ring
  · intro u hu
    unfold normalValues at hu
    rw [← hu]
    refine Prod.ext ?_ ?_ <;> · simp only; field_simp; try ring

/-- **C100**, lists by index: if the Schrödinger solver, asked for the normal form with the transformed boundary values, returns a list that is right up to `δ`, then
`SturmLiouville::eigenvaluesByIndex` returns a list that is right up to `δ` for the Sturm–Liouville problem. -/
theorem C100_by_index (h : NormalForm p q w a b X m m1 V) {ps : List (Piece ℝ)} {left right l r : Y ℝ} {L R : ℝ × ℝ} {δ : ℝ}
    (hl : z2y Real.sqrt ps a left = .ok l) (hr : z2y Real.sqrt ps b right = .ok r)
    (hL : normalValues p w X m m1 a L = (l.y, l.dy)) (hR : normalValues p w X m m1 b R = (r.y, r.dy))
    (solve : Int → Int → Y ℝ → Y ℝ → Outcome (List (Int × ℝ))) (Imin Imax : Int)
    (hs : ∀ out, solve Imin Imax l r = .ok out → RightFor δ (IsEigenvalueNrOn V (X a) (X b) (l.y, l.dy) (r.y, r.dy)) out Imin Imax)
    {out : List (Int × ℝ)} (ho : slEigenvaluesByIndex Real.sqrt ps a b solve Imin Imax left right = .ok out) :
    RightFor δ (IsSLEigenvalueNr p q w a b L R) out Imin Imax := by
  simp only [slEigenvaluesByIndex, hl, hr, Outcome.bind_ok] at ho
  obtain ⟨h1, h2, h3⟩ := hs out ho
  refine ⟨h1, h2, fun t ht => ?_⟩
  obtain ⟨n, lam, e1, e2, e3⟩ := h3 t ht
  rw [← hL, ← hR] at e2
  exact ⟨n, lam, e1, (C100_spectrum h L R n lam).mpr e2, e3⟩

/-- **C100**, pairs by index: the same for `eigenpairsByIndex`; and every eigenfunction is the solver's, evaluated at `r2x(r)` and multiplied by `1/sqrt(p sqrt(w/p))` of the piece's coefficients. -/
theorem C100_pairs_by_index (h : NormalForm p q w a b X m m1 V) {ps : List (Piece ℝ)} {left right l r : Y ℝ} {L R : ℝ × ℝ} {δ : ℝ}
    (hl : z2y Real.sqrt ps a left = .ok l) (hr : z2y Real.sqrt ps b right = .ok r)
    (hL : normalValues p w X m m1 a L = (l.y, l.dy)) (hR : normalValues p w X m m1 b R = (r.y, r.dy))
    (solve : Int → Int → Y ℝ → Y ℝ → Outcome (List (Int × ℝ × (ℝ → Outcome (ℝ × ℝ))))) (Imin Imax : Int)
    (hs : ∀ out, solve Imin Imax l r = .ok out → RightFor δ (IsEigenvalueNrOn V (X a) (X b) (l.y, l.dy) (r.y, r.dy)) (out.map fun t => (t.1, t.2.1)) Imin Imax)
    {out : List (Int × ℝ × (ℝ → Outcome (ℝ × ℝ)))} (ho : slEigenpairsByIndex Real.sqrt ps a b solve Imin Imax left right = .ok out) :
    RightFor δ (IsSLEigenvalueNr p q w a b L R) (out.map fun t => (t.1, t.2.1)) Imin Imax ∧
    ∃ inner, solve Imin Imax l r = .ok inner ∧ List.Forall₂ (fun s t => t.1 = s.1 ∧ t.2.1 = s.2.1 ∧
      ∀ (rr x : ℝ) (v : ℝ × ℝ) (pc : Piece ℝ), r2x ps rr = .ok x → s.2.2 x = .ok v → findPiece ps Piece.xmax x = .ok pc →
        ∃ d, t.2.2 rr = .ok (v.1 * sigmaOf Real.sqrt (eval pc.p (pc.normR (pc.x2r (pc.normX x)))) (eval pc.w (pc.normR (pc.x2r (pc.normX x)))), d)) inner out := by
  simp only [slEigenpairsByIndex, hl, hr, Outcome.bind_ok] at ho
  obtain ⟨inner, hi, ho⟩ := Outcome.bind_eq_ok.mp ho
  simp only [Outcome.pure_eq, Outcome.ok.injEq] at ho
  have hm : (out.map fun t => (t.1, t.2.1)) = inner.map fun t => (t.1, t.2.1) := by
    rw [← ho, List.map_map]; rfl
  refine ⟨?_, inner, hi, ?_⟩
  · rw [hm]
    obtain ⟨h1, h2, h3⟩ := hs inner hi
    refine ⟨h1, h2, fun t ht => ?_⟩
    obtain ⟨n, lam, e1, e2, e3⟩ := h3 t ht
    rw [← hL, ← hR] at e2
    exact ⟨n, lam, e1, (C100_spectrum h L R n lam).mpr e2, e3⟩
  · rw [← ho, List.forall₂_map_right_iff, List.forall₂_same]
    intro s _
    refine ⟨rfl, rfl, fun rr x v pc h1 h2 h3 => ?_⟩
    refine ⟨(pieceY2Z Real.sqrt pc (pc.normR (pc.x2r (pc.normX x))) ⟨v.1, v.2, 0, 0⟩).dy, ?_⟩
    simp only [slEigenfunction, h1, h2, y2z, h3, Outcome.bind_ok, Outcome.pure_eq]
    rfl

/-- **C100**: the error estimate is the solver's, for the transformed boundary values. -/
theorem C100_error_estimate {ps : List (Piece ℝ)} {left right l r : Y ℝ} (hl : z2y Real.sqrt ps a left = .ok l) (hr : z2y Real.sqrt ps b right = .ok r)
    (err : ℝ → Y ℝ → Y ℝ → Int → Outcome ℝ) (E : ℝ) (index : Int) :
    slEigenvalueError Real.sqrt ps a b err E left right index = err E l r index := by
  simp only [slEigenvalueError, hl, hr, Outcome.bind_ok]

open Verif.Mesh Verif.Solver in
/-- **C100**, the coefficients of the sectors when the potential is sampled from an approximation `V'` of the smooth potential `W`: accurate up to `6 τ` more. -/
theorem C100_perturbed_coefficients {eps M H τ dmin dmax : ℝ} (hM : 0 ≤ M) {W : Sec ℝ → ℝ → ℝ} {V' : ℝ → ℝ} {secs : List (Sec ℝ)} (hf : FitMesh eps M H W dmin dmax secs)
    (hτ : ∀ s ∈ secs, ∀ x, s.min < x → x < s.max → |V' x - W s x| ≤ τ) :
    CoeffsWithin (16 * M / 10 ^ 14 + 37 * M * H ^ 16 + 6 * τ) W secs (sectorVs V') := by
  intro s hs
  have h2 : s.min < s.max := by have := hf.wide s hs; have := hf.eps_nonneg; linarith
  have h := coeffWithin_sector hM h2 (hf.narrow s hs) hf.small (hf.smooth s hs) (fun x _ _ => rfl)
  refine ⟨fun k hk => ?_, fun k hk => by rw [sectorVs, if_neg (by change ¬ k < 16; omega)]⟩
  have e : |sectorVs V' s k * (s.max - s.min) ^ k - sectorVs (W s) s k * (s.max - s.min) ^ k| ≤ 6 * τ := by
    have key := coeff_le (f := fun x => V' x - W s x) (c := τ) h2 (hτ s hs) hk
    rw [← coeff_sub V' (W s) h2] at key
    have hk' : k < matsliseN := hk
    unfold sectorVs
    rw [if_pos hk', if_pos hk']
    simp only [matsliseN]
    split
    · split
      · rw [← abs_neg]
        convert key using 2
        ring
      · exact key
    · exact key
  have := h.near k hk
  have t := abs_add_le (sectorVs V' s k * (s.max - s.min) ^ k - sectorVs (W s) s k * (s.max - s.min) ^ k)
    (sectorVs (W s) s k * (s.max - s.min) ^ k - legendreCoeff (oriented (W s) s) s.min s.max k)
  rw [sub_add_sub_cancel] at t
  linarith

open Verif.Mesh Verif.Solver in
/-- **C100**, end to end. For every bound `M` there is a constant `C` such that: let the Sturm–Liouville problem have a normal form with a potential that is smooth on the sectors of a mesh of the
`x` domain, and let a solver on that mesh have coefficients and η functions accurate to `ε` for that potential (`C100_perturbed_coefficients` for coefficients sampled from the transformation's approximate
potential). Then the matching error computed for the transformed boundary values exists, and where it is small, relative to
them, there is an exact eigenvalue of the Sturm–Liouville problem nearby, the only one at a distance less than `1/C` from itself. -/
theorem C100_small_error (M : ℝ) (hM : 1 ≤ M) : ∃ C : ℝ, 1 ≤ C ∧ ∀ (eps ε : ℝ) (eta : ℕ → ℝ → ℕ → ℝ) (vs : Sec ℝ → ℕ → ℝ) (p q w X m m1 V : ℝ → ℝ) (a b H E pi : ℝ) (ps : List (Piece ℝ))
    (br : BuildResult ℝ) (useH : Bool) (left right l r : Y ℝ) (L R : ℝ × ℝ), NormalForm p q w a b X m m1 V → X a = 0 → X b ≤ M → 1 / M ≤ X b → |E| ≤ M →
    z2y Real.sqrt ps a left = .ok l → z2y Real.sqrt ps b right = .ok r →
    normalValues p w X m m1 a L = (l.y, l.dy) → normalValues p w X m m1 b R = (r.y, r.dy) →
    (L.1 ≠ 0 ∨ L.2 ≠ 0) → (R.1 ≠ 0 ∨ R.2 ≠ 0) →
    FitMesh eps M H (fun _ => V) 0 (X b) br.sectors → AccurateTo ε (fun _ => V) br.sectors eta vs → br.matchIndex < br.sectors.length →
    ∃ err, (constructOf eps eta vs 0 (X b) br).matchingError pi E l r useH = .ok err ∧
      ∀ η, |err.1| / (max |l.y| |l.dy| * max |r.y| |r.dy|) + H ^ (if useH then 16 else 14) + ε ≤ η → C * η ≤ 1 →
        ∃ lam, IsSLEigenvalue p q w a b L R lam ∧ |lam - E| ≤ C * η ∧
          ∀ lam', IsSLEigenvalue p q w a b L R lam' → |lam' - lam| < 1 / C → lam' = lam := by
  obtain ⟨C, hC, key⟩ := C85_small_error_eigenvalue M hM
  refine ⟨C, hC, ?_⟩
  intro eps ε eta vs p q w X m m1 V a b H E pi ps br useH left right l r L R hn X0 hX hX' hE hl hr hL hR L0 R0 hf hacc hm
  have ok := fit_okMesh hf (E := 0) (by rw [abs_zero]; linarith)
  have hne : br.sectors ≠ [] := List.length_pos_iff.mp (by omega)
  have ha : a ∈ Set.Icc a b := ⟨le_rfl, hn.lt.le⟩
  have hb : b ∈ Set.Icc a b := ⟨hn.lt.le, le_rfl⟩
  have nz : ∀ {s : ℝ} {L : ℝ × ℝ} {v : Y ℝ}, s ∈ Set.Icc a b → (L.1 ≠ 0 ∨ L.2 ≠ 0) → normalValues p w X m m1 s L = (v.y, v.dy) → v.y ≠ 0 ∨ v.dy ≠ 0 := by
    intro s L v hs hL0 hv
    by_contra hc
    push Not at hc
    rw [hc.1, hc.2] at hv
    have e := (C100_some_condition hn hs (0, 0)).unique hv (y₂ := (0, 0)) (by simp [normalValues])
    rw [e] at hL0
    simp at hL0
  obtain ⟨err, h2, h3⟩ := key _ _ eta vs (fun _ => V) 0 (X b) H E pi br useH l r hf hacc (by linarith) (by linarith) hE hm (nz ha L0 hL) (nz hb R0 hR)
  refine ⟨err, h2, fun η hη hCη => ?_⟩
  obtain ⟨lam, l1, l2, l3⟩ := h3 η hη hCη
  simp only [isEigenvalue_iff ok.chn ok.pos hne] at l1 l3
  rw [← X0] at l1 l3
  rw [← hL, ← hR] at l1 l3
  simp only [← C100_spectrum_all hn] at l1 l3
  exact ⟨lam, l1, l2, l3⟩

/-! ### Non-vacuity: `p = w = (1 + r)²`, `q = 0` on `[0, 1]`

`x = r`, `m = 1 + x`, `V = 0`; the eigenfunctions are `sin(π n r) / (1 + r)`. -/

theorem sq_normal_form : NormalForm (fun r => (1 + r) ^ 2) (fun _ => 0) (fun r => (1 + r) ^ 2) 0 1 (fun r => r) (fun x => 1 + x) (fun _ => 1) (fun _ => 0) := by
  have pos : ∀ r ∈ Set.Icc (0 : ℝ) 1, 0 < (1 + r) ^ 2 := fun r hr => by have := hr.1; positivity
  refine ⟨by norm_num, pos, pos, fun r hr => ?_, fun r hr => by have := hr.1; positivity, fun r hr => by ring, fun x _ => ?_, fun r _ => ?_⟩
  · rw [div_self (pos r hr).ne', Real.sqrt_one]; exact (hasDerivAt_id r).hasDerivWithinAt
  · exact ((hasDerivAt_id x).const_add 1).hasDerivWithinAt
  · simpa using (hasDerivWithinAt_const r (Set.Icc (0 : ℝ) 1) (1 : ℝ))

theorem sq_values (v : ℝ × ℝ) : normalValues (fun r => (1 + r) ^ 2) (fun r => (1 + r) ^ 2) (fun r => r) (fun x => 1 + x) (fun _ => 1) 0 v = (v.1, v.1 + v.2) ∧
    normalValues (fun r => (1 + r) ^ 2) (fun r => (1 + r) ^ 2) (fun r => r) (fun x => 1 + x) (fun _ => 1) 1 v = (2 * v.1, v.1 + 2 * v.2) := by
  unfold normalValues
  constructor <;> norm_num

/-- The lowest eigenvalue of the Sturm–Liouville problem with Dirichlet conditions is `π²`. -/
theorem sq_lowest : IsSLEigenvalueNr (fun r => (1 + r) ^ 2) (fun _ => 0) (fun r => (1 + r) ^ 2) 0 1 (0, 1) (0, 1 / 2) 0 (Real.pi ^ 2) := by
  rw [C100_spectrum sq_normal_form]
  rw [(sq_values _).1, (sq_values _).2]
  norm_num
  exact HalfRange.box_odd

/-- The piece the transformation stores when it represents this problem exactly. -/
def sqPiece : Piece ℝ := ⟨0, 1, 0, 1, ⟨fun i => if i = 1 then 1 else 0⟩, ofList 8 [1, 2, 1], ofList 8 [1, 2, 1], ofList 10 [1, 4, 6, 4, 1]⟩

theorem sq_eval (t : ℝ) : eval sqPiece.p t = (1 + t) ^ 2 ∧ eval sqPiece.w t = (1 + t) ^ 2 ∧ eval sqPiece.pwx t = (1 + t) ^ 4 := by
  refine ⟨?_, ?_, ?_⟩ <;>
  · simp only [sqPiece, C43_eval, value, DEGREE, Finset.sum_range_succ, Finset.sum_range_zero, ofList]
    simp
    ring

theorem sq_deriv (t : ℝ) : derivativeAt 1 sqPiece.p t = 2 * (1 + t) ∧ derivativeAt 1 sqPiece.w t = 2 * (1 + t) ∧ derivativeAt 1 sqPiece.pwx t = 4 * (1 + t) ^ 3 ∧
    derivativeAt 2 sqPiece.pwx t = 12 * (1 + t) ^ 2 := by
  have d : ∀ t : ℝ, HasDerivAt (fun t : ℝ => 1 + t) 1 t := fun t => (hasDerivAt_id t).const_add 1
  have e1 : ∀ t, derivativeAt 1 sqPiece.pwx t = 4 * (1 + t) ^ 3 := by
    intro t
    refine (C44_hasDerivAt sqPiece.pwx t).unique ?_
    rw [show (fun t => eval sqPiece.pwx t) = fun t => (1 + t) ^ 4 from funext fun t => (sq_eval t).2.2]
    exact ((d t).fun_pow 4).congr_deriv (by norm_num)
  refine ⟨?_, ?_, e1 t, ?_⟩
  · refine (C44_hasDerivAt sqPiece.p t).unique ?_
    rw [show (fun t => eval sqPiece.p t) = fun t => (1 + t) ^ 2 from funext fun t => (sq_eval t).1]
    exact ((d t).fun_pow 2).congr_deriv (by norm_num)
  · refine (C44_hasDerivAt sqPiece.w t).unique ?_
    rw [show (fun t => eval sqPiece.w t) = fun t => (1 + t) ^ 2 from funext fun t => (sq_eval t).2.1]
    exact ((d t).fun_pow 2).congr_deriv (by norm_num)
  · refine (second_hasDerivAt sqPiece.pwx t).unique ?_
    rw [show (fun t => derivativeAt 1 sqPiece.pwx t) = fun t => 4 * (1 + t) ^ 3 from funext e1]
    exact (((d t).fun_pow 3).const_mul 4).congr_deriv (by norm_num; ring)

/-- The transformation's potential on that piece is exactly `0`. -/
theorem sq_V {x : ℝ} (hx : 0 ≤ x) : Liouville.V (fun _ => 0) [sqPiece] x = .ok 0 := by
  have hf : findPiece [sqPiece] Piece.xmax x = .ok sqPiece := findPiece_single _ _ _
  have n : sqPiece.normX x = x := by simp [Piece.normX, sqPiece]
  have h : sqPiece.xmax - sqPiece.xmin = 1 := by simp [sqPiece]
  simp only [Liouville.V, hf, Outcome.bind_ok, Outcome.pure_eq, pieceV, n, h, (sq_eval x).2.2, (sq_deriv x).2.2.1, (sq_deriv x).2.2.2, ccmp_lit]
  congr 1
  have : (1 + x) ≠ 0 := by linarith
  push_cast
  field_simp
  ring

/-- Its boundary values are the exact ones. -/
theorem sq_z2y (z : Y ℝ) : (∃ l, z2y Real.sqrt [sqPiece] 0 z = .ok l ∧ (l.y, l.dy) = (z.y, z.y + z.dy)) ∧ ∃ r, z2y Real.sqrt [sqPiece] 1 z = .ok r ∧ (r.y, r.dy) = (2 * z.y, z.y + 2 * z.dy) := by
  have hf : ∀ r, findPiece [sqPiece] Piece.rmax r = .ok sqPiece := fun r => findPiece_single _ _ _
  have n : ∀ r, sqPiece.normR r = r := fun r => by simp [Piece.normR, sqPiece]
  have h : sqPiece.rmax - sqPiece.rmin = 1 := by simp [sqPiece]
  have d : ∀ r : ℝ, HasDerivWithinAt (fun r : ℝ => (1 + r) ^ 2) (2 * (1 + r)) (Set.Icc 0 1) r := fun r =>
    (((hasDerivAt_id r).const_add 1).fun_pow 2).hasDerivWithinAt.congr_deriv (by norm_num)
  have key : ∀ r ∈ Set.Icc (0 : ℝ) 1, _ := fun r hr => C100_z2y sq_normal_form hr (d r) (d r) sqPiece r (sq_eval r).1 (sq_eval r).2.1 (by rw [h, (sq_deriv r).1, div_one]) (by rw [h, (sq_deriv r).2.1, div_one]) z
  constructor
  · refine ⟨_, by simp only [z2y, hf, Outcome.bind_ok, Outcome.pure_eq]; rfl, ?_⟩
    rw [n, key 0 (by norm_num), (sq_values _).1]
  · refine ⟨_, by simp only [z2y, hf, Outcome.bind_ok, Outcome.pure_eq]; rfl, ?_⟩
    rw [n, key 1 (by norm_num), (sq_values _).2]

open Verif.Mesh Verif.Solver Verif.CalcT in
/-- The hypotheses of `C100_small_error` on this problem, on a uniform mesh with `n` sectors. -/
example : ∃ C : ℝ, ∀ (n : ℕ) (cmp : Sec ℝ → Sec ℝ → Bool) (pi E : ℝ), 1 ≤ n → |E| ≤ 100 → ∃ br err l r, uniformBuild cmp n 0 1 = .ok br ∧
    z2y Real.sqrt [sqPiece] 0 ⟨0, 1, 0, 0⟩ = .ok l ∧ z2y Real.sqrt [sqPiece] 1 ⟨0, 1, 0, 0⟩ = .ok r ∧
    (constructOf 0 etaExact (exactVs fun _ => 0) 0 1 br).matchingError pi E l r true = .ok err ∧
    (C * (|err.1| / (1 * 2) + (1 / n) ^ 16) ≤ 1 → ∃ lam, IsSLEigenvalue (fun r => (1 + r) ^ 2) (fun _ => 0) (fun r => (1 + r) ^ 2) 0 1 (0, 1) (0, 1) lam ∧
      |lam - E| ≤ C * (|err.1| / (1 * 2) + (1 / n) ^ 16)) := by
  obtain ⟨C, hC, key⟩ := C100_small_error 100 (by norm_num)
  refine ⟨C, fun n cmp pi E hn hE => ?_⟩
  have hs : SmoothOn 100 (fun _ => 0) 0 1 := ⟨fun _ _ => 0, fun _ _ => rfl, fun _ _ _ _ => hasDerivWithinAt_const _ _ _, fun _ _ _ _ => by norm_num⟩
  have hn0 : (0 : ℝ) < n := by exact_mod_cast hn
  have hn1 : (1 : ℝ) ≤ n := by exact_mod_cast hn
  have w0 : (0 : ℝ) < (1 - 0) / n := by positivity
  obtain ⟨br, e1, hlen, hm, hf, hc, hp, hne⟩ := uniform_fit cmp hn le_rfl hs (by rw [div_le_one hn0]; linarith) w0
  obtain ⟨⟨l, hl, hl'⟩, -⟩ := sq_z2y ⟨0, 1, 0, 0⟩
  obtain ⟨-, r, hr, hr'⟩ := sq_z2y ⟨0, 1, 0, 0⟩
  obtain ⟨err, h1, h2⟩ := key 0 0 etaExact (exactVs fun _ => 0) _ _ _ _ _ _ _ 0 1 ((1 - 0) / n) E pi [sqPiece] br true _ _ l r (0, 1) (0, 1) sq_normal_form rfl (by norm_num) (by norm_num) hE hl hr
    (by rw [hl', (sq_values _).1]) (by rw [hr', (sq_values _).2]) (by norm_num) (by norm_num) hf
    ⟨by norm_num, 0, 0, etaWithin_exact, coeffs_on_mesh (exact_coeffs _ _ _ _) hf hc hp, by simp⟩ hm
  refine ⟨br, err, l, r, e1, hl, hr, h1, fun hsmall => ?_⟩
  obtain ⟨a1, a2⟩ := Prod.mk.inj hl'
  obtain ⟨b1, b2⟩ := Prod.mk.inj hr'
  norm_num at a1 a2 b1 b2
  obtain ⟨lam, l1, l2, -⟩ := h2 _ le_rfl (by
    rw [a1, a2, b1, b2]
    refine le_trans (le_of_eq ?_) hsmall
    norm_num)
  refine ⟨lam, l1, l2.trans (le_of_eq ?_)⟩
  rw [a1, a2, b1, b2]
  norm_num

end Verif.Liouville
