import Verif.Lemmas.FlTable
import Verif.Lemmas.CPMError
import Verif.Spec.FinitePrecision

/-!
# Rounding errors of `calculateT`
-/
namespace Verif.Fp
open Verif.YT Verif.CalcT Verif.Formulas

variable {u mu w : ℝ} {fl : ℝ → ℝ}

/-- the exact η functions -/
noncomputable def etaR : ℕ → ℝ → ℕ → ℝ := fun _ Z i => Eta.eta i Z

theorem eta_lip (i : ℕ) {R x y : ℝ} (hx : |x| ≤ R) (hy : |y| ≤ R) : |Eta.eta i x - Eta.eta i y| ≤ Real.exp R * |x - y| := by
  have := Convex.norm_image_sub_le_of_norm_hasDerivWithin_le (f := Eta.eta i) (f' := fun z => Eta.eta (i + 1) z / 2) (s := Set.Icc (-R) R) (C := Real.exp R)
    (x := y) (y := x) (fun z _ => (Eta.hasDerivAt_eta i z).hasDerivWithinAt) (fun z hz => ?_) (convex_Icc _ _) (abs_le.mp hy) (abs_le.mp hx)
  · simpa [Real.norm_eq_abs] using this
  · rw [Real.norm_eq_abs, abs_div]
    have h1 := PL.abs_eta_le (i + 1) z
    have h2 : Real.exp |z| ≤ Real.exp R := Real.exp_le_exp.mpr (abs_le.mpr hz)
    have h3 : |(2 : ℝ)| = 2 := by norm_num
    rw [h3]
    linarith [Real.exp_pos R]

/-- constant of the η functions -/
noncomputable def bEta (Bz : ℝ) : ℝ := Real.exp (2 * Bz) * (1 + Bz)

theorem bEta_one {Bz : ℝ} (h : 1 ≤ Bz) : 1 ≤ bEta Bz :=
  one_le_mul_of_one_le_of_one_le (Real.one_le_exp (by linarith)) (by linarith)

theorem eta_rel (hA : Arith u mu w fl) {Bz σ : ℝ} (z1 : 1 ≤ Bz) {eta : ℕ → Fl fl → ℕ → Fl fl} {R : ℝ} (he : EtaFl σ R eta) (hσ : σ ≤ w) {Z : Fl fl} {Z' : ℝ} (hZ : Rel w 1 Bz Z Z') (hR : |Z.val| ≤ R)
    {n i : ℕ} (hn : 2 ≤ n) (hn' : n ≤ 10) (hi : i < n) : Rel w 1 (bEta Bz) (eta n Z i) (etaR n Z' i) := by
  have hw := hA.w0
  have v1 := hZ.abs_val hA zero_le_one (by linarith)
  rw [mul_one] at v1
  have v2 : |Z'| ≤ 2 * Bz := by have := hZ.1; rw [mul_one] at this; linarith
  have v3 : |Z'| ≤ Bz := by have := hZ.1; rwa [mul_one] at this
  have x1 : 1 ≤ Real.exp (2 * Bz) := Real.one_le_exp (by linarith)
  have x0 := Real.exp_pos (2 * Bz)
  unfold Rel
  rw [mul_one]
  constructor
  · refine (PL.abs_eta_le i Z').trans ?_
    have : Real.exp |Z'| ≤ Real.exp (2 * Bz) := Real.exp_le_exp.mpr v2
    refine this.trans ?_
    unfold bEta
    exact le_mul_of_one_le_right x0.le (by linarith)
  · have e : (eta n Z i).val - etaR n Z' i = ((eta n Z i).val - Eta.eta i Z.val) + (Eta.eta i Z.val - Eta.eta i Z') := by unfold etaR; ring
    rw [e]
    refine (abs_add_le _ _).trans ?_
    have h1 := he n hn hn' Z hR i hi
    have h2 := eta_lip i v1 v2
    have h3 := hZ.2
    rw [mul_one] at h3
    have h4 : Real.exp (2 * Bz) * |Z.val - Z'| ≤ Real.exp (2 * Bz) * (Bz * w) := mul_le_mul_of_nonneg_left h3 x0.le
    have h5 : w ≤ Real.exp (2 * Bz) * w := le_mul_of_one_le_left hw x1
    have : bEta Bz * w = Real.exp (2 * Bz) * w + Real.exp (2 * Bz) * (Bz * w) := by unfold bEta; ring
    rw [this]; linarith

/-- constant of `(vs[0] - E) δ²` -/
noncomputable def bZ (B M : ℝ) : ℝ := 12 * (4 * (B + M) * 12)

theorem bZ_one {B M : ℝ} (hB : 1 ≤ B) (hM : 1 ≤ M) : 1 ≤ bZ B M := by unfold bZ; linarith

/-- constant of `calculateT` -/
noncomputable def bT (B M : ℝ) : ℝ :=
  bEL (bH B) (bEta (bZ B M)) 12 etaH 0 (bStart (bEta (bZ B M)) (4 * (B + M))) +
  bEL (fun i => bHL (bDelta B i) (hmaxDelta - 1) (bDelta B i (hmaxDelta - 1))) (bEta (bZ B M)) 12 etaDelta 0 (bStart (bEta (bZ B M)) (4 * (B + M)))

section sector
variable {B h M σ : ℝ} {hh : Fl fl} {v : Nat → Fl fl} (S : SecHyp u mu w fl B h hh v) (hM : 1 ≤ M) {E : Fl fl} (hE : |E.val| ≤ M)
  {eta : ℕ → Fl fl → ℕ → Fl fl} {R : ℝ} (he : EtaFl σ R eta) (hσ : σ ≤ w)
include S hM hE he hσ

omit he hσ in
theorem v0_rel : Rel w 1 (4 * (B + M)) (v 0 - E) ((v 0).val - E.val) := by
  have := S.vb 0
  rw [pow_zero] at this
  exact Rel.sub S.ar S.ar.mu1 S.B1 hM (Rel.exact S.ar zero_le_one (by linarith [S.B1]) this) (Rel.exact S.ar zero_le_one (by linarith) (by rw [mul_one]; exact hE))

omit he hσ in
theorem Z_rel {d : Fl fl} {d' : ℝ} (hd : Rel w 1 1 d d') : Rel w 1 (bZ B M) ((v 0 - E) * (d * d)) (((v 0).val - E.val) * (d' * d')) := by
  have m1 : mu ≤ (1 : ℝ) * 1 := by linarith [S.ar.mu1]
  have hdd := Rel.mul S.ar zero_le_one zero_le_one m1 le_rfl le_rfl hd hd
  rw [one_mul, mul_one] at hdd
  have := Rel.mul S.ar zero_le_one zero_le_one m1 (by linarith [S.B1]) (by norm_num) (v0_rel S hM hE) hdd
  rw [one_mul] at this
  exact this

theorem calcH_rel (hR : |((v 0 - E) * (hh * hh)).val| ≤ R) : RelT w 1 (bEL (bH B) (bEta (bZ B M)) 12 etaH 0 (bStart (bEta (bZ B M)) (4 * (B + M))))
    (calcH eta (mkSec hh v) E) (calcH etaR (mkSec h fun k => (v k).val) E.val) := by
  have hd : Rel w 1 1 hh h := S.hrel.scale S.ar zero_le_one S.h1
  have z1 := bZ_one S.B1 hM
  unfold calcH
  exact body_rel S.ar (by unfold etaH; norm_num) (bH_one S.B1) (mkSec_coeffH_rel S) (bEta_one z1) (by linarith [S.B1])
    (fun i hi => eta_rel S.ar z1 he hσ (Z_rel S hM hE hd) hR (by unfold etaH; norm_num) (by unfold etaH; norm_num) hi) (v0_rel S hM hE) hd

theorem calcDelta_rel {d : Fl fl} {d' : ℝ} (hd : Rel w h 1 d d') (hR : |((v 0 - E) * (d * d)).val| ≤ R) :
    RelT w 1 (bEL (fun i => bHL (bDelta B i) (hmaxDelta - 1) (bDelta B i (hmaxDelta - 1))) (bEta (bZ B M)) 12 etaDelta 0 (bStart (bEta (bZ B M)) (4 * (B + M))))
    (calcDelta eta (mkSec hh v) E d) (calcDelta etaR (mkSec h fun k => (v k).val) E.val d') := by
  have hd1 : Rel w 1 1 d d' := hd.scale S.ar zero_le_one S.h1
  have z1 := bZ_one S.B1 hM
  unfold calcDelta
  refine body_rel S.ar (by unfold etaDelta; norm_num) (fun i => bHL_one (bDelta_one S.B1 i) _ (bDelta_one S.B1 i _)) (fun i => ?_) (bEta_one z1) (by linarith [S.B1])
    (fun i hi => eta_rel S.ar z1 he hσ (Z_rel S hM hE hd1) hR (by unfold etaDelta; norm_num) (by unfold etaDelta; norm_num) hi) (v0_rel S hM hE) hd1
  unfold horner
  exact horner_rel S (bDelta_one S.B1 i) (mkSec_coeff_rel S i) hd (hmaxDelta - 1) (bDelta_one S.B1 i _) (mkSec_coeff_rel S i _)

omit hE he hσ in
theorem bT_parts : 1 ≤ bT B M ∧ bEL (bH B) (bEta (bZ B M)) 12 etaH 0 (bStart (bEta (bZ B M)) (4 * (B + M))) ≤ bT B M ∧
    bEL (fun i => bHL (bDelta B i) (hmaxDelta - 1) (bDelta B i (hmaxDelta - 1))) (bEta (bZ B M)) 12 etaDelta 0 (bStart (bEta (bZ B M)) (4 * (B + M))) ≤ bT B M := by
  have z1 := bZ_one S.B1 hM
  have e1 := bEta_one z1
  have b0 : 1 ≤ bStart (bEta (bZ B M)) (4 * (B + M)) := by
    have h4 : 1 ≤ 4 * (B + M) := by linarith [S.B1]
    have := one_le_mul_of_one_le_of_one_le h4 e1
    unfold bStart
    have e : 12 * (12 * (12 * (4 * (B + M) * 12) * 1) * bEta (bZ B M)) = 20736 * (4 * (B + M) * bEta (bZ B M)) := by ring
    have e' : 12 * (12 * (4 * (B + M) * 1) * bEta (bZ B M)) = 144 * (4 * (B + M) * bEta (bZ B M)) := by ring
    rw [e, e']; linarith
  have p1 := bEL_one (bH_one S.B1) e1 (show (1 : ℝ) ≤ 12 by norm_num) etaH 0 b0
  have p2 := bEL_one (fun i => bHL_one (bDelta_one S.B1 i) (hmaxDelta - 1) (bDelta_one S.B1 i (hmaxDelta - 1))) e1 (show (1 : ℝ) ≤ 12 by norm_num) etaDelta 0 b0
  unfold bT
  refine ⟨?_, ?_, ?_⟩ <;> linarith

/-- **`calculateT` of a full step**, rounded, against exact arithmetic with the same coefficients. -/
theorem calculateT_full_rel (hR : |((v 0 - E) * (hh * hh)).val| ≤ R) {eps : Fl fl} (h0 : 0 ≤ eps.val) (hw : eps.val < hh.val) (useH : Bool) :
    RelT w 1 (bT B M) (calculateTWith eps eta (mkSec hh v) E hh useH) (calculateTWith 0 etaR (mkSec h fun k => (v k).val) E.val h useH) := by
  obtain ⟨-, i1, i2⟩ := bT_parts S hM
  have hp := S.h0
  have hh0 : 0 < hh.val := by linarith
  have ea : Eta.absK hh = hh := by unfold Eta.absK; simp [hh0.not_gt]
  have eb : Eta.absK h = h := by unfold Eta.absK; simp [hp.not_gt]
  have ez : (mkSec hh v).h = hh := rfl
  have ez' : (mkSec h fun k => (v k).val).h = h := rfl
  have el : CCmp.le hh eps = false := by simp only [Fl.le_def, decide_eq_false_iff_not, not_le]; exact hw
  have el' : CCmp.le h 0 = false := by simp only [ccmp_le, decide_eq_false_iff_not, not_le]; exact hp
  have es : (hh - hh).val = 0 := by simp only [Fl.sub_val, sub_self]; exact S.ar.fl0
  have er : CCmp.le (Eta.absK (hh - hh)) eps = true := by
    unfold Eta.absK
    simp only [Fl.lt_def, es, Fl.zero_val, lt_irrefl, decide_false, Bool.false_eq_true, if_false, Fl.le_def, decide_eq_true_eq]
    exact h0
  have er' : CCmp.le (Eta.absK (h - h)) 0 = true := by
    unfold Eta.absK
    simp
  unfold calculateTWith
  rw [ea, eb, ez, ez', el, el', er, er']
  cases useH
  · have := calcDelta_rel S hM hE he hσ S.hrel hR
    simp only [Bool.false_eq_true, if_false, Bool.false_and]
    exact ⟨this.t.mono S.ar zero_le_one i2, this.dt.mono S.ar zero_le_one i2⟩
  · have := calcH_rel S hM hE he hσ hR
    simp only [Bool.false_eq_true, if_false, Bool.true_and, if_true]
    exact ⟨this.t.mono S.ar zero_le_one i1, this.dt.mono S.ar zero_le_one i1⟩

end sector
end Verif.Fp
