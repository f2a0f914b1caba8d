import Verif.Lemmas.FlEnergy
import Verif.Lemmas.EigenInside

/-!
# Values inside a sector, in finite precision
-/
namespace Verif.Fp
open Verif.Mesh Verif.YT Verif.CalcT Verif.Propag Verif.Solver Verif.Spec Verif.Legendre

variable {fl : ℝ → ℝ} {u mu w : ℝ}

theorem fl_abs (hr : Rounding u mu fl) (x : ℝ) : |fl x| = fl |x| := by
  have f0 : fl 0 = 0 := by
    have := hr.neg 0
    rw [neg_zero] at this; linarith
  rcases le_total 0 x with h | h
  · rw [abs_of_nonneg h, abs_of_nonneg]
    have := hr.mono h
    rwa [f0] at this
  · rw [abs_of_nonpos h, hr.neg, abs_of_nonpos]
    have := hr.mono h
    rwa [f0] at this

/-- The argument of the η functions grows with the length of the step. -/
theorem arg_mono (hr : Rounding u mu fl) {p d h : Fl fl} (d0 : 0 ≤ d.val) (dh : d.val ≤ h.val) : |(p * (d * d)).val| ≤ |(p * (h * h)).val| := by
  simp only [Fl.mul_val]
  rw [fl_abs hr, fl_abs hr]
  refine hr.mono ?_
  rw [abs_mul, abs_mul, fl_abs hr, fl_abs hr]
  refine mul_le_mul_of_nonneg_left (hr.mono ?_) (abs_nonneg _)
  rw [abs_mul, abs_mul]
  have : |d.val| ≤ |h.val| := abs_le_abs_of_nonneg d0 dh
  exact mul_le_mul this this (abs_nonneg _) (abs_nonneg _)

set_option maxHeartbeats 800000 in
/-- **`calculateT` of a part of a sector**, rounded: a matrix near the exact flow, up to rounding. -/
theorem tr_fl (M : ℝ) (hM : 1 ≤ M) : ∃ C : ℝ, 1 ≤ C ∧ ∀ (fl : ℝ → ℝ) (u mu σ τ R B : ℝ) (eps E hh d : Fl fl) (eta : ℕ → Fl fl → ℕ → Fl fl) (v : ℕ → Fl fl) (W : ℝ → ℝ) (a b δ : ℝ),
    SecHyp u mu (u + σ) fl B (b - a) hh v → 0 ≤ σ → EtaFl σ R eta → τ ≤ 1 → 0 ≤ eps.val → SmoothOn M W a b → CoeffWithin τ W a b (fun k => (v k).val) → |E.val| ≤ M →
    |((v 0 - E) * (hh * hh)).val| ≤ R → 0 < δ → δ < b - a → d.val = fl δ → hh.val = fl (b - a) →
    ∃ t : T ℝ, RelM (u + σ) 1 (bT B M) (calculateTWith eps eta (mkSec hh v) E d true).t t.t ∧ Near W E.val a b (mapOf t.t) a (a + δ) (C * ((b - a) ^ 15 + (b - a) * τ + (u + σ) + eps.val)) := by
  obtain ⟨C1, h1, full⟩ := full_near M hM
  obtain ⟨C2, h2, part⟩ := delta_near M hM
  obtain ⟨K, hK⟩ : ∃ K, K = 2 * M := ⟨_, rfl⟩
  have hK1 : 1 ≤ K := by linarith
  have hx := Real.exp_pos K
  obtain ⟨Q, hQ⟩ : ∃ Q, Q = K * Real.exp K := ⟨_, rfl⟩
  have hQ0 : 0 ≤ Q := by rw [hQ]; positivity
  refine ⟨1 + C2 + 4 * Q + (Real.exp K + Q) * C1 + 4 * Q * Real.exp K, ?_, ?_⟩
  · have : 0 ≤ C2 + 4 * Q + (Real.exp K + Q) * C1 + 4 * Q * Real.exp K := by positivity
    linarith
  intro fl u mu σ τ R B eps E hh d eta v W a b δ S hσ0 he hτ1 heps hW hv hE hR d0 d1 hd hhv
  obtain ⟨b1, i1, i2⟩ := bT_parts S hM
  have hA := S.ar
  have het : EtaWithin 0 etaR := fun n _ Z i _ => by simp [etaR]
  have hτ0 := hv.nonneg
  have hlt : a < b := by linarith [S.h0]
  have q := pot_bound hW hE
  rw [← hK] at q
  have hcont := hW.continuousOn
  have memA : a ∈ Set.Icc a b := ⟨le_rfl, hlt.le⟩
  have memB : b ∈ Set.Icc a b := ⟨hlt.le, le_rfl⟩
  have memD : a + δ ∈ Set.Icc a b := ⟨by linarith, by linarith⟩
  have u0 := hA.u0
  have uσ : u ≤ u + σ := hA.uw
  have u8 : u ≤ 1 / 8 := uσ.trans hA.w1
  have mu0 := hA.mu0
  have mh := S.mh
  have H1 := S.h1
  have f0 := hA.fl0
  have dp : 0 ≤ d.val := by rw [hd, ← f0]; exact hA.r.mono d0.le
  have dle : d.val ≤ hh.val := by rw [hd, hhv]; exact hA.r.mono d1.le
  have ed : |d.val - δ| ≤ u * (b - a) := by
    rw [hd]
    refine (hA.r.err δ).trans (mul_le_mul_of_nonneg_left (max_le ?_ mh) u0)
    rw [abs_of_pos d0]; exact d1.le
  have eh : |hh.val - (b - a)| ≤ u * (b - a) := by
    rw [hhv]
    refine (hA.r.err _).trans (mul_le_mul_of_nonneg_left (max_le ?_ mh) u0)
    rw [abs_of_pos (by linarith)]
  have ub : u * (b - a) ≤ u := mul_le_of_le_one_right u0 H1
  have hh1 : |hh.val| ≤ 2 := by
    have := abs_le.mp eh
    rw [abs_le]; constructor <;> linarith
  obtain ⟨eP, heP⟩ : ∃ eP, eP = (b - a) ^ 15 + (b - a) * τ + (u + σ) + eps.val := ⟨_, rfl⟩
  have p15 : 0 ≤ (b - a) ^ 15 := pow_nonneg S.h0.le _
  have pτ : 0 ≤ (b - a) * τ := mul_nonneg S.h0.le hτ0
  have eP0 : 0 ≤ eP := by rw [heP]; linarith
  have ueP : u + eps.val ≤ eP := by rw [heP]; linarith
  rw [← heP]
  have hdr : Rel (u + σ) (b - a) 1 d δ := by
    refine ⟨by rw [abs_of_pos d0, one_mul]; exact d1.le, ed.trans ?_⟩
    rw [one_mul, mul_comm (b - a)]
    exact mul_le_mul_of_nonneg_right uσ S.h0.le
  have ea : Eta.absK d = d := by unfold Eta.absK; simp [dp.not_gt]
  have sub : (d - hh).val = fl (d.val - hh.val) := rfl
  have sub0 : (d - hh).val ≤ 0 := by rw [sub, ← f0]; exact hA.r.mono (by linarith)
  have eb : (Eta.absK (d - hh)).val = -(d - hh).val := by
    unfold Eta.absK
    simp only [Fl.lt_def, Fl.zero_val, decide_eq_true_eq]
    split
    · rfl
    · linarith
  have ez : (mkSec hh v).h = hh := rfl
  unfold calculateTWith
  rw [ea, ez]
  simp only [Fl.le_def, decide_eq_true_eq, Bool.true_and]
  have rest1 : 0 ≤ (Real.exp K + Q) * C1 := by positivity
  have rest2 : 0 ≤ 4 * Q * Real.exp K := by positivity
  split
  · rename_i hc
    refine ⟨T.one, ⟨?_, ?_, ?_, ?_⟩, ?_⟩
    · exact (Rel.one hA).mono hA zero_le_one b1
    · exact Rel.zero hA zero_le_one (by linarith)
    · exact Rel.zero hA zero_le_one (by linarith)
    · exact (Rel.one hA).mono hA zero_le_one b1
    · rw [mapOf_one]
      refine (short_near hK1 q H1 memA memD).mono ?_
      rw [add_sub_cancel_left, abs_of_nonneg d0.le, ← hQ]
      have k1 : δ ≤ 4 * eP := by have := abs_le.mp ed; linarith
      have k2 : Q * δ ≤ Q * (4 * eP) := mul_le_mul_of_nonneg_left k1 hQ0
      have k3 : 0 ≤ (1 + C2 + (Real.exp K + Q) * C1 + 4 * Q * Real.exp K) * eP := by positivity
      linarith only [k2, k3]
  · split
    · rename_i hc hc2
      rw [eb] at hc2
      refine ⟨calcH etaR (mkSec (b - a) fun k => (v k).val) E.val, ((calcH_rel S hM hE he (by linarith) hR).t.mono hA zero_le_one i1), ?_⟩
      have fullN := full 0 τ etaR (fun k => (v k).val) W a b E.val het zero_le_one hτ1 hlt H1 hW hv hE
      have sn := short_near hK1 q H1 memB memD
      have e0 : |a + δ - b| = b - a - δ := by rw [abs_of_nonpos (by linarith)]; ring
      have e0' : 0 ≤ b - a - δ := by linarith
      have cp := fullN.comp sn (by positivity) hK1 hcont q memA memB memD
      rw [e0, abs_of_nonneg S.h0.le, ← hQ] at cp
      refine Near.mono (S := mapOf (calcH etaR (mkSec (b - a) fun k => (v k).val) E.val).t) cp ?_
      have x1 : Real.exp (K * (b - a - δ)) ≤ Real.exp K := Real.exp_le_exp.mpr (by nlinarith)
      have x2 : Real.exp (K * (b - a)) ≤ Real.exp K := Real.exp_le_exp.mpr (by nlinarith)
      have err := hA.r.err (d.val - hh.val)
      rw [← sub] at err
      have m2 : max |d.val - hh.val| mu ≤ 2 := by
        refine max_le ?_ (by linarith)
        have := abs_le.mp hh1
        rw [abs_le]; constructor <;> linarith
      have err' := err.trans (mul_le_mul_of_nonneg_left m2 u0)
      have k1 : b - a - δ ≤ 4 * eP := by
        have := abs_le.mp ed; have := abs_le.mp eh; have := abs_le.mp err'; linarith
      have s2 : Q * (b - a - δ) ≤ Q := mul_le_of_le_one_right hQ0 (by linarith)
      have s3 : Q * (b - a - δ) ≤ Q * (4 * eP) := mul_le_mul_of_nonneg_left k1 hQ0
      have s1 : (b - a) ^ 17 + (b - a) * τ + 0 ≤ eP := by
        have : (b - a) ^ 17 ≤ (b - a) ^ 15 := pow_le_pow_of_le_one S.h0.le H1 (by norm_num)
        rw [heP]; linarith
      have s10 : 0 ≤ (b - a) ^ 17 + (b - a) * τ + 0 := by have := pow_nonneg S.h0.le 17; linarith
      have s4 : (Real.exp (K * (b - a - δ)) + Q * (b - a - δ)) * (C1 * ((b - a) ^ 17 + (b - a) * τ + 0)) ≤ (Real.exp K + Q) * (C1 * eP) :=
        mul_le_mul (add_le_add x1 s2) (mul_le_mul_of_nonneg_left s1 h1) (mul_nonneg h1 s10) (by positivity)
      have s5 : Q * (b - a - δ) * Real.exp (K * (b - a)) ≤ Q * (4 * eP) * Real.exp K := mul_le_mul s3 x2 (Real.exp_pos _).le (by positivity)
      have s7 : 0 ≤ (1 + C2 + 4 * Q) * eP := by positivity
      linarith only [s4, s5, s7]
    · refine ⟨calcDelta etaR (mkSec (b - a) fun k => (v k).val) E.val δ, ((calcDelta_rel S hM hE he (by linarith) hdr ((arg_mono hA.r dp dle).trans hR)).t.mono hA zero_le_one i2), ?_⟩
      refine (part 0 τ etaR (fun k => (v k).val) W a b E.val δ het zero_le_one hτ1 hlt H1 hW hv hE d0 d1.le).mono ?_
      have k1 : (b - a) ^ 15 + (b - a) * τ + 0 ≤ eP := by rw [heP]; linarith
      have k2 := mul_le_mul_of_nonneg_left k1 h2
      have k3 : 0 ≤ (1 + 4 * Q + (Real.exp K + Q) * C1 + 4 * Q * Real.exp K) * eP := by positivity
      linarith only [k2, k3]

/-! ### `Sector::propagate` to an inner point -/

theorem propagate_inner_fwd {s : PSec (Fl fl)} (hd : s.dir = .forward) {x : Fl fl} (h1 : s.min.val < x.val) (h2 : x.val < s.max.val) (h0 : 0 ≤ (x - s.min).val) (hc : (x - s.min).val ≤ s.h.val)
    (E : Fl fl) (useH : Bool) (c : Y (Fl fl)) :
    (s.propagate E useH c s.min x).1 = (s.tr E (x - s.min) useH).mul c ∧
    (s.propagate E useH c s.max x).1 = (s.tr E (x - s.min) useH).mul (s.propagate E useH c s.max s.min).1 := by
  have a1 : ¬ s.max.val ≤ x.val := not_le.mpr h2
  have a2 : ¬ x.val ≤ s.min.val := not_le.mpr h1
  have a3 : s.min.val < s.max.val := h1.trans h2
  have a4 : ¬ s.max.val ≤ s.min.val := not_le.mpr a3
  have step : ∀ st : Y (Fl fl) × Fl fl, (s.propagateDelta E useH st (x - s.min)).1 = (s.tr E (x - s.min) useH).mul st.1 := by
    intro st
    unfold PSec.propagateDelta
    simp only [hd, Fl.le_def, Fl.lt_def, Fl.zero_val, decide_eq_true_eq, h0, if_true, hc.not_gt, reduceCtorEq, if_false]
  constructor
  · unfold PSec.propagate
    simp only [Fl.le_def, Fl.lt_def, a1, a2, a3, a4, h1, hd, decide_true, decide_false, Bool.and_false, Bool.or_self, Bool.not_false, if_true, lt_irrefl, Bool.false_eq_true, if_false, step]
  · unfold PSec.propagate
    simp only [Fl.le_def, Fl.lt_def, a1, a2, a3, a4, h1, hd, decide_true, decide_false, Bool.and_false, Bool.false_and, Bool.or_self, Bool.not_false, if_true, lt_irrefl, Bool.false_eq_true, if_false, step]

theorem propagate_inner_bwd {s : PSec (Fl fl)} (hd : s.dir = .backward) {x : Fl fl} (h1 : s.min.val < x.val) (h2 : x.val < s.max.val) (h0 : 0 ≤ (-(x - s.max)).val) (hc : (-(x - s.max)).val ≤ s.h.val)
    (E : Fl fl) (useH : Bool) (c : Y (Fl fl)) :
    (s.propagate E useH c s.max x).1 = ((s.tr E (-(x - s.max)) useH).mul c.reverse).reverse ∧
    (s.propagate E useH c s.min x).1 = ((s.tr E (-(x - s.max)) useH).mul (s.propagate E useH c s.min s.max).1.reverse).reverse := by
  have a1 : ¬ s.max.val ≤ x.val := not_le.mpr h2
  have a2 : ¬ x.val ≤ s.min.val := not_le.mpr h1
  have a3 : s.min.val < s.max.val := h1.trans h2
  have a4 : ¬ s.max.val ≤ s.min.val := not_le.mpr a3
  have step : ∀ st : Y (Fl fl) × Fl fl, (s.propagateDelta E useH st (x - s.max)).1 = ((s.tr E (-(x - s.max)) useH).mul st.1.reverse).reverse := by
    intro st
    unfold PSec.propagateDelta
    simp only [hd, Fl.le_def, Fl.lt_def, Fl.zero_val, decide_eq_true_eq, h0, if_true, hc.not_gt, if_false]
  constructor
  · unfold PSec.propagate
    simp only [Fl.le_def, Fl.lt_def, a1, a2, a3, a4, h2, hd, decide_true, decide_false, Bool.and_false, Bool.or_self, Bool.not_false, if_true, lt_irrefl, Bool.false_eq_true, if_false, step, reduceCtorEq]
  · unfold PSec.propagate
    simp only [Fl.le_def, Fl.lt_def, a1, a2, a3, a4, h2, hd, decide_true, decide_false, Bool.and_false, Bool.false_and, Bool.or_self, Bool.not_false, if_true, lt_irrefl, Bool.false_eq_true, if_false, step, reduceCtorEq]

/-- A rounded matrix applied to a column. -/
theorem mul_round {w B : ℝ} (hA : Arith u mu w fl) (b1 : 1 ≤ B) {t : T (Fl fl)} {t' : T ℝ} (ht : RelM w 1 B t.t t'.t) (c : Y (Fl fl)) :
    sz (pr (valY (t.mul c)) - mapOf t'.t (pr (valY c))) ≤ 96 * B * w * (sz (pr (valY c)) + mu) := by
  obtain ⟨z, hz⟩ : ∃ z, z = sz (pr (valY c)) + mu := ⟨_, rfl⟩
  have n := sz_nonneg (pr (valY c))
  have mu0 := hA.mu0
  have z0 : 0 ≤ z := by linarith
  have p1 := le_sz1 (pr (valY c))
  have p2 := le_sz2 (pr (valY c))
  simp only [pr, valY] at p1 p2 hz
  have hyy : RelY w z 1 c (valY c) :=
    ⟨Rel.exact hA z0 zero_le_one (by rw [one_mul]; linarith), Rel.exact hA z0 zero_le_one (by rw [one_mul]; linarith)⟩
  have := mul_relY hA b1 (by linarith [sz_nonneg (pr (valY c)), (show sz (pr (valY c)) = sz (c.y.val, c.dy.val) from rfl)]) ht hyy
  have e : sz (pr (valY c)) + mu = z := hz.symm
  rw [e]
  exact (sz_le this.y.2 this.dy.2).trans (le_of_eq (by ring))

set_option maxHeartbeats 800000 in
/-- **Propagating inside a sector from one of its ends, in finite precision.** -/
theorem inside_fl (M : ℝ) (hM : 1 ≤ M) : ∃ C : ℝ, 1 ≤ C ∧ ∀ (fl : ℝ → ℝ) (H u mu σ τ : ℝ) (W : Sec ℝ → ℝ → ℝ) (dmin dmax eps : Fl fl) (l : List (Sec (Fl fl)))
    (eta : ℕ → Fl fl → ℕ → Fl fl) (vs : Sec (Fl fl) → ℕ → Fl fl) (th : Fl fl → Fl fl → Fl fl → Y (Fl fl) → Fl fl) (pru : Fl fl → Fl fl → Fl fl → Fl fl → Y (Fl fl) → Y (Fl fl) → Fl fl)
    (v0M E a x : Fl fl) (s : Sec (Fl fl)) (y dy : ℝ → ℝ),
    FlFit M H u mu σ τ (6 * M * H) W dmin dmax eps l eta vs → 0 ≤ σ → u + σ ≤ 1 / 8 → τ ≤ 1 → s ∈ l → |E.val| ≤ M → a = s.min ∨ a = s.max →
    s.min.val ≤ x.val → x.val ≤ s.max.val → SolvesOn (W (realSec s)) E.val s.min.val s.max.val y dy → ∀ c : Y (Fl fl),
    sz (pr (valY ((sectorGen eps eta th pru (vs s) v0M s).propagate E true c a x).1) - (y x.val, dy x.val)) ≤
      C * (sz (pr (valY c) - (y a.val, dy a.val)) + (H ^ 15 + τ + (u + σ) + eps.val) * (sz (y a.val, dy a.val) + mu)) := by
  obtain ⟨C1, hC1, edge⟩ := sector_fl M hM
  obtain ⟨C2, hC2, inner⟩ := tr_fl M hM
  have hB1 : (1 : ℝ) ≤ 31 * M + 1 := by linarith
  obtain ⟨A, hA'⟩ : ∃ A, A = 96 * bT (31 * M + 1) M := ⟨_, rfl⟩
  have hA0 : 0 ≤ A := by
    have := stepE_nonneg hM
    unfold stepE at this
    rw [hA']; linarith
  obtain ⟨X, hX⟩ : ∃ X, X = Real.exp (2 * M) := ⟨_, rfl⟩
  have X1 : 1 ≤ X := by rw [hX]; exact Real.one_le_exp (by linarith)
  obtain ⟨G, hG⟩ : ∃ G, G = X + 4 * (C1 + C2 + A) := ⟨_, rfl⟩
  have G1 : 1 ≤ G := by linarith
  have G0 : 0 ≤ G := by linarith
  refine ⟨G * G + G * X, by nlinarith, ?_⟩
  intro fl H u mu σ τ W dmin dmax eps l eta vs th pru v0M E a x s y dy hF hσ0 h8 hτ1 hs hE ha hx1 hx2 hy c
  have hA := hF.arith hσ0 h8 hs
  have S := hF.sec hM hσ0 h8 hτ1 hs
  have hm := List.mem_map_of_mem (f := realSec) hs
  have hlt : s.min.val < s.max.val := by have := S.h0; linarith
  obtain ⟨b1, -, -⟩ := bT_parts S hM
  have hsm := hF.fit.smooth (realSec s) hm
  have hτ0 : 0 ≤ τ := (hF.coeff s hs).nonneg
  have hnar : s.max.val - s.min.val ≤ H := hF.fit.narrow (realSec s) hm
  have hH1 := hF.fit.small
  have hH0 : 0 ≤ H := by have := S.h0; linarith
  have heps0 := hF.eps0
  have w0 := hA.w0
  have mu0 := hA.mu0
  have h15 : 0 ≤ H ^ 15 := pow_nonneg hH0 _
  have h15' : H ^ 15 ≤ 1 := pow_le_one₀ hH0 hH1
  obtain ⟨e, he⟩ : ∃ e, e = H ^ 15 + τ + (u + σ) + eps.val := ⟨_, rfl⟩
  have e0 : 0 ≤ e := by linarith
  have e4 : e ≤ 4 := by
    have k1 := hF.wide s hs
    have k2 := abs_le.mp S.hrel.2
    have k3 : 1 * (s.max.val - s.min.val) * (u + σ) ≤ 1 * (1 / 8) := mul_le_mul (by linarith [S.h1]) h8 w0 (by norm_num)
    have k4 := S.h1
    linarith [k2.2]
  rw [← he]
  have q := pot_bound hsm hE
  have cmin : cl s.min.val s.max.val s.min.val = s.min.val := cl_low le_rfl
  have cmax : cl s.min.val s.max.val s.max.val = s.max.val := cl_high hlt.le le_rfl
  -- a step between ends
  have fullB : ∀ (a' b' : Fl fl), (a' = s.min ∨ a' = s.max) → (b' = s.min ∨ b' = s.max) → ∀ c : Y (Fl fl),
      sz (pr (valY ((sectorGen eps eta th pru (vs s) v0M s).propagate E true c a' b').1) - (y b'.val, dy b'.val)) ≤
        G * sz (pr (valY c) - (y a'.val, dy a'.val)) + G * e * (sz (y a'.val, dy a'.val) + mu) := by
    intro a' b' ha' hb' c
    have ca : cl s.min.val s.max.val a'.val = a'.val := by rcases ha' with rfl | rfl <;> assumption
    have cb : cl s.min.val s.max.val b'.val = b'.val := by rcases hb' with rfl | rfl <;> assumption
    have k := edge fl H u mu σ τ W dmin dmax eps l eta vs th pru v0M E a' b' s true y dy hF hσ0 h8 hτ1 hs hE
      (by rcases ha' with rfl | rfl; exacts [.inl le_rfl, .inr le_rfl]) (by rcases hb' with rfl | rfl; exacts [.inl le_rfl, .inr le_rfl]) hy c
    rw [ca, cb] at k
    have D1 : |b'.val - a'.val| ≤ 1 := by
      rcases ha' with rfl | rfl <;> rcases hb' with rfl | rfl <;> rw [abs_le] <;> constructor <;> linarith
    obtain ⟨D, hD⟩ : ∃ D, D = |b'.val - a'.val| := ⟨_, rfl⟩
    rw [← hD] at k D1
    have D0 : 0 ≤ D := by rw [hD]; exact abs_nonneg _
    have x1 : Real.exp (2 * M * D) ≤ X := by rw [hX]; exact Real.exp_le_exp.mpr (by nlinarith)
    have h16 : H ^ ord true ≤ H ^ 15 := by
      show H ^ 16 ≤ H ^ 15
      exact pow_le_pow_of_le_one hH0 hH1 (by norm_num)
    have h160 : 0 ≤ H ^ ord true := pow_nonneg hH0 _
    have k1 : (H ^ ord true + τ) * D + (u + σ) ≤ e := by
      have : (H ^ ord true + τ) * D ≤ (H ^ ord true + τ) * 1 := mul_le_mul_of_nonneg_left D1 (by linarith)
      linarith
    have k2 : C1 * ((H ^ ord true + τ) * D + (u + σ)) ≤ C1 * e := mul_le_mul_of_nonneg_left k1 (by linarith)
    have C1e : C1 * e ≤ C1 * 4 := mul_le_mul_of_nonneg_left e4 (by linarith)
    refine k.trans (add_le_add (mul_le_mul_of_nonneg_right ?_ (sz_nonneg _)) (mul_le_mul_of_nonneg_right ?_ (by have := sz_nonneg (y a'.val, dy a'.val); linarith)))
    · linarith
    · exact k2.trans (mul_le_mul_of_nonneg_right (by linarith) e0)
  by_cases hin : s.min.val < x.val ∧ x.val < s.max.val
  swap
  · -- an end point
    have hb' : x = s.min ∨ x = s.max := by
      by_cases h1 : s.min.val < x.val
      · right
        have : ¬ x.val < s.max.val := fun h => hin ⟨h1, h⟩
        exact Fl.ext (le_antisymm hx2 (not_lt.mp this))
      · left; exact Fl.ext (le_antisymm (not_lt.mp h1) hx1)
    have k := fullB a x ha hb' c
    have GG : G ≤ G * G + G * X := by nlinarith
    have n1 := sz_nonneg (pr (valY c) - (y a.val, dy a.val))
    have n2 : 0 ≤ e * (sz (y a.val, dy a.val) + mu) := mul_nonneg e0 (by have := sz_nonneg (y a.val, dy a.val); linarith)
    have := mul_le_mul_of_nonneg_right GG (add_nonneg n1 n2)
    linarith only [k, this]
  obtain ⟨hi1, hi2⟩ := hin
  -- the inner step from the base of the sector
  obtain ⟨sF, hsF⟩ : ∃ sF, sF = sectorGen eps eta th pru (vs s) v0M s := ⟨_, rfl⟩
  have m1 : sF.min = s.min := by rw [hsF]; rfl
  have m2 : sF.max = s.max := by rw [hsF]; rfl
  have m3 : sF.dir = s.dir := by rw [hsF]; rfl
  have m4 : sF.h = s.max - s.min := by rw [hsF]; rfl
  have hsol := hy
  have xI : x.val ∈ Set.Icc s.min.val s.max.val := ⟨hx1, hx2⟩
  have main : ∃ base other : Fl fl, ∃ g : Y (Fl fl) → Y (Fl fl), (base = s.min ∨ base = s.max) ∧ (∀ a', a' = s.min ∨ a' = s.max → a' = base ∨ a' = other) ∧ (other = s.min ∨ other = s.max) ∧
      (∀ c, (sF.propagate E true c base x).1 = g c) ∧ (∀ c, (sF.propagate E true c other x).1 = g (sF.propagate E true c other base).1) ∧
      ∀ c, sz (pr (valY (g c)) - (y x.val, dy x.val)) ≤ G * sz (pr (valY c) - (y base.val, dy base.val)) + G * e * (sz (y base.val, dy base.val) + mu) := by
    have fin : ∀ (base : ℝ) (Sx : ℝ × ℝ → ℝ × ℝ) (g : Y (Fl fl) → Y (Fl fl)), base ∈ Set.Icc s.min.val s.max.val →
        Near (W (realSec s)) E.val s.min.val s.max.val Sx base x.val (C2 * ((s.max.val - s.min.val) ^ 15 + (s.max.val - s.min.val) * τ + (u + σ) + eps.val)) →
        (∀ c, sz (pr (valY (g c)) - Sx (pr (valY c))) ≤ A * (u + σ) * (sz (pr (valY c)) + mu)) →
        ∀ c, sz (pr (valY (g c)) - (y x.val, dy x.val)) ≤ G * sz (pr (valY c) - (y base, dy base)) + G * e * (sz (y base, dy base) + mu) := by
      intro base Sx g hb hN hp c
      have p15 : (s.max.val - s.min.val) ^ 15 ≤ H ^ 15 := pow_le_pow_left₀ (by linarith) hnar 15
      have p15' : 0 ≤ (s.max.val - s.min.val) ^ 15 := pow_nonneg (by linarith) _
      have pτ : (s.max.val - s.min.val) * τ ≤ τ := mul_le_of_le_one_left hτ0 S.h1
      have pτ' : 0 ≤ (s.max.val - s.min.val) * τ := mul_nonneg S.h0.le hτ0
      have i1 : C2 * ((s.max.val - s.min.val) ^ 15 + (s.max.val - s.min.val) * τ + (u + σ) + eps.val) ≤ C2 * e := mul_le_mul_of_nonneg_left (by linarith) (by linarith)
      have i2 : A * (u + σ) ≤ A * e := mul_le_mul_of_nonneg_left (by linarith) hA0
      have k := perturbed_step (K := 2 * M) (by linarith) mu0 (hN.mono i1) (mul_nonneg (by linarith) e0) (mul_nonneg hA0 w0) hsm.continuousOn q hb xI hsol (hp c)
      have D1 : |x.val - base| ≤ 1 := by
        have := S.h1
        rw [abs_le]; constructor <;> linarith [hb.1, hb.2]
      have x1 : Real.exp (2 * M * |x.val - base|) ≤ X := by rw [hX]; exact Real.exp_le_exp.mpr (by nlinarith [abs_nonneg (x.val - base)])
      have C2e : C2 * e ≤ C2 * 4 := mul_le_mul_of_nonneg_left e4 (by linarith)
      have Ae : A * e ≤ A * 4 := mul_le_mul_of_nonneg_left e4 hA0
      refine k.trans (add_le_add (mul_le_mul_of_nonneg_right ?_ (sz_nonneg _)) (mul_le_mul_of_nonneg_right ?_ (by have := sz_nonneg (y base, dy base); linarith)))
      · linarith
      · have : (C2 + A) * e ≤ G * e := mul_le_mul_of_nonneg_right (by linarith) e0
        linarith
    have hdir : s.dir ≠ .none := hF.fit.directed _ hm
    have ori := hF.coeff s hs
    rcases hd : s.dir with _ | _ | _
    · exact absurd hd hdir
    · -- forward
      have h0 : 0 ≤ (x - s.min).val := by
        show 0 ≤ fl (x.val - s.min.val)
        rw [← hA.fl0]; exact hA.r.mono (by linarith)
      have hc : (x - s.min).val ≤ (s.max - s.min).val := hA.r.mono (by linarith)
      have ip := propagate_inner_fwd (s := sF) (x := x) (by rw [m3]; exact hd) (by rw [m1]; exact hi1) (by rw [m2]; exact hi2) (by rw [m1]; exact h0) (by rw [m1, m4]; exact hc) E true
      rw [m1, m2] at ip
      have eo : oriented (W (realSec s)) (realSec s) = W (realSec s) := by
        unfold oriented; rw [if_neg]; simp [realSec, hd]
      rw [eo] at ori
      obtain ⟨t, ht, hN⟩ := inner fl u mu σ τ (6 * M * H) (31 * M + 1) eps E (s.max - s.min) (x - s.min) eta (vs s) (W (realSec s)) s.min.val s.max.val (x.val - s.min.val) S hσ0 hF.eta hτ1 heps0
        hsm ori hE (hF.argument hM hσ0 h8 hτ1 hs hE) (by linarith) (by linarith) rfl rfl
      rw [show s.min.val + (x.val - s.min.val) = x.val by ring] at hN
      refine ⟨s.min, s.max, fun c => (sF.tr E (x - s.min) true).mul c, .inl rfl, fun _ h => h, .inr rfl, fun c => (ip c).1, fun c => (ip c).2, ?_⟩
      refine fin s.min.val (mapOf t.t) _ ⟨le_rfl, hlt.le⟩ hN (fun c => ?_)
      have := mul_round hA b1 (t := sF.tr E (x - s.min) true) (t' := t) (by rw [hsF]; exact ht) c
      rw [← hA'] at this
      exact this
    · -- backward
      have hv : (-(x - s.max)).val = fl (s.max.val - x.val) := by
        show -fl (x.val - s.max.val) = _
        rw [← hA.r.neg, neg_sub]
      have h0 : 0 ≤ (-(x - s.max)).val := by
        rw [hv, ← hA.fl0]; exact hA.r.mono (by linarith)
      have hc : (-(x - s.max)).val ≤ (s.max - s.min).val := by
        rw [hv]; exact hA.r.mono (by linarith)
      have ip := propagate_inner_bwd (s := sF) (x := x) (by rw [m3]; exact hd) (by rw [m1]; exact hi1) (by rw [m2]; exact hi2) (by rw [m2]; exact h0) (by rw [m2, m4]; exact hc) E true
      rw [m1, m2] at ip
      have eo : oriented (W (realSec s)) (realSec s) = fun x => W (realSec s) (s.min.val + s.max.val - x) := by
        unfold oriented; rw [if_pos (by simp [realSec, hd])]; rfl
      rw [eo] at ori
      obtain ⟨t, ht, hN⟩ := inner fl u mu σ τ (6 * M * H) (31 * M + 1) eps E (s.max - s.min) (-(x - s.max)) eta (vs s) (fun x => W (realSec s) (s.min.val + s.max.val - x)) s.min.val s.max.val
        (s.max.val - x.val) S hσ0 hF.eta hτ1 heps0 hsm.reflect ori hE (hF.argument hM hσ0 h8 hτ1 hs hE) (by linarith) (by linarith) hv rfl
      have hN' := Near.mirror hN
      rw [show s.min.val + s.max.val - s.min.val = s.max.val by ring, show s.min.val + s.max.val - (s.min.val + (s.max.val - x.val)) = x.val by ring] at hN'
      refine ⟨s.max, s.min, fun c => ((sF.tr E (-(x - s.max)) true).mul c.reverse).reverse, .inr rfl, fun _ h => h.symm, .inl rfl, fun c => (ip c).1, fun c => (ip c).2, ?_⟩
      refine fin s.max.val (fun p => flipY (mapOf t.t (flipY p))) _ ⟨hlt.le, le_rfl⟩ hN' (fun c => ?_)
      have := mul_round hA b1 (t := sF.tr E (-(x - s.max)) true) (t' := t) (by rw [hsF]; exact ht) c.reverse
      rw [← hA'] at this
      have r1 : ∀ c : Y (Fl fl), pr (valY c.reverse) = flipY (pr (valY c)) := fun c => rfl
      rw [r1, sz_flipY] at this
      show sz (pr (valY (((sF.tr E (-(x - s.max)) true).mul c.reverse).reverse)) - flipY (mapOf t.t (flipY (pr (valY c))))) ≤ _
      rw [r1, flipY_sub, sz_flipY]
      exact this
  rw [← hsF]
  obtain ⟨base, other, g, hbase, hab, hoth, g1, g2, gB⟩ := main
  rcases hab a ha with h | h
  · rw [h, g1]
    have k := gB c
    have GG : G ≤ G * G + G * X := by nlinarith
    have n1 := sz_nonneg (pr (valY c) - (y base.val, dy base.val))
    have n2 : 0 ≤ e * (sz (y base.val, dy base.val) + mu) := mul_nonneg e0 (by have := sz_nonneg (y base.val, dy base.val); linarith)
    have := mul_le_mul_of_nonneg_right GG (add_nonneg n1 n2)
    linarith only [k, this]
  · rw [h, g2]
    have k := gB (sF.propagate E true c other base).1
    have k' := fullB other base hoth hbase c
    rw [← hsF] at k'
    have inI : ∀ z : Fl fl, z = s.min ∨ z = s.max → z.val ∈ Set.Icc s.min.val s.max.val := by
      rintro z (rfl | rfl)
      · exact ⟨le_rfl, hlt.le⟩
      · exact ⟨hlt.le, le_rfl⟩
    have f := flow_bound (K := 2 * M) (by linarith) q hsol (inI other hoth) (inI base hbase)
    have D1 : |base.val - other.val| ≤ 1 := by
      have := S.h1; have := inI other hoth; have := inI base hbase
      rw [abs_le]; constructor <;> linarith [(inI other hoth).1, (inI other hoth).2, (inI base hbase).1, (inI base hbase).2]
    have x1 : Real.exp (2 * M * |base.val - other.val|) ≤ X := by rw [hX]; exact Real.exp_le_exp.mpr (by nlinarith [abs_nonneg (base.val - other.val)])
    have s0 := sz_nonneg (y other.val, dy other.val)
    have f' : sz (y base.val, dy base.val) ≤ X * sz (y other.val, dy other.val) := f.trans (mul_le_mul_of_nonneg_right x1 s0)
    have p0 := sz_nonneg (pr (valY c) - (y other.val, dy other.val))
    have j1 := mul_le_mul_of_nonneg_left k' G0
    have j2 : G * e * (sz (y base.val, dy base.val) + mu) ≤ G * e * (X * (sz (y other.val, dy other.val) + mu)) := by
      refine mul_le_mul_of_nonneg_left ?_ (by positivity)
      have : mu ≤ X * mu := le_mul_of_one_le_left mu0 X1
      linarith
    have j3 : 0 ≤ G * X * sz (pr (valY c) - (y other.val, dy other.val)) := by positivity
    linarith only [k, j1, j2, j3]

end Verif.Fp
