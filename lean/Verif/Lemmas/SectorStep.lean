import Verif.Lemmas.Perturb
import Verif.Lemmas.TaylorLegendre
import Verif.Lemmas.Flow

/-!
# One step of a sector with sampled coefficients is near the solution flow
-/
namespace Verif.CalcT
open Verif.YT Verif.Formulas Verif.PL Verif.Legendre
open scoped BigOperators

/-- the matrix as a map -/
noncomputable def mapOf (m : M2 ℝ) : ℝ × ℝ → ℝ × ℝ := mv m.a m.b m.c m.d

theorem mapOf_eq (m : M2 ℝ) (u v : ℝ) : mapOf m (u, v) = m.mulVec u v := rfl

/-- the bound used for all coefficients -/
noncomputable def M1 (M : ℝ) : ℝ := 1100 * M

/-- What the steps need of a smooth potential. -/
theorem sampled {M τ : ℝ} (hM : 1 ≤ M) {v : ℕ → ℝ} {W : ℝ → ℝ} {a b E : ℝ} (hab : a < b) (h1 : b - a ≤ 1) (hW : SmoothOn M W a b)
    (hv : CoeffWithin τ W a b v) (hτ1 : τ ≤ 1) (hE : |E| ≤ M) :
    ∃ w : ℕ → ℝ, v 0 = w 0 ∧ (∀ k, 1 ≤ k → |w k| ≤ M1 M) ∧ |v 0 - E| ≤ M1 M ∧ |w 0 - E| ≤ M1 M ∧
      (∀ k, 1 ≤ k → |v k| * (b - a) ^ k ≤ M1 M) ∧ (∀ k, 1 ≤ k → |w k| * (b - a) ^ k ≤ M1 M) ∧
      (∀ k, 1 ≤ k → |v k - w k| * (b - a) ^ k ≤ tau M τ (b - a)) ∧
      (∀ x ∈ Set.Icc 0 (b - a), |W (a + x) - legendreSeries 16 w (b - a) x| ≤ M * (b - a) ^ 16 + tau M τ (b - a)) ∧
      (∀ x ∈ Set.Icc 0 (b - a), |W (a + x) - legendreSeries 14 w (b - a) x| ≤ 993 * M * (b - a) ^ 14 + tau M τ (b - a)) := by
  obtain ⟨w, w0, wbig, wb, wd, ws⟩ := coeff_near hab h1 hW hv
  have hM0 : 0 ≤ M := by linarith
  have m2 : 496 * M ≤ M1 M := by unfold M1; linarith
  have m3 : 33 * M ≤ M1 M := by unfold M1; linarith
  set h := b - a with hh
  have h0 : 0 < h := by linarith
  have hτ := tau_nonneg hM0 hv.nonneg h0.le
  have cb : ∀ k < 16, |v k * h ^ k| ≤ 32 * M := by
    intro k hk
    have e1 := hv.near k hk
    have e2 : |legendreCoeff W a b k - legendreCoeff (fun _ => 0) a b k| ≤ 31 * M :=
      legendreCoeff_sub_le hab hW.continuousOn continuousOn_const (fun x hx => by rw [sub_zero]; exact hW.bound hx) hk
    have e3 : legendreCoeff (fun _ => 0) a b k = 0 := by simp [legendreCoeff]
    rw [e3, sub_zero] at e2
    have e4 : v k * h ^ k = (v k * h ^ k - legendreCoeff W a b k) + legendreCoeff W a b k := by ring
    rw [e4]
    exact (abs_add_le _ _).trans (by linarith)
  have c0 : |v 0| ≤ 32 * M := by simpa using cb 0 (by norm_num)
  have v0 : v 0 = w 0 := w0.symm
  have e0 : |v 0 - E| ≤ M1 M := (abs_sub _ _).trans (by linarith)
  refine ⟨w, v0, fun k hk => (wb k hk).trans m2, e0, by rw [← v0]; exact e0, fun k hk => ?_, fun k hk => ?_, fun k hk => ?_, ws, fun x hx => ?_⟩
  · by_cases hk16 : k < 16
    · have := cb k hk16
      rw [abs_mul, abs_of_nonneg (by positivity : 0 ≤ h ^ k)] at this
      exact this.trans (by linarith)
    · rw [hv.zero k (by omega)]; simp; linarith
  · have hp : h ^ k ≤ 1 := pow_le_one₀ h0.le h1
    have hp0 : 0 ≤ h ^ k := by positivity
    have := (wb k hk).trans m2
    have := abs_nonneg (w k)
    nlinarith
  · by_cases hk16 : k < 16
    · exact wd k hk16
    · rw [wbig k (by omega), hv.zero k (by omega)]; simpa using hτ
  · have e1 := ws x hx
    have t0 : 0 ≤ x / h := div_nonneg hx.1 h0.le
    have t1 : x / h ≤ 1 := (div_le_one h0).mpr hx.2
    have e2 : legendreSeries 16 w h x = legendreSeries 14 w h x + w 14 * h ^ 14 * shiftedP 14 (x / h) + w 15 * h ^ 15 * shiftedP 15 (x / h) := by
      unfold legendreSeries
      rw [Finset.sum_range_succ _ 15, Finset.sum_range_succ _ 14]
    have hb : ∀ k, 1 ≤ k → 14 ≤ k → k < 16 → |w k * h ^ k * shiftedP k (x / h)| ≤ 496 * M * h ^ 14 := by
      intro k k1 k14 k16
      rw [abs_mul, abs_mul, abs_of_pos (by positivity : 0 < h ^ k)]
      have p1 := (C41_table k16 (x / h)).2.2.2 t0 t1
      have p2 : h ^ k ≤ h ^ 14 := pow_le_pow_of_le_one h0.le h1 k14
      calc |w k| * h ^ k * |shiftedP k (x / h)| ≤ (496 * M * h ^ 14) * 1 :=
            mul_le_mul (mul_le_mul (wb k k1) p2 (by positivity) (by positivity)) p1 (abs_nonneg _) (by positivity)
        _ = _ := by ring
    have b14 := hb 14 (by norm_num) (by norm_num) (by norm_num)
    have b15 := hb 15 (by norm_num) (by norm_num) (by norm_num)
    have e3 : W (a + x) - legendreSeries 14 w h x = (W (a + x) - legendreSeries 16 w h x) + w 14 * h ^ 14 * shiftedP 14 (x / h) +
      w 15 * h ^ 15 * shiftedP 15 (x / h) := by rw [e2]; ring
    rw [e3]
    have p3 : h ^ 16 ≤ h ^ 14 := pow_le_pow_of_le_one h0.le h1 (by norm_num)
    have p4 : M * h ^ 16 ≤ M * h ^ 14 := mul_le_mul_of_nonneg_left p3 hM0
    refine (abs_add_le _ _).trans ?_
    have := abs_add_le (W (a + x) - legendreSeries 16 w h x) (w 14 * h ^ 14 * shiftedP 14 (x / h))
    linarith

/-- The effect of a change of all entries by at most `c`. -/
theorem mapOf_change {m n : M2 ℝ} {c : ℝ} (h : ∀ p : Cp, |p.of m - p.of n| ≤ c) (u : ℝ × ℝ) :
    sz (mapOf m u - mapOf n u) ≤ 2 * c * sz u := by
  have ha := h .a; have hb := h .b; have hc := h .c; have hd := h .d
  simp only [Cp.of] at ha hb hc hd
  have c0 : 0 ≤ c := (abs_nonneg _).trans ha
  have lin : ∀ {p q : ℝ}, |p| ≤ c → |q| ≤ c → |p * u.1 + q * u.2| ≤ 2 * c * sz u := by
    intro p q hp hq
    refine (abs_add_le _ _).trans ?_
    rw [abs_mul, abs_mul]
    have := mul_le_mul hp (le_sz1 u) (abs_nonneg _) c0
    have := mul_le_mul hq (le_sz2 u) (abs_nonneg _) c0
    linarith
  refine sz_le ?_ ?_
  · have : (mapOf m u - mapOf n u).1 = (m.a - n.a) * u.1 + (m.b - n.b) * u.2 := by simp only [mapOf, mv, Prod.fst_sub]; ring
    rw [this]; exact lin ha hb
  · have : (mapOf m u - mapOf n u).2 = (m.c - n.c) * u.1 + (m.d - n.d) * u.2 := by simp only [mapOf, mv, Prod.snd_sub]; ring
    rw [this]; exact lin hc hd

theorem tau_le {M τ h : ℝ} (hM : 1 ≤ M) (hτ : 0 ≤ τ) (h0 : 0 ≤ h) : h * tau M τ h ≤ 31 * M * (h ^ 17 + h * τ) := by
  unfold tau
  have e : 31 * M * (h ^ 17 + h * τ) = h * (τ + 31 * M * h ^ 16) + (31 * M - 1) * (h * τ) := by ring
  rw [e]
  have : 0 ≤ (31 * M - 1) * (h * τ) := mul_nonneg (by linarith) (by positivity)
  linarith

theorem tau_bound {M τ h : ℝ} (hM : 1 ≤ M) (hτ : τ ≤ 1) (h0 : 0 ≤ h) (h1 : h ≤ 1) : tau M τ h ≤ 32 * M := by
  unfold tau
  have p : h ^ 16 ≤ 1 := pow_le_one₀ h0 h1
  have := mul_le_mul_of_nonneg_left p (show 0 ≤ 31 * M by linarith)
  linarith

theorem arith1 {P K t s e : ℝ} (hP : 0 ≤ P) (hK : 0 ≤ K) (he : 0 ≤ e) (ht : t ≤ K * s) : 2 * (P * t) ≤ 2 * P * K * (s + e) := by
  have h1 := mul_le_mul_of_nonneg_left ht hP
  have h2 := mul_nonneg (mul_nonneg hP hK) he
  nlinarith

/-- **Full step.** -/
theorem full_near (M : ℝ) (hM : 1 ≤ M) : ∃ C : ℝ, 0 ≤ C ∧ ∀ (σ τ : ℝ) (eta : ℕ → ℝ → ℕ → ℝ) (v : ℕ → ℝ) (W : ℝ → ℝ) (a b E : ℝ),
    EtaWithin σ eta → σ ≤ 1 → τ ≤ 1 → a < b → b - a ≤ 1 → SmoothOn M W a b → CoeffWithin τ W a b v → |E| ≤ M →
    Near W E a b (mapOf (calcH eta (mkSec (b - a) v) E).t) a b (C * ((b - a) ^ 17 + (b - a) * τ + σ)) := by
  have hM0 : 0 ≤ M := by linarith
  have m1 : 1 ≤ M1 M := by unfold M1; linarith
  obtain ⟨C, hC, key⟩ := C69_full_step (M1 M) m1
  have hp := pertH_nonneg (M1 M) (B := M1 M) (by linarith)
  refine ⟨C * (1 + 32 * M) + 2 * pertH (M1 M) (M1 M) * (31 * M), by positivity, ?_⟩
  intro σ τ eta v W a b E he hσ1 hτ1 hab h1 hW hv hE z dz hz
  have hσ0 := he.nonneg
  have hτ0 := hv.nonneg
  obtain ⟨w, v0, wM, vE, wE, vB, wB, vd, ws, -⟩ := sampled hM hab h1 hW hv hτ1 hE
  set h := b - a with hh
  have h0 : 0 < h := by linarith
  have hε : M * h ^ 16 + tau M τ h ≤ M1 M := by
    have := tau_bound hM hτ1 h0.le h1
    have p : h ^ 16 ≤ 1 := pow_le_one₀ h0.le h1
    have := mul_le_mul_of_nonneg_left p hM0
    unfold M1; linarith
  have k1 := key σ eta w h E (M * h ^ 16 + tau M τ h) (fun x => W (a + x)) (fun x => z (a + x)) (fun x => dz (a + x)) he wM h0 h1 wE hε ws hz.shift
  have k2 := mapOf_change (fun p => calcH_perturb he hσ1 m1 h0 h1 vB wB vd v0 vE p) (z a, dz a)
  have e1 : a + h = b := by rw [hh]; ring
  simp only [add_zero, e1] at k1
  have k3 : sz (mapOf (calcH eta (mkSec h w) E).t (z a, dz a) - (z b, dz b)) ≤
      C * (h ^ 19 + (M * h ^ 16 + tau M τ h) * h + σ) * sz (z a, dz a) := sz_le k1.1 k1.2
  refine (sz_tri _ _ _).trans ((add_le_add k2 k3).trans ?_)
  rw [← add_mul]
  refine mul_le_mul_of_nonneg_right ?_ (sz_nonneg _)
  have t := tau_le hM hτ0 h0.le
  have p19 : h ^ 19 ≤ h ^ 17 := pow_le_pow_of_le_one h0.le h1 (by norm_num)
  have q1 : 2 * (pertH (M1 M) (M1 M) * (h * tau M τ h)) ≤ 2 * pertH (M1 M) (M1 M) * (31 * M) * (h ^ 17 + h * τ + σ) :=
    arith1 hp (by positivity) hσ0 t
  have q2 : h ^ 19 + (M * h ^ 16 + tau M τ h) * h + σ ≤ (1 + 32 * M) * (h ^ 17 + h * τ + σ) := by
    have a1 : (M * h ^ 16 + tau M τ h) * h = M * h ^ 17 + h * tau M τ h := by ring
    rw [a1]
    have a2 : 0 ≤ M * (h * τ) := by positivity
    have a3 : 0 ≤ 32 * M * σ := by positivity
    have a4 : 0 ≤ h * τ := by positivity
    have a5 : (1 + 32 * M) * (h ^ 17 + h * τ + σ) = (h ^ 17 + h * τ + σ) + M * h ^ 17 + M * (h * τ) + 31 * M * (h ^ 17 + h * τ) + 32 * M * σ := by ring
    rw [a5]
    linarith only [a2, a3, a4, t, p19]
  have q3 := mul_le_mul_of_nonneg_left q2 hC
  linarith only [q1, q3]

/-- **Partial step**, away from the ends. -/
theorem delta_near (M : ℝ) (hM : 1 ≤ M) : ∃ C : ℝ, 0 ≤ C ∧ ∀ (σ τ : ℝ) (eta : ℕ → ℝ → ℕ → ℝ) (v : ℕ → ℝ) (W : ℝ → ℝ) (a b E δ : ℝ),
    EtaWithin σ eta → σ ≤ 1 → τ ≤ 1 → a < b → b - a ≤ 1 → SmoothOn M W a b → CoeffWithin τ W a b v → |E| ≤ M → 0 < δ → δ ≤ b - a →
    Near W E a b (mapOf (calcDelta eta (mkSec (b - a) v) E δ).t) a (a + δ) (C * ((b - a) ^ 15 + (b - a) * τ + σ)) := by
  have hM0 : 0 ≤ M := by linarith
  have m1 : 1 ≤ M1 M := by unfold M1; linarith
  obtain ⟨C, hC, key⟩ := C69_local_error (M1 M) m1
  have hp := pertD_nonneg (M1 M) (B := M1 M) (by linarith)
  refine ⟨C * (2 + 1024 * M) + 2 * pertD (M1 M) (M1 M) * (31 * M), by positivity, ?_⟩
  intro σ τ eta v W a b E δ he hσ1 hτ1 hab h1 hW hv hE hδ0 hδ1 z dz hz
  have hσ0 := he.nonneg
  have hτ0 := hv.nonneg
  obtain ⟨w, v0, wM, vE, wE, vB, wB, vd, -, ws⟩ := sampled hM hab h1 hW hv hτ1 hE
  set h := b - a with hh
  have h0 : 0 < h := by linarith
  have hδpos : 0 < δ := hδ0
  have hτ := tau_nonneg hM0 hτ0 h0.le
  have hε : 993 * M * h ^ 14 + tau M τ h ≤ M1 M := by
    have := tau_bound hM hτ1 h0.le h1
    have p : h ^ 14 ≤ 1 := pow_le_one₀ h0.le h1
    have := mul_le_mul_of_nonneg_left p (show 0 ≤ 993 * M by linarith)
    unfold M1; linarith
  have k1 := key σ eta w h E (993 * M * h ^ 14 + tau M τ h) (fun x => W (a + x)) (fun x => z (a + x)) (fun x => dz (a + x)) δ 0 he wM h0 h1 wE hε ws hz.shift le_rfl hδ0 hδ1
  have hcalc : calculateTWith 0 eta (mkSec h w) E δ false = calcDelta eta (mkSec h w) E δ := by
    unfold calculateTWith Eta.absK
    simp only [ccmp_lt, ccmp_le, ccmp_lit, hδpos.not_gt, decide_false, Bool.false_eq_true, if_false, Bool.false_and]
    rw [if_neg (by simpa using hδ0)]
  rw [hcalc] at k1
  have k2 := mapOf_change (fun p => calcDelta_perturb he hσ1 m1 h0 h1 ⟨hδpos.le, hδ1⟩ vB wB vd v0 vE p) (z a, dz a)
  simp only [add_zero] at k1
  have k3 : sz (mapOf (calcDelta eta (mkSec h w) E δ).t (z a, dz a) - (z (a + δ), dz (a + δ))) ≤
      C * (h ^ 15 * δ + (993 * M * h ^ 14 + tau M τ h) * δ + σ) * sz (z a, dz a) := sz_le k1.1 k1.2
  refine (sz_tri _ _ _).trans ((add_le_add k2 k3).trans ?_)
  rw [← add_mul]
  refine mul_le_mul_of_nonneg_right ?_ (sz_nonneg _)
  have t := tau_le hM hτ0 h0.le
  have p17 : h ^ 17 ≤ h ^ 15 := pow_le_pow_of_le_one h0.le h1 (by norm_num)
  have t' : h * tau M τ h ≤ 31 * M * (h ^ 15 + h * τ + σ) := t.trans (mul_le_mul_of_nonneg_left (by linarith) (by positivity))
  have q1 : 2 * (pertD (M1 M) (M1 M) * (h * tau M τ h)) ≤ 2 * pertD (M1 M) (M1 M) * (31 * M) * (h ^ 15 + h * τ + σ) := by
    have := arith1 (e := 0) hp (by positivity) le_rfl t'
    rwa [add_zero] at this
  have q2 : h ^ 15 * δ + (993 * M * h ^ 14 + tau M τ h) * δ + σ ≤ (2 + 1024 * M) * (h ^ 15 + h * τ + σ) := by
    have b1 : h ^ 15 * δ ≤ h ^ 15 := mul_le_of_le_one_right (by positivity) (hδ1.trans h1)
    have b2 : (993 * M * h ^ 14 + tau M τ h) * δ ≤ (993 * M * h ^ 14 + tau M τ h) * h := mul_le_mul_of_nonneg_left hδ1 (by positivity)
    have b3 : (993 * M * h ^ 14 + tau M τ h) * h = 993 * M * h ^ 15 + h * tau M τ h := by ring
    have b5 : 0 ≤ M * (h * τ + σ) := by positivity
    have b6 : 0 ≤ h ^ 15 := by positivity
    have b7 : (2 + 1024 * M) * (h ^ 15 + h * τ + σ) = 2 * h ^ 15 + 2 * (h * τ + σ) + 993 * M * h ^ 15 + 993 * (M * (h * τ + σ)) +
      31 * M * (h ^ 15 + h * τ + σ) := by ring
    rw [b7]
    have b8 : 0 ≤ h * τ := by positivity
    linarith only [b1, b2, b3, b5, b6, t', b8, hσ0]
  have q3 := mul_le_mul_of_nonneg_left q2 hC
  linarith only [q1, q3]

/-- A solution changes little over a short distance. -/
theorem short_near {V : ℝ → ℝ} {E a b K : ℝ} (hK : 1 ≤ K) (hq : ∀ x ∈ Set.Icc a b, |V x - E| ≤ K) (hb : b - a ≤ 1)
    {x x' : ℝ} (hx : x ∈ Set.Icc a b) (hx' : x' ∈ Set.Icc a b) : Near V E a b id x x' (K * Real.exp K * |x' - x|) := by
  intro z dz hz
  have hsub : Set.uIcc x x' ⊆ Set.Icc a b := Set.uIcc_subset_Icc hx hx'
  have hbd : ∀ t ∈ Set.uIcc x x', sz (z t, dz t) ≤ Real.exp K * sz (z x, dz x) := by
    intro t ht
    refine (flow_bound hK hq hz hx (hsub ht)).trans (mul_le_mul_of_nonneg_right (Real.exp_le_exp.mpr ?_) (sz_nonneg _))
    have : |t - x| ≤ 1 := by
      have h1 := hsub ht
      rw [abs_le]; constructor <;> linarith [h1.1, h1.2, hx.1, hx.2]
    nlinarith
  have hS := sz_nonneg (z x, dz x)
  have he := Real.exp_pos K
  have c1 := (convex_uIcc x x').norm_image_sub_le_of_norm_hasDerivWithin_le (f := z) (f' := dz) (C := K * Real.exp K * sz (z x, dz x)) (x := x) (y := x')
    (fun t ht => (hz.d1 t (hsub ht)).mono hsub)
    (fun t ht => by
      rw [Real.norm_eq_abs]
      have h1 := (le_sz2 (z t, dz t)).trans (hbd t ht)
      have h2 : 0 ≤ Real.exp K * sz (z x, dz x) := by positivity
      simp only at h1
      nlinarith)
    Set.left_mem_uIcc Set.right_mem_uIcc
  have c2 := (convex_uIcc x x').norm_image_sub_le_of_norm_hasDerivWithin_le (f := dz) (f' := fun t => (V t - E) * z t) (C := K * Real.exp K * sz (z x, dz x)) (x := x) (y := x')
    (fun t ht => (hz.d2 t (hsub ht)).mono hsub)
    (fun t ht => by
      rw [Real.norm_eq_abs, abs_mul, mul_assoc]
      exact mul_le_mul (hq t (hsub ht)) ((le_sz1 (z t, dz t)).trans (hbd t ht)) (abs_nonneg _) (by linarith))
    Set.left_mem_uIcc Set.right_mem_uIcc
  simp only [Real.norm_eq_abs] at c1 c2
  have e : K * Real.exp K * |x' - x| * sz (z x, dz x) = K * Real.exp K * sz (z x, dz x) * |x' - x| := by ring
  rw [sz_sub_comm, e]
  exact sz_le c1 c2

end Verif.CalcT
