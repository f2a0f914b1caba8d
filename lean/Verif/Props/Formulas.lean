import Verif.Lemmas.ExtFacts
import Verif.Lemmas.Legendre
import Verif.Props.Eta
import Verif.Spec.Accuracy
import Mathlib.Algebra.BigOperators.Field

/-!
# The transfer matrices of a sector solve the differential equation: C69 (and C53)

`y'' = (V - E) y` on a sector of width `h`, where `V` is the Legendre series with the coefficients the
sector stores.
-/
namespace Verif.CalcT
open Verif.YT Verif.Formulas Verif.PL Verif.Legendre
open scoped BigOperators

/-- The η values the code computes. `junk` is the uninitialised array (see `Model/Eta`). -/
noncomputable def etaCode (junk : ℕ → ℝ) : ℕ → ℝ → ℕ → ℝ := fun n Z => Eta.calculateEta Eta.elemReal n junk Z
/-- The exact η values. -/
noncomputable def etaExact : ℕ → ℝ → ℕ → ℝ := fun _ Z i => Eta.eta i Z

/-- the accuracy of the code's η functions -/
theorem etaWithin_code (junk : ℕ → ℝ) : EtaWithin (1 / 10 ^ 33) (etaCode junk) := fun n hn Z i hi => Eta.C80_absolute n hn junk Z i hi
theorem etaWithin_exact : EtaWithin 0 etaExact := fun n _ Z i _ => by simp [etaExact]

theorem D_pos : (0 : ℝ) < D := by unfold D; norm_num
theorem D_ge : (1 : ℝ) ≤ D := by unfold D; norm_num

theorem exact_of (p : Cp) {h : ℝ} (hh : h ≠ 0) (v : ℕ → ℝ) (E δ : ℝ) :
    p.of (calcDelta etaExact (mkSec h v) E δ).t =
      (match p with
        | .c => Wf 9 1 (rp Entry4.c) v h (v 0 - E) δ
        | p => Uf 9 (rp p.sel) v h (v 0 - E) δ) / D := by
  have hD := D_pos.ne'
  have e : ∀ i, etaExact 9 ((v 0 - E) * (δ * δ)) i = Eta.eta i ((v 0 - E) * δ ^ 2) := fun i => by rw [etaExact, ← sq]
  rw [calcDelta_of p _ hh]
  simp only [e]
  cases p
  · simp only [Uf, Finset.sum_div, zero_add]; exact Finset.sum_congr rfl (fun i _ => by ring)
  · simp only [Uf, Finset.sum_div, zero_add]; exact Finset.sum_congr rfl (fun i _ => by ring)
  · simp only [Wf, Uf, add_div, Finset.sum_div]
    congr 1
    · push_cast; field_simp
    · exact Finset.sum_congr rfl (fun i _ => by simp only [Cp.sel]; ring)
  · simp only [Uf, Finset.sum_div, zero_add]; exact Finset.sum_congr rfl (fun i _ => by ring)

/-- **C69, residual form.** The first row of the partial-step matrix solves the differential equation up to
the truncation order, and the second row is its derivative: with the exact η functions, uniformly for
`|v_k| ≤ M` (`k ≥ 1`), `|v_0 - E| ≤ M` and `0 ≤ δ ≤ h ≤ 1`,
`|∂(row 1)/∂δ - row 2| ≤ C h^16` and `|∂(row 2)/∂δ - (V(δ) - E) row 1| ≤ C h^15`. -/
theorem C69_residual (M : ℝ) (hM : 1 ≤ M) : ∃ C : ℝ, ∀ (v : ℕ → ℝ) (h E δ : ℝ), (∀ k, 1 ≤ k → |v k| ≤ M) → 0 < h → h ≤ 1 →
    |v 0 - E| ≤ M → 0 ≤ δ → δ ≤ h → ∃ A : M2 ℝ,
      HasDerivAt (fun δ => (calcDelta etaExact (mkSec h v) E δ).t.a) A.a δ ∧
      HasDerivAt (fun δ => (calcDelta etaExact (mkSec h v) E δ).t.b) A.b δ ∧
      HasDerivAt (fun δ => (calcDelta etaExact (mkSec h v) E δ).t.c) A.c δ ∧
      HasDerivAt (fun δ => (calcDelta etaExact (mkSec h v) E δ).t.d) A.d δ ∧
      |A.a - (calcDelta etaExact (mkSec h v) E δ).t.c| ≤ C * h ^ 16 ∧
      |A.b - (calcDelta etaExact (mkSec h v) E δ).t.d| ≤ C * h ^ 16 ∧
      |A.c - (legendreSeries 14 v h δ - E) * (calcDelta etaExact (mkSec h v) E δ).t.a| ≤ C * h ^ 15 ∧
      |A.d - (legendreSeries 14 v h δ - E) * (calcDelta etaExact (mkSec h v) E δ).t.b| ≤ C * h ^ 15 := by
  refine ⟨B1 17 9 (rp Entry4.a) (rp Entry4.c) M + B1 17 9 (rp Entry4.b) (rp Entry4.d) M +
    B2 13 17 9 (rp Entry4.a) (rp Entry4.c) M + B2 13 17 9 (rp Entry4.b) (rp Entry4.d) M, ?_⟩
  intro v h E δ hv h0 h1 hE d0 d1
  have hM0 : 0 ≤ M := by linarith
  have hD := D_pos
  have p1 := B1_nonneg (N := 17) (n := 9) (a := rp Entry4.a) (c := rp Entry4.c) hM0
  have p2 := B1_nonneg (N := 17) (n := 9) (a := rp Entry4.b) (c := rp Entry4.d) hM0
  have p3 := B2_nonneg (nV := 13) (N := 17) (n := 9) (a := rp Entry4.a) (c := rp Entry4.c) hM0
  have p4 := B2_nonneg (nV := 13) (N := 17) (n := 9) (a := rp Entry4.b) (c := rp Entry4.d) hM0
  set Z0 := v 0 - E with hZ0
  have ea : ∀ δ, (calcDelta etaExact (mkSec h v) E δ).t.a = Uf 9 (rp Entry4.a) v h Z0 δ / D := exact_of .a h0.ne' v E
  have eb : ∀ δ, (calcDelta etaExact (mkSec h v) E δ).t.b = Uf 9 (rp Entry4.b) v h Z0 δ / D := exact_of .b h0.ne' v E
  have ec : ∀ δ, (calcDelta etaExact (mkSec h v) E δ).t.c = Wf 9 1 (rp Entry4.c) v h Z0 δ / D := exact_of .c h0.ne' v E
  have ed : ∀ δ, (calcDelta etaExact (mkSec h v) E δ).t.d = Wf 9 0 (rp Entry4.d) v h Z0 δ / D := by
    intro δ; rw [show (calcDelta etaExact (mkSec h v) E δ).t.d = _ from exact_of .d h0.ne' v E δ]; simp [Wf, Cp.sel]; rfl
  have hδ : δ ∈ Set.Icc 0 h := ⟨d0, d1⟩
  have b1 := bound1 cert_ac (by norm_num) hM hv h0 h1 hE hδ
  have b2 := bound1 cert_bd (by norm_num) hM hv h0 h1 hE hδ
  have b3 := bound2 cert_ac (by norm_num) hM hv h0 h1 hE hδ
  have b4 := bound2 cert_bd (by norm_num) hM hv h0 h1 hE hδ
  have small : ∀ {x c C : ℝ}, |x| ≤ c → c ≤ C → |x / D| ≤ C := by
    intro x c C hx hc
    rw [abs_div, abs_of_pos hD, div_le_iff₀ hD]
    have := D_ge
    have h3 : 0 ≤ C := (abs_nonneg _).trans (hx.trans hc)
    nlinarith
  refine ⟨⟨Ud 9 (rp Entry4.a) v h Z0 δ / D, Ud 9 (rp Entry4.b) v h Z0 δ / D, Wd 9 1 (rp Entry4.c) v h Z0 δ / D,
    Wd 9 0 (rp Entry4.d) v h Z0 δ / D⟩, ?_, ?_, ?_, ?_, ?_, ?_, ?_, ?_⟩
  · simp only [ea]; exact (hasDerivAt_Uf v h Z0 δ).div_const _
  · simp only [eb]; exact (hasDerivAt_Uf v h Z0 δ).div_const _
  · simp only [ec]; exact (hasDerivAt_Wf v h Z0 δ).div_const _
  · simp only [ed]; exact (hasDerivAt_Wf v h Z0 δ).div_const _
  · rw [ec, ← sub_div]
    exact small b1 (mul_le_mul_of_nonneg_right (by linarith) (by positivity))
  · rw [ed, ← sub_div]
    exact small b2 (mul_le_mul_of_nonneg_right (by linarith) (by positivity))
  · rw [ea, ← dV_eq 13 (by norm_num), show v 0 + dV 13 v h δ - E = Z0 + dV 13 v h δ by rw [hZ0]; ring, ← mul_div_assoc, ← sub_div]
    exact small b3 (mul_le_mul_of_nonneg_right (by linarith) (by positivity))
  · rw [eb, ← dV_eq 13 (by norm_num), show v 0 + dV 13 v h δ - E = Z0 + dV 13 v h δ by rw [hZ0]; ring, ← mul_div_assoc, ← sub_div]
    exact small b4 (mul_le_mul_of_nonneg_right (by linarith) (by positivity))

/-- constant of the difference between the computed and the exact η values -/
noncomputable def etaC (M : ℝ) : ℝ :=
  M + BU 9 (rp Entry4.a) M + BU 9 (rp Entry4.b) M + BU 9 (rp Entry4.c) M + BU 9 (rp Entry4.d) M

theorem eta_effect {σ : ℝ} {eta : ℕ → ℝ → ℕ → ℝ} (he : EtaWithin σ eta) {M : ℝ} (hM : 1 ≤ M) {v : ℕ → ℝ} (hv : ∀ k, 1 ≤ k → |v k| ≤ M) {h E δ : ℝ} (h0 : 0 < h)
    (h1 : h ≤ 1) (hE : |v 0 - E| ≤ M) (hδ : δ ∈ Set.Icc 0 h) (p : Cp) :
    |p.of (calcDelta eta (mkSec h v) E δ).t - p.of (calcDelta etaExact (mkSec h v) E δ).t| ≤ etaC M * σ := by
  have hM0 : 0 ≤ M := by linarith
  have hσ := he.nonneg
  set Z := (v 0 - E) * (δ * δ) with hZ
  have hacc : ∀ i < 9, |eta 9 Z i - etaExact 9 Z i| ≤ σ :=
    fun i hi => he 9 (by norm_num) Z i hi
  rw [calcDelta_of p _ h0.ne', calcDelta_of p _ h0.ne']
  have hg : ∀ i, Good 0 (rp p.sel i) := by
    intro i
    cases p
    · exact cert2.a0 i
    · exact cert2.b0 i
    · exact (good_row i).2.2.1.weaken
    · rcases (good_row i).2.2.2 with rfl | h
      · simp only [Cp.sel]; rw [rp_d0]; exact good_spec (by decide)
      · exact h.weaken
  have hb : ∀ i ∈ Finset.range 9, |eval v h (δ / h) (rp p.sel i) / D * eta 9 Z i - eval v h (δ / h) (rp p.sel i) / D * etaExact 9 Z i| ≤
      bnd M (rp p.sel i) * Real.exp M * σ := by
    intro i hi
    rw [← mul_sub, abs_mul]
    refine mul_le_mul ?_ (hacc i (Finset.mem_range.mp hi)) (abs_nonneg _) (mul_nonneg (bnd_nonneg hM0 _) (Real.exp_pos _).le)
    rw [abs_div, abs_of_pos D_pos]
    have e1 := eval_bound0 (hg i) hM hv h0 h1 hδ
    have e2 : |eval v h (δ / h) (rp p.sel i)| / D ≤ |eval v h (δ / h) (rp p.sel i)| := div_le_self (abs_nonneg _) D_ge
    have e3 : 1 ≤ Real.exp M := by have := Real.add_one_le_exp M; linarith
    have e4 := bnd_nonneg hM0 (rp p.sel i)
    nlinarith
  have hsum : |∑ i ∈ Finset.range 9, eval v h (δ / h) (rp p.sel i) / D * eta 9 Z i -
      ∑ i ∈ Finset.range 9, eval v h (δ / h) (rp p.sel i) / D * etaExact 9 Z i| ≤ BU 9 (rp p.sel) M * σ := by
    rw [← Finset.sum_sub_distrib, BU, Finset.sum_mul]
    exact (Finset.abs_sum_le_sum_abs _ _).trans (Finset.sum_le_sum hb)
  have h3 : ∀ sel, 0 ≤ BU 9 (rp sel) M := fun sel => BU_nonneg hM0
  have hone : |(v 0 - E) * δ * eta 9 Z 1 - (v 0 - E) * δ * etaExact 9 Z 1| ≤ M * σ := by
    rw [← mul_sub, abs_mul]
    refine mul_le_mul ?_ (hacc 1 (by norm_num)) (abs_nonneg _) hM0
    rw [abs_mul, abs_of_nonneg hδ.1]
    have := hδ.2.trans h1
    have := abs_nonneg (v 0 - E)
    have := hδ.1
    nlinarith
  have hC : BU 9 (rp p.sel) M * σ + M * σ ≤ etaC M * σ := by
    have := h3 Entry4.a; have := h3 Entry4.b; have := h3 Entry4.c; have := h3 Entry4.d
    unfold etaC
    rw [← add_mul]
    refine mul_le_mul_of_nonneg_right ?_ hσ
    cases p <;> simp only [Cp.sel] <;> linarith
  have hpos : 0 ≤ M * σ := by positivity
  cases p
  case c =>
    refine le_trans ?_ hC
    rw [add_sub_add_comm, add_comm]
    exact (abs_add_le _ _).trans (add_le_add hsum hone)
  all_goals
    simp only [zero_add]
    linarith [hsum]

/-- **C69.** One partial step of the sector's transfer matrix reproduces every solution: for every bound `M`
there is a constant `C` such that for all η functions accurate to `σ` (the code's: `σ = 10⁻³³`, `etaWithin_code`; `C` does not
depend on `σ`), all potential coefficients with `|v_k| ≤ M` (`k ≥ 1`), all energies
with `|v_0 - E| ≤ M`, all widths `0 < h ≤ 1`, every continuous or discontinuous potential `V` within `ε ≤ M`
of the Legendre series `Σ_{k ≤ 13} v_k h^k P_k(x/h)` and every solution `y` of `y'' = (V - E) y` on `[0, h]`,
the matrix that `calculateT(E, δ)` computes, for every threshold `eps < δ` below which a step is skipped (the code's: `EPS`), maps `(y(0), y'(0))` to `(y(δ), y'(δ))` up to
`C (h^15 δ + ε δ + σ)` times the size of the initial values. -/
theorem C69_local_error (M : ℝ) (hM : 1 ≤ M) : ∃ C : ℝ, 0 ≤ C ∧ ∀ (σ : ℝ) (eta : ℕ → ℝ → ℕ → ℝ) (v : ℕ → ℝ) (h E ε : ℝ) (V y dy : ℝ → ℝ) (δ eps : ℝ),
    EtaWithin σ eta → (∀ k, 1 ≤ k → |v k| ≤ M) → 0 < h → h ≤ 1 → |v 0 - E| ≤ M → ε ≤ M →
    (∀ x ∈ Set.Icc 0 h, |V x - legendreSeries 14 v h x| ≤ ε) → SolvesOn V E 0 h y dy → 0 ≤ eps → eps < δ → δ ≤ h →
    |((calculateTWith eps eta (mkSec h v) E δ false).t.mulVec (y 0) (dy 0)).1 - y δ| ≤
      C * (h ^ 15 * δ + ε * δ + σ) * max |y 0| |dy 0| ∧
    |((calculateTWith eps eta (mkSec h v) E δ false).t.mulVec (y 0) (dy 0)).2 - dy δ| ≤
      C * (h ^ 15 * δ + ε * δ + σ) * max |y 0| |dy 0| := by
  have hM0 : 0 ≤ M := by linarith
  have hL := locC_nonneg 13 17 9 (rp Entry4.a) (rp Entry4.b) (rp Entry4.c) (rp Entry4.d) hM0
  have hB : ∀ sel, 0 ≤ BU 9 (rp sel) M := fun sel => BU_nonneg hM0
  have hetaC : 0 ≤ etaC M := by
    unfold etaC
    have := hB Entry4.a; have := hB Entry4.b; have := hB Entry4.c; have := hB Entry4.d
    linarith
  refine ⟨locC 13 17 9 (rp Entry4.a) (rp Entry4.b) (rp Entry4.c) (rp Entry4.d) M + 2 * etaC M, by linarith, ?_⟩
  intro σ eta v h E ε V y dy δ eps he hv h0 h1 hE hε hV hs hEPS hδ0 hδ1
  have hδpos : 0 < δ := hEPS.trans_lt hδ0
  have hδ : δ ∈ Set.Icc 0 h := ⟨hδpos.le, hδ1⟩
  have hσ := he.nonneg
  have hε0 : 0 ≤ ε := (abs_nonneg _).trans (hV 0 ⟨le_rfl, h0.le⟩)
  have hcalc : calculateTWith eps eta (mkSec h v) E δ false = calcDelta eta (mkSec h v) E δ := by
    unfold calculateTWith Eta.absK
    simp only [ccmp_lt, ccmp_le, ccmp_lit, hδpos.not_gt, decide_false, Bool.false_eq_true, if_false, Bool.false_and]
    rw [if_neg (by simpa using hδ0)]
  rw [hcalc]
  have key := local_error cert2 (by norm_num) hM hv h0 h1 hE hε
    (fun x hx => by rw [dV_eq 13 (by norm_num)]; exact hV x hx) hs hδ
  set Y := max |y 0| |dy 0| with hY
  have hY0 : 0 ≤ Y := le_max_of_le_left (abs_nonneg _)
  set L := locC 13 17 9 (rp Entry4.a) (rp Entry4.b) (rp Entry4.c) (rp Entry4.d) M with hLdef
  have ea : (calcDelta etaExact (mkSec h v) E δ).t.a = Uf 9 (rp Entry4.a) v h (v 0 - E) δ / D := exact_of .a h0.ne' v E δ
  have eb : (calcDelta etaExact (mkSec h v) E δ).t.b = Uf 9 (rp Entry4.b) v h (v 0 - E) δ / D := exact_of .b h0.ne' v E δ
  have ec : (calcDelta etaExact (mkSec h v) E δ).t.c = Wf 9 1 (rp Entry4.c) v h (v 0 - E) δ / D := exact_of .c h0.ne' v E δ
  have ed : (calcDelta etaExact (mkSec h v) E δ).t.d = Wf 9 0 (rp Entry4.d) v h (v 0 - E) δ / D := by
    rw [show (calcDelta etaExact (mkSec h v) E δ).t.d = _ from exact_of .d h0.ne' v E δ]; simp [Wf, Cp.sel]
  have fa := eta_effect he hM hv h0 h1 hE hδ .a
  have fb := eta_effect he hM hv h0 h1 hE hδ .b
  have fc := eta_effect he hM hv h0 h1 hE hδ .c
  have fd := eta_effect he hM hv h0 h1 hE hδ .d
  simp only [Cp.of] at fa fb fc fd
  rw [ea] at fa; rw [eb] at fb; rw [ec] at fc; rw [ed] at fd
  have comb : ∀ {A B A' B' z : ℝ}, |A - A' / D| ≤ etaC M * σ → |B - B' / D| ≤ etaC M * σ →
      |(A' * y 0 + B' * dy 0) / D - z| ≤ L * (h ^ (17 - 2) + ε) * δ * Y →
      |A * y 0 + B * dy 0 - z| ≤ (L + 2 * etaC M) * (h ^ 15 * δ + ε * δ + σ) * Y := by
    intro A B A' B' z hA hB hz
    have e1 : A * y 0 + B * dy 0 - z = ((A' * y 0 + B' * dy 0) / D - z) + ((A - A' / D) * y 0 + (B - B' / D) * dy 0) := by
      ring
    rw [e1]
    refine (abs_add_le _ _).trans ?_
    have e2 := abs_add_le ((A - A' / D) * y 0) ((B - B' / D) * dy 0)
    rw [abs_mul, abs_mul] at e2
    have q0 : 0 ≤ etaC M * σ := by positivity
    have e3 := mul_le_mul hA (le_max_left |y 0| |dy 0|) (abs_nonneg _) q0
    have e4 := mul_le_mul hB (le_max_right |y 0| |dy 0|) (abs_nonneg _) q0
    rw [← hY] at e3 e4
    have q1 : 0 ≤ L * σ * Y := by positivity
    have q2 : 0 ≤ 2 * etaC M * (h ^ 15 * δ + ε * δ) * Y := by positivity
    have q3 : (L + 2 * etaC M) * (h ^ 15 * δ + ε * δ + σ) * Y =
      L * (h ^ (17 - 2) + ε) * δ * Y + 2 * (etaC M * σ * Y) + L * σ * Y + 2 * etaC M * (h ^ 15 * δ + ε * δ) * Y := by
      ring
    rw [q3]
    linarith
  exact ⟨comb fa fb key.1, comb fc fd key.2⟩

/-! ### The full step -/

/-- constant for the difference between the computed and the exact η values in a full step -/
noncomputable def etaCH (M : ℝ) : ℝ :=
  M + (∑ i ∈ Finset.range 10, bnd M (hp Entry4.a i)) + (∑ i ∈ Finset.range 10, bnd M (hp Entry4.b i)) +
    (∑ i ∈ Finset.range 10, bnd M (hp Entry4.c i)) + (∑ i ∈ Finset.range 10, bnd M (hp Entry4.d i))

theorem hp_sum_nonneg {M : ℝ} (hM : 0 ≤ M) (sel : Entry4 → Entry) : 0 ≤ ∑ i ∈ Finset.range 10, bnd M (hp sel i) :=
  Finset.sum_nonneg (fun _ _ => bnd_nonneg hM _)

theorem etaCH_nonneg {M : ℝ} (hM : 0 ≤ M) : 0 ≤ etaCH M := by
  unfold etaCH
  have := hp_sum_nonneg hM Entry4.a; have := hp_sum_nonneg hM Entry4.b
  have := hp_sum_nonneg hM Entry4.c; have := hp_sum_nonneg hM Entry4.d
  linarith

theorem hp_bound (p : Cp) (i : ℕ) {M : ℝ} (hM : 1 ≤ M) {v : ℕ → ℝ} (hv : ∀ k, 1 ≤ k → |v k| ≤ M) {h : ℝ} (h0 : 0 < h)
    (h1 : h ≤ 1) : |eval v h 1 (hp p.sel i)| ≤ bnd M (hp p.sel i) := by
  have := eval_bound hM hv h0.le h1 zero_le_one le_rfl (N := 0) (p := 0) (hp p.sel i) (fun _ _ => by omega) (hp_good p i)
  simpa using this

theorem eta_effectH {σ : ℝ} {eta : ℕ → ℝ → ℕ → ℝ} (he : EtaWithin σ eta) {M : ℝ} (hM : 1 ≤ M) {v : ℕ → ℝ} (hv : ∀ k, 1 ≤ k → |v k| ≤ M) {h E : ℝ} (h0 : 0 < h)
    (h1 : h ≤ 1) (hE : |v 0 - E| ≤ M) (p : Cp) :
    |p.of (calcH eta (mkSec h v) E).t - p.of (calcH etaExact (mkSec h v) E).t| ≤ etaCH M * σ := by
  have hM0 : 0 ≤ M := by linarith
  have hσ := he.nonneg
  set Z := (v 0 - E) * (h * h) with hZ
  have hacc : ∀ i < 10, |eta 10 Z i - etaExact 10 Z i| ≤ σ :=
    fun i hi => he 10 (by norm_num) Z i hi
  rw [calcH_of p, calcH_of p]
  have hb : ∀ i ∈ Finset.range 10, |eval v h 1 (hp p.sel i) / D * eta 10 Z i - eval v h 1 (hp p.sel i) / D * etaExact 10 Z i| ≤
      bnd M (hp p.sel i) * σ := by
    intro i hi
    rw [← mul_sub, abs_mul]
    refine mul_le_mul ?_ (hacc i (Finset.mem_range.mp hi)) (abs_nonneg _) (bnd_nonneg hM0 _)
    rw [abs_div, abs_of_pos D_pos]
    exact (div_le_self (abs_nonneg _) D_ge).trans (hp_bound p i hM hv h0 h1)
  have hsum : |∑ i ∈ Finset.range 10, eval v h 1 (hp p.sel i) / D * eta 10 Z i -
      ∑ i ∈ Finset.range 10, eval v h 1 (hp p.sel i) / D * etaExact 10 Z i| ≤
      (∑ i ∈ Finset.range 10, bnd M (hp p.sel i)) * σ := by
    rw [← Finset.sum_sub_distrib, Finset.sum_mul]
    exact (Finset.abs_sum_le_sum_abs _ _).trans (Finset.sum_le_sum hb)
  have hone : |(v 0 - E) * h * eta 10 Z 1 - (v 0 - E) * h * etaExact 10 Z 1| ≤ M * σ := by
    rw [← mul_sub, abs_mul]
    refine mul_le_mul ?_ (hacc 1 (by norm_num)) (abs_nonneg _) hM0
    rw [abs_mul, abs_of_pos h0]
    have := abs_nonneg (v 0 - E)
    nlinarith
  have hC : (∑ i ∈ Finset.range 10, bnd M (hp p.sel i)) * σ + M * σ ≤ etaCH M * σ := by
    have := hp_sum_nonneg hM0 Entry4.a; have := hp_sum_nonneg hM0 Entry4.b
    have := hp_sum_nonneg hM0 Entry4.c; have := hp_sum_nonneg hM0 Entry4.d
    unfold etaCH
    rw [← add_mul]
    refine mul_le_mul_of_nonneg_right ?_ hσ
    cases p <;> simp only [Cp.sel] <;> linarith
  have hpos : 0 ≤ M * σ := by positivity
  cases p
  case c =>
    refine le_trans ?_ hC
    rw [add_sub_add_comm, add_comm]
    exact (abs_add_le _ _).trans (add_le_add hsum hone)
  all_goals
    simp only [zero_add]
    linarith [hsum]

theorem exactH_close (p : Cp) {M : ℝ} (hM : 1 ≤ M) {v : ℕ → ℝ} (hv : ∀ k, 1 ≤ k → |v k| ≤ M) {h E : ℝ} (h0 : 0 < h)
    (h1 : h ≤ 1) (hE : |v 0 - E| ≤ M) :
    |p.of (calcH etaExact (mkSec h v) E).t -
      (match p with
        | .c => Wf 11 1 (ex extC) v h (v 0 - E) h
        | p => Uf 11 (ex (extT p)) v h (v 0 - E) h) / D| ≤ BH p M * h ^ 19 := by
  have hD := D_pos.ne'
  have hM0 : 0 ≤ M := by linarith
  have e : ∀ i, etaExact 10 ((v 0 - E) * (h * h)) i = Eta.eta i ((v 0 - E) * h ^ 2) := fun i => by rw [etaExact, ← sq]
  rw [calcH_of p]
  simp only [e]
  have key := tH_close p hM hv h0 h1 hE
  have e1 : ∑ i ∈ Finset.range 10, eval v h 1 (hp p.sel i) / D * Eta.eta i ((v 0 - E) * h ^ 2) =
      (∑ i ∈ Finset.range 10, eval v h 1 (hp p.sel i) * Eta.eta i ((v 0 - E) * h ^ 2)) / D := by
    rw [Finset.sum_div]; exact Finset.sum_congr rfl (fun i _ => by ring)
  rw [e1]
  have small : ∀ {x c : ℝ}, |x| ≤ c → |x / D| ≤ c := by
    intro x c hx
    rw [abs_div, abs_of_pos D_pos]
    exact (div_le_self (abs_nonneg _) D_ge).trans hx
  cases p
  case c =>
    have e2 : Wf 11 1 (ex extC) v h (v 0 - E) h / D =
        (v 0 - E) * h * Eta.eta 1 ((v 0 - E) * h ^ 2) + Uf 11 (ex (extT .c)) v h (v 0 - E) h / D := by
      simp only [Wf, extT]; push_cast; field_simp
    simp only
    rw [e2, add_sub_add_left_eq_sub, ← sub_div]
    exact small key
  all_goals
    simp only [zero_add]
    rw [← sub_div]
    exact small key

/-- **C69, full step.** The full-step matrix `calculateT(E, use_h = true)` is two orders more accurate: for
every bound `M` there is a constant `C` such that for all η functions accurate to `σ` (the code's: `σ = 10⁻³³`), all coefficients with `|v_k| ≤ M` (`k ≥ 1`), energies with
`|v_0 - E| ≤ M`, widths `0 < h ≤ 1`, potentials `V` within `ε ≤ M` of the 16-term Legendre series and all solutions
of `y'' = (V - E) y` on `[0, h]`, it maps the initial values to the final ones up to
`C (h^19 + ε h + σ)` times their size. -/
theorem C69_full_step (M : ℝ) (hM : 1 ≤ M) : ∃ C : ℝ, 0 ≤ C ∧ ∀ (σ : ℝ) (eta : ℕ → ℝ → ℕ → ℝ) (v : ℕ → ℝ) (h E ε : ℝ) (V y dy : ℝ → ℝ),
    EtaWithin σ eta → (∀ k, 1 ≤ k → |v k| ≤ M) → 0 < h → h ≤ 1 → |v 0 - E| ≤ M → ε ≤ M →
    (∀ x ∈ Set.Icc 0 h, |V x - legendreSeries 16 v h x| ≤ ε) → SolvesOn V E 0 h y dy →
    |((calculateTFull eta (mkSec h v) E true).t.mulVec (y 0) (dy 0)).1 - y h| ≤
      C * (h ^ 19 + ε * h + σ) * max |y 0| |dy 0| ∧
    |((calculateTFull eta (mkSec h v) E true).t.mulVec (y 0) (dy 0)).2 - dy h| ≤
      C * (h ^ 19 + ε * h + σ) * max |y 0| |dy 0| := by
  have hM0 : 0 ≤ M := by linarith
  have hL := locC_nonneg 15 20 11 (ex extA) (ex extB) (ex extC) (ex extD) hM0
  have hEC := etaCH_nonneg hM0
  have b1 := BH_nonneg .a hM0; have b2 := BH_nonneg .b hM0; have b3 := BH_nonneg .c hM0; have b4 := BH_nonneg .d hM0
  set B := BH .a M + BH .b M + BH .c M + BH .d M with hBdef
  have hB0 : 0 ≤ B := by linarith
  refine ⟨locC 15 20 11 (ex extA) (ex extB) (ex extC) (ex extD) M + 2 * etaCH M + 2 * B, by linarith, ?_⟩
  intro σ eta v h E ε V y dy he hv h0 h1 hE hε hV hs
  have hσ := he.nonneg
  have hε0 : 0 ≤ ε := (abs_nonneg _).trans (hV 0 ⟨le_rfl, h0.le⟩)
  rw [show calculateTFull eta (mkSec h v) E true = calcH eta (mkSec h v) E from rfl]
  have key := local_error ext_cert2 (by norm_num) hM hv h0 h1 hE hε
    (fun x hx => by rw [dV_eq 15 (by norm_num)]; exact hV x hx) hs (δ := h) ⟨h0.le, le_rfl⟩
  set Y := max |y 0| |dy 0| with hY
  have hY0 : 0 ≤ Y := le_max_of_le_left (abs_nonneg _)
  set L := locC 15 20 11 (ex extA) (ex extB) (ex extC) (ex extD) M with hLdef
  have fa := eta_effectH he hM hv h0 h1 hE .a
  have fb := eta_effectH he hM hv h0 h1 hE .b
  have fc := eta_effectH he hM hv h0 h1 hE .c
  have fd := eta_effectH he hM hv h0 h1 hE .d
  have ga := exactH_close .a hM hv h0 h1 hE
  have gb := exactH_close .b hM hv h0 h1 hE
  have gc := exactH_close .c hM hv h0 h1 hE
  have gd := exactH_close .d hM hv h0 h1 hE
  have ed : Uf 11 (ex extD) v h (v 0 - E) h = Wf 11 0 (ex extD) v h (v 0 - E) h := by simp [Wf]
  simp only [Cp.of, extT] at fa fb fc fd ga gb gc gd
  rw [ed] at gd
  have q0 : 0 ≤ h ^ 19 := by positivity
  have tot : ∀ {A A₁ A₂ b : ℝ}, b ≤ B → |A - A₁| ≤ etaCH M * σ → |A₁ - A₂| ≤ b * h ^ 19 →
      |A - A₂| ≤ etaCH M * σ + B * h ^ 19 := by
    intro A A₁ A₂ b hb h1 h2
    have e : A - A₂ = (A - A₁) + (A₁ - A₂) := by ring
    rw [e]
    have := mul_le_mul_of_nonneg_right hb q0
    exact (abs_add_le _ _).trans (by linarith)
  have ka := tot (by linarith) fa ga
  have kb := tot (by linarith) fb gb
  have kc := tot (by linarith) fc gc
  have kd := tot (by linarith) fd gd
  have comb : ∀ {A B₀ A' B' z : ℝ}, |A - A' / D| ≤ etaCH M * σ + B * h ^ 19 → |B₀ - B' / D| ≤ etaCH M * σ + B * h ^ 19 →
      |(A' * y 0 + B' * dy 0) / D - z| ≤ L * (h ^ (20 - 2) + ε) * h * Y →
      |A * y 0 + B₀ * dy 0 - z| ≤ (L + 2 * etaCH M + 2 * B) * (h ^ 19 + ε * h + σ) * Y := by
    intro A B₀ A' B' z hA hB hz
    have e1 : A * y 0 + B₀ * dy 0 - z = ((A' * y 0 + B' * dy 0) / D - z) + ((A - A' / D) * y 0 + (B₀ - B' / D) * dy 0) := by
      ring
    rw [e1]
    refine (abs_add_le _ _).trans ?_
    have e2 := abs_add_le ((A - A' / D) * y 0) ((B₀ - B' / D) * dy 0)
    rw [abs_mul, abs_mul] at e2
    have r0 : 0 ≤ etaCH M * σ + B * h ^ 19 := add_nonneg (mul_nonneg hEC hσ) (mul_nonneg hB0 q0)
    have e3 := mul_le_mul hA (le_max_left |y 0| |dy 0|) (abs_nonneg _) r0
    have e4 := mul_le_mul hB (le_max_right |y 0| |dy 0|) (abs_nonneg _) r0
    rw [← hY] at e3 e4
    have r1 : 0 ≤ L * σ * Y := by positivity
    have r2 : 0 ≤ 2 * etaCH M * (h ^ 19 + ε * h) * Y := by positivity
    have r3 : 0 ≤ 2 * B * (ε * h + σ) * Y :=
      mul_nonneg (mul_nonneg (by linarith only [hB0]) (by positivity)) hY0
    have r4 : (L + 2 * etaCH M + 2 * B) * (h ^ 19 + ε * h + σ) * Y =
      L * (h ^ (20 - 2) + ε) * h * Y + 2 * ((etaCH M * σ + B * h ^ 19) * Y) + L * σ * Y +
        2 * etaCH M * (h ^ 19 + ε * h) * Y + 2 * B * (ε * h + σ) * Y := by
      ring
    rw [r4]
    linarith only [hz, e2, e3, e4, r1, r2, r3]
  exact ⟨comb ka kb key.1, comb kc kd key.2⟩


/-! ### A case that meets the hypotheses

`V(x) = x²`, `E = 1`, `y = exp(-x²/2)` (the ground state of the harmonic oscillator) on a sector of width `1/2`. -/

/-- Legendre coefficients of `x²` on `[0, 1/2]` -/
noncomputable def exV : ℕ → ℝ := fun k => [1 / 12, 1 / 4, 1 / 6].getD k 0

theorem exV_bound (k : ℕ) : |exV k| ≤ 1 := by
  unfold exV
  rcases k with _ | _ | _ | k
  · norm_num [abs_of_pos]
  · norm_num [abs_of_pos]
  · norm_num [abs_of_pos]
  · simp

theorem exV_series (n : ℕ) (x : ℝ) : legendreSeries (n + 3) exV (1 / 2) x = x ^ 2 := by
  induction n with
  | zero =>
    simp [legendreSeries, Finset.sum_range_succ, shiftedP, exV]
    norm_num [Nat.choose]
    ring
  | succ n ih =>
    rw [legendreSeries, Finset.sum_range_succ, ← legendreSeries, show n + 1 + 2 = n + 3 from rfl, ih]
    simp [exV]

theorem ex_solves (b : ℝ) : SolvesOn (fun x => x ^ 2) 1 0 b (fun x => Real.exp (-x ^ 2 / 2)) (fun x => -x * Real.exp (-x ^ 2 / 2)) := by
  have h1 : ∀ x : ℝ, HasDerivAt (fun x => Real.exp (-x ^ 2 / 2)) (-x * Real.exp (-x ^ 2 / 2)) x := by
    intro x
    have : HasDerivAt (fun x : ℝ => -x ^ 2 / 2) (-x) x :=
      (((hasDerivAt_id x).fun_pow 2).fun_neg.div_const 2).congr_deriv (by simp; ring)
    exact this.exp.congr_deriv (by ring)
  refine ⟨fun x _ => (h1 x).hasDerivWithinAt, fun x _ => HasDerivAt.hasDerivWithinAt ?_⟩
  exact (((hasDerivAt_id x).fun_neg).mul (h1 x)).congr_deriv (by simp; ring)

/-- the theorem applied to the exact η functions and to those of the code -/
example : ∃ C : ℝ,
    |((calculateTFull etaExact (mkSec (1 / 2) exV) 1 true).t.mulVec 1 0).1 - Real.exp (-(1 / 2) ^ 2 / 2)| ≤ C * (1 / 2) ^ 19 ∧
    ∀ junk : ℕ → ℝ, |((calculateTFull (etaCode junk) (mkSec (1 / 2) exV) 1 true).t.mulVec 1 0).1 - Real.exp (-(1 / 2) ^ 2 / 2)| ≤
      C * ((1 / 2) ^ 19 + 1 / 10 ^ 33) := by
  obtain ⟨C, _, h⟩ := C69_full_step 1 le_rfl
  have key : ∀ σ eta, EtaWithin σ eta → |((calculateTFull eta (mkSec (1 / 2) exV) 1 true).t.mulVec 1 0).1 - Real.exp (-(1 / 2) ^ 2 / 2)| ≤
      C * ((1 / 2) ^ 19 + σ) := by
    intro σ eta he
    have := (h σ eta exV (1 / 2) 1 0 _ _ _ he (fun k _ => exV_bound k) (by norm_num) (by norm_num)
      (by norm_num [exV, abs_le]) zero_le_one (fun x _ => by rw [exV_series 13]; simp) (ex_solves (1 / 2))).1
    simpa using this
  exact ⟨C, by simpa using key 0 etaExact etaWithin_exact, fun junk => key _ _ (etaWithin_code junk)⟩

example : ∃ C : ℝ,
    |((calculateT etaExact (mkSec (1 / 2) exV) 1 (1 / 4) false).t.mulVec 1 0).1 - Real.exp (-(1 / 4) ^ 2 / 2)| ≤ C * ((1 / 2) ^ 15 * (1 / 4)) ∧
    ∀ junk : ℕ → ℝ, |((calculateT (etaCode junk) (mkSec (1 / 2) exV) 1 (1 / 4) false).t.mulVec 1 0).1 - Real.exp (-(1 / 4) ^ 2 / 2)| ≤
      C * ((1 / 2) ^ 15 * (1 / 4) + 1 / 10 ^ 33) := by
  obtain ⟨C, _, h⟩ := C69_local_error 1 le_rfl
  have key : ∀ σ eta, EtaWithin σ eta → |((calculateT eta (mkSec (1 / 2) exV) 1 (1 / 4) false).t.mulVec 1 0).1 - Real.exp (-(1 / 4) ^ 2 / 2)| ≤
      C * ((1 / 2) ^ 15 * (1 / 4) + σ) := by
    intro σ eta he
    have := (h σ eta exV (1 / 2) 1 0 _ _ _ (1 / 4) EPS he (fun k _ => exV_bound k) (by norm_num) (by norm_num)
      (by norm_num [exV, abs_le]) zero_le_one (fun x _ => by rw [exV_series 11]; simp) (ex_solves (1 / 2))
      (by norm_num [EPS]) (by norm_num [EPS]) (by norm_num)).1
    simpa [calculateT] using this
  exact ⟨C, by simpa using key 0 etaExact etaWithin_exact, fun junk => key _ _ (etaWithin_code junk)⟩

end Verif.CalcT
