import Verif.Props.Formulas
import Verif.Props.Index

/-!
# Constant potentials are propagated exactly (C52); the stored derivative is the energy derivative (C53)
-/
namespace Verif.PL
open Verif.Formulas

/-- the monomials without potential coefficients, as `(order, power of s, coefficient)` -/
def flat (l : PL) : List (ℕ × ℕ × ℤ) := (l.filter (fun m => m.vs.isEmpty)).map (fun m => (m.ord, m.d, m.c))

set_option maxRecDepth 1000000 in
theorem flat_delta : (List.range 9).all (fun i =>
    flat (rp Entry4.a i) == (if i = 0 then [(0, 0, (D : ℤ))] else []) &&
    flat (rp Entry4.b i) == (if i = 1 then [(1, 1, (D : ℤ))] else []) &&
    flat (rp Entry4.c i) == [] &&
    flat (rp Entry4.d i) == (if i = 0 then [(0, 0, (D : ℤ))] else [])) = true := by decide +kernel

set_option maxRecDepth 1000000 in
theorem flat_h : (List.range 10).all (fun i =>
    flat (hp Entry4.a i) == (if i = 0 then [(0, 0, (D : ℤ))] else []) &&
    flat (hp Entry4.b i) == (if i = 1 then [(1, 0, (D : ℤ))] else []) &&
    flat (hp Entry4.c i) == [] &&
    flat (hp Entry4.d i) == (if i = 0 then [(0, 0, (D : ℤ))] else [])) = true := by decide +kernel

set_option maxRecDepth 1000000 in
theorem last_ord : (([Entry4.a, Entry4.b, Entry4.c, Entry4.d].all (fun sel => (rp sel 8).all (fun m => Nat.ble 15 m.ord))) &&
    ([Entry4.a, Entry4.b, Entry4.c, Entry4.d].all (fun sel => (hp sel 9).all (fun m => Nat.ble 17 m.ord)))) = true := by
  decide +kernel

/-- With vanishing `v_k` (`k ≥ 1`) only the monomials without coefficients remain. -/
theorem eval_flat {l : PL} (hl : Good 0 l) {v : ℕ → ℝ} (hv : ∀ k, 1 ≤ k → v k = 0) (h s : ℝ) :
    eval v h s l = ((flat l).map (fun q => (q.2.2 : ℝ) * (h ^ q.1 * s ^ q.2.1))).sum := by
  induction l with
  | nil => simp [flat, eval]
  | cons m l ih =>
    have ih := ih (fun m hm => hl m (List.mem_cons_of_mem _ hm))
    rw [eval, ih]
    obtain ⟨key, ord, d, vs, c⟩ := m
    have := (hl _ List.mem_cons_self).2
    cases vs with
    | nil => simp [flat, Mon.mon, prodV]
    | cons k vs =>
      have hk : v k = 0 := hv k (this k (by simp))
      simp [flat, Mon.mon, prodV, hk]

end Verif.PL

namespace Verif.CalcT
open Verif.YT Verif.Formulas Verif.PL Verif.Prufer
open scoped BigOperators

/-- The transfer matrix of a constant potential, for given values of `η_0` and `η_1`. -/
def constM (Z0 δ e0 e1 : ℝ) : M2 ℝ := ⟨e0, δ * e1, Z0 * δ * e1, e0⟩

theorem rp_good (p : Cp) (i : ℕ) : Good 0 (rp p.sel i) := by
  cases p
  · exact cert2.a0 i
  · exact cert2.b0 i
  · exact (good_row i).2.2.1.weaken
  · rcases (good_row i).2.2.2 with rfl | h
    · simp only [Cp.sel]; rw [rp_d0]; exact good_spec (by decide)
    · exact h.weaken

theorem M2.ext' {K : Type} {m n : M2 K} (h : ∀ p : Cp, p.of m = p.of n) : m = n := by
  cases m; cases n
  have ha := h .a; have hb := h .b; have hc := h .c; have hd := h .d
  simp only [Cp.of] at ha hb hc hd
  subst ha hb hc hd; rfl

theorem flat_delta' {i : ℕ} (hi : i < 9) :
    flat (rp Entry4.a i) = (if i = 0 then [(0, 0, (D : ℤ))] else []) ∧
    flat (rp Entry4.b i) = (if i = 1 then [(1, 1, (D : ℤ))] else []) ∧
    flat (rp Entry4.c i) = [] ∧
    flat (rp Entry4.d i) = (if i = 0 then [(0, 0, (D : ℤ))] else []) := by
  have := all_range flat_delta hi
  simp only [Bool.and_eq_true, beq_iff_eq] at this
  exact ⟨this.1.1.1, this.1.1.2, this.1.2, this.2⟩

theorem flat_h' {i : ℕ} (hi : i < 10) :
    flat (hp Entry4.a i) = (if i = 0 then [(0, 0, (D : ℤ))] else []) ∧
    flat (hp Entry4.b i) = (if i = 1 then [(1, 0, (D : ℤ))] else []) ∧
    flat (hp Entry4.c i) = [] ∧
    flat (hp Entry4.d i) = (if i = 0 then [(0, 0, (D : ℤ))] else []) := by
  have := all_range flat_h hi
  simp only [Bool.and_eq_true, beq_iff_eq] at this
  exact ⟨this.1.1.1, this.1.1.2, this.1.2, this.2⟩

theorem constM_delta (eta : ℕ → ℝ → ℕ → ℝ) {h : ℝ} (hh : h ≠ 0) {v : ℕ → ℝ} (hv : ∀ k, 1 ≤ k → v k = 0) (E δ : ℝ) :
    (calcDelta eta (mkSec h v) E δ).t =
      constM (v 0 - E) δ (eta 9 ((v 0 - E) * (δ * δ)) 0) (eta 9 ((v 0 - E) * (δ * δ)) 1) := by
  have hD := D_pos.ne'
  refine M2.ext' (fun p => ?_)
  rw [calcDelta_of p _ hh]
  have hr : ∀ i ∈ Finset.range 9, eval v h (δ / h) (rp p.sel i) / D * eta 9 ((v 0 - E) * (δ * δ)) i =
      (match p with
        | .a | .d => if i = 0 then 1 else 0
        | .b => if i = 1 then δ else 0
        | .c => 0) * eta 9 ((v 0 - E) * (δ * δ)) i := by
    intro i hi
    congr 1
    rw [eval_flat (rp_good p i) hv]
    obtain ⟨fa, fb, fc, fd⟩ := flat_delta' (Finset.mem_range.mp hi)
    cases p <;> simp only [Cp.sel, fa, fb, fc, fd]
    · split <;> simp [hD]
    · split <;> simp [hD]; field_simp
    · simp
    · split <;> simp [hD]
  rw [Finset.sum_congr rfl hr]
  cases p <;> simp [constM, Cp.of]

theorem constM_h (eta : ℕ → ℝ → ℕ → ℝ) (h : ℝ) {v : ℕ → ℝ} (hv : ∀ k, 1 ≤ k → v k = 0) (E : ℝ) :
    (calcH eta (mkSec h v) E).t =
      constM (v 0 - E) h (eta 10 ((v 0 - E) * (h * h)) 0) (eta 10 ((v 0 - E) * (h * h)) 1) := by
  have hD := D_pos.ne'
  refine M2.ext' (fun p => ?_)
  rw [calcH_of p]
  have hr : ∀ i ∈ Finset.range 10, eval v h 1 (hp p.sel i) / D * eta 10 ((v 0 - E) * (h * h)) i =
      (match p with
        | .a | .d => if i = 0 then 1 else 0
        | .b => if i = 1 then h else 0
        | .c => 0) * eta 10 ((v 0 - E) * (h * h)) i := by
    intro i hi
    congr 1
    rw [eval_flat (hp_good p i) hv]
    obtain ⟨fa, fb, fc, fd⟩ := flat_h' (Finset.mem_range.mp hi)
    cases p <;> simp only [Cp.sel, fa, fb, fc, fd]
    · split <;> simp [hD]
    · split <;> simp [hD]
    · simp
    · split <;> simp [hD]
  rw [Finset.sum_congr rfl hr]
  cases p <;> simp [constM, Cp.of]

/-- `η_0(q x²)` and `x η_1(q x²)` are the fundamental system. -/
theorem constSol_eta (q : ℝ) : ConstSol q (fun x => Eta.eta 0 (q * (x * x))) (fun x => q * x * Eta.eta 1 (q * (x * x))) ∧
    ConstSol q (fun x => x * Eta.eta 1 (q * (x * x))) (fun x => Eta.eta 0 (q * (x * x))) := by
  have hz : ∀ x : ℝ, HasDerivAt (fun x => q * (x * x)) (q * (2 * x)) x := fun x =>
    (((hasDerivAt_id x).mul (hasDerivAt_id x)).const_mul q).congr_deriv (by simp only [id]; ring)
  have he : ∀ (m : ℕ) (x : ℝ), HasDerivAt (fun x => Eta.eta m (q * (x * x))) (q * x * Eta.eta (m + 1) (q * (x * x))) x := fun m x =>
    (HasDerivAt.comp (h₂ := Eta.eta m) x (Eta.hasDerivAt_eta m (q * (x * x))) (hz x)).congr_deriv (by ring)
  have h1 : ∀ x : ℝ, HasDerivAt (fun x => x * Eta.eta 1 (q * (x * x))) (Eta.eta 0 (q * (x * x))) x := fun x =>
    ((hasDerivAt_id x).mul (he 1 x)).congr_deriv (by
      have := Eta.eta_rec 0 (q * (x * x))
      rw [this]; simp only [id]; push_cast; ring)
  refine ⟨⟨fun x => he 0 x, fun x => ?_⟩, ⟨h1, fun x => ?_⟩⟩
  · exact (((h1 x).const_mul q).congr_of_eventuallyEq (Filter.Eventually.of_forall fun t => by ring))
  · exact (he 0 x).congr_deriv (by ring)

theorem exact_constM (q δ : ℝ) (D' : M2 ℝ) :
    ExactStep q δ ⟨constM q δ (Eta.eta 0 (q * (δ * δ))) (Eta.eta 1 (q * (δ * δ))), D'⟩ := by
  obtain ⟨hc, hs⟩ := constSol_eta q
  exact ExactStep.of_fundamental hc hs (by simp [Eta.eta_zero_right, Eta.oddFact]) (by simp) (by simp)
    (by simp [Eta.eta_zero_right, Eta.oddFact]) δ D'

theorem calculateT_long {eta : ℕ → ℝ → ℕ → ℝ} {s : TSec ℝ} {E δ : ℝ} (hδ : (EPS : ℝ) < |δ|) :
    calculateT eta s E δ false = calcDelta eta s E δ := by
  unfold calculateT calculateTWith Eta.absK
  have hE : (0 : ℝ) < (EPS : ℝ) := by unfold EPS; norm_num
  simp only [ccmp_lt, ccmp_le, ccmp_lit, Bool.false_and]
  rw [if_neg (by
    simp only [decide_eq_true_eq, Rat.cast_zero]
    rcases lt_or_ge δ 0 with h | h
    · rw [if_pos h]; rw [abs_of_neg h] at hδ; linarith
    · rw [if_neg (not_lt.mpr h)]; rw [abs_of_nonneg h] at hδ; linarith)]
  simp

/-- **C52 (exact η).** In a sector whose potential is constant (`v_k = 0` for `k ≥ 1`), every step longer than
1e-12 is the exact solution operator of `y'' = (v - E) y`: it maps `(y(0), y'(0))` to `(y(δ), y'(δ))` for every
solution and has determinant 1; so does the full step. -/
theorem C52_constant_exact {h : ℝ} (hh : h ≠ 0) {v : ℕ → ℝ} (hv : ∀ k, 1 ≤ k → v k = 0) (E : ℝ) :
    (∀ δ, (EPS : ℝ) < |δ| → ExactStep (v 0 - E) δ (calculateT etaExact (mkSec h v) E δ false)) ∧
    ExactStep (v 0 - E) h (calculateTFull etaExact (mkSec h v) E true) := by
  constructor
  · intro δ hδ
    rw [calculateT_long hδ]
    have := exact_constM (v 0 - E) δ (calcDelta etaExact (mkSec h v) E δ).dt
    have e := constM_delta etaExact hh hv E δ
    exact ⟨fun y dy hs => by rw [e]; exact this.maps y dy hs, by rw [e]; exact this.det⟩
  · rw [show calculateTFull etaExact (mkSec h v) E true = calcH etaExact (mkSec h v) E from rfl]
    have := exact_constM (v 0 - E) h (calcH etaExact (mkSec h v) E).dt
    have e := constM_h etaExact h hv E
    exact ⟨fun y dy hs => by rw [e]; exact this.maps y dy hs, by rw [e]; exact this.det⟩

/-- **C52 (computed η).** With the η functions as the code computes them, the step is exact when
`|v - E| δ² ≥ 100`, and otherwise each entry differs from the exact operator's by at most
`1e-33 · max(1, |δ|, |(v - E) δ|)`. -/
theorem C52_constant_computed (junk : ℕ → ℝ) {h : ℝ} (hh : h ≠ 0) {v : ℕ → ℝ} (hv : ∀ k, 1 ≤ k → v k = 0) (E δ : ℝ)
    (hδ : (EPS : ℝ) < |δ|) :
    (100 ≤ |(v 0 - E) * (δ * δ)| → ExactStep (v 0 - E) δ (calculateT (etaCode junk) (mkSec h v) E δ false)) ∧
    ∃ A : T ℝ, ExactStep (v 0 - E) δ A ∧
      |(calculateT (etaCode junk) (mkSec h v) E δ false).t.a - A.t.a| ≤ 1 / 10 ^ 33 ∧
      |(calculateT (etaCode junk) (mkSec h v) E δ false).t.b - A.t.b| ≤ |δ| * (1 / 10 ^ 33) ∧
      |(calculateT (etaCode junk) (mkSec h v) E δ false).t.c - A.t.c| ≤ |(v 0 - E) * δ| * (1 / 10 ^ 33) ∧
      |(calculateT (etaCode junk) (mkSec h v) E δ false).t.d - A.t.d| ≤ 1 / 10 ^ 33 := by
  rw [calculateT_long hδ]
  have e := constM_delta (etaCode junk) hh hv E δ
  constructor
  · intro hZ
    have := exact_constM (v 0 - E) δ (calcDelta (etaCode junk) (mkSec h v) E δ).dt
    have e0 : etaCode junk 9 ((v 0 - E) * (δ * δ)) 0 = Eta.eta 0 ((v 0 - E) * (δ * δ)) :=
      Eta.C51_large_exact 9 (by norm_num) junk _ hZ 0 (by norm_num)
    have e1 : etaCode junk 9 ((v 0 - E) * (δ * δ)) 1 = Eta.eta 1 ((v 0 - E) * (δ * δ)) :=
      Eta.C51_large_exact 9 (by norm_num) junk _ hZ 1 (by norm_num)
    rw [e0, e1] at e
    exact ⟨fun y dy hs => by rw [e]; exact this.maps y dy hs, by rw [e]; exact this.det⟩
  · refine ⟨_, exact_constM (v 0 - E) δ ⟨0, 0, 0, 0⟩, ?_⟩
    have a0 : |etaCode junk 9 ((v 0 - E) * (δ * δ)) 0 - Eta.eta 0 ((v 0 - E) * (δ * δ))| ≤ 1 / 10 ^ 33 :=
      Eta.C80_absolute 9 (by norm_num) junk _ 0 (by norm_num)
    have a1 : |etaCode junk 9 ((v 0 - E) * (δ * δ)) 1 - Eta.eta 1 ((v 0 - E) * (δ * δ))| ≤ 1 / 10 ^ 33 :=
      Eta.C80_absolute 9 (by norm_num) junk _ 1 (by norm_num)
    rw [e]
    simp only [constM]
    refine ⟨a0, ?_, ?_, a0⟩
    · rw [← mul_sub, abs_mul]; exact mul_le_mul_of_nonneg_left a1 (abs_nonneg _)
    · rw [← mul_sub, abs_mul]; exact mul_le_mul_of_nonneg_left a1 (abs_nonneg _)

/-- **C52 (identity).** Steps of at most 1e-12 are the identity (with zero energy derivative). -/
theorem C52_identity (eta : ℕ → ℝ → ℕ → ℝ) (s : TSec ℝ) (E δ : ℝ) (useH : Bool) (hδ : |δ| ≤ (EPS : ℝ)) :
    calculateT eta s E δ useH = T.one := by
  unfold calculateT calculateTWith Eta.absK
  simp only [ccmp_lt, ccmp_le, ccmp_lit]
  rw [if_pos (by
    simp only [decide_eq_true_eq, Rat.cast_zero]
    rcases lt_or_ge δ 0 with h | h
    · rw [if_pos h]; rw [abs_of_neg h] at hδ; linarith
    · rw [if_neg (not_lt.mpr h)]; rw [abs_of_nonneg h] at hδ; linarith)]

/-! ### C53 -/

theorem body_deriv (p : Cp) (N : ℕ) (hN : 1 ≤ N) (hor : ℕ → M2 ℝ) (v0 E δ : ℝ) :
    HasDerivAt (fun E => p.of (body N hor (fun i => Eta.eta i ((v0 - E) * (δ * δ))) (v0 - E) δ).t)
      (p.of (body N hor (fun i => Eta.eta i ((v0 - E) * (δ * δ))) (v0 - E) δ).dt +
        p.of (hor (N - 1)) * (-(δ * δ) * Eta.eta N ((v0 - E) * (δ * δ)) / 2)) E := by
  obtain ⟨n, rfl⟩ : ∃ n, N = n + 1 := ⟨N - 1, by omega⟩
  have hz : HasDerivAt (fun E : ℝ => (v0 - E) * (δ * δ)) (-(δ * δ)) E :=
    (((hasDerivAt_id E).const_sub v0).mul_const (δ * δ)).congr_deriv (by ring)
  have he : ∀ m, HasDerivAt (fun E => Eta.eta m ((v0 - E) * (δ * δ))) (-(δ * δ) * Eta.eta (m + 1) ((v0 - E) * (δ * δ)) / 2) E := fun m =>
    (HasDerivAt.comp (h₂ := Eta.eta m) E (Eta.hasDerivAt_eta m ((v0 - E) * (δ * δ))) hz).congr_deriv (by ring)
  simp only [body_t, body_dt]
  have hs : HasDerivAt (fun E => ∑ j ∈ Finset.range (n + 1), p.of (hor j) * Eta.eta j ((v0 - E) * (δ * δ)))
      ((∑ j ∈ Finset.range (n + 1), if j + 1 < n + 1 then p.of (hor j) * (-(δ * δ) * Eta.eta (j + 1) ((v0 - E) * (δ * δ)) / 2) else 0) +
        p.of (hor (n + 1 - 1)) * (-(δ * δ) * Eta.eta (n + 1) ((v0 - E) * (δ * δ)) / 2)) E := by
    refine (HasDerivAt.fun_sum (fun j _ => (he j).const_mul (p.of (hor j)))).congr_deriv ?_
    rw [Finset.sum_range_succ, Finset.sum_range_succ, if_neg (lt_irrefl _), add_zero, Nat.add_sub_cancel]
    congr 1
    exact Finset.sum_congr rfl (fun j hj => by rw [if_pos (Nat.succ_lt_succ (Finset.mem_range.mp hj))])
  cases p
  case c =>
    have h1 : HasDerivAt (fun E => (v0 - E) * δ * Eta.eta 1 ((v0 - E) * (δ * δ)))
        (-δ * Eta.eta 1 ((v0 - E) * (δ * δ)) - (v0 - E) * (δ * δ) * δ * Eta.eta 2 ((v0 - E) * (δ * δ)) / 2) E :=
      ((((hasDerivAt_id E).const_sub v0).mul_const δ).mul (he 1)).congr_deriv (by simp only [id]; ring)
    exact (h1.add hs).congr_deriv (by ring)
  all_goals
    simp only [zero_add]
    exact hs

/-- **C53.** For every coefficient table, energy and step, each entry of the derivative matrix that `calculateT`
returns is the energy derivative of the corresponding entry of the value matrix, except for the term of the
last η function (`η_9`, multiplied with the last row of the table): the code stops one term early. The same for
the full step (`η_10`). -/
theorem C53_energy_derivative (p : Cp) (s : TSec ℝ) (E δ : ℝ) :
    HasDerivAt (fun E => p.of (calcDelta etaExact s E δ).t)
      (p.of (calcDelta etaExact s E δ).dt +
        p.of (horner (s.coeff 8) δ 17) * (-(δ * δ) * Eta.eta 9 ((s.v0 - E) * (δ * δ)) / 2)) E ∧
    HasDerivAt (fun E => p.of (calcH etaExact s E).t)
      (p.of (calcH etaExact s E).dt +
        p.of (s.coeffH 9) * (-(s.h * s.h) * Eta.eta 10 ((s.v0 - E) * (s.h * s.h)) / 2)) E :=
  ⟨body_deriv p 9 (by norm_num) (fun i => horner (s.coeff i) δ hmaxDelta) s.v0 E δ,
    body_deriv p 10 (by norm_num) s.coeffH s.v0 E s.h⟩

theorem miss {x e b C k d L : ℝ} (hx : |x| ≤ b * k) (hb : b ≤ C) (hC : 0 ≤ C) (hk : 0 ≤ k) (hd : 0 ≤ d) (he : |e| ≤ L) :
    |x / D * (-d * e / 2)| ≤ C * L * k * d := by
  have c1 : |x| / D ≤ C * k :=
    (div_le_self (abs_nonneg _) D_ge).trans (hx.trans (mul_le_mul_of_nonneg_right hb hk))
  have c2 : d * |e| / 2 ≤ L * d := by
    have := mul_le_mul_of_nonneg_left he hd
    have := mul_nonneg hd (abs_nonneg e)
    linarith
  rw [abs_mul, abs_div, abs_of_pos D_pos, abs_div, abs_mul, abs_neg, abs_of_nonneg hd, abs_two]
  calc _ ≤ C * k * (L * d) := mul_le_mul c1 c2 (by positivity) (mul_nonneg hC hk)
    _ = _ := by ring

/-- **C53, size of the omission.** With the tables of the code the stored derivative of a partial step is the
energy derivative up to `C h^15 δ²`, and that of the full step up to `C h^19`, uniformly for `|v_k| ≤ M`,
`|v_0 - E| ≤ M`, `0 ≤ δ ≤ h ≤ 1`. -/
theorem C53_omission_bound (M : ℝ) (hM : 1 ≤ M) : ∃ C : ℝ, 0 ≤ C ∧ ∀ (v : ℕ → ℝ) (h E δ : ℝ), (∀ k, 1 ≤ k → |v k| ≤ M) →
    0 < h → h ≤ 1 → |v 0 - E| ≤ M → 0 ≤ δ → δ ≤ h → ∀ p : Cp, ∃ r rH : ℝ,
      HasDerivAt (fun E => p.of (calcDelta etaExact (mkSec h v) E δ).t) (p.of (calcDelta etaExact (mkSec h v) E δ).dt + r) E ∧
      |r| ≤ C * h ^ 15 * δ ^ 2 ∧
      HasDerivAt (fun E => p.of (calcH etaExact (mkSec h v) E).t) (p.of (calcH etaExact (mkSec h v) E).dt + rH) E ∧
      |rH| ≤ C * h ^ 19 := by
  have hM0 : 0 ≤ M := by linarith
  set B : Cp → ℝ := fun p => bnd M (rp p.sel 8) + bnd M (hp p.sel 9) with hB
  have hB0 : ∀ p, 0 ≤ B p := fun p => add_nonneg (bnd_nonneg hM0 _) (bnd_nonneg hM0 _)
  refine ⟨(B .a + B .b + B .c + B .d) * Real.exp M, mul_nonneg (by linarith [hB0 .a, hB0 .b, hB0 .c, hB0 .d]) (Real.exp_pos _).le, ?_⟩
  intro v h E δ hv h0 h1 hE d0 d1 p
  obtain ⟨k1, k2⟩ := C53_energy_derivative p (mkSec h v) E δ
  refine ⟨_, _, k1, ?_, k2, ?_⟩
  all_goals
    have hs : B p ≤ B .a + B .b + B .c + B .d := by
      cases p <;> linarith [hB0 .a, hB0 .b, hB0 .c, hB0 .d]
    have lo := last_ord
    simp only [Bool.and_eq_true, List.all_eq_true, Nat.ble_eq, List.mem_cons, List.not_mem_nil, or_false] at lo
    have hsel : p.sel = Entry4.a ∨ p.sel = Entry4.b ∨ p.sel = Entry4.c ∨ p.sel = Entry4.d := by
      cases p <;> simp [Cp.sel]
  · rw [show p.of (horner ((mkSec h v).coeff 8) δ 17) = _ from hor_eq p h0.ne' v 8 δ]
    have b1 := eval_bound hM hv h0.le h1 (div_nonneg d0 h0.le) ((div_le_one h0).mpr d1) (N := 15) (p := 0) (rp p.sel 8)
      (lo.1 _ hsel) (rp_good p 8)
    have b2 := abs_etaZ_le hE d0 (d1.trans h1) 9
    rw [sq] at b2
    simp only [pow_zero, mul_one] at b1
    have q := bnd_nonneg hM0 (hp p.sel 9)
    have c := miss (C := B .a + B .b + B .c + B .d) b1 (le_trans (by simp only [hB]; linarith) hs) (hB0 p |>.trans hs)
      (by positivity) (mul_nonneg d0 d0) b2
    rw [sq]; exact c
  · rw [coeffH_of]
    have b1 := eval_bound hM hv h0.le h1 zero_le_one le_rfl (N := 17) (p := 0) (hp p.sel 9) (lo.2 _ hsel) (hp_good p 9)
    have b2 := abs_etaZ_le hE h0.le h1 10
    rw [sq] at b2
    simp only [one_pow, mul_one] at b1
    have q := bnd_nonneg hM0 (rp p.sel 8)
    have c := miss (C := B .a + B .b + B .c + B .d) b1 (le_trans (by simp only [hB]; linarith) hs) (hB0 p |>.trans hs)
      (by positivity) (mul_nonneg h0.le h0.le) b2
    rw [show (B .a + B .b + B .c + B .d) * Real.exp M * h ^ 19 = (B .a + B .b + B .c + B .d) * Real.exp M * h ^ 17 * (h * h) by ring]
    exact c

/-! ### Cases that meet the hypotheses -/

/-- C52: the constant potential `3` at energy `1` on a sector of width 2, step `1/2`. -/
example (junk : ℕ → ℝ) : ∃ A : T ℝ, ExactStep 2 (1 / 2) A ∧
    |(calculateT (etaCode junk) (mkSec 2 (fun k => if k = 0 then 3 else 0)) 1 (1 / 2) false).t.a - A.t.a| ≤ 1 / 10 ^ 33 := by
  obtain ⟨A, hA, h1, -⟩ := (C52_constant_computed junk (h := 2) (by norm_num) (v := fun k => if k = 0 then 3 else 0)
    (fun k hk => if_neg (by omega)) 1 (1 / 2) (by norm_num [EPS, abs_of_pos])).2
  refine ⟨A, ?_, h1⟩
  convert hA using 1
  norm_num

/-- C52, exact branch: `|v - E| δ² = 800`. -/
example (junk : ℕ → ℝ) : ExactStep 200 2 (calculateT (etaCode junk) (mkSec 2 (fun k => if k = 0 then 300 else 0)) 100 2 false) := by
  have := (C52_constant_computed junk (h := 2) (by norm_num) (v := fun k => if k = 0 then 300 else 0)
    (fun k hk => if_neg (by omega)) 100 2 (by norm_num [EPS, abs_of_pos])).1 (by norm_num [abs_of_pos])
  convert this using 1
  norm_num

/-- C52: a step of length 0 is the identity. -/
example (s : TSec ℝ) : calculateT etaExact s 7 0 false = T.one := C52_identity _ s 7 0 false (by norm_num [EPS])

/-- C53: the potential `x²` of `exV`. -/
example : ∃ C : ℝ, ∀ p : Cp, ∃ r : ℝ, HasDerivAt (fun E => p.of (calcDelta etaExact (mkSec (1 / 2) exV) E (1 / 4)).t)
    (p.of (calcDelta etaExact (mkSec (1 / 2) exV) 1 (1 / 4)).dt + r) 1 ∧ |r| ≤ C * (1 / 2) ^ 15 * (1 / 4) ^ 2 := by
  obtain ⟨C, _, h⟩ := C53_omission_bound 1 le_rfl
  refine ⟨C, fun p => ?_⟩
  obtain ⟨r, _, h1, h2, -⟩ := h exV (1 / 2) 1 (1 / 4) (fun k _ => exV_bound k) (by norm_num) (by norm_num)
    (by norm_num [exV, abs_le]) (by norm_num) (by norm_num) p
  exact ⟨r, h1, h2⟩

end Verif.CalcT
