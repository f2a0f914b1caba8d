import Verif.Props.Formulas

/-!
# Effect of a change of the potential coefficients on the transfer matrices

Every monomial of the tables has at least as many powers of `h` (plus one) as the sum of the indices of its `v`s,
so the tables are functions of the scaled coefficients `v_k h^k`.
-/
namespace Verif.PL
open Verif.Formulas Verif.Legendre Verif.Eta
open scoped BigOperators

/-- each monomial with some `v` has `q` more powers of `h` than the sum of the indices -/
def hom (q : Nat) (l : PL) : Bool := l.all (fun m => m.vs.isEmpty || Nat.ble (m.vs.sum + q) m.ord)

/-- The meaning of `hom`. -/
def Hom (q : ℕ) (l : PL) : Prop := ∀ m ∈ l, m.vs = [] ∨ m.vs.sum + q ≤ m.ord

theorem hom_spec {q : ℕ} {l : PL} (hl : hom q l = true) : Hom q l := by
  intro m hm
  unfold hom at hl
  rw [List.all_eq_true] at hl
  have := hl m hm
  simpa [Nat.ble_eq] using this

theorem prodV_scaled {v : ℕ → ℝ} {h B : ℝ} (h0 : 0 ≤ h) (hB : 1 ≤ B) (hv : ∀ k, 1 ≤ k → |v k| * h ^ k ≤ B) (l : List ℕ)
    (hl : ∀ k ∈ l, 1 ≤ k) : |prodV v l| * h ^ l.sum ≤ B ^ l.length := by
  induction l with
  | nil => simp [prodV]
  | cons k l ih =>
    have ih := ih (fun k hk => hl k (List.mem_cons_of_mem _ hk))
    have hk := hv k (hl k List.mem_cons_self)
    simp only [prodV, List.length_cons, pow_succ, List.sum_cons, pow_add]
    rw [abs_mul]
    calc |v k| * |prodV v l| * (h ^ k * h ^ l.sum) = (|prodV v l| * h ^ l.sum) * (|v k| * h ^ k) := by ring
      _ ≤ B ^ l.length * B := mul_le_mul ih hk (by positivity) (by positivity)

theorem prodV_diff {v w : ℕ → ℝ} {h B τ : ℝ} (h0 : 0 ≤ h) (hB : 1 ≤ B) (hv : ∀ k, 1 ≤ k → |v k| * h ^ k ≤ B)
    (hw : ∀ k, 1 ≤ k → |w k| * h ^ k ≤ B) (hd : ∀ k, 1 ≤ k → |v k - w k| * h ^ k ≤ τ) (l : List ℕ) (hl : ∀ k ∈ l, 1 ≤ k) :
    |prodV v l - prodV w l| * h ^ l.sum ≤ l.length * B ^ l.length * τ := by
  have hτ : 0 ≤ τ := le_trans (by positivity) (hd 1 le_rfl)
  induction l with
  | nil => simp [prodV]
  | cons k l ih =>
    have hl' : ∀ k ∈ l, 1 ≤ k := fun k hk => hl k (List.mem_cons_of_mem _ hk)
    have ih := ih hl'
    have k1 := hl k List.mem_cons_self
    have b1 := prodV_scaled h0 hB hv l hl'
    have e : prodV v (k :: l) - prodV w (k :: l) = (v k - w k) * prodV v l + w k * (prodV v l - prodV w l) := by
      simp only [prodV]; ring
    rw [e, List.sum_cons, pow_add]
    have hp : 0 ≤ h ^ k * h ^ l.sum := by positivity
    calc |(v k - w k) * prodV v l + w k * (prodV v l - prodV w l)| * (h ^ k * h ^ l.sum)
        ≤ (|v k - w k| * |prodV v l| + |w k| * |prodV v l - prodV w l|) * (h ^ k * h ^ l.sum) := by
          refine mul_le_mul_of_nonneg_right ?_ hp
          rw [← abs_mul, ← abs_mul]; exact abs_add_le _ _
      _ = (|v k - w k| * h ^ k) * (|prodV v l| * h ^ l.sum) + (|w k| * h ^ k) * (|prodV v l - prodV w l| * h ^ l.sum) := by ring
      _ ≤ τ * B ^ l.length + B * (l.length * B ^ l.length * τ) := by
          refine add_le_add (mul_le_mul (hd k k1) b1 (by positivity) hτ) (mul_le_mul (hw k k1) ih (by positivity) (by linarith))
      _ ≤ ((k :: l).length : ℕ) * B ^ (k :: l).length * τ := by
          have : B ^ l.length ≤ B ^ (l.length + 1) := pow_le_pow_right₀ hB (Nat.le_succ _)
          simp only [List.length_cons]
          push_cast
          have e2 : ((l.length : ℝ) + 1) * B ^ (l.length + 1) * τ = B ^ (l.length + 1) * τ + B * (l.length * B ^ l.length * τ) := by
            rw [pow_succ]; ring
          rw [e2]
          have := mul_le_mul_of_nonneg_right this hτ
          linarith

/-- The constant of the change of a list. -/
noncomputable def bndD (B : ℝ) : PL → ℝ
  | [] => 0
  | m :: l => |(m.c : ℝ)| * (m.vs.length * B ^ m.vs.length) + bndD B l

theorem bndD_nonneg {B : ℝ} (hB : 0 ≤ B) (l : PL) : 0 ≤ bndD B l := by
  induction l with
  | nil => simp [bndD]
  | cons m l ih => simp only [bndD]; positivity

theorem eval_diff {v w : ℕ → ℝ} {h s B τ : ℝ} (h0 : 0 ≤ h) (h1 : h ≤ 1) (s0 : 0 ≤ s) (s1 : s ≤ 1) (hB : 1 ≤ B)
    (hv : ∀ k, 1 ≤ k → |v k| * h ^ k ≤ B) (hw : ∀ k, 1 ≤ k → |w k| * h ^ k ≤ B) (hd : ∀ k, 1 ≤ k → |v k - w k| * h ^ k ≤ τ)
    {q : ℕ} (l : PL) (hq : Hom q l) (hg : Good 0 l) :
    |eval v h s l - eval w h s l| ≤ bndD B l * (h ^ q * τ) := by
  have hτ : 0 ≤ τ := le_trans (by positivity) (hd 1 le_rfl)
  induction l with
  | nil => simp [eval, bndD]
  | cons m l ih =>
    have ih := ih (fun m hm => hq m (List.mem_cons_of_mem _ hm)) (fun m hm => hg m (List.mem_cons_of_mem _ hm))
    simp only [eval, bndD]
    have e : (m.c : ℝ) * m.mon v h s + eval v h s l - (m.c * m.mon w h s + eval w h s l) =
      m.c * (m.mon v h s - m.mon w h s) + (eval v h s l - eval w h s l) := by ring
    rw [e, add_mul]
    refine (abs_add_le _ _).trans (add_le_add ?_ ih)
    rw [abs_mul, mul_assoc]
    refine mul_le_mul_of_nonneg_left ?_ (abs_nonneg _)
    unfold Mon.mon
    rw [← mul_sub, abs_mul, abs_of_nonneg (by positivity : 0 ≤ h ^ m.ord * s ^ m.d)]
    rcases hq m List.mem_cons_self with hm | hm
    · rw [hm]; simp [prodV]
    · have k1 := prodV_diff h0 hB hv hw hd m.vs (hg m List.mem_cons_self).2
      have k2 : h ^ m.ord ≤ h ^ m.vs.sum * h ^ q := by
        rw [← pow_add]; exact pow_le_pow_of_le_one h0 h1 hm
      have k3 : s ^ m.d ≤ 1 := pow_le_one₀ s0 s1
      calc h ^ m.ord * s ^ m.d * |prodV v m.vs - prodV w m.vs| ≤ (h ^ m.vs.sum * h ^ q) * 1 * |prodV v m.vs - prodV w m.vs| := by
            refine mul_le_mul_of_nonneg_right (mul_le_mul k2 k3 (by positivity) (by positivity)) (abs_nonneg _)
        _ = (|prodV v m.vs - prodV w m.vs| * h ^ m.vs.sum) * h ^ q := by ring
        _ ≤ (m.vs.length * B ^ m.vs.length * τ) * h ^ q := mul_le_mul_of_nonneg_right k1 (by positivity)
        _ = _ := by ring

/-! ### The checks for the tables of the code -/

set_option maxRecDepth 100000 in
theorem tDelta_hom : (List.range 9).all (fun i => hom 1 (rp Entry4.a i) && hom 1 (rp Entry4.b i) && hom 1 (rp Entry4.c i) && hom 1 (rp Entry4.d i)) = true := by
  decide +kernel

set_option maxRecDepth 100000 in
theorem tH_hom : (List.range 10).all (fun i => hom 1 (hp Entry4.a i) && hom 1 (hp Entry4.b i) && hom 1 (hp Entry4.c i) && hom 1 (hp Entry4.d i)) = true := by
  decide +kernel

theorem hp_hom (p : CalcT.Cp) (i : ℕ) : Hom 1 (hp p.sel i) := by
  by_cases hi : i < 10
  · have := all_range tH_hom hi
    simp only [Bool.and_eq_true] at this
    cases p
    · exact hom_spec this.1.1.1
    · exact hom_spec this.1.1.2
    · exact hom_spec this.1.2
    · exact hom_spec this.2
  · rw [hp_end _ (by omega)]; intro m hm; simp at hm

end Verif.PL

namespace Verif.CalcT
open Verif.YT Verif.Formulas Verif.PL
open scoped BigOperators

/-- constant of the change of a full step -/
noncomputable def pertH (M B : ℝ) : ℝ := (∑ i ∈ Finset.range 10, bndD B (hp Entry4.a i) + ∑ i ∈ Finset.range 10, bndD B (hp Entry4.b i) +
  ∑ i ∈ Finset.range 10, bndD B (hp Entry4.c i) + ∑ i ∈ Finset.range 10, bndD B (hp Entry4.d i)) * (Real.exp M + 1)

theorem bndD_sum_nonneg {B : ℝ} (hB : 0 ≤ B) (f : ℕ → PL) : 0 ≤ ∑ i ∈ Finset.range 10, bndD B (f i) :=
  Finset.sum_nonneg (fun _ _ => bndD_nonneg hB _)

theorem pertH_nonneg (M : ℝ) {B : ℝ} (hB : 0 ≤ B) : 0 ≤ pertH M B := by
  unfold pertH
  have := bndD_sum_nonneg hB (hp Entry4.a); have := bndD_sum_nonneg hB (hp Entry4.b)
  have := bndD_sum_nonneg hB (hp Entry4.c); have := bndD_sum_nonneg hB (hp Entry4.d)
  have := Real.exp_pos M
  positivity

/-- Changing the scaled coefficients `v_k h^k`, `k ≥ 1`, by at most `τ` changes the entries of the full-step matrix by at most `C h τ`. -/
theorem calcH_perturb {σ : ℝ} {eta : ℕ → ℝ → ℕ → ℝ} (he : EtaWithin σ eta) (hσ1 : σ ≤ 1) {M B : ℝ} (hB : 1 ≤ B) {v w : ℕ → ℝ} {h E τ : ℝ} (h0 : 0 < h) (h1 : h ≤ 1)
    (hv : ∀ k, 1 ≤ k → |v k| * h ^ k ≤ B) (hw : ∀ k, 1 ≤ k → |w k| * h ^ k ≤ B) (hd : ∀ k, 1 ≤ k → |v k - w k| * h ^ k ≤ τ)
    (h00 : v 0 = w 0) (hE : |v 0 - E| ≤ M) (p : Cp) :
    |p.of (calcH eta (mkSec h v) E).t - p.of (calcH eta (mkSec h w) E).t| ≤ pertH M B * (h * τ) := by
  have hτ : 0 ≤ τ := le_trans (by positivity) (hd 1 le_rfl)
  rw [calcH_of p, calcH_of p, h00, add_sub_add_left_eq_sub, ← Finset.sum_sub_distrib]
  rw [h00] at hE
  set Z := (w 0 - E) * (h * h) with hZ
  have heta : ∀ i < 10, |eta 10 Z i| ≤ Real.exp M + 1 := by
    intro i hi
    have e1 := he 10 (by norm_num) Z i hi
    have e2 := abs_etaZ_le hE h0.le h1 i
    rw [show (w 0 - E) * h ^ 2 = Z by rw [hZ]; ring] at e2
    have e3 : eta 10 Z i = (eta 10 Z i - Eta.eta i Z) + Eta.eta i Z := by ring
    rw [e3]
    refine (abs_add_le _ _).trans ?_
    have e4 : |eta 10 Z i - Eta.eta i Z| ≤ 1 := e1.trans hσ1
    linarith
  have hs : ∀ i ∈ Finset.range 10, |eval v h 1 (hp p.sel i) / D * eta 10 Z i - eval w h 1 (hp p.sel i) / D * eta 10 Z i| ≤
      bndD B (hp p.sel i) * (h * τ) * (Real.exp M + 1) := by
    intro i hi
    rw [← sub_mul, ← sub_div, abs_mul]
    have k := eval_diff h0.le h1 zero_le_one le_rfl hB hv hw hd (hp p.sel i) (hp_hom p i) (hp_good p i)
    rw [pow_one] at k
    refine mul_le_mul ?_ (heta i (Finset.mem_range.mp hi)) (abs_nonneg _) (mul_nonneg (bndD_nonneg (by linarith) _) (by positivity))
    rw [abs_div, abs_of_pos D_pos]
    exact (div_le_self (abs_nonneg _) D_ge).trans k
  refine ((Finset.abs_sum_le_sum_abs _ _).trans (Finset.sum_le_sum hs)).trans ?_
  rw [← Finset.sum_mul, ← Finset.sum_mul]
  have hB0 : 0 ≤ B := by linarith
  have a1 := bndD_sum_nonneg hB0 (hp Entry4.a); have a2 := bndD_sum_nonneg hB0 (hp Entry4.b)
  have a3 := bndD_sum_nonneg hB0 (hp Entry4.c); have a4 := bndD_sum_nonneg hB0 (hp Entry4.d)
  have ee := Real.exp_pos M
  unfold pertH
  have hle : ∑ i ∈ Finset.range 10, bndD B (hp p.sel i) ≤ ∑ i ∈ Finset.range 10, bndD B (hp Entry4.a i) + ∑ i ∈ Finset.range 10, bndD B (hp Entry4.b i) +
      ∑ i ∈ Finset.range 10, bndD B (hp Entry4.c i) + ∑ i ∈ Finset.range 10, bndD B (hp Entry4.d i) := by
    cases p <;> simp only [Cp.sel] <;> linarith
  calc (∑ i ∈ Finset.range 10, bndD B (hp p.sel i)) * (h * τ) * (Real.exp M + 1) = (∑ i ∈ Finset.range 10, bndD B (hp p.sel i)) * ((h * τ) * (Real.exp M + 1)) := by ring
    _ ≤ _ * ((h * τ) * (Real.exp M + 1)) := mul_le_mul_of_nonneg_right hle (by positivity)
    _ = _ := by ring

theorem rp_good (p : Cp) (i : ℕ) : Good 0 (rp p.sel i) := by
  cases p
  · exact cert2.a0 i
  · exact cert2.b0 i
  · exact (good_row i).2.2.1.weaken
  · rcases (good_row i).2.2.2 with rfl | h
    · simp only [Cp.sel]; rw [rp_d0]; exact good_spec (by decide)
    · exact h.weaken

theorem rp_hom (p : Cp) {i : ℕ} (hi : i < 9) : Hom 1 (rp p.sel i) := by
  have := all_range tDelta_hom hi
  simp only [Bool.and_eq_true] at this
  cases p
  · exact hom_spec this.1.1.1
  · exact hom_spec this.1.1.2
  · exact hom_spec this.1.2
  · exact hom_spec this.2

/-- constant of the change of a partial step -/
noncomputable def pertD (M B : ℝ) : ℝ := (∑ i ∈ Finset.range 9, bndD B (rp Entry4.a i) + ∑ i ∈ Finset.range 9, bndD B (rp Entry4.b i) +
  ∑ i ∈ Finset.range 9, bndD B (rp Entry4.c i) + ∑ i ∈ Finset.range 9, bndD B (rp Entry4.d i)) * (Real.exp M + 1)

theorem bndD_sum9_nonneg {B : ℝ} (hB : 0 ≤ B) (f : ℕ → PL) : 0 ≤ ∑ i ∈ Finset.range 9, bndD B (f i) :=
  Finset.sum_nonneg (fun _ _ => bndD_nonneg hB _)

theorem pertD_nonneg (M : ℝ) {B : ℝ} (hB : 0 ≤ B) : 0 ≤ pertD M B := by
  unfold pertD
  have := bndD_sum9_nonneg hB (rp Entry4.a); have := bndD_sum9_nonneg hB (rp Entry4.b)
  have := bndD_sum9_nonneg hB (rp Entry4.c); have := bndD_sum9_nonneg hB (rp Entry4.d)
  have := Real.exp_pos M
  positivity

/-- Changing the scaled coefficients `v_k h^k`, `k ≥ 1`, by at most `τ` changes the entries of a partial step by at most `C h τ`. -/
theorem calcDelta_perturb {σ : ℝ} {eta : ℕ → ℝ → ℕ → ℝ} (he : EtaWithin σ eta) (hσ1 : σ ≤ 1) {M B : ℝ} (hB : 1 ≤ B) {v w : ℕ → ℝ} {h E τ δ : ℝ} (h0 : 0 < h) (h1 : h ≤ 1)
    (hδ : δ ∈ Set.Icc 0 h)
    (hv : ∀ k, 1 ≤ k → |v k| * h ^ k ≤ B) (hw : ∀ k, 1 ≤ k → |w k| * h ^ k ≤ B) (hd : ∀ k, 1 ≤ k → |v k - w k| * h ^ k ≤ τ)
    (h00 : v 0 = w 0) (hE : |v 0 - E| ≤ M) (p : Cp) :
    |p.of (calcDelta eta (mkSec h v) E δ).t - p.of (calcDelta eta (mkSec h w) E δ).t| ≤ pertD M B * (h * τ) := by
  have hτ : 0 ≤ τ := le_trans (by positivity) (hd 1 le_rfl)
  rw [calcDelta_of p _ h0.ne', calcDelta_of p _ h0.ne', h00, add_sub_add_left_eq_sub, ← Finset.sum_sub_distrib]
  rw [h00] at hE
  set Z := (w 0 - E) * (δ * δ) with hZ
  have heta : ∀ i < 9, |eta 9 Z i| ≤ Real.exp M + 1 := by
    intro i hi
    have e1 := he 9 (by norm_num) Z i hi
    have e2 := abs_etaZ_le hE hδ.1 (hδ.2.trans h1) i
    rw [show (w 0 - E) * δ ^ 2 = Z by rw [hZ]; ring] at e2
    have e3 : eta 9 Z i = (eta 9 Z i - Eta.eta i Z) + Eta.eta i Z := by ring
    rw [e3]
    refine (abs_add_le _ _).trans ?_
    have e4 : |eta 9 Z i - Eta.eta i Z| ≤ 1 := e1.trans hσ1
    linarith
  have hs : ∀ i ∈ Finset.range 9, |eval v h (δ / h) (rp p.sel i) / D * eta 9 Z i - eval w h (δ / h) (rp p.sel i) / D * eta 9 Z i| ≤
      bndD B (rp p.sel i) * (h * τ) * (Real.exp M + 1) := by
    intro i hi
    rw [← sub_mul, ← sub_div, abs_mul]
    have k := eval_diff h0.le h1 (div_nonneg hδ.1 h0.le) ((div_le_one h0).mpr hδ.2) hB hv hw hd (rp p.sel i)
      (rp_hom p (Finset.mem_range.mp hi)) (rp_good p i)
    rw [pow_one] at k
    refine mul_le_mul ?_ (heta i (Finset.mem_range.mp hi)) (abs_nonneg _) (mul_nonneg (bndD_nonneg (by linarith) _) (by positivity))
    rw [abs_div, abs_of_pos D_pos]
    exact (div_le_self (abs_nonneg _) D_ge).trans k
  refine ((Finset.abs_sum_le_sum_abs _ _).trans (Finset.sum_le_sum hs)).trans ?_
  rw [← Finset.sum_mul, ← Finset.sum_mul]
  have hB0 : 0 ≤ B := by linarith
  have a1 := bndD_sum9_nonneg hB0 (rp Entry4.a); have a2 := bndD_sum9_nonneg hB0 (rp Entry4.b)
  have a3 := bndD_sum9_nonneg hB0 (rp Entry4.c); have a4 := bndD_sum9_nonneg hB0 (rp Entry4.d)
  have ee := Real.exp_pos M
  unfold pertD
  have hle : ∑ i ∈ Finset.range 9, bndD B (rp p.sel i) ≤ ∑ i ∈ Finset.range 9, bndD B (rp Entry4.a i) + ∑ i ∈ Finset.range 9, bndD B (rp Entry4.b i) +
      ∑ i ∈ Finset.range 9, bndD B (rp Entry4.c i) + ∑ i ∈ Finset.range 9, bndD B (rp Entry4.d i) := by
    cases p <;> simp only [Cp.sel] <;> linarith
  calc (∑ i ∈ Finset.range 9, bndD B (rp p.sel i)) * (h * τ) * (Real.exp M + 1) = (∑ i ∈ Finset.range 9, bndD B (rp p.sel i)) * ((h * τ) * (Real.exp M + 1)) := by ring
    _ ≤ _ * ((h * τ) * (Real.exp M + 1)) := mul_le_mul_of_nonneg_right hle (by positivity)
    _ = _ := by ring

end Verif.CalcT
