import Verif.Props.Rounding
import Verif.Props.RoundingEta
import Verif.Lemmas.FlCoeff

/-!
# The coefficients in finite precision (C118), and the whole code in finite precision (C119)
-/
namespace Verif.Fp
open Verif.Mesh Verif.YT Verif.CalcT Verif.Propag Verif.Solver Verif.Spec Verif.Legendre Verif.Eta

variable {u mu : ℝ} {fl : ℝ → ℝ}

/-- **C118.** The Legendre coefficients a sector stores, computed in finite precision (points of evaluation, half width, weighted sums, powers, quotients and signs all rounded) from a potential function `V` that returns `W` up to `δ`: scaled by
the width they differ from the exact Legendre coefficients of `W` (mirrored in a backward sector) by at most `16 M/10¹⁴ + 37 M H¹⁶ + 150 δ + 20000 M u (1 + X)`, where `M` bounds `W` and sixteen derivatives and `X` bounds `|min| + |max|`.
The width must be at least `1600 u X`, and its power 15 not underflow. All the points of evaluation are in the sector. -/
theorem C118_coefficients (hr : Rounding u mu fl) (hu : 0 ≤ u) (hu' : u ≤ 1 / 1000) {M δ X H : ℝ} (hM : 1 ≤ M) (hδ0 : 0 ≤ δ) {s : Sec (Fl fl)} (hlt : s.min.val < s.max.val) (hn : s.max.val - s.min.val ≤ H) (hH : H ≤ 1)
    (hX : |s.min.val| + |s.max.val| ≤ X) (hfine : 1600 * u * X ≤ s.max.val - s.min.val) (hm : mu ≤ ((s.max.val - s.min.val) / 2) ^ 15) {V : Fl fl → Fl fl} {W : ℝ → ℝ} (hW : SmoothOn M W s.min.val s.max.val)
    (hV : ∀ x : Fl fl, s.min.val ≤ x.val → x.val ≤ s.max.val → |(V x).val - W x.val| ≤ δ) :
    CoeffWithin (16 * M / 10 ^ 14 + 37 * M * H ^ 16 + (150 * δ + 20000 * M * u * (1 + X))) (oriented W (realSec s)) s.min.val s.max.val (fun k => (sectorVsGen V s k).val) :=
  coeff_fl hr hu hu' hM hδ0 hlt hn hH hX hfine hm hW hV

/-- **C119, the ingredients.** The code's own η functions, coefficients and threshold, all in finite precision, satisfy the assumptions of C114 – C116, with explicit accuracies. -/
theorem C119_fit {M H a δ X : ℝ} {W : Sec ℝ → ℝ → ℝ} {dmin dmax : Fl fl} {l : List (Sec (Fl fl))} {F : Elem (Fl fl)} {V : Fl fl → Fl fl} (h : CodeFl M H u mu a δ X W dmin dmax l F V) (hM : 1 ≤ M) (hδ : 0 ≤ δ)
    {R : ℝ} (hR1 : 1 ≤ R) (hR : 6 * M * H ≤ R) (hs : 320 * u + (3 + Real.sqrt R) * a ≤ 1) (junk : ℕ → Fl fl) :
    FlFit M H u mu (codeSigma u a R) (codeTau M H u δ X) (6 * M * H) W dmin dmax (CCmp.lit EPS) l (fun n Z => calculateEta F n junk Z) (sectorVsGen V) := by
  have u0 := h.u0
  have u1 := h.u1
  have eps0 : |(CCmp.lit EPS : Fl fl).val - 1 / 10 ^ 12| ≤ u * (1 / 10 ^ 12) := by
    have := h.r.err (1 / 10 ^ 12)
    have e : (CCmp.lit EPS : Fl fl).val = fl (1 / 10 ^ 12) := by
      simp only [Fl.lit_val, EPS]; norm_num
    rw [e]
    refine this.trans (mul_le_mul_of_nonneg_left (max_le ?_ (h.mu1.trans (by norm_num))) u0)
    rw [abs_of_pos (by norm_num)]
  have eps1 := abs_le.mp eps0
  have lt : ∀ s ∈ l, s.min.val < s.max.val := fun s hs => by have := h.wide s hs; norm_num at this ⊢; linarith
  refine ⟨h.r, u0, h.mu0, h.fit, fun s hs => ?_, ?_, fun s hs => ?_, ?_, fun s hs => ?_⟩
  · have := h.wide s hs
    refine h.mu1.trans (le_trans ?_ this)
    norm_num
  · have : u * (1 / 10 ^ 12) ≤ 1 / 1000 * (1 / 10 ^ 12) := mul_le_mul_of_nonneg_right u1 (by norm_num)
    norm_num at this eps1 ⊢
    linarith
  · have hw := h.wide s hs
    have h0 : 0 < s.max.val - s.min.val := by linarith [lt s hs]
    have r1 := h.r.err (s.max.val - s.min.val)
    rw [abs_of_pos h0, max_eq_left (h.mu1.trans (le_trans (by norm_num) hw))] at r1
    have r2 := (abs_le.mp r1).1
    have r3 : u * (s.max.val - s.min.val) ≤ 1 / 1000 * (s.max.val - s.min.val) := mul_le_mul_of_nonneg_right u1 h0.le
    have r4 : u * (1 / 10 ^ 12) ≤ 1 / 1000 * (1 / 10 ^ 12) := mul_le_mul_of_nonneg_right u1 (by norm_num)
    rw [Fl.sub_val]
    norm_num at r4 eps1 hw ⊢
    linarith
  · intro n hn hn' Z hZ i hi
    exact C117_uniform h.r u0 u1 h.mu0 (h.mu1.trans (by norm_num)) h.hundred h.a1 h.elem junk hR1 hs n hn hn' Z (hZ.trans hR) i hi
  · have hm := List.mem_map_of_mem (f := realSec) hs
    refine coeff_fl h.r u0 u1 hM hδ (lt s hs) (h.fit.narrow _ hm) h.fit.small (h.size s hs) (h.fine s hs) ?_ (h.fit.smooth _ hm) (h.potential s hs)
    have hw := h.wide s hs
    have : (1 / 10 ^ 12 : ℝ) ^ 15 ≤ ((s.max.val - s.min.val) / 2) ^ 15 := pow_le_pow_left₀ (by norm_num) (by linarith) 15
    refine h.mu1.trans (le_trans (by norm_num) this)

theorem codeSigma_nonneg {a R : ℝ} (hu : 0 ≤ u) (ha : 0 ≤ a) : 0 ≤ codeSigma u a R := by
  have := mul_nonneg (show 0 ≤ 3 + Real.sqrt R by linarith [Real.sqrt_nonneg R]) ha
  unfold codeSigma
  have := Real.cosh_pos (Real.sqrt R)
  positivity

/-- **C119, the solution.** The whole code in finite precision: for every bound `M` there is a constant `C` such that for every rounding, mesh, potential function and elementary functions within the bounds (`CodeFl`), with `N` sectors and
`codeTau + N (u + codeSigma) ≤ ε ≤ 1/8`: `propagate` between mesh points, started with the exact values of a solution, returns its values up to `C (H^16 + ε)` times their size at the start (`H^14` without `use_h`), plus `C (H^16 + ε) mu`. -/
theorem C119_propagate (M : ℝ) (hM : 1 ≤ M) : ∃ C : ℝ, 1 ≤ C ∧ ∀ (fl : ℝ → ℝ) (H u mu a δ X R ε : ℝ) (W : Sec ℝ → ℝ → ℝ) (dmin dmax : Fl fl) (r : BuildResult (Fl fl)) (F : Elem (Fl fl)) (V : Fl fl → Fl fl) (junk : ℕ → Fl fl)
    (th : Fl fl → Fl fl → Fl fl → Y (Fl fl) → Fl fl) (pru : Fl fl → Fl fl → Fl fl → Fl fl → Y (Fl fl) → Y (Fl fl) → Fl fl) (pi E x1 x2 : Fl fl) (useH : Bool) (y dy : ℝ → ℝ) (c : Y (Fl fl)),
    CodeFl M H u mu a δ X W dmin dmax r.sectors F V → 0 ≤ δ → 1 ≤ R → 6 * M * H ≤ R → 320 * u + (3 + Real.sqrt R) * a ≤ 1 →
    codeTau M H u δ X + r.sectors.length * (u + codeSigma u a R) ≤ ε → ε ≤ 1 / 8 → dmax.val - dmin.val ≤ M → |E.val| ≤ M →
    SolvesMesh W E.val (realMesh r.sectors) y dy → IsBoundary (bounds (realMesh r.sectors)) x1.val → IsBoundary (bounds (realMesh r.sectors)) x2.val → c.y.val = y x1.val → c.dy.val = dy x1.val →
    ∃ res, (constructGen (CCmp.lit EPS) (fun n Z => calculateEta F n junk Z) th pru (sectorVsGen V) dmin dmax r).propagate pi E c x1 x2 useH = .ok res ∧
      |res.1.y.val - y x2.val| ≤ C * (H ^ (if useH then 16 else 14) + ε) * (max |y x1.val| |dy x1.val| + mu) ∧
      |res.1.dy.val - dy x2.val| ≤ C * (H ^ (if useH then 16 else 14) + ε) * (max |y x1.val| |dy x1.val| + mu) := by
  obtain ⟨C, hC, key⟩ := C114_propagate M hM
  refine ⟨C, hC, ?_⟩
  intro fl H u mu a δ X R ε W dmin dmax r F V junk th pru pi E x1 x2 useH y dy c h hδ hR1 hR hs hε hε1 hd hE hy b1 b2 c1 c2
  exact key fl H u mu (codeSigma u a R) (codeTau M H u δ X) ε W dmin dmax _ r _ _ th pru pi E x1 x2 useH y dy c (C119_fit h hM hδ hR1 hR hs junk) (codeSigma_nonneg h.u0 h.elem.a0) hε hε1 hd hE hy b1 b2 c1 c2

/-- **C119, the matching error.** The computed matching error of the whole code differs from the Wronskian of the exact solutions with the given boundary values by at most `C (H^16 + ε)` times the sizes of the boundary values, with `ε` as for `propagate`. -/
theorem C119_matching_error (M : ℝ) (hM : 1 ≤ M) : ∃ C : ℝ, 1 ≤ C ∧ ∀ (fl : ℝ → ℝ) (H u mu a δ X R ε : ℝ) (W : Sec ℝ → ℝ → ℝ) (dmin dmax : Fl fl) (r : BuildResult (Fl fl)) (F : Elem (Fl fl)) (V : Fl fl → Fl fl) (junk : ℕ → Fl fl)
    (th : Fl fl → Fl fl → Fl fl → Y (Fl fl) → Fl fl) (pru : Fl fl → Fl fl → Fl fl → Fl fl → Y (Fl fl) → Y (Fl fl) → Fl fl) (pi E : Fl fl) (useH : Bool) (left right : Y (Fl fl)) (sL sR : ℝ) (yL dyL yR dyR : ℝ → ℝ),
    CodeFl M H u mu a δ X W dmin dmax r.sectors F V → 0 ≤ δ → 1 ≤ R → 6 * M * H ≤ R → 320 * u + (3 + Real.sqrt R) * a ≤ 1 →
    codeTau M H u δ X + r.sectors.length * (u + codeSigma u a R) ≤ ε → ε ≤ 1 / 8 → dmax.val - dmin.val ≤ M → |E.val| ≤ M → r.matchIndex < r.sectors.length → BoundaryFl mu sL sR left right →
    SolvesMesh W E.val (realMesh r.sectors) yL dyL → yL dmin.val = left.y.val → dyL dmin.val = left.dy.val →
    SolvesMesh W E.val (realMesh r.sectors) yR dyR → yR dmax.val = right.y.val → dyR dmax.val = right.dy.val →
    ∃ err, (constructGen (CCmp.lit EPS) (fun n Z => calculateEta F n junk Z) th pru (sectorVsGen V) dmin dmax r).matchingError pi E left right useH = .ok err ∧ ∀ x ∈ Set.Icc dmin.val dmax.val,
      |err.1.val - (dyL x * yR x - dyR x * yL x)| ≤ C * (H ^ (if useH then 16 else 14) + ε) * (sL * sR) := by
  obtain ⟨C, hC, key⟩ := C115_matching_error M hM
  refine ⟨C, hC, ?_⟩
  intro fl H u mu a δ X R ε W dmin dmax r F V junk th pru pi E useH left right sL sR yL dyL yR dyR h hδ hR1 hR hs hε hε1 hd hE hm hB l1 l2 l3 r1 r2 r3
  exact key fl H u mu (codeSigma u a R) (codeTau M H u δ X) ε W dmin dmax _ r _ _ th pru pi E useH left right sL sR yL dyL yR dyR (C119_fit h hM hδ hR1 hR hs junk) (codeSigma_nonneg h.u0 h.elem.a0) hε hε1 hd hE hm
    hB.left hB.right hB.muL hB.muR hB.muLR l1 l2 l3 r1 r2 r3

/-! ### A concrete case: `V(x) = x * x` in `double` precision on `[0, 1]`, two sectors -/

/-- two sectors, one forward and one backward -/
noncomputable def flDemo : List (Sec (Fl fl)) := [⟨0, ⟨1 / 2⟩, .forward⟩, ⟨⟨1 / 2⟩, 1, .backward⟩]

theorem flDemo_fit : FitMesh 0 2 (1 / 2) (fun _ x => x * x) 0 1 (realMesh (flDemo (fl := fl))) := by
  have sm : ∀ a b : ℝ, 0 ≤ a → b ≤ 1 → SmoothOn 2 (fun x => x * x) a b := by
    intro a b ha hb
    refine ⟨fun j x => if j = 0 then x * x else if j = 1 then 2 * x else if j = 2 then 2 else 0, fun x _ => by simp, fun j hj x hx => ?_, fun j hj x hx => ?_⟩
    · rcases j with _ | _ | _ | j
      · simp only [if_true, zero_add, one_ne_zero, if_false]
        exact (((hasDerivAt_id x).mul (hasDerivAt_id x)).congr_deriv (by simp; ring)).hasDerivWithinAt
      · simp only [zero_add, one_ne_zero, if_false, if_true]
        norm_num
        exact (((hasDerivAt_id x).const_mul 2).congr_deriv (by simp)).hasDerivWithinAt
      · norm_num
        exact hasDerivWithinAt_const _ _ _
      · simp only [show j + 1 + 1 + 1 ≠ 0 by omega, show j + 1 + 1 + 1 ≠ 1 by omega, show j + 1 + 1 + 1 ≠ 2 by omega, show j + 1 + 1 + 1 + 1 ≠ 0 by omega, show j + 1 + 1 + 1 + 1 ≠ 1 by omega, show j + 1 + 1 + 1 + 1 ≠ 2 by omega, if_false]
        exact hasDerivWithinAt_const _ _ _
    · have h0 : 0 ≤ x := by linarith [hx.1]
      have h1 : x ≤ 1 := by linarith [hx.2]
      simp only
      split_ifs
      · rw [abs_of_nonneg (by positivity)]; nlinarith
      · rw [abs_of_nonneg (by positivity)]; linarith
      · norm_num
      · norm_num
  have e : realMesh (flDemo (fl := fl)) = [⟨0, 1 / 2, .forward⟩, ⟨1 / 2, 1, .backward⟩] := rfl
  rw [e]
  refine ⟨⟨⟨by simp [bounds], by simp [bounds], by simp [bounds], ?_⟩, ?_⟩, ?_, le_rfl, ?_, ?_, by norm_num, ?_⟩
  · intro i hi
    have : i = 0 := by simp [bounds] at hi; omega
    subst this; simp [bounds, SamePoint]
  all_goals simp
  · norm_num
  · norm_num
  · norm_num
  · exact ⟨sm _ _ le_rfl (by norm_num), sm _ _ (by norm_num) le_rfl⟩

/-- `double` is such a type -/
theorem double_rounding : Rounding (1 / 2 ^ 53) (1 / 2 ^ 1022) (rne 53 (-1074)) := by
  have hr := rounding_rne 53 (by norm_num) (-1074)
  have e1 : ((2 : ℝ) ^ (-((53 : ℕ) : ℤ))) = 1 / 2 ^ 53 := by norm_num [zpow_neg]
  have e2 : ((2 : ℝ) ^ ((-1074 : ℤ) + ((53 : ℕ) : ℤ) - 1)) = 1 / 2 ^ 1022 := by
    rw [show (-1074 : ℤ) + ((53 : ℕ) : ℤ) - 1 = -((1022 : ℕ) : ℤ) by norm_num, zpow_neg, zpow_natCast, one_div]
  rwa [e1, e2] at hr

theorem double_mu : (1 : ℝ) / 2 ^ 1022 ≤ 1 / 10 ^ 180 := one_div_le_one_div_of_le (by norm_num) (by
  calc (10 : ℝ) ^ 180 = (10 ^ 3) ^ 60 := by rw [← pow_mul]
    _ ≤ (2 ^ 10) ^ 60 := pow_le_pow_left₀ (by norm_num) (by norm_num) 60
    _ = 2 ^ 600 := by rw [← pow_mul]
    _ ≤ 2 ^ 1022 := pow_le_pow_right₀ (by norm_num) (by norm_num))

/-- In `double` precision, with correctly rounded elementary functions and the potential `x * x` as the user's function computes it, the assumptions hold. -/
theorem flDemo_code : CodeFl (fl := rne 53 (-1074)) 2 (1 / 2) (1 / 2 ^ 53) (1 / 2 ^ 1022) (1 / 2 ^ 53) (1 / 2 ^ 53) 2 (fun _ x => x * x) 0 1 flDemo (elemRounded _) (fun x => x * x) where
  r := double_rounding
  u0 := by positivity
  u1 := by norm_num
  mu0 := by positivity
  mu1 := double_mu
  hundred := rne_100 53 (by norm_num) (-1074) (by norm_num)
  elem := elemRounded_ok double_rounding (by positivity) (double_mu.trans (by norm_num))
  a1 := by norm_num
  fit := flDemo_fit
  size := by simp [flDemo]; norm_num
  wide := by simp [flDemo]; norm_num
  fine := by simp [flDemo]; norm_num
  potential := by
    intro s hs x h1 h2
    have hb : 0 ≤ x.val ∧ x.val ≤ 1 := by
      simp only [flDemo, List.mem_cons, List.not_mem_nil, or_false] at hs
      rcases hs with rfl | rfl <;> simp at h1 h2 <;> constructor <;> linarith
    refine (double_rounding.err _).trans ?_
    refine mul_le_of_le_one_right (by positivity) (max_le ?_ (double_mu.trans (by norm_num)))
    rw [abs_of_nonneg (by nlinarith)]
    nlinarith

example : codeTau 2 (1 / 2) (1 / 2 ^ 53) (1 / 2 ^ 53) 2 + (flDemo (fl := rne 53 (-1074))).length * ((1 / 2 ^ 53) + codeSigma (1 / 2 ^ 53) (1 / 2 ^ 53) 6) ≤ 2 / 1000 ∧
    320 * (1 / 2 ^ 53 : ℝ) + (3 + Real.sqrt 6) * (1 / 2 ^ 53) ≤ 1 ∧ 6 * 2 * (1 / 2 : ℝ) ≤ 6 := by
  have s3 : Real.sqrt 6 ≤ 3 := Real.sqrt_le_iff.mpr (by norm_num)
  have c : Real.cosh (Real.sqrt 6) ≤ 11 := by
    have h1 : Real.cosh (Real.sqrt 6) ≤ Real.cosh 3 := Real.cosh_le_cosh.mpr (by rw [abs_of_nonneg (Real.sqrt_nonneg _), abs_of_nonneg (by norm_num)]; exact s3)
    refine h1.trans ?_
    rw [Real.cosh_eq]
    have h2 : Real.exp 3 ≤ 21 := by
      have : Real.exp 3 = Real.exp 1 ^ 3 := by rw [← Real.exp_nat_mul]; norm_num
      rw [this]
      have h := Real.exp_one_lt_d9
      calc Real.exp 1 ^ 3 ≤ (2.7182818286 : ℝ) ^ 3 := pow_le_pow_left₀ (Real.exp_pos 1).le h.le 3
        _ ≤ 21 := by norm_num
    have h3 : Real.exp (-3) ≤ 1 := Real.exp_le_one_iff.mpr (by norm_num)
    linarith
  have len : ((flDemo (fl := rne 53 (-1074))).length : ℝ) = 2 := by simp [flDemo]
  have e1 : (3 + Real.sqrt 6) * (1 / 2 ^ 53) ≤ 6 * (1 / 2 ^ 53) := mul_le_mul_of_nonneg_right (by linarith) (by positivity)
  refine ⟨?_, by norm_num at e1 ⊢; linarith, by norm_num⟩
  rw [len]
  unfold codeTau codeSigma
  have e0 : 0 ≤ (3 + Real.sqrt 6) * (1 / 2 ^ 53) := mul_nonneg (by linarith [Real.sqrt_nonneg 6]) (by positivity)
  have e2 : (2 * (320 * (1 / 2 ^ 53) + (3 + Real.sqrt 6) * (1 / 2 ^ 53)) + 1 / 10 ^ 38) * Real.cosh (Real.sqrt 6) ≤ (2 * (320 * (1 / 2 ^ 53) + 6 * (1 / 2 ^ 53)) + 1 / 10 ^ 38) * 11 :=
    mul_le_mul (by linarith) c (Real.cosh_pos _).le (by positivity)
  refine le_trans (add_le_add le_rfl (mul_le_mul_of_nonneg_left (add_le_add le_rfl e2) (by norm_num))) ?_
  norm_num

end Verif.Fp
