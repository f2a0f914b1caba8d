import Verif.Lemmas.MatscsOde
import Verif.Lemmas.VectorOde
import Verif.Props.Legendre

/-!
# The exact tables of coupled systems and the exact solution
-/
namespace Verif.NP
open Verif.MFormulas Verif.Legendre

attribute [local instance] Matrix.linftyOpNormedAddCommGroup Matrix.linftyOpNormedSpace Matrix.linftyOpNormedRing Matrix.linftyOpNormedAlgebra

section
variable {n r : ℕ}

/-- the value of a list of terms over the common denominator -/
noncomputable def iv (l : NP) (v : ℕ → Mat n ℝ) (e : ℕ → ℝ → Mat n ℝ) (h δ : ℝ) : Mat n ℝ := (1 / 40320 : ℝ) • ev v (atd e δ) h δ l

theorem norm_dVm_le {B : ℝ} {v : ℕ → Mat n ℝ} {h δ : ℝ} (h0 : 0 < h) (h1 : h ≤ 1) (d0 : 0 ≤ δ) (d1 : δ ≤ h) (hB : 0 ≤ B) (hv : ∀ k, ‖v k‖ ≤ B) : ‖dVm v h δ‖ ≤ 8 * B := by
  unfold dVm
  refine (norm_sum_le _ _).trans ?_
  calc ∑ k ∈ Finset.range 8, ‖(h ^ (k + 1) * shiftedP (k + 1) (δ / h)) • v (k + 1)‖ ≤ ∑ _k ∈ Finset.range 8, B := by
        refine Finset.sum_le_sum (fun k hk => ?_)
        rw [Finset.mem_range] at hk
        rw [norm_smul, Real.norm_eq_abs, abs_mul, abs_of_nonneg (by positivity : 0 ≤ h ^ (k + 1))]
        have e1 := (C41_table (i := k + 1) (by omega) (δ / h)).2.2.2 (by positivity) (by rw [div_le_one h0]; exact d1)
        have e2 : h ^ (k + 1) ≤ 1 := pow_le_one₀ h0.le h1
        have e3 : h ^ (k + 1) * |shiftedP (k + 1) (δ / h)| ≤ 1 := mul_le_one₀ e2 (abs_nonneg _) e1
        calc h ^ (k + 1) * |shiftedP (k + 1) (δ / h)| * ‖v (k + 1)‖ ≤ 1 * B := mul_le_mul e3 (hv _) (norm_nonneg _) zero_le_one
          _ = B := one_mul B
    _ = 8 * B := by simp

theorem pair_deriv {f g : ℝ → Mat n ℝ} {f' g' : Mat n ℝ} {x : ℝ} (c : ℝ) (hf : HasDerivAt f f' x) (hg : HasDerivAt g g' x) (Y Z : Matrix (Fin n) (Fin r) ℝ) (s : Set ℝ) :
    HasDerivWithinAt (fun x => c • f x * Y + c • g x * Z) (c • f' * Y + c • g' * Z) s x := by
  have h1 : HasDerivWithinAt (fun x => c • f x) (c • f') s x := (hf.fun_const_smul c).hasDerivWithinAt
  have h2 : HasDerivWithinAt (fun x => c • g x) (c • g') s x := (hg.fun_const_smul c).hasDerivWithinAt
  exact (mul_right_deriv h1 Y).fun_add (mul_right_deriv h2 Z)

/-- The identities between four lists of terms. -/
structure Tab (a b c d : NP) : Prop where
  r1 : cancels 9 (res1 a c) = true
  r2 : cancels 9 (res2 a c) = true
  r3 : cancels 9 (res1 b d) = true
  r4 : cancels 9 (res2 b d) = true
  da : ∀ m ∈ a, okD m = true
  db : ∀ m ∈ b, okD m = true
  dc : ∀ m ∈ c, okD m = true
  dd : ∀ m ∈ d, okD m = true
  pa : ∀ m ∈ a, okP m = true
  pb : ∀ m ∈ b, okP m = true
  za : a.filter (fun m => m.j == 0) = [mk 0 0 0 [] LL]
  zb : b.filter (fun m => m.j == 0) = []
  zc : c.filter (fun m => m.j == 0) = []
  zd : d.filter (fun m => m.j == 0) = [mk 0 0 0 [] LL]

/-- The tables of the code, with the terms beyond them, satisfy the identities. -/
theorem tab_U : Tab Ua Ub Uc Ud where
  r1 := res1_ac
  r2 := res2_ac
  r3 := res1_bd
  r4 := res2_bd
  da := fun _ hm => List.all_eq_true.mp okD_all _ (List.mem_append_left _ (List.mem_append_left _ (List.mem_append_left _ hm)))
  db := fun _ hm => List.all_eq_true.mp okD_all _ (List.mem_append_left _ (List.mem_append_left _ (List.mem_append_right _ hm)))
  dc := fun _ hm => List.all_eq_true.mp okD_all _ (List.mem_append_left _ (List.mem_append_right _ hm))
  dd := fun _ hm => List.all_eq_true.mp okD_all _ (List.mem_append_right _ hm)
  pa := fun _ hm => List.all_eq_true.mp okP_all _ (List.mem_append_left _ hm)
  pb := fun _ hm => List.all_eq_true.mp okP_all _ (List.mem_append_right _ hm)
  za := zero_a
  zb := zero_b
  zc := zero_c
  zd := zero_d

/-- constants of the residuals -/
noncomputable def rCof (a b c d : NP) (B : ℝ) : ℝ :=
  cB B (high 9 (res1 a c)) + cB B (high 9 (res2 a c)) + cB B (high 9 (res1 b d)) + cB B (high 9 (res2 b d)) + cB B a + cB B b

theorem rC_parts (a b c d : NP) {B : ℝ} (hB : 0 ≤ B) : 0 ≤ cB B (high 9 (res1 a c)) ∧ 0 ≤ cB B (high 9 (res2 a c)) ∧ 0 ≤ cB B (high 9 (res1 b d)) ∧
    0 ≤ cB B (high 9 (res2 b d)) ∧ 0 ≤ cB B a ∧ 0 ≤ cB B b :=
  ⟨cB_nonneg hB _, cB_nonneg hB _, cB_nonneg hB _, cB_nonneg hB _, cB_nonneg hB _, cB_nonneg hB _⟩

set_option maxHeartbeats 1600000 in
/-- a step with the exact tables -/
theorem ideal_step_gen {ta tb tc td : NP} (T : Tab ta tb tc td) {B : ℝ} {v : ℕ → Mat n ℝ} {e : ℕ → ℝ → Mat n ℝ} {h κ S : ℝ} {V : ℝ → Mat n ℝ} {y dy : ℝ → Matrix (Fin n) (Fin r) ℝ}
    (he : EtaFam v e) (hh : 0 < h) (hv : ∀ k, Commute (v 9 - v 0) (v k)) (b : ∀ δ ∈ Set.Icc 0 h, Bnd B v (atd e δ) h δ) (e0 : e 0 0 = 1)
    (hV : ∀ x ∈ Set.Icc 0 h, ‖V x - (v 9 + dVm v h x)‖ ≤ κ) (hκ : κ ≤ B)
    (hy : ∀ x ∈ Set.Icc 0 h, HasDerivWithinAt y (dy x) (Set.Icc 0 h) x)
    (hdy : ∀ x ∈ Set.Icc 0 h, HasDerivWithinAt dy (V x * y x) (Set.Icc 0 h) x)
    (s1 : ‖y 0‖ ≤ S) (s2 : ‖dy 0‖ ≤ S) {δ : ℝ} (hδ : δ ∈ Set.Icc 0 h) :
    ‖iv ta v e h δ * y 0 + iv tb v e h δ * dy 0 - y δ‖ ≤ rCof ta tb tc td B * (h ^ 9 + κ) * S * h * Real.exp (10 * B + 2) ∧
    ‖iv tc v e h δ * y 0 + iv td v e h δ * dy 0 - dy δ‖ ≤ rCof ta tb tc td B * (h ^ 9 + κ) * S * h * Real.exp (10 * B + 2) := by
  have hS : 0 ≤ S := (norm_nonneg _).trans s1
  have b0 := b 0 ⟨le_rfl, hh.le⟩
  have hB : 0 ≤ B := by linarith [b0.B1]
  have h1 : h ≤ 1 := b0.h1
  have hκ0 : 0 ≤ κ := (norm_nonneg _).trans (hV 0 ⟨le_rfl, hh.le⟩)
  obtain ⟨c1, c2, c3, c4, c5, c6⟩ := rC_parts ta tb tc td hB
  have ra := fun x (hx : x ∈ Set.Icc 0 h) => resid T.r1 T.r2 T.da T.dc T.pa he hh hv (b x hx)
  have rb := fun x (hx : x ∈ Set.Icc 0 h) => resid T.r3 T.r4 T.db T.dd T.pb he hh hv (b x hx)
  choose! dua dwa a1 a2 a3 a4 using ra
  choose! dub dwb b1 b2 b3 b4 using rb
  have hnV : ∀ x ∈ Set.Icc 0 h, ‖V x‖ ≤ 10 * B + 1 := by
    intro x hx
    have e1 : V x = (V x - (v 9 + dVm v h x)) + (v 9 + dVm v h x) := by abel
    rw [e1]
    have e2 := norm_add_le (V x - (v 9 + dVm v h x)) (v 9 + dVm v h x)
    have e3 := norm_add_le (v 9) (dVm v h x)
    have e4 := norm_dVm_le hh h1 hx.1 hx.2 hB b0.v
    have e5 := hV x hx
    have e6 := b0.v 9
    linarith
  have hev : ∀ x ∈ Set.Icc 0 h, ∀ l, ‖ev v (atd e x) h x l‖ ≤ cB B l := by
    intro x hx l
    simpa using (b x hx).ev_le 0 l (fun _ _ => Nat.zero_le _)
  obtain ⟨K, hK⟩ : ∃ K, K = rCof ta tb tc td B * (h ^ 9 + κ) * S := ⟨_, rfl⟩
  have hrC : 0 ≤ rCof ta tb tc td B := add_nonneg (add_nonneg (add_nonneg (add_nonneg (add_nonneg c1 c2) c3) c4) c5) c6
  have hK0 : 0 ≤ K := by rw [hK]; exact mul_nonneg (mul_nonneg hrC (add_nonneg (pow_nonneg hh.le 9) hκ0)) hS
  have hs : ∀ (P R : Mat n ℝ) (p q : ℝ), ‖P‖ ≤ p → ‖R‖ ≤ q → ‖(1 / 40320 : ℝ) • P * y 0 + (1 / 40320 : ℝ) • R * dy 0‖ ≤ (p + q) * S := by
    intro P R p q hP hR
    have q1 := norm_add_le ((1 / 40320 : ℝ) • P * y 0) ((1 / 40320 : ℝ) • R * dy 0)
    have q2 := Matrix.linfty_opNorm_mul ((1 / 40320 : ℝ) • P) (y 0)
    have q3 := Matrix.linfty_opNorm_mul ((1 / 40320 : ℝ) • R) (dy 0)
    rw [norm_smul, Real.norm_eq_abs, abs_of_nonneg (by norm_num : (0 : ℝ) ≤ 1 / 40320)] at q2 q3
    have q4 : 1 / 40320 * ‖P‖ * ‖y 0‖ ≤ p * S :=
      mul_le_mul (by linarith [norm_nonneg P]) s1 (norm_nonneg _) ((norm_nonneg _).trans hP)
    have q5 : 1 / 40320 * ‖R‖ * ‖dy 0‖ ≤ q * S :=
      mul_le_mul (by linarith [norm_nonneg R]) s2 (norm_nonneg _) ((norm_nonneg _).trans hR)
    linarith
  have key := vdefect_bound (X := Matrix (Fin n) (Fin r) ℝ) (a := 0) (b := h) (K := 10 * B + 1) (r := K) (q := fun x p => V x * p)
    (u := fun x => iv ta v e h x * y 0 + iv tb v e h x * dy 0) (du := fun x => (1 / 40320 : ℝ) • dua x * y 0 + (1 / 40320 : ℝ) • dub x * dy 0)
    (w := fun x => iv tc v e h x * y 0 + iv td v e h x * dy 0) (dw := fun x => (1 / 40320 : ℝ) • dwa x * y 0 + (1 / 40320 : ℝ) • dwb x * dy 0) (y := y) (dy := dy)
    (by linarith) hK0
    (fun x hx p p' => by
      rw [← Matrix.mul_sub]
      exact (Matrix.linfty_opNorm_mul _ _).trans (mul_le_mul_of_nonneg_right (hnV x hx) (norm_nonneg _)))
    (fun x hx => pair_deriv _ (a1 x hx) (b1 x hx) (y 0) (dy 0) _)
    (fun x hx => pair_deriv _ (a2 x hx) (b2 x hx) (y 0) (dy 0) _)
    (fun x hx => by
      have e1 : (1 / 40320 : ℝ) • dua x * y 0 + (1 / 40320 : ℝ) • dub x * dy 0 - (iv tc v e h x * y 0 + iv td v e h x * dy 0) =
          (1 / 40320 : ℝ) • (dua x - ev v (atd e x) h x tc) * y 0 + (1 / 40320 : ℝ) • (dub x - ev v (atd e x) h x td) * dy 0 := by
        unfold iv
        rw [smul_sub, smul_sub, Matrix.sub_mul, Matrix.sub_mul]; abel
      rw [e1]
      refine (hs _ _ _ _ (a3 x hx) (b3 x hx)).trans ?_
      rw [hK, ← add_mul]
      refine mul_le_mul_of_nonneg_right (mul_le_mul ?_ (by linarith) (by positivity) hrC) hS
      unfold rCof; linarith)
    (fun x hx => by
      have e1 : (1 / 40320 : ℝ) • dwa x * y 0 + (1 / 40320 : ℝ) • dwb x * dy 0 - V x * (iv ta v e h x * y 0 + iv tb v e h x * dy 0) =
          (1 / 40320 : ℝ) • (dwa x - V x * ev v (atd e x) h x ta) * y 0 + (1 / 40320 : ℝ) • (dwb x - V x * ev v (atd e x) h x tb) * dy 0 := by
        unfold iv
        simp only [smul_sub, Matrix.sub_mul, Matrix.mul_add, Matrix.smul_mul, Matrix.mul_smul, Matrix.mul_assoc]; abel
      rw [e1]
      have hc : ∀ (d : Mat n ℝ) (l : NP) (c : ℝ), ‖d - (v 9 + dVm v h x) * ev v (atd e x) h x l‖ ≤ c * h ^ 9 →
          ‖d - V x * ev v (atd e x) h x l‖ ≤ c * h ^ 9 + cB B l * κ := by
        intro d l c hd
        have e2 : d - V x * ev v (atd e x) h x l = (d - (v 9 + dVm v h x) * ev v (atd e x) h x l) -
            (V x - (v 9 + dVm v h x)) * ev v (atd e x) h x l := by
          rw [sub_sub, ← add_mul]; congr 2; abel
        rw [e2]
        have e3 := norm_sub_le (d - (v 9 + dVm v h x) * ev v (atd e x) h x l) ((V x - (v 9 + dVm v h x)) * ev v (atd e x) h x l)
        have e4 := norm_mul_le (V x - (v 9 + dVm v h x)) (ev v (atd e x) h x l)
        have e5 : ‖V x - (v 9 + dVm v h x)‖ * ‖ev v (atd e x) h x l‖ ≤ κ * cB B l := mul_le_mul (hV x hx) (hev x hx l) (norm_nonneg _) hκ0
        linarith
      refine (hs _ _ _ _ (hc _ _ _ (a4 x hx)) (hc _ _ _ (b4 x hx))).trans ?_
      rw [hK]
      refine mul_le_mul_of_nonneg_right ?_ hS
      have e6 : 0 ≤ h ^ 9 := by positivity
      have f1 := mul_nonneg c1 e6; have f3 := mul_nonneg c3 e6; have f5 := mul_nonneg c5 e6; have f6 := mul_nonneg c6 e6
      have g1 := mul_nonneg c1 hκ0; have g2 := mul_nonneg c2 hκ0; have g3 := mul_nonneg c3 hκ0; have g4 := mul_nonneg c4 hκ0
      unfold rCof
      simp only [mul_add, add_mul]
      linarith)
    hy hdy
    (by
      show iv ta v e h 0 * y 0 + iv tb v e h 0 * dy 0 = y 0
      unfold iv
      rw [ev_zero v _ h ta, T.za, ev_zero v _ h tb, T.zb, ev_mk]
      simp [ev, word, atd, e0, LL])
    (by
      show iv tc v e h 0 * y 0 + iv td v e h 0 * dy 0 = dy 0
      unfold iv
      rw [ev_zero v _ h tc, T.zc, ev_zero v _ h td, T.zd, ev_mk]
      simp [ev, word, atd, e0, LL]) hδ
  have hfin : K * (δ - 0) * Real.exp ((10 * B + 1) * (δ - 0)) ≤ rCof ta tb tc td B * (h ^ 9 + κ) * S * h * Real.exp (10 * B + 2) := by
    rw [sub_zero, ← hK]
    refine mul_le_mul (mul_le_mul_of_nonneg_left hδ.2 hK0) (Real.exp_le_exp.mpr ?_) (Real.exp_pos _).le (mul_nonneg hK0 hh.le)
    have : (10 * B + 1) * δ ≤ (10 * B + 1) * 1 := mul_le_mul_of_nonneg_left (hδ.2.trans h1) (by linarith)
    linarith
  exact ⟨key.1.trans hfin, key.2.trans hfin⟩


/-- the case of the equation `y'' = (V - E) y` -/
theorem ideal_step_of {ta tb tc td : NP} (T : Tab ta tb tc td) {B : ℝ} {v : ℕ → Mat n ℝ} {e : ℕ → ℝ → Mat n ℝ} {E h κ S : ℝ} {V : ℝ → Mat n ℝ} {y dy : ℝ → Matrix (Fin n) (Fin r) ℝ}
    (he : EtaFam v e) (hh : 0 < h) (hv : v 9 = v 0 - E • 1) (b : ∀ δ ∈ Set.Icc 0 h, Bnd B v (atd e δ) h δ) (e0 : e 0 0 = 1)
    (hV : ∀ x ∈ Set.Icc 0 h, ‖V x - (v 0 + dVm v h x)‖ ≤ κ) (hκ : κ ≤ B)
    (hy : ∀ x ∈ Set.Icc 0 h, HasDerivWithinAt y (dy x) (Set.Icc 0 h) x)
    (hdy : ∀ x ∈ Set.Icc 0 h, HasDerivWithinAt dy ((V x - E • 1) * y x) (Set.Icc 0 h) x)
    (s1 : ‖y 0‖ ≤ S) (s2 : ‖dy 0‖ ≤ S) {δ : ℝ} (hδ : δ ∈ Set.Icc 0 h) :
    ‖iv ta v e h δ * y 0 + iv tb v e h δ * dy 0 - y δ‖ ≤ rCof ta tb tc td B * (h ^ 9 + κ) * S * h * Real.exp (10 * B + 2) ∧
    ‖iv tc v e h δ * y 0 + iv td v e h δ * dy 0 - dy δ‖ ≤ rCof ta tb tc td B * (h ^ 9 + κ) * S * h * Real.exp (10 * B + 2) := by
  refine ideal_step_gen T (V := fun x => V x - E • 1) he hh (fun k => ?_) b e0 (fun x hx => ?_) hκ hy hdy s1 s2 hδ
  · rw [hv, show v 0 - E • 1 - v 0 = (-E) • (1 : Mat n ℝ) by rw [neg_smul]; abel]
    exact (Commute.one_left _).smul_left _
  · rw [hv, show V x - E • 1 - (v 0 - E • 1 + dVm v h x) = V x - (v 0 + dVm v h x) by abel]
    exact hV x hx

end
end Verif.NP
