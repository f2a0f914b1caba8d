import Verif.Lemmas.MatscsMain
import Verif.Lemmas.MatscsChain

/-!
# The exact solution of a coupled system on a mesh
-/
namespace Verif.NP
open Verif.MFormulas Verif.Matscs Verif.Mesh Verif

attribute [local instance] Matrix.linftyOpNormedAddCommGroup Matrix.linftyOpNormedSpace Matrix.linftyOpNormedRing Matrix.linftyOpNormedAlgebra

section
variable {n r : ℕ}

/-- Lipschitz constant -/
noncomputable def lC (n : ℕ) (M : ℝ) : ℝ := (n + 1) * M + 1

theorem lC_one {M : ℝ} (hM : 0 ≤ M) : 1 ≤ lC n M := by unfold lC; nlinarith [mul_nonneg (Nat.cast_nonneg (α := ℝ) n) hM]

theorem pot_le {M E : ℝ} {V : ℝ → Mat n ℝ} {a b : ℝ} (hV : MSmoothOn M V a b) (hM : 0 ≤ M) (hE : |E| ≤ M) {x : ℝ} (hx : x ∈ Set.Icc a b) : ‖V x - E • (1 : Mat n ℝ)‖ ≤ lC n M := by
  have h1 : ‖V x‖ ≤ n * M := norm_le_entries hM (fun i j => (hV i j).bound hx)
  have h2 : ‖E • (1 : Mat n ℝ)‖ ≤ M * 1 := by
    rw [norm_smul, Real.norm_eq_abs]
    exact mul_le_mul hE norm_one_le (norm_nonneg _) hM
  have := norm_sub_le_of_le h1 h2
  unfold lC; linarith

/-- values and derivatives -/
def stk (y dy : ℝ → Matrix (Fin n) (Fin r) ℝ) (x : ℝ) : Col n r := Matrix.fromRows (y x) (dy x)

theorem fromRows_sub (a b c d : Matrix (Fin n) (Fin r) ℝ) : Matrix.fromRows a b - Matrix.fromRows c d = Matrix.fromRows (a - c) (b - d) := by
  ext i j; cases i <;> simp

theorem stk_lip {M E S : ℝ} {V : ℝ → Mat n ℝ} {a b : ℝ} (hV : MSmoothOn M V a b) (hM : 0 ≤ M) (hE : |E| ≤ M) {y dy : ℝ → Matrix (Fin n) (Fin r) ℝ} (hy : MSolvesOn V E a b y dy)
    (hS : ∀ x ∈ Set.Icc a b, ‖stk y dy x‖ ≤ S) {x x' : ℝ} (hx : x ∈ Set.Icc a b) (hx' : x' ∈ Set.Icc a b) : ‖stk y dy x' - stk y dy x‖ ≤ lC n M * S * |x' - x| := by
  have hS0 : 0 ≤ S := (norm_nonneg _).trans (hS x hx)
  have h1 := lC_one (n := n) hM
  unfold stk
  rw [fromRows_sub]
  refine norm_fromRows_le ?_ ?_
  · have := (convex_Icc a b).norm_image_sub_le_of_norm_hasDerivWithin_le (f := y) (f' := dy) (C := S) (fun t ht => matrix_deriv (fun i j => hy.d1 t ht i j))
      (fun t ht => (norm_fromRows_bot (y t) (dy t)).trans (hS t ht)) hx hx'
    rw [Real.norm_eq_abs] at this
    refine this.trans ?_
    have := mul_nonneg hS0 (abs_nonneg (x' - x))
    nlinarith only [this, h1]
  · have := (convex_Icc a b).norm_image_sub_le_of_norm_hasDerivWithin_le (f := dy) (f' := fun t => (V t - E • (1 : Mat n ℝ)) * y t) (C := lC n M * S)
      (fun t ht => matrix_deriv (fun i j => hy.d2 t ht i j))
      (fun t ht => (Matrix.linfty_opNorm_mul _ _).trans (mul_le_mul (pot_le hV hM hE ht) ((norm_fromRows_top (y t) (dy t)).trans (hS t ht)) (norm_nonneg _) (by linarith))) hx hx'
    rwa [Real.norm_eq_abs] at this

theorem MSolvesOn.mono {V : ℝ → Mat n ℝ} {E a b c d : ℝ} {y dy : ℝ → Matrix (Fin n) (Fin r) ℝ} (h : MSolvesOn V E a b y dy) (h1 : a ≤ c) (h2 : d ≤ b) : MSolvesOn V E c d y dy :=
  ⟨fun x hx i j => (h.d1 x ⟨h1.trans hx.1, hx.2.trans h2⟩ i j).mono (Set.Icc_subset_Icc h1 h2), fun x hx i j => (h.d2 x ⟨h1.trans hx.1, hx.2.trans h2⟩ i j).mono (Set.Icc_subset_Icc h1 h2)⟩

theorem MSolvesOn.reflect {V : ℝ → Mat n ℝ} {E a b : ℝ} {y dy : ℝ → Matrix (Fin n) (Fin r) ℝ} (h : MSolvesOn V E a b y dy) :
    MSolvesOn (fun x => V (a + b - x)) E a b (fun x => y (a + b - x)) (fun x => -dy (a + b - x)) := by
  have hm : Set.MapsTo (fun x => a + b - x) (Set.Icc a b) (Set.Icc a b) := fun x hx => ⟨by linarith [hx.2], by linarith [hx.1]⟩
  have hd : ∀ x, HasDerivWithinAt (fun x => a + b - x) (-1) (Set.Icc a b) x := fun x => ((hasDerivAt_id x).const_sub (a + b)).hasDerivWithinAt
  constructor
  · intro x hx i j
    have := (h.d1 _ (hm hx) i j).comp x (hd x) hm
    simpa [Function.comp_def] using this
  · intro x hx i j
    have := ((h.d2 _ (hm hx) i j).comp x (hd x) hm).fun_neg
    simpa [Function.comp_def] using this

theorem norm_stk (y dy : ℝ → Matrix (Fin n) (Fin r) ℝ) (x : ℝ) : ‖stk y dy x‖ = max ‖y x‖ ‖dy x‖ :=
  le_antisymm (norm_fromRows_le (le_max_left _ _) (le_max_right _ _)) (max_le (norm_fromRows_top _ _) (norm_fromRows_bot _ _))

theorem growth_fwd {M E : ℝ} {V : ℝ → Mat n ℝ} {a b : ℝ} (hV : MSmoothOn M V a b) (hM : 0 ≤ M) (hE : |E| ≤ M) {y dy : ℝ → Matrix (Fin n) (Fin r) ℝ} (hy : MSolvesOn V E a b y dy)
    {x : ℝ} (hx : x ∈ Set.Icc a b) : ‖stk y dy x‖ ≤ Real.exp (lC n M * (x - a)) * ‖stk y dy a‖ := by
  rw [norm_stk, norm_stk, mul_comm]
  exact vsolution_bound (X := Matrix (Fin n) (Fin r) ℝ) (q := fun x p => (V x - E • (1 : Mat n ℝ)) * p) (lC_one hM)
    (fun t ht p => (Matrix.linfty_opNorm_mul _ _).trans (mul_le_mul_of_nonneg_right (pot_le hV hM hE ht) (norm_nonneg _)))
    (fun t ht => matrix_deriv (fun i j => hy.d1 t ht i j)) (fun t ht => matrix_deriv (fun i j => hy.d2 t ht i j)) hx

theorem growth_bwd {M E : ℝ} {V : ℝ → Mat n ℝ} {a b : ℝ} (hV : MSmoothOn M V a b) (hM : 0 ≤ M) (hE : |E| ≤ M) {y dy : ℝ → Matrix (Fin n) (Fin r) ℝ} (hy : MSolvesOn V E a b y dy)
    {x : ℝ} (hx : x ∈ Set.Icc a b) : ‖stk y dy a‖ ≤ Real.exp (lC n M * (x - a)) * ‖stk y dy x‖ := by
  have hy' := MSolvesOn.reflect (MSolvesOn.mono hy le_rfl hx.2)
  have hV' : MSmoothOn M (fun t => V (a + x - t)) a x := fun i j => ((hV i j).mono le_rfl hx.2).reflect
  have := growth_fwd hV' hM hE hy' (x := x) ⟨hx.1, le_rfl⟩
  rw [norm_stk, norm_stk] at this
  simp only [add_sub_cancel_right, norm_neg, add_sub_cancel_left] at this
  rw [norm_stk, norm_stk]
  exact this

theorem growth {M E : ℝ} (hM : 0 ≤ M) (hE : |E| ≤ M) {W : Sec ℝ → ℝ → Mat n ℝ} {y dy : ℝ → Matrix (Fin n) (Fin r) ℝ} :
    ∀ {l : List (Sec ℝ)} {a b : ℝ}, Chn a l b → (∀ s ∈ l, s.min < s.max) → (∀ s ∈ l, MSmoothOn M (W s) s.min s.max) → MSolvesMesh W E l y dy → ∀ x ∈ Set.Icc a b,
      ‖stk y dy x‖ ≤ Real.exp (lC n M * (x - a)) * ‖stk y dy a‖ ∧ ‖stk y dy a‖ ≤ Real.exp (lC n M * (x - a)) * ‖stk y dy x‖
  | [], a, b, hc, _, _, _, x, hx => by
    simp only [Chn] at hc
    have : x = a := by linarith [hx.1, hx.2]
    simp [this]
  | s :: l, a, b, hc, hp, hV, hy, x, hx => by
    have hs := hp s (by simp)
    have ha : s.min = a := hc.1
    have key : ∀ t ∈ Set.Icc s.min s.max, ‖stk y dy t‖ ≤ Real.exp (lC n M * (t - a)) * ‖stk y dy a‖ ∧ ‖stk y dy a‖ ≤ Real.exp (lC n M * (t - a)) * ‖stk y dy t‖ := by
      intro t ht
      rw [← ha]
      exact ⟨growth_fwd (hV s (by simp)) hM hE (hy s (by simp)) ht, growth_bwd (hV s (by simp)) hM hE (hy s (by simp)) ht⟩
    rcases le_or_gt x s.max with h | h
    · exact key x ⟨by linarith [hx.1], h⟩
    · obtain ⟨i1, i2⟩ := growth hM hE hc.2 (fun t ht => hp t (List.mem_cons_of_mem _ ht)) (fun t ht => hV t (List.mem_cons_of_mem _ ht)) (fun t ht => hy t (List.mem_cons_of_mem _ ht)) x ⟨h.le, hx.2⟩
      obtain ⟨k1, k2⟩ := key s.max ⟨hs.le, le_rfl⟩
      have e1 : Real.exp (lC n M * (x - a)) = Real.exp (lC n M * (x - s.max)) * Real.exp (lC n M * (s.max - a)) := by rw [← Real.exp_add]; congr 1; ring
      rw [e1]
      constructor
      · rw [mul_assoc]; exact i1.trans (mul_le_mul_of_nonneg_left k1 (Real.exp_pos _).le)
      · rw [mul_comm (Real.exp (lC n M * (x - s.max))), mul_assoc]; exact k2.trans (mul_le_mul_of_nonneg_left i2 (Real.exp_pos _).le)

end
end Verif.NP
