import Verif.Lemmas.MatscsConst
import Mathlib.Data.Matrix.Block

/-!
# Exact steps in constant potentials
-/
namespace Verif.Matscs
open Verif.MFormulas Verif.YT Verif.NP Verif.Mesh Verif.Spec

variable {n r : ℕ}

/-- One step in a sector whose transfer matrices form a group `M` with `M (-δ) = M δ` read backwards. -/
theorem group_step {s : CSec n ℝ} {E : ℝ} {useH : Bool} {M : ℝ → Matrix (Fin n ⊕ Fin n) (Fin n ⊕ Fin n) ℝ} (hh : 0 ≤ s.h)
    (hT : ∀ δ, (s.tr E δ useH).t = M δ) (hinv : ∀ δ, (M δ)⁻¹ = M (-δ))
    (hrev : ∀ δ (y : Matrix (Fin n ⊕ Fin n) (Fin r) ℝ), revRows (M δ * revRows y) = M (-δ) * y) (u : Yn n r ℝ) (δ : ℝ) :
    ((s.toG r).propagateDelta Yn.reverse E useH u δ).y = M (clip s.h δ) * u.y := by
  have mul : ∀ (e : ℝ) (u : Yn n r ℝ), ((s.tr E e useH).mul u).y = M e * u.y := by
    intro e u
    simp only [Tn.mul, hT]
  have div : ∀ (e : ℝ) (u : Yn n r ℝ), ((s.tr E e useH).div u).y = M (-e) * u.y := by
    intro e u
    simp only [Tn.div, hT, hinv]
  have mulr : ∀ (e : ℝ) (u : Yn n r ℝ), (((s.tr E e useH).mul u.reverse).reverse).y = M (-e) * u.y := by
    intro e u
    rw [← hrev, ← show (u.reverse).y = revRows u.y from rfl, ← mul]
    rfl
  have divr : ∀ (e : ℝ) (u : Yn n r ℝ), (((s.tr E e useH).div u.reverse).reverse).y = M e * u.y := by
    intro e u
    have := hrev (-e) u.y
    rw [neg_neg] at this
    rw [← this, ← show (u.reverse).y = revRows u.y from rfl, ← div]
    rfl
  obtain ⟨m, hm⟩ : ∃ m, m = min |δ| s.h := ⟨_, rfl⟩
  have hclip : clip s.h δ = (if 0 ≤ δ then 1 else -1) * m := by
    unfold clip
    by_cases h0 : 0 ≤ δ
    · rw [abs_of_nonneg h0] at hm
      rw [if_pos h0, one_mul, hm]
      by_cases h1 : s.h < δ
      · rw [if_pos h1, min_eq_right h1.le]
      · rw [if_neg h1, if_neg (by linarith), min_eq_left (not_lt.mp h1)]
    · have h0' := not_le.mp h0
      rw [abs_of_neg h0'] at hm
      rw [if_neg h0, if_neg (by linarith), hm]
      by_cases h1 : δ < -s.h
      · rw [if_pos h1, min_eq_right (by linarith)]; ring
      · rw [if_neg h1, min_eq_left (by linarith)]; ring
  unfold GSec.propagateDelta
  simp only [ccmp_le, ccmp_lt, CSec.toG]
  have hmin : ∀ t : ℝ, 0 ≤ t → t = |δ| → (if decide (s.h < t) = true then s.h else t) = m := by
    intro t _ ht
    rw [hm, ← ht]
    by_cases h1 : s.h < t
    · simp [h1, h1.le]
    · simp [h1, not_lt.mp h1]
  rcases eq_or_ne δ 0 with hz | hz
  · have hm0 : m = 0 := by rw [hm, hz]; simp [hh]
    have hc0 : clip s.h δ = 0 := by rw [hclip, hm0, mul_zero]
    have e1 := hmin 0 le_rfl (by rw [hz]; simp)
    rw [hc0]
    by_cases hb : s.dir = .backward
    · have k := mulr m u
      simp only [hb, if_true, hz, neg_zero, le_refl, decide_true, e1] at k ⊢
      rw [k, hm0, neg_zero]
    · have k := mul m u
      simp only [hb, if_false, hz, le_refl, decide_true, if_true, e1] at k ⊢
      rw [k, hm0]
  rcases lt_or_gt_of_ne hz with hneg | hpos
  · have hn : ¬ 0 ≤ δ := not_le.mpr hneg
    have hn' : 0 ≤ -δ := by linarith
    rw [if_neg hn] at hclip
    have hab := hmin (-δ) hn' (abs_of_neg hneg).symm
    rw [hclip, neg_one_mul]
    by_cases hb : s.dir = .backward
    · simp only [hb, if_true, hn', decide_true, hab]
      exact mulr m u
    · simp only [hb, if_false, hn, decide_false, Bool.false_eq_true, hab]
      exact div m u
  · have hn : 0 ≤ δ := hpos.le
    have hn' : ¬ 0 ≤ -δ := by linarith
    rw [if_pos hn] at hclip
    have hab := hmin δ hn (abs_of_pos hpos).symm
    rw [hclip, one_mul]
    by_cases hb : s.dir = .backward
    · simp only [hb, if_true, hn', decide_false, Bool.false_eq_true, if_false, neg_neg, hab]
      exact divr m u
    · simp only [hb, if_false, hn, decide_true, if_true, hab]
      exact mul m u

/-- The transfer matrix of a constant potential: `q j` are the eigenvalues minus the energy, `Q` the eigenvectors. -/
noncomputable def conT (Q : Mat n ℝ) (q : Fin n → ℝ) (δ : ℝ) : Matrix (Fin n ⊕ Fin n) (Fin n ⊕ Fin n) ℝ :=
  Matrix.fromBlocks Q 0 0 Q * diagT q δ * Matrix.fromBlocks Q.transpose 0 0 Q.transpose

theorem conT_eq (Q : Mat n ℝ) (q : Fin n → ℝ) (δ : ℝ) (t : T (Mat n ℝ)) (h : t.t = conjM Q (constM2 (fun j => q j * δ) δ)) : (tnOf t).t = conT Q q δ := by
  unfold tnOf conT diagT
  simp only [h, conjM, constM2, Matrix.fromBlocks_multiply, Matrix.zero_mul, Matrix.mul_zero, add_zero, zero_add]
  congr 4 <;> congr 1 <;> funext j <;> ring_nf

theorem K_mul {Q : Mat n ℝ} (hQ : Q * Q.transpose = 1) : Matrix.fromBlocks Q 0 0 Q * Matrix.fromBlocks Q.transpose 0 0 Q.transpose = 1 := by
  rw [Matrix.fromBlocks_multiply]
  simp [hQ]

theorem conT_inv {Q : Mat n ℝ} (hQ : Q * Q.transpose = 1) (q : Fin n → ℝ) (δ : ℝ) : (conT Q q δ)⁻¹ = conT Q q (-δ) := by
  have hQ' := mul_eq_one_comm.mp hQ
  have k1 := K_mul hQ
  have k2 := mul_eq_one_comm.mp k1
  have hd := diagT_neg_mul q δ
  refine Matrix.inv_eq_left_inv ?_
  unfold conT
  calc _ = Matrix.fromBlocks Q 0 0 Q * diagT q (-δ) * (Matrix.fromBlocks Q.transpose 0 0 Q.transpose * Matrix.fromBlocks Q 0 0 Q) * diagT q δ *
        Matrix.fromBlocks Q.transpose 0 0 Q.transpose := by simp only [Matrix.mul_assoc]
    _ = 1 := by rw [k2, Matrix.mul_one, Matrix.mul_assoc (Matrix.fromBlocks Q 0 0 Q), hd, Matrix.mul_one, k1]

theorem conT_apply (Q : Mat n ℝ) (q : Fin n → ℝ) (δ : ℝ) (y dy : Matrix (Fin n) (Fin r) ℝ) : conT Q q δ * Matrix.fromRows y dy = Matrix.fromRows
    (Q * (Matrix.diagonal (fun j => Eta.eta 0 (δ * δ * q j)) * (Q.transpose * y) + Matrix.diagonal (fun j => δ * Eta.eta 1 (δ * δ * q j)) * (Q.transpose * dy)))
    (Q * (Matrix.diagonal (fun j => q j * δ * Eta.eta 1 (δ * δ * q j)) * (Q.transpose * y) + Matrix.diagonal (fun j => Eta.eta 0 (δ * δ * q j)) * (Q.transpose * dy))) := by
  unfold conT diagT
  rw [Matrix.mul_assoc, Matrix.fromBlocks_mul_fromRows, Matrix.mul_assoc, Matrix.fromBlocks_mul_fromRows, Matrix.fromBlocks_mul_fromRows]
  simp only [Matrix.zero_mul, add_zero, zero_add]

theorem conT_rev (Q : Mat n ℝ) (q : Fin n → ℝ) (δ : ℝ) (y : Matrix (Fin n ⊕ Fin n) (Fin r) ℝ) : revRows (conT Q q δ * revRows y) = conT Q q (-δ) * y := by
  have rr : ∀ a b : Matrix (Fin n) (Fin r) ℝ, revRows (Matrix.fromRows a b) = Matrix.fromRows a (-b) := by
    intro a b
    ext i j
    rcases i with i | i <;> simp [revRows]
  rw [← Matrix.fromRows_toRows y]
  generalize y.toRows₁ = a
  generalize y.toRows₂ = b
  have d1 : (Matrix.diagonal fun j => -δ * Eta.eta 1 (δ * δ * q j)) = -Matrix.diagonal fun j => δ * Eta.eta 1 (δ * δ * q j) := by
    rw [Matrix.diagonal_neg]; congr 1; funext j; ring
  have d2 : (Matrix.diagonal fun j => q j * -δ * Eta.eta 1 (δ * δ * q j)) = -Matrix.diagonal fun j => q j * δ * Eta.eta 1 (δ * δ * q j) := by
    rw [Matrix.diagonal_neg]; congr 1; funext j; ring
  rw [rr, conT_apply, rr, conT_apply]
  simp only [neg_mul_neg, d1, d2]
  congr 1
  · simp only [Matrix.mul_neg, Matrix.neg_mul]
  · rw [← Matrix.mul_neg]
    congr 1
    simp only [Matrix.mul_neg, Matrix.neg_mul, neg_add, neg_neg]

/-- The transfer matrix takes exact solutions to exact solutions. -/
theorem conT_exact {Q C : Mat n ℝ} (hQ : Q.transpose * Q = 1) {l : Fin n → ℝ} (hd : Q.transpose * C * Q = Matrix.diagonal l) {E a b : ℝ}
    {y dy : ℝ → Matrix (Fin n) (Fin r) ℝ} (h : MSolvesOn (fun _ => C) E a b y dy) {p x : ℝ} (hp : p ∈ Set.Icc a b) (hx : x ∈ Set.Icc a b) :
    Matrix.fromRows (y x) (dy x) = conT Q (fun j => l j - E) (x - p) * Matrix.fromRows (y p) (dy p) := by
  have hQ' := mul_eq_one_comm.mp hQ
  have hC : Q.transpose * C = Matrix.diagonal l * Q.transpose := by
    rw [← hd, Matrix.mul_assoc, hQ', Matrix.mul_one]
  have sc : ∀ i j, SolvesOn (fun _ => l i) E a b (fun x => (Q.transpose * y x) i j) (fun x => (Q.transpose * dy x) i j) := by
    intro i j
    constructor
    · intro x hx
      simp only [Matrix.mul_apply]
      exact HasDerivWithinAt.fun_sum fun k _ => (h.d1 x hx k j).const_mul _
    · intro x hx
      have e : (l i - E) * (Q.transpose * y x) i j = ∑ k, Q.transpose i k * ((C - E • (1 : Mat n ℝ)) * y x) k j := by
        rw [← Matrix.mul_apply, ← Matrix.mul_assoc, Matrix.mul_sub, hC, Matrix.mul_smul, Matrix.mul_one, Matrix.sub_mul, Matrix.smul_mul, Matrix.mul_assoc,
          Matrix.sub_apply, Matrix.diagonal_mul, Matrix.smul_apply, smul_eq_mul, sub_mul]
      show HasDerivWithinAt _ ((l i - E) * (Q.transpose * y x) i j) _ x
      rw [e]
      simp only [Matrix.mul_apply (M := Q.transpose)]
      exact HasDerivWithinAt.fun_sum fun k _ => (h.d2 x hx k j).const_mul _
  have cl := fun i j => sol_closed (sc i j) hp hx
  have back : ∀ m : Matrix (Fin n) (Fin r) ℝ, m = Q * (Q.transpose * m) := fun m => by rw [← Matrix.mul_assoc, hQ', Matrix.one_mul]
  rw [conT_apply]
  congr 1
  · rw [back (y x)]
    congr 1
    ext i j
    rw [Matrix.add_apply, Matrix.diagonal_mul, Matrix.diagonal_mul]
    exact (cl i j).1
  · rw [back (dy x)]
    congr 1
    ext i j
    rw [Matrix.add_apply, Matrix.diagonal_mul, Matrix.diagonal_mul]
    exact (cl i j).2

end Verif.Matscs
