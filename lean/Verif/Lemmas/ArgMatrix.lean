import Verif.Lemmas.ArgStep
import Verif.Lemmas.ArgTrace
import Verif.Props.MatscsPsi
import Mathlib.LinearAlgebra.Matrix.Charpoly.Eigs
import Mathlib.Analysis.Complex.Polynomial.Basic

/-!
# The angle increment modulo `2π`, and for diagonal blocks
-/
namespace Verif.Matscs
open Verif.Prufer Verif.Mesh Verif.Spec
open Real (pi sin cos)

theorem posArg_exp (z : ℂ) : (‖z‖ : ℂ) * Complex.exp (Complex.I * (posArg z : ℝ)) = z := by
  have h := Complex.norm_mul_exp_arg_mul_I z
  unfold posArg
  split
  · rw [← h]
    push_cast
    rw [h, mul_add, Complex.exp_add, show Complex.I * (pi * 2 : ℂ) = 2 * pi * Complex.I by ring, Complex.exp_two_pi_mul_I, mul_one, mul_comm Complex.I]
    exact h
  · rw [mul_comm Complex.I]; exact h

theorem prod_posArg (s : Multiset ℂ) : ((‖s.prod‖ : ℝ) : ℂ) * Complex.exp (Complex.I * ((s.map posArg).sum : ℝ)) = s.prod := by
  induction s using Multiset.induction_on with
  | empty => simp
  | cons z s ih =>
    have := posArg_exp z
    simp only [Multiset.prod_cons, Multiset.map_cons, Multiset.sum_cons, Complex.norm_mul]
    push_cast
    rw [mul_add, Complex.exp_add]
    calc _ = ((‖z‖ : ℂ) * Complex.exp (Complex.I * (posArg z : ℝ))) * (((‖s.prod‖ : ℝ) : ℂ) * Complex.exp (Complex.I * ((s.map posArg).sum : ℝ))) := by push_cast; ring
      _ = _ := by rw [this, ih]

/-- The sum of the angles is an argument of the determinant. -/
theorem angleSum_exp {n : ℕ} (M : Matrix (Fin n) (Fin n) ℂ) : ((‖M.det‖ : ℝ) : ℂ) * Complex.exp (Complex.I * (angleSum M : ℝ)) = M.det := by
  rw [Matrix.det_eq_prod_roots_charpoly]
  exact prod_posArg _

/-- `y' + i y` -/
noncomputable def Yn.plus {n : ℕ} (u : Yn n n ℝ) : Matrix (Fin n) (Fin n) ℂ := u.derC + Complex.I • u.valC

theorem det_minus {n : ℕ} (u : Yn n n ℝ) : (u.derC - Complex.I • u.valC).det = (starRingEnd ℂ) u.plus.det := by
  rw [RingHom.map_det]
  congr 1
  ext i j
  simp [Yn.plus, Yn.derC, Yn.valC, sub_eq_add_neg]

theorem det_theta {n : ℕ} (u : Yn n n ℝ) (h : u.plus.det ≠ 0) : (theta u).det = u.plus.det / (starRingEnd ℂ) u.plus.det ∧ ‖(theta u).det‖ = 1 := by
  have e : (theta u).det = u.plus.det / (starRingEnd ℂ) u.plus.det := by
    rw [theta, Matrix.det_mul, Matrix.det_nonsing_inv, det_minus, Ring.inverse_eq_inv', div_eq_mul_inv]
    rfl
  refine ⟨e, ?_⟩
  rw [e, norm_div, RCLike.norm_conj, div_self (norm_ne_zero_iff.mpr h)]

theorem theta_exp {n : ℕ} (u : Yn n n ℝ) (h : u.plus.det ≠ 0) : Complex.exp (Complex.I * (angleSum (theta u) : ℝ)) = (theta u).det := by
  have := angleSum_exp (theta u)
  rw [(det_theta u h).2] at this
  simpa using this

/-- The exact η functions, as `calculateEta`. -/
noncomputable def exactEta : ℕ → ℝ → ℕ → ℝ := fun _ Z i => Eta.eta i Z

/-- One increment modulo `2π`, for every step. -/
theorem inc_mod {n : ℕ} (h : ℝ) (v0 : Fin n → ℝ) (E : ℝ) {y0 y1 : Yn n n ℝ} (δ : ℝ) (h0 : y0.plus.det ≠ 0) (h1 : y1.plus.det ≠ 0) :
    Complex.exp (Complex.I * (argInc exactEta h v0 E y0 y1 δ : ℝ)) * (theta y0).det = (theta y1).det := by
  unfold argInc exactEta
  dsimp only
  generalize clipD h δ = d
  obtain ⟨D, hD⟩ : ∃ D : Matrix (Fin n) (Fin n) ℂ, D = Matrix.diagonal fun j => ((Eta.eta 0 (d * d * (v0 j - E)) : ℝ) + Complex.I * d * (Eta.eta 1 (d * d * (v0 j - E)) : ℝ)) /
      (((Eta.eta 0 (d * d * (v0 j - E)) : ℝ) : ℂ) - Complex.I * d * (Eta.eta 1 (d * d * (v0 j - E)) : ℝ)) := ⟨_, rfl⟩
  rw [← hD]
  have hDj : ∀ j, ((Eta.eta 0 (d * d * (v0 j - E)) : ℝ) + Complex.I * d * (Eta.eta 1 (d * d * (v0 j - E)) : ℝ)) /
      (((Eta.eta 0 (d * d * (v0 j - E)) : ℝ) : ℂ) - Complex.I * d * (Eta.eta 1 (d * d * (v0 j - E)) : ℝ)) = Complex.exp (Complex.I * (2 * turn (v0 j - E) d : ℝ)) := by
    intro j
    obtain ⟨r, hr, e⟩ := turn_spec (v0 j - E) d
    have := cay_of_exp (r := r) (a := turn (v0 j - E) d) (u := d * Eta.eta 1 (d * d * (v0 j - E))) (v := Eta.eta 0 (d * d * (v0 j - E))) hr.ne' (by rw [← e]; push_cast; ring)
    rw [← this]
    unfold cay
    push_cast
    ring
  have hDdet : D.det = Complex.exp (Complex.I * ((∑ j, turn (v0 j - E) d) * 2 : ℝ)) := by
    rw [hD, Matrix.det_diagonal, Finset.prod_congr rfl (fun j _ => hDj j), ← Complex.exp_sum]
    congr 1
    push_cast
    rw [← Finset.mul_sum, ← Finset.mul_sum]; ring
  have hDn : ‖D.det‖ = 1 := by
    rw [hDdet, mul_comm]; exact Complex.norm_exp_ofReal_mul_I _
  have e0 : Complex.exp (Complex.I * (angleSum (D * theta y0) : ℝ)) = D.det * (theta y0).det := by
    have := angleSum_exp (D * theta y0)
    rw [Matrix.det_mul, Complex.norm_mul, hDn, (det_theta y0 h0).2] at this
    simpa using this
  have e1 := theta_exp y1 h1
  have et : Complex.exp (Complex.I * (((∑ j, constTurn (Eta.eta 0 (d * d * (v0 j - E))) (Eta.eta 1 (d * d * (v0 j - E))) (d * d * (v0 j - E)) d) * 2
      + (angleSum (theta y1) - angleSum (D * theta y0)) : ℝ) : ℂ)) = D.det * (theta y1).det / (D.det * (theta y0).det) := by
    rw [← e0, ← e1, hDdet]
    rw [← Complex.exp_add, ← Complex.exp_sub]
    congr 1
    unfold turn
    push_cast
    ring
  rw [et]
  have hD0 : D.det ≠ 0 := norm_ne_zero_iff.mp (by rw [hDn]; exact one_ne_zero)
  have ht0 : (theta y0).det ≠ 0 := norm_ne_zero_iff.mp (by rw [(det_theta y0 h0).2]; exact one_ne_zero)
  field_simp

/-! ### Diagonal blocks -/

theorem angleSum_diagonal {n : ℕ} (d : Fin n → ℂ) : angleSum (Matrix.diagonal d) = ∑ j, posArg (d j) := by
  unfold angleSum
  have e : ∏ i, (Polynomial.X - Polynomial.C (d i)) = ((Finset.univ.val.map d).map fun a => Polynomial.X - Polynomial.C a).prod := by
    rw [Multiset.map_map]; rfl
  rw [Matrix.charpoly_diagonal, e, Polynomial.roots_multiset_prod_X_sub_C, Multiset.map_map]
  rfl

/-- A block with diagonal `y` and `y'`. -/
def Yn.IsDiag {n : ℕ} (u : Yn n n ℝ) (a b : Fin n → ℝ) : Prop := u.val = Matrix.diagonal a ∧ u.der = Matrix.diagonal b

theorem valC_diag {n : ℕ} {u : Yn n n ℝ} {a b : Fin n → ℝ} (h : u.IsDiag a b) :
    u.valC = Matrix.diagonal (fun j => (a j : ℂ)) ∧ u.derC = Matrix.diagonal (fun j => (b j : ℂ)) := by
  constructor
  · ext i j
    have := congrFun (congrFun h.1 i) j
    simp only [Yn.val, Matrix.of_apply] at this
    simp only [Yn.valC, Matrix.of_apply, this, Matrix.diagonal_apply]
    split <;> simp
  · ext i j
    have := congrFun (congrFun h.2 i) j
    simp only [Yn.der, Matrix.of_apply] at this
    simp only [Yn.derC, Matrix.of_apply, this, Matrix.diagonal_apply]
    split <;> simp

theorem theta_diag {n : ℕ} {u : Yn n n ℝ} {a b : Fin n → ℝ} (h : u.IsDiag a b) (hn : ∀ j, ¬ (a j = 0 ∧ b j = 0)) :
    theta u = Matrix.diagonal fun j => cay (a j) (b j) := by
  obtain ⟨h1, h2⟩ := valC_diag h
  have e1 : u.derC + Complex.I • u.valC = Matrix.diagonal fun j => (b j : ℂ) + Complex.I * a j := by
    rw [h1, h2, ← Matrix.diagonal_smul, Matrix.diagonal_add]; rfl
  have e2 : u.derC - Complex.I • u.valC = Matrix.diagonal fun j => (b j : ℂ) - Complex.I * a j := by
    rw [h1, h2, ← Matrix.diagonal_smul, Matrix.diagonal_sub]; rfl
  have hne : ∀ j, (b j : ℂ) - Complex.I * a j ≠ 0 := by
    intro j h0
    have r1 := congrArg Complex.re h0
    have r2 := congrArg Complex.im h0
    simp at r1 r2
    exact hn j ⟨r2, r1⟩
  have e3 : (Matrix.diagonal fun j => (b j : ℂ) - Complex.I * a j)⁻¹ = Matrix.diagonal fun j => ((b j : ℂ) - Complex.I * a j)⁻¹ := by
    refine Matrix.inv_eq_left_inv ?_
    rw [Matrix.diagonal_mul_diagonal, ← Matrix.diagonal_one]
    congr 1
    funext j
    exact inv_mul_cancel₀ (hne j)
  rw [theta, e1, e2, e3, Matrix.diagonal_mul_diagonal]
  congr 1

/-- The increment for diagonal blocks is the sum over the components. -/
theorem inc_diag {n : ℕ} (h : ℝ) (v0 : Fin n → ℝ) (E : ℝ) {y0 y1 : Yn n n ℝ} {a0 b0 a1 b1 : Fin n → ℝ} (δ : ℝ) (h0 : y0.IsDiag a0 b0) (h1 : y1.IsDiag a1 b1)
    (n0 : ∀ j, ¬ (a0 j = 0 ∧ b0 j = 0)) (n1 : ∀ j, ¬ (a1 j = 0 ∧ b1 j = 0)) :
    argInc exactEta h v0 E y0 y1 δ = ∑ j, (2 * turn (v0 j - E) (clipD h δ) + (posArg (cay (a1 j) (b1 j)) -
      posArg (cay (clipD h δ * Eta.eta 1 (clipD h δ * clipD h δ * (v0 j - E))) (Eta.eta 0 (clipD h δ * clipD h δ * (v0 j - E))) * cay (a0 j) (b0 j)))) := by
  unfold argInc exactEta
  dsimp only
  generalize clipD h δ = d
  rw [theta_diag h0 n0, theta_diag h1 n1, Matrix.diagonal_mul_diagonal, angleSum_diagonal, angleSum_diagonal, ← Finset.sum_sub_distrib, Finset.sum_mul, ← Finset.sum_add_distrib]
  refine Finset.sum_congr rfl fun j _ => ?_
  have e : ((Eta.eta 0 (d * d * (v0 j - E)) : ℝ) + Complex.I * d * (Eta.eta 1 (d * d * (v0 j - E)) : ℝ)) /
      (((Eta.eta 0 (d * d * (v0 j - E)) : ℝ) : ℂ) - Complex.I * d * (Eta.eta 1 (d * d * (v0 j - E)) : ℝ)) = cay (d * Eta.eta 1 (d * d * (v0 j - E))) (Eta.eta 0 (d * d * (v0 j - E))) := by
    unfold cay
    push_cast
    ring
  rw [e, turn]
  ring

end Verif.Matscs
