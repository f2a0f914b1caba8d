import Verif.Lemmas.MatscsFlow
import Verif.Spec.Problem
import Mathlib.Analysis.Complex.ExponentialBounds

/-!
# Propagation of a coupled system converges
-/
namespace Verif.NP
open Verif.MFormulas Verif.Matscs Verif.Mesh Verif Verif.YT

attribute [local instance] Matrix.linftyOpNormedAddCommGroup Matrix.linftyOpNormedSpace Matrix.linftyOpNormedRing Matrix.linftyOpNormedAlgebra

section
variable {n r : ℕ}

/-! ### Matrices near the identity -/

theorem norm_one_le' : ‖(1 : Matrix (Fin n ⊕ Fin n) (Fin n ⊕ Fin n) ℝ)‖ ≤ 1 := by
  refine norm_le_rows zero_le_one (fun i => ?_)
  have : ∀ j, |(1 : Matrix (Fin n ⊕ Fin n) (Fin n ⊕ Fin n) ℝ) i j| = if i = j then 1 else 0 := by
    intro j; rw [Matrix.one_apply]; split <;> simp
  simp [this]

theorem near_one {A : Matrix (Fin n ⊕ Fin n) (Fin n ⊕ Fin n) ℝ} {θ : ℝ} (h : ‖A - 1‖ ≤ θ) (hθ : θ ≤ 1 / 2) :
    IsUnit A.det ∧ ‖A‖ ≤ Real.exp (2 * θ) ∧ ‖A⁻¹‖ ≤ Real.exp (2 * θ) := by
  have h0 : 0 ≤ θ := (norm_nonneg _).trans h
  have : CompleteSpace (Matrix (Fin n ⊕ Fin n) (Fin n ⊕ Fin n) ℝ) := FiniteDimensional.complete ℝ _
  have hu : IsUnit A := by
    have := isUnit_one_sub_of_norm_lt_one (x := 1 - A) (by rw [norm_sub_rev]; linarith)
    rwa [sub_sub_cancel] at this
  have hd : IsUnit A.det := (Matrix.isUnit_iff_isUnit_det A).mp hu
  have e0 : 1 + 2 * θ ≤ Real.exp (2 * θ) := by linarith [Real.add_one_le_exp (2 * θ)]
  refine ⟨hd, ?_, ?_⟩
  · have := norm_add_le_of_le h (norm_one_le' (n := n))
    rw [sub_add_cancel] at this
    linarith
  · have e1 : A⁻¹ = 1 - A⁻¹ * (A - 1) := by rw [Matrix.mul_sub, Matrix.nonsing_inv_mul _ hd, Matrix.mul_one]; abel
    have e2 : ‖A⁻¹‖ ≤ 1 + ‖A⁻¹‖ * θ := by
      calc ‖A⁻¹‖ = ‖1 - A⁻¹ * (A - 1)‖ := by rw [← e1]
        _ ≤ 1 + ‖A⁻¹‖ * θ := norm_sub_le_of_le norm_one_le' ((norm_mul_le _ _).trans (mul_le_mul_of_nonneg_left h (norm_nonneg _)))
    have e3 := norm_nonneg A⁻¹
    have e4 : ‖A⁻¹‖ ≤ 2 := by nlinarith only [e2, e3, hθ, h0]
    nlinarith only [e2, e4, e0, h0]

theorem lip_perm {A : Tn n ℝ} {κ : ℝ} (hd : IsUnit A.t.det) (h1 : ‖A.t‖ ≤ Real.exp κ) (h2 : ‖A.t⁻¹‖ ≤ Real.exp κ) : Lip κ (permOf (S := Yn n r ℝ) A.mul A.div) := by
  have hi := Tn.inverses (r := r) A hd
  constructor
  · intro u u'
    rw [permOf_apply hi, permOf_apply hi]
    show ‖A.t * u.y - A.t * u'.y‖ ≤ _
    rw [← Matrix.mul_sub]
    exact (Matrix.linfty_opNorm_mul _ _).trans (mul_le_mul_of_nonneg_right h1 (norm_nonneg _))
  · intro u u'
    rw [permOf_inv_apply hi, permOf_inv_apply hi]
    show ‖A.t⁻¹ * u.y - A.t⁻¹ * u'.y‖ ≤ _
    rw [← Matrix.mul_sub]
    exact (Matrix.linfty_opNorm_mul _ _).trans (mul_le_mul_of_nonneg_right h2 (norm_nonneg _))

theorem revRows_norm (m : Col n r) : ‖revRows m‖ ≤ ‖m‖ := by
  refine norm_le_rows (norm_nonneg _) (fun i => ?_)
  cases i with
  | inl i => exact row_le m (.inl i)
  | inr i => simpa [revRows] using row_le m (.inr i)

theorem revRows_sub (m m' : Col n r) : revRows m - revRows m' = revRows (m - m') := by
  ext i j; cases i <;> simp [revRows]; ring

theorem lip_rev : Lip 0 (permOf (S := Yn n r ℝ) Yn.reverse Yn.reverse) := by
  have h : ∀ u u' : Yn n r ℝ, ‖(u.reverse).y - (u'.reverse).y‖ ≤ Real.exp 0 * ‖u.y - u'.y‖ := by
    intro u u'
    show ‖revRows u.y - revRows u'.y‖ ≤ _
    rw [revRows_sub, Real.exp_zero, one_mul]
    exact revRows_norm _
  constructor
  · intro u u'
    rw [revP_apply Yn.reverse_reverse, revP_apply Yn.reverse_reverse]; exact h u u'
  · intro u u'
    rw [revP_inv Yn.reverse_reverse, revP_apply Yn.reverse_reverse, revP_apply Yn.reverse_reverse]; exact h u u'

theorem tracks_rev (Y : Col n r) : Tracks (permOf (S := Yn n r ℝ) Yn.reverse Yn.reverse) Y (revRows Y) 0 := by
  intro u hu
  rw [revP_apply Yn.reverse_reverse]
  show ‖revRows u.y - revRows Y‖ ≤ 0
  rw [hu, sub_self, norm_zero]

theorem tracks_perm {A : Tn n ℝ} (hd : IsUnit A.t.det) {Y Y' : Col n r} {e : ℝ} (h : ‖A.t * Y - Y'‖ ≤ e) : Tracks (permOf (S := Yn n r ℝ) A.mul A.div) Y Y' e := by
  intro u hu
  rw [permOf_apply (Tn.inverses A hd)]
  show ‖A.t * u.y - Y'‖ ≤ e
  rw [hu]; exact h

/-! ### The steps of the code -/

/-- ingredients of a sector and their accuracy -/
structure Ingr (M ρ σ τ : ℝ) (q : MTerm → ℝ) (eta : ℕ → ℝ → ℕ → ℝ) (V : ℝ → Mat n ℝ) (c : ℕ → Mat n ℝ) (Q : Mat n ℝ) (s : Sec ℝ) (E : ℝ) : Prop where
  M0 : 0 ≤ M
  τ0 : 0 ≤ τ
  τ1 : τ ≤ 1
  σ1 : σ ≤ 1
  ρ1 : ρ ≤ 1
  lit : LitWithin ρ q
  eta : EtaWithin σ eta
  lt : s.min < s.max
  h1 : s.max - s.min ≤ 1
  smooth : MSmoothOn M V s.min s.max
  coeff : MCoeffWithin τ V s.min s.max c
  diag : Diagonalizes Q (c 0)
  E : |E| ≤ M

theorem secC_one {M : ℝ} (hM : 0 ≤ M) : 1 ≤ secC n M := by
  have B0 : 0 ≤ gB n M := by
    have := (Real.exp_pos (zB n M)).le
    unfold gB; positivity
  have hn : (0 : ℝ) ≤ n := Nat.cast_nonneg _
  have bC0 : 0 ≤ bC (gB n M) := by
    unfold bC
    have := bX_nonneg MEntry4.a extA Ua B0
    have := bX_nonneg MEntry4.b extB Ub B0
    have := bX_nonneg MEntry4.c extC (tD MEntry4.c ++ extC) B0
    have := bX_nonneg MEntry4.d extD Ud B0
    linarith
  have sC0 : 0 ≤ sC (gB n M) := by
    unfold sC
    have := cB_nonneg B0 (Ua.flatMap dmono); have := cB_nonneg B0 (Ub.flatMap dmono)
    have := cB_nonneg B0 (Uc.flatMap dmono); have := cB_nonneg B0 (Ud.flatMap dmono)
    linarith
  have R0 : 0 ≤ rCof Ua Ub Uc Ud (gB n M) := by
    obtain ⟨r1, r2, r3, r4, r5, r6⟩ := rC_parts Ua Ub Uc Ud B0
    unfold rCof; linarith
  unfold secC
  generalize bC (gB n M) = x1 at *
  generalize sC (gB n M) = x2 at *
  generalize rCof Ua Ub Uc Ud (gB n M) = x3 at *
  have := (Real.exp_pos (10 * gB n M + 2)).le
  generalize Real.exp (10 * gB n M + 2) = x4 at *
  have t1 : 0 ≤ x1 * (1 + n + 31 * n * M + n * n) := by positivity
  have t2 : 0 ≤ x3 * (1 + 3504 * n * M + n) * x4 := by positivity
  linarith

theorem tn_one : (tnOf (oneM : YT.T (Mat n ℝ))).t = 1 := by
  show Matrix.fromBlocks 1 0 0 1 = 1
  exact Matrix.fromBlocks_one

/-- the constant of a step: formula error, plus `d` for a skipped piece -/
noncomputable def stE (n : ℕ) (M ρ σ τ : ℝ) (useH : Bool) (h : ℝ) : ℝ := secC n M * (h ^ ordM useH + h * (ρ + τ) + σ)

theorem tm_near {M ρ σ τ eps : ℝ} {q : MTerm → ℝ} {eta : ℕ → ℝ → ℕ → ℝ} {V : ℝ → Mat n ℝ} {c : ℕ → Mat n ℝ} {Q : Mat n ℝ} {s : Sec ℝ} {E : ℝ} (I : Ingr M ρ σ τ q eta V c Q s E)
    (he0 : 0 ≤ eps) {δ : ℝ} (hδ : δ ∈ Set.Icc 0 (s.max - s.min)) (useH : Bool) :
    ‖(tnOf (calculateTM eps q eta (mkMSec c Q s) E δ useH)).t - 1‖ ≤ secC n M * (s.max - s.min + σ) := by
  have hC := secC_one (n := n) I.M0
  have h0 : 0 ≤ s.max - s.min := by linarith [I.lt]
  unfold calculateTM
  split
  · rw [tn_one, sub_self, norm_zero]
    exact mul_nonneg (by linarith) (add_nonneg h0 I.eta.nonneg)
  · split
    · exact (sector_near I.M0 I.τ0 I.τ1 I.σ1 I.ρ1 I.lit I.eta I.lt I.h1 I.smooth I.coeff I.diag I.E (δ := s.max - s.min) ⟨h0, le_rfl⟩ (useH := true) (fun _ => rfl)).1
    · exact (sector_near I.M0 I.τ0 I.τ1 I.σ1 I.ρ1 I.lit I.eta I.lt I.h1 I.smooth I.coeff I.diag I.E hδ (useH := false) (fun h => by simp at h)).1

theorem absM (x : ℝ) : Eta.absK x = |x| := by
  simp only [Eta.absK, ccmp_lt]
  by_cases h : x < 0
  · simp [h, abs_of_neg h]
  · simp [h, abs_of_nonneg (not_lt.mp h)]

theorem tm_full {M ρ σ τ eps : ℝ} {q : MTerm → ℝ} {eta : ℕ → ℝ → ℕ → ℝ} {V : ℝ → Mat n ℝ} {c : ℕ → Mat n ℝ} {Q : Mat n ℝ} {s : Sec ℝ} {E : ℝ} (I : Ingr M ρ σ τ q eta V c Q s E)
    (he0 : 0 ≤ eps) (hw : eps < s.max - s.min) (useH : Bool) {y dy : ℝ → Matrix (Fin n) (Fin r) ℝ} {S : ℝ} (hy : MSolvesOn (orientM V s) E s.min s.max y dy) (hS : ‖stk y dy s.min‖ ≤ S) :
    ‖(tnOf (calculateTM eps q eta (mkMSec c Q s) E (s.max - s.min) useH)).t * stk y dy s.min - stk y dy s.max‖ ≤ stE n M ρ σ τ useH (s.max - s.min) * S := by
  have h0 : 0 ≤ s.max - s.min := by linarith [I.lt]
  have s1 := (norm_fromRows_top (y s.min) (dy s.min)).trans hS
  have s2 := (norm_fromRows_bot (y s.min) (dy s.min)).trans hS
  have k := (sector_near I.M0 I.τ0 I.τ1 I.σ1 I.ρ1 I.lit I.eta I.lt I.h1 I.smooth I.coeff I.diag I.E (δ := s.max - s.min) ⟨h0, le_rfl⟩ (useH := useH) (fun _ => rfl)).2 r y dy S hy s1 s2
  rw [add_sub_cancel] at k
  have e : calculateTM eps q eta (mkMSec c Q s) E (s.max - s.min) useH = calcFromVEd q eta (mkMSec c Q s) (s.max - s.min) (vedOf (mkMSec c Q s) E (s.max - s.min)) useH := by
    unfold calculateTM
    have n1 : ¬ |s.max - s.min| ≤ eps := by rw [abs_of_nonneg h0]; linarith
    have n2 : |s.max - s.min - (mkMSec c Q s).h| ≤ eps := by
      show |s.max - s.min - (s.max - s.min)| ≤ eps
      rw [sub_self, abs_zero]; exact he0
    simp only [absM, ccmp_le, n1, n2, decide_false, decide_true, Bool.and_true, Bool.false_eq_true, if_false]
    cases useH
    · rfl
    · rfl
  rw [e]
  exact k

theorem tm_mid {M ρ σ τ eps d : ℝ} {q : MTerm → ℝ} {eta : ℕ → ℝ → ℕ → ℝ} {V : ℝ → Mat n ℝ} {c : ℕ → Mat n ℝ} {Q : Mat n ℝ} {s : Sec ℝ} {E : ℝ} (I : Ingr M ρ σ τ q eta V c Q s E)
    (he0 : 0 ≤ eps) (hd : 0 ≤ d) (useH : Bool) {y dy : ℝ → Matrix (Fin n) (Fin r) ℝ} {S : ℝ} (hy : MSolvesOn (orientM V s) E s.min s.max y dy)
    (hS : ∀ x ∈ Set.Icc s.min s.max, ‖stk y dy x‖ ≤ S) {δ : ℝ} (hδ : δ ∈ Set.Icc 0 (s.max - s.min)) (k1 : δ ≤ eps → δ ≤ d) (k2 : s.max - s.min - δ ≤ eps → s.max - s.min - δ ≤ d) :
    ‖(tnOf (calculateTM eps q eta (mkMSec c Q s) E δ useH)).t * stk y dy s.min - stk y dy (s.min + δ)‖ ≤ (stE n M ρ σ τ false (s.max - s.min) + lC n M * d) * S := by
  have h0 : 0 ≤ s.max - s.min := by linarith [I.lt]
  have hmin : s.min ∈ Set.Icc s.min s.max := ⟨le_rfl, I.lt.le⟩
  have hmax : s.max ∈ Set.Icc s.min s.max := ⟨I.lt.le, le_rfl⟩
  have hx : s.min + δ ∈ Set.Icc s.min s.max := ⟨by linarith [hδ.1], by linarith [hδ.2]⟩
  have hS0 : 0 ≤ S := (norm_nonneg _).trans (hS _ hmin)
  have s1 := (norm_fromRows_top (y s.min) (dy s.min)).trans (hS _ hmin)
  have s2 := (norm_fromRows_bot (y s.min) (dy s.min)).trans (hS _ hmin)
  have hC := secC_one (n := n) I.M0
  have hL := lC_one (n := n) I.M0
  have hpow : (s.max - s.min) ^ 10 ≤ (s.max - s.min) ^ 9 := pow_le_pow_of_le_one h0 I.h1 (by norm_num)
  have hst : ∀ u, stE n M ρ σ τ u (s.max - s.min) ≤ stE n M ρ σ τ false (s.max - s.min) := by
    intro u
    cases u with
    | false => exact le_rfl
    | true =>
      refine mul_le_mul_of_nonneg_left ?_ (by linarith)
      show (s.max - s.min) ^ 10 + (s.max - s.min) * (ρ + τ) + σ ≤ (s.max - s.min) ^ 9 + (s.max - s.min) * (ρ + τ) + σ
      linarith
  have st0 : 0 ≤ stE n M ρ σ τ false (s.max - s.min) :=
    mul_nonneg (by linarith) (add_nonneg (add_nonneg (pow_nonneg h0 _) (mul_nonneg h0 (add_nonneg I.lit.1 I.τ0))) I.eta.nonneg)
  have sm := orient_smooth I.smooth
  have lipS : ∀ t ∈ Set.Icc s.min s.max, |t - (s.min + δ)| ≤ d → ‖stk y dy t - stk y dy (s.min + δ)‖ ≤ lC n M * d * S := by
    intro t ht hdt
    refine (stk_lip sm I.M0 I.E hy hS hx ht).trans ?_
    calc lC n M * S * |t - (s.min + δ)| ≤ lC n M * S * d := mul_le_mul_of_nonneg_left hdt (mul_nonneg (by linarith) hS0)
      _ = _ := by ring
  have dS : 0 ≤ lC n M * d * S := mul_nonneg (mul_nonneg (by linarith) hd) hS0
  unfold calculateTM
  split
  · rename_i hc
    rw [absM, ccmp_le, decide_eq_true_eq, abs_of_nonneg hδ.1] at hc
    rw [tn_one, Matrix.one_mul]
    have := lipS _ hmin (by rw [sub_add_cancel_left, abs_neg, abs_of_nonneg hδ.1]; exact k1 hc)
    have := mul_nonneg st0 hS0
    linarith
  · split
    · rename_i hc
      rw [Bool.and_eq_true, absM, ccmp_le, decide_eq_true_eq] at hc
      have e1 : |δ - (mkMSec c Q s).h| = s.max - s.min - δ := by
        show |δ - (s.max - s.min)| = _
        rw [abs_sub_comm, abs_of_nonneg (by linarith [hδ.2])]
      rw [e1] at hc
      have k := (sector_near I.M0 I.τ0 I.τ1 I.σ1 I.ρ1 I.lit I.eta I.lt I.h1 I.smooth I.coeff I.diag I.E (δ := s.max - s.min) ⟨h0, le_rfl⟩ (useH := true) (fun _ => rfl)).2 r y dy S hy s1 s2
      rw [add_sub_cancel] at k
      have l := lipS _ hmax (by rw [show s.max - (s.min + δ) = s.max - s.min - δ by ring, abs_of_nonneg (by linarith [hδ.2])]; exact k2 hc.2)
      have kl := norm_add_le_of_le k l
      have := mul_le_mul_of_nonneg_right (hst true) hS0
      unfold stE at this
      have e2 : ∀ a b c : Col n r, (a - b) + (b - c) = a - c := fun a b c => by abel
      unfold stk at kl ⊢
      rw [e2] at kl
      refine kl.trans ?_
      unfold stE
      linarith
    · have k := (sector_near I.M0 I.τ0 I.τ1 I.σ1 I.ρ1 I.lit I.eta I.lt I.h1 I.smooth I.coeff I.diag I.E hδ (useH := false) (fun h => by simp at h)).2 r y dy S hy s1 s2
      refine k.trans ?_
      have : stE n M ρ σ τ false (s.max - s.min) * S ≤ (stE n M ρ σ τ false (s.max - s.min) + lC n M * d) * S := by linarith
      exact this

/-! ### The solution operators of a sector -/

theorem stk_mirror (y dy : ℝ → Matrix (Fin n) (Fin r) ℝ) (m t : ℝ) : stk (fun x => y (m - x)) (fun x => -dy (m - x)) t = revRows (stk y dy (m - t)) := by
  ext i j; cases i <;> simp [stk, revRows]

theorem revRows_rev (m : Col n r) : revRows (revRows m) = m := by
  ext i j; cases i <;> simp [revRows]

/-- The solution operator of a sector relative to its starting end. -/
theorem sector_M {M ρ σ τ eps d θ : ℝ} {q : MTerm → ℝ} {eta : ℕ → ℝ → ℕ → ℝ} {V : ℝ → Mat n ℝ} {c : ℕ → Mat n ℝ} {Q : Mat n ℝ} {s : Sec ℝ} {E : ℝ} (I : Ingr M ρ σ τ q eta V c Q s E)
    (he0 : 0 ≤ eps) (hw : eps < s.max - s.min) (hd : 0 ≤ d) (useH : Bool) {y dy : ℝ → Matrix (Fin n) (Fin r) ℝ} {S : ℝ} (hy : MSolvesOn V E s.min s.max y dy)
    (hS : ∀ x ∈ Set.Icc s.min s.max, ‖stk y dy x‖ ≤ S) (hθ : secC n M * (s.max - s.min + σ) ≤ θ) (hθ1 : θ ≤ 1 / 2) (x : ℝ) (hsk : Skips eps d s.min s.max x) :
    Lip (2 * θ) (((sectorM eps q eta c Q s).toG r).M Yn.reverse E useH x) ∧
    (s.dir ≠ .backward → (s.max ≤ x → Tracks (((sectorM eps q eta c Q s).toG r).M Yn.reverse E useH x) (stk y dy s.min) (stk y dy s.max) (stE n M ρ σ τ useH (s.max - s.min) * S)) ∧
      (s.min < x → x < s.max → Tracks (((sectorM eps q eta c Q s).toG r).M Yn.reverse E useH x) (stk y dy s.min) (stk y dy x) ((stE n M ρ σ τ false (s.max - s.min) + lC n M * d) * S))) ∧
    (s.dir = .backward → (x ≤ s.min → Tracks (((sectorM eps q eta c Q s).toG r).M Yn.reverse E useH x) (stk y dy s.max) (stk y dy s.min) (stE n M ρ σ τ useH (s.max - s.min) * S)) ∧
      (s.min < x → x < s.max → Tracks (((sectorM eps q eta c Q s).toG r).M Yn.reverse E useH x) (stk y dy s.max) (stk y dy x) ((stE n M ρ σ τ false (s.max - s.min) + lC n M * d) * S))) := by
  have h0 : 0 < s.max - s.min := by linarith [I.lt]
  have hθ0 : 0 ≤ θ := le_trans (mul_nonneg (by linarith [secC_one (n := n) I.M0]) (add_nonneg h0.le I.eta.nonneg)) hθ
  have T : ∀ δ ∈ Set.Icc 0 (s.max - s.min), IsUnit (tnOf (calculateTM eps q eta (mkMSec c Q s) E δ useH)).t.det ∧
      Lip (2 * θ) (permOf (S := Yn n r ℝ) (tnOf (calculateTM eps q eta (mkMSec c Q s) E δ useH)).mul (tnOf (calculateTM eps q eta (mkMSec c Q s) E δ useH)).div) := by
    intro δ hδ
    obtain ⟨a1, a2, a3⟩ := near_one ((tm_near I he0 hδ useH).trans hθ) hθ1
    exact ⟨a1, lip_perm a1 a2 a3⟩
  have mem : ∀ z, 0 < z → min z (s.max - s.min) ∈ Set.Icc 0 (s.max - s.min) := fun z hz => ⟨le_min hz.le h0.le, min_le_right _ _⟩
  by_cases hdir : s.dir = .backward
  · have hM : ((sectorM eps q eta c Q s).toG r).M Yn.reverse E useH x = if s.max ≤ x then 1 else permOf Yn.reverse Yn.reverse *
        permOf (tnOf (calculateTM eps q eta (mkMSec c Q s) E (min (s.max - x) (s.max - s.min)) useH)).mul (tnOf (calculateTM eps q eta (mkMSec c Q s) E (min (s.max - x) (s.max - s.min)) useH)).div *
        permOf Yn.reverse Yn.reverse := by
      show (if s.dir = .backward then _ else _) = _
      rw [if_pos hdir]; rfl
    rw [hM]
    have hor : orientM V s = fun x => V (s.min + s.max - x) := by unfold orientM; rw [if_pos hdir]
    have hy' : MSolvesOn (orientM V s) E s.min s.max (fun x => y (s.min + s.max - x)) (fun x => -dy (s.min + s.max - x)) := by rw [hor]; exact MSolvesOn.reflect hy
    have hm : ∀ t, stk (fun x => y (s.min + s.max - x)) (fun x => -dy (s.min + s.max - x)) t = revRows (stk y dy (s.min + s.max - t)) := stk_mirror y dy _
    have hS' : ∀ t ∈ Set.Icc s.min s.max, ‖stk (fun x => y (s.min + s.max - x)) (fun x => -dy (s.min + s.max - x)) t‖ ≤ S := by
      intro t ht
      rw [hm]
      exact (revRows_norm _).trans (hS _ ⟨by linarith [ht.2], by linarith [ht.1]⟩)
    have comp : ∀ {δ e : ℝ}, δ ∈ Set.Icc 0 (s.max - s.min) →
        ‖(tnOf (calculateTM eps q eta (mkMSec c Q s) E δ useH)).t * stk (fun x => y (s.min + s.max - x)) (fun x => -dy (s.min + s.max - x)) s.min -
          stk (fun x => y (s.min + s.max - x)) (fun x => -dy (s.min + s.max - x)) (s.min + δ)‖ ≤ e →
        Tracks (permOf Yn.reverse Yn.reverse * permOf (S := Yn n r ℝ) (tnOf (calculateTM eps q eta (mkMSec c Q s) E δ useH)).mul (tnOf (calculateTM eps q eta (mkMSec c Q s) E δ useH)).div *
          permOf Yn.reverse Yn.reverse) (stk y dy s.max) (stk y dy (s.max - δ)) e := by
      intro δ e hδ h
      rw [hm, hm, show s.min + s.max - s.min = s.max by ring, show s.min + s.max - (s.min + δ) = s.max - δ by ring] at h
      have t1 := tracks_perm (T δ hδ).1 h
      have t2 := (tracks_rev (revRows (stk y dy (s.max - δ)))).mul lip_rev t1
      rw [revRows_rev] at t2
      have t3 := t2.mul (lip_rev.mul (T δ hδ).2) (tracks_rev (stk y dy s.max))
      refine t3.mono ?_
      simp
    refine ⟨?_, fun h => absurd hdir h, fun _ => ⟨fun hx => ?_, fun hx1 hx2 => ?_⟩⟩
    · split
      · exact Lip.one.mono (by linarith)
      · rename_i hx
        have := (lip_rev.mul (T _ (mem (s.max - x) (by linarith))).2).mul (lip_rev (n := n) (r := r))
        simpa using this
    · rw [if_neg (by linarith), min_eq_right (by linarith)]
      have := comp (δ := s.max - s.min) (e := stE n M ρ σ τ useH (s.max - s.min) * S) ⟨h0.le, le_rfl⟩ (by
        rw [show s.min + (s.max - s.min) = s.max by ring]
        exact tm_full I he0 hw useH hy' (hS' _ ⟨le_rfl, I.lt.le⟩))
      rwa [show s.max - (s.max - s.min) = s.min by ring] at this
    · rw [if_neg (by linarith), min_eq_left (by linarith)]
      have := comp (δ := s.max - x) ⟨by linarith, by linarith⟩ (tm_mid I he0 hd useH hy' hS' ⟨by linarith, by linarith⟩
        (fun h => (hsk hx1 hx2).2 h) (fun h => by
          have e : s.max - s.min - (s.max - x) = x - s.min := by ring
          rw [e] at h ⊢
          exact (hsk hx1 hx2).1 h))
      rwa [show s.max - (s.max - x) = x by ring] at this
  · have hM : ((sectorM eps q eta c Q s).toG r).M Yn.reverse E useH x = if x ≤ s.min then 1 else
        permOf (tnOf (calculateTM eps q eta (mkMSec c Q s) E (min (x - s.min) (s.max - s.min)) useH)).mul (tnOf (calculateTM eps q eta (mkMSec c Q s) E (min (x - s.min) (s.max - s.min)) useH)).div := by
      show (if s.dir = .backward then _ else _) = _
      rw [if_neg hdir]; rfl
    rw [hM]
    have hor : orientM V s = V := by unfold orientM; rw [if_neg hdir]
    have hy' : MSolvesOn (orientM V s) E s.min s.max y dy := by rw [hor]; exact hy
    refine ⟨?_, fun _ => ⟨fun hx => ?_, fun hx1 hx2 => ?_⟩, fun h => absurd h hdir⟩
    · split
      · exact Lip.one.mono (by linarith)
      · exact (T _ (mem (x - s.min) (by linarith))).2
    · rw [if_neg (by linarith), min_eq_right (by linarith)]
      exact tracks_perm (T _ ⟨h0.le, le_rfl⟩).1 (tm_full I he0 hw useH hy' (hS _ ⟨le_rfl, I.lt.le⟩))
    · rw [if_neg (by linarith), min_eq_left (by linarith)]
      have := tm_mid I he0 hd useH hy' hS (δ := x - s.min) ⟨by linarith, by linarith⟩ (fun h => (hsk hx1 hx2).1 h) (fun h => by
          have e : s.max - s.min - (x - s.min) = s.max - x := by ring
          rw [e] at h ⊢
          exact (hsk hx1 hx2).2 h)
      rw [show s.min + (x - s.min) = x by ring] at this
      exact tracks_perm (T _ ⟨by linarith, by linarith⟩).1 this

theorem stE_nonneg {M ρ σ τ : ℝ} {q : MTerm → ℝ} {eta : ℕ → ℝ → ℕ → ℝ} {V : ℝ → Mat n ℝ} {c : ℕ → Mat n ℝ} {Q : Mat n ℝ} {s : Sec ℝ} {E : ℝ} (I : Ingr M ρ σ τ q eta V c Q s E) (useH : Bool) :
    0 ≤ stE n M ρ σ τ useH (s.max - s.min) := by
  have h0 : 0 ≤ s.max - s.min := by linarith [I.lt]
  exact mul_nonneg (by linarith [secC_one (n := n) I.M0]) (add_nonneg (add_nonneg (pow_nonneg h0 _) (mul_nonneg h0 (add_nonneg I.lit.1 I.τ0))) I.eta.nonneg)

/-- What a sector contributes to the error. -/
theorem step_ok {M ρ σ τ eps d π : ℝ} {q : MTerm → ℝ} {eta : ℕ → ℝ → ℕ → ℝ} {V : ℝ → Mat n ℝ} {c : ℕ → Mat n ℝ} {Q : Mat n ℝ} {s : Sec ℝ} {E : ℝ} (I : Ingr M ρ σ τ q eta V c Q s E)
    (he0 : 0 ≤ eps) (hw : eps < s.max - s.min) (hdir : s.dir ≠ .none) (hd : 0 ≤ d) (useH : Bool) {y dy : ℝ → Matrix (Fin n) (Fin r) ℝ} {S : ℝ} (hy : MSolvesOn V E s.min s.max y dy)
    (hS : ∀ x ∈ Set.Icc s.min s.max, ‖stk y dy x‖ ≤ S) (hθ1 : secC n M * (s.max - s.min + σ) ≤ 1 / 2) (x : ℝ) (hsk : Skips eps d s.min s.max x)
    (hπ : 0 ≤ π) (hmid : s.min < x → x < s.max → (stE n M ρ σ τ false (s.max - s.min) + lC n M * d) * S ≤ π) :
    StepOk (stk y dy) π s (((sectorM eps q eta c Q s).toG r).N Yn.reverse E useH) (4 * (secC n M * (s.max - s.min + σ))) (8 * (stE n M ρ σ τ useH (s.max - s.min) * S)) x := by
  have hlt := I.lt
  have h0 : 0 < s.max - s.min := by linarith
  obtain ⟨θ, hθ⟩ : ∃ θ, θ = secC n M * (s.max - s.min + σ) := ⟨_, rfl⟩
  have hθ0 : 0 ≤ θ := by rw [hθ]; exact mul_nonneg (by linarith [secC_one (n := n) I.M0]) (add_nonneg h0.le I.eta.nonneg)
  rw [← hθ] at hθ1 ⊢
  have hS0 : 0 ≤ S := (norm_nonneg _).trans (hS s.min ⟨le_rfl, hlt.le⟩)
  have e0 : 0 ≤ stE n M ρ σ τ useH (s.max - s.min) * S := mul_nonneg (stE_nonneg I useH) hS0
  obtain ⟨l1, f1, b1⟩ := sector_M I he0 hw hd useH hy hS hθ.symm.le hθ1 x hsk
  obtain ⟨l2, -, b2⟩ := sector_M I he0 hw hd useH hy hS hθ.symm.le hθ1 s.min (fun h => absurd h (lt_irrefl _))
  have good : ((sectorM eps q eta c Q s).toG r).Good E useH := by
    refine ⟨hlt, rfl, ?_, fun δ hδ hδ' => ?_⟩
    · show s.dir = .forward ∨ s.dir = .backward
      cases hh : s.dir
      · exact absurd hh hdir
      · exact Or.inl rfl
      · exact Or.inr rfl
    · have := near_one ((tm_near I he0 ⟨hδ, hδ'⟩ useH).trans hθ.symm.le) hθ1
      exact Tn.inverses _ this.1
  have lN : Lip (4 * θ) (((sectorM eps q eta c Q s).toG r).N Yn.reverse E useH x) := by
    have := l1.mul l2.inv
    rwa [show 2 * θ + 2 * θ = 4 * θ by ring] at this
  refine ⟨by linarith, by linarith, lN, fun hx => N_left good hx, ?_, ?_⟩
  · intro hx1 hx2
    by_cases hb : s.dir = .backward
    · have t1 := ((b2 hb).1 le_rfl).inv l2
      have t2 := (((b1 hb).2 hx1 hx2)).mul l1 t1
      refine Tracks.mono t2 ?_
      have e8 : Real.exp (2 * θ) * (Real.exp (2 * θ) * (stE n M ρ σ τ useH (s.max - s.min) * S)) ≤ 8 * (stE n M ρ σ τ useH (s.max - s.min) * S) := by
        rw [← mul_assoc, ← Real.exp_add]
        refine mul_le_mul_of_nonneg_right ?_ e0
        have : Real.exp (2 * θ + 2 * θ) ≤ Real.exp 2 := Real.exp_le_exp.mpr (by linarith)
        refine this.trans ?_
        have h2 : Real.exp 2 = Real.exp 1 * Real.exp 1 := by rw [← Real.exp_add]; norm_num
        have := Real.exp_one_lt_d9
        have := Real.exp_pos 1
        rw [h2]; nlinarith
      linarith [hmid hx1 hx2]
    · have e1 : ((sectorM eps q eta c Q s).toG r).M Yn.reverse E useH s.min = 1 := by
        show (if s.dir = .backward then _ else _) = _
        rw [if_neg hb]; exact if_pos (le_refl _)
      unfold GSec.N
      have e2 : ((sectorM eps q eta c Q s).toG r).min = s.min := rfl
      rw [e2, e1, inv_one, mul_one]
      exact ((f1 hb).2 hx1 hx2).mono (by linarith [hmid hx1 hx2])
  · intro hx
    by_cases hb : s.dir = .backward
    · have t1 := ((b2 hb).1 le_rfl).inv l2
      have e1 : ((sectorM eps q eta c Q s).toG r).M Yn.reverse E useH x = 1 := by
        show (if s.dir = .backward then _ else _) = _
        rw [if_pos hb]; exact if_pos hx
      unfold GSec.N
      rw [e1, one_mul]
      refine Tracks.mono t1 (mul_le_mul_of_nonneg_right ?_ e0)
      have : Real.exp (2 * θ) ≤ Real.exp 1 := Real.exp_le_exp.mpr (by linarith)
      linarith [Real.exp_one_lt_d9]
    · have e1 : ((sectorM eps q eta c Q s).toG r).M Yn.reverse E useH s.min = 1 := by
        show (if s.dir = .backward then _ else _) = _
        rw [if_neg hb]; exact if_pos (le_refl _)
      unfold GSec.N
      have e2 : ((sectorM eps q eta c Q s).toG r).min = s.min := rfl
      rw [e2, e1, inv_one, mul_one]
      exact ((f1 hb).1 hx).mono (by linarith)

end
end Verif.NP
