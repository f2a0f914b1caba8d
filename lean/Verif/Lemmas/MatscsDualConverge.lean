import Verif.Lemmas.MatscsDualFlow
import Verif.Lemmas.MatscsMesh

/-!
# Propagation of a coupled system with its energy derivative converges
-/
namespace Verif.NP
open Verif.MFormulas Verif.Matscs Verif.Mesh Verif Verif.YT

attribute [local instance] Matrix.linftyOpNormedAddCommGroup Matrix.linftyOpNormedSpace Matrix.linftyOpNormedRing Matrix.linftyOpNormedAlgebra

section
variable {n r : ℕ}

theorem dsC_nonneg {M : ℝ} (hM : 0 ≤ M) : 0 ≤ dsC n M := by
  have hn : (0 : ℝ) ≤ n := Nat.cast_nonneg _
  have B0 : 0 ≤ gB n M := by
    have := (Real.exp_pos (zB n M)).le
    unfold gB; positivity
  have B2 : 0 ≤ 2 * gB n M := by linarith
  have bC0 : 0 ≤ bC (2 * gB n M) := bC_nonneg B2
  have o1 := oX_nonneg MEntry4.a B0
  have o2 := oX_nonneg MEntry4.b B0
  have o3 := oX_nonneg MEntry4.c B0
  have o4 := oX_nonneg MEntry4.d B0
  have G0 : 0 ≤ dgC n M := by unfold dgC; positivity
  have S0 : 0 ≤ sC (2 * gB n M) := add_nonneg (add_nonneg (add_nonneg (cB_nonneg B2 _) (cB_nonneg B2 _)) (cB_nonneg B2 _)) (cB_nonneg B2 _)
  have R0 : 0 ≤ rCof Ua Ub Uc Ud (2 * gB n M) := by
    obtain ⟨r1, r2, r3, r4, r5, r6⟩ := rC_parts Ua Ub Uc Ud B2
    unfold rCof; linarith
  have X0 := (Real.exp_pos (10 * (2 * gB n M) + 2)).le
  have n0 : (0 : ℝ) ≤ n := Nat.cast_nonneg _
  unfold dsC
  generalize dgC n M = x1 at *
  generalize sC (2 * gB n M) = x2 at *
  generalize rCof Ua Ub Uc Ud (2 * gB n M) = x3 at *
  generalize Real.exp (10 * (2 * gB n M) + 2) = x4 at *
  clear o1 o2 o3 o4 bC0
  positivity

/-- the constant of a step with its energy derivative -/
noncomputable def kC (n : ℕ) (M : ℝ) : ℝ := secC n M + dsC n M

theorem kC_one {M : ℝ} (hM : 0 ≤ M) : 1 ≤ kC n M := by
  have := secC_one (n := n) hM; have := dsC_nonneg (n := n) hM
  unfold kC; linarith

noncomputable def stD (n : ℕ) (M ρ σ τ : ℝ) (useH : Bool) (h : ℝ) : ℝ := kC n M * (h ^ ordM useH + h * (ρ + τ) + σ)

theorem dtn_one : (tnOf (oneM : YT.T (Mat n ℝ))).dt = 0 := by
  show Matrix.fromBlocks 0 0 0 0 = 0
  exact Matrix.fromBlocks_zero

variable {M ρ σ τ eps : ℝ} {q : MTerm → ℝ} {eta : ℕ → ℝ → ℕ → ℝ} {V : ℝ → Mat n ℝ} {c : ℕ → Mat n ℝ} {Q : Mat n ℝ} {s : Sec ℝ} {E : ℝ}

theorem stD_nonneg (I : Ingr M ρ σ τ q eta V c Q s E) (useH : Bool) : 0 ≤ stD n M ρ σ τ useH (s.max - s.min) := by
  have h0 : 0 ≤ s.max - s.min := by linarith [I.lt]
  exact mul_nonneg (by linarith [kC_one (n := n) I.M0]) (add_nonneg (add_nonneg (pow_nonneg h0 _) (mul_nonneg h0 (add_nonneg I.lit.1 I.τ0))) I.eta.nonneg)

theorem calc_near2 (I : Ingr M ρ σ τ q eta V c Q s E) {δ : ℝ} (hδ : δ ∈ Set.Icc 0 (s.max - s.min)) {useH : Bool} (hu : useH = true → δ = s.max - s.min) :
    ‖(tnOf (calcFromVEd q eta (mkMSec c Q s) δ (vedOf (mkMSec c Q s) E δ) useH)).t - 1‖ ≤ kC n M * (s.max - s.min + σ) ∧
    ‖(tnOf (calcFromVEd q eta (mkMSec c Q s) δ (vedOf (mkMSec c Q s) E δ) useH)).dt‖ ≤ kC n M * (s.max - s.min + σ) ∧
    ∀ {y dy z dz : ℝ → Matrix (Fin n) (Fin r) ℝ} {S : ℝ}, Both (orientM V s) E s.min s.max y dy z dz → ‖stk2 y dy z dz s.min‖ ≤ S →
      ‖(tnOf (calcFromVEd q eta (mkMSec c Q s) δ (vedOf (mkMSec c Q s) E δ) useH)).t * stk y dy s.min - stk y dy (s.min + δ)‖ ≤ stD n M ρ σ τ useH (s.max - s.min) * S ∧
      ‖(tnOf (calcFromVEd q eta (mkMSec c Q s) δ (vedOf (mkMSec c Q s) E δ) useH)).t * stk z dz s.min + (tnOf (calcFromVEd q eta (mkMSec c Q s) δ (vedOf (mkMSec c Q s) E δ) useH)).dt * stk y dy s.min -
        stk z dz (s.min + δ)‖ ≤ stD n M ρ σ τ useH (s.max - s.min) * S := by
  have h0 : 0 ≤ s.max - s.min := by linarith [I.lt]
  have k1 := sector_near I.M0 I.τ0 I.τ1 I.σ1 I.ρ1 I.lit I.eta I.lt I.h1 I.smooth I.coeff I.diag I.E hδ hu
  have k2 := dual_near I.M0 I.τ0 I.τ1 I.σ1 I.ρ1 I.lit I.eta I.lt I.h1 I.smooth I.coeff I.diag I.E hδ hu
  have c1 := secC_one (n := n) I.M0
  have c2 := dsC_nonneg (n := n) I.M0
  have hs : 0 ≤ s.max - s.min + σ := add_nonneg h0 I.eta.nonneg
  refine ⟨k1.1.trans (mul_le_mul_of_nonneg_right (by unfold kC; linarith) hs), k2.1.trans (mul_le_mul_of_nonneg_right (by unfold kC; linarith) hs), ?_⟩
  intro y dy z dz S hy hS
  have hS0 : 0 ≤ S := (norm_nonneg _).trans hS
  rw [norm_stk2, Prod.norm_mk, Prod.norm_mk] at hS
  have s1 : ‖y s.min‖ ≤ S := le_trans (le_trans (le_max_left _ _) (le_max_left _ _)) hS
  have s2 : ‖z s.min‖ ≤ S := le_trans (le_trans (le_max_right _ _) (le_max_left _ _)) hS
  have s3 : ‖dy s.min‖ ≤ S := le_trans (le_trans (le_max_left _ _) (le_max_right _ _)) hS
  have s4 : ‖dz s.min‖ ≤ S := le_trans (le_trans (le_max_right _ _) (le_max_right _ _)) hS
  have hX : 0 ≤ (s.max - s.min) ^ ordM useH + (s.max - s.min) * (ρ + τ) + σ := add_nonneg (add_nonneg (pow_nonneg h0 _) (mul_nonneg h0 (add_nonneg I.lit.1 I.τ0))) I.eta.nonneg
  refine ⟨(k1.2 r y dy S hy.s s1 s3).trans ?_, (k2.2 r y dy z dz S hy.s hy.e s1 s3 s2 s4).trans ?_⟩
  all_goals
    refine mul_le_mul_of_nonneg_right (mul_le_mul_of_nonneg_right ?_ hX) hS0
    unfold kC; linarith

theorem tm_near2 (I : Ingr M ρ σ τ q eta V c Q s E) {δ : ℝ} (hδ : δ ∈ Set.Icc 0 (s.max - s.min)) (useH : Bool) :
    ‖(tnOf (calculateTM eps q eta (mkMSec c Q s) E δ useH)).t - 1‖ ≤ kC n M * (s.max - s.min + σ) ∧ ‖(tnOf (calculateTM eps q eta (mkMSec c Q s) E δ useH)).dt‖ ≤ kC n M * (s.max - s.min + σ) := by
  have hC := kC_one (n := n) I.M0
  have h0 : 0 ≤ s.max - s.min := by linarith [I.lt]
  have hz : 0 ≤ kC n M * (s.max - s.min + σ) := mul_nonneg (by linarith) (add_nonneg h0 I.eta.nonneg)
  unfold calculateTM
  split
  · rw [tn_one, dtn_one, sub_self, norm_zero]
    exact ⟨hz, hz⟩
  · split
    · have := calc_near2 (r := 0) I (δ := s.max - s.min) ⟨h0, le_rfl⟩ (useH := true) (fun _ => rfl)
      exact ⟨this.1, this.2.1⟩
    · have := calc_near2 (r := 0) I hδ (useH := false) (fun h => by simp at h)
      exact ⟨this.1, this.2.1⟩

theorem tm_full2 (I : Ingr M ρ σ τ q eta V c Q s E)
    (he0 : 0 ≤ eps) (hw : eps < s.max - s.min) (useH : Bool) {y dy z dz : ℝ → Matrix (Fin n) (Fin r) ℝ} {S : ℝ} (hy : Both (orientM V s) E s.min s.max y dy z dz) (hS : ‖stk2 y dy z dz s.min‖ ≤ S) :
    ‖(tnOf (calculateTM eps q eta (mkMSec c Q s) E (s.max - s.min) useH)).t * stk y dy s.min - stk y dy s.max‖ ≤ stD n M ρ σ τ useH (s.max - s.min) * S ∧
    ‖(tnOf (calculateTM eps q eta (mkMSec c Q s) E (s.max - s.min) useH)).t * stk z dz s.min + (tnOf (calculateTM eps q eta (mkMSec c Q s) E (s.max - s.min) useH)).dt * stk y dy s.min - stk z dz s.max‖ ≤
      stD n M ρ σ τ useH (s.max - s.min) * S := by
  have h0 : 0 ≤ s.max - s.min := by linarith [I.lt]
  have k := (calc_near2 (r := r) I (δ := s.max - s.min) ⟨h0, le_rfl⟩ (useH := useH) (fun _ => rfl)).2.2 hy hS
  rw [add_sub_cancel] at k
  have e : calculateTM eps q eta (mkMSec c Q s) E (s.max - s.min) useH = calcFromVEd q eta (mkMSec c Q s) (s.max - s.min) (vedOf (mkMSec c Q s) E (s.max - s.min)) useH := by
    unfold calculateTM
    have n1 : ¬ |s.max - s.min| ≤ eps := by rw [abs_of_nonneg h0]; linarith
    have n2 : |s.max - s.min - (mkMSec c Q s).h| ≤ eps := by
      show |s.max - s.min - (s.max - s.min)| ≤ eps
      rw [sub_self, abs_zero]; exact he0
    simp only [absM, ccmp_le, n1, n2, decide_false, decide_true, Bool.and_true, Bool.false_eq_true, if_false]
    cases useH
    · rfl
    · rfl
  rw [e]
  exact k

theorem tm_mid2 {d : ℝ} (I : Ingr M ρ σ τ q eta V c Q s E)
    (hd : 0 ≤ d) (useH : Bool) {y dy z dz : ℝ → Matrix (Fin n) (Fin r) ℝ} {S : ℝ} (hy : Both (orientM V s) E s.min s.max y dy z dz)
    (hS : ∀ x ∈ Set.Icc s.min s.max, ‖stk2 y dy z dz x‖ ≤ S) {δ : ℝ} (hδ : δ ∈ Set.Icc 0 (s.max - s.min)) (k1 : δ ≤ eps → δ ≤ d) (k2 : s.max - s.min - δ ≤ eps → s.max - s.min - δ ≤ d) :
    ‖(tnOf (calculateTM eps q eta (mkMSec c Q s) E δ useH)).t * stk y dy s.min - stk y dy (s.min + δ)‖ ≤ (stD n M ρ σ τ false (s.max - s.min) + lD n M * d) * S ∧
    ‖(tnOf (calculateTM eps q eta (mkMSec c Q s) E δ useH)).t * stk z dz s.min + (tnOf (calculateTM eps q eta (mkMSec c Q s) E δ useH)).dt * stk y dy s.min - stk z dz (s.min + δ)‖ ≤
      (stD n M ρ σ τ false (s.max - s.min) + lD n M * d) * S := by
  have h0 : 0 ≤ s.max - s.min := by linarith [I.lt]
  have hmin : s.min ∈ Set.Icc s.min s.max := ⟨le_rfl, I.lt.le⟩
  have hmax : s.max ∈ Set.Icc s.min s.max := ⟨I.lt.le, le_rfl⟩
  have hx : s.min + δ ∈ Set.Icc s.min s.max := ⟨by linarith [hδ.1], by linarith [hδ.2]⟩
  have hS0 : 0 ≤ S := (norm_nonneg _).trans (hS _ hmin)
  have hC := kC_one (n := n) I.M0
  have hL : 1 ≤ lD n M := by unfold lD; linarith [lC_one (n := n) I.M0]
  have hpow : (s.max - s.min) ^ 10 ≤ (s.max - s.min) ^ 9 := pow_le_pow_of_le_one h0 I.h1 (by norm_num)
  have hst : stD n M ρ σ τ true (s.max - s.min) ≤ stD n M ρ σ τ false (s.max - s.min) := by
    refine mul_le_mul_of_nonneg_left ?_ (by linarith)
    show (s.max - s.min) ^ 10 + (s.max - s.min) * (ρ + τ) + σ ≤ (s.max - s.min) ^ 9 + (s.max - s.min) * (ρ + τ) + σ
    linarith
  have st0 := stD_nonneg I false
  have sm := orient_smooth I.smooth
  have lipS : ∀ t ∈ Set.Icc s.min s.max, |t - (s.min + δ)| ≤ d → ‖stk y dy t - stk y dy (s.min + δ)‖ ≤ lD n M * d * S ∧ ‖stk z dz t - stk z dz (s.min + δ)‖ ≤ lD n M * d * S := by
    intro t ht hdt
    have := stk2_lip sm I.M0 I.E hy hS hx ht
    have h2 : lD n M * S * |t - (s.min + δ)| ≤ lD n M * d * S := by
      calc lD n M * S * |t - (s.min + δ)| ≤ lD n M * S * d := mul_le_mul_of_nonneg_left hdt (mul_nonneg (by linarith) hS0)
        _ = _ := by ring
    exact ⟨((norm_fst_le _).trans this).trans h2, ((norm_snd_le _).trans this).trans h2⟩
  have dS : 0 ≤ lD n M * d * S := mul_nonneg (mul_nonneg (by linarith) hd) hS0
  have stS := mul_nonneg st0 hS0
  unfold calculateTM
  split
  · rename_i hc
    rw [absM, ccmp_le, decide_eq_true_eq, abs_of_nonneg hδ.1] at hc
    rw [tn_one, dtn_one, Matrix.one_mul, Matrix.one_mul, Matrix.zero_mul, add_zero]
    have := lipS _ hmin (by rw [sub_add_cancel_left, abs_neg, abs_of_nonneg hδ.1]; exact k1 hc)
    exact ⟨this.1.trans (by linarith), this.2.trans (by linarith)⟩
  · split
    · rename_i hc
      rw [Bool.and_eq_true, absM, ccmp_le, decide_eq_true_eq] at hc
      have e1 : |δ - (mkMSec c Q s).h| = s.max - s.min - δ := by
        show |δ - (s.max - s.min)| = _
        rw [abs_sub_comm, abs_of_nonneg (by linarith [hδ.2])]
      rw [e1] at hc
      have k := (calc_near2 (r := r) I (δ := s.max - s.min) ⟨h0, le_rfl⟩ (useH := true) (fun _ => rfl)).2.2 hy (hS _ hmin)
      rw [add_sub_cancel] at k
      have l := lipS _ hmax (by rw [show s.max - (s.min + δ) = s.max - s.min - δ by ring, abs_of_nonneg (by linarith [hδ.2])]; exact k2 hc.2)
      have kl1 := norm_add_le_of_le k.1 l.1
      have kl2 := norm_add_le_of_le k.2 l.2
      have := mul_le_mul_of_nonneg_right hst hS0
      rw [sub_add_sub_cancel] at kl1 kl2
      exact ⟨kl1.trans (by linarith), kl2.trans (by linarith)⟩
    · have k := (calc_near2 (r := r) I hδ (useH := false) (fun h => by simp at h)).2.2 hy (hS _ hmin)
      exact ⟨k.1.trans (by linarith), k.2.trans (by linarith)⟩

/-! ### The solution operators of a sector -/

theorem stk2_mirror (y dy z dz : ℝ → Matrix (Fin n) (Fin r) ℝ) (m t : ℝ) :
    stk2 (fun x => y (m - x)) (fun x => -dy (m - x)) (fun x => z (m - x)) (fun x => -dz (m - x)) t = rev2 (stk2 y dy z dz (m - t)) := by
  unfold stk2 rev2
  rw [stk_mirror, stk_mirror]

theorem sector_M2 {d θ : ℝ} (I : Ingr M ρ σ τ q eta V c Q s E)
    (he0 : 0 ≤ eps) (hw : eps < s.max - s.min) (hd : 0 ≤ d) (useH : Bool) {y dy z dz : ℝ → Matrix (Fin n) (Fin r) ℝ} {S : ℝ} (hy : Both V E s.min s.max y dy z dz)
    (hS : ∀ x ∈ Set.Icc s.min s.max, ‖stk2 y dy z dz x‖ ≤ S) (hθ : kC n M * (s.max - s.min + σ) ≤ θ) (hθ1 : θ ≤ 1 / 2) (x : ℝ) (hsk : Skips eps d s.min s.max x) :
    LipP (ynSect n r) (5 * θ) (((sectorM eps q eta c Q s).toG r).M Yn.reverse E useH x) ∧
    (s.dir ≠ .backward → (s.max ≤ x → TracksP (ynSect n r) (((sectorM eps q eta c Q s).toG r).M Yn.reverse E useH x) (stk2 y dy z dz s.min) (stk2 y dy z dz s.max) (stD n M ρ σ τ useH (s.max - s.min) * S)) ∧
      (s.min < x → x < s.max → TracksP (ynSect n r) (((sectorM eps q eta c Q s).toG r).M Yn.reverse E useH x) (stk2 y dy z dz s.min) (stk2 y dy z dz x) ((stD n M ρ σ τ false (s.max - s.min) + lD n M * d) * S))) ∧
    (s.dir = .backward → (x ≤ s.min → TracksP (ynSect n r) (((sectorM eps q eta c Q s).toG r).M Yn.reverse E useH x) (stk2 y dy z dz s.max) (stk2 y dy z dz s.min) (stD n M ρ σ τ useH (s.max - s.min) * S)) ∧
      (s.min < x → x < s.max → TracksP (ynSect n r) (((sectorM eps q eta c Q s).toG r).M Yn.reverse E useH x) (stk2 y dy z dz s.max) (stk2 y dy z dz x) ((stD n M ρ σ τ false (s.max - s.min) + lD n M * d) * S))) := by
  have h0 : 0 < s.max - s.min := by linarith [I.lt]
  have hθ0 : 0 ≤ θ := le_trans (mul_nonneg (by linarith [kC_one (n := n) I.M0]) (add_nonneg h0.le I.eta.nonneg)) hθ
  have T : ∀ δ ∈ Set.Icc 0 (s.max - s.min), IsUnit (tnOf (calculateTM eps q eta (mkMSec c Q s) E δ useH)).t.det ∧
      LipP (ynSect n r) (5 * θ) (permOf (S := Yn n r ℝ) (tnOf (calculateTM eps q eta (mkMSec c Q s) E δ useH)).mul (tnOf (calculateTM eps q eta (mkMSec c Q s) E δ useH)).div) := by
    intro δ hδ
    have := tm_near2 (eps := eps) I hδ useH
    exact lipP_perm (this.1.trans hθ) (this.2.trans hθ) hθ1
  have mem : ∀ z, 0 < z → min z (s.max - s.min) ∈ Set.Icc 0 (s.max - s.min) := fun z hz => ⟨le_min hz.le h0.le, min_le_right _ _⟩
  by_cases hdir : s.dir = .backward
  · have hM : ((sectorM eps q eta c Q s).toG r).M Yn.reverse E useH x = if s.max ≤ x then 1 else permOf Yn.reverse Yn.reverse *
        permOf (tnOf (calculateTM eps q eta (mkMSec c Q s) E (min (s.max - x) (s.max - s.min)) useH)).mul (tnOf (calculateTM eps q eta (mkMSec c Q s) E (min (s.max - x) (s.max - s.min)) useH)).div *
        permOf Yn.reverse Yn.reverse := by
      show (if s.dir = .backward then _ else _) = _
      rw [if_pos hdir]; rfl
    rw [hM]
    have hor : orientM V s = fun x => V (s.min + s.max - x) := by unfold orientM; rw [if_pos hdir]
    have hy' : Both (orientM V s) E s.min s.max (fun x => y (s.min + s.max - x)) (fun x => -dy (s.min + s.max - x)) (fun x => z (s.min + s.max - x)) (fun x => -dz (s.min + s.max - x)) := by rw [hor]; exact hy.reflect
    have hm := stk2_mirror y dy z dz (s.min + s.max)
    have hS' : ∀ t ∈ Set.Icc s.min s.max, ‖stk2 (fun x => y (s.min + s.max - x)) (fun x => -dy (s.min + s.max - x)) (fun x => z (s.min + s.max - x)) (fun x => -dz (s.min + s.max - x)) t‖ ≤ S := by
      intro t ht
      rw [hm]
      exact (rev2_norm _).trans (hS _ ⟨by linarith [ht.2], by linarith [ht.1]⟩)
    have comp : ∀ {δ e : ℝ}, δ ∈ Set.Icc 0 (s.max - s.min) →
        ‖(tnOf (calculateTM eps q eta (mkMSec c Q s) E δ useH)).t * stk (fun x => y (s.min + s.max - x)) (fun x => -dy (s.min + s.max - x)) s.min -
          stk (fun x => y (s.min + s.max - x)) (fun x => -dy (s.min + s.max - x)) (s.min + δ)‖ ≤ e ∧
        ‖(tnOf (calculateTM eps q eta (mkMSec c Q s) E δ useH)).t * stk (fun x => z (s.min + s.max - x)) (fun x => -dz (s.min + s.max - x)) s.min +
          (tnOf (calculateTM eps q eta (mkMSec c Q s) E δ useH)).dt * stk (fun x => y (s.min + s.max - x)) (fun x => -dy (s.min + s.max - x)) s.min -
          stk (fun x => z (s.min + s.max - x)) (fun x => -dz (s.min + s.max - x)) (s.min + δ)‖ ≤ e →
        TracksP (ynSect n r) (permOf Yn.reverse Yn.reverse * permOf (S := Yn n r ℝ) (tnOf (calculateTM eps q eta (mkMSec c Q s) E δ useH)).mul (tnOf (calculateTM eps q eta (mkMSec c Q s) E δ useH)).div *
          permOf Yn.reverse Yn.reverse) (stk2 y dy z dz s.max) (stk2 y dy z dz (s.max - δ)) e := by
      intro δ e hδ h
      have t1 := tracksP_perm (T δ hδ).1
        (Y := stk2 (fun x => y (s.min + s.max - x)) (fun x => -dy (s.min + s.max - x)) (fun x => z (s.min + s.max - x)) (fun x => -dz (s.min + s.max - x)) s.min)
        (Y' := stk2 (fun x => y (s.min + s.max - x)) (fun x => -dy (s.min + s.max - x)) (fun x => z (s.min + s.max - x)) (fun x => -dz (s.min + s.max - x)) (s.min + δ)) h.1 h.2
      rw [hm, hm, show s.min + s.max - s.min = s.max by ring, show s.min + s.max - (s.min + δ) = s.max - δ by ring] at t1
      have t2 := (tracksP_rev (rev2 (stk2 y dy z dz (s.max - δ)))).mul lipP_rev t1
      rw [rev2_rev] at t2
      have t3 := t2.mul (lipP_rev.mul (T δ hδ).2) (tracksP_rev (stk2 y dy z dz s.max))
      refine t3.mono ?_
      simp
    refine ⟨?_, fun h => absurd hdir h, fun _ => ⟨fun hx => ?_, fun hx1 hx2 => ?_⟩⟩
    · split
      · exact LipP.one.mono (by linarith)
      · rename_i hx
        have := (lipP_rev.mul (T _ (mem (s.max - x) (by linarith))).2).mul (lipP_rev (n := n) (r := r))
        simpa using this
    · rw [if_neg (by linarith), min_eq_right (by linarith)]
      have := comp (δ := s.max - s.min) (e := stD n M ρ σ τ useH (s.max - s.min) * S) ⟨h0.le, le_rfl⟩ (by
        rw [show s.min + (s.max - s.min) = s.max by ring]
        exact tm_full2 I he0 hw useH hy' (hS' _ ⟨le_rfl, I.lt.le⟩))
      rwa [show s.max - (s.max - s.min) = s.min by ring] at this
    · rw [if_neg (by linarith), min_eq_left (by linarith)]
      have := comp (δ := s.max - x) ⟨by linarith, by linarith⟩ (tm_mid2 I hd useH hy' hS' ⟨by linarith, by linarith⟩
        (fun h => (hsk hx1 hx2).2 h) (fun h => by
          have e : s.max - s.min - (s.max - x) = x - s.min := by ring
          rw [e] at h ⊢
          exact (hsk hx1 hx2).1 h))
      rwa [show s.max - (s.max - x) = x by ring] at this
  · have hM : ((sectorM eps q eta c Q s).toG r).M Yn.reverse E useH x = if x ≤ s.min then 1 else
        permOf (tnOf (calculateTM eps q eta (mkMSec c Q s) E (min (x - s.min) (s.max - s.min)) useH)).mul (tnOf (calculateTM eps q eta (mkMSec c Q s) E (min (x - s.min) (s.max - s.min)) useH)).div := by
      show (if s.dir = .backward then _ else _) = _
      rw [if_neg hdir]; rfl
    rw [hM]
    have hor : orientM V s = V := by unfold orientM; rw [if_neg hdir]
    have hy' : Both (orientM V s) E s.min s.max y dy z dz := by rw [hor]; exact hy
    refine ⟨?_, fun _ => ⟨fun hx => ?_, fun hx1 hx2 => ?_⟩, fun h => absurd h hdir⟩
    · split
      · exact LipP.one.mono (by linarith)
      · exact (T _ (mem (x - s.min) (by linarith))).2
    · rw [if_neg (by linarith), min_eq_right (by linarith)]
      have := tm_full2 I he0 hw useH hy' (hS _ ⟨le_rfl, I.lt.le⟩)
      exact tracksP_perm (T _ ⟨h0.le, le_rfl⟩).1 this.1 this.2
    · rw [if_neg (by linarith), min_eq_left (by linarith)]
      have := tm_mid2 I hd useH hy' hS (δ := x - s.min) ⟨by linarith, by linarith⟩ (fun h => (hsk hx1 hx2).1 h) (fun h => by
          have e : s.max - s.min - (x - s.min) = s.max - x := by ring
          rw [e] at h ⊢
          exact (hsk hx1 hx2).2 h)
      rw [show s.min + (x - s.min) = x by ring] at this
      exact tracksP_perm (T _ ⟨by linarith, by linarith⟩).1 this.1 this.2

theorem step_ok2 {d π : ℝ} (I : Ingr M ρ σ τ q eta V c Q s E)
    (he0 : 0 ≤ eps) (hw : eps < s.max - s.min) (hdir : s.dir ≠ .none) (hd : 0 ≤ d) (useH : Bool) {y dy z dz : ℝ → Matrix (Fin n) (Fin r) ℝ} {S : ℝ} (hy : Both V E s.min s.max y dy z dz)
    (hS : ∀ x ∈ Set.Icc s.min s.max, ‖stk2 y dy z dz x‖ ≤ S) (hθ1 : kC n M * (s.max - s.min + σ) ≤ 1 / 5) (x : ℝ) (hsk : Skips eps d s.min s.max x)
    (hπ : 0 ≤ π) (hmid : s.min < x → x < s.max → (stD n M ρ σ τ false (s.max - s.min) + lD n M * d) * S ≤ π) :
    StepOkP (ynSect n r) (stk2 y dy z dz) π s (((sectorM eps q eta c Q s).toG r).N Yn.reverse E useH) (10 * (kC n M * (s.max - s.min + σ))) (8 * (stD n M ρ σ τ useH (s.max - s.min) * S)) x := by
  have hlt := I.lt
  have h0 : 0 < s.max - s.min := by linarith
  obtain ⟨θ, hθ⟩ : ∃ θ, θ = kC n M * (s.max - s.min + σ) := ⟨_, rfl⟩
  have hθ0 : 0 ≤ θ := by rw [hθ]; exact mul_nonneg (by linarith [kC_one (n := n) I.M0]) (add_nonneg h0.le I.eta.nonneg)
  rw [← hθ] at hθ1 ⊢
  have hθ2 : θ ≤ 1 / 2 := by linarith
  have hS0 : 0 ≤ S := (norm_nonneg _).trans (hS s.min ⟨le_rfl, hlt.le⟩)
  have e0 : 0 ≤ stD n M ρ σ τ useH (s.max - s.min) * S := mul_nonneg (stD_nonneg I useH) hS0
  obtain ⟨l1, f1, b1⟩ := sector_M2 I he0 hw hd useH hy hS hθ.symm.le hθ2 x hsk
  obtain ⟨l2, -, b2⟩ := sector_M2 I he0 hw hd useH hy hS hθ.symm.le hθ2 s.min (fun h => absurd h (lt_irrefl _))
  have good : ((sectorM eps q eta c Q s).toG r).Good E useH := by
    refine ⟨hlt, rfl, ?_, fun δ hδ hδ' => ?_⟩
    · show s.dir = .forward ∨ s.dir = .backward
      cases hh : s.dir
      · exact absurd hh hdir
      · exact Or.inl rfl
      · exact Or.inr rfl
    · have := near_one ((tm_near2 (eps := eps) I ⟨hδ, hδ'⟩ useH).1.trans hθ.symm.le) hθ2
      exact Tn.inverses _ this.1
  have lN : LipP (ynSect n r) (10 * θ) (((sectorM eps q eta c Q s).toG r).N Yn.reverse E useH x) := by
    have := l1.mul l2.inv
    rwa [show 5 * θ + 5 * θ = 10 * θ by ring] at this
  refine ⟨by linarith, by linarith, lN, fun hx => N_left good hx, ?_, ?_⟩
  · intro hx1 hx2
    by_cases hb : s.dir = .backward
    · have t1 := ((b2 hb).1 le_rfl).inv l2
      have t2 := (((b1 hb).2 hx1 hx2)).mul l1 t1
      refine TracksP.mono t2 ?_
      have e8 : Real.exp (5 * θ) * (Real.exp (5 * θ) * (stD n M ρ σ τ useH (s.max - s.min) * S)) ≤ 8 * (stD n M ρ σ τ useH (s.max - s.min) * S) := by
        rw [← mul_assoc, ← Real.exp_add]
        refine mul_le_mul_of_nonneg_right ?_ e0
        have : Real.exp (5 * θ + 5 * θ) ≤ Real.exp 2 := Real.exp_le_exp.mpr (by linarith)
        refine this.trans ?_
        have h2 : Real.exp 2 = Real.exp 1 * Real.exp 1 := by rw [← Real.exp_add]; norm_num
        have := Real.exp_one_lt_d9
        have := Real.exp_pos 1
        rw [h2]; nlinarith
      linarith [hmid hx1 hx2]
    · have e1 : ((sectorM eps q eta c Q s).toG r).M Yn.reverse E useH s.min = 1 := by
        show (if s.dir = .backward then _ else _) = _
        rw [if_neg hb]; exact if_pos (le_refl _)
      unfold GSec.N
      have e2 : ((sectorM eps q eta c Q s).toG r).min = s.min := rfl
      rw [e2, e1, inv_one, mul_one]
      exact ((f1 hb).2 hx1 hx2).mono (by linarith [hmid hx1 hx2])
  · intro hx
    by_cases hb : s.dir = .backward
    · have t1 := ((b2 hb).1 le_rfl).inv l2
      have e1 : ((sectorM eps q eta c Q s).toG r).M Yn.reverse E useH x = 1 := by
        show (if s.dir = .backward then _ else _) = _
        rw [if_pos hb]; exact if_pos hx
      unfold GSec.N
      rw [e1, one_mul]
      refine TracksP.mono t1 (mul_le_mul_of_nonneg_right ?_ e0)
      have : Real.exp (5 * θ) ≤ Real.exp 1 := Real.exp_le_exp.mpr (by linarith)
      linarith [Real.exp_one_lt_d9]
    · have e1 : ((sectorM eps q eta c Q s).toG r).M Yn.reverse E useH s.min = 1 := by
        show (if s.dir = .backward then _ else _) = _
        rw [if_neg hb]; exact if_pos (le_refl _)
      unfold GSec.N
      have e2 : ((sectorM eps q eta c Q s).toG r).min = s.min := rfl
      rw [e2, e1, inv_one, mul_one]
      exact ((f1 hb).1 hx).mono (by linarith)

end
end Verif.NP
