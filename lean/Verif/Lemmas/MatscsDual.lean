import Verif.Lemmas.MatscsDt
import Verif.Lemmas.MatscsConverge
import Verif.Spec.CoupledEnergy
import Mathlib.LinearAlgebra.Matrix.Reindex

/-!
# Dual numbers: a coupled system together with its energy derivative
-/
namespace Verif.NP
open Verif.MFormulas Verif.CalcT Verif.YT Verif.Legendre
open scoped BigOperators

attribute [local instance] Matrix.linftyOpNormedAddCommGroup Matrix.linftyOpNormedSpace Matrix.linftyOpNormedRing Matrix.linftyOpNormedAlgebra

section
variable {n r : ℕ}

/-- `[[X, 0], [Y, X]]` -/
def lt2 (X Y : Mat n ℝ) : Mat (n + n) ℝ := Matrix.reindex finSumFinEquiv finSumFinEquiv (Matrix.fromBlocks X 0 Y X)

/-- `[y; z]` -/
def st2 (y z : Matrix (Fin n) (Fin r) ℝ) : Matrix (Fin (n + n)) (Fin r) ℝ := (Matrix.fromRows y z).submatrix finSumFinEquiv.symm id

theorem lt2_mul (X Y X' Y' : Mat n ℝ) : lt2 X Y * lt2 X' Y' = lt2 (X * X') (Y * X' + X * Y') := by
  unfold lt2
  rw [Matrix.reindex_apply, Matrix.reindex_apply, Matrix.submatrix_mul_equiv, Matrix.fromBlocks_multiply, Matrix.reindex_apply]
  simp

theorem lt2_st2 (X Y : Mat n ℝ) (y z : Matrix (Fin n) (Fin r) ℝ) : lt2 X Y * st2 y z = st2 (X * y) (Y * y + X * z) := by
  unfold lt2 st2
  rw [Matrix.reindex_apply, Matrix.submatrix_mul_equiv, Matrix.fromBlocks_mul_fromRows]
  simp

theorem lt2_add (X Y X' Y' : Mat n ℝ) : lt2 X Y + lt2 X' Y' = lt2 (X + X') (Y + Y') := by
  unfold lt2
  have := Matrix.fromBlocks_add X 0 Y X X' 0 Y' X'
  rw [add_zero] at this
  rw [← this]
  rfl

theorem lt2_smul (x : ℝ) (X Y : Mat n ℝ) : x • lt2 X Y = lt2 (x • X) (x • Y) := by
  unfold lt2
  have := Matrix.fromBlocks_smul x X 0 Y X
  rw [smul_zero] at this
  rw [← this]
  rfl

theorem lt2_sub (X Y X' Y' : Mat n ℝ) : lt2 X Y - lt2 X' Y' = lt2 (X - X') (Y - Y') := by
  have h := lt2_smul (-1) X' Y'
  rw [neg_one_smul] at h
  rw [sub_eq_add_neg, h, lt2_add, neg_one_smul, neg_one_smul, ← sub_eq_add_neg, ← sub_eq_add_neg]

theorem lt2_one : lt2 (1 : Mat n ℝ) 0 = 1 := by
  unfold lt2
  rw [Matrix.fromBlocks_one, Matrix.reindex_apply, Matrix.submatrix_one_equiv]

theorem lt2_zero : lt2 (0 : Mat n ℝ) 0 = 0 := by
  have := lt2_smul 0 (0 : Mat n ℝ) 0
  rw [zero_smul, zero_smul] at this
  exact this.symm

theorem st2_inl (y z : Matrix (Fin n) (Fin r) ℝ) (i : Fin n) (j : Fin r) : st2 y z (finSumFinEquiv (.inl i)) j = y i j := by
  show Matrix.fromRows y z (finSumFinEquiv.symm (finSumFinEquiv (.inl i))) j = _
  rw [Equiv.symm_apply_apply]; rfl

theorem st2_inr (y z : Matrix (Fin n) (Fin r) ℝ) (i : Fin n) (j : Fin r) : st2 y z (finSumFinEquiv (.inr i)) j = z i j := by
  show Matrix.fromRows y z (finSumFinEquiv.symm (finSumFinEquiv (.inr i))) j = _
  rw [Equiv.symm_apply_apply]; rfl

theorem st2_add (y z y' z' : Matrix (Fin n) (Fin r) ℝ) : st2 y z + st2 y' z' = st2 (y + y') (z + z') := by
  ext i j
  obtain ⟨i, rfl⟩ := finSumFinEquiv.surjective i
  cases i <;> simp only [Matrix.add_apply, Matrix.sub_apply, st2_inl, st2_inr]

theorem st2_sub (y z y' z' : Matrix (Fin n) (Fin r) ℝ) : st2 y z - st2 y' z' = st2 (y - y') (z - z') := by
  ext i j
  obtain ⟨i, rfl⟩ := finSumFinEquiv.surjective i
  cases i <;> simp only [Matrix.add_apply, Matrix.sub_apply, st2_inl, st2_inr]

theorem rows_reindex {ι κ ι' : Type} [Fintype ι] [Fintype κ] [Fintype ι'] (A : Matrix ι κ ℝ) (f : ι' ≃ ι) : ‖A.submatrix f id‖ = ‖A‖ := by
  apply le_antisymm
  · exact norm_le_rows (norm_nonneg _) (fun i => row_le A (f i))
  · refine norm_le_rows (norm_nonneg _) (fun i => ?_)
    have := row_le (A.submatrix f id) (f.symm i)
    simpa using this

theorem reindex_norm {ι κ : Type} [Fintype ι] [Fintype κ] (A : Matrix ι ι ℝ) (f : ι ≃ κ) : ‖Matrix.reindex f f A‖ = ‖A‖ := by
  apply le_antisymm
  · refine norm_le_rows (norm_nonneg _) (fun i => ?_)
    have := row_le A (f.symm i)
    rwa [← Equiv.sum_comp f.symm (fun j => |A (f.symm i) j|)] at this
  · refine norm_le_rows (norm_nonneg _) (fun i => ?_)
    have := row_le (Matrix.reindex f f A) (f i)
    rw [← Equiv.sum_comp f (fun j => |Matrix.reindex f f A (f i) j|)] at this
    simpa using this

theorem norm_lt2_le {X Y : Mat n ℝ} {a b : ℝ} (h1 : ‖X‖ ≤ a) (h2 : ‖Y‖ ≤ b) : ‖lt2 X Y‖ ≤ a + b := by
  have hb := (norm_nonneg _).trans h2
  unfold lt2
  rw [reindex_norm]
  refine norm_fromBlocks_le ?_ ?_
  · rw [norm_zero]; linarith
  · linarith

theorem norm_lt2_top (X Y : Mat n ℝ) : ‖X‖ ≤ ‖lt2 X Y‖ := by
  unfold lt2
  rw [reindex_norm]
  refine norm_le_rows (norm_nonneg _) (fun i => ?_)
  have := row_le (Matrix.fromBlocks X 0 Y X) (.inl i)
  rw [Fintype.sum_sum_type] at this
  simpa using this

theorem norm_lt2_bot (X Y : Mat n ℝ) : ‖Y‖ ≤ ‖lt2 X Y‖ := by
  unfold lt2
  rw [reindex_norm]
  refine norm_le_rows (norm_nonneg _) (fun i => ?_)
  have := row_le (Matrix.fromBlocks X 0 Y X) (.inr i)
  rw [Fintype.sum_sum_type] at this
  refine le_trans ?_ this
  simp only [Matrix.fromBlocks_apply₂₁, Matrix.fromBlocks_apply₂₂]
  have : 0 ≤ ∑ j, |X i j| := Finset.sum_nonneg (fun j _ => abs_nonneg _)
  linarith

theorem norm_st2_le {y z : Matrix (Fin n) (Fin r) ℝ} {c : ℝ} (h1 : ‖y‖ ≤ c) (h2 : ‖z‖ ≤ c) : ‖st2 y z‖ ≤ c := by
  unfold st2
  rw [rows_reindex]
  exact norm_fromRows_le h1 h2

theorem norm_st2_bot (y z : Matrix (Fin n) (Fin r) ℝ) : ‖z‖ ≤ ‖st2 y z‖ := by
  unfold st2
  rw [rows_reindex]
  exact norm_fromRows_bot y z

/-- `lt2` is linear. -/
noncomputable def lt2L : (Mat n ℝ × Mat n ℝ) →ₗ[ℝ] Mat (n + n) ℝ where
  toFun p := lt2 p.1 p.2
  map_add' p p' := (lt2_add _ _ _ _).symm
  map_smul' x p := (lt2_smul _ _ _).symm

theorem lt2_deriv {f g : ℝ → Mat n ℝ} {f' g' : Mat n ℝ} {x : ℝ} (hf : HasDerivAt f f' x) (hg : HasDerivAt g g' x) : HasDerivAt (fun x => lt2 (f x) (g x)) (lt2 f' g') x := by
  have := (LinearMap.toContinuousLinearMap (lt2L (n := n))).hasFDerivAt.comp_hasDerivAt x (hf.prodMk hg)
  exact this

theorem st2_deriv {f g : ℝ → Matrix (Fin n) (Fin r) ℝ} {f' g' : Matrix (Fin n) (Fin r) ℝ} {x : ℝ} {s : Set ℝ} (hf : ∀ i j, HasDerivWithinAt (fun x => f x i j) (f' i j) s x)
    (hg : ∀ i j, HasDerivWithinAt (fun x => g x i j) (g' i j) s x) : HasDerivWithinAt (fun x => st2 (f x) (g x)) (st2 f' g') s x := by
  refine matrix_deriv (fun i j => ?_)
  obtain ⟨i, rfl⟩ := finSumFinEquiv.surjective i
  cases i with
  | inl i => simpa only [st2_inl] using hf i j
  | inr i => simpa only [st2_inr] using hg i j

/-! ### The dual ingredients -/

/-- letters -/
def dv (v : ℕ → Mat n ℝ) (k : ℕ) : Mat (n + n) ℝ := lt2 (v k) (if k = 9 then -1 else 0)
/-- η functions -/
noncomputable def de (e : ℕ → ℝ → Mat n ℝ) (i : ℕ) (δ : ℝ) : Mat (n + n) ℝ := lt2 (e i δ) ((-δ * δ / 2) • e (i + 1) δ)

theorem etaFam_dual {v : ℕ → Mat n ℝ} {e : ℕ → ℝ → Mat n ℝ} (h : EtaFam v e) : EtaFam (dv v) (de e) := by
  constructor
  · intro i δ
    have h1 := h.der i δ
    have h2 : HasDerivAt (fun δ : ℝ => -δ * δ / 2) (-δ) δ := by
      have := (((hasDerivAt_id δ).neg).mul (hasDerivAt_id δ)).div_const 2
      refine this.congr_deriv ?_
      simp
    have h3 := h2.smul (h.der (i + 1) δ)
    refine (lt2_deriv h1 h3).congr_deriv ?_
    simp only [dv, de, if_true, lt2_mul, lt2_smul]
    congr 1
    simp only [neg_mul, one_mul, mul_smul_comm, smul_add, smul_smul, smul_neg, neg_smul]
    rw [add_comm]
    congr 1
    rw [show i + 1 + 1 = i + 2 by rfl]
    module
  · intro i δ
    have h0 := h.recur i δ
    have h1 := h.recur (i + 1) δ
    simp only [dv, de, if_true, lt2_mul, lt2_smul, lt2_add]
    rw [← h0]
    congr 1
    rw [h1]
    push_cast
    simp only [neg_mul, one_mul, mul_smul_comm, smul_add, smul_smul, smul_neg, neg_smul]
    module

theorem dv_commute {v : ℕ → Mat n ℝ} {E : ℝ} (h : v 9 = v 0 - E • 1) (k : ℕ) : Commute (dv v 9 - dv v 0) (dv v k) := by
  have e1 : dv v 9 - dv v 0 = lt2 ((-E) • 1) (-1) := by
    simp only [dv, lt2_sub, h, if_true]
    congr 1
    · rw [neg_smul]; abel
    · simp
  rw [e1]
  show lt2 _ _ * lt2 _ _ = lt2 _ _ * lt2 _ _
  rw [lt2_mul, lt2_mul]
  congr 1
  · simp
  · split <;> simp [add_comm]

theorem dVm_dual (v : ℕ → Mat n ℝ) (h x : ℝ) : dVm (dv v) h x = lt2 (dVm v h x) 0 := by
  unfold dVm
  have : ∀ m ≤ 8, ∑ k ∈ Finset.range m, (h ^ (k + 1) * shiftedP (k + 1) (x / h)) • dv v (k + 1) =
      lt2 (∑ k ∈ Finset.range m, (h ^ (k + 1) * shiftedP (k + 1) (x / h)) • v (k + 1)) 0 := by
    intro m
    induction m with
    | zero => intro _; simp [lt2_zero]
    | succ m ih =>
      intro hm
      rw [Finset.sum_range_succ, Finset.sum_range_succ, ih (by omega), dv, if_neg (by omega), lt2_smul, lt2_add, smul_zero, add_zero]
  exact this 8 le_rfl

theorem word_dual {v : ℕ → Mat n ℝ} {l : List ℕ} (hl : ∀ k ∈ l, k < 9) : word (dv v) l = lt2 (word v l) 0 := by
  induction l with
  | nil => exact lt2_one.symm
  | cons k l ih =>
    have hk : k ≠ 9 := by have := hl k (by simp); omega
    rw [word, word, ih (fun k hk => hl k (by simp [hk])), dv, if_neg hk, lt2_mul]
    simp

theorem evc_dual (q : MTerm → ℝ) (v e f : ℕ → Mat n ℝ) (h δ : ℝ) (l : List FT) (hl : ∀ t ∈ l, InTables t.t) :
    evc q (dv v) (fun i => lt2 (e i) (f i)) h δ l = lt2 (evc q v e h δ l) (evc q v f h δ l) := by
  induction l with
  | nil => exact lt2_zero.symm
  | cons t l ih =>
    rw [evc, evc, evc, ih (fun t ht => hl t (by simp [ht])), FT.val, FT.val, FT.val, word_dual, lt2_mul, lt2_smul, lt2_add]
    · simp
    · intro k hk
      have h1 := List.all_eq_true.mp letters_all t.t (mem_allTerms.mpr (hl t (by simp)))
      exact Nat.blt_eq.mp (List.all_eq_true.mp h1 k hk)

theorem bnd_dual {B : ℝ} {v : ℕ → Mat n ℝ} {e : ℕ → ℝ → Mat n ℝ} {h δ : ℝ} (b : Bnd B v (atd e δ) h δ) : Bnd (2 * B) (dv v) (atd (de e) δ) h δ := by
  have B1 := b.B1
  refine ⟨by linarith, norm_one_le.trans (by linarith), b.h0, b.h1, b.d0, b.d1, fun k => ?_, fun i => ?_⟩
  · have : ‖(if k = 9 then -1 else 0 : Mat n ℝ)‖ ≤ B := by
      split
      · rw [norm_neg]; exact norm_one_le.trans B1
      · rw [norm_zero]; linarith
    exact (norm_lt2_le (b.v k) this).trans (by linarith)
  · have h2 : ‖(-δ * δ / 2) • e (i + 1) δ‖ ≤ B := by
      rw [norm_smul, Real.norm_eq_abs]
      have d1 : |-δ * δ / 2| ≤ 1 := by
        have hd : δ ≤ 1 := b.d1.trans b.h1
        have := b.d0
        rw [abs_le]; constructor <;> nlinarith
      have h3 := b.e (i + 1)
      calc |-δ * δ / 2| * ‖e (i + 1) δ‖ ≤ 1 * B := mul_le_mul d1 h3 (norm_nonneg _) zero_le_one
        _ = B := one_mul B
    exact (norm_lt2_le (b.e i) h2).trans (by linarith)

/-- the factors of the energy derivative, the last one exact -/
noncomputable def dEtaX (R : ℕ) (e' : ℕ → Mat n ℝ) (x : Mat n ℝ) (δ : ℝ) (i : ℕ) : Mat n ℝ := (-δ * δ / 2) • (if i + 1 < R then e' (i + 1) else x)

theorem near_dual {R : ℕ} {B ρ τ σ : ℝ} {q : MTerm → ℝ} {v w e' : ℕ → Mat n ℝ} {e : ℕ → ℝ → Mat n ℝ} {h δ : ℝ} (N : Near R B ρ τ σ q v w e' (atd e δ) h δ) (hσ : 0 ≤ σ) :
    Near R (2 * B) ρ τ (2 * σ) q (dv v) (dv w) (fun i => lt2 (e' i) (dEtaX R e' (e R δ) δ i)) (atd (de e) δ) h δ := by
  have B1 := N.B1
  have d1 : |-δ * δ / 2| ≤ 1 := by
    have hd : δ ≤ 1 := N.d1.trans N.h1
    have := N.d0
    rw [abs_le]; constructor <;> nlinarith
  have hsc : ∀ (x : Mat n ℝ) (c : ℝ), ‖x‖ ≤ c → ‖(-δ * δ / 2) • x‖ ≤ c := by
    intro x c hx
    rw [norm_smul, Real.norm_eq_abs]
    calc |-δ * δ / 2| * ‖x‖ ≤ 1 * c := mul_le_mul d1 hx (norm_nonneg _) zero_le_one
      _ = c := one_mul c
  have hpow : ∀ k, h ^ k ≤ 1 := fun k => pow_le_one₀ N.h0 N.h1
  have hlet : ∀ (u : ℕ → Mat n ℝ), (∀ k, ‖u k‖ * h ^ k ≤ B) → ∀ k, ‖dv u k‖ * h ^ k ≤ 2 * B := by
    intro u hu k
    have : ‖(if k = 9 then -1 else 0 : Mat n ℝ)‖ ≤ 1 := by
      split
      · rw [norm_neg]; exact norm_one_le
      · rw [norm_zero]; linarith
    have h2 := mul_le_mul_of_nonneg_right (norm_lt2_le (le_refl ‖u k‖) this) (pow_nonneg N.h0 k)
    rw [add_mul, one_mul] at h2
    have := hu k; have := hpow k
    show ‖lt2 _ _‖ * _ ≤ _
    linarith
  refine ⟨by linarith, norm_one_le.trans (by linarith), N.h0, N.h1, N.d0, N.d1, hlet v N.nv, hlet w N.nw, fun k => ?_, fun i => ?_, fun i hi => ?_, fun i hi => ?_, N.nρ0⟩
  · rw [dv, dv, lt2_sub, sub_self]
    have := norm_lt2_le (le_refl ‖v k - w k‖) (le_of_eq (norm_zero (E := Mat n ℝ)))
    rw [add_zero] at this
    exact (mul_le_mul_of_nonneg_right this (pow_nonneg N.h0 k)).trans (N.nvw k)
  · exact (norm_lt2_le (N.ne i) (hsc _ _ (N.ne (i + 1)))).trans (by linarith)
  · refine (norm_lt2_le (N.ne' i hi) (hsc _ B ?_)).trans (by linarith)
    split
    · rename_i h1; exact N.ne' _ h1
    · exact N.ne R
  · show ‖lt2 _ _ - lt2 _ _‖ ≤ _
    rw [lt2_sub]
    refine (norm_lt2_le (N.nee i hi) (b := σ) ?_).trans (by linarith)
    unfold dEtaX
    rw [← smul_sub]
    refine hsc _ σ ?_
    split
    · rename_i h1; exact N.nee _ h1
    · rename_i h1
      have : i + 1 = R := by omega
      rw [this, sub_self, norm_zero]; exact hσ

end
end Verif.NP
