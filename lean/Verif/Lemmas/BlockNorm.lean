import Verif.Lemmas.VectorOde
import Mathlib.Data.Matrix.ColumnRowPartitioned

/-!
# Norms of block matrices
-/
namespace Verif.NP
open scoped BigOperators

attribute [local instance] Matrix.linftyOpNormedAddCommGroup Matrix.linftyOpNormedSpace

variable {l m k : Type} [Fintype l] [Fintype m] [Fintype k]

theorem row_le (A : Matrix m k ℝ) (i : m) : ∑ j, |A i j| ≤ ‖A‖ := by
  rw [Matrix.linfty_opNorm_def]
  have h1 : ∑ j, ‖A i j‖₊ ≤ (Finset.univ : Finset m).sup fun i => ∑ j, ‖A i j‖₊ := Finset.le_sup (f := fun i => ∑ j, ‖A i j‖₊) (Finset.mem_univ i)
  have h2 := NNReal.coe_le_coe.mpr h1
  push_cast at h2
  simpa using h2

theorem norm_le_rows {A : Matrix m k ℝ} {c : ℝ} (hc : 0 ≤ c) (h : ∀ i, ∑ j, |A i j| ≤ c) : ‖A‖ ≤ c := by
  rw [Matrix.linfty_opNorm_def]
  have h1 : ((Finset.univ : Finset m).sup fun i => ∑ j, ‖A i j‖₊) ≤ (⟨c, hc⟩ : NNReal) := by
    refine Finset.sup_le (fun i _ => ?_)
    refine NNReal.coe_le_coe.mp ?_
    rw [NNReal.coe_sum]
    show ∑ j, ((‖A i j‖₊ : NNReal) : ℝ) ≤ c
    simpa using h i
  exact NNReal.coe_le_coe.mpr h1

theorem norm_fromRows_le {A : Matrix l k ℝ} {B : Matrix m k ℝ} {c : ℝ} (hA : ‖A‖ ≤ c) (hB : ‖B‖ ≤ c) : ‖Matrix.fromRows A B‖ ≤ c := by
  refine norm_le_rows ((norm_nonneg _).trans hA) (fun i => ?_)
  cases i with
  | inl i => exact (row_le A i).trans hA
  | inr i => exact (row_le B i).trans hB

theorem norm_fromRows_top (A : Matrix l k ℝ) (B : Matrix m k ℝ) : ‖A‖ ≤ ‖Matrix.fromRows A B‖ :=
  norm_le_rows (norm_nonneg _) (fun i => row_le (Matrix.fromRows A B) (.inl i))

theorem norm_fromRows_bot (A : Matrix l k ℝ) (B : Matrix m k ℝ) : ‖B‖ ≤ ‖Matrix.fromRows A B‖ :=
  norm_le_rows (norm_nonneg _) (fun i => row_le (Matrix.fromRows A B) (.inr i))

theorem norm_fromBlocks_le {A : Matrix l l ℝ} {B : Matrix l m ℝ} {C : Matrix m l ℝ} {D : Matrix m m ℝ} {c : ℝ} (h1 : ‖A‖ + ‖B‖ ≤ c) (h2 : ‖C‖ + ‖D‖ ≤ c) :
    ‖Matrix.fromBlocks A B C D‖ ≤ c := by
  refine norm_le_rows ((add_nonneg (norm_nonneg _) (norm_nonneg _)).trans h1) (fun i => ?_)
  rw [Fintype.sum_sum_type]
  cases i with
  | inl i => exact (add_le_add (row_le A i) (row_le B i)).trans h1
  | inr i => exact (add_le_add (row_le C i) (row_le D i)).trans h2

end Verif.NP
