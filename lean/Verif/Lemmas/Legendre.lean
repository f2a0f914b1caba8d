import Verif.Spec.Legendre
import Verif.Model.Legendre
import Verif.Lemmas.CPM

/-! # The table of polynomials holds the shifted Legendre polynomials -/
namespace Verif.Legendre
open scoped BigOperators

/-- the closed form, as an integer -/
def closed (k j : ℕ) : ℤ := (-1) ^ (k + j) * (k.choose j : ℤ) * ((k + j).choose j : ℤ)

theorem poly_table : (List.range 16).all (fun k => (List.range 16).all (fun j => poly k j == closed k j)) = true := by
  decide +kernel

theorem poly_eq {k j : ℕ} (hk : k < 16) (hj : j < 16) : poly k j = closed k j := by
  have h1 := List.all_eq_true.mp poly_table k (List.mem_range.mpr hk)
  have h2 := List.all_eq_true.mp h1 j (List.mem_range.mpr hj)
  exact beq_iff_eq.mp h2

theorem closed_cast {K : Type} [Field K] (k j : ℕ) :
    ((closed k j : ℤ) : K) = (-1) ^ (k + j) * (k.choose j : K) * ((k + j).choose j : K) := by
  unfold closed; push_cast; ring

theorem dV_eq (n : ℕ) (hn : n ≤ 15) (v : ℕ → ℝ) (h x : ℝ) :
    v 0 + Verif.PL.dV n v h x = legendreSeries (n + 1) v h x := by
  unfold Verif.PL.dV legendreSeries
  rw [Finset.sum_range_succ']
  have h0 : shiftedP 0 (x / h) = 1 := by simp [shiftedP]
  rw [h0, pow_zero, add_comm]
  simp only [mul_one]
  congr 1
  refine Finset.sum_congr rfl (fun k hk => ?_)
  rw [Finset.mem_range] at hk
  unfold shiftedP
  rw [Finset.mul_sum]
  refine Finset.sum_congr rfl (fun j hj => ?_)
  rw [Finset.mem_range] at hj
  rw [poly_eq (by omega) (by omega), closed_cast]; ring

end Verif.Legendre
