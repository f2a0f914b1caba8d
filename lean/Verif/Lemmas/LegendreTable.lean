import Verif.Lemmas.Legendre
import Mathlib.Algebra.Polynomial.Derivative
import Mathlib.Analysis.Calculus.Deriv.Polynomial
import Mathlib.Analysis.Calculus.Deriv.MeanValue
import Mathlib.Analysis.SpecialFunctions.Integrals.Basic

/-! # Facts about the table of Legendre polynomials, and `|P_i| ≤ 1` on `[0, 1]` -/
namespace Verif.Legendre
open scoped BigOperators
open Polynomial (C X derivative)

/-- The polynomial function of row `i` of the table. -/
noncomputable def tableP (i : ℕ) (x : ℝ) : ℝ := ∑ j ∈ Finset.range 16, (poly i j : ℝ) * x ^ j

/-- the same as a polynomial -/
noncomputable def Pp (i : ℕ) : Polynomial ℝ := ∑ j ∈ Finset.range 16, C (poly i j : ℝ) * X ^ j

theorem Pp_eval (i : ℕ) (x : ℝ) : (Pp i).eval x = tableP i x := by
  unfold Pp tableP
  rw [Polynomial.eval_finsetSum]
  exact Finset.sum_congr rfl (fun j _ => by simp)

theorem poly_big {i j : ℕ} (hj : 16 ≤ j) : poly i j = 0 := by
  unfold poly
  by_cases hi : i < 16
  · have : ((polynomials.getD i []).length) ≤ 16 := by
      have h : (List.range 16).all (fun i => Nat.ble (polynomials.getD i []).length 16) = true := by decide +kernel
      have := List.all_eq_true.mp h i (List.mem_range.mpr hi)
      exact Nat.ble_eq.mp this
    rw [List.getD_eq_getElem?_getD, List.getElem?_eq_none (by omega)]; rfl
  · have h : polynomials.length = 16 := by decide +kernel
    rw [List.getD_eq_getElem?_getD (l := polynomials), List.getElem?_eq_none (by omega)]; simp

theorem Pp_coeff (i n : ℕ) : (Pp i).coeff n = (poly i n : ℝ) := by
  unfold Pp
  rw [Polynomial.finsetSum_coeff]
  simp only [Polynomial.coeff_C_mul, Polynomial.coeff_X_pow]
  by_cases hn : n < 16
  · rw [Finset.sum_eq_single n]
    · simp
    · intro b _ hb; simp [Ne.symm hb]
    · intro h; exact absurd (Finset.mem_range.mpr hn) h
  · rw [poly_big (not_lt.mp hn), Finset.sum_eq_zero]
    · simp
    · intro b hb; rw [Finset.mem_range] at hb; rw [if_neg (by omega)]; simp

theorem tab_ode : (List.range 16).all (fun i => (List.range 16).all (fun j =>
    ((j : ℤ) + 1) ^ 2 * poly i (j + 1) + ((i : ℤ) * (i + 1) - j * (j + 1)) * poly i j == 0)) = true := by decide +kernel
theorem tab_one : (List.range 16).all (fun i => ((List.range 16).map (fun j => poly i j)).sum == 1) = true := by decide +kernel
theorem tab_zero : (List.range 16).all (fun i => poly i 0 == (-1) ^ i) = true := by decide +kernel
theorem tab_rec : (List.range 15).all (fun i => (List.range 17).all (fun j =>
    ((i : ℤ) + 1) * poly (i + 1) j ==
      (2 * i + 1) * (2 * (if j = 0 then 0 else poly i (j - 1)) - poly i j) - i * (if i = 0 then 0 else poly (i - 1) j))) = true := by
  decide +kernel

theorem coeff_X_derivative (q : Polynomial ℝ) (n : ℕ) : (X * derivative q).coeff n = n * q.coeff n := by
  cases n with
  | zero => simp
  | succ n => rw [Polynomial.coeff_X_mul, Polynomial.coeff_derivative]; push_cast; ring

/-- Legendre's differential equation on `[0, 1]`. -/
theorem Pp_ode {i : ℕ} (hi : i < 16) :
    X * derivative (derivative (Pp i)) - X * (X * derivative (derivative (Pp i))) + derivative (Pp i) - 2 * (X * derivative (Pp i)) +
      C ((i : ℝ) * (i + 1)) * Pp i = 0 := by
  ext n
  have h2 : ∀ q : Polynomial ℝ, (2 * q).coeff n = 2 * q.coeff n := fun q => by
    rw [two_mul, Polynomial.coeff_add]; ring
  rw [Polynomial.coeff_add, Polynomial.coeff_sub, Polynomial.coeff_add, Polynomial.coeff_sub, h2, coeff_X_derivative,
    coeff_X_derivative, Polynomial.coeff_C_mul, Polynomial.coeff_derivative, Polynomial.coeff_zero]
  have h3 : (X * (X * derivative (derivative (Pp i)))).coeff n = n * (n - 1) * (Pp i).coeff n := by
    cases n with
    | zero => simp
    | succ n => rw [Polynomial.coeff_X_mul, coeff_X_derivative, Polynomial.coeff_derivative]; push_cast; ring
  rw [h3, Pp_coeff, Pp_coeff]
  have key : ((n : ℤ) + 1) ^ 2 * poly i (n + 1) + ((i : ℤ) * (i + 1) - n * (n + 1)) * poly i n = 0 := by
    by_cases hn : n < 16
    · have h1 := List.all_eq_true.mp tab_ode i (List.mem_range.mpr hi)
      exact beq_iff_eq.mp (List.all_eq_true.mp h1 n (List.mem_range.mpr hn))
    · rw [poly_big (by omega), poly_big (by omega)]; ring
  have key' : ((n : ℝ) + 1) ^ 2 * poly i (n + 1) + ((i : ℝ) * (i + 1) - n * (n + 1)) * poly i n = 0 := by exact_mod_cast key
  linear_combination key'

theorem tableP_one {i : ℕ} (hi : i < 16) : tableP i 1 = 1 := by
  have h := beq_iff_eq.mp (List.all_eq_true.mp tab_one i (List.mem_range.mpr hi))
  unfold tableP
  simp only [one_pow, mul_one]
  have : ((∑ j ∈ Finset.range 16, poly i j : ℤ) : ℝ) = 1 := by
    rw [Finset.sum_range, ← List.sum_ofFn]
    have : List.ofFn (fun j : Fin 16 => poly i j) = (List.range 16).map (fun j => poly i j) := rfl
    rw [this, h]; norm_num
  rw [← this]; push_cast; rfl

theorem tableP_zero {i : ℕ} (hi : i < 16) : tableP i 0 = (-1) ^ i := by
  have h := beq_iff_eq.mp (List.all_eq_true.mp tab_zero i (List.mem_range.mpr hi))
  unfold tableP
  rw [Finset.sum_eq_single 0]
  · rw [h]; simp
  · intro b _ hb; simp [hb]
  · simp

/-- `|P_i(x)| ≤ 1` on `[0, 1]`. -/
theorem abs_tableP_le {i : ℕ} (hi : i < 16) {x : ℝ} (h0 : 0 ≤ x) (h1 : x ≤ 1) : |tableP i x| ≤ 1 := by
  rcases Nat.eq_zero_or_pos i with rfl | hpos
  · have : tableP 0 x = 1 := by
      unfold tableP
      have hp : ∀ j, j < 16 → poly 0 j = if j = 0 then 1 else 0 := by decide +kernel
      rw [Finset.sum_eq_single 0]
      · rw [hp 0 (by norm_num)]; simp
      · intro b hb hb0; rw [hp b (Finset.mem_range.mp hb), if_neg hb0]; simp
      · simp
    rw [this]; simp
  set N : ℝ := (i : ℝ) * (i + 1) with hN
  have hNpos : 0 < N := by
    have : (0 : ℝ) < i := by exact_mod_cast hpos
    positivity
  set p := Pp i
  set f : ℝ → ℝ := fun x => p.eval x ^ 2 + x * (1 - x) * (derivative p).eval x ^ 2 / N with hf
  have ode : ∀ x : ℝ, x * (1 - x) * (derivative (derivative p)).eval x = -(1 - 2 * x) * (derivative p).eval x - N * p.eval x := by
    intro x
    have := congrArg (Polynomial.eval x) (Pp_ode hi)
    simp only [Polynomial.eval_add, Polynomial.eval_sub, Polynomial.eval_mul, Polynomial.eval_X, Polynomial.eval_C,
      Polynomial.eval_ofNat, Polynomial.eval_zero] at this
    linear_combination this
  have hd : ∀ x, HasDerivAt f (-(1 - 2 * x) * (derivative p).eval x ^ 2 / N) x := by
    intro x
    have d1 := p.hasDerivAt x
    have d2 := (derivative p).hasDerivAt x
    have d3 : HasDerivAt (fun x : ℝ => x * (1 - x)) (1 - 2 * x) x :=
      ((hasDerivAt_id x).mul ((hasDerivAt_id x).const_sub 1)).congr_deriv (by simp only [id]; ring)
    refine ((d1.fun_pow 2).add ((d3.mul (d2.fun_pow 2)).div_const N)).congr_deriv ?_
    push_cast
    have := ode x
    field_simp
    linear_combination (2 * (derivative p).eval x) * this
  have f0 : f 0 = 1 := by
    simp only [hf, Pp_eval, p, tableP_zero hi]
    rw [← pow_mul, mul_comm, pow_mul]; simp
  have f1 : f 1 = 1 := by simp only [hf, Pp_eval, p, tableP_one hi]; simp
  have hcont : Continuous f := continuous_iff_continuousAt.mpr fun x => (hd x).continuousAt
  have hfx : f x ≤ 1 := by
    rcases le_total x (1 / 2) with hx | hx
    · have : AntitoneOn f (Set.Icc 0 (1 / 2)) := antitoneOn_of_deriv_nonpos (convex_Icc _ _) hcont.continuousOn
        (fun t _ => (hd t).differentiableAt.differentiableWithinAt) (fun t ht => by
          rw [interior_Icc] at ht
          rw [(hd t).deriv]
          refine div_nonpos_of_nonpos_of_nonneg ?_ hNpos.le
          have h1 : 0 ≤ 1 - 2 * t := by linarith [ht.2]
          have := mul_nonneg h1 (sq_nonneg ((derivative p).eval t))
          linarith)
      rw [← f0]
      exact this ⟨le_rfl, by norm_num⟩ ⟨h0, hx⟩ h0
    · have : MonotoneOn f (Set.Icc (1 / 2) 1) := monotoneOn_of_deriv_nonneg (convex_Icc _ _) hcont.continuousOn
        (fun t _ => (hd t).differentiableAt.differentiableWithinAt) (fun t ht => by
          rw [interior_Icc] at ht
          rw [(hd t).deriv]
          refine div_nonneg ?_ hNpos.le
          have h1 : 0 ≤ 2 * t - 1 := by linarith [ht.1]
          have := mul_nonneg h1 (sq_nonneg ((derivative p).eval t))
          linarith)
      rw [← f1]
      exact this ⟨hx, h1⟩ ⟨by norm_num, le_rfl⟩ h1
  have hsq : tableP i x ^ 2 ≤ 1 := by
    have : p.eval x ^ 2 ≤ f x := by
      simp only [hf]
      have : 0 ≤ x * (1 - x) * (derivative p).eval x ^ 2 / N := by
        have := sub_nonneg.mpr h1
        positivity
      linarith
    rw [← Pp_eval]; exact this.trans hfx
  exact abs_le_one_iff_mul_self_le_one.mpr (by rw [← sq]; exact hsq)

theorem tableP_eq_shiftedP {i : ℕ} (hi : i < 16) (x : ℝ) : tableP i x = shiftedP i x := by
  unfold tableP shiftedP
  rw [← Finset.sum_subset (Finset.range_subset_range.mpr (by omega : i + 1 ≤ 16))]
  · exact Finset.sum_congr rfl (fun j hj => by
      rw [Finset.mem_range] at hj
      rw [poly_eq hi (by omega), closed_cast])
  · intro j hj hj'
    rw [Finset.mem_range] at hj hj'
    rw [poly_eq hi hj, closed, Nat.choose_eq_zero_of_lt (by omega : i < j)]; simp

end Verif.Legendre
