import Verif.Lemmas.Quadrature
import Verif.Spec.LegendreCoeff

/-!
# Legendre polynomials and quadrature: C41, C42, C65
-/
namespace Verif.Legendre
open scoped BigOperators

/-! ### C41 -/

/-- **C41.** Row `i` of the table is the shifted Legendre polynomial of degree `i`: the closed form, the three-term
recurrence, the values at the end points and the bound 1 on `[0, 1]`. -/
theorem C41_table {i : ℕ} (hi : i < 16) (x : ℝ) :
    (∑ j ∈ Finset.range 16, (poly i j : ℝ) * x ^ j) = shiftedP i x ∧
    shiftedP i (1 : ℝ) = 1 ∧ shiftedP i (0 : ℝ) = (-1) ^ i ∧ (0 ≤ x → x ≤ 1 → |shiftedP i x| ≤ 1) :=
  ⟨tableP_eq_shiftedP hi x, by rw [← tableP_eq_shiftedP hi, tableP_one hi], by rw [← tableP_eq_shiftedP hi, tableP_zero hi],
    fun h0 h1 => by rw [← tableP_eq_shiftedP hi]; exact abs_tableP_le hi h0 h1⟩

/-- **C41, recurrence.** `(i+1) P_{i+1} = (2i+1)(2x-1) P_i - i P_{i-1}` for the rows of the table. -/
theorem C41_recurrence {i : ℕ} (hi : i < 15) (x : ℝ) :
    ((i : ℝ) + 1) * ∑ j ∈ Finset.range 16, (poly (i + 1) j : ℝ) * x ^ j =
      (2 * i + 1) * (2 * x - 1) * (∑ j ∈ Finset.range 16, (poly i j : ℝ) * x ^ j) -
        i * ∑ j ∈ Finset.range 16, (poly (i - 1) j : ℝ) * x ^ j := by
  have key : ∀ j < 17, ((i : ℝ) + 1) * poly (i + 1) j =
      (2 * i + 1) * (2 * (if j = 0 then 0 else (poly i (j - 1) : ℝ)) - poly i j) - i * poly (i - 1) j := by
    intro j hj
    have h := beq_iff_eq.mp (List.all_eq_true.mp (List.all_eq_true.mp tab_rec i (List.mem_range.mpr hi)) j (List.mem_range.mpr hj))
    have h' : ((i : ℝ) + 1) * poly (i + 1) j =
      (2 * i + 1) * (2 * (if j = 0 then 0 else (poly i (j - 1) : ℝ)) - poly i j) - i * (if i = 0 then 0 else (poly (i - 1) j : ℝ)) := by
      exact_mod_cast h
    rw [h']
    congr 1
    by_cases h0 : i = 0
    · subst h0; simp
    · rw [if_neg h0]
  have e : ∀ r, (∑ j ∈ Finset.range 16, (poly r j : ℝ) * x ^ j) = ∑ j ∈ Finset.range 17, (poly r j : ℝ) * x ^ j := by
    intro r; rw [Finset.sum_range_succ _ 16, poly_big le_rfl]; simp
  have e2 : x * (∑ j ∈ Finset.range 16, (poly i j : ℝ) * x ^ j) = ∑ j ∈ Finset.range 17, (if j = 0 then 0 else (poly i (j - 1) : ℝ)) * x ^ j := by
    rw [Finset.sum_range_succ' _ 16, Finset.mul_sum]
    simp only [if_true, zero_mul, add_zero, Nat.add_sub_cancel, Nat.succ_ne_zero, if_false]
    exact Finset.sum_congr rfl (fun j _ => by rw [pow_succ]; ring)
  have e3 : ((i : ℝ) + 1) * ∑ j ∈ Finset.range 16, (poly (i + 1) j : ℝ) * x ^ j =
      2 * (2 * i + 1) * (x * ∑ j ∈ Finset.range 16, (poly i j : ℝ) * x ^ j) - (2 * i + 1) * (∑ j ∈ Finset.range 16, (poly i j : ℝ) * x ^ j) -
        i * ∑ j ∈ Finset.range 16, (poly (i - 1) j : ℝ) * x ^ j := by
    rw [e2, e (i + 1), e i, e (i - 1), Finset.mul_sum, Finset.mul_sum, Finset.mul_sum, Finset.mul_sum,
      ← Finset.sum_sub_distrib, ← Finset.sum_sub_distrib]
    refine Finset.sum_congr rfl (fun j hj => ?_)
    rw [Finset.mem_range] at hj
    linear_combination (x ^ j) * key j hj
  rw [e3]; ring

/-- **C41, orthogonality** on `[0, 1]`: `∫ P_i P_j = δ_ij / (2i + 1)`. -/
theorem C41_orthogonal {i j : ℕ} (hi : i < 16) (hj : j < 16) :
    ∫ t in (0 : ℝ)..1, (∑ a ∈ Finset.range 16, (poly i a : ℝ) * t ^ a) * (∑ b ∈ Finset.range 16, (poly j b : ℝ) * t ^ b) =
      if i = j then 1 / (2 * (i : ℝ) + 1) else 0 := by
  have h := beq_iff_eq.mp (List.all_eq_true.mp (List.all_eq_true.mp tab_orth i (List.mem_range.mpr hi)) j (List.mem_range.mpr hj))
  have h' : (2 * (i : ℝ) + 1) * (dotL 16 16 (poly i) (poly j) : ℝ) = if i = j then (L60 : ℝ) else 0 := by exact_mod_cast h
  rw [dotL_eq 16 16 (by norm_num)] at h'
  have hL := L60_pos.ne'
  have hp : 2 * (i : ℝ) + 1 ≠ 0 := by positivity
  set I := ∫ t in (0 : ℝ)..1, (∑ a ∈ Finset.range 16, (poly i a : ℝ) * t ^ a) * (∑ b ∈ Finset.range 16, (poly j b : ℝ) * t ^ b)
  split at h' <;> rename_i hij
  · rw [if_pos hij, eq_div_iff hp]
    exact mul_left_cancel₀ hL (by linear_combination h')
  · rw [if_neg hij]
    rcases mul_eq_zero.mp h' with h | h
    · exact absurd h hp
    · exact (mul_eq_zero.mp h).resolve_left hL

/-! ### C42 -/

theorem integrateLoop_eq (k i : ℕ) (fs : ℕ → ℝ) (r j : ℕ) (acc : ℝ) :
    integrateLoop k i fs r j acc = acc + ∑ l ∈ Finset.range r, (weight k i (j + l) : ℝ) * fs (j + l) := by
  induction r generalizing j acc with
  | zero => simp [integrateLoop]
  | succ r ih =>
    rw [integrateLoop, ih, Finset.sum_range_succ']
    simp only [ccmp_lit, Nat.add_zero, Nat.add_succ, Nat.succ_add]
    ring

theorem integrate_eq {k : ℕ} (hk : 1 ≤ k) (fs : ℕ → ℝ) (i : ℕ) :
    integrate k fs i = ∑ j ∈ Finset.range k, (weight k i j : ℝ) * fs j := by
  obtain ⟨r, rfl⟩ : ∃ r, k = r + 1 := ⟨k - 1, by omega⟩
  rw [integrate, integrateLoop_eq, Nat.add_sub_cancel, Finset.sum_range_succ' _ r]
  simp only [ccmp_lit, add_comm 1]
  ring

theorem hPow_eq (x : ℝ) (i : ℕ) : hPow x i = x ^ i := by
  induction i with
  | zero => simp [hPow]
  | succ i ih => rw [hPow, ih, pow_succ]

/-- The scaled coefficient the code computes: `coeffs[i] · (b - a)^i`. -/
theorem coeff_scaled {n : ℕ} (hn : 1 ≤ n) (f : ℝ → ℝ) {a b : ℝ} (hab : a ≠ b) (i : ℕ) :
    getCoefficients n f a b i * (b - a) ^ i =
      2 ^ i * ∑ j ∈ Finset.range (kOf n), (weight (kOf n) i j : ℝ) * f (samplePoint (kOf n) a b j) := by
  have hk : 1 ≤ kOf n := by unfold kOf; omega
  rw [getCoefficients, hPow_eq, integrate_eq hk]
  have hw : halfWidth a b = (b - a) / 2 := by simp [halfWidth]
  have h0 : (b - a) ≠ 0 := sub_ne_zero.mpr (Ne.symm hab)
  rw [hw, div_pow]
  field_simp

theorem quad_all {k : ℕ} (h2 : 2 ≤ k) (h18 : k ≤ 18) (hev : k % 2 = 0) : quadAll k = true := by
  have h := quad_ok
  have hc : k = 2 ∨ k = 4 ∨ k = 6 ∨ k = 8 ∨ k = 10 ∨ k = 12 ∨ k = 14 ∨ k = 16 ∨ k = 18 := by omega
  by_cases h16 : k = 16
  · rw [h16]; exact quad_ok16
  by_cases h18 : k = 18
  · rw [h18]; exact quad_ok18
  exact h k (by
    have : k = 2 ∨ k = 4 ∨ k = 6 ∨ k = 8 ∨ k = 10 ∨ k = 12 ∨ k = 14 := by omega
    simp only [List.mem_cons, List.not_mem_nil, or_false]
    exact this)

/-- The quadrature of one power against one row. -/
theorem quad_power {k : ℕ} (h2 : 2 ≤ k) (h18 : k ≤ 18) (hev : k % 2 = 0) {i m : ℕ} (hi : i < k) (hm : m < 2 * k - i) :
    |2 ^ i * (∑ j ∈ Finset.range k, (weight k i j : ℝ) * (node k j : ℝ) ^ m) -
      (2 * i + 1) * ∫ t in (0 : ℝ)..1, (2 * t - 1) ^ m * shiftedP i t| ≤ 1 / 10 ^ 14 := by
  have h := quad_all h2 h18 hev
  have h := List.all_eq_true.mp (List.all_eq_true.mp h i (List.mem_range.mpr hi)) m (List.mem_range.mpr hm)
  have h : |2 ^ i * quadL k i m * L60 - (2 * (i : ℤ) + 1) * dotL (i + 1) (m + 1) (closed i) (powC m) * 10 ^ (24 * (m + 1))| * 10 ^ 14 ≤
    L60 * 10 ^ (24 * (m + 1)) := of_decide_eq_true h
  have h : |2 ^ i * (quadL k i m : ℝ) * L60 - (2 * (i : ℝ) + 1) * (dotL (i + 1) (m + 1) (closed i) (powC m) : ℝ) * 10 ^ (24 * (m + 1))| * 10 ^ 14 ≤
    (L60 : ℝ) * 10 ^ (24 * (m + 1)) := by exact_mod_cast h
  rw [dotL_eq _ _ (by omega)] at h
  have e1 : ∫ t in (0 : ℝ)..1, (2 * t - 1) ^ m * shiftedP i t =
      ∫ t in (0 : ℝ)..1, (∑ a ∈ Finset.range (i + 1), (closed i a : ℝ) * t ^ a) * (∑ b ∈ Finset.range (m + 1), (powC m b : ℝ) * t ^ b) := by
    congr 1
    ext t
    rw [powC_eq, mul_comm]
    congr 1
    exact Finset.sum_congr rfl (fun a _ => by rw [closed_cast])
  rw [← e1] at h
  have e2 : ∑ j ∈ Finset.range k, (weight k i j : ℝ) * (node k j : ℝ) ^ m = (quadL k i m : ℝ) / 10 ^ (24 * (m + 1)) := by
    rw [quadL, list_sum_range]
    push_cast
    rw [Finset.sum_div]
    refine Finset.sum_congr rfl (fun j _ => ?_)
    unfold weight node
    push_cast
    rw [mul_add, pow_add, div_pow, ← pow_mul, mul_one]
    field_simp
  rw [e2]
  set I := ∫ t in (0 : ℝ)..1, (2 * t - 1) ^ m * shiftedP i t
  have hL := L60_pos
  have hT : (0 : ℝ) < 10 ^ (24 * (m + 1)) := by positivity
  have e3 : 2 ^ i * ((quadL k i m : ℝ) / 10 ^ (24 * (m + 1))) - (2 * i + 1) * I =
      (2 ^ i * (quadL k i m : ℝ) * L60 - (2 * (i : ℝ) + 1) * (L60 * I) * 10 ^ (24 * (m + 1))) / (L60 * 10 ^ (24 * (m + 1))) := by
    field_simp
  rw [e3, abs_div, abs_of_pos (mul_pos hL hT), div_le_div_iff₀ (mul_pos hL hT) (by positivity)]
  linarith

theorem legendreCoeff_poly {a b : ℝ} (f : ℝ → ℝ) (N : ℕ) (g : ℕ → ℝ)
    (hf : ∀ s, f ((a + b) / 2 + (b - a) / 2 * s) = ∑ m ∈ Finset.range N, g m * s ^ m) (i : ℕ) :
    legendreCoeff f a b i = ∑ m ∈ Finset.range N, g m * ((2 * i + 1) * ∫ t in (0 : ℝ)..1, (2 * t - 1) ^ m * shiftedP i t) := by
  unfold legendreCoeff
  have : ∀ t : ℝ, f (a + (b - a) * t) * shiftedP i t = ∑ m ∈ Finset.range N, g m * ((2 * t - 1) ^ m * shiftedP i t) := by
    intro t
    have := hf (2 * t - 1)
    rw [show (a + b) / 2 + (b - a) / 2 * (2 * t - 1) = a + (b - a) * t by ring] at this
    rw [this, Finset.sum_mul]
    exact Finset.sum_congr rfl (fun m _ => by ring)
  simp only [this]
  have hc : Continuous (fun t : ℝ => shiftedP i t) := by unfold shiftedP; fun_prop
  rw [intervalIntegral.integral_finsetSum, Finset.mul_sum]
  · refine Finset.sum_congr rfl (fun m _ => ?_)
    rw [intervalIntegral.integral_const_mul]; ring
  · intro m _
    exact (by fun_prop : Continuous fun t : ℝ => g m * ((2 * t - 1) ^ m * shiftedP i t)).intervalIntegrable _ _

/-- **C42.** For every interval and every function that is a polynomial `Σ_{m<N} g_m s^m` in the local variable
`s ∈ [-1, 1]`, coefficient `i` computed by `getCoefficients<n>` (times `(b-a)^i`) is the Legendre coefficient of
the function up to `1e-14 Σ|g_m|`, for all degrees `N ≤ 2k - i` with `k = n` rounded up to even (in particular for
all polynomials of degree `< n`). -/
theorem C42_coefficients {n : ℕ} (hn : 1 ≤ n) (h18 : n ≤ 18) {i : ℕ} (hi : i < n) {a b : ℝ} (hab : a ≠ b) (f : ℝ → ℝ)
    (N : ℕ) (hN : N ≤ 2 * (n + n % 2) - i) (g : ℕ → ℝ) (hf : ∀ s, f ((a + b) / 2 + (b - a) / 2 * s) = ∑ m ∈ Finset.range N, g m * s ^ m) :
    |getCoefficients n f a b i * (b - a) ^ i - legendreCoeff f a b i| ≤ 1 / 10 ^ 14 * ∑ m ∈ Finset.range N, |g m| := by
  have hk2 : 2 ≤ kOf n := by unfold kOf; omega
  have hk18 : kOf n ≤ 18 := by unfold kOf; omega
  have hkev : kOf n % 2 = 0 := by unfold kOf; omega
  have hik : i < kOf n := by unfold kOf; omega
  rw [coeff_scaled hn f hab]
  have e1 : ∀ j, f (samplePoint (kOf n) a b j) = ∑ m ∈ Finset.range N, g m * (node (kOf n) j : ℝ) ^ m := by
    intro j
    rw [← hf]
    congr 1
    simp [samplePoint, halfWidth]
    ring
  have e2 := legendreCoeff_poly f N g hf i
  simp only [e1]
  have e3 : 2 ^ i * ∑ j ∈ Finset.range (kOf n), (weight (kOf n) i j : ℝ) * ∑ m ∈ Finset.range N, g m * (node (kOf n) j : ℝ) ^ m =
      ∑ m ∈ Finset.range N, g m * (2 ^ i * ∑ j ∈ Finset.range (kOf n), (weight (kOf n) i j : ℝ) * (node (kOf n) j : ℝ) ^ m) := by
    simp only [Finset.mul_sum]
    rw [Finset.sum_comm]
    exact Finset.sum_congr rfl (fun m _ => Finset.sum_congr rfl (fun j _ => by ring))
  rw [e3, e2, ← Finset.sum_sub_distrib, Finset.mul_sum]
  refine (Finset.abs_sum_le_sum_abs _ _).trans (Finset.sum_le_sum (fun m hm => ?_))
  rw [Finset.mem_range] at hm
  rw [← mul_sub, abs_mul, mul_comm]
  exact mul_le_mul_of_nonneg_right (quad_power hk2 hk18 hkev hik (by unfold kOf; omega)) (abs_nonneg _)

/-! ### The polynomial form -/

theorem polyLoop_eq (h2 : ℝ) (c : ℕ → ℝ) (r i : ℕ) (H : ℝ) (p : ℕ → ℝ) (j : ℕ) :
    polyLoop h2 c r i H p j = p j + ∑ l ∈ Finset.range r, if j ≤ i + l then H * h2 ^ l * poly (i + l) j * c (i + l) else 0 := by
  induction r generalizing i H p with
  | zero => simp [polyLoop]
  | succ r ih =>
    rw [polyLoop, ih, Finset.sum_range_succ', addRow]
    simp only [Nat.add_zero, pow_zero, mul_one, ccmp_lit, Nat.add_succ, Nat.succ_add, pow_succ]
    split
    · push_cast
      rw [add_assoc, add_comm (H * _ * _)]
      congr 2
      exact Finset.sum_congr rfl (fun l _ => by split <;> [ring; rfl])
    · rw [add_zero]
      congr 1
      exact Finset.sum_congr rfl (fun l _ => by split <;> [ring; rfl])

theorem poly_lower {i j : ℕ} (hi : i < 16) (hj : i < j) : poly i j = 0 := by
  by_cases h : j < 16
  · rw [poly_eq hi h, closed, Nat.choose_eq_zero_of_lt hj]; simp
  · exact poly_big (not_lt.mp h)

/-- **C42, polynomial form.** The polynomial returned by `asPolynomial` is, at every `t`, the Legendre series with the
computed coefficients: `Σ_{i<n} coeffs[i] (b-a)^i P_i(t)`. -/
theorem C42_asPolynomial {n : ℕ} (hn : n ≤ 16) (f : ℝ → ℝ) (a b t : ℝ) :
    ∑ j ∈ Finset.range n, asPolynomial n f a b j * t ^ j = legendreSeries n (getCoefficients n f a b) (b - a) ((b - a) * t) ∨ a = b := by
  by_cases hab : a = b
  · exact Or.inr hab
  left
  have h0 : b - a ≠ 0 := sub_ne_zero.mpr (Ne.symm hab)
  unfold legendreSeries
  rw [mul_div_cancel_left₀ _ h0]
  have e : ∀ i ∈ Finset.range n, getCoefficients n f a b i * (b - a) ^ i * shiftedP i t =
      ∑ j ∈ Finset.range n, (b - a) ^ i * poly i j * getCoefficients n f a b i * t ^ j := by
    intro i hi
    rw [Finset.mem_range] at hi
    rw [← tableP_eq_shiftedP (by omega), tableP, Finset.mul_sum]
    rw [← Finset.sum_subset (Finset.range_subset_range.mpr hn)]
    · exact Finset.sum_congr rfl (fun j _ => by ring)
    · intro j _ hj
      rw [Finset.mem_range, not_lt] at hj
      rw [poly_lower (by omega) (by omega : i < j)]; simp
  rw [Finset.sum_congr rfl e, Finset.sum_comm]
  refine Finset.sum_congr rfl (fun j hj => ?_)
  rw [← Finset.sum_mul]
  congr 1
  rw [asPolynomial, polyLoop_eq, zero_add]
  have hw : CCmp.lit 2 * halfWidth a b = b - a := by simp [halfWidth]; ring
  rw [hw]
  refine Finset.sum_congr rfl (fun i hi => ?_)
  rw [Finset.mem_range] at hi
  simp only [zero_add, one_mul]
  split
  · rfl
  · rw [poly_lower (by omega) (by omega : i < j)]; simp

/-- A power of the local variable equals its Legendre expansion. -/
theorem power_expansion {n m : ℕ} (hn : n ≤ 16) (hm : m < n) (t : ℝ) :
    ∑ i ∈ Finset.range n, ((2 * i + 1) * ∫ t in (0 : ℝ)..1, (2 * t - 1) ^ m * shiftedP i t) * shiftedP i t = (2 * t - 1) ^ m := by
  have hI : ∀ i < 16, ∫ t in (0 : ℝ)..1, (2 * t - 1) ^ m * shiftedP i t = (dotL 16 (m + 1) (poly i) (powC m) : ℝ) / L60 := by
    intro i hi
    rw [dotL_eq _ _ (by omega), mul_div_cancel_left₀ _ L60_pos.ne']
    congr 1
    ext t
    rw [powC_eq, mul_comm, ← tableP_eq_shiftedP hi]; rfl
  have hchk := List.all_eq_true.mp tab_complete m (List.mem_range.mpr (by omega))
  rw [Bool.and_eq_true, List.all_eq_true, List.all_eq_true] at hchk
  have h0 : ∀ i : ℕ, i < 16 → (2 * (i : ℤ) + 1) * dotL 16 (m + 1) (poly i) (powC m) = momE m i := fun i hi =>
    beq_iff_eq.mp (List.all_eq_true.mp (List.all_eq_true.mp tab_mom m (List.mem_range.mpr (by omega))) i (List.mem_range.mpr hi))
  have h1 : ∀ i < 16, m < i → dotL 16 (m + 1) (poly i) (powC m) = 0 := by
    intro i hi hmi
    have := hchk.1 i (List.mem_range.mpr hi)
    simp only [Bool.or_eq_true, decide_eq_true_eq, beq_iff_eq] at this
    rcases this with h | h
    · omega
    · have h0 := h0 i hi
      rw [h] at h0
      exact (mul_eq_zero.mp h0).resolve_left (by positivity)
  have h2 : ∀ j < 16, ∑ i ∈ Finset.range 16, (2 * (i : ℤ) + 1) * dotL 16 (m + 1) (poly i) (powC m) * poly i j = L60 * powC m j := by
    intro j hj
    have := hchk.2 j (List.mem_range.mpr hj)
    rw [beq_iff_eq, list_sum_range] at this
    rw [← this]
    exact Finset.sum_congr rfl (fun i hi => by rw [h0 i (Finset.mem_range.mp hi)])
  have e1 : ∑ i ∈ Finset.range n, ((2 * i + 1) * ∫ t in (0 : ℝ)..1, (2 * t - 1) ^ m * shiftedP i t) * shiftedP i t =
      ∑ i ∈ Finset.range 16, ((2 * (i : ℝ) + 1) * ((dotL 16 (m + 1) (poly i) (powC m) : ℝ) / L60)) * tableP i t := by
    rw [← Finset.sum_subset (Finset.range_subset_range.mpr hn)]
    · refine Finset.sum_congr rfl (fun i hi => ?_)
      rw [Finset.mem_range] at hi
      rw [hI i (by omega), tableP_eq_shiftedP (by omega)]
    · intro i hi hi'
      rw [Finset.mem_range] at hi hi'
      rw [h1 i hi (by omega)]; simp
  rw [e1, powC_eq]
  have e2 : ∀ i ∈ Finset.range 16, ((2 * (i : ℝ) + 1) * ((dotL 16 (m + 1) (poly i) (powC m) : ℝ) / L60)) * tableP i t =
      ∑ j ∈ Finset.range 16, ((2 * (i : ℝ) + 1) * (dotL 16 (m + 1) (poly i) (powC m) : ℝ) * poly i j) / L60 * t ^ j := by
    intro i _
    rw [tableP, Finset.mul_sum]
    exact Finset.sum_congr rfl (fun j _ => by ring)
  rw [Finset.sum_congr rfl e2, Finset.sum_comm]
  have e3 : ∀ j ∈ Finset.range 16, ∑ i ∈ Finset.range 16, ((2 * (i : ℝ) + 1) * (dotL 16 (m + 1) (poly i) (powC m) : ℝ) * poly i j) / L60 * t ^ j =
      powC m j * t ^ j := by
    intro j hj
    have h := h2 j (Finset.mem_range.mp hj)
    have h' : ∑ i ∈ Finset.range 16, (2 * (i : ℝ) + 1) * (dotL 16 (m + 1) (poly i) (powC m) : ℝ) * poly i j = L60 * powC m j := by exact_mod_cast h
    rw [← Finset.sum_mul, ← Finset.sum_div, h', mul_div_cancel_left₀ _ L60_pos.ne']
  rw [Finset.sum_congr rfl e3, ← Finset.sum_subset (Finset.range_subset_range.mpr (by omega : m + 1 ≤ 16))]
  intro j _ hj
  rw [Finset.mem_range, not_lt] at hj
  rw [powC, Nat.choose_eq_zero_of_lt (by omega : m < j)]; simp

/-- **C42, reconstruction.** On `[a, b]` the Legendre series with the computed coefficients reproduces every
polynomial of degree `< n` (`n ≤ 16`) up to `n · 1e-14` times the sum of its local coefficients. -/
theorem C42_reconstruction {n : ℕ} (hn : 1 ≤ n) (h16 : n ≤ 16) {a b : ℝ} (hab : a ≠ b) (f : ℝ → ℝ) (g : ℕ → ℝ)
    (hf : ∀ s, f ((a + b) / 2 + (b - a) / 2 * s) = ∑ m ∈ Finset.range n, g m * s ^ m) {t : ℝ} (t0 : 0 ≤ t) (t1 : t ≤ 1) :
    |legendreSeries n (getCoefficients n f a b) (b - a) ((b - a) * t) - f (a + (b - a) * t)| ≤
      n * (1 / 10 ^ 14) * ∑ m ∈ Finset.range n, |g m| := by
  have h0 : b - a ≠ 0 := sub_ne_zero.mpr (Ne.symm hab)
  unfold legendreSeries
  rw [mul_div_cancel_left₀ _ h0]
  have e2 : ∀ i, legendreCoeff f a b i = ∑ m ∈ Finset.range n, g m * ((2 * i + 1) * ∫ t in (0 : ℝ)..1, (2 * t - 1) ^ m * shiftedP i t) :=
    legendreCoeff_poly f n g hf
  have e3 : f (a + (b - a) * t) = ∑ i ∈ Finset.range n, legendreCoeff f a b i * shiftedP i t := by
    have := hf (2 * t - 1)
    rw [show (a + b) / 2 + (b - a) / 2 * (2 * t - 1) = a + (b - a) * t by ring] at this
    rw [this]
    simp only [e2, Finset.sum_mul]
    rw [Finset.sum_comm]
    refine Finset.sum_congr rfl (fun m hm => ?_)
    have := power_expansion h16 (Finset.mem_range.mp hm) t
    rw [← this, Finset.mul_sum]
    exact Finset.sum_congr rfl (fun i _ => by ring)
  rw [e3, ← Finset.sum_sub_distrib]
  refine (Finset.abs_sum_le_sum_abs _ _).trans ?_
  have hb : ∀ i ∈ Finset.range n, |getCoefficients n f a b i * (b - a) ^ i * shiftedP i t - legendreCoeff f a b i * shiftedP i t| ≤
      1 / 10 ^ 14 * ∑ m ∈ Finset.range n, |g m| := by
    intro i hi
    rw [Finset.mem_range] at hi
    rw [← sub_mul, abs_mul]
    have c1 := C42_coefficients hn (by omega) hi hab f n (by omega) g hf
    have c2 := (C41_table (i := i) (by omega) t).2.2.2 t0 t1
    have := abs_nonneg (getCoefficients n f a b i * (b - a) ^ i - legendreCoeff f a b i)
    nlinarith [abs_nonneg (shiftedP i t)]
  refine (Finset.sum_le_sum hb).trans ?_
  rw [Finset.sum_const, Finset.card_range, nsmul_eq_mul]
  exact le_of_eq (by ring)

/-! ### C65 -/

theorem node_inside {k j : ℕ} (h2 : 2 ≤ k) (h18 : k ≤ 18) (hev : k % 2 = 0) (hj : j < k) : -1 < node k j ∧ node k j < 1 := by
  have hk : k ∈ [2, 4, 6, 8, 10, 12, 14, 16, 18] := by
    have : k = 2 ∨ k = 4 ∨ k = 6 ∨ k = 8 ∨ k = 10 ∨ k = 12 ∨ k = 14 ∨ k = 16 ∨ k = 18 := by omega
    simpa using this
  have h := List.all_eq_true.mp nodes_inside k hk
  unfold nodesInside at h
  simp only [Bool.and_eq_true, beq_iff_eq, List.all_eq_true, decide_eq_true_eq] at h
  have hm : (nodesRaw k).getD j 0 ∈ nodesRaw k := by
    rw [List.getD_eq_getElem?_getD, List.getElem?_eq_getElem (by omega)]
    exact List.getElem_mem _
  obtain ⟨l, u⟩ := h.2 _ hm
  unfold node
  have l' : (-10 ^ 24 : ℚ) < ((nodesRaw k).getD j 0 : ℤ) := by exact_mod_cast l
  have u' : (((nodesRaw k).getD j 0 : ℤ) : ℚ) < 10 ^ 24 := by exact_mod_cast u
  constructor
  · rw [lt_div_iff₀ (by positivity)]; linarith
  · rw [div_lt_iff₀ (by positivity)]; linarith

/-- **C65.** The points at which the coefficients of a sector `[a, b]` are sampled lie strictly inside it, for every
number of coefficients the tables support; if the sector lies in a domain `[xmin, xmax]`, strictly inside that. -/
theorem C65_samples_inside {K : Type} [Field K] [LinearOrder K] [IsStrictOrderedRing K] {n : ℕ} (hn : 1 ≤ n) (h18 : n ≤ 18) {a b xmin xmax : K}
    (hab : a < b) (ha : xmin ≤ a) (hb : b ≤ xmax) (j : ℕ) (hj : j < kOf n) :
    a < samplePoint (kOf n) a b j ∧ samplePoint (kOf n) a b j < b ∧
    xmin < samplePoint (kOf n) a b j ∧ samplePoint (kOf n) a b j < xmax := by
  obtain ⟨l, u⟩ := node_inside (k := kOf n) (by unfold kOf; omega) (by unfold kOf; omega) (by unfold kOf; omega) hj
  have l' : (-1 : K) < (node (kOf n) j : K) := by exact_mod_cast l
  have u' : (node (kOf n) j : K) < 1 := by exact_mod_cast u
  have hw : 0 < (b - a) / 2 := by linarith
  have e : samplePoint (kOf n) a b j = (a + b) / 2 + (node (kOf n) j : K) * ((b - a) / 2) := by
    simp [samplePoint, halfWidth]
  have h1 : a < samplePoint (kOf n) a b j := by rw [e]; nlinarith
  have h2 : samplePoint (kOf n) a b j < b := by rw [e]; nlinarith
  exact ⟨h1, h2, ha.trans_lt h1, h2.trans_le hb⟩

/-- **C65, dependence.** The stored coefficients depend only on the values of the potential strictly inside the
sector: whatever the potential does elsewhere (end points, jump points, singularities) is never seen. -/
theorem C65_only_inside {K : Type} [Field K] [LinearOrder K] [IsStrictOrderedRing K] {n : ℕ} (hn : 1 ≤ n) (h18 : n ≤ 18) {a b : K} (hab : a < b)
    (f g : K → K) (hfg : ∀ x, a < x → x < b → f x = g x) (i : ℕ) :
    getCoefficients n f a b i = getCoefficients n g a b i := by
  have hk : 1 ≤ kOf n := by unfold kOf; omega
  have hs : ∀ j < kOf n, f (samplePoint (kOf n) a b j) = g (samplePoint (kOf n) a b j) := fun j hj =>
    let h := C65_samples_inside hn h18 hab le_rfl le_rfl j hj
    hfg _ h.1 h.2.1
  have loop : ∀ (r j : ℕ) (acc : K), j + r ≤ kOf n →
      integrateLoop (kOf n) i (fun j => f (samplePoint (kOf n) a b j)) r j acc =
        integrateLoop (kOf n) i (fun j => g (samplePoint (kOf n) a b j)) r j acc := by
    intro r
    induction r with
    | zero => intros; rfl
    | succ r ih =>
      intro j acc hjr
      rw [integrateLoop, integrateLoop, hs j (by omega), ih _ _ (by omega)]
  unfold getCoefficients integrate
  dsimp only
  rw [hs 0 (by omega), loop _ _ _ (by omega)]

/-! ### Cases that meet the hypotheses -/

/-- `f(x) = x³` on `[1, 3]`: local variable `x = 2 + s`; the mean value is 10. -/
example : |getCoefficients 16 (fun x : ℝ => x ^ 3) 1 3 0 - legendreCoeff (fun x => x ^ 3) 1 3 0| ≤ 1 / 10 ^ 14 * 27 := by
  have := C42_coefficients (n := 16) (by norm_num) (by norm_num) (i := 0) (by norm_num) (a := 1) (b := 3) (by norm_num) (fun x => x ^ 3)
    4 (by norm_num) (fun m => [8, 12, 6, 1].getD m 0) (fun s => by simp [Finset.sum_range_succ]; ring)
  simp [Finset.sum_range_succ] at this
  norm_num at this ⊢
  exact this

/-- `1/x` on `[0, 1]`: the singular end point is not sampled. -/
example (c : ℚ) (i : ℕ) : getCoefficients 16 (fun x : ℚ => if x = 0 then c else 1 / x) 0 1 i = getCoefficients 16 (fun x => 1 / x) 0 1 i :=
  C65_only_inside (by norm_num) (by norm_num) (by norm_num) _ _ (fun x hx _ => if_neg hx.ne') i

end Verif.Legendre
