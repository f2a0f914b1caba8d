import Verif.Model.Poly
import Mathlib.Algebra.Polynomial.Derivative
import Mathlib.Algebra.Polynomial.Eval.Defs
import Mathlib.Algebra.Polynomial.AlgebraMap
import Mathlib.Algebra.BigOperators.Intervals
import Mathlib.Analysis.Calculus.Deriv.Polynomial
import Mathlib.Analysis.Calculus.IteratedDeriv.Lemmas
import Mathlib.Analysis.SpecialFunctions.Integrals.Basic
import Mathlib.Topology.Algebra.Polynomial
import Mathlib.Tactic.Ring
import Mathlib.Tactic.FieldSimp

/-!
# Polynomial arithmetic and calculus: C43, C44
-/
namespace Verif.Poly
open Finset

/-- Specification: the value at `x` of the polynomial with coefficients `c 0, …, c n`. -/
def value {K : Type} [Semiring K] (n : Nat) (c : Nat → K) (x : K) : K := ∑ i ∈ range (n + 1), c i * x ^ i

section arith
variable {K : Type} [Field K]

theorem hornerLoop_eq (f : Nat → K) (x : K) (k : Nat) (r : K) :
    hornerLoop f x k r = r * x ^ k + ∑ i ∈ range k, f i * x ^ i := by
  induction k generalizing r with
  | zero => simp [hornerLoop]
  | succ k ih => rw [hornerLoop, ih, sum_range_succ]; ring

/-- Evaluation is the polynomial's value. -/
theorem C43_eval {n : Nat} (p : Poly K n) (x : K) : eval p x = value n p.c x := by
  rw [eval, hornerLoop_eq, value, sum_range_succ]; ring

theorem value_congr {n : Nat} {c d : Nat → K} (h : ∀ i, i ≤ n → c i = d i) (x : K) : value n c x = value n d x :=
  sum_congr rfl (fun i hi => by rw [h i (by simpa [Nat.lt_succ_iff] using hi)])

theorem value_extend {m n : Nat} (hmn : m ≤ n) (c : Nat → K) (x : K) :
    value n (fun i => if i < m + 1 then c i else 0) x = value m c x := by
  unfold value
  rw [← sum_subset (range_subset_range.mpr (Nat.succ_le_succ hmn))]
  · exact sum_congr rfl (fun i hi => by simp only [if_pos (mem_range.mp hi)])
  · intro i _ hi
    have : ¬ i < m + 1 := by simpa using hi
    simp only [if_neg this, zero_mul]

/-- **C43**: converting to a larger degree does not change any value. -/
theorem C43_widen {m n : Nat} (hmn : m ≤ n) (p : Poly K m) (x : K) : eval (widen n p) x = eval p x := by
  rw [C43_eval, C43_eval]; exact value_extend hmn p.c x

theorem addAssign_eval {m n : Nat} (hmn : m ≤ n) (p : Poly K n) (q : Poly K m) (x : K) :
    eval (addAssign p q) x = eval p x + eval q x := by
  rw [C43_eval, C43_eval, C43_eval, ← value_extend hmn q.c, value, value, value, ← sum_add_distrib]
  refine sum_congr rfl (fun i _ => ?_)
  simp only [addAssign]
  split <;> ring

theorem subAssign_eval {m n : Nat} (hmn : m ≤ n) (p : Poly K n) (q : Poly K m) (x : K) :
    eval (subAssign p q) x = eval p x - eval q x := by
  rw [C43_eval, C43_eval, C43_eval, ← value_extend hmn q.c, value, value, value, ← sum_sub_distrib]
  refine sum_congr rfl (fun i _ => ?_)
  simp only [subAssign]
  split <;> ring

/-- **C43**: sums and differences, of polynomials of any two degrees, in place or not. -/
theorem C43_add_sub {m n : Nat} (p : Poly K n) (q : Poly K m) (x : K) :
    eval (add p q) x = eval p x + eval q x ∧ eval (sub p q) x = eval p x - eval q x ∧
    (m ≤ n → eval (addAssign p q) x = eval p x + eval q x ∧ eval (subAssign p q) x = eval p x - eval q x ∧
      eval (subRev q p) x = eval q x - eval p x) := by
  have hneg : eval (neg p) x = -eval p x := by
    rw [C43_eval, C43_eval, value, value, ← sum_neg_distrib]
    exact sum_congr rfl (fun i _ => by simp only [neg]; ring)
  refine ⟨?_, ?_, fun h => ⟨addAssign_eval h p q x, subAssign_eval h p q x, ?_⟩⟩
  · rw [add, addAssign_eval (le_max_right _ _), C43_widen (le_max_left _ _)]
  · rw [sub, subAssign_eval (le_max_right _ _), C43_widen (le_max_left _ _)]
  · rw [subRev, addAssign_eval h, hneg]; ring

/-- **C43**: operations with scalars and the unary minus. -/
theorem C43_scalar {n : Nat} (p : Poly K n) (s x : K) :
    eval (neg p) x = -eval p x ∧ eval (mulScalar p s) x = eval p x * s ∧
    eval (divScalar p s) x = eval p x / s ∧ eval (addScalar p s) x = eval p x + s ∧
    eval (subScalar p s) x = eval p x - s ∧ eval (scalarSub s p) x = s - eval p x ∧
    eval (const n s) x = s ∧ eval (zero n) x = (0 : K) := by
  have hneg : eval (neg p) x = -eval p x := by
    rw [C43_eval, C43_eval, value, value, ← sum_neg_distrib]
    exact sum_congr rfl (fun i _ => by simp only [neg]; ring)
  have hadd : ∀ p : Poly K n, eval (addScalar p s) x = eval p x + s := by
    intro p
    rw [C43_eval, C43_eval, value, value, sum_range_succ', sum_range_succ']
    simp [addScalar]; ring
  refine ⟨hneg, ?_, ?_, hadd p, ?_, ?_, ?_, ?_⟩
  · rw [C43_eval, C43_eval, value, value, sum_mul]
    exact sum_congr rfl (fun i hi => by simp only [mulScalar, mem_range.mp hi, if_true]; ring)
  · rw [C43_eval, C43_eval, value, value, sum_div]
    exact sum_congr rfl (fun i hi => by simp only [divScalar, mem_range.mp hi, if_true]; ring)
  · rw [C43_eval, C43_eval, value, value, sum_range_succ', sum_range_succ']
    simp [subScalar]; ring
  · rw [scalarSub, hadd, hneg]; ring
  · rw [C43_eval, value, sum_range_succ']
    simp [const, zero, Function.update]
  · rw [C43_eval, value]
    simp [zero]

/-- The coefficients after the inner loop. -/
theorem mulRow_value (a : K) (q : Nat → K) (i k N : Nat) (hN : i + k ≤ N) (r : Nat → K) (x : K) :
    ∑ l ∈ range N, mulRow a q i k r l * x ^ l =
      (∑ l ∈ range N, r l * x ^ l) + a * x ^ i * ∑ j ∈ range k, q j * x ^ j := by
  induction k with
  | zero => simp [mulRow]
  | succ k ih =>
    have hk := ih (by omega)
    simp only [mulRow]
    have hmem : i + k ∈ range N := mem_range.mpr (by omega)
    rw [← add_sum_erase _ _ hmem]
    have h1 : ∑ l ∈ (range N).erase (i + k), Function.update (mulRow a q i k r) (i + k)
          (mulRow a q i k r (i + k) + a * q k) l * x ^ l =
        ∑ l ∈ (range N).erase (i + k), mulRow a q i k r l * x ^ l :=
      sum_congr rfl (fun l hl => by rw [Function.update_of_ne (ne_of_mem_erase hl)])
    rw [h1, Function.update_self, sum_range_succ]
    have h2 := add_sum_erase (range N) (fun l => mulRow a q i k r l * x ^ l) hmem
    rw [hk] at h2
    rw [pow_add] at h2 ⊢
    linear_combination h2

theorem mulRows_value (p q : Nat → K) (m k N : Nat) (hN : k + m ≤ N) (r : Nat → K) (x : K) :
    ∑ l ∈ range N, mulRows p q m k r l * x ^ l =
      (∑ l ∈ range N, r l * x ^ l) + (∑ i ∈ range k, p i * x ^ i) * ∑ j ∈ range (m + 1), q j * x ^ j := by
  induction k with
  | zero => simp [mulRows]
  | succ k ih =>
    rw [mulRows, mulRow_value _ _ _ _ _ (by omega), ih (by omega), sum_range_succ (fun i => p i * x ^ i) k]
    ring

/-- **C43**: the product. -/
theorem C43_mul {m n : Nat} (p : Poly K n) (q : Poly K m) (x : K) : eval (mul p q) x = eval p x * eval q x := by
  rw [C43_eval, C43_eval, C43_eval, value, value, value, mul]
  simp only
  rw [mulRows_value _ _ _ _ _ (by omega)]
  simp [zero]

end arith

/-! ## C44 -/
section calculus
variable {K : Type} [Field K]

theorem fallLoop_eq (d i : Nat) (f : K) : fallLoop d i f = f * (i.descFactorial d : K) := by
  induction d generalizing i f with
  | zero => simp [fallLoop]
  | succ d ih =>
    rw [fallLoop, ih]
    cases i with
    | zero => simp
    | succ i => rw [Nat.succ_descFactorial_succ]; rw [Nat.add_sub_cancel]; push_cast; ring

/-- The polynomial as an element of Mathlib's `K[X]`. -/
noncomputable def toPoly {n : Nat} (p : Poly K n) : Polynomial K := ∑ i ∈ range (n + 1), Polynomial.monomial i (p.c i)

theorem toPoly_eval {n : Nat} (p : Poly K n) (x : K) : (toPoly p).eval x = eval p x := by
  rw [C43_eval, toPoly, Polynomial.eval_finsetSum, value]
  simp

theorem toPoly_coeff {n : Nat} (p : Poly K n) (i : Nat) : (toPoly p).coeff i = if i ≤ n then p.c i else 0 := by
  rw [toPoly, Polynomial.finsetSum_coeff]
  simp only [Polynomial.coeff_monomial]
  rw [Finset.sum_ite_eq' (range (n + 1)) i p.c]
  simp [Nat.lt_succ_iff]

theorem toPoly_derivative {n d : Nat} (hd : d ≤ n) (p : Poly K n) :
    toPoly (derivative d p) = Polynomial.derivative^[d] (toPoly p) := by
  ext i
  rw [Polynomial.coeff_iterate_derivative, toPoly_coeff, toPoly_coeff]
  simp only [derivative, fallLoop_eq]
  by_cases h : i + d ≤ n
  · rw [if_pos (by omega), if_pos h, if_pos h, nsmul_eq_mul]; ring
  · rw [if_neg (by omega), if_neg h]; simp

theorem derivLoop_eq (d : Nat) (c : Nat → K) (x : K) (k : Nat) (r : K) :
    derivLoop d c x k r = r * x ^ k + ∑ i ∈ range k, fallLoop d (d + i) (c (d + i)) * x ^ i := by
  induction k generalizing r with
  | zero => simp [derivLoop]
  | succ k ih => rw [derivLoop, ih, sum_range_succ]; ring

/-- **C44**: the derivative polynomial evaluated at `x` is the derivative evaluated directly (for
`d ≤ degree`, as the type of the first requires). -/
theorem C44_derivative_overloads {n d : Nat} (hd : d ≤ n) (p : Poly K n) (x : K) :
    eval (derivative d p) x = derivativeAt d p x := by
  rw [C43_eval, derivativeAt, derivLoop_eq, value, show n + 1 - d = n - d + 1 by omega]
  simp only [derivative, zero_mul, zero_add]
  refine sum_congr rfl (fun i hi => ?_)
  have : i + d ≤ n := by have := mem_range.mp hi; omega
  rw [if_pos this, Nat.add_comm]

/-- **C44**: `d`-fold differentiation over any field is the formal derivative, for every `d`. -/
theorem C44_derivative_formal {n : Nat} (d : Nat) (p : Poly K n) (x : K) :
    derivativeAt d p x = (Polynomial.derivative^[d] (toPoly p)).eval x := by
  by_cases hd : d ≤ n
  · rw [← C44_derivative_overloads hd, ← toPoly_eval, toPoly_derivative hd]
  · have h0 : Polynomial.derivative^[d] (toPoly p) = 0 := by
      ext i
      rw [Polynomial.coeff_iterate_derivative, toPoly_coeff, if_neg (by omega)]; simp
    rw [h0, derivativeAt, show n + 1 - d = 0 by omega]; simp [derivLoop]

theorem intLoop_eq (c : Nat → K) (x : K) (k : Nat) (r : K) :
    intLoop c x k r = r * x ^ k + ∑ i ∈ range k, c i / ((i + 1 : Nat) : K) * x ^ i := by
  induction k generalizing r with
  | zero => simp [intLoop]
  | succ k ih => rw [intLoop, ih, sum_range_succ]; ring

/-- **C44**: the antiderivative polynomial and the antiderivative evaluated directly agree, and vanish
at 0. -/
theorem C44_integral_overloads {n : Nat} (p : Poly K n) (x : K) :
    eval (integral p) x = integralAt p x ∧ integralAt p (0 : K) = 0 := by
  constructor
  · rw [C43_eval, integralAt, intLoop_eq, value, sum_range_succ']
    simp only [integral, zero_mul, zero_add, pow_zero, add_zero]
    rw [sum_mul]
    refine sum_congr rfl (fun i hi => ?_)
    rw [if_pos (by have := mem_range.mp hi; omega), pow_succ]; ring
  · simp [integralAt]

end calculus

/-- **C44**: over the reals, `derivative<d>` is the `d`-th derivative of the polynomial function. -/
theorem C44_iterated_derivative {n : Nat} (d : Nat) (p : Poly ℝ n) (x : ℝ) :
    derivativeAt d p x = iteratedDeriv d (fun t => eval p t) x := by
  have h : ∀ (d : Nat) (P : Polynomial ℝ), iteratedDeriv d (fun t => P.eval t) =
      fun t => (Polynomial.derivative^[d] P).eval t := by
    intro d
    induction d with
    | zero => intro P; simp
    | succ d ih =>
      intro P
      rw [iteratedDeriv_succ']
      have : deriv (fun t => P.eval t) = fun t => (Polynomial.derivative P).eval t := by
        funext t; exact P.deriv
      rw [this, ih, Function.iterate_succ_apply]
  rw [C44_derivative_formal d]
  have e : (fun t => eval p t) = fun t => (toPoly p).eval t := by funext t; rw [toPoly_eval]
  rw [e, h]

/-- **C44**: the first derivative as a derivative at a point. -/
theorem C44_hasDerivAt {n : Nat} (p : Poly ℝ n) (x : ℝ) :
    HasDerivAt (fun t => eval p t) (derivativeAt 1 p x) x := by
  have e : (fun t => eval p t) = fun t => (toPoly p).eval t := by funext t; rw [toPoly_eval]
  rw [C44_derivative_formal 1, e]
  exact (toPoly p).hasDerivAt x

/-- **C44**: `integral()` is an antiderivative. -/
theorem C44_integral_hasDerivAt {n : Nat} (p : Poly ℝ n) (x : ℝ) :
    HasDerivAt (fun t => integralAt p t) (eval p x) x := by
  have e : (fun t => integralAt p t) = fun t => eval (integral p) t := by
    funext t; rw [(C44_integral_overloads p t).1]
  rw [e]
  refine (C44_hasDerivAt (integral p) x).congr_deriv ?_
  rw [derivativeAt, derivLoop_eq, C43_eval, value]
  simp only [zero_mul, zero_add, show n + 1 + 1 - 1 = n + 1 by omega]
  refine sum_congr rfl (fun i hi => ?_)
  have : i ≤ n := by have := mem_range.mp hi; omega
  rw [fallLoop_eq, Nat.add_comm 1 i]
  simp only [integral, this, if_true, Nat.descFactorial_one]
  have h0 : ((i + 1 : Nat) : ℝ) ≠ 0 := Nat.cast_ne_zero.mpr (by omega)
  field_simp

/-- **C44**: `integral(x)` is the integral from 0 to `x`. -/
theorem C44_integral_value {n : Nat} (p : Poly ℝ n) (x : ℝ) :
    ∫ t in (0:ℝ)..x, eval p t = integralAt p x := by
  have hc : Continuous (fun t => eval p t) := by
    have e : (fun t => eval p t) = fun t => (toPoly p).eval t := by funext t; rw [toPoly_eval]
    rw [e]; exact (toPoly p).continuous
  rw [intervalIntegral.integral_eq_sub_of_hasDerivAt (fun t _ => C44_integral_hasDerivAt p t)
    (hc.intervalIntegrable _ _), (C44_integral_overloads p 0).2, sub_zero]

/-- A cubic: evaluation, product with a quadratic, second derivative, integral. -/
example : let p : Poly ℚ 3 := ofList 3 [1, -2, 0, 4]
    eval p 2 = 29 ∧ eval (mul p (ofList 2 [0, 1, 1] : Poly ℚ 2)) 2 = 174 ∧
    derivativeAt 2 p 2 = 48 ∧ eval (derivative 2 p) 2 = 48 ∧ integralAt p 2 = 14 := by decide +kernel

end Verif.Poly
