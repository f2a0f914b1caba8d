import Verif.Props.Legendre

/-!
# C42, `Legendre::integrate()`

The weights of row 0 are normalised to the mean value, and `integrate()` multiplies by half the length of the interval: it returns half of
the integral.
-/
namespace Verif.Legendre
open Verif

/-- **C42, `integrate()`.** For every polynomial `f` of degree `< 2k` (`k = n` rounded up to even), in the local variable on `[a, b]`, the value
returned by `Legendre<Scalar, n>{f, a, b}.integrate()` is half of `∫ₐᵇ f`, up to the digits of the tables. -/
theorem C42_integrate {n : ℕ} (hn : 1 ≤ n) (h18 : n ≤ 18) {a b : ℝ} (hab : a < b) (f : ℝ → ℝ) (N : ℕ) (hN : N ≤ 2 * (n + n % 2))
    (g : ℕ → ℝ) (hf : ∀ s, f ((a + b) / 2 + (b - a) / 2 * s) = ∑ m ∈ Finset.range N, g m * s ^ m) :
    |integrate (kOf n) (fun j => f (samplePoint (kOf n) a b j)) 0 * halfWidth a b - (∫ x in a..b, f x) / 2| ≤
      (b - a) * (1 / 10 ^ 14 * ∑ m ∈ Finset.range N, |g m|) := by
  have h := C42_coefficients hn h18 (i := 0) (by omega) hab.ne f N (by omega) g hf
  have e1 : getCoefficients n f a b 0 * (b - a) ^ 0 = integrate (kOf n) (fun j => f (samplePoint (kOf n) a b j)) 0 := by
    simp [getCoefficients, hPow]
  have e2 : (b - a) * legendreCoeff f a b 0 = ∫ x in a..b, f x := by
    have e : ∀ t : ℝ, f (a + (b - a) * t) * shiftedP 0 t = f (a + (b - a) * t) := fun t => by simp [shiftedP]
    have := intervalIntegral.mul_integral_comp_add_mul (f := f) (a := 0) (b := 1) (b - a) a
    simp only [legendreCoeff, e]
    push_cast
    rw [show (2 * (0 : ℝ) + 1) = 1 by norm_num, one_mul, this]
    congr 1 <;> ring
  have e3 : (halfWidth a b : ℝ) = (b - a) / 2 := by simp [halfWidth]
  rw [e1] at h
  rw [e3, ← e2]
  have e4 : ∀ I L : ℝ, I * ((b - a) / 2) - (b - a) * L / 2 = (b - a) / 2 * (I - L) := fun I L => by ring
  rw [e4, abs_mul, abs_of_pos (by linarith : 0 < (b - a) / 2)]
  refine le_trans (mul_le_mul_of_nonneg_left h (by linarith)) ?_
  have : 0 ≤ 1 / 10 ^ 14 * ∑ m ∈ Finset.range N, |g m| := by positivity
  nlinarith

/-- The hypotheses are met by `f(x) = x²` on `[-1, 1]`, with `n = 2`: `integrate()` returns 1/3, the integral being 2/3. -/
example : ∃ g : ℕ → ℝ, (3 : ℕ) ≤ 2 * (2 + 2 % 2) ∧ (∀ s : ℝ, (((-1 + 1) / 2 + (1 - -1) / 2 * s) ^ 2 : ℝ) = ∑ m ∈ Finset.range 3, g m * s ^ m) ∧
    (∫ x in (-1 : ℝ)..1, x ^ 2) / 2 = 1 / 3 := by
  refine ⟨fun m => if m = 2 then 1 else 0, by norm_num, fun s => ?_, ?_⟩
  · simp [Finset.sum_range_succ]
  · rw [integral_pow]; norm_num

end Verif.Legendre
