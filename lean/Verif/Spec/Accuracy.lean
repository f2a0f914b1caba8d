import Verif.Spec.Eta
import Verif.Spec.LegendreCoeff

/-!
# Specification: accuracy of the ingredients of a step

The code's own accuracy is proved elsewhere: `σ = 10⁻³³` for the η functions (`C80_absolute`), and `τ` about `10⁻¹⁴` times the
bound of the potential for the coefficients (`coeffWithin_code`). The theorems on steps, solutions and eigenvalues quantify over
every `σ` and `τ`, with constants that depend on neither.
-/
namespace Verif

/-- Every η value computed by `eta n Z i`, `i < n`, differs from `η_i(Z)` by at most `σ`. -/
def EtaWithin (σ : ℝ) (eta : ℕ → ℝ → ℕ → ℝ) : Prop := ∀ n, 2 ≤ n → ∀ Z i, i < n → |eta n Z i - Eta.eta i Z| ≤ σ

/-- `v` holds the first 16 Legendre coefficients of `f` on `[a, b]`, scaled by `(b - a)^k`, up to `τ`, and zeros beyond. -/
structure CoeffWithin (τ : ℝ) (f : ℝ → ℝ) (a b : ℝ) (v : ℕ → ℝ) : Prop where
  near : ∀ k < 16, |v k * (b - a) ^ k - legendreCoeff f a b k| ≤ τ
  zero : ∀ k, 16 ≤ k → v k = 0

theorem EtaWithin.nonneg {σ : ℝ} {eta : ℕ → ℝ → ℕ → ℝ} (h : EtaWithin σ eta) : 0 ≤ σ :=
  (abs_nonneg _).trans (h 2 le_rfl 0 0 (by norm_num))

theorem CoeffWithin.nonneg {τ : ℝ} {f : ℝ → ℝ} {a b : ℝ} {v : ℕ → ℝ} (h : CoeffWithin τ f a b v) : 0 ≤ τ :=
  (abs_nonneg _).trans (h.near 0 (by norm_num))

end Verif
