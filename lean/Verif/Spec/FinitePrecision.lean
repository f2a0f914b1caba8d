import Verif.Model.Rounded
import Verif.Spec.Problem
import Verif.Spec.ElemFl

/-!
# Specification: a problem given to the solver in finite precision
-/
namespace Verif.Fp
open Verif.Mesh Verif.Spec

variable {fl : ℝ → ℝ}

/-- The computed η functions are accurate to `σ` for arguments up to `R`. The code asks for the first `n = 9` or `10` of them. -/
def EtaFl (σ R : ℝ) (eta : ℕ → Fl fl → ℕ → Fl fl) : Prop := ∀ n, 2 ≤ n → n ≤ 10 → ∀ Z : Fl fl, |Z.val| ≤ R → ∀ i < n, |(eta n Z i).val - Eta.eta i Z.val| ≤ σ

/-- the sector with exact numbers -/
def realSec (s : Sec (Fl fl)) : Sec ℝ := ⟨s.min.val, s.max.val, s.dir⟩
/-- the mesh with exact numbers -/
def realMesh (l : List (Sec (Fl fl))) : List (Sec ℝ) := l.map realSec

/-- The setting of the theorems on finite precision. The scalar type rounds with unit roundoff `u` and smallest normal number `mu`; the mesh, whose points are numbers of
the type, fits the potential `W` with bound `M` and widths at most `H` (`FitMesh`); no width is below `mu`, and the computed widths exceed the threshold `eps` of skipped steps; the η functions are
accurate to `σ` up to arguments `R`, and the coefficients `vs` to `τ`. -/
structure FlFit (M H u mu σ τ R : ℝ) (W : Sec ℝ → ℝ → ℝ) (dmin dmax eps : Fl fl) (l : List (Sec (Fl fl))) (eta : ℕ → Fl fl → ℕ → Fl fl) (vs : Sec (Fl fl) → ℕ → Fl fl) : Prop where
  r : Rounding u mu fl
  u0 : 0 ≤ u
  mu0 : 0 ≤ mu
  fit : FitMesh 0 M H W dmin.val dmax.val (realMesh l)
  mu_le : ∀ s ∈ l, mu ≤ s.max.val - s.min.val
  eps0 : 0 ≤ eps.val
  wide : ∀ s ∈ l, eps.val < (s.max - s.min).val
  eta : EtaFl σ R eta
  coeff : ∀ s ∈ l, CoeffWithin τ (oriented (W (realSec s)) (realSec s)) s.min.val s.max.val (fun k => (vs s k).val)

/-- The setting of the theorems on the code with all its own ingredients in finite precision: the η functions of `calculateEta` with the elementary functions `F` of the type, accurate to `a`; the
coefficients the code computes from a potential function `V` that returns `W` up to `δ`; and the code's threshold for skipped steps, `10⁻¹²`.
The points are at most `X/2` in size, and every width is at least `2·10⁻¹²` and `1600 u X`: some 1600 units in the last place of the points. `fl 100 = 100`: the type has the number 100. -/
structure CodeFl (M H u mu a δ X : ℝ) (W : Sec ℝ → ℝ → ℝ) (dmin dmax : Fl fl) (l : List (Sec (Fl fl))) (F : Eta.Elem (Fl fl)) (V : Fl fl → Fl fl) : Prop where
  r : Rounding u mu fl
  u0 : 0 ≤ u
  u1 : u ≤ 1 / 1000
  mu0 : 0 ≤ mu
  mu1 : mu ≤ 1 / 10 ^ 180
  hundred : fl 100 = 100
  elem : ElemFl a F
  a1 : a ≤ 1 / 1000
  fit : FitMesh 0 M H W dmin.val dmax.val (realMesh l)
  size : ∀ s ∈ l, |s.min.val| + |s.max.val| ≤ X
  wide : ∀ s ∈ l, 2 / 10 ^ 12 ≤ s.max.val - s.min.val
  fine : ∀ s ∈ l, 1600 * u * X ≤ s.max.val - s.min.val
  potential : ∀ s ∈ l, ∀ x : Fl fl, s.min.val ≤ x.val → x.val ≤ s.max.val → |(V x).val - W (realSec s) x.val| ≤ δ

/-- accuracy of the η functions of the code up to arguments `R` -/
noncomputable def codeSigma (u a R : ℝ) : ℝ := (2 * (320 * u + (3 + Real.sqrt R) * a) + 1 / 10 ^ 38) * Real.cosh (Real.sqrt R)

/-- accuracy of the coefficients of the code: table and quadrature, potential function, rounding -/
noncomputable def codeTau (M H u δ X : ℝ) : ℝ := 16 * M / 10 ^ 14 + 37 * M * H ^ 16 + (150 * δ + 20000 * M * u * (1 + X))

end Verif.Fp
