import Verif.Spec.HalfRange
import Mathlib.Analysis.SpecialFunctions.Sqrt

/-!
# Specification: Sturm–Liouville problems and the exact Liouville normal form
-/
namespace Verif

/-- `z`, with derivative `dz`, solves `-(p z')' + q z = E w z` on `[a, b]`. -/
structure SLSolvesOn (p q w : ℝ → ℝ) (E a b : ℝ) (z dz : ℝ → ℝ) : Prop where
  d1 : ∀ r ∈ Set.Icc a b, HasDerivWithinAt z (dz r) (Set.Icc a b) r
  d2 : ∀ r ∈ Set.Icc a b, HasDerivWithinAt (fun s => p s * dz s) ((q r - E * w r) * z r) (Set.Icc a b) r

/-- `E` is an exact eigenvalue of `-(p z')' + q z = E w z` on `[a, b]` with the boundary conditions `z(a) : z'(a) = L.1 : L.2` and `z(b) : z'(b) = R.1 : R.2`. -/
def IsSLEigenvalue (p q w : ℝ → ℝ) (a b : ℝ) (L R : ℝ × ℝ) (E : ℝ) : Prop :=
  ∃ z dz : ℝ → ℝ, SLSolvesOn p q w E a b z dz ∧ (∃ r ∈ Set.Icc a b, z r ≠ 0) ∧ z a * L.2 = dz a * L.1 ∧ z b * R.2 = dz b * R.1

/-- `E` is an exact eigenvalue of `-(p z')' + q z = E w z` on `[a, b]` with the boundary conditions `z(a) : z'(a) = L.1 : L.2` and `z(b) : z'(b) = R.1 : R.2`, whose
eigenfunction has `n` zeros in the open interval: the `n`-th eigenvalue, counted from 0. -/
def IsSLEigenvalueNr (p q w : ℝ → ℝ) (a b : ℝ) (L R : ℝ × ℝ) (n : ℕ) (E : ℝ) : Prop :=
  ∃ z dz : ℝ → ℝ, SLSolvesOn p q w E a b z dz ∧ (∃ r ∈ Set.Icc a b, z r ≠ 0) ∧ z a * L.2 = dz a * L.1 ∧ z b * R.2 = dz b * R.1 ∧
    ({r ∈ Set.Ioo a b | z r = 0} : Set ℝ).Finite ∧ ({r ∈ Set.Ioo a b | z r = 0} : Set ℝ).ncard = n

/-- `z`, with derivative `dz`, is an eigenfunction of the Sturm–Liouville problem for the eigenvalue `lam`, with the integral of `w z²` equal to one. -/
structure IsSLEigenfunction (p q w : ℝ → ℝ) (a b : ℝ) (L R : ℝ × ℝ) (lam : ℝ) (z dz : ℝ → ℝ) : Prop where
  solves : SLSolvesOn p q w lam a b z dz
  left : z a * L.2 = dz a * L.1
  right : z b * R.2 = dz b * R.1
  norm : ∫ t in a..b, w t * (z t * z t) = 1

/-- The exact Liouville normal form of the equation: the variable `x = X(r)` has `dx/dr = sqrt(w/p)`, `m = (p w)^(1/4)` as a function of `x` has two derivatives, and the
potential `V` is `q/w + m''/m`. `m1` is `m'`. -/
structure NormalForm (p q w : ℝ → ℝ) (a b : ℝ) (X m m1 V : ℝ → ℝ) : Prop where
  lt : a < b
  p_pos : ∀ r ∈ Set.Icc a b, 0 < p r
  w_pos : ∀ r ∈ Set.Icc a b, 0 < w r
  dX : ∀ r ∈ Set.Icc a b, HasDerivWithinAt X (Real.sqrt (w r / p r)) (Set.Icc a b) r
  m_pos : ∀ r ∈ Set.Icc a b, 0 < m (X r)
  fourth : ∀ r ∈ Set.Icc a b, m (X r) ^ 4 = p r * w r
  dm : ∀ x ∈ Set.Icc (X a) (X b), HasDerivWithinAt m (m1 x) (Set.Icc (X a) (X b)) x
  ddm : ∀ r ∈ Set.Icc a b, HasDerivWithinAt m1 ((V (X r) - q r / w r) * m (X r)) (Set.Icc (X a) (X b)) (X r)

/-- The boundary values `(y, dy/dx)` of `y = m z` at the point `r`, for boundary values `(z, dz/dr)`. -/
noncomputable def normalValues (p w X m m1 : ℝ → ℝ) (r : ℝ) (L : ℝ × ℝ) : ℝ × ℝ :=
  (m (X r) * L.1, m1 (X r) * L.1 + m (X r) * (L.2 / Real.sqrt (w r / p r)))

end Verif
