import Verif.Spec.Smooth
import Verif.Spec.Ode
import Verif.Spec.Energy
import Verif.Spec.Accuracy
import Verif.Model.Mesh
import Verif.Props.Lookup

/-!
# Specification: a potential on a mesh
-/
namespace Verif
open Verif.Mesh

/-- A mesh of `[dmin, dmax]` fit for the potential that is `W s` on the sector `s`: sectors wider than `eps ≥ 0` (the code's `EPS = 10⁻¹²`) and at most
`H ≤ 1` wide, each with a direction, and `W s` with sixteen derivatives bounded by `M` up to the ends of `s` (the potential may
jump at mesh points). -/
structure FitMesh (eps M H : ℝ) (W : Sec ℝ → ℝ → ℝ) (dmin dmax : ℝ) (secs : List (Sec ℝ)) : Prop where
  mesh : IsMesh secs dmin dmax
  directed : ∀ s ∈ secs, s.dir ≠ .none
  eps_nonneg : 0 ≤ eps
  wide : ∀ s ∈ secs, eps < s.max - s.min
  narrow : ∀ s ∈ secs, s.max - s.min ≤ H
  small : H ≤ 1
  smooth : ∀ s ∈ secs, SmoothOn M (W s) s.min s.max

/-- The function a sector works with: a backward sector starts from its right end, with the mirrored potential. -/
def oriented (W : ℝ → ℝ) (s : Sec ℝ) : ℝ → ℝ := if s.dir = .backward then fun x => W (s.min + s.max - x) else W

/-- The potential `V` inside each sector equals `W s`. -/
def Agrees (V : ℝ → ℝ) (W : Sec ℝ → ℝ → ℝ) (secs : List (Sec ℝ)) : Prop := ∀ s ∈ secs, ∀ x, s.min < x → x < s.max → V x = W s x

/-- Every sector's coefficients `vs s` are accurate to `τ`. -/
def CoeffsWithin (τ : ℝ) (W : Sec ℝ → ℝ → ℝ) (secs : List (Sec ℝ)) (vs : Sec ℝ → ℕ → ℝ) : Prop :=
  ∀ s ∈ secs, CoeffWithin τ (oriented (W s) s) s.min s.max (vs s)

/-- The accuracy of everything a solver on the mesh is built from: η functions accurate to `σ`, coefficients accurate to `τ`, and
`τ + (number of sectors) · σ ≤ ε ≤ 1`. Exact ingredients have `ε = 0`. -/
def AccurateTo (ε : ℝ) (W : Sec ℝ → ℝ → ℝ) (secs : List (Sec ℝ)) (eta : ℕ → ℝ → ℕ → ℝ) (vs : Sec ℝ → ℕ → ℝ) : Prop :=
  ε ≤ 1 ∧ ∃ σ τ, EtaWithin σ eta ∧ CoeffsWithin τ W secs vs ∧ τ + secs.length * σ ≤ ε

/-- Steps of at most `eps` are skipped (in the code `EPS = 10⁻¹²`). `x`, if it lies inside the sector `[a, b]` at most `eps` from an end,
is at most `d` from it. Holds for every `x` with `d = eps`, and with `d = 0` for a mesh point and for every point farther
than `eps` from the mesh points. -/
def Skips (eps d a b x : ℝ) : Prop := a < x → x < b → (x - a ≤ eps → x - a ≤ d) ∧ (b - x ≤ eps → b - x ≤ d)

/-- `y`, with derivative `dy`, solves `y'' = (V - E) y` on every sector; being single functions they are continuously joined. -/
def SolvesMesh (W : Sec ℝ → ℝ → ℝ) (E : ℝ) (secs : List (Sec ℝ)) (y dy : ℝ → ℝ) : Prop :=
  ∀ s ∈ secs, SolvesOn (W s) E s.min s.max y dy

/-- `z`, with derivative `dz`, solves the equation differentiated with respect to the energy, `z'' = (V - E) z - y`, on every sector. -/
def EnergyMesh (W : Sec ℝ → ℝ → ℝ) (E : ℝ) (secs : List (Sec ℝ)) (y z dz : ℝ → ℝ) : Prop :=
  ∀ s ∈ secs, EnergyOn (W s) E s.min s.max y z dz

/-- `E` is an exact eigenvalue of the problem on the mesh: there is a solution, not identically zero, whose values `(y, y')` are
proportional to `L` at `dmin` and to `R` at `dmax`. -/
def IsEigenvalue (W : Sec ℝ → ℝ → ℝ) (secs : List (Sec ℝ)) (dmin dmax : ℝ) (L R : ℝ × ℝ) (E : ℝ) : Prop :=
  ∃ y dy : ℝ → ℝ, SolvesMesh W E secs y dy ∧ (∃ x ∈ Set.Icc dmin dmax, y x ≠ 0) ∧
    y dmin * L.2 = dy dmin * L.1 ∧ y dmax * R.2 = dy dmax * R.1

/-- `E` is an eigenvalue of `-y'' + V y = E y` on `[a, b]`: there is a solution, not identically zero, whose values `(y, y')` are
proportional to `L` at `a` and to `R` at `b`. -/
def IsEigenvalueOn (V : ℝ → ℝ) (a b : ℝ) (L R : ℝ × ℝ) (E : ℝ) : Prop :=
  ∃ y dy : ℝ → ℝ, SolvesOn V E a b y dy ∧ (∃ x ∈ Set.Icc a b, y x ≠ 0) ∧ y a * L.2 = dy a * L.1 ∧ y b * R.2 = dy b * R.1

/-- `vs s` are the Legendre coefficients of `V`, accurate to `τ`, for every sector `s` of width at most `H` inside `[a, b]`. -/
def SectorCoeffs (τ : ℝ) (V : ℝ → ℝ) (a b H : ℝ) (vs : Sec ℝ → ℕ → ℝ) : Prop :=
  ∀ s : Sec ℝ, a ≤ s.min → s.min < s.max → s.max ≤ b → s.max - s.min ≤ H → CoeffWithin τ (oriented V s) s.min s.max (vs s)

end Verif
