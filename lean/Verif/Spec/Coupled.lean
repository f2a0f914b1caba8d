import Verif.Spec.Smooth
import Verif.Spec.LegendreCoeff
import Verif.Spec.Accuracy
import Verif.Model.MatscsCalc
import Verif.Props.Lookup
import Mathlib.Algebra.Order.Round
import Mathlib.LinearAlgebra.Matrix.IsDiag

/-!
# Specification: coupled systems `Y'' = (V - E) Y`
-/
namespace Verif
open Verif.MFormulas

variable {n r : ℕ}

/-- The columns `y`, with derivative `dy`, solve `y'' = (V - E) y` on `[a, b]`. -/
structure MSolvesOn (V : ℝ → Mat n ℝ) (E a b : ℝ) (y dy : ℝ → Matrix (Fin n) (Fin r) ℝ) : Prop where
  d1 : ∀ x ∈ Set.Icc a b, ∀ i j, HasDerivWithinAt (fun x => y x i j) (dy x i j) (Set.Icc a b) x
  d2 : ∀ x ∈ Set.Icc a b, ∀ i j, HasDerivWithinAt (fun x => dy x i j) (((V x - E • (1 : Mat n ℝ)) * y x : Matrix (Fin n) (Fin r) ℝ) i j) (Set.Icc a b) x

/-- Every entry of the potential has sixteen derivatives bounded by `M` on `[a, b]`. -/
def MSmoothOn (M : ℝ) (V : ℝ → Mat n ℝ) (a b : ℝ) : Prop := ∀ i j, SmoothOn M (fun x => V x i j) a b

/-- `c` holds the first 9 Legendre coefficients of the entries of `V` on `[a, b]`, scaled by `(b - a)^k`, up to `τ`. -/
def MCoeffWithin (τ : ℝ) (V : ℝ → Mat n ℝ) (a b : ℝ) (c : ℕ → Mat n ℝ) : Prop :=
  ∀ k < 9, ∀ i j, |c k i j * (b - a) ^ k - legendreCoeff (fun x => V x i j) a b k| ≤ τ

/-- `Q` is orthogonal and brings `c` to diagonal form. -/
structure Diagonalizes (Q c : Mat n ℝ) : Prop where
  orth : Q.transpose * Q = 1
  diag : (Q.transpose * c * Q).IsDiag

/-- The multiple of `1 / 40320` next to a literal of the formula tables. -/
noncomputable def exactLit (t : MTerm) : ℝ := round ((t.num : ℚ) / 10 ^ t.dec * 40320) / 40320

/-- `t` is a term of one of the formula tables. -/
def InTables (t : MTerm) : Prop := ∃ e, (e ∈ tH ∨ ∃ row ∈ tDelta, e ∈ row) ∧ ∃ p ∈ e.a ++ e.b ++ e.c ++ e.d, t ∈ p.2

/-- The values `q` of the literals are within the relative distance `ρ` of the multiples of `1 / 40320` next to them, and those of
multiples of the identity matrix are exact. -/
def LitWithin (ρ : ℝ) (q : MTerm → ℝ) : Prop :=
  0 ≤ ρ ∧ ∀ t, InTables t → |q t - exactLit t| ≤ ρ * |exactLit t| ∧ (t.w = [] → q t = exactLit t)

/-- The potential seen by a sector: a backward sector starts from its right end. -/
def orientM (V : ℝ → Mat n ℝ) (s : Mesh.Sec ℝ) : ℝ → Mat n ℝ := if s.dir = .backward then fun x => V (s.min + s.max - x) else V

/-- A mesh of `[dmin, dmax]` fit for the coupled potential that is `W s` on the sector `s`: sectors wider than `eps ≥ 0` (the code's
`EPS = 10⁻¹²`) and at most `H ≤ 1` wide, each with a direction, and the entries of `W s` with sixteen derivatives bounded by `M` up to
the ends of `s` (the potential may jump at mesh points). -/
structure MFitMesh (eps M H : ℝ) (W : Mesh.Sec ℝ → ℝ → Mat n ℝ) (dmin dmax : ℝ) (secs : List (Mesh.Sec ℝ)) : Prop where
  mesh : Mesh.IsMesh secs dmin dmax
  directed : ∀ s ∈ secs, s.dir ≠ .none
  eps_nonneg : 0 ≤ eps
  wide : ∀ s ∈ secs, eps < s.max - s.min
  narrow : ∀ s ∈ secs, s.max - s.min ≤ H
  small : H ≤ 1
  smooth : ∀ s ∈ secs, MSmoothOn M (W s) s.min s.max

/-- The columns `y`, with derivative `dy`, solve `y'' = (V - E) y` on every sector. -/
def MSolvesMesh (W : Mesh.Sec ℝ → ℝ → Mat n ℝ) (E : ℝ) (secs : List (Mesh.Sec ℝ)) (y dy : ℝ → Matrix (Fin n) (Fin r) ℝ) : Prop :=
  ∀ s ∈ secs, MSolvesOn (W s) E s.min s.max y dy

/-- The accuracy of everything a coupled problem on the mesh is built from: literals of the formulas accurate to `ρ`, η functions
to `σ`, coefficients to `τ`, orthogonal matrices that diagonalize the mean value, and `ρ + τ + (number of sectors) · σ ≤ ε ≤ 1`. -/
def MAccurateTo (ε : ℝ) (W : Mesh.Sec ℝ → ℝ → Mat n ℝ) (secs : List (Mesh.Sec ℝ)) (q : MTerm → ℝ) (eta : ℕ → ℝ → ℕ → ℝ)
    (vs : Mesh.Sec ℝ → ℕ → Mat n ℝ) (Q : Mesh.Sec ℝ → Mat n ℝ) : Prop :=
  ε ≤ 1 ∧ ∃ ρ σ τ, LitWithin ρ q ∧ EtaWithin σ eta ∧ 0 ≤ τ ∧
    (∀ s ∈ secs, MCoeffWithin τ (W s) s.min s.max (vs s) ∧ Diagonalizes (Q s) (vs s 0)) ∧ ρ + τ + secs.length * σ ≤ ε

end Verif
