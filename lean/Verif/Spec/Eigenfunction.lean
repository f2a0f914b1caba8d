import Verif.Spec.Problem
import Mathlib.MeasureTheory.Integral.IntervalIntegral.Basic

/-!
# Specification: the normalised eigenfunction
-/
namespace Verif.Spec
open Verif.Mesh

/-- `u`, with derivative `du`, is an eigenfunction of `-u'' + V u = lam u` with the boundary conditions `L` and `R`, normalised in `L²`: it solves the equation
on every sector, its values at the ends of the domain are proportional to the boundary values, and the integral of its square is one. -/
structure IsEigenfunction (W : Sec ℝ → ℝ → ℝ) (secs : List (Sec ℝ)) (dmin dmax : ℝ) (L R : ℝ × ℝ) (lam : ℝ) (u du : ℝ → ℝ) : Prop where
  solves : SolvesMesh W lam secs u du
  left : u dmin * L.2 = du dmin * L.1
  right : u dmax * R.2 = du dmax * R.1
  norm : ∫ t in dmin..dmax, u t * u t = 1

end Verif.Spec
