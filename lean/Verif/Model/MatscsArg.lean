import Verif.Model.MatscsCalc
import Verif.Model.Prufer
import Mathlib.LinearAlgebra.Matrix.Charpoly.Basic
import Mathlib.Algebra.Polynomial.Roots

/-!
# Model of the angle returned by `Matscs::propagate`
`matslise/matscs/sector.cpp:140-192`

The angle increment of one step. The walk over the sectors that adds them up is in `Model/Matscs` (`GProb.propagate`).
-/
namespace Verif.Matscs
open Verif.Prufer

variable {n : Nat}

/-- the block `y` — y.h:13-122 -/
def Yn.valC (u : Yn n n ℝ) : Matrix (Fin n) (Fin n) ℂ := Matrix.of fun i j => ((u.y (.inl i) j : ℝ) : ℂ)
/-- the block `y'` — y.h:13-122 -/
def Yn.derC (u : Yn n n ℝ) : Matrix (Fin n) (Fin n) ℂ := Matrix.of fun i j => ((u.y (.inr i) j : ℝ) : ℂ)

/-- `Sector::theta` — matscs/sector.cpp:140-147: `A.transpose().partialPivLu().solve(B.transpose()).transpose()` is `B A⁻¹` with
`A = y' - i y`, `B = y' + i y` (for a singular `A` the library divides by zero; not modelled). -/
noncomputable def theta (u : Yn n n ℝ) : Matrix (Fin n) (Fin n) ℂ :=
  (u.derC + Complex.I • u.valC) * (u.derC - Complex.I • u.valC)⁻¹

/-- `std::arg`, plus `2π` where that is not positive — matscs/sector.cpp:151-156. -/
noncomputable def posArg (z : ℂ) : ℝ := if z.arg ≤ 0 then z.arg + Real.pi * 2 else z.arg

/-- `angle<Scalar>(m).sum()` — matscs/sector.cpp:149-158: the eigenvalues with multiplicity, i.e. the roots of the characteristic
polynomial. -/
noncomputable def angleSum (m : Matrix (Fin n) (Fin n) ℂ) : ℝ := (m.charpoly.roots.map posArg).sum

/-- The body of the loop over the components — matscs/sector.cpp:171-180; `e0`, `e1` are `eta(0, i)`, `eta(1, i)`. -/
noncomputable def constTurn (e0 e1 Z d : ℝ) : ℝ :=
  if Z < 0 then
    let sZ := (if d < 0 then -1 else 1) * Real.sqrt (-Z)
    sZ + atan2 ((d - sZ) * e1 * e0) (1 + (d * sZ + Z) * e1 * e1)
  else atan2 (d * e1) e0

/-- `d = (delta > h ? h : delta < -h ? -h : delta)` — matscs/sector.cpp:165. -/
noncomputable def clipD (h delta : ℝ) : ℝ := if h < delta then h else if delta < -h then -h else delta

/-- `argdet` as computed by `Sector::propagateDelta` — matscs/sector.cpp:160-192 — from `vs[0].diagonal()` (`v0`), the column blocks before
and after the step. `eta N Z i` is `calculateEta<Scalar, N>(Z)[i]`. -/
noncomputable def argInc (eta : Nat → ℝ → Nat → ℝ) (h : ℝ) (v0 : Fin n → ℝ) (E : ℝ) (y0 y1 : Yn n n ℝ) (delta : ℝ) : ℝ :=
  let d := clipD h delta
  let Z : Fin n → ℝ := fun j => d * d * (v0 j - E)
  let e : Nat → Fin n → ℝ := fun i j => eta 2 (Z j) i
  let argdet := (∑ j, constTurn (e 0 j) (e 1 j) (Z j) d) * 2
  let D : Matrix (Fin n) (Fin n) ℂ :=
    Matrix.diagonal fun j => ((e 0 j : ℂ) + Complex.I * d * e 1 j) / ((e 0 j : ℂ) - Complex.I * d * e 1 j)
  argdet + (angleSum (theta y1) - angleSum (D * theta y0))

/-- The angle increments in the sectors of a problem: `v0 k` is `vs[0].diagonal()` of sector `k`. -/
noncomputable def incs (eta : Nat → ℝ → Nat → ℝ) (P : CProb n ℝ) (v0 : Nat → Fin n → ℝ) (k : Nat) (E : ℝ) (y0 y1 : Yn n n ℝ) (delta : ℝ) : ℝ :=
  match P.secs[k]? with
  | none => 0
  | some s => argInc eta s.h (v0 k) E y0 y1 delta

/-- `vs[0].diagonal()` of the sectors of a problem — matscs/sector.cpp:22-37, 166. -/
noncomputable def diagV0 (vs : Mesh.Sec ℝ → Nat → MFormulas.Mat n ℝ) (Q : Mesh.Sec ℝ → MFormulas.Mat n ℝ) (secs : List (Mesh.Sec ℝ)) (k : Nat) : Fin n → ℝ :=
  match secs[k]? with
  | none => fun _ => 0
  | some s => fun j => (MFormulas.mkMSec (vs s) (Q s) s).vs 0 j j

end Verif.Matscs
