import Verif.Model.Lookup
import Mathlib.Data.Matrix.Mul
import Mathlib.LinearAlgebra.Matrix.NonsingularInverse

/-!
# Model of `Matscs` (coupled systems)
`matslise/matscs/matscs.cpp`, `matslise/matscs/sector.cpp`, `matslise/util/y.h` for dynamic dimension
-/
namespace Verif.Matscs
open Verif.Mesh

/-- A coupled-system sector as propagation sees it (matscs.h:75-118), over an arbitrary type `S` of
columns: `mul E δ use_h y` is `calculateT(E, δ, use_h) * y` and `div E δ use_h y` is `calculateT(E, δ, use_h) / y`
(sector.cpp:95-112, y.h:154-175). -/
structure GSec (K S : Type) extends Sec K where
  h : K
  mul : K → K → Bool → S → S
  div : K → K → Bool → S → S

section ops
variable {K S : Type} [Sub K] [Neg K] [Zero K] [Add K] [CCmp K]

/-- `propagateDeltaColumn` — matscs/sector.cpp:114-138; `rev` is `Y::reverse`. -/
def GSec.propagateDelta (rev : S → S) (s : GSec K S) (E : K) (useH : Bool) (y : S) (delta : K) : S :=
  let delta := if s.dir = .backward then -delta else delta
  let rightDirection := CCmp.le 0 delta
  let delta := if rightDirection then delta else -delta
  let delta := if CCmp.lt s.h delta then s.h else delta
  let y := if s.dir = .backward then rev y else y
  let y := if rightDirection then s.mul E delta useH y else s.div E delta useH y
  if s.dir = .backward then rev y else y

/-- `Sector::propagateColumn` — matscs/sector.cpp:194-215. -/
def GSec.propagate (rev : S → S) (s : GSec K S) (E : K) (useH : Bool) (y : S) (a b : K) : S :=
  if !((CCmp.le s.max a && CCmp.le s.max b) || (CCmp.le a s.min && CCmp.le b s.min)) then
    if s.dir = .forward then
      let y := if CCmp.lt s.min a then s.propagateDelta rev E useH y (s.min - a) else y
      if CCmp.lt s.min b then s.propagateDelta rev E useH y (b - s.min) else y
    else
      let y := if CCmp.lt a s.max then s.propagateDelta rev E useH y (s.max - a) else y
      if CCmp.lt b s.max then s.propagateDelta rev E useH y (b - s.max) else y
  else y

/-- `Sector::propagate` — matscs/sector.cpp:217-245, with the angle increment of `propagateDelta`
(sector.cpp:159-192, complex eigenvalues of a matrix) as the parameter `dArg y₀ y₁ δ`. -/
def GSec.propagateArg (rev : S → S) (dArg : S → S → K → K) (s : GSec K S) (E : K) (useH : Bool) (y : S) (a b : K) : S × K :=
  let pd : S × K → K → S × K := fun st δ =>
    let y1 := s.propagateDelta rev E useH st.1 δ
    (y1, st.2 + dArg st.1 y1 δ)
  let st : S × K := (y, 0)
  if !((CCmp.le s.max a && CCmp.le s.max b) || (CCmp.le a s.min && CCmp.le b s.min)) then
    if s.dir = .forward then
      let st := if CCmp.lt s.min a then pd st (s.min - a) else st
      if CCmp.lt s.min b then pd st (b - s.min) else st
    else
      let st := if CCmp.lt a s.max then pd st (s.max - a) else st
      if CCmp.lt b s.max then pd st (b - s.max) else st
  else st

/-- The `do … while` loop shared (textually) by `propagateColumn`, `propagate` and `propagatePsi` —
matscs.cpp:22-28, 43-50, 62-68: apply the body in sector `i`, stop if the sector contains `b`. -/
def walkG (secs : List (Sec K)) (body : Nat → S → S) (a b : K) : (fuel : Nat) → (i : Int) → S → Outcome S
  | fuel, i, st =>
    if 0 ≤ i then
      match secs[i.toNat]? with
      | none => .ub "sectors[sectorIndex] out of range"
      | some s =>
        let st := body i.toNat st
        if s.contains b then .ok st
        else
          let i' := if CCmp.lt a b then i + 1 else i - 1
          if 0 ≤ i' ∧ i' < secs.length then
            match fuel with
            | 0 => .timeout
            | fuel + 1 => walkG secs body a b fuel i' st
          else .ok st
    else .ub "sectors[-1]"

/-- A coupled problem: sectors, domain — matscs.h:29-35. -/
structure GProb (K S : Type) where
  secs : List (GSec K S)
  xmin : K
  xmax : K

/-- the mesh -/
def GProb.mesh (P : GProb K S) : List (Sec K) := P.secs.map GSec.toSec

/-- One loop body of `propagateColumn` — matscs.cpp:23-24. -/
def GProb.body (rev : S → S) (P : GProb K S) (E : K) (useH : Bool) (a b : K) (k : Nat) (y : S) : S :=
  match P.secs[k]? with
  | none => y
  | some s => s.propagate rev E useH y a b

/-- `Matscs::propagateColumn` — matscs.cpp:11-31. -/
def GProb.propagateColumn (rev : S → S) (P : GProb K S) (E : K) (y : S) (a b : K) (useH : Bool := true) : Outcome S :=
  if !(Mesh.domainContains P.xmin P.xmax a) || !(Mesh.domainContains P.xmin P.xmax b) then
    .throws "Matscs::propagate(): a and b should be in the interval"
  else do
    let i ← findSector P.mesh a
    walkG P.mesh (P.body rev E useH a b) a b P.secs.length i y

/-- One loop body of `propagate` — matscs.cpp:44-46. -/
def GProb.bodyArg (rev : S → S) (dArg : Nat → K → S → S → K → K) (P : GProb K S) (E : K) (useH : Bool) (a b : K) (k : Nat) (st : S × K) : S × K :=
  match P.secs[k]? with
  | none => st
  | some s =>
    let r := s.propagateArg rev (dArg k E) E useH st.1 a b
    (r.1, st.2 + r.2)

/-- `Matscs::propagate` — matscs.cpp:33-54. -/
def GProb.propagate (rev : S → S) (dArg : Nat → K → S → S → K → K) (P : GProb K S) (E : K) (y : S) (a b : K) (useH : Bool := true) : Outcome (S × K) :=
  if !(Mesh.domainContains P.xmin P.xmax a) || !(Mesh.domainContains P.xmin P.xmax b) then
    .throws "Matscs::propagate(): a and b should be in the interval"
  else do
    let i ← findSector P.mesh a
    walkG P.mesh (P.bodyArg rev dArg E useH a b) a b P.secs.length i (y, 0)

end ops

/-! ### Columns and transfer matrices of dynamic dimension -/

/-- `Y<Scalar, Dynamic, r>`: the blocks `(y, y')` (`y()`, 2n rows) and `(∂y/∂E, ∂y'/∂E)` (`ydE()`, 2n rows) with `r`
columns — y.h:13-122. Row `inl i` is component `i` of the value, `inr i` of its derivative. -/
structure Yn (n r : Nat) (K : Type) where
  y : Matrix (Fin n ⊕ Fin n) (Fin r) K
  yE : Matrix (Fin n ⊕ Fin n) (Fin r) K

/-- `T<Scalar, Dynamic>` — y.h:139-153. -/
structure Tn (n : Nat) (K : Type) where
  t : Matrix (Fin n ⊕ Fin n) (Fin n ⊕ Fin n) K
  dt : Matrix (Fin n ⊕ Fin n) (Fin n ⊕ Fin n) K

/-- negate the derivative rows: `block(dX) *= -1` -/
def revRows {n r : Nat} {K : Type} [Neg K] (m : Matrix (Fin n ⊕ Fin n) (Fin r) K) : Matrix (Fin n ⊕ Fin n) (Fin r) K :=
  fun i j => match i with
    | .inl i => m (.inl i) j
    | .inr i => -m (.inr i) j

/-- `Y::reverse` — y.h:33-36. -/
def Yn.reverse {n r : Nat} {K : Type} [Neg K] (u : Yn n r K) : Yn n r K := ⟨revRows u.y, revRows u.yE⟩

section field
variable {n r : Nat} {K : Type} [Field K]

/-- `T * Y` — y.h:154-157. -/
def Tn.mul (A : Tn n K) (u : Yn n r K) : Yn n r K := ⟨A.t * u.y, A.t * u.yE + A.dt * u.y⟩

/-- `T / Y` for dynamic dimension — y.h:168-173. `qr_t.solve(b)` is modelled as `t⁻¹ b`: the exact solution of
`t x = b` for an invertible `t` (for a singular `t` the library divides by zero; not modelled). -/
noncomputable def Tn.div (A : Tn n K) (u : Yn n r K) : Yn n r K :=
  let yinv := A.t⁻¹ * u.y
  ⟨yinv, A.t⁻¹ * u.yE - A.t⁻¹ * (A.dt * yinv)⟩

/-- A sector of a coupled system of `n` equations: `tr E δ use_h` is `calculateT(E, δ, use_h)` (matscs/sector.cpp:61-112),
here a parameter. -/
structure CSec (n : Nat) (K : Type) extends Sec K where
  h : K
  tr : K → K → Bool → Tn n K

/-- A coupled problem — matscs.h:29-35. -/
structure CProb (n : Nat) (K : Type) where
  secs : List (CSec n K)
  xmin : K
  xmax : K

/-- The sector acting on blocks of `r` columns. -/
noncomputable def CSec.toG (r : Nat) (s : CSec n K) : GSec K (Yn n r K) :=
  { s.toSec with h := s.h, mul := fun E δ u y => (s.tr E δ u).mul y, div := fun E δ u y => (s.tr E δ u).div y }

/-- The problem acting on blocks of `r` columns. -/
noncomputable def CProb.toG (r : Nat) (P : CProb n K) : GProb K (Yn n r K) := ⟨P.secs.map (CSec.toG r), P.xmin, P.xmax⟩

/-- `Matscs::propagateColumn<r>` — matscs.cpp:11-31. -/
noncomputable def CProb.propagateColumn [CCmp K] (P : CProb n K) (E : K) (y : Yn n r K) (a b : K) (useH : Bool := true) : Outcome (Yn n r K) :=
  (P.toG r).propagateColumn Yn.reverse E y a b useH

/-- `Matscs::propagate` — matscs.cpp:33-54 (square blocks). `dArg k E y₀ y₁ δ` is the angle increment in sector `k`. -/
noncomputable def CProb.propagate [CCmp K] (P : CProb n K) (dArg : Nat → K → Yn n n K → Yn n n K → K → K) (E : K) (y : Yn n n K) (a b : K) (useH : Bool := true) :
    Outcome (Yn n n K × K) :=
  (P.toG n).propagate Yn.reverse dArg E y a b useH

/-! ### `propagatePsi` -/

/-- `propagatePsi_delta` — matscs/sector.cpp:248-276. `A.transpose().colPivHouseholderQr().solve(B.transpose()).transpose()` is
modelled as `B A⁻¹` and `A.colPivHouseholderQr().solve(B)` as `A⁻¹ B`: the exact solutions for invertible `A` (the least-squares
answer for singular `A` is not modelled). -/
noncomputable def CSec.psiDelta [CCmp K] (s : CSec n K) (E : K) (psi : Matrix (Fin n) (Fin n) K) (delta : K) : Matrix (Fin n) (Fin n) K :=
  let delta := if s.dir = .backward then -delta else delta
  let forward := CCmp.le 0 delta
  let delta := if forward then delta else -delta
  let delta := if CCmp.lt s.h delta then s.h else delta
  let extra : K := if s.dir = .forward then 1 else -1
  if CCmp.lt 0 delta then
    let A := (s.tr E delta true).t
    extra • ((A.toBlocks₁₂ + extra • (A.toBlocks₁₁ * psi)) * (A.toBlocks₂₂ + extra • (A.toBlocks₂₁ * psi))⁻¹)
  else if CCmp.lt delta 0 then
    let A := (s.tr E (-delta) true).t
    extra • ((A.toBlocks₂₂ - extra • (psi * A.toBlocks₁₂))⁻¹ * (extra • (psi * A.toBlocks₁₁) - A.toBlocks₂₁))
  else psi

/-- `Sector::propagatePsi` — matscs/sector.cpp:278-297. -/
noncomputable def CSec.propagatePsi [CCmp K] (s : CSec n K) (E : K) (psi : Matrix (Fin n) (Fin n) K) (a b : K) : Matrix (Fin n) (Fin n) K :=
  if !((CCmp.le s.max a && CCmp.le s.max b) || (CCmp.le a s.min && CCmp.le b s.min)) then
    if s.dir = .forward then
      let psi := if CCmp.lt s.min a then s.psiDelta E psi (s.min - a) else psi
      if CCmp.lt s.min b then s.psiDelta E psi (b - s.min) else psi
    else
      let psi := if CCmp.lt a s.max then s.psiDelta E psi (s.max - a) else psi
      if CCmp.lt b s.max then s.psiDelta E psi (b - s.max) else psi
  else psi

/-- One loop body of `propagatePsi` — matscs.cpp:63-64. -/
noncomputable def CProb.bodyPsi [CCmp K] (P : CProb n K) (E a b : K) (k : Nat) (psi : Matrix (Fin n) (Fin n) K) : Matrix (Fin n) (Fin n) K :=
  match P.secs[k]? with
  | none => psi
  | some s => s.propagatePsi E psi a b

/-- `Matscs::propagatePsi` — matscs.cpp:56-73. There is no domain check: `find_sector` returns -1 outside the domain and
`sectors[-1]` is read. -/
noncomputable def CProb.propagatePsi [CCmp K] (P : CProb n K) (E : K) (psi : Matrix (Fin n) (Fin n) K) (a b : K) : Outcome (Matrix (Fin n) (Fin n) K) := do
  let i ← findSector (P.secs.map CSec.toSec) a
  walkG (P.secs.map CSec.toSec) (P.bodyPsi E a b) a b P.secs.length i psi

/-! ### `Matscs::eigenfunction` -/

/-- The inner loop — matscs.cpp:89-94: `while (*iterator > sector.max) { y = sector.calculateT(E) * y; ++i; if (i >= sectorCount) goto allSectorsDone; }`.
`sector` is a reference bound before the loop and is not updated with `i`. Returns `none` for the jump to `allSectorsDone`;
`fuel` counts iterations. -/
def innerLoop [CCmp K] (s : CSec n K) (E x : K) (count : Nat) : (fuel i : Nat) → Yn n n K → Outcome (Option (Nat × Yn n n K))
  | 0, _, _ => .timeout
  | fuel + 1, i, y =>
    if CCmp.lt s.max x then
      let y := (s.tr E s.h true).mul y
      if count ≤ i + 1 then .ok none else innerLoop s E x count fuel (i + 1) y
    else .ok (some (i, y))

/-- The outer loop — matscs.cpp:87-97. Returns the values pushed and the points not reached. -/
def outerLoop [CCmp K] (P : CProb n K) (E : K) : (xs : List K) → (i : Nat) → Yn n n K → List (Yn n n K) → Outcome (List (Yn n n K) × List K)
  | [], _, _, ys => .ok (ys, [])
  | x :: xs, i, y, ys =>
    match P.secs[i]? with
    | none => .ub "sectors[i] out of range"
    | some s => do
      match ← innerLoop s E x P.secs.length (P.secs.length + 1) i y with
      | none => pure (ys, x :: xs)
      | some (i, y) => outerLoop P E xs i y (ys ++ [(s.tr E (x - s.min) true).mul y])

/-- `Matscs::eigenfunction` — matscs.cpp:75-103: sorts `x`, erases the points left of the domain, starts from `Y(n)` (all zeros,
y.h:38-44) and returns the values; also returned is the modified vector `x`. -/
def eigenfunction [CCmp K] (eps : K) (P : CProb n K) (E : K) (x : List K) : Outcome (List (Yn n n K) × List K) := do
  let x := x.mergeSort (fun a b => CCmp.le a b)
  let x := x.dropWhile (fun p => CCmp.lt p (P.xmin - eps))
  let r ← outerLoop P E x 0 ⟨0, 0⟩ []
  let reached := x.take (x.length - r.2.length)
  return (r.1, reached ++ r.2.dropWhile (fun p => CCmp.lt (P.xmax + eps) p))

end field
end Verif.Matscs
