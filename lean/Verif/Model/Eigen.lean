import Verif.Model.Propagate
import Verif.Model.Eta

/-!
# Model of the eigenfunction constructor
`matslise/matslise/matslise.cpp:192-226` (`propagationSteps`) and `:240-252` (`MEigenfunction`)
-/
namespace Verif.Eigen
open Verif.Mesh Verif.YT Verif.Propag

section ops
variable {K : Type} [Add K] [Sub K] [Mul K] [Div K] [Neg K] [Zero K] [One K] [CCmp K]

/-- `for (i = 0; i <= matchIndex; ++i) ys[i + 1] = sectors[i]->propagate<false>(E, ys[i], min, max)` —
matslise.cpp:197-200; `k` rounds. `ys` is the vector as a function of the index. -/
def forwardLoop (P : Prob K) (E : K) : (k : Nat) → (Nat → Y K) → Outcome (Nat → Y K)
  | 0, ys => .ok ys
  | k + 1, ys => do
    let ys ← forwardLoop P E k ys
    match P.secs[k]? with
    | none => .ub "sectors[i] out of range"
    | some s => pure (fun j => if j = k + 1 then (s.propagate E true (ys k) s.min s.max).1 else ys j)

/-- `for (i = sectorCount - 1; i > matchIndex; --i) ys[i] = sectors[i]->propagate<false>(E, ys[i + 1], max, min)` —
matslise.cpp:204-207; `k` rounds, the first for `i = n - 1`. -/
def backwardLoop (P : Prob K) (E : K) (n : Nat) : (k : Nat) → (Nat → Y K) → Outcome (Nat → Y K)
  | 0, ys => .ok ys
  | k + 1, ys => do
    let ys ← backwardLoop P E n k ys
    match P.secs[n - 1 - k]? with
    | none => .ub "sectors[i] out of range"
    | some s => pure (fun j => if j = n - 1 - k then (s.propagate E true (ys (n - 1 - k + 1)) s.max s.min).1 else ys j)

/-- The factor for the right part — matslise.cpp:210-211. -/
def matchFactor (yl yr : Y K) : K :=
  if CCmp.lt (Eta.absK yr.dy + Eta.absK yl.dy) (Eta.absK yr.y + Eta.absK yl.y) then yl.y / yr.y else yl.dy / yr.dy

/-- The squared norm — matslise.cpp:212-213. -/
def squaredNorm (yl yr : Y K) : K :=
  let s := matchFactor yl yr
  (yl.yE * yl.dy - yl.dyE * yl.y) - s * s * (yr.yE * yr.dy - yr.dyE * yr.y)

/-- `norm` — matslise.cpp:214-219. -/
def normOf (sqrt : K → K) (yl yr : Y K) : K :=
  if CCmp.lt 0 (squaredNorm yl yr) then sqrt (squaredNorm yl yr) else CCmp.lit 1

/-- `propagationSteps` — matslise.cpp:192-226. -/
def propagationSteps (sqrt : K → K) (P : Prob K) (E : K) (left right : Y K) : Outcome (List (Y K)) := do
  let n := P.secs.length
  let m := P.matchIndex
  let ys ← forwardLoop P E (m + 1) (fun j => if j = 0 then left else ⟨0, 0, 0, 0⟩)
  let yl := ys (m + 1)
  let ys ← backwardLoop P E n (n - 1 - m) (fun j => if j = n then right else ys j)
  let yr := ys (m + 1)
  let s := matchFactor yl yr
  let norm := normOf sqrt yl yr
  return (List.range (n + 1)).map (fun i => if i ≤ m then (ys i).smul (CCmp.lit 1 / norm) else (ys i).smul (s / norm))

/-- `MEigenfunction` — matslise.cpp:240-252: values are the pairs `(y, y')`. -/
def eigenfunction (sqrt : K → K) (P : Prob K) (E : K) (left right : Y K) : Outcome (EigenObj K (K × K) (Y K)) := do
  let steps ← propagationSteps sqrt P E left right
  return {
    secs := P.mesh
    dmin := P.dmin
    dmax := P.dmax
    steps := steps
    prop := fun i y a b => match P.secs[i]? with
      | none => (0, 0)
      | some s => let r := (s.propagate E true y a b).1
        (r.y, r.dy) }

end ops
end Verif.Eigen
