import Verif.Lemmas.PolyList
import Verif.Model.Legendre

/-! # The identities between the formula tables, as checks evaluated by the kernel -/
namespace Verif.PL
open Verif.Formulas Verif.Legendre

/-- The terms of `ΔV · l`: for `k = 1 … nV`, `j = 0 … k`; of `l` only the terms of order below `N - k`
(`f = low`) or the others (`f = high`). -/
def dVmul (nV : Nat) (f : Nat → PL → PL) (N : Nat) (l : PL) : List PL :=
  (List.range nV).flatMap (fun k => (List.range (k + 2)).map
    (fun j => mulV (k + 1) j (poly (k + 1) j) (f (N - (k + 1)) l)))

/-- `δ c_i - θ a_i - a_{i+1} + (2i-1) a_i`  (the last term for `i ≥ 1`) -/
def rel1 (a c : Nat → PL) (i : Nat) : List PL :=
  [mulDelta (c i), scale (-1) (euler (a i)), scale (-1) (a (i + 1)),
   if i = 0 then [] else scale (2 * i - 1 : Nat) (a i)]

/-- `δ (θ c_i + c_{i+1} - (2i-1) c_i) - a_{i+2} + (2i-1) a_{i+1}` -/
def rel2 (a c : Nat → PL) (i : Nat) : List PL :=
  [mulDelta (euler (c i)), mulDelta (c (i + 1)),
   if i = 0 then [] else scale (-(2 * i - 1 : Nat)) (mulDelta (c i)),
   scale (-1) (a (i + 2)),
   if i = 0 then [] else scale (2 * i - 1 : Nat) (a (i + 1))]

/-- `- δ² a_i` -/
def negDD (a : Nat → PL) (i : Nat) : PL := scale (-1) (mulDelta (mulDelta (a i)))

/-- The two checks for index `i`. -/
def check1 (N : Nat) (a c : Nat → PL) (i : Nat) : Bool := cancels N (rel1 a c i)
def check2 (nV N : Nat) (a c : Nat → PL) (i : Nat) : Bool := cancels N (rel2 a c i ++ dVmul nV low N (negDD a i))

/-- row `i` of a list of rows -/
def ex (l : List PL) (i : Nat) : PL := l.getD i []

/-- Row `i` of `tDelta`. -/
def tRow (i : Nat) : List Entry4 := tDelta.getD i []

/-- The polynomial of one entry of row `i`. -/
def rp (sel : Entry4 → Entry) (i : Nat) : PL := rowPL sel 0 (tRow i)

end Verif.PL
