import Verif.Basic.Scalar
import Verif.Model.YT

/-!
# Model of the formula tables — `matslise/matslise/matslise_formulas.cpp`

The tables are data (generated by `tools/gen_formulas.py`, which parses the C++ source); this file gives
the data types and their meaning.
-/
namespace Verif.Formulas
open Verif.YT

/-- One term `(Scalar(num)/Scalar(den)) * v_i * v_j * …`. -/
structure Term where
  num : Int
  den : Nat
  vs : List Nat
deriving DecidableEq

/-- positive coefficient `n / d` -/
def Term.p (n d : Nat) (vs : List Nat) : Term := ⟨Int.ofNat n, d, vs⟩
/-- negative coefficient `-n / d` -/
def Term.m (n d : Nat) (vs : List Nat) : Term := ⟨-(Int.ofNat n), d, vs⟩

/-- A table entry: the coefficients of a Horner form in `h`, each a sum of terms. -/
abbrev Entry := List (List Term)

/-- One 2x2 matrix of entries, in the order of Eigen's comma initialiser (row by row). -/
structure Entry4 where
  a : Entry
  b : Entry
  c : Entry
  d : Entry

section ops
variable {K : Type} [Add K] [Mul K] [Div K] [Zero K] [One K] [CCmp K]

/-- `v_i * v_j * …` (the factors of the product variables are multiplied in some order; exact
arithmetic does not distinguish them) -/
def prodV (v : Nat → K) : List Nat → K
  | [] => 1
  | i :: l => v i * prodV v l

/-- The value of a term. -/
def Term.val (v : Nat → K) (t : Term) : K := CCmp.lit (t.num : ℚ) / CCmp.lit (t.den : ℚ) * prodV v t.vs

/-- The value of a coefficient. -/
def coeffVal (v : Nat → K) : List Term → K
  | [] => 0
  | t :: l => t.val v + coeffVal v l

/-- The value of an entry: `c0 + h*(c1 + h*(…))`. -/
def entryVal (v : Nat → K) (h : K) : Entry → K
  | [] => 0
  | c :: l => coeffVal v c + h * entryVal v h l

/-- The value of a matrix. -/
def Entry4.val (v : Nat → K) (h : K) (e : Entry4) : M2 K :=
  ⟨entryVal v h e.a, entryVal v h e.b, entryVal v h e.c, entryVal v h e.d⟩

end ops
end Verif.Formulas
