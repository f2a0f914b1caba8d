import Verif.Model.YT

/-!
# Model of the formula tables of coupled systems — `matslise/matscs/matscs_formulas.cpp`

The tables are data (generated by `tools/gen_matscs.py`, which parses the C++ source); this file gives the data types.
-/
namespace Verif.MFormulas

/-- One term `c*v_i_v_j_…` with the decimal literal `c = num / 10^dec` and the word `i, j, …` of the matrix product
`v_i * v_j * …` (the matrices do not commute). The empty word is `MatrixXs::Identity(n, n)`. -/
structure MTerm where
  num : Int
  dec : Nat
  w : List Nat
deriving DecidableEq

/-- A block: a sum of pieces `h^p * (terms)`. -/
abbrev MEntry := List (Nat × List MTerm)

/-- The four blocks `(0,0), (0,n), (n,0), (n,n)` of a `2n × 2n` matrix. -/
structure MEntry4 where
  a : MEntry
  b : MEntry
  c : MEntry
  d : MEntry

end Verif.MFormulas
