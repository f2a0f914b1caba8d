import Verif.Model.Mesh
import Verif.Model.Lookup

/-!
# Model of the argument handling of the Python and JavaScript bindings
`matslise/pyslise/pyslise.cpp`, `matslise/pyslise/pyscs.cpp`, `matslise/js/matslise.cpp`
-/
namespace Verif.Bindings
open Verif.Mesh

section any
variable {K : Type} [CCmp K]

/-- The jump list handed to the mesh builder — pyslise.cpp:135-139, 233-237 and pyscs.cpp:23-27: the jumps with
`xmin < jump && jump < xmax`, then `std::sort`. `std::sort` is modelled as a stable merge sort with `!(b < a)`; on values
that are equal under `<` the order is not observable. -/
def pyJumps (xmin xmax : K) (jumps : List K) : List K :=
  (jumps.filter (fun j => CCmp.lt xmin j && CCmp.lt j xmax)).mergeSort (fun a b => !(CCmp.lt b a))

/-- The mesh builders a constructor can choose. -/
inductive Builder (K : Type) where
  | automatic (tolerance : K) (jumps : List K)
  | uniform (steps : Int)
deriving DecidableEq, Repr

/-- The `Pyscs` constructor's argument checks — pyscs.cpp:14-31. -/
def pyscsBuilder (xmin xmax : K) (steps : Int) (tolerance : K) (jumps : List K) : Outcome (Builder K) :=
  if steps ≠ -1 ∧ CCmp.eq tolerance (CCmp.lit (-1)) = false then
    .throws "Not both 'steps' and 'tolerance' can be set."
  else if steps = -1 ∧ CCmp.eq tolerance (CCmp.lit (-1)) = true then
    .throws "One of 'steps' and 'tolerance' must be set."
  else if steps ≠ -1 ∧ jumps ≠ [] then
    .throws "When a fixed number of steps is specified, jump-positions are not supported."
  else if CCmp.le (CCmp.lit 0) tolerance then .ok (.automatic tolerance (pyJumps xmin xmax jumps))
  else .ok (.uniform steps)

/-- The `Pyslise` and `PyslisePeriodic` constructors — pyslise.cpp:132-141, 228-239 (the determinant check of the latter is C33's). -/
def pysliseBuilder (xmin xmax tolerance : K) (jumps : List K) : Builder K := .automatic tolerance (pyJumps xmin xmax jumps)

/-- Running the chosen builder (`sectorBuilder(this, xmin, xmax)`, matscs.h:40-49, matslise.h:150-162). `O tol` are the error estimates. -/
def Builder.run [Add K] [Sub K] [Mul K] [Div K] (fuel : Nat) (O : K → ErrOracle K) (cmp : Sec K → Sec K → Bool) (xmin xmax : K) :
    Builder K → Outcome (BuildResult K)
  | .automatic tol js => autoBuild fuel (O tol) cmp js xmin xmax
  | .uniform n => uniformBuild cmp n xmin xmax

/-- `sectorPoints` of `Matslise` — js/matslise.cpp:69-75: `for (int i = 1; i < ms.sectorCount; ++i) push(ms.sectors[i]->min)`. -/
def sectorPoints (secs : List (Sec K)) : List K :=
  (List.range' 1 (secs.length - 1)).filterMap (fun i => secs[i]?.map Sec.min)

/-- `sectorPoints` of `MatsliseHalf` — js/matslise.cpp:83-89: the same for the inner problem on `[0, xmax]`. -/
def sectorPointsHalf (inner : List (Sec K)) : List K := sectorPoints inner

end any
end Verif.Bindings
