import Verif.Model.Solver
import Mathlib.Analysis.SpecialFunctions.Pow.Real

/-!
# Model of the local error estimate of a sector and of the automatic mesh that uses it
`matslise/matslise/sector.cpp:231-250`, `matslise/util/sectorbuilder.cpp:55-186`

`Model/Mesh` takes the estimate as an oracle; here it is computed from the transfer matrices and the coefficients.
-/
namespace Verif.Solver
open Verif.Mesh Verif.YT Verif.CalcT

/-- `e_loc0` — sector.cpp:233-236: the entrywise difference of the two full-step matrices at the energy `vs[0]`, scaled by
`(1, 1/h; h, 1)`. `calculateT(vs[0], false)` is the partial step of length `h` (sector.cpp:82-83), which is the identity
for `h ≤ eps`. -/
noncomputable def eLoc0 (eps : ℝ) (eta : Nat → ℝ → Nat → ℝ) (h : ℝ) (v : Nat → ℝ) : ℝ :=
  let a := (calcH eta (mkSec h v) (v 0)).t
  let b := (calculateTWith eps eta (mkSec h v) (v 0) h false).t
  max (max |(a.a - b.a) * 1| |(a.b - b.b) * (1 / h)|) (max |(a.c - b.c) * h| |(a.d - b.d) * 1|)

/-- `e_locu` — sector.cpp:240-242. -/
noncomputable def eLocU (h : ℝ) (v : Nat → ℝ) : ℝ :=
  24 / 10000 * |v 15| * h ^ 12 * h * h * h + 25 / 1000000 * v 7 * v 7 * h ^ 12 * h * h +
    (18 / 1000000 * |v 3 * v 10| + 2 / 100000 * |v 2 * v 11| + 6 / 1000000 * |v 5 * v 8| + 4 / 1000000 * |v 4 * v 9|) * h ^ 12 * h

/-- `e_locup` — sector.cpp:243-245. -/
noncomputable def eLocUp (h : ℝ) (v : Nat → ℝ) : ℝ :=
  (2 / 10000 * v 7 * v 7 + 3 / 10000 * |v 5 * v 9| + 3 / 10000 * |v 6 * v 8| + 6 / 10000 * |v 1 * v 13| +
    5 / 10000 * |v 2 * v 12| + 4 / 10000 * |v 3 * v 11|) * h ^ 12 * h * h

/-- `e_locv` — sector.cpp:246. -/
noncomputable def eLocV (h : ℝ) (v : Nat → ℝ) : ℝ :=
  2 / 10000 * |v 14| * h ^ 12 * h * h + 1 / 100000 * v 6 * v 6 * h ^ 12

/-- `Sector::error()` — sector.cpp:231-250 (`MATSLISE_N` is 16, so the early return of line 237 is not compiled). -/
noncomputable def sectorError (eps : ℝ) (eta : Nat → ℝ → Nat → ℝ) (h : ℝ) (v : Nat → ℝ) : ℝ :=
  max (eLoc0 eps eta h v) (max (eLocU h v) (max (eLocUp h v) (eLocV h v)))

/-- What `automaticNextSector` sees of a sector with coefficients `vs s` — sectorbuilder.cpp:72, 85, 120. A sector of width 0
gives NaN (`0 * (1 / 0)`). -/
noncomputable def errOf (eps : ℝ) (eta : Nat → ℝ → Nat → ℝ) (vs : Sec ℝ → Nat → ℝ) (s : Sec ℝ) : Option ℝ :=
  if s.max - s.min = 0 then none else some (sectorError eps eta (s.max - s.min) (vs s))

/-- The oracle of `Model/Mesh` for this estimate: `order = 16` (matslise.h:125), so the exponent is `1 / 15`. -/
noncomputable def errOracle (eps : ℝ) (eta : Nat → ℝ → Nat → ℝ) (vs : Sec ℝ → Nat → ℝ) (tol : ℝ) : ErrOracle ℝ :=
  ErrOracle.ofError (errOf eps eta vs) (fun x => x ^ (1 / (((14 : ℕ) : ℝ) + 1))) tol

/-- `AutomaticSectorBuilder<Matslise>(tolerance, jumps)(problem, min, max)` — sectorbuilder.cpp:137-186, with
`Sector::compare` (matslise.h:246-248). -/
noncomputable def autoMeshOf (eps : ℝ) (eta : Nat → ℝ → Nat → ℝ) (vs : Sec ℝ → Nat → ℝ) (tol : ℝ) (fuel : Nat) (jumps : List ℝ)
    (dmin dmax : ℝ) : Outcome (BuildResult ℝ) :=
  autoBuild fuel (errOracle eps eta vs tol) (fun a b => decide (vs a 0 < vs b 0)) jumps dmin dmax

/-- The mesh with the coefficients the code samples from the potential, and `EPS`. -/
noncomputable def autoMesh (eta : Nat → ℝ → Nat → ℝ) (V : ℝ → ℝ) (tol : ℝ) (fuel : Nat) (jumps : List ℝ) (dmin dmax : ℝ) :
    Outcome (BuildResult ℝ) :=
  autoMeshOf (CCmp.lit EPS) eta (sectorVs V) tol fuel jumps dmin dmax

end Verif.Solver
