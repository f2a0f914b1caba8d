import Verif.Model.CalcT
import Verif.Model.Legendre
import Verif.Model.Prufer
import Verif.Model.Propagate

/-!
# Model of a constructed `Matslise` object
`matslise/matslise.h:140-162`, `matslise/matslise/sector.cpp:22-53`

The sectors of a constructed problem, with the numerical content the other models take as a parameter: the coefficients
are sampled from the potential, the transfer matrices computed from the formula tables, the angles by `Model/Prufer`.
-/
namespace Verif.Solver
open Verif.Mesh Verif.YT Verif.CalcT Verif.Propag

/-- `MATSLISE_N` — matslise/formula_constants.h:7 (read by sector.cpp:26). -/
def matsliseN : Nat := 16

/-- The member `vs` after the constructor `Sector(s, min, max, direction)` — sector.cpp:26-30: the coefficients of the
potential on `[min, max]`, odd ones negated for a backward sector. The array has `MATSLISE_N` entries; the value 0 beyond
is never read by the tables of `Model/CalcT`. -/
noncomputable def sectorVs (V : ℝ → ℝ) (s : Sec ℝ) (k : Nat) : ℝ :=
  if k < matsliseN then
    let c := Legendre.getCoefficients matsliseN V s.min s.max k
    if s.dir = .backward then (if k % 2 = 1 then c * -1 else c) else c
  else 0

/-- A constructed sector — sector.cpp:22-53, 55-79, 106-172: `eta` is `calculateEta` (`Model/Eta`), `v` the member `vs`, `eps` the constant `EPS`. -/
noncomputable def sectorOf (eps : ℝ) (eta : Nat → ℝ → Nat → ℝ) (v : Nat → ℝ) (v0Match : ℝ) (s : Sec ℝ) : PSec ℝ where
  toSec := s
  h := s.max - s.min
  tr E delta useH := calculateTWith eps eta (mkSec (s.max - s.min) v) E delta useH
  theta0 := Prufer.theta0 v0Match (v 0)
  prufer := Prufer.pruferHelper v0Match (v 0)

/-- The constructor `Matslise(V, domain, tolerance, sectorBuilder)` — matslise.h:148-162: `r` is the result of the sector
builder, `vs` gives the member `vs` of each sector; `sectors[matchIndex]->vs[0]` is written to every sector. An index outside
the vector reads 0 here (the builders never produce one: C03, C05). -/
noncomputable def constructOf (eps : ℝ) (eta : Nat → ℝ → Nat → ℝ) (vs : Sec ℝ → Nat → ℝ) (dmin dmax : ℝ) (r : BuildResult ℝ) : Prob ℝ :=
  let v0Match := match r.sectors[r.matchIndex]? with
    | some s => vs s 0
    | none => 0
  { secs := r.sectors.map (fun s => sectorOf eps eta (vs s) v0Match s), dmin := dmin, dmax := dmax, matchIndex := r.matchIndex }

/-- The constructor with the coefficients the code samples from the potential — matslise.h:148-162, sector.cpp:26-30. -/
noncomputable def construct (eta : Nat → ℝ → Nat → ℝ) (V : ℝ → ℝ) (dmin dmax : ℝ) (r : BuildResult ℝ) : Prob ℝ :=
  constructOf (CCmp.lit EPS) eta (sectorVs V) dmin dmax r

end Verif.Solver
