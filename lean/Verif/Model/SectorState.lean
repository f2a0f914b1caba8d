import Verif.Model.Mesh

/-!
# Model of a sector's stored coefficients under `setDirection`, and of `estimatePotentialMinimum`
`matslise/matslise/sector.cpp:22-53`, `matslise/matscs/sector.cpp:15-54`, `matslise/matslise/matslise.cpp:81-88`
-/
namespace Verif.SectorState
open Verif.Mesh

/-- What a sector stores: its direction, the Legendre coefficients `vs` of the potential as seen along the direction, and the tables computed by
`calculateTCoeffs` (`t_coeff`, `t_coeff_h`); `tc` is `none` before the first computation. `V` is the type of one coefficient (a scalar, or for
coupled systems a matrix in the basis `diagonalize`), `C` the type of the tables. -/
structure St (V C : Type) where
  dir : Dir
  vs : List V
  tc : Option C

section
variable {V C : Type} [Neg V]

/-- negate the odd coefficients: `for (int i = 1; i < N; i += 2) vs[i] *= -1` -/
def negOdd : List V → List V
  | [] => []
  | [a] => [a]
  | a :: b :: l => a :: -b :: negOdd l

/-- The constructor — sector.cpp:22-34 and matscs/sector.cpp:15-35: `base` are the coefficients of the potential (for coupled systems already
transformed by `diagonalize`), `tab` is `calculate_tcoeff_matrix(h, ·)`. -/
def St.new (tab : List V → C) (base : List V) (d : Dir) : St V C :=
  let vs := if d = .backward then negOdd base else base
  ⟨d, vs, if d = .none then none else some (tab vs)⟩

/-- `setDirection` — sector.cpp:36-47 and matscs/sector.cpp:37-49. -/
def St.setDirection (tab : List V → C) (s : St V C) (d : Dir) : St V C :=
  if s.dir ≠ d then
    let vs := if s.dir = .backward ∨ d = .backward then negOdd s.vs else s.vs
    ⟨d, vs, if d = .none then s.tc else some (tab vs)⟩
  else s

end

/-- `estimatePotentialMinimum` — matslise.cpp:81-88, on the list of the sectors' `vs[0]`: dereferencing `begin()` of an empty vector is undefined. -/
def estimatePotentialMinimum {K : Type} [CCmp K] : List K → Outcome K
  | [] => .ub "*begin() of an empty vector"
  | v :: vs => .ok (vs.foldl (fun minimal x => stdMin minimal x) v)

end Verif.SectorState
