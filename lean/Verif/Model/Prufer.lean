import Verif.Model.Propagate
import Mathlib.Analysis.SpecialFunctions.Complex.Arg
import Mathlib.Analysis.SpecialFunctions.Pow.Real

/-!
# Model of the Prüfer angle
`matslise/util/theta.h:7-15`, `matslise/matslise/sector.cpp:17-20, 99-156`

Over the real numbers (`sin`, `cos`, `sqrt`, `atan2`, `floor` and `PI` are the mathematical functions).
-/
namespace Verif.Prufer
open Verif.YT Verif.Propag
open Real (pi)

/-- `atan2(y, x)`: the argument of the point `(x, y)`, in `(-π, π]`. -/
noncomputable def atan2 (y x : ℝ) : ℝ := Complex.arg ⟨x, y⟩

/-- `atan_safe(y, x)` — theta.h:7-15. -/
noncomputable def atanSafe (y x : ℝ) : ℝ :=
  let r := atan2 y x
  if pi / 2 < r then r - pi
  else if r ≤ -pi / 2 then r + pi
  else r

/-- `rescale(theta, sigma)` — sector.cpp:99-104. -/
noncomputable def rescale (theta sigma : ℝ) : ℝ :=
  let sinTheta := Real.sin theta
  let cosTheta := Real.cos theta
  theta + atan2 ((sigma - 1) * sinTheta * cosTheta) (1 + (sigma - 1) * sinTheta * sinTheta)

/-- `sign` — sector.cpp:17-20 (an `int`). -/
noncomputable def sign (s : ℝ) : ℤ := if 0 < s then 1 else if s < 0 then -1 else 0

/-- `E - v0Match > 1 ? sqrt(E - v0Match) : 1` — sector.cpp:107, 121. -/
noncomputable def scaling (v0Match E : ℝ) : ℝ := if 1 < E - v0Match then Real.sqrt (E - v0Match) else 1

/-- `Sector::theta0` — sector.cpp:106-116. `v0` is `vs[0]`. -/
noncomputable def theta0 (v0Match v0 E : ℝ) (y0 : Y ℝ) : ℝ :=
  let scaling := scaling v0Match E
  if v0 < E then
    let omega := Real.sqrt (E - v0)
    let theta0 := atanSafe (y0.y * omega) y0.dy
    rescale theta0 (scaling / omega)
  else
    atanSafe (scaling * y0.y) y0.dy

/-- `pruferHelper` — sector.cpp:118-156. -/
noncomputable def pruferHelper (v0Match v0 E delta : ℝ) (y0 y1 : Y ℝ) : ℝ :=
  let scaling := scaling v0Match E
  if v0 < E then
    let omega := Real.sqrt (E - v0)
    let theta0 := atanSafe (y0.y * omega) y0.dy
    let phi_star := atanSafe (y1.y * omega) y1.dy
    let phi_bar := omega * delta + theta0
    let phi_bar := phi_bar - (⌊phi_bar / pi⌋ : ℝ) * pi
    let theta1 := phi_star - phi_bar
    let theta1 :=
      if theta1 < -pi / 2 then theta1 + pi
      else if pi / 2 < theta1 then theta1 - pi
      else theta1
    let theta1 := theta1 + (theta0 + omega * delta)
    let theta1 := if theta1 < theta0 then theta1 + pi else theta1
    rescale theta1 (scaling / omega) - rescale theta0 (scaling / omega)
  else
    let theta0 := atanSafe (scaling * y0.y) y0.dy
    let theta1 := atanSafe (scaling * y1.y) y1.dy
    let theta1 :=
      if 0 ≤ y0.y * y1.y then
        let signTheta0 := if theta0 = 0 then 1 else sign theta0
        let signTheta1 := if theta1 = 0 then -1 else sign theta1
        if signTheta0 * signTheta1 < 0 then theta1 + (signTheta0 : ℝ) * pi else theta1
      else if 0 < theta0 * theta1 then theta1 + pi
      else theta1
    theta1 - theta0

/-- The sectors of a problem use these angle functions; all share the matching sector's mean
potential `v0Match` (matslise.h:152-155), each has its own mean potential `vs[0]`. -/
structure HasAngles (P : Prob ℝ) (v0Match : ℝ) : Prop where
  secs : ∀ s ∈ P.secs, ∃ v0, s.theta0 = theta0 v0Match v0 ∧ s.prufer = pruferHelper v0Match v0

end Verif.Prufer
