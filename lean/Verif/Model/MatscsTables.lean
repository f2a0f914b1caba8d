import Verif.Model.MatscsData0
import Verif.Model.MatscsData1
import Verif.Model.MatscsData2
import Verif.Model.MatscsData3
import Verif.Model.MatscsData4
import Verif.Model.MatscsData5

/-! # The formula tables of coupled systems — `matslise/matscs/matscs_formulas.cpp` -/
namespace Verif.MFormulas

/-- `tDelta` — matscs_formulas.cpp:145-419 -/
def tDelta : List (List MEntry4) := [tDelta0, tDelta1, tDelta2, tDelta3, tDelta4]
/-- `tH` — matscs_formulas.cpp:204-419 -/
def tH : List MEntry4 := tHData

end Verif.MFormulas
