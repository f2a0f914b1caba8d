import Verif.Model.FormulaData0
import Verif.Model.FormulaData1
import Verif.Model.FormulaData2
import Verif.Model.FormulaData3
import Verif.Model.FormulaData4
import Verif.Model.FormulaData5
import Verif.Model.FormulaData6
import Verif.Model.FormulaData7
import Verif.Model.FormulaData8

namespace Verif.Formulas

/-- all of `tDelta` (9 x 17) — matslise_formulas.cpp:161-323 -/
def tDelta : List (List Entry4) := [d0,d1,d2,d3,d4,d5,d6,d7,d8]

/-- all of `tH` (10) -/
def tH : List Entry4 := [tH0,tH1,tH2,tH3,tH4,tH5,tH6,tH7,tH8,tH9]

end Verif.Formulas
