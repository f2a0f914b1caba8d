import Verif.Model.Formulas

/-! Generated by tools/gen_formulas.py from matslise/matslise/matslise_formulas.cpp (rows tDelta(0, *), tH[0]). -/
namespace Verif.Formulas
open Term
set_option maxRecDepth 100000

/-- `tDelta(0, 0)` — matslise_formulas.cpp:161 -/
def d0_0 : Entry4 :=
⟨[[p 1 1 []]],
[],
[],
[[p 1 1 []]]⟩
/-- `tDelta(0, 1)` — matslise_formulas.cpp:162 -/
def d0_1 : Entry4 :=
⟨[],
[],
[[],
 [m 1 2 [1]],
 [p 1 2 [2]],
 [m 1 2 [3]],
 [p 1 2 [4]],
 [m 1 2 [5]],
 [p 1 2 [6]],
 [m 1 2 [7]],
 [p 1 2 [8]],
 [m 1 2 [9]],
 [p 1 2 [10]],
 [m 1 2 [11]],
 [p 1 2 [12]],
 [m 1 2 [13]]],
[]⟩
/-- `tDelta(0, 2)` — matslise_formulas.cpp:163 -/
def d0_2 : Entry4 :=
⟨[],
[],
[[p 1 2 [1]],
 [m 3 2 [2]],
 [p 3 1 [3]],
 [m 5 1 [4]],
 [p 15 2 [5]],
 [m 21 2 [6]],
 [p 14 1 [7]],
 [m 18 1 [8]],
 [p 45 2 [9]],
 [m 55 2 [10]],
 [p 33 1 [11]],
 [m 39 1 [12]],
 [p 91 2 [13]]],
[]⟩
/-- `tDelta(0, 3)` — matslise_formulas.cpp:164 -/
def d0_3 : Entry4 :=
⟨[],
[],
[[p 1 1 [2]],
 [m 5 1 [3]],
 [p 15 1 [4]],
 [m 35 1 [5]],
 [p 70 1 [6]],
 [m 126 1 [7]],
 [p 210 1 [8]],
 [m 330 1 [9]],
 [p 495 1 [10]],
 [m 715 1 [11]],
 [p 1001 1 [12]],
 [m 1365 1 [13]]],
[]⟩
/-- `tDelta(0, 4)` — matslise_formulas.cpp:165 -/
def d0_4 : Entry4 :=
⟨[],
[],
[[p 5 2 [3]],
 [m 35 2 [4]],
 [p 70 1 [5]],
 [m 210 1 [6]],
 [p 525 1 [7]],
 [m 1155 1 [8]],
 [p 2310 1 [9]],
 [m 4290 1 [10]],
 [p 15015 2 [11]],
 [m 25025 2 [12]],
 [p 20020 1 [13]]],
[]⟩
/-- `tDelta(0, 5)` — matslise_formulas.cpp:166 -/
def d0_5 : Entry4 :=
⟨[],
[],
[[p 7 1 [4]],
 [m 63 1 [5]],
 [p 315 1 [6]],
 [m 1155 1 [7]],
 [p 3465 1 [8]],
 [m 9009 1 [9]],
 [p 21021 1 [10]],
 [m 45045 1 [11]],
 [p 90090 1 [12]],
 [m 170170 1 [13]]],
[]⟩
/-- `tDelta(0, 6)` — matslise_formulas.cpp:167 -/
def d0_6 : Entry4 :=
⟨[],
[],
[[p 21 1 [5]],
 [m 231 1 [6]],
 [p 1386 1 [7]],
 [m 6006 1 [8]],
 [p 21021 1 [9]],
 [m 63063 1 [10]],
 [p 168168 1 [11]],
 [m 408408 1 [12]],
 [p 918918 1 [13]]],
[]⟩
/-- `tDelta(0, 7)` — matslise_formulas.cpp:168 -/
def d0_7 : Entry4 :=
⟨[],
[],
[[p 66 1 [6]],
 [m 858 1 [7]],
 [p 6006 1 [8]],
 [m 30030 1 [9]],
 [p 120120 1 [10]],
 [m 408408 1 [11]],
 [p 1225224 1 [12]],
 [m 3325608 1 [13]]],
[]⟩
/-- `tDelta(0, 8)` — matslise_formulas.cpp:169 -/
def d0_8 : Entry4 :=
⟨[],
[],
[[p 429 2 [7]],
 [m 6435 2 [8]],
 [p 25740 1 [9]],
 [m 145860 1 [10]],
 [p 656370 1 [11]],
 [m 2494206 1 [12]],
 [p 8314020 1 [13]]],
[]⟩
/-- `tDelta(0, 9)` — matslise_formulas.cpp:170 -/
def d0_9 : Entry4 :=
⟨[],
[],
[[p 715 1 [8]],
 [m 12155 1 [9]],
 [p 109395 1 [10]],
 [m 692835 1 [11]],
 [p 3464175 1 [12]],
 [m 14549535 1 [13]]],
[]⟩
/-- `tDelta(0, 10)` — matslise_formulas.cpp:171 -/
def d0_10 : Entry4 :=
⟨[],
[],
[[p 2431 1 [9]],
 [m 46189 1 [10]],
 [p 461890 1 [11]],
 [m 3233230 1 [12]],
 [p 17782765 1 [13]]],
[]⟩
/-- `tDelta(0, 11)` — matslise_formulas.cpp:172 -/
def d0_11 : Entry4 :=
⟨[],
[],
[[p 8398 1 [10]],
 [m 176358 1 [11]],
 [p 1939938 1 [12]],
 [m 14872858 1 [13]]],
[]⟩
/-- `tDelta(0, 12)` — matslise_formulas.cpp:173 -/
def d0_12 : Entry4 :=
⟨[],
[],
[[p 29393 1 [11]],
 [m 676039 1 [12]],
 [p 8112468 1 [13]]],
[]⟩
/-- `tDelta(0, 13)` — matslise_formulas.cpp:174 -/
def d0_13 : Entry4 :=
⟨[],
[],
[[p 104006 1 [12]],
 [m 2600150 1 [13]]],
[]⟩
/-- `tDelta(0, 14)` — matslise_formulas.cpp:175 -/
def d0_14 : Entry4 :=
⟨[],
[],
[[p 371450 1 [13]]],
[]⟩
/-- `tDelta(0, 15)` — matslise_formulas.cpp:176 -/
def d0_15 : Entry4 :=
⟨[],
[],
[],
[]⟩
/-- `tDelta(0, 16)` — matslise_formulas.cpp:177 -/
def d0_16 : Entry4 :=
⟨[],
[],
[],
[]⟩
/-- `tDelta(0, *)` -/
def d0 : List Entry4 := [d0_0,d0_1,d0_2,d0_3,d0_4,d0_5,d0_6,d0_7,d0_8,d0_9,d0_10,d0_11,d0_12,d0_13,d0_14,d0_15,d0_16]
/-- `tH[0]` — matslise_formulas.cpp:178 -/
def tH0 : Entry4 :=
⟨[[p 1 1 []]],
[],
[],
[[p 1 1 []]]⟩
end Verif.Formulas
