import Verif.Model.Formulas

/-! Generated by tools/gen_formulas.py from matslise/matslise/matslise_formulas.cpp (rows tDelta(3, *), tH[3]). -/
namespace Verif.Formulas
open Term
set_option maxRecDepth 100000

/-- `tDelta(3, 0)` — matslise_formulas.cpp:215 -/
def d3_0 : Entry4 :=
⟨[],
[],
[],
[]⟩
/-- `tDelta(3, 1)` — matslise_formulas.cpp:216 -/
def d3_1 : Entry4 :=
⟨[],
[],
[],
[]⟩
/-- `tDelta(3, 2)` — matslise_formulas.cpp:217 -/
def d3_2 : Entry4 :=
⟨[],
[],
[],
[]⟩
/-- `tDelta(3, 3)` — matslise_formulas.cpp:218 -/
def d3_3 : Entry4 :=
⟨[],
[],
[],
[]⟩
/-- `tDelta(3, 4)` — matslise_formulas.cpp:219 -/
def d3_4 : Entry4 :=
⟨[],
[],
[],
[]⟩
/-- `tDelta(3, 5)` — matslise_formulas.cpp:220 -/
def d3_5 : Entry4 :=
⟨[[p 5 2 [3]],
 [p 1 4 [1,1],m 35 2 [4]],
 [m 1 1 [1,2],p 70 1 [5]],
 [p 3 4 [2,2],p 7 4 [1,3],m 210 1 [6]],
 [m 9 4 [2,3],m 11 4 [1,4],p 525 1 [7]],
 [p 3 2 [3,3],p 13 4 [2,4],p 4 1 [1,5],m 1155 1 [8]],
 [m 4 1 [3,4],m 9 2 [2,5],m 11 2 [1,6],p 2310 1 [9]],
 [p 5 2 [4,4],p 21 4 [3,5],p 6 1 [2,6],p 29 4 [1,7],m 4290 1 [10]],
 [m 25 4 [4,5],m 27 4 [3,6],m 31 4 [2,7],m 37 4 [1,8],p 15015 2 [11]],
 [p 15 4 [5,5],p 31 4 [4,6],p 17 2 [3,7],p 39 4 [2,8],p 23 2 [1,9],m 25025 2 [12]],
 [m 9 1 [5,6],m 19 2 [4,7],m 21 2 [3,8],m 12 1 [2,9],m 14 1 [1,10],p 20020 1 [13]],
 [p 21 4 [6,6],p 43 4 [5,7],p 23 2 [4,8],p 51 4 [3,9],p 29 2 [2,10],p 67 4 [1,11]]],
[[m 1 2 [2]],
 [p 5 2 [3]],
 [p 1 8 [1,1],m 15 2 [4]],
 [m 1 4 [1,2],p 35 2 [5]],
 [p 1 8 [2,2],p 1 4 [1,3],m 35 1 [6]],
 [m 1 4 [2,3],m 1 4 [1,4],p 63 1 [7]],
 [p 1 8 [3,3],p 1 4 [2,4],p 1 4 [1,5],m 105 1 [8]],
 [m 1 4 [3,4],m 1 4 [2,5],m 1 4 [1,6],p 165 1 [9]],
 [p 1 8 [4,4],p 1 4 [3,5],p 1 4 [2,6],p 1 4 [1,7],m 495 2 [10]],
 [m 1 4 [4,5],m 1 4 [3,6],m 1 4 [2,7],m 1 4 [1,8],p 715 2 [11]],
 [p 1 8 [5,5],p 1 4 [4,6],p 1 4 [3,7],p 1 4 [2,8],p 1 4 [1,9],m 1001 2 [12]],
 [m 1 4 [5,6],m 1 4 [4,7],m 1 4 [3,8],m 1 4 [2,9],m 1 4 [1,10],p 1365 2 [13]]],
[[m 7 24 [1,1],p 35 2 [4]],
 [p 5 2 [1,2],m 315 2 [5]],
 [m 27 8 [2,2],m 29 4 [1,3],p 1575 2 [6]],
 [m 1 48 [1,1,1],p 15 1 [2,3],p 205 12 [1,4],m 5775 2 [7]],
 [p 1 16 [1,1,2],m 57 4 [3,3],m 59 2 [2,4],m 35 1 [1,5],p 17325 2 [8]],
 [m 1 16 [1,2,2],m 1 16 [1,1,3],p 50 1 [3,4],p 213 4 [2,5],p 259 4 [1,6],m 45045 2 [9]],
 [p 1 48 [2,2,2],p 1 8 [1,2,3],p 1 16 [1,1,4],m 485 12 [4,4],m 165 2 [3,5],m 90 1 [2,6],m 665 6 [1,7],p 105105 2 [10]],
 [m 1 16 [2,2,3],m 1 16 [1,3,3],m 1 8 [1,2,4],m 1 16 [1,1,5],p 125 1 [4,5],p 519 4 [3,6],p 577 4 [2,7],p 357 2 [1,8],m 225225 2 [11]],
 [p 1 16 [2,3,3],p 1 16 [2,2,4],p 1 8 [1,3,4],p 1 8 [1,2,5],p 1 16 [1,1,6],m 735 8 [5,5],m 745 4 [4,6],m 785 4 [3,7],m 885 4 [2,8],m 1095 4 [1,9],p 225225 1 [12]],
 [m 1 48 [3,3,3],m 1 8 [2,3,4],m 1 16 [1,4,4],m 1 16 [2,2,5],m 1 8 [1,3,5],m 1 8 [1,2,6],m 1 16 [1,1,7],p 525 2 [5,6],p 3229 12 [4,7],p 1149 4 [3,8],p 327 1 [2,9],p 1210 3 [1,10],m 425425 1 [13]],
 [p 1 16 [3,3,4],p 1 16 [2,4,4],p 1 8 [2,3,5],p 1 8 [1,4,5],p 1 16 [2,2,6],p 1 8 [1,3,6],p 1 8 [1,2,7],p 1 16 [1,1,8],m 1449 8 [6,6],m 1463 4 [5,7],m 1515 4 [4,8],m 1635 4 [3,9],m 1873 4 [2,10],m 2299 4 [1,11]],
 [m 1 16 [3,4,4],m 1 16 [3,3,5],m 1 8 [2,4,5],m 1 16 [1,5,5],m 1 8 [2,3,6],m 1 8 [1,4,6],m 1 16 [2,2,7],m 1 8 [1,3,7],m 1 8 [1,2,8],m 1 16 [1,1,9],p 490 1 [6,7],p 1995 4 [5,8],p 2085 4 [4,9],p 1135 2 [3,10],p 1305 2 [2,11],p 3185 4 [1,12]]],
[[m 5 2 [3]],
 [m 1 4 [1,1],p 35 2 [4]],
 [p 1 1 [1,2],m 70 1 [5]],
 [m 3 4 [2,2],m 7 4 [1,3],p 210 1 [6]],
 [p 9 4 [2,3],p 11 4 [1,4],m 525 1 [7]],
 [m 3 2 [3,3],m 13 4 [2,4],m 4 1 [1,5],p 1155 1 [8]],
 [p 4 1 [3,4],p 9 2 [2,5],p 11 2 [1,6],m 2310 1 [9]],
 [m 5 2 [4,4],m 21 4 [3,5],m 6 1 [2,6],m 29 4 [1,7],p 4290 1 [10]],
 [p 25 4 [4,5],p 27 4 [3,6],p 31 4 [2,7],p 37 4 [1,8],m 15015 2 [11]],
 [m 15 4 [5,5],m 31 4 [4,6],m 17 2 [3,7],m 39 4 [2,8],m 23 2 [1,9],p 25025 2 [12]],
 [p 9 1 [5,6],p 19 2 [4,7],p 21 2 [3,8],p 12 1 [2,9],p 14 1 [1,10],m 20020 1 [13]],
 [m 21 4 [6,6],m 43 4 [5,7],m 23 2 [4,8],m 51 4 [3,9],m 29 2 [2,10],m 67 4 [1,11]]]⟩
/-- `tDelta(3, 6)` — matslise_formulas.cpp:221 -/
def d3_6 : Entry4 :=
⟨[[m 7 24 [1,1],p 35 2 [4]],
 [p 5 2 [1,2],m 315 2 [5]],
 [m 27 8 [2,2],m 29 4 [1,3],p 1575 2 [6]],
 [m 1 48 [1,1,1],p 15 1 [2,3],p 205 12 [1,4],m 5775 2 [7]],
 [p 1 16 [1,1,2],m 57 4 [3,3],m 59 2 [2,4],m 35 1 [1,5],p 17325 2 [8]],
 [m 1 16 [1,2,2],m 1 16 [1,1,3],p 50 1 [3,4],p 213 4 [2,5],p 259 4 [1,6],m 45045 2 [9]],
 [p 1 48 [2,2,2],p 1 8 [1,2,3],p 1 16 [1,1,4],m 485 12 [4,4],m 165 2 [3,5],m 90 1 [2,6],m 665 6 [1,7],p 105105 2 [10]],
 [m 1 16 [2,2,3],m 1 16 [1,3,3],m 1 8 [1,2,4],m 1 16 [1,1,5],p 125 1 [4,5],p 519 4 [3,6],p 577 4 [2,7],p 357 2 [1,8],m 225225 2 [11]],
 [p 1 16 [2,3,3],p 1 16 [2,2,4],p 1 8 [1,3,4],p 1 8 [1,2,5],p 1 16 [1,1,6],m 735 8 [5,5],m 745 4 [4,6],m 785 4 [3,7],m 885 4 [2,8],m 1095 4 [1,9],p 225225 1 [12]],
 [m 1 48 [3,3,3],m 1 8 [2,3,4],m 1 16 [1,4,4],m 1 16 [2,2,5],m 1 8 [1,3,5],m 1 8 [1,2,6],m 1 16 [1,1,7],p 525 2 [5,6],p 3229 12 [4,7],p 1149 4 [3,8],p 327 1 [2,9],p 1210 3 [1,10],m 425425 1 [13]],
 [p 1 16 [3,3,4],p 1 16 [2,4,4],p 1 8 [2,3,5],p 1 8 [1,4,5],p 1 16 [2,2,6],p 1 8 [1,3,6],p 1 8 [1,2,7],p 1 16 [1,1,8],m 1449 8 [6,6],m 1463 4 [5,7],m 1515 4 [4,8],m 1635 4 [3,9],m 1873 4 [2,10],m 2299 4 [1,11]]],
[[m 5 2 [3]],
 [m 1 4 [1,1],p 35 2 [4]],
 [p 1 1 [1,2],m 70 1 [5]],
 [m 3 4 [2,2],m 7 4 [1,3],p 210 1 [6]],
 [p 9 4 [2,3],p 11 4 [1,4],m 525 1 [7]],
 [m 3 2 [3,3],m 13 4 [2,4],m 4 1 [1,5],p 1155 1 [8]],
 [p 4 1 [3,4],p 9 2 [2,5],p 11 2 [1,6],m 2310 1 [9]],
 [m 5 2 [4,4],m 21 4 [3,5],m 6 1 [2,6],m 29 4 [1,7],p 4290 1 [10]],
 [p 25 4 [4,5],p 27 4 [3,6],p 31 4 [2,7],p 37 4 [1,8],m 15015 2 [11]],
 [m 15 4 [5,5],m 31 4 [4,6],m 17 2 [3,7],m 39 4 [2,8],m 23 2 [1,9],p 25025 2 [12]],
 [p 9 1 [5,6],p 19 2 [4,7],p 21 2 [3,8],p 12 1 [2,9],p 14 1 [1,10],m 20020 1 [13]]],
[[m 5 2 [1,2],p 315 2 [5]],
 [p 15 2 [2,2],p 65 4 [1,3],m 3465 2 [6]],
 [p 1 16 [1,1,1],m 225 4 [2,3],m 255 4 [1,4],p 10395 1 [7]],
 [m 5 16 [1,1,2],p 315 4 [3,3],p 655 4 [2,4],p 385 2 [1,5],m 45045 1 [8]],
 [p 7 16 [1,2,2],p 1 2 [1,1,3],m 380 1 [3,4],m 405 1 [2,5],m 490 1 [1,6],p 315315 2 [9]],
 [m 3 16 [2,2,2],m 5 4 [1,2,3],m 3 4 [1,1,4],p 1605 4 [4,4],p 3285 4 [3,5],p 1785 2 [2,6],p 2205 2 [1,7],m 945945 2 [10]],
 [p 3 4 [2,2,3],p 13 16 [1,3,3],p 7 4 [1,2,4],p 17 16 [1,1,5],m 6275 4 [4,5],m 6525 4 [3,6],m 3605 2 [2,7],m 4515 2 [1,8],p 1261260 1 [11]],
 [m 15 16 [2,3,3],m 1 1 [2,2,4],m 17 8 [1,3,4],m 19 8 [1,2,5],m 23 16 [1,1,6],p 2835 2 [5,5],p 11515 4 [4,6],p 12125 4 [3,7],p 6795 2 [2,8],p 4290 1 [1,9],m 3063060 1 [12]],
 [p 3 8 [3,3,3],p 19 8 [2,3,4],p 21 16 [1,4,4],p 21 16 [2,2,5],p 11 4 [1,3,5],p 25 8 [1,2,6],p 15 8 [1,1,7],m 9765 2 [5,6],m 20055 4 [4,7],m 21345 4 [3,8],m 12105 2 [2,9],m 15345 2 [1,10],p 6891885 1 [13]],
 [m 11 8 [3,3,4],m 23 16 [2,4,4],m 3 1 [2,3,5],m 13 4 [1,4,5],m 27 16 [2,2,6],m 7 2 [1,3,6],m 4 1 [1,2,7],m 19 8 [1,1,8],p 3990 1 [6,6],p 16135 2 [5,7],p 33435 4 [4,8],p 35925 4 [3,9],p 10285 1 [2,10],p 52195 4 [1,11]],
 [p 13 8 [3,4,4],p 27 16 [3,3,5],p 7 2 [2,4,5],p 31 16 [1,5,5],p 15 4 [2,3,6],p 4 1 [1,4,6],p 17 8 [2,2,7],p 35 8 [1,3,7],p 5 1 [1,2,8],p 47 16 [1,1,9],m 25235 2 [6,7],m 25725 2 [5,8],m 53715 4 [4,9],m 58205 4 [3,10],m 67155 4 [2,11],m 85085 4 [1,12]]],
[[p 5 24 [1,1],m 35 2 [4]],
 [m 2 1 [1,2],p 315 2 [5]],
 [p 21 8 [2,2],p 25 4 [1,3],m 1575 2 [6]],
 [m 1 48 [1,1,1],m 12 1 [2,3],m 185 12 [1,4],p 5775 2 [7]],
 [p 1 16 [1,1,2],p 45 4 [3,3],p 49 2 [2,4],p 65 2 [1,5],m 17325 2 [8]],
 [m 1 16 [1,2,2],m 1 16 [1,1,3],m 40 1 [3,4],m 183 4 [2,5],m 245 4 [1,6],p 45045 2 [9]],
 [p 1 48 [2,2,2],p 1 8 [1,2,3],p 1 16 [1,1,4],p 385 12 [4,4],p 135 2 [3,5],p 159 2 [2,6],p 637 6 [1,7],m 105105 2 [10]],
 [m 1 16 [2,2,3],m 1 16 [1,3,3],m 1 8 [1,2,4],m 1 16 [1,1,5],m 100 1 [4,5],m 435 4 [3,6],m 521 4 [2,7],m 345 2 [1,8],p 225225 2 [11]],
 [p 1 16 [2,3,3],p 1 16 [2,2,4],p 1 8 [1,3,4],p 1 8 [1,2,5],p 1 16 [1,1,6],p 585 8 [5,5],p 605 4 [4,6],p 673 4 [3,7],p 813 4 [2,8],p 1065 4 [1,9],m 225225 1 [12]],
 [m 1 48 [3,3,3],m 1 8 [2,3,4],m 1 16 [1,4,4],m 1 16 [2,2,5],m 1 8 [1,3,5],m 1 8 [1,2,6],m 1 16 [1,1,7],m 210 1 [5,6],m 2669 12 [4,7],m 1005 4 [3,8],m 609 2 [2,9],m 2365 6 [1,10],p 425425 1 [13]],
 [p 1 16 [3,3,4],p 1 16 [2,4,4],p 1 8 [2,3,5],p 1 8 [1,4,5],p 1 16 [2,2,6],p 1 8 [1,3,6],p 1 8 [1,2,7],p 1 16 [1,1,8],p 1155 8 [6,6],p 1183 4 [5,7],p 1275 4 [4,8],p 1455 4 [3,9],p 1763 4 [2,10],p 2255 4 [1,11]]]⟩
/-- `tDelta(3, 7)` — matslise_formulas.cpp:222 -/
def d3_7 : Entry4 :=
⟨[[m 3 2 [1,2],p 189 2 [5]],
 [p 9 2 [2,2],p 10 1 [1,3],m 2079 2 [6]],
 [p 1 16 [1,1,1],m 34 1 [2,3],m 40 1 [1,4],p 6237 1 [7]],
 [m 5 16 [1,1,2],p 95 2 [3,3],p 100 1 [2,4],p 245 2 [1,5],m 27027 1 [8]],
 [p 7 16 [1,2,2],p 1 2 [1,1,3],m 230 1 [3,4],m 250 1 [2,5],m 315 1 [1,6],p 189189 2 [9]],
 [m 3 16 [2,2,2],m 5 4 [1,2,3],m 3 4 [1,1,4],p 485 2 [4,4],p 500 1 [3,5],p 1113 2 [2,6],p 714 1 [1,7],m 567567 2 [10]],
 [p 3 4 [2,2,3],p 13 16 [1,3,3],p 7 4 [1,2,4],p 17 16 [1,1,5],m 950 1 [4,5],m 1000 1 [3,6],m 1134 1 [2,7],m 1470 1 [1,8],p 756756 1 [11]],
 [m 15 16 [2,3,3],m 1 1 [2,2,4],m 17 8 [1,3,4],m 19 8 [1,2,5],m 23 16 [1,1,6],p 1715 2 [5,5],p 1750 1 [4,6],p 3743 2 [3,7],p 2154 1 [2,8],p 2805 1 [1,9],m 1837836 1 [12]],
 [p 3 8 [3,3,3],p 19 8 [2,3,4],p 21 16 [1,4,4],p 21 16 [2,2,5],p 11 4 [1,3,5],p 25 8 [1,2,6],p 15 8 [1,1,7],m 5915 2 [5,6],m 6125 2 [4,7],m 6635 2 [3,8],m 7725 2 [2,9],m 10065 2 [1,10],p 4135131 1 [13]],
 [m 11 8 [3,3,4],m 23 16 [2,4,4],m 3 1 [2,3,5],m 13 4 [1,4,5],m 27 16 [2,2,6],m 7 2 [1,3,6],m 4 1 [1,2,7],m 19 8 [1,1,8],p 2415 1 [6,6],p 4900 1 [5,7],p 10265 2 [4,8],p 5620 1 [3,9],p 6600 1 [2,10],p 8580 1 [1,11]]],
[[p 1 8 [1,1],m 21 2 [4]],
 [m 5 4 [1,2],p 189 2 [5]],
 [p 13 8 [2,2],p 4 1 [1,3],m 945 2 [6]],
 [m 15 2 [2,3],m 10 1 [1,4],p 3465 2 [7]],
 [p 7 1 [3,3],p 31 2 [2,4],p 85 4 [1,5],m 10395 2 [8]],
 [m 25 1 [3,4],m 117 4 [2,5],m 161 4 [1,6],p 27027 2 [9]],
 [p 20 1 [4,4],p 85 2 [3,5],p 205 4 [2,6],p 70 1 [1,7],m 63063 2 [10]],
 [m 125 2 [4,5],m 69 1 [3,6],m 169 2 [2,7],m 114 1 [1,8],p 135135 2 [11]],
 [p 365 8 [5,5],p 95 1 [4,6],p 215 2 [3,7],p 265 2 [2,8],p 705 4 [1,9],m 135135 1 [12]],
 [m 525 4 [5,6],m 281 2 [4,7],m 323 2 [3,8],m 797 4 [2,9],m 1045 4 [1,10],p 255255 1 [13]]],
[[m 171 40 [2,2],m 19 2 [1,3],p 2079 2 [6]],
 [m 1 24 [1,1,1],p 285 4 [2,3],p 84 1 [1,4],m 27027 2 [7]],
 [p 23 48 [1,1,2],m 1311 8 [3,3],m 1381 4 [2,4],m 847 2 [1,5],p 189189 2 [8]],
 [m 1 1 [1,2,2],m 71 48 [1,1,3],p 4611 4 [3,4],p 5019 4 [2,5],p 3171 2 [1,6],m 945945 2 [9]],
 [p 1 384 [1,1,1,1],p 9 16 [2,2,2],p 9 2 [1,2,3],p 59 16 [1,1,4],m 13155 8 [4,4],m 13569 4 [3,5],m 3780 1 [2,6],m 9765 2 [1,7],p 1891890 1 [10]],
 [m 1 96 [1,1,1,2],m 51 16 [2,2,3],m 31 8 [1,3,3],m 115 12 [1,2,4],m 377 48 [1,1,5],p 33285 4 [4,5],p 17535 2 [3,6],p 49749 5 [2,7],p 26103 2 [1,8],m 6432426 1 [11]],
 [p 1 64 [1,1,2,2],p 1 96 [1,1,1,3],p 81 16 [2,3,3],p 97 16 [2,2,4],p 83 6 [1,3,4],p 75 4 [1,2,5],p 179 12 [1,1,6],m 75075 8 [5,5],m 19159 1 [4,6],m 20510 1 [3,7],m 23625 1 [2,8],m 62601 2 [1,9],p 19297278 1 [12]],
 [m 1 96 [1,2,2,2],m 1 32 [1,1,2,3],m 1 96 [1,1,1,4],m 39 16 [3,3,3],m 135 8 [2,3,4],m 85 8 [1,4,4],m 177 16 [2,2,5],m 97 4 [1,3,5],m 271 8 [1,2,6],m 26 1 [1,1,7],p 78897 2 [5,6],p 81753 2 [4,7],p 44316 1 [3,8],p 51678 1 [2,9],p 137709 2 [1,10],m 52378326 1 [13]],
 [p 1 384 [2,2,2,2],p 1 32 [1,2,2,3],p 1 64 [1,1,3,3],p 1 32 [1,1,2,4],p 1 96 [1,1,1,5],p 179 16 [3,3,4],p 599 48 [2,4,4],p 225 8 [2,3,5],p 100 3 [1,4,5],p 153 8 [2,2,6],p 327 8 [1,3,6],p 1373 24 [1,2,7],p 509 12 [1,1,8],m 38493 1 [6,6],m 156247 2 [5,7],m 163793 2 [4,8],m 179451 2 [3,9],m 422763 4 [2,10],m 141141 1 [1,11]],
 [m 1 96 [2,2,2,3],m 1 32 [1,2,3,3],m 1 32 [1,2,2,4],m 1 32 [1,1,3,4],m 1 32 [1,1,2,5],m 1 96 [1,1,1,6],m 755 48 [3,4,4],m 279 16 [3,3,5],m 303 8 [2,4,5],m 95 4 [1,5,5],m 183 4 [2,3,6],m 1247 24 [1,4,6],m 251 8 [2,2,7],m 1583 24 [1,3,7],m 731 8 [1,2,8],m 197 3 [1,1,9],p 143325 1 [6,7],p 294147 2 [5,8],p 155635 1 [4,9],p 688193 4 [3,10],p 817245 4 [2,11],p 545545 2 [1,12]]],
[[p 1 1 [1,2],m 189 2 [5]],
 [m 3 1 [2,2],m 15 2 [1,3],p 2079 2 [6]],
 [p 1 16 [1,1,1],p 47 2 [2,3],p 65 2 [1,4],m 6237 1 [7]],
 [m 5 16 [1,1,2],m 65 2 [3,3],m 145 2 [2,4],m 105 1 [1,5],p 27027 1 [8]],
 [p 7 16 [1,2,2],p 1 2 [1,1,3],p 160 1 [3,4],p 190 1 [2,5],p 280 1 [1,6],m 189189 2 [9]],
 [m 3 16 [2,2,2],m 5 4 [1,2,3],m 3 4 [1,1,4],m 335 2 [4,4],m 715 2 [3,5],m 441 1 [2,6],m 651 1 [1,7],p 567567 2 [10]],
 [p 3 4 [2,2,3],p 13 16 [1,3,3],p 7 4 [1,2,4],p 17 16 [1,1,5],p 1325 2 [4,5],p 1475 2 [3,6],p 931 1 [2,7],p 1365 1 [1,8],m 756756 1 [11]],
 [m 15 16 [2,3,3],m 1 1 [2,2,4],m 17 8 [1,3,4],m 19 8 [1,2,5],m 23 16 [1,1,6],m 595 1 [5,5],m 2485 2 [4,6],m 2847 2 [3,7],m 1821 1 [2,8],m 2640 1 [1,9],p 1837836 1 [12]],
 [p 3 8 [3,3,3],p 19 8 [2,3,4],p 21 16 [1,4,4],p 21 16 [2,2,5],p 11 4 [1,3,5],p 25 8 [1,2,6],p 15 8 [1,1,7],p 2065 1 [5,6],p 4445 2 [4,7],p 5195 2 [3,8],p 3345 1 [2,9],p 4785 1 [1,10],m 4135131 1 [13]],
 [m 11 8 [3,3,4],m 23 16 [2,4,4],m 3 1 [2,3,5],m 13 4 [1,4,5],m 27 16 [2,2,6],m 7 2 [1,3,6],m 4 1 [1,2,7],m 19 8 [1,1,8],m 1680 1 [6,6],m 3465 1 [5,7],m 7625 2 [4,8],m 9035 2 [3,9],m 5830 1 [2,10],m 16445 2 [1,11]]]⟩
/-- `tDelta(3, 8)` — matslise_formulas.cpp:223 -/
def d3_8 : Entry4 :=
⟨[[m 19 10 [2,2],m 9 2 [1,3],p 462 1 [6]],
 [m 1 16 [1,1,1],p 65 2 [2,3],p 161 4 [1,4],m 6006 1 [7]],
 [p 9 16 [1,1,2],m 149 2 [3,3],m 641 4 [2,4],m 819 4 [1,5],p 42042 1 [8]],
 [m 19 16 [1,2,2],m 23 16 [1,1,3],p 2111 4 [3,4],p 2359 4 [2,5],p 3087 4 [1,6],m 210210 1 [9]],
 [p 11 16 [2,2,2],p 39 8 [1,2,3],p 51 16 [1,1,4],m 3005 4 [4,4],m 6269 4 [3,5],m 7175 4 [2,6],m 9555 4 [1,7],p 840840 1 [10]],
 [m 59 16 [2,2,3],m 17 4 [1,3,3],m 75 8 [1,2,4],m 101 16 [1,1,5],p 3815 1 [4,5],p 16345 4 [3,6],p 95151 20 [2,7],p 25641 4 [1,8],m 2858856 1 [11]],
 [p 47 8 [2,3,3],p 103 16 [2,2,4],p 29 2 [1,3,4],p 135 8 [1,2,5],p 183 16 [1,1,6],m 17185 4 [5,5],m 8834 1 [4,6],m 38535 4 [3,7],m 45465 4 [2,8],m 61677 4 [1,9],p 8576568 1 [12]],
 [m 23 8 [3,3,3],m 75 4 [2,3,4],m 45 4 [1,4,4],m 173 16 [2,2,5],m 191 8 [1,3,5],m 229 8 [1,2,6],m 309 16 [1,1,7],p 36197 2 [5,6],p 37933 2 [4,7],p 83829 4 [3,8],p 99957 4 [2,9],p 135993 4 [1,10],m 23279256 1 [13]],
 [p 103 8 [3,3,4],p 111 8 [2,4,4],p 235 8 [2,3,5],p 275 8 [1,4,5],p 279 16 [2,2,6],p 303 8 [1,3,6],p 369 8 [1,2,7],p 493 16 [1,1,8],m 70567 4 [6,6],m 71967 2 [5,7],m 38234 1 [4,8],m 170727 4 [3,9],m 205293 4 [2,10],m 279279 4 [1,11]]],
[[p 1 2 [1,2],m 42 1 [5]],
 [m 3 2 [2,2],m 15 4 [1,3],p 462 1 [6]],
 [p 47 4 [2,3],p 65 4 [1,4],m 2772 1 [7]],
 [m 65 4 [3,3],m 145 4 [2,4],m 105 2 [1,5],p 12012 1 [8]],
 [p 80 1 [3,4],p 95 1 [2,5],p 140 1 [1,6],m 42042 1 [9]],
 [m 335 4 [4,4],m 715 4 [3,5],m 441 2 [2,6],m 651 2 [1,7],p 126126 1 [10]],
 [p 1325 4 [4,5],p 1475 4 [3,6],p 931 2 [2,7],p 1365 2 [1,8],m 336336 1 [11]],
 [m 595 2 [5,5],m 2485 4 [4,6],m 2847 4 [3,7],m 1821 2 [2,8],m 1320 1 [1,9],p 816816 1 [12]],
 [p 2065 2 [5,6],p 4445 4 [4,7],p 5195 4 [3,8],p 3345 2 [2,9],p 4785 2 [1,10],m 1837836 1 [13]]],
[[m 30 1 [2,3],m 112 3 [1,4],p 6006 1 [7]],
 [m 1 4 [1,1,2],p 150 1 [3,3],p 322 1 [2,4],p 1659 4 [1,5],m 90090 1 [8]],
 [p 1 1 [1,2,2],p 15 8 [1,1,3],m 1724 1 [3,4],m 7707 4 [2,5],m 10185 4 [1,6],p 720720 1 [9]],
 [m 1 96 [1,1,1,1],m 3 4 [2,2,2],m 8 1 [1,2,3],m 65 8 [1,1,4],p 10570 3 [4,4],p 29379 4 [3,5],p 33705 4 [2,6],p 22715 2 [1,7],m 4084080 1 [10]],
 [p 1 16 [1,1,1,2],p 53 8 [2,2,3],p 10 1 [1,3,3],p 53 2 [1,2,4],p 105 4 [1,1,5],m 95795 4 [4,5],m 102585 4 [3,6],m 59955 2 [2,7],m 82005 2 [1,8],p 18378360 1 [11]],
 [m 1 8 [1,1,2,2],m 3 32 [1,1,1,3],m 14 1 [2,3,3],m 151 8 [2,2,4],m 50 1 [1,3,4],m 74 1 [1,2,5],m 70 1 [1,1,6],p 138075 4 [5,5],p 283801 4 [4,6],p 154875 2 [3,7],p 183645 2 [2,8],p 507507 4 [1,9],m 69837768 1 [12]],
 [p 5 48 [1,2,2,2],p 11 32 [1,1,2,3],p 13 96 [1,1,1,4],p 65 8 [3,3,3],p 64 1 [2,3,4],p 50 1 [1,4,4],p 193 4 [2,2,5],p 235 2 [1,3,5],p 361 2 [1,2,6],p 651 4 [1,1,7],m 180201 1 [5,6],m 1132817 6 [4,7],m 418005 2 [3,8],m 1002771 4 [2,9],m 1394393 4 [1,10],p 232792560 1 [13]],
 [m 1 32 [2,2,2,2],m 13 32 [1,2,2,3],m 7 32 [1,1,3,3],m 15 32 [1,1,2,4],m 3 16 [1,1,1,5],m 385 8 [3,3,4],m 60 1 [2,4,4],m 571 4 [2,3,5],m 200 1 [1,4,5],m 111 1 [2,2,6],m 1025 4 [1,3,6],m 1583 4 [1,2,7],m 1365 4 [1,1,8],p 850185 4 [6,6],p 1733697 4 [5,7],p 921333 2 [4,8],p 2062467 4 [3,9],p 2497209 4 [2,10],p 870870 1 [1,11]],
 [p 5 32 [2,2,2,3],p 1 2 [1,2,3,3],p 17 32 [1,2,2,4],p 9 16 [1,1,3,4],p 5 8 [1,1,2,5],p 1 4 [1,1,1,6],p 655 8 [3,4,4],p 195 2 [3,3,5],p 925 4 [2,4,5],p 175 1 [1,5,5],p 601 2 [2,3,6],p 1555 4 [1,4,6],p 467 2 [2,2,7],p 1041 2 [1,3,7],p 3187 4 [1,2,8],p 660 1 [1,1,9],m 3763935 4 [6,7],m 3893589 4 [5,8],m 4184355 4 [4,9],m 4725633 4 [3,10],m 1441440 1 [2,11],m 2012010 1 [1,12]]],
[[p 11 10 [2,2],p 3 1 [1,3],m 462 1 [6]],
 [m 1 16 [1,1,1],m 20 1 [2,3],m 119 4 [1,4],p 6006 1 [7]],
 [p 9 16 [1,1,2],p 91 2 [3,3],p 419 4 [2,4],p 651 4 [1,5],m 42042 1 [8]],
 [m 19 16 [1,2,2],m 23 16 [1,1,3],m 1319 4 [3,4],m 1631 4 [2,5],m 2583 4 [1,6],p 210210 1 [9]],
 [p 11 16 [2,2,2],p 39 8 [1,2,3],p 51 16 [1,1,4],p 1865 4 [4,4],p 4051 4 [3,5],p 5215 4 [2,6],p 8295 4 [1,7],m 840840 1 [10]],
 [m 59 16 [2,2,3],m 17 4 [1,3,3],m 75 8 [1,2,4],m 101 16 [1,1,5],m 4795 2 [4,5],m 10955 4 [3,6],m 72219 20 [2,7],m 22869 4 [1,8],p 2858856 1 [11]],
 [p 47 8 [2,3,3],p 103 16 [2,2,4],p 29 2 [1,3,4],p 135 8 [1,2,5],p 183 16 [1,1,6],p 10745 4 [5,5],p 11347 2 [4,6],p 26775 4 [3,7],p 35805 4 [2,8],p 56133 4 [1,9],m 8576568 1 [12]],
 [m 23 8 [3,3,3],m 75 4 [2,3,4],m 45 4 [1,4,4],m 173 16 [2,2,5],m 191 8 [1,3,5],m 229 8 [1,2,6],m 309 16 [1,1,7],m 22813 2 [5,6],m 24997 2 [4,7],m 60261 4 [3,8],m 81213 4 [2,9],m 125697 4 [1,10],p 23279256 1 [13]],
 [p 103 8 [3,3,4],p 111 8 [2,4,4],p 235 8 [2,3,5],p 275 8 [1,4,5],p 279 16 [2,2,6],p 303 8 [1,3,6],p 369 8 [1,2,7],p 493 16 [1,1,8],p 44303 4 [6,6],p 46053 2 [5,7],p 25886 1 [4,8],p 126633 4 [3,9],p 171237 4 [2,10],p 261261 4 [1,11]]]⟩
/-- `tDelta(3, 9)` — matslise_formulas.cpp:224 -/
def d3_9 : Entry4 :=
⟨[[p 1 48 [1,1,1],m 45 4 [2,3],m 175 12 [1,4],p 2145 1 [7]],
 [m 7 16 [1,1,2],p 225 4 [3,3],p 245 2 [2,4],p 651 4 [1,5],m 32175 1 [8]],
 [p 25 16 [1,2,2],p 31 16 [1,1,3],m 650 1 [3,4],m 2961 4 [2,5],m 4011 4 [1,6],p 257400 1 [9]],
 [m 21 16 [2,2,2],m 77 8 [1,2,3],m 105 16 [1,1,4],p 15925 12 [4,4],p 11151 4 [3,5],p 13041 4 [2,6],p 17941 4 [1,7],m 1458600 1 [10]],
 [p 155 16 [2,2,3],p 93 8 [1,3,3],p 207 8 [1,2,4],p 295 16 [1,1,5],m 9044 1 [4,5],m 19593 2 [3,6],m 46641 4 [2,7],m 64911 4 [1,8],p 6563700 1 [11]],
 [m 161 8 [2,3,3],m 357 16 [2,2,4],m 105 2 [1,3,4],m 497 8 [1,2,5],m 721 16 [1,1,6],p 52101 4 [5,5],p 107611 4 [4,6],p 59493 2 [3,7],p 143451 4 [2,8],p 201201 4 [1,9],m 24942060 1 [12]],
 [p 197 16 [3,3,3],p 163 2 [2,3,4],p 415 8 [1,4,4],p 767 16 [2,2,5],p 885 8 [1,3,5],p 1087 8 [1,2,6],p 791 8 [1,1,7],m 68103 1 [5,6],m 431459 6 [4,7],m 161343 2 [3,8],m 392931 4 [2,9],m 553553 4 [1,10],p 83140200 1 [13]],
 [m 1085 16 [3,3,4],m 595 8 [2,4,4],m 1267 8 [2,3,5],m 1575 8 [1,4,5],m 1545 16 [2,2,6],m 1751 8 [1,3,6],m 275 1 [1,2,7],m 1593 8 [1,1,8],p 321111 4 [6,6],p 657027 4 [5,7],p 352443 2 [4,8],p 399663 2 [3,9],p 981123 4 [2,10],p 1384383 4 [1,11]]],
[[p 1 2 [2,2],p 5 4 [1,3],m 165 1 [6]],
 [m 35 4 [2,3],m 49 4 [1,4],p 2145 1 [7]],
 [p 20 1 [3,3],p 179 4 [2,4],p 133 2 [1,5],m 15015 1 [8]],
 [m 287 2 [3,4],m 343 2 [2,5],m 525 2 [1,6],p 75075 1 [9]],
 [p 407 2 [4,4],p 1741 4 [3,5],p 1085 2 [2,6],p 840 1 [1,7],m 300300 1 [10]],
 [m 4165 4 [4,5],m 4655 4 [3,6],m 1491 1 [2,7],m 2310 1 [1,8],p 1021020 1 [11]],
 [p 1169 1 [5,5],p 9779 4 [4,6],p 5635 2 [3,7],p 3675 1 [2,8],p 11319 2 [1,9],m 3063060 1 [12]],
 [m 4949 1 [5,6],m 5341 1 [4,7],m 12585 2 [3,8],m 16599 2 [2,9],m 25311 2 [1,10],p 8314020 1 [13]]],
[[p 1 48 [1,1,2],m 1425 28 [3,3],m 445 4 [2,4],m 597 4 [1,5],p 32175 1 [8]],
 [m 17 40 [1,2,2],m 47 48 [1,1,3],p 5075 4 [3,4],p 1449 1 [2,5],p 7953 4 [1,6],m 546975 1 [9]],
 [p 1 64 [1,1,1,1],p 39 80 [2,2,2],p 59 8 [1,2,3],p 69 8 [1,1,4],m 8325 2 [4,4],m 35007 4 [3,5],m 10278 1 [2,6],m 14355 1 [1,7],p 4922775 1 [10]],
 [m 7 48 [1,1,1,2],m 609 80 [2,2,3],m 119 8 [1,3,3],m 241 6 [1,2,4],m 539 12 [1,1,5],p 40355 1 [4,5],p 175113 4 [3,6],p 209649 4 [2,7],p 74217 1 [1,8],m 31177575 1 [11]],
 [p 13 32 [1,1,2,2],p 31 96 [1,1,1,3],p 183 8 [2,3,3],p 1357 40 [2,2,4],p 2585 24 [1,3,4],p 1307 8 [1,2,5],p 8323 48 [1,1,6],m 154365 2 [5,5],m 637981 4 [4,6],m 707055 4 [3,7],m 858627 4 [2,8],m 1228227 4 [1,9],p 155887875 1 [12]],
 [m 7 16 [1,2,2,2],m 49 32 [1,1,2,3],m 21 32 [1,1,1,4],m 33 2 [3,3,3],m 1183 8 [2,3,4],m 291 2 [1,4,4],m 4917 40 [2,2,5],m 1367 4 [1,3,5],m 1085 2 [1,2,6],m 8757 16 [1,1,7],p 2051253 4 [5,6],p 2167983 4 [4,7],p 2440053 4 [3,8],p 749034 1 [2,9],p 4315311 4 [1,10],m 654729075 1 [13]],
 [p 31 192 [2,2,2,2],p 71 32 [1,2,2,3],p 81 64 [1,1,3,3],p 89 32 [1,1,2,4],p 59 48 [1,1,1,5],p 2067 16 [3,3,4],p 544 3 [2,4,4],p 444 1 [2,3,5],p 18005 24 [1,4,5],p 30159 80 [2,2,6],p 1925 2 [1,3,6],p 185927 120 [1,2,7],p 23863 16 [1,1,8],m 2977443 4 [6,6],m 6094269 4 [5,7],m 6547821 4 [4,8],m 7455987 4 [3,9],m 2309307 1 [2,10],m 3339336 1 [1,11]],
 [m 97 96 [2,2,2,3],m 109 32 [1,2,3,3],m 119 32 [1,2,2,4],m 133 32 [1,1,3,4],m 77 16 [1,1,2,5],m 103 48 [1,1,1,6],m 6517 24 [3,4,4],m 5481 16 [3,3,5],m 7165 8 [2,4,5],m 3283 4 [1,5,5],m 4821 4 [2,3,6],m 43603 24 [1,4,6],m 81217 80 [2,2,7],m 14693 6 [1,3,7],m 31491 8 [1,2,8],m 58091 16 [1,1,9],p 7937811 2 [6,7],p 16526223 4 [5,8],p 17977575 4 [4,9],p 144617187 28 [3,10],p 25782471 4 [2,11],p 9335040 1 [1,12]]],
[[p 1 48 [1,1,1],p 25 4 [2,3],p 119 12 [1,4],m 2145 1 [7]],
 [m 7 16 [1,1,2],m 125 4 [3,3],m 147 2 [2,4],m 483 4 [1,5],p 32175 1 [8]],
 [p 25 16 [1,2,2],p 31 16 [1,1,3],p 372 1 [3,4],p 1897 4 [2,5],p 3171 4 [1,6],m 257400 1 [9]],
 [m 21 16 [2,2,2],m 77 8 [1,2,3],m 105 16 [1,1,4],m 9065 12 [4,4],m 6643 4 [3,5],m 8841 4 [2,6],m 14861 4 [1,7],p 1458600 1 [10]],
 [p 155 16 [2,2,3],p 93 8 [1,3,3],p 207 8 [1,2,4],p 295 16 [1,1,5],p 5229 1 [4,5],p 12173 2 [3,6],p 33201 4 [2,7],p 55671 4 [1,8],m 6563700 1 [11]],
 [m 161 8 [2,3,3],m 357 16 [2,2,4],m 105 2 [1,3,4],m 497 8 [1,2,5],m 721 16 [1,1,6],m 29981 4 [5,5],m 63819 4 [4,6],m 38493 2 [3,7],m 106491 4 [2,8],m 177177 4 [1,9],p 24942060 1 [12]],
 [p 197 16 [3,3,3],p 163 2 [2,3,4],p 415 8 [1,4,4],p 767 16 [2,2,5],p 885 8 [1,3,5],p 1087 8 [1,2,6],p 791 8 [1,1,7],p 39571 1 [5,6],p 263515 6 [4,7],p 108423 2 [3,8],p 302379 4 [2,9],p 497497 4 [1,10],m 83140200 1 [13]],
 [m 1085 16 [3,3,4],m 595 8 [2,4,4],m 1267 8 [2,3,5],m 1575 8 [1,4,5],m 1545 16 [2,2,6],m 1751 8 [1,3,6],m 275 1 [1,2,7],m 1593 8 [1,1,8],m 185871 4 [6,6],m 388563 4 [5,7],m 221907 2 [4,8],m 278091 2 [3,9],m 778635 4 [2,10],m 1264263 4 [1,11]]]⟩
/-- `tDelta(3, 10)` — matslise_formulas.cpp:225 -/
def d3_10 : Entry4 :=
⟨[[p 1 8 [1,1,2],m 925 56 [3,3],m 36 1 [2,4],m 99 2 [1,5],p 19305 2 [8]],
 [m 1 1 [1,2,2],m 5 4 [1,1,3],p 1645 4 [3,4],p 945 2 [2,5],p 660 1 [1,6],m 328185 2 [9]],
 [p 11 8 [2,2,2],p 41 4 [1,2,3],p 57 8 [1,1,4],m 10795 8 [4,4],m 2842 1 [3,5],m 3369 1 [2,6],m 9537 2 [1,7],p 2953665 2 [10]],
 [m 59 4 [2,2,3],m 145 8 [1,3,3],m 81 2 [1,2,4],m 119 4 [1,1,5],p 13090 1 [4,5],p 28515 2 [3,6],p 34485 2 [2,7],p 49335 2 [1,8],m 18706545 2 [11]],
 [p 331 8 [2,3,3],p 369 8 [2,2,4],p 447 4 [1,3,4],p 533 4 [1,2,5],p 805 8 [1,1,6],m 50065 2 [5,5],m 103611 2 [4,6],m 57741 1 [3,7],m 141603 2 [2,8],m 102102 1 [1,9],p 93532725 2 [12]],
 [m 65 2 [3,3,3],m 867 4 [2,3,4],m 1149 8 [1,4,4],m 515 4 [2,2,5],m 307 1 [1,3,5],m 763 2 [1,2,6],m 2331 8 [1,1,7],p 332805 2 [5,6],p 176370 1 [4,7],p 199815 1 [3,8],p 247533 1 [2,9],p 717717 2 [1,10],m 392837445 2 [13]],
 [p 1787 8 [3,3,4],p 1979 8 [2,4,4],p 2113 4 [2,3,5],p 2745 4 [1,4,5],p 2613 8 [2,2,6],p 3065 4 [1,3,6],p 3913 4 [1,2,7],p 5985 8 [1,1,8],m 241500 1 [6,6],m 989733 2 [5,7],m 533778 1 [4,8],m 1224069 2 [3,9],m 1528527 2 [2,10],m 1111110 1 [1,11]]],
[[p 5 2 [2,3],p 7 2 [1,4],m 1287 2 [7]],
 [m 25 2 [3,3],m 28 1 [2,4],m 42 1 [1,5],p 19305 2 [8]],
 [p 146 1 [3,4],p 175 1 [2,5],p 273 1 [1,6],m 77220 1 [9]],
 [m 595 2 [4,4],m 637 1 [3,5],m 798 1 [2,6],m 2541 2 [1,7],p 437580 1 [10]],
 [p 4081 2 [4,5],p 4571 2 [3,6],p 5901 2 [2,7],p 9471 2 [1,8],m 1969110 1 [11]],
 [m 2933 1 [5,5],m 6139 1 [4,6],m 7098 1 [3,7],m 18711 2 [2,8],m 15015 1 [1,9],p 7482618 1 [12]],
 [p 15400 1 [5,6],p 16646 1 [4,7],p 19698 1 [3,8],p 26334 1 [2,9],p 42042 1 [1,10],m 24942060 1 [13]]],
[[p 1 20 [1,2,2],p 7 48 [1,1,3],m 735 2 [3,4],m 1701 4 [2,5],m 2409 4 [1,6],p 328185 2 [9]],
 [m 1 96 [1,1,1,1],m 3 20 [2,2,2],m 13 4 [1,2,3],m 203 48 [1,1,4],p 5145 2 [4,4],p 21735 4 [3,5],p 12969 2 [2,6],p 37323 4 [1,7],m 6235515 2 [10]],
 [p 1 6 [1,1,1,2],p 399 80 [2,2,3],p 99 8 [1,3,3],p 403 12 [1,2,4],p 245 6 [1,1,5],m 159285 4 [4,5],m 174159 4 [3,6],m 212223 4 [2,7],m 309309 4 [1,8],p 31177575 1 [11]],
 [m 11 16 [1,1,2,2],m 9 16 [1,1,1,3],m 93 4 [2,3,3],m 591 16 [2,2,4],m 1111 8 [1,3,4],m 847 4 [1,2,5],m 973 4 [1,1,6],p 429975 4 [5,5],p 891285 4 [4,6],p 249447 1 [3,7],p 1234233 4 [2,8],p 1816815 4 [1,9],m 218243025 1 [12]],
 [p 1 1 [1,2,2,2],p 29 8 [1,1,2,3],p 13 8 [1,1,1,4],p 177 8 [3,3,3],p 1757 8 [2,3,4],p 1583 6 [1,4,4],p 195 1 [2,2,5],p 4935 8 [1,3,5],p 3955 4 [1,2,6],p 4319 4 [1,1,7],m 1886805 2 [5,6],m 1002429 1 [4,7],m 1141371 1 [3,8],m 2855853 2 [2,9],m 2117115 1 [1,10],p 2400673275 2 [13]],
 [m 15 32 [2,2,2,2],m 107 16 [1,2,2,3],m 127 32 [1,1,3,3],m 141 16 [1,1,2,4],m 33 8 [1,1,1,5],m 1873 8 [3,3,4],m 8681 24 [2,4,4],m 3597 4 [2,3,5],m 14371 8 [1,4,5],m 16191 20 [2,2,6],m 9163 4 [1,3,6],m 37471 10 [1,2,7],m 15631 4 [1,1,8],p 6916959 4 [6,6],p 14189097 4 [5,7],p 3838065 1 [4,8],p 17702685 4 [3,9],p 22345323 4 [2,10],p 8321313 1 [1,11]],
 [p 89 24 [2,2,2,3],p 13 1 [1,2,3,3],p 115 8 [1,2,2,4],p 67 4 [1,1,3,4],p 79 4 [1,1,2,5],p 113 12 [1,1,1,6],p 14917 24 [3,4,4],p 6525 8 [3,3,5],p 9253 4 [2,4,5],p 2499 1 [1,5,5],p 25341 8 [2,3,6],p 66073 12 [1,4,6],p 56329 20 [2,2,7],p 177331 24 [1,3,7],p 24297 2 [1,2,8],p 48587 4 [1,1,9],m 45213021 4 [6,7],m 47249055 4 [5,8],m 51823695 4 [4,9],m 60345285 4 [3,10],m 19180161 1 [2,11],m 28639611 1 [1,12]]],
[[p 1 8 [1,1,2],p 475 56 [3,3],p 20 1 [2,4],p 69 2 [1,5],m 19305 2 [8]],
 [m 1 1 [1,2,2],m 5 4 [1,1,3],m 875 4 [3,4],m 567 2 [2,5],m 495 1 [1,6],p 328185 2 [9]],
 [p 11 8 [2,2,2],p 41 4 [1,2,3],p 57 8 [1,1,4],p 5725 8 [4,4],p 1582 1 [3,5],p 2154 1 [2,6],p 7557 2 [1,7],m 2953665 2 [10]],
 [m 59 4 [2,2,3],m 145 8 [1,3,3],m 81 2 [1,2,4],m 119 4 [1,1,5],m 7070 1 [4,5],m 16635 2 [3,6],m 23265 2 [2,7],m 40755 2 [1,8],p 18706545 2 [11]],
 [p 331 8 [2,3,3],p 369 8 [2,2,4],p 447 4 [1,3,4],p 533 4 [1,2,5],p 805 8 [1,1,6],p 26935 2 [5,5],p 57571 2 [4,6],p 35226 1 [3,7],p 100023 2 [2,8],p 87087 1 [1,9],m 93532725 2 [12]],
 [m 65 2 [3,3,3],m 867 4 [2,3,4],m 1149 8 [1,4,4],m 515 4 [2,2,5],m 307 1 [1,3,5],m 763 2 [1,2,6],m 2331 8 [1,1,7],m 181065 2 [5,6],m 101229 1 [4,7],m 127050 1 [3,8],m 181896 1 [2,9],m 627627 2 [1,10],p 392837445 2 [13]],
 [p 1787 8 [3,3,4],p 1979 8 [2,4,4],p 2113 4 [2,3,5],p 2745 4 [1,4,5],p 2613 8 [2,2,6],p 3065 4 [1,3,6],p 3913 4 [1,2,7],p 5985 8 [1,1,8],p 130935 1 [6,6],p 549105 2 [5,7],p 316743 1 [4,8],p 808269 2 [3,9],p 1162161 2 [2,10],p 990990 1 [1,11]]]⟩
/-- `tDelta(3, 11)` — matslise_formulas.cpp:226 -/
def d3_11 : Entry4 :=
⟨[[p 1 4 [1,2,2],p 5 16 [1,1,3],m 105 1 [3,4],m 483 4 [2,5],m 693 4 [1,6],p 85085 2 [9]],
 [m 3 4 [2,2,2],m 45 8 [1,2,3],m 63 16 [1,1,4],p 735 1 [4,4],p 6195 4 [3,5],p 1848 1 [2,6],p 10725 4 [1,7],m 1616615 2 [10]],
 [p 209 16 [2,2,3],p 65 4 [1,3,3],p 291 8 [1,2,4],p 217 8 [1,1,5],m 45465 4 [4,5],m 49623 4 [3,6],m 60621 4 [2,7],m 88803 4 [1,8],p 8083075 1 [11]],
 [m 105 2 [2,3,3],m 939 16 [2,2,4],m 579 4 [1,3,4],m 693 4 [1,2,5],m 1071 8 [1,1,6],p 122745 4 [5,5],p 254205 4 [4,6],p 71115 1 [3,7],p 353067 4 [2,8],p 521235 4 [1,9],m 56581525 1 [12]],
 [p 55 1 [3,3,3],p 1473 4 [2,3,4],p 501 2 [1,4,4],p 1759 8 [2,2,5],p 4289 8 [1,3,5],p 2681 4 [1,2,6],p 4221 8 [1,1,7],m 269220 1 [5,6],m 285819 1 [4,7],m 325677 1 [3,8],m 408837 1 [2,9],m 607035 1 [1,10],p 622396775 2 [13]],
 [m 483 1 [3,3,4],m 2151 4 [2,4,4],m 9201 8 [2,3,5],m 12327 8 [1,4,5],m 5733 8 [2,2,6],m 13797 8 [1,3,6],m 8883 4 [1,2,7],m 14091 8 [1,1,8],p 1974063 4 [6,6],p 4047639 4 [5,7],p 1094445 1 [4,8],p 5055765 4 [3,9],p 6401109 4 [2,10],p 2384811 1 [1,11]]],
[[p 25 8 [3,3],p 7 1 [2,4],p 21 2 [1,5],m 5005 2 [8]],
 [m 315 4 [3,4],m 189 2 [2,5],m 297 2 [1,6],p 85085 2 [9]],
 [p 2065 8 [4,4],p 553 1 [3,5],p 1389 2 [2,6],p 1122 1 [1,7],m 765765 2 [10]],
 [m 2520 1 [4,5],m 2826 1 [3,6],m 3663 1 [2,7],m 6006 1 [1,8],p 4849845 2 [11]],
 [p 9625 2 [5,5],p 10078 1 [4,6],p 23349 2 [3,7],p 15477 1 [2,8],p 51051 2 [1,9],m 24249225 2 [12]],
 [m 32121 1 [5,6],m 69507 2 [4,7],m 82467 2 [3,8],m 111111 2 [2,9],m 183183 2 [1,10],p 101846745 2 [13]]],
[[p 1 384 [1,1,1,1],p 1 60 [2,2,2],p 1 2 [1,2,3],p 35 48 [1,1,4],m 46795 72 [4,4],m 5495 4 [3,5],m 3311 2 [2,6],m 29315 12 [1,7],p 1616615 2 [10]],
 [m 3 32 [1,1,1,2],m 7 4 [2,2,3],m 145 28 [1,3,3],m 115 8 [1,2,4],m 297 16 [1,1,5],p 21315 1 [4,5],p 93555 4 [3,6],p 115401 4 [2,7],p 172315 4 [1,8],m 33948915 2 [11]],
 [p 41 64 [1,1,2,2],p 17 32 [1,1,1,3],p 101 7 [2,3,3],p 389 16 [2,2,4],p 415 4 [1,3,4],p 1279 8 [1,2,5],p 3099 16 [1,1,6],m 728875 8 [5,5],m 189105 1 [4,6],m 425865 2 [3,7],m 1068067 4 [2,8],m 402545 1 [1,9],p 373438065 2 [12]],
 [m 43 32 [1,2,2,2],m 159 32 [1,1,2,3],m 73 32 [1,1,1,4],m 415 21 [3,3,3],m 845 4 [2,3,4],m 1775 6 [1,4,4],m 3157 16 [2,2,5],m 2771 4 [1,3,5],m 8937 8 [1,2,6],m 20603 16 [1,1,7],p 4491585 4 [5,6],p 4785605 4 [4,7],p 2744885 2 [3,8],p 3484195 2 [2,9],p 7937215 3 [1,10],m 2863025165 2 [13]],
 [p 107 128 [2,2,2,2],p 391 32 [1,2,2,3],p 119 16 [1,1,3,3],p 531 32 [1,1,2,4],p 257 32 [1,1,1,5],p 8195 28 [3,3,4],p 1931 4 [2,4,4],p 4867 4 [2,3,5],p 22181 8 [1,4,5],p 18275 16 [2,2,6],p 3533 1 [1,3,6],p 46545 8 [1,2,7],p 102729 16 [1,1,8],m 21610715 8 [6,6],m 11094735 2 [5,7],m 24105235 4 [4,8],m 28038725 4 [3,9],m 8981115 1 [2,10],m 13710840 1 [1,11]],
 [m 273 32 [2,2,2,3],m 123 4 [1,2,3,3],m 1095 32 [1,2,2,4],m 657 16 [1,1,3,4],m 1563 32 [1,1,2,5],m 777 32 [1,1,1,6],m 2015 2 [3,4,4],m 38071 28 [3,3,5],m 32623 8 [2,4,5],m 40211 8 [1,5,5],m 11329 2 [2,3,6],m 88513 8 [1,4,6],m 418239 80 [2,2,7],m 14814 1 [1,3,7],m 196779 8 [1,2,8],m 417417 16 [1,1,9],p 44414601 2 [6,7],p 46510805 2 [5,8],p 25638470 1 [4,9],p 120568305 4 [3,10],p 38905724 1 [2,11],p 59583810 1 [1,12]]],
[[p 1 4 [1,2,2],p 5 16 [1,1,3],p 105 2 [3,4],p 273 4 [2,5],p 495 4 [1,6],m 85085 2 [9]],
 [m 3 4 [2,2,2],m 45 8 [1,2,3],m 63 16 [1,1,4],m 735 2 [4,4],m 3255 4 [3,5],m 1122 1 [2,6],m 8151 4 [1,7],p 1616615 2 [10]],
 [p 209 16 [2,2,3],p 65 4 [1,3,3],p 291 8 [1,2,4],p 217 8 [1,1,5],p 23205 4 [4,5],p 27435 4 [3,6],p 39039 4 [2,7],p 70785 4 [1,8],m 8083075 1 [11]],
 [m 105 2 [2,3,3],m 939 16 [2,2,4],m 579 4 [1,3,4],m 693 4 [1,2,5],m 1071 8 [1,1,6],m 62475 4 [5,5],m 133785 4 [4,6],m 82533 2 [3,7],m 238953 4 [2,8],m 431145 4 [1,9],p 56581525 1 [12]],
 [p 55 1 [3,3,3],p 1473 4 [2,3,4],p 501 2 [1,4,4],p 1759 8 [2,2,5],p 4289 8 [1,3,5],p 2681 4 [1,2,6],p 4221 8 [1,1,7],p 138750 1 [5,6],p 311493 2 [4,7],p 395175 2 [3,8],p 288717 1 [2,9],p 516945 1 [1,10],m 622396775 2 [13]],
 [m 483 1 [3,3,4],m 2151 4 [2,4,4],m 9201 8 [2,3,5],m 12327 8 [1,4,5],m 5733 8 [2,2,6],m 13797 8 [1,3,6],m 8883 4 [1,2,7],m 14091 8 [1,1,8],m 1014405 4 [6,6],m 2130369 4 [5,7],m 1236015 2 [4,8],m 3193905 4 [3,9],m 4689399 4 [2,10],m 2078505 1 [1,11]]]⟩
/-- `tDelta(3, 12)` — matslise_formulas.cpp:227 -/
def d3_12 : Entry4 :=
⟨[[p 1 6 [2,2,2],p 5 4 [1,2,3],p 7 8 [1,1,4],m 2989 18 [4,4],m 350 1 [3,5],m 418 1 [2,6],m 1859 3 [1,7],p 184756 1 [10]],
 [m 25 4 [2,2,3],m 125 16 [1,3,3],m 35 2 [1,2,4],m 105 8 [1,1,5],p 5439 1 [4,5],p 5940 1 [3,6],p 7293 1 [2,7],p 43615 4 [1,8],m 3879876 1 [11]],
 [p 645 16 [2,3,3],p 361 8 [2,2,4],p 899 8 [1,3,4],p 539 4 [1,2,5],p 843 8 [1,1,6],m 46501 2 [5,5],m 48165 1 [4,6],m 53988 1 [3,7],m 270127 4 [2,8],m 406835 4 [1,9],p 42678636 1 [12]],
 [m 2875 48 [3,3,3],m 3215 8 [2,3,4],m 4445 16 [1,4,4],m 1925 8 [2,2,5],m 595 1 [1,3,5],m 2985 4 [1,2,6],m 4785 8 [1,1,7],p 286335 1 [5,6],p 304205 1 [4,7],p 1390675 4 [3,8],p 1762475 4 [2,9],p 8010145 12 [1,10],m 327202876 1 [13]],
 [p 11159 16 [3,3,4],p 12461 16 [2,4,4],p 6669 4 [2,3,5],p 9121 4 [1,4,5],p 8347 8 [2,2,6],p 10223 4 [1,3,6],p 13227 4 [1,2,7],p 21483 8 [1,1,8],m 1377845 2 [6,6],m 1412970 1 [5,7],m 6120895 4 [4,8],m 7099235 4 [3,9],m 9084075 4 [2,10],m 13820235 4 [1,11]]],
[[p 35 2 [3,4],p 21 1 [2,5],p 33 1 [1,6],m 9724 1 [9]],
 [m 245 2 [4,4],m 525 2 [3,5],m 330 1 [2,6],m 2145 4 [1,7],p 184756 1 [10]],
 [p 3815 2 [4,5],p 4281 2 [3,6],p 11121 4 [2,7],p 18447 4 [1,8],m 1847560 1 [11]],
 [m 5145 1 [5,5],m 21555 2 [4,6],m 49995 4 [3,7],m 66495 4 [2,8],m 27885 1 [1,9],p 12932920 1 [12]],
 [p 45330 1 [5,6],p 196299 4 [4,7],p 233277 4 [3,8],p 78936 1 [2,9],p 132990 1 [1,10],m 71131060 1 [13]]],
[[p 1 48 [1,1,1,2],p 1 4 [2,2,3],p 45 56 [1,3,3],p 29 12 [1,2,4],p 13 4 [1,1,5],m 9555 2 [4,5],m 5247 1 [3,6],m 32604 5 [2,7],m 19877 2 [1,8],p 3879876 1 [11]],
 [m 5 16 [1,1,2,2],m 25 96 [1,1,1,3],m 275 56 [2,3,3],m 9 1 [2,2,4],m 245 6 [1,3,4],m 519 8 [1,2,5],m 649 8 [1,1,6],p 85995 2 [5,5],p 178563 2 [4,6],p 100815 1 [3,7],p 255255 2 [2,8],p 785213 4 [1,9],m 89237148 1 [12]],
 [p 17 16 [1,2,2,2],p 127 32 [1,1,2,3],p 59 32 [1,1,1,4],p 155 14 [3,3,3],p 127 1 [2,3,4],p 1585 8 [1,4,4],p 1001 8 [2,2,5],p 3747 8 [1,3,5],p 6117 8 [1,2,6],p 7293 8 [1,1,7],m 834876 1 [5,6],m 890604 1 [4,7],m 1026168 1 [3,8],m 5266833 4 [2,9],m 8160867 4 [1,10],p 1070845776 1 [13]],
 [m 15 16 [2,2,2,2],m 445 32 [1,2,2,3],m 275 32 [1,1,3,3],m 615 32 [1,1,2,4],m 455 48 [1,1,1,5],m 3455 14 [3,3,4],m 10225 24 [2,4,4],m 2191 2 [2,3,5],m 65705 24 [1,4,5],m 1065 1 [2,2,6],m 14049 4 [1,3,6],m 5819 1 [1,2,7],m 53339 8 [1,1,8],p 5611221 2 [6,6],p 11528517 2 [5,7],p 6275269 1 [4,8],p 29363763 4 [3,9],p 38062167 4 [2,10],p 14826669 1 [1,11]],
 [p 409 32 [2,2,2,3],p 751 16 [1,2,3,3],p 1677 32 [1,2,2,4],p 513 8 [1,1,3,4],p 613 8 [1,1,2,5],p 469 12 [1,1,1,6],p 6875 6 [3,4,4],p 44511 28 [3,3,5],p 19717 4 [2,4,5],p 53805 8 [1,5,5],p 55807 8 [2,3,6],p 89041 6 [1,4,6],p 52923 8 [2,2,7],p 159461 8 [1,3,7],p 33264 1 [1,2,8],p 294151 8 [1,1,9],m 60296775 2 [6,7],m 31604001 1 [5,8],m 139793225 4 [4,9],m 165453717 4 [3,10],m 54041130 1 [2,11],m 84525870 1 [1,12]]],
[[p 1 6 [2,2,2],p 5 4 [1,2,3],p 7 8 [1,1,4],p 1421 18 [4,4],p 175 1 [3,5],p 242 1 [2,6],p 2717 6 [1,7],m 184756 1 [10]],
 [m 25 4 [2,2,3],m 125 16 [1,3,3],m 35 2 [1,2,4],m 105 8 [1,1,5],m 2646 1 [4,5],m 3135 1 [3,6],m 9009 2 [2,7],m 33605 4 [1,8],p 3879876 1 [11]],
 [p 645 16 [2,3,3],p 361 8 [2,2,4],p 899 8 [1,3,4],p 539 4 [1,2,5],p 843 8 [1,1,6],p 22589 2 [5,5],p 24210 1 [4,6],p 29997 1 [3,7],p 176033 4 [2,8],p 326755 4 [1,9],m 42678636 1 [12]],
 [m 2875 48 [3,3,3],m 3215 8 [2,3,4],m 4445 16 [1,4,4],m 1925 8 [2,2,5],m 595 1 [1,3,5],m 2985 4 [1,2,6],m 4785 8 [1,1,7],m 141015 1 [5,6],m 158620 1 [4,7],m 810095 4 [3,8],m 1201915 4 [2,9],m 6648785 12 [1,10],p 327202876 1 [13]],
 [p 11159 16 [3,3,4],p 12461 16 [2,4,4],p 6669 4 [2,3,5],p 9121 4 [1,4,5],p 8347 8 [2,2,6],p 10223 4 [1,3,6],p 13227 4 [1,2,7],p 21483 8 [1,1,8],p 677005 2 [6,6],p 1423035 2 [5,7],p 3313475 4 [4,8],p 4316455 4 [3,9],p 6441435 4 [2,10],p 11778195 4 [1,11]]]⟩
/-- `tDelta(3, 13)` — matslise_formulas.cpp:228 -/
def d3_13 : Entry4 :=
⟨[[p 5 4 [2,2,3],p 25 16 [1,3,3],p 7 2 [1,2,4],p 21 8 [1,1,5],m 2205 2 [4,5],m 2409 2 [3,6],m 29601 20 [2,7],m 9009 4 [1,8],p 793611 1 [11]],
 [m 275 16 [2,3,3],m 77 4 [2,2,4],m 385 8 [1,3,4],m 231 4 [1,2,5],m 363 8 [1,1,6],p 19845 2 [5,5],p 20559 1 [4,6],p 92235 4 [3,7],p 57915 2 [2,8],p 177463 4 [1,9],m 18253053 1 [12]],
 [p 325 8 [3,3,3],p 2183 8 [2,3,4],p 3045 16 [1,4,4],p 1309 8 [2,2,5],p 1631 4 [1,3,5],p 2049 4 [1,2,6],p 6633 16 [1,1,7],m 192486 1 [5,6],m 818301 4 [4,7],m 936507 4 [3,8],m 1194193 4 [2,9],m 1840267 4 [1,10],p 219036636 1 [13]],
 [m 5335 8 [3,3,4],m 11935 16 [2,4,4],m 6391 4 [2,3,5],m 8855 4 [1,4,5],m 8019 8 [2,2,6],m 9933 4 [1,3,6],m 25773 8 [1,2,7],m 42471 16 [1,1,8],p 1293831 2 [6,6],p 5308149 4 [5,7],p 5752461 4 [4,8],p 3343769 2 [3,9],p 8622757 4 [2,10],p 13348621 4 [1,11]]],
[[p 49 2 [4,4],p 105 2 [3,5],p 66 1 [2,6],p 429 4 [1,7],m 37791 1 [10]],
 [m 1617 2 [4,5],m 1815 2 [3,6],m 4719 4 [2,7],m 7865 4 [1,8],p 793611 1 [11]],
 [p 6909 2 [5,5],p 14475 2 [4,6],p 16797 2 [3,7],p 44759 4 [2,8],p 37895 2 [1,9],m 8729721 1 [12]],
 [m 42735 1 [5,6],m 92565 2 [4,7],m 55055 1 [3,8],m 149435 2 [2,9],m 255255 2 [1,10],p 66927861 1 [13]]],
[[p 1 16 [1,1,2,2],p 5 96 [1,1,1,3],p 75 112 [2,3,3],p 29 20 [2,2,4],p 77 12 [1,3,4],p 87 8 [1,2,5],p 55 4 [1,1,6],m 95256 11 [5,5],m 35973 2 [4,6],m 81315 4 [3,7],m 103545 4 [2,8],m 161993 4 [1,9],p 18253053 1 [12]],
 [m 11 24 [1,2,2,2],m 55 32 [1,1,2,3],m 77 96 [1,1,1,4],m 375 112 [3,3,3],m 345 8 [2,3,4],m 2597 36 [1,4,4],m 1827 40 [2,2,5],m 1387 8 [1,3,5],m 2321 8 [1,2,6],m 8437 24 [1,1,7],p 704781 2 [5,6],p 1504503 4 [4,7],p 868725 2 [3,8],p 561561 1 [2,9],p 3539757 4 [1,10],m 456326325 1 [13]],
 [p 31 48 [2,2,2,2],p 309 32 [1,2,2,3],p 385 64 [1,1,3,3],p 431 32 [1,1,2,4],p 161 24 [1,1,1,5],p 14747 112 [3,3,4],p 34313 144 [2,4,4],p 5047 8 [2,3,5],p 39979 24 [1,4,5],p 5087 8 [2,2,6],p 17325 8 [1,3,6],p 43505 12 [1,2,7],p 67925 16 [1,1,8],m 3714417 2 [6,6],m 7633395 2 [5,7],m 4159584 1 [4,8],m 19531083 4 [3,9],m 6384469 1 [2,10],m 10119590 1 [1,11]],
 [m 1199 96 [2,2,2,3],m 1485 32 [1,2,3,3],m 1661 32 [1,2,2,4],m 2057 32 [1,1,3,4],m 77 1 [1,1,2,5],m 319 8 [1,1,1,6],m 127163 144 [3,4,4],m 20339 16 [3,3,5],m 32193 8 [2,4,5],m 47341 8 [1,5,5],m 46721 8 [2,3,6],m 104927 8 [1,4,6],m 45309 8 [2,2,7],m 426349 24 [1,3,7],m 238381 8 [1,2,8],m 541255 16 [1,1,9],p 27771282 1 [6,7],p 116513397 4 [5,8],p 129063935 4 [4,9],p 153435217 4 [3,10],p 202370805 4 [2,11],p 80536820 1 [1,12]]],
[[p 5 4 [2,2,3],p 25 16 [1,3,3],p 7 2 [1,2,4],p 21 8 [1,1,5],p 1029 2 [4,5],p 1221 2 [3,6],p 17589 20 [2,7],p 6721 4 [1,8],m 793611 1 [11]],
 [m 275 16 [2,3,3],m 77 4 [2,2,4],m 385 8 [1,3,4],m 231 4 [1,2,5],m 363 8 [1,1,6],m 9261 2 [5,5],m 9933 1 [4,6],m 49335 4 [3,7],m 36465 2 [2,8],m 138567 4 [1,9],p 18253053 1 [12]],
 [p 325 8 [3,3,3],p 2183 8 [2,3,4],p 3045 16 [1,4,4],p 1309 8 [2,2,5],p 1631 4 [1,3,5],p 2049 4 [1,2,6],p 6633 16 [1,1,7],p 91182 1 [5,6],p 410817 4 [4,7],p 526383 4 [3,8],p 789217 4 [2,9],p 1490203 4 [1,10],m 219036636 1 [13]],
 [m 5335 8 [3,3,4],m 11935 16 [2,4,4],m 6391 4 [2,3,5],m 8855 4 [1,4,5],m 8019 8 [2,2,6],m 9933 4 [1,3,6],m 25773 8 [1,2,7],m 42471 16 [1,1,8],m 611919 2 [6,6],m 2574033 4 [5,7],m 3002857 4 [4,8],m 1965821 2 [3,9],m 5938933 4 [2,10],m 11131549 4 [1,11]]]⟩
/-- `tDelta(3, 14)` — matslise_formulas.cpp:229 -/
def d3_14 : Entry4 :=
⟨[[p 25 8 [2,3,3],p 7 2 [2,2,4],p 35 4 [1,3,4],p 21 2 [1,2,5],p 33 4 [1,1,6],m 40131 22 [5,5],m 3780 1 [4,6],m 16965 4 [3,7],m 5330 1 [2,8],m 16575 2 [1,9],p 3380195 1 [12]],
 [m 125 8 [3,3,3],m 105 1 [2,3,4],m 147 2 [1,4,4],m 63 1 [2,2,5],m 315 2 [1,3,5],m 198 1 [1,2,6],m 1287 8 [1,1,7],p 74151 1 [5,6],p 315315 4 [4,7],p 361075 4 [3,8],p 230945 2 [2,9],p 180557 1 [1,10],m 84504875 1 [13]],
 [p 3245 8 [3,3,4],p 3633 8 [2,4,4],p 973 1 [2,3,5],p 1358 1 [1,4,5],p 2445 4 [2,2,6],p 1524 1 [1,3,6],p 1980 1 [1,2,7],p 3289 2 [1,1,8],m 781641 2 [6,6],m 801801 1 [5,7],m 3477045 4 [4,8],m 1011725 1 [3,9],m 1310972 1 [2,10],m 4119219 2 [1,11]]],
[[p 147 1 [4,5],p 165 1 [3,6],p 429 2 [2,7],p 715 2 [1,8],m 146965 1 [11]],
 [m 1323 1 [5,5],m 2772 1 [4,6],m 6435 2 [3,7],m 4290 1 [2,8],m 7293 1 [1,9],p 3380195 1 [12]],
 [p 25788 1 [5,6],p 55869 2 [4,7],p 66495 2 [3,8],p 45188 1 [2,9],p 77792 1 [1,10],m 40562340 1 [13]]],
[[p 1 12 [1,2,2,2],p 5 16 [1,1,2,3],p 7 48 [1,1,1,4],p 125 336 [3,3,3],p 25 4 [2,3,4],p 98 9 [1,4,4],p 147 20 [2,2,5],p 107 4 [1,3,5],p 187 4 [1,2,6],p 2717 48 [1,1,7],m 64449 1 [5,6],m 275275 4 [4,7],m 318175 4 [3,8],m 206635 2 [2,9],m 495482 3 [1,10],p 84504875 1 [13]],
 [m 1 4 [2,2,2,2],m 15 4 [1,2,2,3],m 75 32 [1,1,3,3],m 21 4 [1,1,2,4],m 21 8 [1,1,1,5],m 625 16 [3,3,4],m 917 12 [2,4,4],m 210 1 [2,3,5],m 567 1 [1,4,5],m 2211 10 [2,2,6],m 3003 4 [1,3,6],m 25597 20 [1,2,7],m 24167 16 [1,1,8],p 708939 1 [6,6],p 5828823 4 [5,7],p 3178175 2 [4,8],p 7475325 4 [3,9],p 4917029 2 [2,10],p 7906717 2 [1,11]],
 [p 123 16 [2,2,2,3],p 115 4 [1,2,3,3],p 515 16 [1,2,2,4],p 321 8 [1,1,3,4],p 385 8 [1,1,2,5],p 201 8 [1,1,1,6],p 20761 48 [3,4,4],p 2627 4 [3,3,5],p 8491 4 [2,4,5],p 13139 4 [1,5,5],p 3177 1 [2,3,6],p 14643 2 [1,4,6],p 252021 80 [2,2,7],p 80333 8 [1,3,7],p 67925 4 [1,2,8],p 78221 4 [1,1,9],m 66266739 4 [6,7],m 69530461 4 [5,8],m 77094875 4 [4,9],m 91905281 4 [3,10],m 61040863 2 [2,11],m 98613515 2 [1,12]]],
[[p 25 8 [2,3,3],p 7 2 [2,2,4],p 35 4 [1,3,4],p 21 2 [1,2,5],p 33 4 [1,1,6],p 18081 22 [5,5],p 1764 1 [4,6],p 8775 4 [3,7],p 3250 1 [2,8],p 12597 2 [1,9],m 3380195 1 [12]],
 [m 125 8 [3,3,3],m 105 1 [2,3,4],m 147 2 [1,4,4],m 63 1 [2,2,5],m 315 2 [1,3,5],m 198 1 [1,2,6],m 1287 8 [1,1,7],m 33957 1 [5,6],m 153153 4 [4,7],m 196625 4 [3,8],m 148291 2 [2,9],m 142766 1 [1,10],p 84504875 1 [13]],
 [p 3245 8 [3,3,4],p 3633 8 [2,4,4],p 973 1 [2,3,5],p 1358 1 [1,4,5],p 2445 4 [2,2,6],p 1524 1 [1,3,6],p 1980 1 [1,2,7],p 3289 2 [1,1,8],p 357651 2 [6,6],p 376299 1 [5,7],p 1758471 4 [4,8],p 577291 1 [3,9],p 879359 1 [2,10],p 3363399 2 [1,11]]]⟩
/-- `tDelta(3, 15)` — matslise_formulas.cpp:230 -/
def d3_15 : Entry4 :=
⟨[[p 125 48 [3,3,3],p 35 2 [2,3,4],p 49 4 [1,4,4],p 21 2 [2,2,5],p 105 4 [1,3,5],p 33 1 [1,2,6],p 429 16 [1,1,7],m 12474 1 [5,6],m 53053 4 [4,7],m 60775 4 [3,8],m 19448 1 [2,9],m 92378 3 [1,10],p 14300825 1 [13]],
 [m 2275 16 [3,3,4],m 637 4 [2,4,4],m 1365 4 [2,3,5],m 1911 4 [1,4,5],m 429 2 [2,2,6],m 2145 4 [1,3,6],m 5577 8 [1,2,7],m 9295 16 [1,1,8],p 137214 1 [6,6],p 1126125 4 [5,7],p 305305 1 [4,8],p 1422135 4 [3,9],p 461890 1 [2,10],p 734825 1 [1,11]]],
[[p 441 2 [5,5],p 462 1 [4,6],p 2145 4 [3,7],p 715 1 [2,8],p 2431 2 [1,9],m 572033 1 [12]],
 [m 9009 1 [5,6],m 39039 4 [4,7],m 46475 4 [3,8],m 31603 2 [2,9],m 54587 2 [1,10],p 14300825 1 [13]]],
[[p 1 24 [2,2,2,2],p 5 8 [1,2,2,3],p 25 64 [1,1,3,3],p 7 8 [1,1,2,4],p 7 16 [1,1,1,5],p 75 16 [3,3,4],p 385 36 [2,4,4],p 245 8 [2,3,5],p 329 4 [1,4,5],p 341 10 [2,2,6],p 891 8 [1,3,6],p 5863 30 [1,2,7],p 11011 48 [1,1,8],m 3087315 26 [6,6],m 976437 4 [5,7],m 1065295 4 [4,8],m 1253835 4 [3,9],m 827849 2 [2,10],m 673778 1 [1,11]],
 [m 65 24 [2,2,2,3],m 325 32 [1,2,3,3],m 91 8 [1,2,2,4],m 455 32 [1,1,3,4],m 273 16 [1,1,2,5],m 143 16 [1,1,1,6],m 8575 72 [3,4,4],m 3125 16 [3,3,5],m 5229 8 [2,4,5],m 45801 44 [1,5,5],m 1012 1 [2,3,6],m 18683 8 [1,4,6],m 5148 5 [2,2,7],m 78091 24 [1,3,7],m 44603 8 [1,2,8],m 309179 48 [1,1,9],p 23090067 4 [6,7],p 12117105 2 [5,8],p 6721715 1 [4,9],p 32101355 4 [3,10],p 21427497 2 [2,11],p 17525011 1 [1,12]]],
[[p 125 48 [3,3,3],p 35 2 [2,3,4],p 49 4 [1,4,4],p 21 2 [2,2,5],p 105 4 [1,3,5],p 33 1 [1,2,6],p 429 16 [1,1,7],p 5544 1 [5,6],p 25025 4 [4,7],p 32175 4 [3,8],p 12155 1 [2,9],p 71383 3 [1,10],m 14300825 1 [13]],
 [m 2275 16 [3,3,4],m 637 4 [2,4,4],m 1365 4 [2,3,5],m 1911 4 [1,4,5],m 429 2 [2,2,6],m 2145 4 [1,3,6],m 5577 8 [1,2,7],m 9295 16 [1,1,8],m 60984 1 [6,6],m 513513 4 [5,7],m 150150 1 [4,8],m 790075 4 [3,9],m 302328 1 [2,10],m 587860 1 [1,11]]]⟩
/-- `tDelta(3, 16)` — matslise_formulas.cpp:231 -/
def d3_16 : Entry4 :=
⟨[[p 175 8 [3,3,4],p 49 2 [2,4,4],p 105 2 [2,3,5],p 147 2 [1,4,5],p 33 1 [2,2,6],p 165 2 [1,3,6],p 429 4 [1,2,7],p 715 8 [1,1,8],m 276606 13 [6,6],m 43659 1 [5,7],m 47355 1 [4,8],m 55165 1 [3,9],m 71706 1 [2,10],m 115311 1 [1,11]]],
[[p 1386 1 [5,6],p 3003 2 [4,7],p 3575 2 [3,8],p 2431 1 [2,9],p 4199 1 [1,10],m 2228700 1 [13]]],
[[p 5 12 [2,2,2,3],p 25 16 [1,2,3,3],p 7 4 [1,2,2,4],p 35 16 [1,1,3,4],p 21 8 [1,1,2,5],p 11 8 [1,1,1,6],p 245 18 [3,4,4],p 25 1 [3,3,5],p 357 4 [2,4,5],p 1575 11 [1,5,5],p 143 1 [2,3,6],p 1295 4 [1,4,6],p 3003 20 [2,2,7],p 1378 3 [1,3,7],p 3211 4 [1,2,8],p 5525 6 [1,1,9],m 891891 1 [6,7],m 1872585 2 [5,8],m 2078505 2 [4,9],m 8691930 7 [3,10],m 1662804 1 [2,11],m 2748730 1 [1,12]]],
[[p 175 8 [3,3,4],p 49 2 [2,4,4],p 105 2 [2,3,5],p 147 2 [1,4,5],p 33 1 [2,2,6],p 165 2 [1,3,6],p 429 4 [1,2,7],p 715 8 [1,1,8],p 119790 13 [6,6],p 19404 1 [5,7],p 22715 1 [4,8],p 29920 1 [3,9],p 45866 1 [2,10],p 90440 1 [1,11]]]⟩
/-- `tDelta(3, *)` -/
def d3 : List Entry4 := [d3_0,d3_1,d3_2,d3_3,d3_4,d3_5,d3_6,d3_7,d3_8,d3_9,d3_10,d3_11,d3_12,d3_13,d3_14,d3_15,d3_16]
/-- `tH[3]` — matslise_formulas.cpp:232 -/
def tH3 : Entry4 :=
⟨[[],
 [],
 [],
 [],
 [],
 [p 5 2 [3]],
 [m 1 24 [1,1]],
 [p 7 1 [5]],
 [m 1 40 [2,2]],
 [p 27 2 [7]],
 [m 1 56 [3,3]],
 [p 22 1 [9]],
 [m 1 72 [4,4]],
 [p 65 2 [11]],
 [m 1 88 [5,5]],
 [p 45 1 [13]],
 [m 1 104 [6,6]],
 [p 119 2 [15]],
 [m 1 120 [7,7]]],
[[],
 [],
 [],
 [],
 [],
 [m 1 2 [2]],
 [],
 [m 1 2 [4]],
 [],
 [m 1 2 [6]],
 [],
 [m 1 2 [8]],
 [],
 [m 1 2 [10]],
 [],
 [m 1 2 [12]],
 [],
 [m 1 2 [14]]],
[[],
 [],
 [],
 [],
 [],
 [m 7 24 [1,1],p 35 2 [4]],
 [],
 [m 3 20 [2,2],m 1 2 [1,3],p 189 2 [6]],
 [],
 [m 15 56 [3,3],m 1 4 [2,4],m 1 2 [1,5],p 297 1 [8]],
 [],
 [m 5 36 [4,4],m 1 2 [3,5],m 1 4 [2,6],m 1 2 [1,7],p 715 1 [10]],
 [],
 [m 23 88 [5,5],m 1 4 [4,6],m 1 2 [3,7],m 1 4 [2,8],m 1 2 [1,9],p 2925 2 [12]],
 [],
 [m 7 52 [6,6],m 1 2 [5,7],m 1 4 [4,8],m 1 2 [3,9],m 1 4 [2,10],m 1 2 [1,11],p 5355 2 [14]],
 [],
 [m 31 120 [7,7],m 1 4 [6,8],m 1 2 [5,9],m 1 4 [4,10],m 1 2 [3,11],m 1 4 [2,12],m 1 2 [1,13]]],
[[],
 [],
 [],
 [],
 [],
 [m 5 2 [3]],
 [m 1 24 [1,1]],
 [m 7 1 [5]],
 [m 1 40 [2,2]],
 [m 27 2 [7]],
 [m 1 56 [3,3]],
 [m 22 1 [9]],
 [m 1 72 [4,4]],
 [m 65 2 [11]],
 [m 1 88 [5,5]],
 [m 45 1 [13]],
 [m 1 104 [6,6]],
 [m 119 2 [15]],
 [m 1 120 [7,7]]]⟩
end Verif.Formulas
