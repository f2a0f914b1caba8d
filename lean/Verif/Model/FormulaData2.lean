import Verif.Model.Formulas

/-! Generated by tools/gen_formulas.py from matslise/matslise/matslise_formulas.cpp (rows tDelta(2, *), tH[2]). -/
namespace Verif.Formulas
open Term
set_option maxRecDepth 100000

/-- `tDelta(2, 0)` — matslise_formulas.cpp:197 -/
def d2_0 : Entry4 :=
⟨[],
[],
[],
[]⟩
/-- `tDelta(2, 1)` — matslise_formulas.cpp:198 -/
def d2_1 : Entry4 :=
⟨[],
[],
[],
[]⟩
/-- `tDelta(2, 2)` — matslise_formulas.cpp:199 -/
def d2_2 : Entry4 :=
⟨[],
[],
[],
[]⟩
/-- `tDelta(2, 3)` — matslise_formulas.cpp:200 -/
def d2_3 : Entry4 :=
⟨[[m 1 2 [1]],
 [p 3 2 [2]],
 [m 3 1 [3]],
 [p 5 1 [4]],
 [m 15 2 [5]],
 [p 21 2 [6]],
 [m 14 1 [7]],
 [p 18 1 [8]],
 [m 45 2 [9]],
 [p 55 2 [10]],
 [m 33 1 [11]],
 [p 39 1 [12]],
 [m 91 2 [13]]],
[[],
 [m 1 2 [1]],
 [p 1 2 [2]],
 [m 1 2 [3]],
 [p 1 2 [4]],
 [m 1 2 [5]],
 [p 1 2 [6]],
 [m 1 2 [7]],
 [p 1 2 [8]],
 [m 1 2 [9]],
 [p 1 2 [10]],
 [m 1 2 [11]],
 [p 1 2 [12]],
 [m 1 2 [13]]],
[[m 3 2 [2]],
 [p 15 2 [3]],
 [p 1 8 [1,1],m 45 2 [4]],
 [m 1 4 [1,2],p 105 2 [5]],
 [p 1 8 [2,2],p 1 4 [1,3],m 105 1 [6]],
 [m 1 4 [2,3],m 1 4 [1,4],p 189 1 [7]],
 [p 1 8 [3,3],p 1 4 [2,4],p 1 4 [1,5],m 315 1 [8]],
 [m 1 4 [3,4],m 1 4 [2,5],m 1 4 [1,6],p 495 1 [9]],
 [p 1 8 [4,4],p 1 4 [3,5],p 1 4 [2,6],p 1 4 [1,7],m 1485 2 [10]],
 [m 1 4 [4,5],m 1 4 [3,6],m 1 4 [2,7],m 1 4 [1,8],p 2145 2 [11]],
 [p 1 8 [5,5],p 1 4 [4,6],p 1 4 [3,7],p 1 4 [2,8],p 1 4 [1,9],m 3003 2 [12]],
 [m 1 4 [5,6],m 1 4 [4,7],m 1 4 [3,8],m 1 4 [2,9],m 1 4 [1,10],p 4095 2 [13]],
 [p 1 8 [6,6],p 1 4 [5,7],p 1 4 [4,8],p 1 4 [3,9],p 1 4 [2,10],p 1 4 [1,11]],
 [m 1 4 [6,7],m 1 4 [5,8],m 1 4 [4,9],m 1 4 [3,10],m 1 4 [2,11],m 1 4 [1,12]]],
[[p 1 2 [1]],
 [m 3 2 [2]],
 [p 3 1 [3]],
 [m 5 1 [4]],
 [p 15 2 [5]],
 [m 21 2 [6]],
 [p 14 1 [7]],
 [m 18 1 [8]],
 [p 45 2 [9]],
 [m 55 2 [10]],
 [p 33 1 [11]],
 [m 39 1 [12]],
 [p 91 2 [13]]]⟩
/-- `tDelta(2, 4)` — matslise_formulas.cpp:201 -/
def d2_4 : Entry4 :=
⟨[[m 3 2 [2]],
 [p 15 2 [3]],
 [p 1 8 [1,1],m 45 2 [4]],
 [m 1 4 [1,2],p 105 2 [5]],
 [p 1 8 [2,2],p 1 4 [1,3],m 105 1 [6]],
 [m 1 4 [2,3],m 1 4 [1,4],p 189 1 [7]],
 [p 1 8 [3,3],p 1 4 [2,4],p 1 4 [1,5],m 315 1 [8]],
 [m 1 4 [3,4],m 1 4 [2,5],m 1 4 [1,6],p 495 1 [9]],
 [p 1 8 [4,4],p 1 4 [3,5],p 1 4 [2,6],p 1 4 [1,7],m 1485 2 [10]],
 [m 1 4 [4,5],m 1 4 [3,6],m 1 4 [2,7],m 1 4 [1,8],p 2145 2 [11]],
 [p 1 8 [5,5],p 1 4 [4,6],p 1 4 [3,7],p 1 4 [2,8],p 1 4 [1,9],m 3003 2 [12]],
 [m 1 4 [5,6],m 1 4 [4,7],m 1 4 [3,8],m 1 4 [2,9],m 1 4 [1,10],p 4095 2 [13]],
 [p 1 8 [6,6],p 1 4 [5,7],p 1 4 [4,8],p 1 4 [3,9],p 1 4 [2,10],p 1 4 [1,11]]],
[[p 1 2 [1]],
 [m 3 2 [2]],
 [p 3 1 [3]],
 [m 5 1 [4]],
 [p 15 2 [5]],
 [m 21 2 [6]],
 [p 14 1 [7]],
 [m 18 1 [8]],
 [p 45 2 [9]],
 [m 55 2 [10]],
 [p 33 1 [11]],
 [m 39 1 [12]],
 [p 91 2 [13]]],
[[m 15 2 [3]],
 [m 1 4 [1,1],p 105 2 [4]],
 [p 1 1 [1,2],m 210 1 [5]],
 [m 3 4 [2,2],m 7 4 [1,3],p 630 1 [6]],
 [p 9 4 [2,3],p 11 4 [1,4],m 1575 1 [7]],
 [m 3 2 [3,3],m 13 4 [2,4],m 4 1 [1,5],p 3465 1 [8]],
 [p 4 1 [3,4],p 9 2 [2,5],p 11 2 [1,6],m 6930 1 [9]],
 [m 5 2 [4,4],m 21 4 [3,5],m 6 1 [2,6],m 29 4 [1,7],p 12870 1 [10]],
 [p 25 4 [4,5],p 27 4 [3,6],p 31 4 [2,7],p 37 4 [1,8],m 45045 2 [11]],
 [m 15 4 [5,5],m 31 4 [4,6],m 17 2 [3,7],m 39 4 [2,8],m 23 2 [1,9],p 75075 2 [12]],
 [p 9 1 [5,6],p 19 2 [4,7],p 21 2 [3,8],p 12 1 [2,9],p 14 1 [1,10],m 60060 1 [13]],
 [m 21 4 [6,6],m 43 4 [5,7],m 23 2 [4,8],m 51 4 [3,9],m 29 2 [2,10],m 67 4 [1,11]],
 [p 49 4 [6,7],p 51 4 [5,8],p 55 4 [4,9],p 61 4 [3,10],p 69 4 [2,11],p 79 4 [1,12]]],
[[p 3 2 [2]],
 [m 15 2 [3]],
 [p 1 8 [1,1],p 45 2 [4]],
 [m 1 4 [1,2],m 105 2 [5]],
 [p 1 8 [2,2],p 1 4 [1,3],p 105 1 [6]],
 [m 1 4 [2,3],m 1 4 [1,4],m 189 1 [7]],
 [p 1 8 [3,3],p 1 4 [2,4],p 1 4 [1,5],p 315 1 [8]],
 [m 1 4 [3,4],m 1 4 [2,5],m 1 4 [1,6],m 495 1 [9]],
 [p 1 8 [4,4],p 1 4 [3,5],p 1 4 [2,6],p 1 4 [1,7],p 1485 2 [10]],
 [m 1 4 [4,5],m 1 4 [3,6],m 1 4 [2,7],m 1 4 [1,8],m 2145 2 [11]],
 [p 1 8 [5,5],p 1 4 [4,6],p 1 4 [3,7],p 1 4 [2,8],p 1 4 [1,9],p 3003 2 [12]],
 [m 1 4 [5,6],m 1 4 [4,7],m 1 4 [3,8],m 1 4 [2,9],m 1 4 [1,10],m 4095 2 [13]],
 [p 1 8 [6,6],p 1 4 [5,7],p 1 4 [4,8],p 1 4 [3,9],p 1 4 [2,10],p 1 4 [1,11]]]⟩
/-- `tDelta(2, 5)` — matslise_formulas.cpp:202 -/
def d2_5 : Entry4 :=
⟨[[m 5 1 [3]],
 [m 1 4 [1,1],p 35 1 [4]],
 [p 1 1 [1,2],m 140 1 [5]],
 [m 3 4 [2,2],m 7 4 [1,3],p 420 1 [6]],
 [p 9 4 [2,3],p 11 4 [1,4],m 1050 1 [7]],
 [m 3 2 [3,3],m 13 4 [2,4],m 4 1 [1,5],p 2310 1 [8]],
 [p 4 1 [3,4],p 9 2 [2,5],p 11 2 [1,6],m 4620 1 [9]],
 [m 5 2 [4,4],m 21 4 [3,5],m 6 1 [2,6],m 29 4 [1,7],p 8580 1 [10]],
 [p 25 4 [4,5],p 27 4 [3,6],p 31 4 [2,7],p 37 4 [1,8],m 15015 1 [11]],
 [m 15 4 [5,5],m 31 4 [4,6],m 17 2 [3,7],m 39 4 [2,8],m 23 2 [1,9],p 25025 1 [12]],
 [p 9 1 [5,6],p 19 2 [4,7],p 21 2 [3,8],p 12 1 [2,9],p 14 1 [1,10],m 40040 1 [13]],
 [m 21 4 [6,6],m 43 4 [5,7],m 23 2 [4,8],m 51 4 [3,9],m 29 2 [2,10],m 67 4 [1,11]]],
[[p 1 1 [2]],
 [m 5 1 [3]],
 [p 15 1 [4]],
 [m 35 1 [5]],
 [p 70 1 [6]],
 [m 126 1 [7]],
 [p 210 1 [8]],
 [m 330 1 [9]],
 [p 495 1 [10]],
 [m 715 1 [11]],
 [p 1001 1 [12]],
 [m 1365 1 [13]]],
[[p 1 12 [1,1],m 35 1 [4]],
 [m 5 4 [1,2],p 315 1 [5]],
 [p 3 2 [2,2],p 19 4 [1,3],m 1575 1 [6]],
 [m 1 48 [1,1,1],m 15 2 [2,3],m 155 12 [1,4],p 5775 1 [7]],
 [p 1 16 [1,1,2],p 27 4 [3,3],p 17 1 [2,4],p 115 4 [1,5],m 17325 1 [8]],
 [m 1 16 [1,2,2],m 1 16 [1,1,3],m 25 1 [3,4],m 69 2 [2,5],m 56 1 [1,6],p 45045 1 [9]],
 [p 1 48 [2,2,2],p 1 8 [1,2,3],p 1 16 [1,1,4],p 235 12 [4,4],p 45 1 [3,5],p 255 4 [2,6],p 595 6 [1,7],m 105105 1 [10]],
 [m 1 16 [2,2,3],m 1 16 [1,3,3],m 1 8 [1,2,4],m 1 16 [1,1,5],m 125 2 [4,5],m 309 4 [3,6],m 437 4 [2,7],m 327 2 [1,8],p 225225 1 [11]],
 [p 1 16 [2,3,3],p 1 16 [2,2,4],p 1 8 [1,3,4],p 1 8 [1,2,5],p 1 16 [1,1,6],p 45 1 [5,5],p 395 4 [4,6],p 505 4 [3,7],p 705 4 [2,8],p 255 1 [1,9],m 450450 1 [12]],
 [m 1 48 [3,3,3],m 1 8 [2,3,4],m 1 16 [1,4,4],m 1 16 [2,2,5],m 1 8 [1,3,5],m 1 8 [1,2,6],m 1 16 [1,1,7],m 525 4 [5,6],m 1829 12 [4,7],m 789 4 [3,8],m 1083 4 [2,9],m 4565 12 [1,10],p 850850 1 [13]],
 [p 1 16 [3,3,4],p 1 16 [2,4,4],p 1 8 [2,3,5],p 1 8 [1,4,5],p 1 16 [2,2,6],p 1 8 [1,3,6],p 1 8 [1,2,7],p 1 16 [1,1,8],p 357 4 [6,6],p 763 4 [5,7],p 915 4 [4,8],p 1185 4 [3,9],p 799 2 [2,10],p 2189 4 [1,11]],
 [m 1 16 [3,4,4],m 1 16 [3,3,5],m 1 8 [2,4,5],m 1 16 [1,5,5],m 1 8 [2,3,6],m 1 8 [1,4,6],m 1 16 [2,2,7],m 1 8 [1,3,7],m 1 8 [1,2,8],m 1 16 [1,1,9],m 245 1 [6,7],m 1095 4 [5,8],m 1335 4 [4,9],m 430 1 [3,10],m 570 1 [2,11],m 3055 4 [1,12]]],
[[p 5 1 [3]],
 [m 1 4 [1,1],m 35 1 [4]],
 [p 1 1 [1,2],p 140 1 [5]],
 [m 3 4 [2,2],m 7 4 [1,3],m 420 1 [6]],
 [p 9 4 [2,3],p 11 4 [1,4],p 1050 1 [7]],
 [m 3 2 [3,3],m 13 4 [2,4],m 4 1 [1,5],m 2310 1 [8]],
 [p 4 1 [3,4],p 9 2 [2,5],p 11 2 [1,6],p 4620 1 [9]],
 [m 5 2 [4,4],m 21 4 [3,5],m 6 1 [2,6],m 29 4 [1,7],m 8580 1 [10]],
 [p 25 4 [4,5],p 27 4 [3,6],p 31 4 [2,7],p 37 4 [1,8],p 15015 1 [11]],
 [m 15 4 [5,5],m 31 4 [4,6],m 17 2 [3,7],m 39 4 [2,8],m 23 2 [1,9],m 25025 1 [12]],
 [p 9 1 [5,6],p 19 2 [4,7],p 21 2 [3,8],p 12 1 [2,9],p 14 1 [1,10],p 40040 1 [13]],
 [m 21 4 [6,6],m 43 4 [5,7],m 23 2 [4,8],m 51 4 [3,9],m 29 2 [2,10],m 67 4 [1,11]]]⟩
/-- `tDelta(2, 6)` — matslise_formulas.cpp:203 -/
def d2_6 : Entry4 :=
⟨[[p 1 8 [1,1],m 35 2 [4]],
 [m 5 4 [1,2],p 315 2 [5]],
 [p 13 8 [2,2],p 4 1 [1,3],m 1575 2 [6]],
 [m 15 2 [2,3],m 10 1 [1,4],p 5775 2 [7]],
 [p 7 1 [3,3],p 31 2 [2,4],p 85 4 [1,5],m 17325 2 [8]],
 [m 25 1 [3,4],m 117 4 [2,5],m 161 4 [1,6],p 45045 2 [9]],
 [p 20 1 [4,4],p 85 2 [3,5],p 205 4 [2,6],p 70 1 [1,7],m 105105 2 [10]],
 [m 125 2 [4,5],m 69 1 [3,6],m 169 2 [2,7],m 114 1 [1,8],p 225225 2 [11]],
 [p 365 8 [5,5],p 95 1 [4,6],p 215 2 [3,7],p 265 2 [2,8],p 705 4 [1,9],m 225225 1 [12]],
 [m 525 4 [5,6],m 281 2 [4,7],m 323 2 [3,8],m 797 4 [2,9],m 1045 4 [1,10],p 425425 1 [13]],
 [p 721 8 [6,6],p 371 2 [5,7],p 405 2 [4,8],p 235 1 [3,9],p 1157 4 [2,10],p 374 1 [1,11]]],
[[p 5 2 [3]],
 [m 35 2 [4]],
 [p 70 1 [5]],
 [m 210 1 [6]],
 [p 525 1 [7]],
 [m 1155 1 [8]],
 [p 2310 1 [9]],
 [m 4290 1 [10]],
 [p 15015 2 [11]],
 [m 25025 2 [12]],
 [p 20020 1 [13]]],
[[p 1 2 [1,2],m 315 2 [5]],
 [m 3 2 [2,2],m 5 1 [1,3],p 3465 2 [6]],
 [p 1 16 [1,1,1],p 13 1 [2,3],p 25 1 [1,4],m 10395 1 [7]],
 [m 5 16 [1,1,2],m 35 2 [3,3],m 45 1 [2,4],m 175 2 [1,5],p 45045 1 [8]],
 [p 7 16 [1,2,2],p 1 2 [1,1,3],p 90 1 [3,4],p 130 1 [2,5],p 245 1 [1,6],m 315315 2 [9]],
 [m 3 16 [2,2,2],m 5 4 [1,2,3],m 3 4 [1,1,4],m 185 2 [4,4],m 215 1 [3,5],m 651 2 [2,6],m 588 1 [1,7],p 945945 2 [10]],
 [p 3 4 [2,2,3],p 13 16 [1,3,3],p 7 4 [1,2,4],p 17 16 [1,1,5],p 375 1 [4,5],p 475 1 [3,6],p 728 1 [2,7],p 1260 1 [1,8],m 1261260 1 [11]],
 [m 15 16 [2,3,3],m 1 1 [2,2,4],m 17 8 [1,3,4],m 19 8 [1,2,5],m 23 16 [1,1,6],m 665 2 [5,5],m 735 1 [4,6],m 1951 2 [3,7],m 1488 1 [2,8],m 2475 1 [1,9],p 3063060 1 [12]],
 [p 3 8 [3,3,3],p 19 8 [2,3,4],p 21 16 [1,4,4],p 21 16 [2,2,5],p 11 4 [1,3,5],p 25 8 [1,2,6],p 15 8 [1,1,7],p 2345 2 [5,6],p 2765 2 [4,7],p 3755 2 [3,8],p 5655 2 [2,9],p 9075 2 [1,10],m 6891885 1 [13]],
 [m 11 8 [3,3,4],m 23 16 [2,4,4],m 3 1 [2,3,5],m 13 4 [1,4,5],m 27 16 [2,2,6],m 7 2 [1,3,6],m 4 1 [1,2,7],m 19 8 [1,1,8],m 945 1 [6,6],m 2030 1 [5,7],m 4985 2 [4,8],m 3415 1 [3,9],m 5060 1 [2,10],m 7865 1 [1,11]],
 [p 13 8 [3,4,4],p 27 16 [3,3,5],p 7 2 [2,4,5],p 31 16 [1,5,5],p 15 4 [2,3,6],p 4 1 [1,4,6],p 17 8 [2,2,7],p 35 8 [1,3,7],p 5 1 [1,2,8],p 47 16 [1,1,9],p 3038 1 [6,7],p 3430 1 [5,8],p 4315 1 [4,9],p 5915 1 [3,10],p 8613 1 [2,11],p 13013 1 [1,12]]],
[[p 1 8 [1,1],p 35 2 [4]],
 [m 5 4 [1,2],m 315 2 [5]],
 [p 13 8 [2,2],p 4 1 [1,3],p 1575 2 [6]],
 [m 15 2 [2,3],m 10 1 [1,4],m 5775 2 [7]],
 [p 7 1 [3,3],p 31 2 [2,4],p 85 4 [1,5],p 17325 2 [8]],
 [m 25 1 [3,4],m 117 4 [2,5],m 161 4 [1,6],m 45045 2 [9]],
 [p 20 1 [4,4],p 85 2 [3,5],p 205 4 [2,6],p 70 1 [1,7],p 105105 2 [10]],
 [m 125 2 [4,5],m 69 1 [3,6],m 169 2 [2,7],m 114 1 [1,8],m 225225 2 [11]],
 [p 365 8 [5,5],p 95 1 [4,6],p 215 2 [3,7],p 265 2 [2,8],p 705 4 [1,9],p 225225 1 [12]],
 [m 525 4 [5,6],m 281 2 [4,7],m 323 2 [3,8],m 797 4 [2,9],m 1045 4 [1,10],m 425425 1 [13]],
 [p 721 8 [6,6],p 371 2 [5,7],p 405 2 [4,8],p 235 1 [3,9],p 1157 4 [2,10],p 374 1 [1,11]]]⟩
/-- `tDelta(2, 7)` — matslise_formulas.cpp:204 -/
def d2_7 : Entry4 :=
⟨[[p 1 2 [1,2],m 63 1 [5]],
 [m 3 2 [2,2],m 15 4 [1,3],p 693 1 [6]],
 [p 47 4 [2,3],p 65 4 [1,4],m 4158 1 [7]],
 [m 65 4 [3,3],m 145 4 [2,4],m 105 2 [1,5],p 18018 1 [8]],
 [p 80 1 [3,4],p 95 1 [2,5],p 140 1 [1,6],m 63063 1 [9]],
 [m 335 4 [4,4],m 715 4 [3,5],m 441 2 [2,6],m 651 2 [1,7],p 189189 1 [10]],
 [p 1325 4 [4,5],p 1475 4 [3,6],p 931 2 [2,7],p 1365 2 [1,8],m 504504 1 [11]],
 [m 595 2 [5,5],m 2485 4 [4,6],m 2847 4 [3,7],m 1821 2 [2,8],m 1320 1 [1,9],p 1225224 1 [12]],
 [p 2065 2 [5,6],p 4445 4 [4,7],p 5195 4 [3,8],p 3345 2 [2,9],p 4785 2 [1,10],m 2756754 1 [13]],
 [m 840 1 [6,6],m 3465 2 [5,7],m 7625 4 [4,8],m 9035 4 [3,9],m 2915 1 [2,10],m 16445 4 [1,11]]],
[[p 7 1 [4]],
 [m 63 1 [5]],
 [p 315 1 [6]],
 [m 1155 1 [7]],
 [p 3465 1 [8]],
 [m 9009 1 [9]],
 [p 21021 1 [10]],
 [m 45045 1 [11]],
 [p 90090 1 [12]],
 [m 170170 1 [13]]],
[[p 3 5 [2,2],p 7 4 [1,3],m 693 1 [6]],
 [m 1 16 [1,1,1],m 45 4 [2,3],m 21 1 [1,4],p 9009 1 [7]],
 [p 9 16 [1,1,2],p 51 2 [3,3],p 127 2 [2,4],p 511 4 [1,5],m 63063 1 [8]],
 [m 19 16 [1,2,2],m 23 16 [1,1,3],m 759 4 [3,4],m 1071 4 [2,5],m 2163 4 [1,6],p 315315 1 [9]],
 [p 11 16 [2,2,2],p 39 8 [1,2,3],p 51 16 [1,1,4],p 1065 4 [4,4],p 609 1 [3,5],p 3675 4 [2,6],p 7245 4 [1,7],m 1261260 1 [10]],
 [m 59 16 [2,2,3],m 17 4 [1,3,3],m 75 8 [1,2,4],m 101 16 [1,1,5],m 5565 4 [4,5],m 3465 2 [3,6],m 53949 20 [2,7],m 20559 4 [1,8],p 4288284 1 [11]],
 [p 47 8 [2,3,3],p 103 16 [2,2,4],p 29 2 [1,3,4],p 135 8 [1,2,5],p 183 16 [1,1,6],p 6195 4 [5,5],p 13559 4 [4,6],p 17815 4 [3,7],p 28035 4 [2,8],p 51513 4 [1,9],m 12864852 1 [12]],
 [m 23 8 [3,3,3],m 75 4 [2,3,4],m 45 4 [1,4,4],m 173 16 [2,2,5],m 191 8 [1,3,5],m 229 8 [1,2,6],m 309 16 [1,1,7],m 13293 2 [5,6],m 15477 2 [4,7],m 42021 4 [3,8],m 66033 4 [2,9],m 117117 4 [1,10],p 34918884 1 [13]],
 [p 103 8 [3,3,4],p 111 8 [2,4,4],p 235 8 [2,3,5],p 275 8 [1,4,5],p 279 16 [2,2,6],p 303 8 [1,3,6],p 369 8 [1,2,7],p 493 16 [1,1,8],p 25683 4 [6,6],p 13699 1 [5,7],p 16646 1 [4,8],p 23022 1 [3,9],p 143517 4 [2,10],p 123123 2 [1,11]],
 [m 145 8 [3,4,4],m 153 8 [3,3,5],m 327 8 [2,4,5],m 395 16 [1,5,5],m 359 8 [2,3,6],m 411 8 [1,4,6],m 433 16 [2,2,7],m 58 1 [1,3,7],m 569 8 [1,2,8],m 751 16 [1,1,9],m 24255 1 [6,7],m 54243 2 [5,8],m 135725 4 [4,9],m 94721 2 [3,10],m 72930 1 [2,11],m 485485 4 [1,12]]],
[[p 1 2 [1,2],p 63 1 [5]],
 [m 3 2 [2,2],m 15 4 [1,3],m 693 1 [6]],
 [p 47 4 [2,3],p 65 4 [1,4],p 4158 1 [7]],
 [m 65 4 [3,3],m 145 4 [2,4],m 105 2 [1,5],m 18018 1 [8]],
 [p 80 1 [3,4],p 95 1 [2,5],p 140 1 [1,6],p 63063 1 [9]],
 [m 335 4 [4,4],m 715 4 [3,5],m 441 2 [2,6],m 651 2 [1,7],m 189189 1 [10]],
 [p 1325 4 [4,5],p 1475 4 [3,6],p 931 2 [2,7],p 1365 2 [1,8],p 504504 1 [11]],
 [m 595 2 [5,5],m 2485 4 [4,6],m 2847 4 [3,7],m 1821 2 [2,8],m 1320 1 [1,9],m 1225224 1 [12]],
 [p 2065 2 [5,6],p 4445 4 [4,7],p 5195 4 [3,8],p 3345 2 [2,9],p 4785 2 [1,10],p 2756754 1 [13]],
 [m 840 1 [6,6],m 3465 2 [5,7],m 7625 4 [4,8],m 9035 4 [3,9],m 2915 1 [2,10],m 16445 4 [1,11]]]⟩
/-- `tDelta(2, 8)` — matslise_formulas.cpp:205 -/
def d2_8 : Entry4 :=
⟨[[p 1 2 [2,2],p 5 4 [1,3],m 231 1 [6]],
 [m 35 4 [2,3],m 49 4 [1,4],p 3003 1 [7]],
 [p 20 1 [3,3],p 179 4 [2,4],p 133 2 [1,5],m 21021 1 [8]],
 [m 287 2 [3,4],m 343 2 [2,5],m 525 2 [1,6],p 105105 1 [9]],
 [p 407 2 [4,4],p 1741 4 [3,5],p 1085 2 [2,6],p 840 1 [1,7],m 420420 1 [10]],
 [m 4165 4 [4,5],m 4655 4 [3,6],m 1491 1 [2,7],m 2310 1 [1,8],p 1429428 1 [11]],
 [p 1169 1 [5,5],p 9779 4 [4,6],p 5635 2 [3,7],p 3675 1 [2,8],p 11319 2 [1,9],m 4288284 1 [12]],
 [m 4949 1 [5,6],m 5341 1 [4,7],m 12585 2 [3,8],m 16599 2 [2,9],m 25311 2 [1,10],p 11639628 1 [13]],
 [p 9625 2 [6,6],p 19873 2 [5,7],p 10976 1 [4,8],p 52563 4 [3,9],p 34881 2 [2,10],p 105105 4 [1,11]]],
[[p 21 1 [5]],
 [m 231 1 [6]],
 [p 1386 1 [7]],
 [m 6006 1 [8]],
 [p 21021 1 [9]],
 [m 63063 1 [10]],
 [p 168168 1 [11]],
 [m 408408 1 [12]],
 [p 918918 1 [13]]],
[[p 1 48 [1,1,1],p 15 4 [2,3],p 77 12 [1,4],m 3003 1 [7]],
 [m 7 16 [1,1,2],m 75 4 [3,3],m 91 2 [2,4],m 357 4 [1,5],p 45045 1 [8]],
 [p 25 16 [1,2,2],p 31 16 [1,1,3],p 226 1 [3,4],p 1239 4 [2,5],p 2541 4 [1,6],m 360360 1 [9]],
 [m 21 16 [2,2,2],m 77 8 [1,2,3],m 105 16 [1,1,4],m 5495 12 [4,4],m 4137 4 [3,5],m 6111 4 [2,6],m 12551 4 [1,7],p 2042040 1 [10]],
 [p 155 16 [2,2,3],p 93 8 [1,3,3],p 207 8 [1,2,4],p 295 16 [1,1,5],p 3199 1 [4,5],p 7833 2 [3,6],p 24171 4 [2,7],p 48741 4 [1,8],m 9189180 1 [11]],
 [m 161 8 [2,3,3],m 357 16 [2,2,4],m 105 2 [1,3,4],m 497 8 [1,2,5],m 721 16 [1,1,6],m 18291 4 [5,5],m 39725 4 [4,6],m 25683 2 [3,7],m 81081 4 [2,8],m 159159 4 [1,9],p 34918884 1 [12]],
 [p 197 16 [3,3,3],p 163 2 [2,3,4],p 415 8 [1,4,4],p 767 16 [2,2,5],p 885 8 [1,3,5],p 1087 8 [1,2,6],p 791 8 [1,1,7],p 24297 1 [5,6],p 167797 6 [4,7],p 75033 2 [3,8],p 239085 4 [2,9],p 455455 4 [1,10],m 116396280 1 [13]],
 [m 1085 16 [3,3,4],m 595 8 [2,4,4],m 1267 8 [2,3,5],m 1575 8 [1,4,5],m 1545 16 [2,2,6],m 1751 8 [1,3,6],m 275 1 [1,2,7],m 1593 8 [1,1,8],m 113841 4 [6,6],m 241605 4 [5,7],m 145005 2 [4,8],m 199287 2 [3,9],m 635349 4 [2,10],m 1174173 4 [1,11]],
 [p 1835 16 [3,4,4],p 975 8 [3,3,5],p 2125 8 [2,4,5],p 2745 16 [1,5,5],p 2357 8 [2,3,6],p 2865 8 [1,4,6],p 1469 8 [2,2,7],p 3277 8 [1,3,7],p 1043 2 [1,2,8],p 5985 16 [1,1,9],p 510237 4 [6,7],p 565803 4 [5,8],p 700161 4 [4,9],p 976965 4 [3,10],p 387387 1 [2,11],p 1390389 2 [1,12]]],
[[p 1 2 [2,2],p 5 4 [1,3],p 231 1 [6]],
 [m 35 4 [2,3],m 49 4 [1,4],m 3003 1 [7]],
 [p 20 1 [3,3],p 179 4 [2,4],p 133 2 [1,5],p 21021 1 [8]],
 [m 287 2 [3,4],m 343 2 [2,5],m 525 2 [1,6],m 105105 1 [9]],
 [p 407 2 [4,4],p 1741 4 [3,5],p 1085 2 [2,6],p 840 1 [1,7],p 420420 1 [10]],
 [m 4165 4 [4,5],m 4655 4 [3,6],m 1491 1 [2,7],m 2310 1 [1,8],m 1429428 1 [11]],
 [p 1169 1 [5,5],p 9779 4 [4,6],p 5635 2 [3,7],p 3675 1 [2,8],p 11319 2 [1,9],p 4288284 1 [12]],
 [m 4949 1 [5,6],m 5341 1 [4,7],m 12585 2 [3,8],m 16599 2 [2,9],m 25311 2 [1,10],m 11639628 1 [13]],
 [p 9625 2 [6,6],p 19873 2 [5,7],p 10976 1 [4,8],p 52563 4 [3,9],p 34881 2 [2,10],p 105105 4 [1,11]]]⟩
/-- `tDelta(2, 9)` — matslise_formulas.cpp:206 -/
def d2_9 : Entry4 :=
⟨[[p 5 2 [2,3],p 7 2 [1,4],m 858 1 [7]],
 [m 25 2 [3,3],m 28 1 [2,4],m 42 1 [1,5],p 12870 1 [8]],
 [p 146 1 [3,4],p 175 1 [2,5],p 273 1 [1,6],m 102960 1 [9]],
 [m 595 2 [4,4],m 637 1 [3,5],m 798 1 [2,6],m 2541 2 [1,7],p 583440 1 [10]],
 [p 4081 2 [4,5],p 4571 2 [3,6],p 5901 2 [2,7],p 9471 2 [1,8],m 2625480 1 [11]],
 [m 2933 1 [5,5],m 6139 1 [4,6],m 7098 1 [3,7],m 18711 2 [2,8],m 15015 1 [1,9],p 9976824 1 [12]],
 [p 15400 1 [5,6],p 16646 1 [4,7],p 19698 1 [3,8],p 26334 1 [2,9],p 42042 1 [1,10],m 33256080 1 [13]],
 [m 18123 1 [6,6],m 37443 1 [5,7],m 41454 1 [4,8],m 99825 2 [3,9],m 67353 1 [2,10],m 213213 2 [1,11]]],
[[p 66 1 [6]],
 [m 858 1 [7]],
 [p 6006 1 [8]],
 [m 30030 1 [9]],
 [p 120120 1 [10]],
 [m 408408 1 [11]],
 [p 1225224 1 [12]],
 [m 3325608 1 [13]]],
[[p 1 8 [1,1,2],p 75 14 [3,3],p 13 1 [2,4],p 24 1 [1,5],m 12870 1 [8]],
 [m 1 1 [1,2,2],m 5 4 [1,1,3],m 140 1 [3,4],m 189 1 [2,5],m 759 2 [1,6],p 218790 1 [9]],
 [p 11 8 [2,2,2],p 41 4 [1,2,3],p 57 8 [1,1,4],p 915 2 [4,4],p 1029 1 [3,5],p 2985 2 [2,6],p 6171 2 [1,7],m 1969110 1 [10]],
 [m 59 4 [2,2,3],m 145 8 [1,3,3],m 81 2 [1,2,4],m 119 4 [1,1,5],m 4550 1 [4,5],m 11049 2 [3,6],m 16797 2 [2,7],m 34749 2 [1,8],p 12471030 1 [11]],
 [p 331 8 [2,3,3],p 369 8 [2,2,4],p 447 4 [1,3,4],p 533 4 [1,2,5],p 805 8 [1,1,6],p 8655 1 [5,5],p 37481 2 [4,6],p 47961 2 [3,7],p 75075 2 [2,8],p 153153 2 [1,9],m 62355150 1 [12]],
 [m 65 2 [3,3,3],m 867 4 [2,3,4],m 1149 8 [1,4,4],m 515 4 [2,2,5],m 307 1 [1,3,5],m 763 2 [1,2,6],m 2331 8 [1,1,7],m 116889 2 [5,6],m 133809 2 [4,7],m 177639 2 [3,8],m 282711 2 [2,9],m 282282 1 [1,10],p 261891630 1 [13]],
 [p 1787 8 [3,3,4],p 1979 8 [2,4,4],p 2113 4 [2,3,5],p 2745 4 [1,4,5],p 2613 8 [2,2,6],p 3065 4 [1,3,6],p 3913 4 [1,2,7],p 5985 8 [1,1,8],p 168819 2 [6,6],p 357501 2 [5,7],p 426111 2 [4,8],p 580503 2 [3,9],p 465465 1 [2,10],p 906906 1 [1,11]],
 [m 1837 4 [3,4,4],m 1959 4 [3,3,5],m 1080 1 [2,4,5],m 2933 4 [1,5,5],m 1204 1 [2,3,6],m 1533 1 [1,4,6],m 6113 8 [2,2,7],m 14117 8 [1,3,7],m 9171 4 [1,2,8],m 13959 8 [1,1,9],m 455133 1 [6,7],m 1005459 2 [5,8],m 1234695 2 [4,9],m 5993559 7 [3,10],m 1374945 1 [2,11],m 2610894 1 [1,12]]],
[[p 5 2 [2,3],p 7 2 [1,4],p 858 1 [7]],
 [m 25 2 [3,3],m 28 1 [2,4],m 42 1 [1,5],m 12870 1 [8]],
 [p 146 1 [3,4],p 175 1 [2,5],p 273 1 [1,6],p 102960 1 [9]],
 [m 595 2 [4,4],m 637 1 [3,5],m 798 1 [2,6],m 2541 2 [1,7],m 583440 1 [10]],
 [p 4081 2 [4,5],p 4571 2 [3,6],p 5901 2 [2,7],p 9471 2 [1,8],p 2625480 1 [11]],
 [m 2933 1 [5,5],m 6139 1 [4,6],m 7098 1 [3,7],m 18711 2 [2,8],m 15015 1 [1,9],m 9976824 1 [12]],
 [p 15400 1 [5,6],p 16646 1 [4,7],p 19698 1 [3,8],p 26334 1 [2,9],p 42042 1 [1,10],p 33256080 1 [13]],
 [m 18123 1 [6,6],m 37443 1 [5,7],m 41454 1 [4,8],m 99825 2 [3,9],m 67353 1 [2,10],m 213213 2 [1,11]]]⟩
/-- `tDelta(2, 10)` — matslise_formulas.cpp:207 -/
def d2_10 : Entry4 :=
⟨[[p 25 8 [3,3],p 7 1 [2,4],p 21 2 [1,5],m 6435 2 [8]],
 [m 315 4 [3,4],m 189 2 [2,5],m 297 2 [1,6],p 109395 2 [9]],
 [p 2065 8 [4,4],p 553 1 [3,5],p 1389 2 [2,6],p 1122 1 [1,7],m 984555 2 [10]],
 [m 2520 1 [4,5],m 2826 1 [3,6],m 3663 1 [2,7],m 6006 1 [1,8],p 6235515 2 [11]],
 [p 9625 2 [5,5],p 10078 1 [4,6],p 23349 2 [3,7],p 15477 1 [2,8],p 51051 2 [1,9],m 31177575 2 [12]],
 [m 32121 1 [5,6],m 69507 2 [4,7],m 82467 2 [3,8],m 111111 2 [2,9],m 183183 2 [1,10],p 130945815 2 [13]],
 [p 93117 2 [6,6],p 96231 1 [5,7],p 213381 2 [4,8],p 128898 1 [3,9],p 351351 2 [2,10],p 288288 1 [1,11]]],
[[p 429 2 [7]],
 [m 6435 2 [8]],
 [p 25740 1 [9]],
 [m 145860 1 [10]],
 [p 656370 1 [11]],
 [m 2494206 1 [12]],
 [p 8314020 1 [13]]],
[[p 1 4 [1,2,2],p 5 16 [1,1,3],p 35 1 [3,4],p 189 4 [2,5],p 363 4 [1,6],m 109395 2 [9]],
 [m 3 4 [2,2,2],m 45 8 [1,2,3],m 63 16 [1,1,4],m 245 1 [4,4],m 2205 4 [3,5],m 792 1 [2,6],m 6435 4 [1,7],p 2078505 2 [10]],
 [p 209 16 [2,2,3],p 65 4 [1,3,3],p 291 8 [1,2,4],p 217 8 [1,1,5],p 15575 4 [4,5],p 18873 4 [3,6],p 28347 4 [2,7],p 58773 4 [1,8],m 10392525 1 [11]],
 [m 105 2 [2,3,3],m 939 16 [2,2,4],m 579 4 [1,3,4],m 693 4 [1,2,5],m 1071 8 [1,1,6],m 41895 4 [5,5],m 90675 4 [4,6],m 28875 1 [3,7],m 178893 4 [2,8],m 371085 4 [1,9],p 72747675 1 [12]],
 [p 55 1 [3,3,3],p 1473 4 [2,3,4],p 501 2 [1,4,4],p 1759 8 [2,2,5],p 4289 8 [1,3,5],p 2681 4 [1,2,6],p 4221 8 [1,1,7],p 93420 1 [5,6],p 106779 1 [4,7],p 140877 1 [3,8],p 222651 1 [2,9],p 456885 1 [1,10],m 800224425 2 [13]],
 [m 483 1 [3,3,4],m 2151 4 [2,4,4],m 9201 8 [2,3,5],m 12327 8 [1,4,5],m 5733 8 [2,2,6],m 13797 8 [1,3,6],m 8883 4 [1,2,7],m 14091 8 [1,1,8],m 682353 4 [6,6],m 1444305 4 [5,7],m 429165 1 [4,8],m 2323035 4 [3,9],m 3716427 4 [2,10],m 1874301 1 [1,11]],
 [p 1228 1 [3,4,4],p 10497 8 [3,3,5],p 23307 8 [2,4,5],p 2051 1 [1,5,5],p 26057 8 [2,3,6],p 34335 8 [1,4,6],p 16709 8 [2,2,7],p 19831 4 [1,3,7],p 26061 4 [1,2,8],p 41349 8 [1,1,9],p 4509513 4 [6,7],p 4975335 4 [5,8],p 6086025 4 [4,9],p 8389095 4 [3,10],p 3375801 1 [2,11],p 6673095 1 [1,12]]],
[[p 25 8 [3,3],p 7 1 [2,4],p 21 2 [1,5],p 6435 2 [8]],
 [m 315 4 [3,4],m 189 2 [2,5],m 297 2 [1,6],m 109395 2 [9]],
 [p 2065 8 [4,4],p 553 1 [3,5],p 1389 2 [2,6],p 1122 1 [1,7],p 984555 2 [10]],
 [m 2520 1 [4,5],m 2826 1 [3,6],m 3663 1 [2,7],m 6006 1 [1,8],m 6235515 2 [11]],
 [p 9625 2 [5,5],p 10078 1 [4,6],p 23349 2 [3,7],p 15477 1 [2,8],p 51051 2 [1,9],p 31177575 2 [12]],
 [m 32121 1 [5,6],m 69507 2 [4,7],m 82467 2 [3,8],m 111111 2 [2,9],m 183183 2 [1,10],m 130945815 2 [13]],
 [p 93117 2 [6,6],p 96231 1 [5,7],p 213381 2 [4,8],p 128898 1 [3,9],p 351351 2 [2,10],p 288288 1 [1,11]]]⟩
/-- `tDelta(2, 11)` — matslise_formulas.cpp:208 -/
def d2_11 : Entry4 :=
⟨[[p 35 2 [3,4],p 21 1 [2,5],p 33 1 [1,6],m 12155 1 [9]],
 [m 245 2 [4,4],m 525 2 [3,5],m 330 1 [2,6],m 2145 4 [1,7],p 230945 1 [10]],
 [p 3815 2 [4,5],p 4281 2 [3,6],p 11121 4 [2,7],p 18447 4 [1,8],m 2309450 1 [11]],
 [m 5145 1 [5,5],m 21555 2 [4,6],m 49995 4 [3,7],m 66495 4 [2,8],m 27885 1 [1,9],p 16166150 1 [12]],
 [p 45330 1 [5,6],p 196299 4 [4,7],p 233277 4 [3,8],p 78936 1 [2,9],p 132990 1 [1,10],m 88913825 1 [13]],
 [m 83013 1 [6,6],m 686493 4 [5,7],m 761805 4 [4,8],m 461175 2 [3,9],m 316173 1 [2,10],m 532389 1 [1,11]]],
[[p 715 1 [8]],
 [m 12155 1 [9]],
 [p 109395 1 [10]],
 [m 692835 1 [11]],
 [p 3464175 1 [12]],
 [m 14549535 1 [13]]],
[[p 1 6 [2,2,2],p 5 4 [1,2,3],p 7 8 [1,1,4],p 490 9 [4,4],p 245 2 [3,5],p 176 1 [2,6],p 4147 12 [1,7],m 230945 1 [10]],
 [m 25 4 [2,2,3],m 125 16 [1,3,3],m 35 2 [1,2,4],m 105 8 [1,1,5],m 3675 2 [4,5],m 4455 2 [3,6],m 13299 4 [2,7],m 13585 2 [1,8],p 4849845 1 [11]],
 [p 645 16 [2,3,3],p 361 8 [2,2,4],p 899 8 [1,3,4],p 539 4 [1,2,5],p 843 8 [1,1,6],p 7840 1 [5,5],p 33945 2 [4,6],p 43197 2 [3,7],p 33176 1 [2,8],p 275275 4 [1,9],m 53348295 1 [12]],
 [m 2875 48 [3,3,3],m 3215 8 [2,3,4],m 4445 16 [1,4,4],m 1925 8 [2,2,5],m 595 1 [1,3,5],m 2985 4 [1,2,6],m 4785 8 [1,1,7],m 98280 1 [5,6],m 224675 2 [4,7],m 591305 4 [3,8],m 927355 4 [2,9],m 5773625 12 [1,10],p 409003595 1 [13]],
 [p 11159 16 [3,3,4],p 12461 16 [2,4,4],p 6669 4 [2,3,5],p 9121 4 [1,4,5],p 8347 8 [2,2,6],p 10223 4 [1,3,6],p 13227 4 [1,2,7],p 21483 8 [1,1,8],p 235760 1 [6,6],p 1996275 4 [5,7],p 2371325 4 [4,8],p 3196765 4 [3,9],p 5085795 4 [2,10],p 10465455 4 [1,11]],
 [m 35975 16 [3,4,4],m 38485 16 [3,3,5],m 5362 1 [2,4,5],m 15491 4 [1,5,5],m 6005 1 [2,3,6],m 16217 2 [1,4,6],m 30993 8 [2,2,7],m 37545 4 [1,3,7],m 49665 4 [1,2,8],m 81081 8 [1,1,9],m 7840833 4 [6,7],m 2162600 1 [5,8],m 10566985 4 [4,9],m 14502345 4 [3,10],m 23281687 4 [2,11],m 47251347 4 [1,12]]],
[[p 35 2 [3,4],p 21 1 [2,5],p 33 1 [1,6],p 12155 1 [9]],
 [m 245 2 [4,4],m 525 2 [3,5],m 330 1 [2,6],m 2145 4 [1,7],m 230945 1 [10]],
 [p 3815 2 [4,5],p 4281 2 [3,6],p 11121 4 [2,7],p 18447 4 [1,8],p 2309450 1 [11]],
 [m 5145 1 [5,5],m 21555 2 [4,6],m 49995 4 [3,7],m 66495 4 [2,8],m 27885 1 [1,9],m 16166150 1 [12]],
 [p 45330 1 [5,6],p 196299 4 [4,7],p 233277 4 [3,8],p 78936 1 [2,9],p 132990 1 [1,10],p 88913825 1 [13]],
 [m 83013 1 [6,6],m 686493 4 [5,7],m 761805 4 [4,8],m 461175 2 [3,9],m 316173 1 [2,10],m 532389 1 [1,11]]]⟩
/-- `tDelta(2, 12)` — matslise_formulas.cpp:209 -/
def d2_12 : Entry4 :=
⟨[[p 49 2 [4,4],p 105 2 [3,5],p 66 1 [2,6],p 429 4 [1,7],m 46189 1 [10]],
 [m 1617 2 [4,5],m 1815 2 [3,6],m 4719 4 [2,7],m 7865 4 [1,8],p 969969 1 [11]],
 [p 6909 2 [5,5],p 14475 2 [4,6],p 16797 2 [3,7],p 44759 4 [2,8],p 37895 2 [1,9],m 10669659 1 [12]],
 [m 42735 1 [5,6],m 92565 2 [4,7],m 55055 1 [3,8],m 149435 2 [2,9],m 255255 2 [1,10],p 81800719 1 [13]],
 [p 205485 2 [6,6],p 849795 4 [5,7],p 235895 1 [4,8],p 286000 1 [3,9],p 787215 2 [2,10],p 1349205 2 [1,11]]],
[[p 2431 1 [9]],
 [m 46189 1 [10]],
 [p 461890 1 [11]],
 [m 3233230 1 [12]],
 [p 17782765 1 [13]]],
[[p 5 4 [2,2,3],p 25 16 [1,3,3],p 7 2 [1,2,4],p 21 8 [1,1,5],p 735 2 [4,5],p 891 2 [3,6],p 13299 20 [2,7],p 5291 4 [1,8],m 969969 1 [11]],
 [m 275 16 [2,3,3],m 77 4 [2,2,4],m 385 8 [1,3,4],m 231 4 [1,2,5],m 363 8 [1,1,6],m 6615 2 [5,5],m 7161 1 [4,6],m 36465 4 [3,7],m 27885 2 [2,8],m 114257 4 [1,9],p 22309287 1 [12]],
 [p 325 8 [3,3,3],p 2183 8 [2,3,4],p 3045 16 [1,4,4],p 1309 8 [2,2,5],p 1631 4 [1,3,5],p 2049 4 [1,2,6],p 6633 16 [1,1,7],p 65394 1 [5,6],p 299079 4 [4,7],p 393393 4 [3,8],p 613327 4 [2,9],p 1271413 4 [1,10],m 267711444 1 [13]],
 [m 5335 8 [3,3,4],m 11935 16 [2,4,4],m 6391 4 [2,3,5],m 8855 4 [1,4,5],m 8019 8 [2,2,6],m 9933 4 [1,3,6],m 25773 8 [1,2,7],m 42471 16 [1,1,8],m 438669 2 [6,6],m 1857471 4 [5,7],m 2206919 4 [4,8],m 1485341 2 [3,9],m 4699123 4 [2,10],m 9745879 4 [1,11]],
 [p 22655 8 [3,4,4],p 48507 16 [3,3,5],p 27097 4 [2,4,5],p 19915 4 [1,5,5],p 30379 4 [2,3,6],p 41711 4 [1,4,6],p 78681 16 [2,2,7],p 96693 8 [1,3,7],p 128403 8 [1,2,8],p 106821 8 [1,1,9],p 2385075 1 [6,7],p 5263863 2 [5,8],p 3214640 1 [4,9],p 4401397 1 [3,10],p 28138825 4 [2,11],p 57967195 4 [1,12]]],
[[p 49 2 [4,4],p 105 2 [3,5],p 66 1 [2,6],p 429 4 [1,7],p 46189 1 [10]],
 [m 1617 2 [4,5],m 1815 2 [3,6],m 4719 4 [2,7],m 7865 4 [1,8],m 969969 1 [11]],
 [p 6909 2 [5,5],p 14475 2 [4,6],p 16797 2 [3,7],p 44759 4 [2,8],p 37895 2 [1,9],p 10669659 1 [12]],
 [m 42735 1 [5,6],m 92565 2 [4,7],m 55055 1 [3,8],m 149435 2 [2,9],m 255255 2 [1,10],m 81800719 1 [13]],
 [p 205485 2 [6,6],p 849795 4 [5,7],p 235895 1 [4,8],p 286000 1 [3,9],p 787215 2 [2,10],p 1349205 2 [1,11]]]⟩
/-- `tDelta(2, 13)` — matslise_formulas.cpp:210 -/
def d2_13 : Entry4 :=
⟨[[p 147 1 [4,5],p 165 1 [3,6],p 429 2 [2,7],p 715 2 [1,8],m 176358 1 [11]],
 [m 1323 1 [5,5],m 2772 1 [4,6],m 6435 2 [3,7],m 4290 1 [2,8],m 7293 1 [1,9],p 4056234 1 [12]],
 [p 25788 1 [5,6],p 55869 2 [4,7],p 66495 2 [3,8],p 45188 1 [2,9],p 77792 1 [1,10],m 48674808 1 [13]],
 [m 86625 1 [6,6],m 358281 2 [5,7],m 397969 2 [4,8],m 482911 2 [3,9],m 333047 1 [2,10],m 1154725 2 [1,11]]],
[[p 8398 1 [10]],
 [m 176358 1 [11]],
 [p 1939938 1 [12]],
 [m 14872858 1 [13]]],
[[p 25 8 [2,3,3],p 7 2 [2,2,4],p 35 4 [1,3,4],p 21 2 [1,2,5],p 33 4 [1,1,6],p 6615 11 [5,5],p 1302 1 [4,6],p 3315 2 [3,7],p 2535 1 [2,8],p 5083 1 [1,9],m 4056234 1 [12]],
 [m 125 8 [3,3,3],m 105 1 [2,3,4],m 147 2 [1,4,4],m 63 1 [2,2,5],m 315 2 [1,3,5],m 198 1 [1,2,6],m 1287 8 [1,1,7],m 24948 1 [5,6],m 57057 2 [4,7],m 75075 2 [3,8],m 58344 1 [2,9],m 239343 2 [1,10],p 101405850 1 [13]],
 [p 3245 8 [3,3,4],p 3633 8 [2,4,4],p 973 1 [2,3,5],p 1358 1 [1,4,5],p 2445 4 [2,2,6],p 1524 1 [1,3,6],p 1980 1 [1,2,7],p 3289 2 [1,1,8],p 131355 1 [6,6],p 278124 1 [5,7],p 661089 2 [4,8],p 444873 1 [3,9],p 1401361 2 [2,10],p 2901509 2 [1,11]],
 [m 19313 8 [3,4,4],m 20685 8 [3,3,5],m 11571 2 [2,4,5],m 17199 4 [1,5,5],m 12981 2 [2,3,6],m 18015 2 [1,4,6],m 33693 8 [2,2,7],m 83589 8 [1,3,7],m 55627 4 [1,2,8],m 93665 8 [1,1,9],m 1988910 1 [6,7],m 2195193 1 [5,8],m 2681965 1 [4,9],m 7337863 2 [3,10],m 11677419 2 [2,11],m 24190439 2 [1,12]]],
[[p 147 1 [4,5],p 165 1 [3,6],p 429 2 [2,7],p 715 2 [1,8],p 176358 1 [11]],
 [m 1323 1 [5,5],m 2772 1 [4,6],m 6435 2 [3,7],m 4290 1 [2,8],m 7293 1 [1,9],m 4056234 1 [12]],
 [p 25788 1 [5,6],p 55869 2 [4,7],p 66495 2 [3,8],p 45188 1 [2,9],p 77792 1 [1,10],p 48674808 1 [13]],
 [m 86625 1 [6,6],m 358281 2 [5,7],m 397969 2 [4,8],m 482911 2 [3,9],m 333047 1 [2,10],m 1154725 2 [1,11]]]⟩
/-- `tDelta(2, 14)` — matslise_formulas.cpp:211 -/
def d2_14 : Entry4 :=
⟨[[p 441 2 [5,5],p 462 1 [4,6],p 2145 4 [3,7],p 715 1 [2,8],p 2431 2 [1,9],m 676039 1 [12]],
 [m 9009 1 [5,6],m 39039 4 [4,7],m 46475 4 [3,8],m 31603 2 [2,9],m 54587 2 [1,10],p 16900975 1 [13]],
 [p 94941 2 [6,6],p 98175 1 [5,7],p 436293 4 [4,8],p 132418 1 [3,9],p 365755 2 [2,10],p 319124 1 [1,11]]],
[[p 29393 1 [11]],
 [m 676039 1 [12]],
 [p 8112468 1 [13]]],
[[p 125 48 [3,3,3],p 35 2 [2,3,4],p 49 4 [1,4,4],p 21 2 [2,2,5],p 105 4 [1,3,5],p 33 1 [1,2,6],p 429 16 [1,1,7],p 4158 1 [5,6],p 19019 4 [4,7],p 25025 4 [3,8],p 9724 1 [2,9],p 58786 3 [1,10],m 16900975 1 [13]],
 [m 2275 16 [3,3,4],m 637 4 [2,4,4],m 1365 4 [2,3,5],m 1911 4 [1,4,5],m 429 2 [2,2,6],m 2145 4 [1,3,6],m 5577 8 [1,2,7],m 9295 16 [1,1,8],m 45738 1 [6,6],m 387387 4 [5,7],m 115115 1 [4,8],m 619905 4 [3,9],m 243542 1 [2,10],m 499681 1 [1,11]],
 [p 21301 16 [3,4,4],p 5705 4 [3,3,5],p 12775 4 [2,4,5],p 9555 4 [1,5,5],p 14337 4 [2,3,6],p 20019 4 [1,4,6],p 37257 16 [2,2,7],p 5808 1 [1,3,7],p 61919 8 [1,2,8],p 52481 8 [1,1,9],p 4331943 4 [6,7],p 4781777 4 [5,8],p 5843695 4 [4,9],p 7994233 4 [3,10],p 3170245 1 [2,11],p 6554639 1 [1,12]]],
[[p 441 2 [5,5],p 462 1 [4,6],p 2145 4 [3,7],p 715 1 [2,8],p 2431 2 [1,9],p 676039 1 [12]],
 [m 9009 1 [5,6],m 39039 4 [4,7],m 46475 4 [3,8],m 31603 2 [2,9],m 54587 2 [1,10],m 16900975 1 [13]],
 [p 94941 2 [6,6],p 98175 1 [5,7],p 436293 4 [4,8],p 132418 1 [3,9],p 365755 2 [2,10],p 319124 1 [1,11]]]⟩
/-- `tDelta(2, 15)` — matslise_formulas.cpp:212 -/
def d2_15 : Entry4 :=
⟨[[p 1386 1 [5,6],p 3003 2 [4,7],p 3575 2 [3,8],p 2431 1 [2,9],p 4199 1 [1,10],m 2600150 1 [13]],
 [m 15246 1 [6,6],m 63063 2 [5,7],m 35035 1 [4,8],m 85085 2 [3,9],m 58786 1 [2,10],m 205751 2 [1,11]]],
[[p 104006 1 [12]],
 [m 2600150 1 [13]]],
[[p 175 8 [3,3,4],p 49 2 [2,4,4],p 105 2 [2,3,5],p 147 2 [1,4,5],p 33 1 [2,2,6],p 165 2 [1,3,6],p 429 4 [1,2,7],p 715 8 [1,1,8],p 91476 13 [6,6],p 29799 2 [5,7],p 17710 1 [4,8],p 47685 2 [3,9],p 37468 1 [2,10],p 151487 2 [1,11]],
 [m 1715 4 [3,4,4],m 3675 8 [3,3,5],m 1029 1 [2,4,5],m 3087 4 [1,5,5],m 1155 1 [2,3,6],m 1617 1 [1,4,6],m 3003 4 [2,2,7],m 15015 8 [1,3,7],m 5005 2 [1,2,8],m 17017 8 [1,1,9],m 693693 2 [6,7],m 765765 2 [5,8],m 935935 2 [4,9],m 1280695 2 [3,10],m 2028117 2 [2,11],m 2080120 1 [1,12]]],
[[p 1386 1 [5,6],p 3003 2 [4,7],p 3575 2 [3,8],p 2431 1 [2,9],p 4199 1 [1,10],p 2600150 1 [13]],
 [m 15246 1 [6,6],m 63063 2 [5,7],m 35035 1 [4,8],m 85085 2 [3,9],m 58786 1 [2,10],m 205751 2 [1,11]]]⟩
/-- `tDelta(2, 16)` — matslise_formulas.cpp:213 -/
def d2_16 : Entry4 :=
⟨[[p 2178 1 [6,6],p 9009 2 [5,7],p 5005 1 [4,8],p 12155 2 [3,9],p 8398 1 [2,10],p 29393 2 [1,11]]],
[[p 371450 1 [13]]],
[[p 245 4 [3,4,4],p 525 8 [3,3,5],p 147 1 [2,4,5],p 441 4 [1,5,5],p 165 1 [2,3,6],p 231 1 [1,4,6],p 429 4 [2,2,7],p 2145 8 [1,3,7],p 715 2 [1,2,8],p 2431 8 [1,1,9],p 99099 2 [6,7],p 109395 2 [5,8],p 133705 2 [4,9],p 1280695 14 [3,10],p 289731 2 [2,11],p 586891 2 [1,12]]],
[[p 2178 1 [6,6],p 9009 2 [5,7],p 5005 1 [4,8],p 12155 2 [3,9],p 8398 1 [2,10],p 29393 2 [1,11]]]⟩
/-- `tDelta(2, *)` -/
def d2 : List Entry4 := [d2_0,d2_1,d2_2,d2_3,d2_4,d2_5,d2_6,d2_7,d2_8,d2_9,d2_10,d2_11,d2_12,d2_13,d2_14,d2_15,d2_16]
/-- `tH[2]` — matslise_formulas.cpp:214 -/
def tH2 : Entry4 :=
⟨[[],
 [],
 [],
 [m 1 2 [1]],
 [],
 [m 1 2 [3]],
 [],
 [m 1 2 [5]],
 [],
 [m 1 2 [7]],
 [],
 [m 1 2 [9]],
 [],
 [m 1 2 [11]],
 [],
 [m 1 2 [13]],
 [],
 [m 1 2 [15]]],
[],
[[],
 [],
 [],
 [m 3 2 [2]],
 [],
 [m 1 24 [1,1],m 5 1 [4]],
 [],
 [m 1 40 [2,2],m 21 2 [6]],
 [],
 [m 1 56 [3,3],m 18 1 [8]],
 [],
 [m 1 72 [4,4],m 55 2 [10]],
 [],
 [m 1 88 [5,5],m 39 1 [12]],
 [],
 [m 1 104 [6,6],m 105 2 [14]],
 [],
 [m 1 120 [7,7]]],
[[],
 [],
 [],
 [p 1 2 [1]],
 [],
 [p 1 2 [3]],
 [],
 [p 1 2 [5]],
 [],
 [p 1 2 [7]],
 [],
 [p 1 2 [9]],
 [],
 [p 1 2 [11]],
 [],
 [p 1 2 [13]],
 [],
 [p 1 2 [15]]]⟩
end Verif.Formulas
