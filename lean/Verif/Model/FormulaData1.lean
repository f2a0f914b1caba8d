import Verif.Model.Formulas

/-! Generated by tools/gen_formulas.py from matslise/matslise/matslise_formulas.cpp (rows tDelta(1, *), tH[1]). -/
namespace Verif.Formulas
open Term
set_option maxRecDepth 100000

/-- `tDelta(1, 0)` — matslise_formulas.cpp:179 -/
def d1_0 : Entry4 :=
⟨[],
[],
[],
[]⟩
/-- `tDelta(1, 1)` — matslise_formulas.cpp:180 -/
def d1_1 : Entry4 :=
⟨[],
[[p 1 1 []]],
[[],
 [m 1 2 [1]],
 [p 1 2 [2]],
 [m 1 2 [3]],
 [p 1 2 [4]],
 [m 1 2 [5]],
 [p 1 2 [6]],
 [m 1 2 [7]],
 [p 1 2 [8]],
 [m 1 2 [9]],
 [p 1 2 [10]],
 [m 1 2 [11]],
 [p 1 2 [12]],
 [m 1 2 [13]]],
[]⟩
/-- `tDelta(1, 2)` — matslise_formulas.cpp:181 -/
def d1_2 : Entry4 :=
⟨[[],
 [m 1 2 [1]],
 [p 1 2 [2]],
 [m 1 2 [3]],
 [p 1 2 [4]],
 [m 1 2 [5]],
 [p 1 2 [6]],
 [m 1 2 [7]],
 [p 1 2 [8]],
 [m 1 2 [9]],
 [p 1 2 [10]],
 [m 1 2 [11]],
 [p 1 2 [12]],
 [m 1 2 [13]]],
[],
[[p 1 2 [1]],
 [m 3 2 [2]],
 [p 3 1 [3]],
 [m 5 1 [4]],
 [p 15 2 [5]],
 [m 21 2 [6]],
 [p 14 1 [7]],
 [m 18 1 [8]],
 [p 45 2 [9]],
 [m 55 2 [10]],
 [p 33 1 [11]],
 [m 39 1 [12]],
 [p 91 2 [13]]],
[[],
 [m 1 2 [1]],
 [p 1 2 [2]],
 [m 1 2 [3]],
 [p 1 2 [4]],
 [m 1 2 [5]],
 [p 1 2 [6]],
 [m 1 2 [7]],
 [p 1 2 [8]],
 [m 1 2 [9]],
 [p 1 2 [10]],
 [m 1 2 [11]],
 [p 1 2 [12]],
 [m 1 2 [13]]]⟩
/-- `tDelta(1, 3)` — matslise_formulas.cpp:182 -/
def d1_3 : Entry4 :=
⟨[[p 1 2 [1]],
 [m 3 2 [2]],
 [p 3 1 [3]],
 [m 5 1 [4]],
 [p 15 2 [5]],
 [m 21 2 [6]],
 [p 14 1 [7]],
 [m 18 1 [8]],
 [p 45 2 [9]],
 [m 55 2 [10]],
 [p 33 1 [11]],
 [m 39 1 [12]],
 [p 91 2 [13]]],
[],
[[p 3 2 [2]],
 [m 15 2 [3]],
 [p 1 8 [1,1],p 45 2 [4]],
 [m 1 4 [1,2],m 105 2 [5]],
 [p 1 8 [2,2],p 1 4 [1,3],p 105 1 [6]],
 [m 1 4 [2,3],m 1 4 [1,4],m 189 1 [7]],
 [p 1 8 [3,3],p 1 4 [2,4],p 1 4 [1,5],p 315 1 [8]],
 [m 1 4 [3,4],m 1 4 [2,5],m 1 4 [1,6],m 495 1 [9]],
 [p 1 8 [4,4],p 1 4 [3,5],p 1 4 [2,6],p 1 4 [1,7],p 1485 2 [10]],
 [m 1 4 [4,5],m 1 4 [3,6],m 1 4 [2,7],m 1 4 [1,8],m 2145 2 [11]],
 [p 1 8 [5,5],p 1 4 [4,6],p 1 4 [3,7],p 1 4 [2,8],p 1 4 [1,9],p 3003 2 [12]],
 [m 1 4 [5,6],m 1 4 [4,7],m 1 4 [3,8],m 1 4 [2,9],m 1 4 [1,10],m 4095 2 [13]],
 [p 1 8 [6,6],p 1 4 [5,7],p 1 4 [4,8],p 1 4 [3,9],p 1 4 [2,10],p 1 4 [1,11]],
 [m 1 4 [6,7],m 1 4 [5,8],m 1 4 [4,9],m 1 4 [3,10],m 1 4 [2,11],m 1 4 [1,12]]],
[[p 1 2 [1]],
 [m 3 2 [2]],
 [p 3 1 [3]],
 [m 5 1 [4]],
 [p 15 2 [5]],
 [m 21 2 [6]],
 [p 14 1 [7]],
 [m 18 1 [8]],
 [p 45 2 [9]],
 [m 55 2 [10]],
 [p 33 1 [11]],
 [m 39 1 [12]],
 [p 91 2 [13]]]⟩
/-- `tDelta(1, 4)` — matslise_formulas.cpp:183 -/
def d1_4 : Entry4 :=
⟨[[p 1 1 [2]],
 [m 5 1 [3]],
 [p 15 1 [4]],
 [m 35 1 [5]],
 [p 70 1 [6]],
 [m 126 1 [7]],
 [p 210 1 [8]],
 [m 330 1 [9]],
 [p 495 1 [10]],
 [m 715 1 [11]],
 [p 1001 1 [12]],
 [m 1365 1 [13]]],
[],
[[p 5 1 [3]],
 [m 1 4 [1,1],m 35 1 [4]],
 [p 1 1 [1,2],p 140 1 [5]],
 [m 3 4 [2,2],m 7 4 [1,3],m 420 1 [6]],
 [p 9 4 [2,3],p 11 4 [1,4],p 1050 1 [7]],
 [m 3 2 [3,3],m 13 4 [2,4],m 4 1 [1,5],m 2310 1 [8]],
 [p 4 1 [3,4],p 9 2 [2,5],p 11 2 [1,6],p 4620 1 [9]],
 [m 5 2 [4,4],m 21 4 [3,5],m 6 1 [2,6],m 29 4 [1,7],m 8580 1 [10]],
 [p 25 4 [4,5],p 27 4 [3,6],p 31 4 [2,7],p 37 4 [1,8],p 15015 1 [11]],
 [m 15 4 [5,5],m 31 4 [4,6],m 17 2 [3,7],m 39 4 [2,8],m 23 2 [1,9],m 25025 1 [12]],
 [p 9 1 [5,6],p 19 2 [4,7],p 21 2 [3,8],p 12 1 [2,9],p 14 1 [1,10],p 40040 1 [13]],
 [m 21 4 [6,6],m 43 4 [5,7],m 23 2 [4,8],m 51 4 [3,9],m 29 2 [2,10],m 67 4 [1,11]],
 [p 49 4 [6,7],p 51 4 [5,8],p 55 4 [4,9],p 61 4 [3,10],p 69 4 [2,11],p 79 4 [1,12]]],
[[p 1 1 [2]],
 [m 5 1 [3]],
 [p 15 1 [4]],
 [m 35 1 [5]],
 [p 70 1 [6]],
 [m 126 1 [7]],
 [p 210 1 [8]],
 [m 330 1 [9]],
 [p 495 1 [10]],
 [m 715 1 [11]],
 [p 1001 1 [12]],
 [m 1365 1 [13]]]⟩
/-- `tDelta(1, 5)` — matslise_formulas.cpp:184 -/
def d1_5 : Entry4 :=
⟨[[p 5 2 [3]],
 [m 35 2 [4]],
 [p 70 1 [5]],
 [m 210 1 [6]],
 [p 525 1 [7]],
 [m 1155 1 [8]],
 [p 2310 1 [9]],
 [m 4290 1 [10]],
 [p 15015 2 [11]],
 [m 25025 2 [12]],
 [p 20020 1 [13]]],
[],
[[p 1 8 [1,1],p 35 2 [4]],
 [m 5 4 [1,2],m 315 2 [5]],
 [p 13 8 [2,2],p 4 1 [1,3],p 1575 2 [6]],
 [m 15 2 [2,3],m 10 1 [1,4],m 5775 2 [7]],
 [p 7 1 [3,3],p 31 2 [2,4],p 85 4 [1,5],p 17325 2 [8]],
 [m 25 1 [3,4],m 117 4 [2,5],m 161 4 [1,6],m 45045 2 [9]],
 [p 20 1 [4,4],p 85 2 [3,5],p 205 4 [2,6],p 70 1 [1,7],p 105105 2 [10]],
 [m 125 2 [4,5],m 69 1 [3,6],m 169 2 [2,7],m 114 1 [1,8],m 225225 2 [11]],
 [p 365 8 [5,5],p 95 1 [4,6],p 215 2 [3,7],p 265 2 [2,8],p 705 4 [1,9],p 225225 1 [12]],
 [m 525 4 [5,6],m 281 2 [4,7],m 323 2 [3,8],m 797 4 [2,9],m 1045 4 [1,10],m 425425 1 [13]],
 [p 721 8 [6,6],p 371 2 [5,7],p 405 2 [4,8],p 235 1 [3,9],p 1157 4 [2,10],p 374 1 [1,11]],
 [m 245 1 [6,7],m 515 2 [5,8],m 285 1 [4,9],m 665 2 [3,10],m 815 2 [2,11],m 520 1 [1,12]]],
[[p 5 2 [3]],
 [m 35 2 [4]],
 [p 70 1 [5]],
 [m 210 1 [6]],
 [p 525 1 [7]],
 [m 1155 1 [8]],
 [p 2310 1 [9]],
 [m 4290 1 [10]],
 [p 15015 2 [11]],
 [m 25025 2 [12]],
 [p 20020 1 [13]]]⟩
/-- `tDelta(1, 6)` — matslise_formulas.cpp:185 -/
def d1_6 : Entry4 :=
⟨[[p 7 1 [4]],
 [m 63 1 [5]],
 [p 315 1 [6]],
 [m 1155 1 [7]],
 [p 3465 1 [8]],
 [m 9009 1 [9]],
 [p 21021 1 [10]],
 [m 45045 1 [11]],
 [p 90090 1 [12]],
 [m 170170 1 [13]]],
[],
[[p 1 2 [1,2],p 63 1 [5]],
 [m 3 2 [2,2],m 15 4 [1,3],m 693 1 [6]],
 [p 47 4 [2,3],p 65 4 [1,4],p 4158 1 [7]],
 [m 65 4 [3,3],m 145 4 [2,4],m 105 2 [1,5],m 18018 1 [8]],
 [p 80 1 [3,4],p 95 1 [2,5],p 140 1 [1,6],p 63063 1 [9]],
 [m 335 4 [4,4],m 715 4 [3,5],m 441 2 [2,6],m 651 2 [1,7],m 189189 1 [10]],
 [p 1325 4 [4,5],p 1475 4 [3,6],p 931 2 [2,7],p 1365 2 [1,8],p 504504 1 [11]],
 [m 595 2 [5,5],m 2485 4 [4,6],m 2847 4 [3,7],m 1821 2 [2,8],m 1320 1 [1,9],m 1225224 1 [12]],
 [p 2065 2 [5,6],p 4445 4 [4,7],p 5195 4 [3,8],p 3345 2 [2,9],p 4785 2 [1,10],p 2756754 1 [13]],
 [m 840 1 [6,6],m 3465 2 [5,7],m 7625 4 [4,8],m 9035 4 [3,9],m 2915 1 [2,10],m 16445 4 [1,11]],
 [p 5341 2 [6,7],p 5635 2 [5,8],p 12605 4 [4,9],p 15075 4 [3,10],p 19437 4 [2,11],p 27027 4 [1,12]]],
[[p 7 1 [4]],
 [m 63 1 [5]],
 [p 315 1 [6]],
 [m 1155 1 [7]],
 [p 3465 1 [8]],
 [m 9009 1 [9]],
 [p 21021 1 [10]],
 [m 45045 1 [11]],
 [p 90090 1 [12]],
 [m 170170 1 [13]]]⟩
/-- `tDelta(1, 7)` — matslise_formulas.cpp:186 -/
def d1_7 : Entry4 :=
⟨[[p 21 1 [5]],
 [m 231 1 [6]],
 [p 1386 1 [7]],
 [m 6006 1 [8]],
 [p 21021 1 [9]],
 [m 63063 1 [10]],
 [p 168168 1 [11]],
 [m 408408 1 [12]],
 [p 918918 1 [13]]],
[],
[[p 1 2 [2,2],p 5 4 [1,3],p 231 1 [6]],
 [m 35 4 [2,3],m 49 4 [1,4],m 3003 1 [7]],
 [p 20 1 [3,3],p 179 4 [2,4],p 133 2 [1,5],p 21021 1 [8]],
 [m 287 2 [3,4],m 343 2 [2,5],m 525 2 [1,6],m 105105 1 [9]],
 [p 407 2 [4,4],p 1741 4 [3,5],p 1085 2 [2,6],p 840 1 [1,7],p 420420 1 [10]],
 [m 4165 4 [4,5],m 4655 4 [3,6],m 1491 1 [2,7],m 2310 1 [1,8],m 1429428 1 [11]],
 [p 1169 1 [5,5],p 9779 4 [4,6],p 5635 2 [3,7],p 3675 1 [2,8],p 11319 2 [1,9],p 4288284 1 [12]],
 [m 4949 1 [5,6],m 5341 1 [4,7],m 12585 2 [3,8],m 16599 2 [2,9],m 25311 2 [1,10],m 11639628 1 [13]],
 [p 9625 2 [6,6],p 19873 2 [5,7],p 10976 1 [4,8],p 52563 4 [3,9],p 34881 2 [2,10],p 105105 4 [1,11]],
 [m 36015 2 [6,7],m 38073 2 [5,8],m 85607 4 [4,9],m 103697 4 [3,10],m 137995 4 [2,11],m 205205 4 [1,12]]],
[[p 21 1 [5]],
 [m 231 1 [6]],
 [p 1386 1 [7]],
 [m 6006 1 [8]],
 [p 21021 1 [9]],
 [m 63063 1 [10]],
 [p 168168 1 [11]],
 [m 408408 1 [12]],
 [p 918918 1 [13]]]⟩
/-- `tDelta(1, 8)` — matslise_formulas.cpp:187 -/
def d1_8 : Entry4 :=
⟨[[p 66 1 [6]],
 [m 858 1 [7]],
 [p 6006 1 [8]],
 [m 30030 1 [9]],
 [p 120120 1 [10]],
 [m 408408 1 [11]],
 [p 1225224 1 [12]],
 [m 3325608 1 [13]]],
[],
[[p 5 2 [2,3],p 7 2 [1,4],p 858 1 [7]],
 [m 25 2 [3,3],m 28 1 [2,4],m 42 1 [1,5],m 12870 1 [8]],
 [p 146 1 [3,4],p 175 1 [2,5],p 273 1 [1,6],p 102960 1 [9]],
 [m 595 2 [4,4],m 637 1 [3,5],m 798 1 [2,6],m 2541 2 [1,7],m 583440 1 [10]],
 [p 4081 2 [4,5],p 4571 2 [3,6],p 5901 2 [2,7],p 9471 2 [1,8],p 2625480 1 [11]],
 [m 2933 1 [5,5],m 6139 1 [4,6],m 7098 1 [3,7],m 18711 2 [2,8],m 15015 1 [1,9],m 9976824 1 [12]],
 [p 15400 1 [5,6],p 16646 1 [4,7],p 19698 1 [3,8],p 26334 1 [2,9],p 42042 1 [1,10],p 33256080 1 [13]],
 [m 18123 1 [6,6],m 37443 1 [5,7],m 41454 1 [4,8],m 99825 2 [3,9],m 67353 1 [2,10],m 213213 2 [1,11]],
 [p 80556 1 [6,7],p 85260 1 [5,8],p 96138 1 [4,9],p 117282 1 [3,10],p 159159 1 [2,11],p 249249 1 [1,12]]],
[[p 66 1 [6]],
 [m 858 1 [7]],
 [p 6006 1 [8]],
 [m 30030 1 [9]],
 [p 120120 1 [10]],
 [m 408408 1 [11]],
 [p 1225224 1 [12]],
 [m 3325608 1 [13]]]⟩
/-- `tDelta(1, 9)` — matslise_formulas.cpp:188 -/
def d1_9 : Entry4 :=
⟨[[p 429 2 [7]],
 [m 6435 2 [8]],
 [p 25740 1 [9]],
 [m 145860 1 [10]],
 [p 656370 1 [11]],
 [m 2494206 1 [12]],
 [p 8314020 1 [13]]],
[],
[[p 25 8 [3,3],p 7 1 [2,4],p 21 2 [1,5],p 6435 2 [8]],
 [m 315 4 [3,4],m 189 2 [2,5],m 297 2 [1,6],m 109395 2 [9]],
 [p 2065 8 [4,4],p 553 1 [3,5],p 1389 2 [2,6],p 1122 1 [1,7],p 984555 2 [10]],
 [m 2520 1 [4,5],m 2826 1 [3,6],m 3663 1 [2,7],m 6006 1 [1,8],m 6235515 2 [11]],
 [p 9625 2 [5,5],p 10078 1 [4,6],p 23349 2 [3,7],p 15477 1 [2,8],p 51051 2 [1,9],p 31177575 2 [12]],
 [m 32121 1 [5,6],m 69507 2 [4,7],m 82467 2 [3,8],m 111111 2 [2,9],m 183183 2 [1,10],m 130945815 2 [13]],
 [p 93117 2 [6,6],p 96231 1 [5,7],p 213381 2 [4,8],p 128898 1 [3,9],p 351351 2 [2,10],p 288288 1 [1,11]],
 [m 249039 1 [6,7],m 263781 1 [5,8],m 297990 1 [4,9],m 365079 1 [3,10],m 501501 1 [2,11],m 816816 1 [1,12]]],
[[p 429 2 [7]],
 [m 6435 2 [8]],
 [p 25740 1 [9]],
 [m 145860 1 [10]],
 [p 656370 1 [11]],
 [m 2494206 1 [12]],
 [p 8314020 1 [13]]]⟩
/-- `tDelta(1, 10)` — matslise_formulas.cpp:189 -/
def d1_10 : Entry4 :=
⟨[[p 715 1 [8]],
 [m 12155 1 [9]],
 [p 109395 1 [10]],
 [m 692835 1 [11]],
 [p 3464175 1 [12]],
 [m 14549535 1 [13]]],
[],
[[p 35 2 [3,4],p 21 1 [2,5],p 33 1 [1,6],p 12155 1 [9]],
 [m 245 2 [4,4],m 525 2 [3,5],m 330 1 [2,6],m 2145 4 [1,7],m 230945 1 [10]],
 [p 3815 2 [4,5],p 4281 2 [3,6],p 11121 4 [2,7],p 18447 4 [1,8],p 2309450 1 [11]],
 [m 5145 1 [5,5],m 21555 2 [4,6],m 49995 4 [3,7],m 66495 4 [2,8],m 27885 1 [1,9],m 16166150 1 [12]],
 [p 45330 1 [5,6],p 196299 4 [4,7],p 233277 4 [3,8],p 78936 1 [2,9],p 132990 1 [1,10],p 88913825 1 [13]],
 [m 83013 1 [6,6],m 686493 4 [5,7],m 761805 4 [4,8],m 461175 2 [3,9],m 316173 1 [2,10],m 532389 1 [1,11]],
 [p 2176365 4 [6,7],p 2306355 4 [5,8],p 1304325 2 [4,9],p 1602315 2 [3,10],p 1108965 1 [2,11],p 1859715 1 [1,12]]],
[[p 715 1 [8]],
 [m 12155 1 [9]],
 [p 109395 1 [10]],
 [m 692835 1 [11]],
 [p 3464175 1 [12]],
 [m 14549535 1 [13]]]⟩
/-- `tDelta(1, 11)` — matslise_formulas.cpp:190 -/
def d1_11 : Entry4 :=
⟨[[p 2431 1 [9]],
 [m 46189 1 [10]],
 [p 461890 1 [11]],
 [m 3233230 1 [12]],
 [p 17782765 1 [13]]],
[],
[[p 49 2 [4,4],p 105 2 [3,5],p 66 1 [2,6],p 429 4 [1,7],p 46189 1 [10]],
 [m 1617 2 [4,5],m 1815 2 [3,6],m 4719 4 [2,7],m 7865 4 [1,8],m 969969 1 [11]],
 [p 6909 2 [5,5],p 14475 2 [4,6],p 16797 2 [3,7],p 44759 4 [2,8],p 37895 2 [1,9],p 10669659 1 [12]],
 [m 42735 1 [5,6],m 92565 2 [4,7],m 55055 1 [3,8],m 149435 2 [2,9],m 255255 2 [1,10],m 81800719 1 [13]],
 [p 205485 2 [6,6],p 849795 4 [5,7],p 235895 1 [4,8],p 286000 1 [3,9],p 787215 2 [2,10],p 1349205 2 [1,11]],
 [m 3387153 4 [6,7],m 3590675 4 [5,8],m 1016158 1 [4,9],m 1250535 1 [3,10],m 3478761 2 [2,11],m 5958381 2 [1,12]]],
[[p 2431 1 [9]],
 [m 46189 1 [10]],
 [p 461890 1 [11]],
 [m 3233230 1 [12]],
 [p 17782765 1 [13]]]⟩
/-- `tDelta(1, 12)` — matslise_formulas.cpp:191 -/
def d1_12 : Entry4 :=
⟨[[p 8398 1 [10]],
 [m 176358 1 [11]],
 [p 1939938 1 [12]],
 [m 14872858 1 [13]]],
[],
[[p 147 1 [4,5],p 165 1 [3,6],p 429 2 [2,7],p 715 2 [1,8],p 176358 1 [11]],
 [m 1323 1 [5,5],m 2772 1 [4,6],m 6435 2 [3,7],m 4290 1 [2,8],m 7293 1 [1,9],m 4056234 1 [12]],
 [p 25788 1 [5,6],p 55869 2 [4,7],p 66495 2 [3,8],p 45188 1 [2,9],p 77792 1 [1,10],p 48674808 1 [13]],
 [m 86625 1 [6,6],m 358281 2 [5,7],m 397969 2 [4,8],m 482911 2 [3,9],m 333047 1 [2,10],m 1154725 2 [1,11]],
 [p 933240 1 [6,7],p 989538 1 [5,8],p 2241525 2 [4,9],p 2761759 2 [3,10],p 3853135 2 [2,11],p 6697405 2 [1,12]]],
[[p 8398 1 [10]],
 [m 176358 1 [11]],
 [p 1939938 1 [12]],
 [m 14872858 1 [13]]]⟩
/-- `tDelta(1, 13)` — matslise_formulas.cpp:192 -/
def d1_13 : Entry4 :=
⟨[[p 29393 1 [11]],
 [m 676039 1 [12]],
 [p 8112468 1 [13]]],
[],
[[p 441 2 [5,5],p 462 1 [4,6],p 2145 4 [3,7],p 715 1 [2,8],p 2431 2 [1,9],p 676039 1 [12]],
 [m 9009 1 [5,6],m 39039 4 [4,7],m 46475 4 [3,8],m 31603 2 [2,9],m 54587 2 [1,10],m 16900975 1 [13]],
 [p 94941 2 [6,6],p 98175 1 [5,7],p 436293 4 [4,8],p 132418 1 [3,9],p 365755 2 [2,10],p 319124 1 [1,11]],
 [m 711711 1 [6,7],m 754754 1 [5,8],m 855140 1 [4,9],m 1054391 1 [3,10],m 1473849 1 [2,11],m 2586584 1 [1,12]]],
[[p 29393 1 [11]],
 [m 676039 1 [12]],
 [p 8112468 1 [13]]]⟩
/-- `tDelta(1, 14)` — matslise_formulas.cpp:193 -/
def d1_14 : Entry4 :=
⟨[[p 104006 1 [12]],
 [m 2600150 1 [13]]],
[],
[[p 1386 1 [5,6],p 3003 2 [4,7],p 3575 2 [3,8],p 2431 1 [2,9],p 4199 1 [1,10],p 2600150 1 [13]],
 [m 15246 1 [6,6],m 63063 2 [5,7],m 35035 1 [4,8],m 85085 2 [3,9],m 58786 1 [2,10],m 205751 2 [1,11]],
 [p 714483 2 [6,7],p 757757 2 [5,8],p 858715 2 [4,9],p 1059253 2 [3,10],p 1482247 2 [2,11],p 2615977 2 [1,12]]],
[[p 104006 1 [12]],
 [m 2600150 1 [13]]]⟩
/-- `tDelta(1, 15)` — matslise_formulas.cpp:194 -/
def d1_15 : Entry4 :=
⟨[[p 371450 1 [13]]],
[],
[[p 2178 1 [6,6],p 9009 2 [5,7],p 5005 1 [4,8],p 12155 2 [3,9],p 8398 1 [2,10],p 29393 2 [1,11]],
 [m 212355 2 [6,7],m 225225 2 [5,8],m 255255 2 [4,9],m 314925 2 [3,10],m 440895 2 [2,11],m 780045 2 [1,12]]],
[[p 371450 1 [13]]]⟩
/-- `tDelta(1, 16)` — matslise_formulas.cpp:195 -/
def d1_16 : Entry4 :=
⟨[],
[],
[[p 14157 1 [6,7],p 15015 1 [5,8],p 17017 1 [4,9],p 20995 1 [3,10],p 29393 1 [2,11],p 52003 1 [1,12]]],
[]⟩
/-- `tDelta(1, *)` -/
def d1 : List Entry4 := [d1_0,d1_1,d1_2,d1_3,d1_4,d1_5,d1_6,d1_7,d1_8,d1_9,d1_10,d1_11,d1_12,d1_13,d1_14,d1_15,d1_16]
/-- `tH[1]` — matslise_formulas.cpp:196 -/
def tH1 : Entry4 :=
⟨[],
[[],
 [p 1 1 []]],
[[],
 [],
 [],
 [p 1 2 [2]],
 [],
 [p 1 2 [4]],
 [],
 [p 1 2 [6]],
 [],
 [p 1 2 [8]],
 [],
 [p 1 2 [10]],
 [],
 [p 1 2 [12]],
 [],
 [p 1 2 [14]]],
[]⟩
end Verif.Formulas
