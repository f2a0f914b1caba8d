import Verif.Model.Formulas

/-! Generated by tools/gen_formulas.py from matslise/matslise/matslise_formulas.cpp (rows tDelta(4, *), tH[4]). -/
namespace Verif.Formulas
open Term
set_option maxRecDepth 100000

/-- `tDelta(4, 0)` — matslise_formulas.cpp:233 -/
def d4_0 : Entry4 :=
⟨[],
[],
[],
[]⟩
/-- `tDelta(4, 1)` — matslise_formulas.cpp:234 -/
def d4_1 : Entry4 :=
⟨[],
[],
[],
[]⟩
/-- `tDelta(4, 2)` — matslise_formulas.cpp:235 -/
def d4_2 : Entry4 :=
⟨[],
[],
[],
[]⟩
/-- `tDelta(4, 3)` — matslise_formulas.cpp:236 -/
def d4_3 : Entry4 :=
⟨[],
[],
[],
[]⟩
/-- `tDelta(4, 4)` — matslise_formulas.cpp:237 -/
def d4_4 : Entry4 :=
⟨[],
[],
[],
[]⟩
/-- `tDelta(4, 5)` — matslise_formulas.cpp:238 -/
def d4_5 : Entry4 :=
⟨[],
[],
[],
[]⟩
/-- `tDelta(4, 6)` — matslise_formulas.cpp:239 -/
def d4_6 : Entry4 :=
⟨[],
[],
[],
[]⟩
/-- `tDelta(4, 7)` — matslise_formulas.cpp:240 -/
def d4_7 : Entry4 :=
⟨[[p 1 2 [1,2],m 63 2 [5]],
 [m 3 2 [2,2],m 15 4 [1,3],p 693 2 [6]],
 [m 1 16 [1,1,1],p 47 4 [2,3],p 65 4 [1,4],m 2079 1 [7]],
 [p 5 16 [1,1,2],m 65 4 [3,3],m 145 4 [2,4],m 105 2 [1,5],p 9009 1 [8]],
 [m 7 16 [1,2,2],m 1 2 [1,1,3],p 80 1 [3,4],p 95 1 [2,5],p 140 1 [1,6],m 63063 2 [9]],
 [p 3 16 [2,2,2],p 5 4 [1,2,3],p 3 4 [1,1,4],m 335 4 [4,4],m 715 4 [3,5],m 441 2 [2,6],m 651 2 [1,7],p 189189 2 [10]],
 [m 3 4 [2,2,3],m 13 16 [1,3,3],m 7 4 [1,2,4],m 17 16 [1,1,5],p 1325 4 [4,5],p 1475 4 [3,6],p 931 2 [2,7],p 1365 2 [1,8],m 252252 1 [11]],
 [p 15 16 [2,3,3],p 1 1 [2,2,4],p 17 8 [1,3,4],p 19 8 [1,2,5],p 23 16 [1,1,6],m 595 2 [5,5],m 2485 4 [4,6],m 2847 4 [3,7],m 1821 2 [2,8],m 1320 1 [1,9],p 612612 1 [12]],
 [m 3 8 [3,3,3],m 19 8 [2,3,4],m 21 16 [1,4,4],m 21 16 [2,2,5],m 11 4 [1,3,5],m 25 8 [1,2,6],m 15 8 [1,1,7],p 2065 2 [5,6],p 4445 4 [4,7],p 5195 4 [3,8],p 3345 2 [2,9],p 4785 2 [1,10],m 1378377 1 [13]],
 [p 11 8 [3,3,4],p 23 16 [2,4,4],p 3 1 [2,3,5],p 13 4 [1,4,5],p 27 16 [2,2,6],p 7 2 [1,3,6],p 4 1 [1,2,7],p 19 8 [1,1,8],m 840 1 [6,6],m 3465 2 [5,7],m 7625 4 [4,8],m 9035 4 [3,9],m 2915 1 [2,10],m 16445 4 [1,11]]],
[[m 1 24 [1,1],p 7 2 [4]],
 [p 1 2 [1,2],m 63 2 [5]],
 [m 5 8 [2,2],m 7 4 [1,3],p 315 2 [6]],
 [m 1 48 [1,1,1],p 3 1 [2,3],p 55 12 [1,4],m 1155 2 [7]],
 [p 1 16 [1,1,2],m 11 4 [3,3],m 13 2 [2,4],m 10 1 [1,5],p 3465 2 [8]],
 [m 1 16 [1,2,2],m 1 16 [1,1,3],p 10 1 [3,4],p 51 4 [2,5],p 77 4 [1,6],m 9009 2 [9]],
 [p 1 48 [2,2,2],p 1 8 [1,2,3],p 1 16 [1,1,4],m 95 12 [4,4],m 35 2 [3,5],m 23 1 [2,6],m 203 6 [1,7],p 21021 2 [10]],
 [m 1 16 [2,2,3],m 1 16 [1,3,3],m 1 8 [1,2,4],m 1 16 [1,1,5],p 25 1 [4,5],p 117 4 [3,6],p 155 4 [2,7],p 111 2 [1,8],m 45045 2 [11]],
 [p 1 16 [2,3,3],p 1 16 [2,2,4],p 1 8 [1,3,4],p 1 8 [1,2,5],p 1 16 [1,1,6],m 145 8 [5,5],m 155 4 [4,6],m 187 4 [3,7],m 247 4 [2,8],m 345 4 [1,9],p 45045 1 [12]],
 [m 1 48 [3,3,3],m 1 8 [2,3,4],m 1 16 [1,4,4],m 1 16 [2,2,5],m 1 8 [1,3,5],m 1 8 [1,2,6],m 1 16 [1,1,7],p 105 2 [5,6],p 703 12 [4,7],p 287 4 [3,8],p 94 1 [2,9],p 385 3 [1,10],m 85085 1 [13]]],
[[p 57 40 [2,2],p 4 1 [1,3],m 693 2 [6]],
 [p 7 48 [1,1,1],m 105 4 [2,3],m 147 4 [1,4],p 9009 2 [7]],
 [m 29 24 [1,1,2],p 477 8 [3,3],p 271 2 [2,4],p 763 4 [1,5],m 63063 2 [8]],
 [p 41 16 [1,2,2],p 17 6 [1,1,3],m 861 2 [3,4],m 1029 2 [2,5],m 2919 4 [1,6],p 315315 2 [9]],
 [p 1 384 [1,1,1,1],m 3 2 [2,2,2],m 81 8 [1,2,3],m 47 8 [1,1,4],p 4875 8 [4,4],p 2619 2 [3,5],p 6405 4 [2,6],p 9135 4 [1,7],m 630630 1 [10]],
 [m 1 96 [1,1,1,2],p 63 8 [2,2,3],p 71 8 [1,3,3],p 445 24 [1,2,4],p 133 12 [1,1,5],m 12495 4 [4,5],m 13965 4 [3,6],m 86457 20 [2,7],m 24717 4 [1,8],p 2144142 1 [11]],
 [p 1 64 [1,1,2,2],p 1 96 [1,1,1,3],m 201 16 [2,3,3],m 53 4 [2,2,4],m 89 3 [1,3,4],m 255 8 [1,2,5],m 931 48 [1,1,6],p 28035 8 [5,5],p 7343 1 [4,6],p 33565 4 [3,7],p 41895 4 [2,8],p 59829 4 [1,9],m 6432426 1 [12]],
 [m 1 96 [1,2,2,2],m 1 32 [1,1,2,3],m 1 96 [1,1,1,4],p 99 16 [3,3,3],p 315 8 [2,3,4],p 185 8 [1,4,4],p 171 8 [2,2,5],p 379 8 [1,3,5],p 52 1 [1,2,6],p 511 16 [1,1,7],m 14847 1 [5,6],m 16023 1 [4,7],m 74223 4 [3,8],m 93159 4 [2,9],m 132561 4 [1,10],p 17459442 1 [13]],
 [p 1 384 [2,2,2,2],p 1 32 [1,2,2,3],p 1 64 [1,1,3,3],p 1 32 [1,1,2,4],p 1 96 [1,1,1,5],m 439 16 [3,3,4],m 1399 48 [2,4,4],m 60 1 [2,3,5],m 1675 24 [1,4,5],m 531 16 [2,2,6],m 291 4 [1,3,6],m 487 6 [1,2,7],m 2401 48 [1,1,8],p 57729 4 [6,6],p 29827 1 [5,7],p 65611 2 [4,8],p 153279 4 [3,9],p 48279 1 [2,10],p 273273 4 [1,11]],
 [m 1 96 [2,2,2,3],m 1 32 [1,2,3,3],m 1 32 [1,2,2,4],m 1 32 [1,1,3,4],m 1 32 [1,1,2,5],m 1 96 [1,1,1,6],p 1855 48 [3,4,4],p 639 16 [3,3,5],p 339 4 [2,4,5],p 805 16 [1,5,5],p 711 8 [2,3,6],p 613 6 [1,4,6],p 797 16 [2,2,7],p 2593 24 [1,3,7],p 122 1 [1,2,8],p 3607 48 [1,1,9],m 108045 2 [6,7],m 114219 2 [5,8],m 127195 2 [4,9],m 74734 1 [3,10],m 94380 1 [2,11],m 265265 2 [1,12]]],
[[m 1 2 [1,2],p 63 2 [5]],
 [p 3 2 [2,2],p 15 4 [1,3],m 693 2 [6]],
 [p 1 16 [1,1,1],m 47 4 [2,3],m 65 4 [1,4],p 2079 1 [7]],
 [m 5 16 [1,1,2],p 65 4 [3,3],p 145 4 [2,4],p 105 2 [1,5],m 9009 1 [8]],
 [p 7 16 [1,2,2],p 1 2 [1,1,3],m 80 1 [3,4],m 95 1 [2,5],m 140 1 [1,6],p 63063 2 [9]],
 [m 3 16 [2,2,2],m 5 4 [1,2,3],m 3 4 [1,1,4],p 335 4 [4,4],p 715 4 [3,5],p 441 2 [2,6],p 651 2 [1,7],m 189189 2 [10]],
 [p 3 4 [2,2,3],p 13 16 [1,3,3],p 7 4 [1,2,4],p 17 16 [1,1,5],m 1325 4 [4,5],m 1475 4 [3,6],m 931 2 [2,7],m 1365 2 [1,8],p 252252 1 [11]],
 [m 15 16 [2,3,3],m 1 1 [2,2,4],m 17 8 [1,3,4],m 19 8 [1,2,5],m 23 16 [1,1,6],p 595 2 [5,5],p 2485 4 [4,6],p 2847 4 [3,7],p 1821 2 [2,8],p 1320 1 [1,9],m 612612 1 [12]],
 [p 3 8 [3,3,3],p 19 8 [2,3,4],p 21 16 [1,4,4],p 21 16 [2,2,5],p 11 4 [1,3,5],p 25 8 [1,2,6],p 15 8 [1,1,7],m 2065 2 [5,6],m 4445 4 [4,7],m 5195 4 [3,8],m 3345 2 [2,9],m 4785 2 [1,10],p 1378377 1 [13]],
 [m 11 8 [3,3,4],m 23 16 [2,4,4],m 3 1 [2,3,5],m 13 4 [1,4,5],m 27 16 [2,2,6],m 7 2 [1,3,6],m 4 1 [1,2,7],m 19 8 [1,1,8],p 840 1 [6,6],p 3465 2 [5,7],p 7625 4 [4,8],p 9035 4 [3,9],p 2915 1 [2,10],p 16445 4 [1,11]]]⟩
/-- `tDelta(4, 8)` — matslise_formulas.cpp:241 -/
def d4_8 : Entry4 :=
⟨[[p 57 40 [2,2],p 4 1 [1,3],m 693 2 [6]],
 [p 7 48 [1,1,1],m 105 4 [2,3],m 147 4 [1,4],p 9009 2 [7]],
 [m 29 24 [1,1,2],p 477 8 [3,3],p 271 2 [2,4],p 763 4 [1,5],m 63063 2 [8]],
 [p 41 16 [1,2,2],p 17 6 [1,1,3],m 861 2 [3,4],m 1029 2 [2,5],m 2919 4 [1,6],p 315315 2 [9]],
 [p 1 384 [1,1,1,1],m 3 2 [2,2,2],m 81 8 [1,2,3],m 47 8 [1,1,4],p 4875 8 [4,4],p 2619 2 [3,5],p 6405 4 [2,6],p 9135 4 [1,7],m 630630 1 [10]],
 [m 1 96 [1,1,1,2],p 63 8 [2,2,3],p 71 8 [1,3,3],p 445 24 [1,2,4],p 133 12 [1,1,5],m 12495 4 [4,5],m 13965 4 [3,6],m 86457 20 [2,7],m 24717 4 [1,8],p 2144142 1 [11]],
 [p 1 64 [1,1,2,2],p 1 96 [1,1,1,3],m 201 16 [2,3,3],m 53 4 [2,2,4],m 89 3 [1,3,4],m 255 8 [1,2,5],m 931 48 [1,1,6],p 28035 8 [5,5],p 7343 1 [4,6],p 33565 4 [3,7],p 41895 4 [2,8],p 59829 4 [1,9],m 6432426 1 [12]],
 [m 1 96 [1,2,2,2],m 1 32 [1,1,2,3],m 1 96 [1,1,1,4],p 99 16 [3,3,3],p 315 8 [2,3,4],p 185 8 [1,4,4],p 171 8 [2,2,5],p 379 8 [1,3,5],p 52 1 [1,2,6],p 511 16 [1,1,7],m 14847 1 [5,6],m 16023 1 [4,7],m 74223 4 [3,8],m 93159 4 [2,9],m 132561 4 [1,10],p 17459442 1 [13]],
 [p 1 384 [2,2,2,2],p 1 32 [1,2,2,3],p 1 64 [1,1,3,3],p 1 32 [1,1,2,4],p 1 96 [1,1,1,5],m 439 16 [3,3,4],m 1399 48 [2,4,4],m 60 1 [2,3,5],m 1675 24 [1,4,5],m 531 16 [2,2,6],m 291 4 [1,3,6],m 487 6 [1,2,7],m 2401 48 [1,1,8],p 57729 4 [6,6],p 29827 1 [5,7],p 65611 2 [4,8],p 153279 4 [3,9],p 48279 1 [2,10],p 273273 4 [1,11]]],
[[m 1 2 [1,2],p 63 2 [5]],
 [p 3 2 [2,2],p 15 4 [1,3],m 693 2 [6]],
 [p 1 16 [1,1,1],m 47 4 [2,3],m 65 4 [1,4],p 2079 1 [7]],
 [m 5 16 [1,1,2],p 65 4 [3,3],p 145 4 [2,4],p 105 2 [1,5],m 9009 1 [8]],
 [p 7 16 [1,2,2],p 1 2 [1,1,3],m 80 1 [3,4],m 95 1 [2,5],m 140 1 [1,6],p 63063 2 [9]],
 [m 3 16 [2,2,2],m 5 4 [1,2,3],m 3 4 [1,1,4],p 335 4 [4,4],p 715 4 [3,5],p 441 2 [2,6],p 651 2 [1,7],m 189189 2 [10]],
 [p 3 4 [2,2,3],p 13 16 [1,3,3],p 7 4 [1,2,4],p 17 16 [1,1,5],m 1325 4 [4,5],m 1475 4 [3,6],m 931 2 [2,7],m 1365 2 [1,8],p 252252 1 [11]],
 [m 15 16 [2,3,3],m 1 1 [2,2,4],m 17 8 [1,3,4],m 19 8 [1,2,5],m 23 16 [1,1,6],p 595 2 [5,5],p 2485 4 [4,6],p 2847 4 [3,7],p 1821 2 [2,8],p 1320 1 [1,9],m 612612 1 [12]],
 [p 3 8 [3,3,3],p 19 8 [2,3,4],p 21 16 [1,4,4],p 21 16 [2,2,5],p 11 4 [1,3,5],p 25 8 [1,2,6],p 15 8 [1,1,7],m 2065 2 [5,6],m 4445 4 [4,7],m 5195 4 [3,8],m 3345 2 [2,9],m 4785 2 [1,10],p 1378377 1 [13]]],
[[m 7 48 [1,1,1],p 105 4 [2,3],p 147 4 [1,4],m 9009 2 [7]],
 [p 41 16 [1,1,2],m 525 4 [3,3],m 294 1 [2,4],m 819 2 [1,5],p 135135 2 [8]],
 [m 143 16 [1,2,2],m 157 16 [1,1,3],p 1533 1 [3,4],p 1806 1 [2,5],p 2520 1 [1,6],m 540540 1 [9]],
 [m 1 96 [1,1,1,1],p 123 16 [2,2,2],p 411 8 [1,2,3],p 475 16 [1,1,4],m 12495 4 [4,4],m 6657 1 [3,5],m 16065 2 [2,6],m 45045 4 [1,7],p 3063060 1 [10]],
 [p 1 16 [1,1,1,2],m 873 16 [2,2,3],m 491 8 [1,3,3],m 1025 8 [1,2,4],m 1225 16 [1,1,5],p 85575 4 [4,5],p 94605 4 [3,6],p 115605 4 [2,7],p 162855 4 [1,8],m 13783770 1 [11]],
 [m 1 8 [1,1,2,2],m 3 32 [1,1,1,3],p 903 8 [2,3,3],p 1895 16 [2,2,4],p 535 2 [1,3,4],p 2295 8 [1,2,5],p 2807 16 [1,1,6],m 30765 1 [5,5],m 64113 1 [4,6],m 72450 1 [3,7],m 356895 4 [2,8],m 126126 1 [1,9],p 52378326 1 [12]],
 [p 5 48 [1,2,2,2],p 11 32 [1,1,2,3],p 13 96 [1,1,1,4],m 1119 16 [3,3,3],m 885 2 [2,3,4],m 2105 8 [1,4,4],m 3825 16 [2,2,5],m 4315 8 [1,3,5],m 4721 8 [1,2,6],m 2933 8 [1,1,7],p 161322 1 [5,6],p 172704 1 [4,7],p 197820 1 [3,8],p 489951 2 [2,9],p 693693 2 [1,10],m 174594420 1 [13]],
 [m 1 32 [2,2,2,2],m 13 32 [1,2,2,3],m 7 32 [1,1,3,3],m 15 32 [1,1,2,4],m 3 16 [1,1,1,5],p 6055 16 [3,3,4],p 3205 8 [2,4,4],p 6585 8 [2,3,5],p 7825 8 [1,4,5],p 7263 16 [2,2,6],p 8157 8 [1,3,6],p 2267 2 [1,2,7],p 5691 8 [1,1,8],m 189945 1 [6,6],m 391041 1 [5,7],m 426258 1 [4,8],m 1970199 4 [3,9],m 612612 1 [2,10],m 3468465 4 [1,11]],
 [p 5 32 [2,2,2,3],p 1 2 [1,2,3,3],p 17 32 [1,2,2,4],p 9 16 [1,1,3,4],p 5 8 [1,1,2,5],p 1 4 [1,1,1,6],m 10225 16 [3,4,4],m 5265 8 [3,3,5],m 11175 8 [2,4,5],m 13615 16 [1,5,5],m 11691 8 [2,3,6],m 13835 8 [1,4,6],m 6547 8 [2,2,7],m 14611 8 [1,3,7],m 2057 1 [1,2,8],m 20775 16 [1,1,9],p 1686825 2 [6,7],p 1772379 2 [5,8],p 1955835 2 [4,9],p 2273733 2 [3,10],p 2837835 2 [2,11],p 4009005 2 [1,12]]],
[[m 63 40 [2,2],m 7 2 [1,3],p 693 2 [6]],
 [m 5 48 [1,1,1],p 105 4 [2,3],p 133 4 [1,4],m 9009 2 [7]],
 [p 11 12 [1,1,2],m 483 8 [3,3],m 259 2 [2,4],m 707 4 [1,5],p 63063 2 [8]],
 [m 31 16 [1,2,2],m 55 24 [1,1,3],p 427 1 [3,4],p 483 1 [2,5],p 2751 4 [1,6],m 315315 2 [9]],
 [p 1 384 [1,1,1,1],p 9 8 [2,2,2],p 63 8 [1,2,3],p 5 1 [1,1,4],m 4865 8 [4,4],m 2541 2 [3,5],m 5985 4 [2,6],m 8715 4 [1,7],p 630630 1 [10]],
 [m 1 96 [1,1,1,2],m 6 1 [2,2,3],m 55 8 [1,3,3],m 359 24 [1,2,4],m 235 24 [1,1,5],p 12355 4 [4,5],p 13335 4 [3,6],p 80913 20 [2,7],p 23793 4 [1,8],m 2144142 1 [11]],
 [p 1 64 [1,1,2,2],p 1 96 [1,1,1,3],p 153 16 [2,3,3],p 83 8 [2,2,4],p 70 3 [1,3,4],p 213 8 [1,2,5],p 845 48 [1,1,6],m 27825 8 [5,5],m 14329 2 [4,6],m 31745 4 [3,7],m 39375 4 [2,8],m 57981 4 [1,9],p 6432426 1 [12]],
 [m 1 96 [1,2,2,2],m 1 32 [1,1,2,3],m 1 96 [1,1,1,4],m 75 16 [3,3,3],m 243 8 [2,3,4],m 145 8 [1,4,4],m 69 4 [2,2,5],m 305 8 [1,3,5],m 179 4 [1,2,6],m 473 16 [1,1,7],p 14658 1 [5,6],p 15442 1 [4,7],p 69867 4 [3,8],p 88011 4 [2,9],p 129129 4 [1,10],m 17459442 1 [13]],
 [p 1 384 [2,2,2,2],p 1 32 [1,2,2,3],p 1 64 [1,1,3,3],p 1 32 [1,1,2,4],p 1 96 [1,1,1,5],p 335 16 [3,3,4],p 1079 48 [2,4,4],p 189 4 [2,3,5],p 1325 24 [1,4,5],p 441 16 [2,2,6],p 60 1 [1,3,6],p 859 12 [1,2,7],p 2255 48 [1,1,8],m 57141 4 [6,6],m 29183 1 [5,7],m 62629 2 [4,8],m 144081 4 [3,9],m 91707 2 [2,10],m 267267 4 [1,11]]]⟩
/-- `tDelta(4, 9)` — matslise_formulas.cpp:242 -/
def d4_9 : Entry4 :=
⟨[[m 1 12 [1,1,1],p 15 1 [2,3],p 21 1 [1,4],m 2574 1 [7]],
 [p 3 2 [1,1,2],m 75 1 [3,3],m 168 1 [2,4],m 945 4 [1,5],p 38610 1 [8]],
 [m 21 4 [1,2,2],m 47 8 [1,1,3],p 876 1 [3,4],p 4137 4 [2,5],p 5859 4 [1,6],m 308880 1 [9]],
 [m 1 96 [1,1,1,1],p 9 2 [2,2,2],p 61 2 [1,2,3],p 145 8 [1,1,4],m 1785 1 [4,4],m 15225 4 [3,5],m 18459 4 [2,6],m 13167 2 [1,7],p 1750320 1 [10]],
 [p 1 16 [1,1,1,2],m 257 8 [2,2,3],m 73 2 [1,3,3],m 77 1 [1,2,4],m 95 2 [1,1,5],p 48909 4 [4,5],p 54159 4 [3,6],p 33327 2 [2,7],p 47817 2 [1,8],m 7876440 1 [11]],
 [m 1 8 [1,1,2,2],m 3 32 [1,1,1,3],p 133 2 [2,3,3],p 563 8 [2,2,4],p 160 1 [1,3,4],p 349 2 [1,2,5],p 441 4 [1,1,6],m 70329 4 [5,5],m 146643 4 [4,6],m 83097 2 [3,7],m 103257 2 [2,8],m 297297 4 [1,9],p 29930472 1 [12]],
 [p 5 48 [1,2,2,2],p 11 32 [1,1,2,3],p 13 96 [1,1,1,4],m 329 8 [3,3,3],m 262 1 [2,3,4],m 315 2 [1,4,4],m 287 2 [2,2,5],m 325 1 [1,3,5],m 363 1 [1,2,6],m 931 4 [1,1,7],p 92211 1 [5,6],p 197673 2 [4,7],p 227367 2 [3,8],p 568953 4 [2,9],p 819819 4 [1,10],m 99768240 1 [13]],
 [m 1 32 [2,2,2,2],m 13 32 [1,2,2,3],m 7 32 [1,1,3,3],m 15 32 [1,1,2,4],m 3 16 [1,1,1,5],p 1785 8 [3,3,4],p 475 2 [2,4,4],p 1963 4 [2,3,5],p 1175 2 [1,4,5],p 1101 4 [2,2,6],p 2477 4 [1,3,6],p 2817 4 [1,2,7],p 1821 4 [1,1,8],m 434259 4 [6,6],m 894411 4 [5,7],m 488439 2 [4,8],m 1134837 4 [3,9],m 1427283 4 [2,10],m 513513 1 [1,11]]],
[[m 9 10 [2,2],m 2 1 [1,3],p 198 1 [6]],
 [m 1 16 [1,1,1],p 15 1 [2,3],p 77 4 [1,4],m 2574 1 [7]],
 [p 9 16 [1,1,2],m 69 2 [3,3],m 297 4 [2,4],m 413 4 [1,5],p 18018 1 [8]],
 [m 19 16 [1,2,2],m 23 16 [1,1,3],p 977 4 [3,4],p 1113 4 [2,5],p 1617 4 [1,6],m 90090 1 [9]],
 [p 11 16 [2,2,2],p 39 8 [1,2,3],p 51 16 [1,1,4],m 1391 4 [4,4],m 2913 4 [3,5],m 3465 4 [2,6],m 5145 4 [1,7],p 360360 1 [10]],
 [m 59 16 [2,2,3],m 17 4 [1,3,3],m 75 8 [1,2,4],m 101 16 [1,1,5],p 3535 2 [4,5],p 7665 4 [3,6],p 47061 20 [2,7],p 14091 4 [1,8],m 1225224 1 [11]],
 [p 47 8 [2,3,3],p 103 16 [2,2,4],p 29 2 [1,3,4],p 135 8 [1,2,5],p 183 16 [1,1,6],m 7959 4 [5,5],m 8211 2 [4,6],m 18305 4 [3,7],m 22995 4 [2,8],m 34419 4 [1,9],p 3675672 1 [12]],
 [m 23 8 [3,3,3],m 75 4 [2,3,4],m 45 4 [1,4,4],m 173 16 [2,2,5],m 191 8 [1,3,5],m 229 8 [1,2,6],m 309 16 [1,1,7],p 16779 2 [5,6],p 17731 2 [4,7],p 40419 4 [3,8],p 51579 4 [2,9],p 76791 4 [1,10],m 9976824 1 [13]]],
[[m 27 20 [1,1,2],p 1065 14 [3,3],p 165 1 [2,4],p 459 2 [1,5],m 38610 1 [8]],
 [p 819 80 [1,2,2],p 23 2 [1,1,3],m 1890 1 [3,4],m 4347 2 [2,5],m 12177 4 [1,6],p 656370 1 [9]],
 [p 1 96 [1,1,1,1],m 1143 80 [2,2,2],m 3883 40 [1,2,3],m 463 8 [1,1,4],p 12405 2 [4,4],p 13062 1 [3,5],p 62073 4 [2,6],p 87615 4 [1,7],m 5907330 1 [10]],
 [m 11 96 [1,1,1,2],p 11769 80 [2,2,3],p 2683 16 [1,3,3],p 2835 8 [1,2,4],p 1757 8 [1,1,5],m 60165 1 [4,5],m 262287 4 [3,6],m 317691 4 [2,7],m 451737 4 [1,8],p 37413090 1 [11]],
 [p 31 96 [1,1,2,2],p 29 96 [1,1,1,3],m 32733 80 [2,3,3],m 34691 80 [2,2,4],m 7939 8 [1,3,4],m 8675 8 [1,2,5],m 5523 8 [1,1,6],p 230115 2 [5,5],p 952599 4 [4,6],p 1062855 4 [3,7],p 1303533 4 [2,8],p 1864863 4 [1,9],m 187065450 1 [12]],
 [m 1 3840 [1,1,1,1,1],m 11 32 [1,2,2,2],m 4 3 [1,1,2,3],m 67 96 [1,1,1,4],p 5199 16 [3,3,3],p 16575 8 [2,3,4],p 20167 16 [1,4,4],p 90951 80 [2,2,5],p 20827 8 [1,3,5],p 29127 10 [1,2,6],p 75579 40 [1,1,7],m 3059487 4 [5,6],m 3244167 4 [4,7],m 3679137 4 [3,8],m 4552119 4 [2,9],m 3270267 2 [1,10],p 785674890 1 [13]],
 [p 1 768 [1,1,1,1,2],p 1 8 [2,2,2,2],p 59 32 [1,2,2,3],p 53 48 [1,1,3,3],p 43 16 [1,1,2,4],p 137 96 [1,1,1,5],m 35087 16 [3,3,4],m 37377 16 [2,4,4],m 38655 8 [2,3,5],m 47035 8 [1,4,5],m 217269 80 [2,2,6],m 6205 1 [1,3,6],m 35343 5 [1,2,7],m 37149 8 [1,1,8],p 4440177 4 [6,6],p 9099891 4 [5,7],p 9821889 4 [4,8],p 11268873 4 [3,9],p 7018011 2 [2,10],p 5054049 1 [1,11]],
 [m 1 384 [1,1,1,2,2],m 1 768 [1,1,1,1,3],m 13 16 [2,2,2,3],m 91 32 [1,2,3,3],m 323 96 [1,2,2,4],m 61 16 [1,1,3,4],m 61 12 [1,1,2,5],m 127 48 [1,1,1,6],p 71917 16 [3,4,4],p 74475 16 [3,3,5],p 79485 8 [2,4,5],p 99883 16 [1,5,5],p 420333 40 [2,3,6],p 51009 4 [1,4,6],p 481029 80 [2,2,7],p 273529 20 [1,3,7],p 79026 5 [1,2,8],p 83721 8 [1,1,9],m 11842299 2 [6,7],m 24714837 4 [5,8],m 27030465 4 [4,9],m 54737397 7 [3,10],m 9791496 1 [2,11],m 14111955 1 [1,12]]],
[[p 1 24 [1,1,1],m 15 1 [2,3],m 35 2 [1,4],p 2574 1 [7]],
 [m 7 8 [1,1,2],p 75 1 [3,3],p 315 2 [2,4],p 819 4 [1,5],m 38610 1 [8]],
 [p 25 8 [1,2,2],p 31 8 [1,1,3],m 855 1 [3,4],m 3759 4 [2,5],m 5229 4 [1,6],p 308880 1 [9]],
 [m 1 96 [1,1,1,1],m 21 8 [2,2,2],m 77 4 [1,2,3],m 105 8 [1,1,4],p 1750 1 [4,4],p 14469 4 [3,5],p 16569 4 [2,6],p 6006 1 [1,7],m 1750320 1 [10]],
 [p 1 16 [1,1,1,2],p 155 8 [2,2,3],p 93 4 [1,3,3],p 207 4 [1,2,4],p 295 8 [1,1,5],m 47439 4 [4,5],m 50379 4 [3,6],m 14931 1 [2,7],m 22176 1 [1,8],p 7876440 1 [11]],
 [m 1 8 [1,1,2,2],m 3 32 [1,1,1,3],m 161 4 [2,3,3],m 357 8 [2,2,4],m 105 1 [1,3,4],m 497 4 [1,2,5],m 721 8 [1,1,6],p 68439 4 [5,5],p 140049 4 [4,6],p 76167 2 [3,7],p 46431 1 [2,8],p 279279 4 [1,9],m 29930472 1 [12]],
 [p 5 48 [1,2,2,2],p 11 32 [1,1,2,3],p 13 96 [1,1,1,4],p 197 8 [3,3,3],p 163 1 [2,3,4],p 415 4 [1,4,4],p 767 8 [2,2,5],p 885 4 [1,3,5],p 1087 4 [1,2,6],p 791 4 [1,1,7],m 89187 1 [5,6],m 185927 2 [4,7],m 206577 2 [3,8],m 514899 4 [2,9],m 777777 4 [1,10],p 99768240 1 [13]],
 [m 1 32 [2,2,2,2],m 13 32 [1,2,2,3],m 7 32 [1,1,3,3],m 15 32 [1,1,2,4],m 3 16 [1,1,1,5],m 1085 8 [3,3,4],m 595 4 [2,4,4],m 1267 4 [2,3,5],m 1575 4 [1,4,5],m 1545 8 [2,2,6],m 1751 4 [1,3,6],m 550 1 [1,2,7],m 1593 4 [1,1,8],p 421029 4 [6,6],p 856233 4 [5,7],p 453537 2 [4,8],p 1026729 4 [3,9],p 1301157 4 [2,10],p 981981 2 [1,11]]]⟩
/-- `tDelta(4, 10)` — matslise_formulas.cpp:243 -/
def d4_10 : Entry4 :=
⟨[[m 29 48 [1,1,2],p 1775 56 [3,3],p 275 4 [2,4],p 393 4 [1,5],m 32175 2 [8]],
 [p 183 40 [1,2,2],p 253 48 [1,1,3],m 1575 2 [3,4],m 1827 2 [2,5],m 5247 4 [1,6],p 546975 2 [9]],
 [p 1 64 [1,1,1,1],m 511 80 [2,2,2],m 351 8 [1,2,3],m 27 1 [1,1,4],p 20675 8 [4,4],p 21833 4 [3,5],p 6567 1 [2,6],p 18975 2 [1,7],m 4922775 2 [10]],
 [m 7 48 [1,1,1,2],p 5291 80 [2,2,3],p 303 4 [1,3,3],p 487 3 [1,2,4],p 623 6 [1,1,5],m 25095 1 [4,5],m 110037 4 [3,6],m 135201 4 [2,7],m 98241 2 [1,8],p 31177575 2 [11]],
 [p 13 32 [1,1,2,2],p 31 96 [1,1,1,3],m 184 1 [2,3,3],m 1967 10 [2,2,4],m 10825 24 [1,3,4],m 4023 8 [1,2,5],m 15827 48 [1,1,6],p 47980 1 [5,5],p 398129 4 [4,6],p 447765 4 [3,7],p 557403 4 [2,8],p 813813 4 [1,9],m 155887875 2 [12]],
 [m 7 16 [1,2,2,2],m 49 32 [1,1,2,3],m 21 32 [1,1,1,4],p 146 1 [3,3,3],p 7487 8 [2,3,4],p 4581 8 [1,4,4],p 20833 40 [2,2,5],p 4773 4 [1,3,5],p 1365 1 [1,2,6],p 14553 16 [1,1,7],m 1276797 4 [5,6],m 1359417 4 [4,7],m 1556247 4 [3,8],m 488631 1 [2,9],m 2861859 4 [1,10],p 654729075 2 [13]],
 [p 31 192 [2,2,2,2],p 71 32 [1,2,2,3],p 81 64 [1,1,3,3],p 89 32 [1,1,2,4],p 59 48 [1,1,1,5],m 15803 16 [3,3,4],m 25333 24 [2,4,4],m 8789 4 [2,3,5],m 64345 24 [1,4,5],m 100491 80 [2,2,6],m 11475 4 [1,3,6],m 401023 120 [1,2,7],m 35987 16 [1,1,8],p 1852557 4 [6,6],p 3803061 4 [5,7],p 4127739 4 [4,8],p 4784703 4 [3,9],p 3024021 2 [2,10],p 2216214 1 [1,11]]],
[[p 1 48 [1,1,1],m 25 4 [2,3],m 91 12 [1,4],p 2145 2 [7]],
 [m 7 16 [1,1,2],p 125 4 [3,3],p 133 2 [2,4],p 357 4 [1,5],m 32175 2 [8]],
 [p 25 16 [1,2,2],p 31 16 [1,1,3],m 358 1 [3,4],m 1603 4 [2,5],m 2289 4 [1,6],p 128700 1 [9]],
 [m 21 16 [2,2,2],m 77 8 [1,2,3],m 105 16 [1,1,4],p 8785 12 [4,4],p 6097 4 [3,5],p 7119 4 [2,6],p 10549 4 [1,7],m 729300 1 [10]],
 [p 155 16 [2,2,3],p 93 8 [1,3,3],p 207 8 [1,2,4],p 295 16 [1,1,5],m 9947 2 [4,5],m 5341 1 [3,6],m 25809 4 [2,7],m 39039 4 [1,8],p 3281850 1 [11]],
 [m 161 8 [2,3,3],m 357 16 [2,2,4],m 105 2 [1,3,4],m 497 8 [1,2,5],m 721 16 [1,1,6],p 28679 4 [5,5],p 58961 4 [4,6],p 32487 2 [3,7],p 80619 4 [2,8],p 123123 4 [1,9],m 12471030 1 [12]],
 [p 197 16 [3,3,3],p 163 2 [2,3,4],p 415 8 [1,4,4],p 767 16 [2,2,5],p 885 8 [1,3,5],p 1087 8 [1,2,6],p 791 8 [1,1,7],m 37429 1 [5,6],m 235865 6 [4,7],m 88557 2 [3,8],m 224301 4 [2,9],m 343343 4 [1,10],p 41570100 1 [13]]],
[[m 309 80 [1,2,2],m 217 48 [1,1,3],p 1575 2 [3,4],p 882 1 [2,5],p 1254 1 [1,6],m 546975 2 [9]],
 [p 927 80 [2,2,2],p 323 4 [1,2,3],p 805 16 [1,1,4],m 11025 2 [4,4],m 22995 2 [3,5],m 13464 1 [2,6],m 19305 1 [1,7],p 10392525 2 [10]],
 [p 1 16 [1,1,1,2],m 15579 80 [2,2,3],m 3613 16 [1,3,3],m 5825 12 [1,2,4],m 15085 48 [1,1,5],p 169785 2 [4,5],p 182943 2 [3,6],p 110121 1 [2,7],p 159159 1 [1,8],m 51962625 1 [11]],
 [m 5 16 [1,1,2,2],m 5 12 [1,1,1,3],p 12387 16 [2,3,3],p 13313 16 [2,2,4],p 46325 24 [1,3,4],p 8645 4 [1,2,5],p 22981 16 [1,1,6],m 229320 1 [5,5],m 944565 2 [4,6],m 1043625 2 [3,7],m 639639 1 [2,8],m 930930 1 [1,9],p 363738375 1 [12]],
 [p 1 768 [1,1,1,1,1],p 7 16 [1,2,2,2],p 19 8 [1,1,2,3],p 5 3 [1,1,1,4],m 6537 8 [3,3,3],m 42145 8 [2,3,4],m 52517 16 [1,4,4],m 2952 1 [2,2,5],m 54775 8 [1,3,5],m 62979 8 [1,2,6],m 21315 4 [1,1,7],p 2007720 1 [5,6],p 4228281 2 [4,7],p 4761603 2 [3,8],p 2954952 1 [2,9],p 4324320 1 [1,10],m 4001122125 2 [13]],
 [m 7 768 [1,1,1,1,2],m 3 16 [2,2,2,2],m 15 4 [1,2,2,3],m 45 16 [1,1,3,3],m 61 8 [1,1,2,4],m 245 48 [1,1,1,5],p 56485 8 [3,3,4],p 364193 48 [2,4,4],p 31665 2 [2,3,5],p 472745 24 [1,4,5],p 364707 40 [2,2,6],p 84455 4 [1,3,6],p 494767 20 [1,2,7],p 67837 4 [1,1,8],m 3682224 1 [6,6],m 7522710 1 [5,7],m 16124955 2 [4,8],m 18423405 2 [3,9],m 11537526 1 [2,10],m 16948932 1 [1,11]],
 [p 3 128 [1,1,1,2,2],p 5 384 [1,1,1,1,3],p 43 24 [2,2,2,3],p 123 16 [1,2,3,3],p 21 2 [1,2,2,4],p 55 4 [1,1,3,4],p 83 4 [1,1,2,5],p 105 8 [1,1,1,6],m 143051 8 [3,4,4],m 149265 8 [3,3,5],m 160445 4 [2,4,5],m 415303 16 [1,5,5],m 344205 8 [2,3,6],m 320215 6 [1,4,6],m 505239 20 [2,2,7],m 349867 6 [1,3,7],m 277221 4 [1,2,8],m 766535 16 [1,1,9],p 24034374 1 [6,7],p 24959970 1 [5,8],p 54263055 2 [4,9],p 62687625 2 [3,10],p 39531492 1 [2,11],p 58198140 1 [1,12]]],
[[p 13 48 [1,1,2],m 1725 56 [3,3],m 257 4 [2,4],m 321 4 [1,5],p 32175 2 [8]],
 [m 87 40 [1,2,2],m 137 48 [1,1,3],p 1505 2 [3,4],p 819 1 [2,5],p 4455 4 [1,6],m 546975 2 [9]],
 [p 1 64 [1,1,1,1],p 239 80 [2,2,2],p 183 8 [1,2,3],p 67 4 [1,1,4],m 19785 8 [4,4],m 20391 4 [3,5],m 11541 2 [2,6],m 16599 2 [1,7],p 4922775 2 [10]],
 [m 7 48 [1,1,1,2],m 2599 80 [2,2,3],m 81 2 [1,3,3],m 278 3 [1,2,4],m 427 6 [1,1,5],p 23800 1 [4,5],p 100635 4 [3,6],p 117975 4 [2,7],p 87945 2 [1,8],m 31177575 2 [11]],
 [p 13 32 [1,1,2,2],p 31 96 [1,1,1,3],p 365 4 [2,3,3],p 2071 20 [2,2,4],p 6065 24 [1,3,4],p 2487 8 [1,2,5],p 11683 48 [1,1,6],m 91185 2 [5,5],m 372599 4 [4,6],m 402903 4 [3,7],m 486717 4 [2,8],m 741741 4 [1,9],p 155887875 2 [12]],
 [m 7 16 [1,2,2,2],m 49 32 [1,1,2,3],m 21 32 [1,1,1,4],m 143 2 [3,3,3],m 3863 8 [2,3,4],m 2599 8 [1,4,4],m 11777 40 [2,2,5],m 2817 4 [1,3,5],m 903 1 [1,2,6],m 11361 16 [1,1,7],p 1206915 4 [5,6],p 1254579 4 [4,7],p 1384845 4 [3,8],p 857571 2 [2,9],p 2645643 4 [1,10],m 654729075 2 [13]],
 [p 31 192 [2,2,2,2],p 71 32 [1,2,2,3],p 81 64 [1,1,3,3],p 89 32 [1,1,2,4],p 59 48 [1,1,1,5],p 7907 16 [3,3,4],p 13247 24 [2,4,4],p 4771 4 [2,3,5],p 37505 24 [1,4,5],p 60699 80 [2,2,6],p 7125 4 [1,3,6],p 280847 120 [1,2,7],p 29323 16 [1,1,8],m 1754025 4 [6,6],m 3563403 4 [5,7],m 3761289 4 [4,8],m 4229841 4 [3,9],m 1336335 1 [2,10],m 2072070 1 [1,11]]]⟩
/-- `tDelta(4, 11)` — matslise_formulas.cpp:244 -/
def d4_11 : Entry4 :=
⟨[[m 29 20 [1,2,2],m 83 48 [1,1,3],p 525 2 [3,4],p 1197 4 [2,5],p 1749 4 [1,6],m 182325 2 [9]],
 [m 1 96 [1,1,1,1],p 87 20 [2,2,2],p 61 2 [1,2,3],p 931 48 [1,1,4],m 3675 2 [4,4],m 15435 4 [3,5],m 9207 2 [2,6],m 27027 4 [1,7],p 3464175 2 [10]],
 [p 1 6 [1,1,1,2],m 5871 80 [2,2,3],m 681 8 [1,3,3],m 554 3 [1,2,4],m 1463 12 [1,1,5],p 113505 4 [4,5],p 123579 4 [3,6],p 151503 4 [2,7],p 223509 4 [1,8],m 17320875 1 [11]],
 [m 11 16 [1,1,2,2],m 9 16 [1,1,1,3],p 1167 4 [2,3,3],p 5043 16 [2,2,4],p 5837 8 [1,3,4],p 3311 4 [1,2,5],p 560 1 [1,1,6],m 306495 4 [5,5],m 633945 4 [4,6],m 177243 1 [3,7],m 884169 4 [2,8],m 1310595 4 [1,9],p 121246125 1 [12]],
 [p 1 1 [1,2,2,2],p 29 8 [1,1,2,3],p 13 8 [1,1,1,4],m 2463 8 [3,3,3],m 15919 8 [2,3,4],m 7435 6 [1,4,4],m 4497 4 [2,2,5],m 20799 8 [1,3,5],m 12131 4 [1,2,6],m 2086 1 [1,1,7],p 1343835 2 [5,6],p 712485 1 [4,7],p 812691 1 [3,8],p 2050191 2 [2,9],p 1525095 1 [1,10],m 1333707375 2 [13]],
 [m 15 32 [2,2,2,2],m 107 16 [1,2,2,3],m 127 32 [1,1,3,3],m 141 16 [1,1,2,4],m 33 8 [1,1,1,5],p 21311 8 [3,3,4],p 68755 24 [2,4,4],p 12003 2 [2,3,5],p 59591 8 [1,4,5],p 17451 5 [2,2,6],p 8057 1 [1,3,6],p 47887 5 [1,2,7],p 13321 2 [1,1,8],m 4927419 4 [6,6],m 10096737 4 [5,7],m 2728605 1 [4,8],m 12631905 4 [3,9],m 16061331 4 [2,10],m 5987553 1 [1,11]]],
[[p 1 8 [1,1,2],m 575 56 [3,3],m 22 1 [2,4],m 57 2 [1,5],p 10725 2 [8]],
 [m 1 1 [1,2,2],m 5 4 [1,1,3],p 1015 4 [3,4],p 567 2 [2,5],p 396 1 [1,6],m 182325 2 [9]],
 [p 11 8 [2,2,2],p 41 4 [1,2,3],p 57 8 [1,1,4],m 6665 8 [4,4],m 1736 1 [3,5],m 2013 1 [2,6],m 5907 2 [1,7],p 1640925 2 [10]],
 [m 59 4 [2,2,3],m 145 8 [1,3,3],m 81 2 [1,2,4],m 119 4 [1,1,5],p 8050 1 [4,5],p 17277 2 [3,6],p 20691 2 [2,7],p 31317 2 [1,8],m 10392525 2 [11]],
 [p 331 8 [2,3,3],p 369 8 [2,2,4],p 447 4 [1,3,4],p 533 4 [1,2,5],p 805 8 [1,1,6],m 30815 2 [5,5],m 63365 2 [4,6],m 34821 1 [3,7],m 85701 2 [2,8],m 66066 1 [1,9],p 51962625 2 [12]],
 [m 65 2 [3,3,3],m 867 4 [2,3,4],m 1149 8 [1,4,4],m 515 4 [2,2,5],m 307 1 [1,3,5],m 763 2 [1,2,6],m 2331 8 [1,1,7],p 204387 2 [5,6],p 107292 1 [4,7],p 120351 1 [3,8],p 151437 1 [2,9],p 471471 2 [1,10],m 218243025 2 [13]]],
[[m 1 384 [1,1,1,1],m 979 280 [2,2,2],m 697 28 [1,2,3],m 781 48 [1,1,4],p 43925 24 [4,4],p 15195 4 [3,5],p 4389 1 [2,6],p 25597 4 [1,7],m 3464175 2 [10]],
 [p 1 48 [1,1,1,2],p 1017 8 [2,2,3],p 8395 56 [1,3,3],p 655 2 [1,2,4],p 3537 16 [1,1,5],m 59535 1 [4,5],m 254925 4 [3,6],m 305019 4 [2,7],m 448305 4 [1,8],p 72747675 2 [11]],
 [p 7 960 [1,1,2,2],p 5 24 [1,1,1,3],m 5673 7 [2,3,3],m 98801 112 [2,2,4],m 116159 56 [1,3,4],m 9499 4 [1,2,5],m 26235 16 [1,1,6],p 2036895 8 [5,5],p 1046115 2 [4,6],p 574398 1 [3,7],p 2813811 4 [2,8],p 2082795 2 [1,9],m 800224425 2 [12]],
 [m 1 384 [1,1,1,1,1],m 1 40 [1,2,2,2],m 57 32 [1,1,2,3],m 187 96 [1,1,1,4],p 8465 7 [3,3,3],p 15755 2 [2,3,4],p 60245 12 [1,4,4],p 72009 16 [2,2,5],p 10564 1 [1,3,5],p 12444 1 [1,2,6],p 139777 16 [1,1,7],m 12500775 4 [5,6],m 13115355 4 [4,7],m 7350915 2 [3,8],m 9148425 2 [2,9],m 13625755 2 [1,10],p 6135053925 2 [13]],
 [p 5 192 [1,1,1,1,2],m 27 640 [2,2,2,2],p 227 80 [1,2,2,3],p 359 96 [1,1,3,3],p 91 8 [1,1,2,4],p 923 96 [1,1,1,5],m 777927 56 [3,3,4],m 421595 28 [2,4,4],m 1773381 56 [2,3,5],m 160891 4 [1,4,5],m 298389 16 [2,2,6],m 174775 4 [1,3,6],m 52467 1 [1,2,7],m 596475 16 [1,1,8],p 60187575 8 [6,6],p 15346530 1 [5,7],p 65535855 4 [4,8],p 74673885 4 [3,9],p 47007675 2 [2,10],p 70340985 2 [1,11]],
 [m 17 192 [1,1,1,2,2],m 5 96 [1,1,1,1,3],m 129 160 [2,2,2,3],m 153 16 [1,2,3,3],m 8107 480 [1,2,2,4],m 911 32 [1,1,3,4],m 755 16 [1,1,2,5],m 847 24 [1,1,1,6],p 89195 2 [3,4,4],p 2623917 56 [3,3,5],p 101467 1 [2,4,5],p 67454 1 [1,5,5],p 881739 8 [2,3,6],p 1115665 8 [1,4,6],p 5299707 80 [2,2,7],p 1238379 8 [1,3,7],p 188496 1 [1,2,8],p 2160873 16 [1,1,9],m 123390729 2 [6,7],m 127834905 2 [5,8],m 69236310 1 [4,9],m 319671495 4 [3,10],m 202986069 2 [2,11],m 304708833 2 [1,12]]],
[[p 11 20 [1,2,2],p 37 48 [1,1,3],m 245 1 [3,4],m 1071 4 [2,5],m 1419 4 [1,6],p 182325 2 [9]],
 [m 1 96 [1,1,1,1],m 33 20 [2,2,2],m 53 4 [1,2,3],m 497 48 [1,1,4],p 1715 1 [4,4],p 14175 4 [3,5],p 8019 2 [2,6],p 22737 4 [1,7],m 3464175 2 [10]],
 [p 1 6 [1,1,1,2],p 2389 80 [2,2,3],p 309 8 [1,3,3],p 1087 12 [1,2,4],p 889 12 [1,1,5],m 105245 4 [4,5],m 111519 4 [3,6],m 130317 4 [2,7],m 193479 4 [1,8],p 17320875 1 [11]],
 [m 11 16 [1,1,2,2],m 9 16 [1,1,1,3],m 483 4 [2,3,3],m 2245 16 [2,2,4],m 2829 8 [1,3,4],m 1799 4 [1,2,5],m 749 2 [1,1,6],p 284445 4 [5,5],p 581925 4 [4,6],p 315051 2 [3,7],p 758043 4 [2,8],p 1160445 4 [1,9],m 121246125 1 [12]],
 [p 1 1 [1,2,2,2],p 29 8 [1,1,2,3],p 13 8 [1,1,1,4],p 1007 8 [3,3,3],p 6943 8 [2,3,4],p 1843 3 [1,4,4],p 2189 4 [2,2,5],p 10797 8 [1,3,5],p 7175 4 [1,2,6],p 5999 4 [1,1,7],m 1242135 2 [5,6],m 1293375 2 [4,7],m 1427877 2 [3,8],m 1761903 2 [2,9],m 1374945 1 [1,10],p 1333707375 2 [13]],
 [m 15 32 [2,2,2,2],m 107 16 [1,2,2,3],m 127 32 [1,1,3,3],m 141 16 [1,1,2,4],m 33 8 [1,1,1,5],m 8967 8 [3,3,4],m 30587 24 [2,4,4],m 11169 4 [2,3,5],m 30681 8 [1,4,5],m 9219 5 [2,2,6],m 17843 4 [1,3,6],m 60781 10 [1,2,7],m 20251 4 [1,1,8],p 4558869 4 [6,6],p 9269751 4 [5,7],p 4899345 2 [4,8],p 11010285 4 [3,9],p 13881153 4 [2,10],p 5477043 1 [1,11]]]⟩
/-- `tDelta(4, 12)` — matslise_formulas.cpp:245 -/
def d4_12 : Entry4 :=
⟨[[p 1 384 [1,1,1,1],m 23 20 [2,2,2],m 33 4 [1,2,3],m 259 48 [1,1,4],p 12299 24 [4,4],p 4305 4 [3,5],p 2541 2 [2,6],p 7579 4 [1,7],m 969969 2 [10]],
 [m 3 32 [1,1,1,2],p 42 1 [2,2,3],p 5545 112 [1,3,3],p 865 8 [1,2,4],p 1173 16 [1,1,5],m 16758 1 [4,5],m 72765 4 [3,6],m 88803 4 [2,7],m 66495 2 [1,8],p 20369349 2 [11]],
 [p 41 64 [1,1,2,2],p 17 32 [1,1,1,3],m 29989 112 [2,3,3],m 4665 16 [2,2,4],m 5463 8 [1,3,4],m 6267 8 [1,2,5],m 8703 16 [1,1,6],p 573153 8 [5,5],p 148050 1 [4,6],p 329967 2 [3,7],p 411411 2 [2,8],p 1237665 4 [1,9],m 224062839 2 [12]],
 [m 43 32 [1,2,2,2],m 159 32 [1,1,2,3],m 73 32 [1,1,1,4],p 44745 112 [3,3,3],p 20815 8 [2,3,4],p 79145 48 [1,4,4],p 23793 16 [2,2,5],p 13889 4 [1,3,5],p 32853 8 [1,2,6],p 46387 16 [1,1,7],m 3525795 4 [5,6],m 3732135 4 [4,7],m 4244955 4 [3,8],m 5368935 4 [2,9],m 8107385 4 [1,10],p 1717815099 2 [13]],
 [p 107 128 [2,2,2,2],p 391 32 [1,2,2,3],p 119 16 [1,1,3,3],p 531 32 [1,1,2,4],p 257 32 [1,1,1,5],m 514011 112 [3,3,4],m 79503 16 [2,4,4],m 10454 1 [2,3,5],m 105513 8 [1,4,5],m 98583 16 [2,2,6],m 57429 4 [1,3,6],m 138633 8 [1,2,7],m 198033 16 [1,1,8],p 16968945 8 [6,6],p 8686845 2 [5,7],p 9370515 2 [4,8],p 5413980 1 [3,9],p 27664065 4 [2,10],p 41898285 4 [1,11]]],
[[p 1 4 [1,2,2],p 5 16 [1,1,3],m 70 1 [3,4],m 315 4 [2,5],m 429 4 [1,6],p 51051 2 [9]],
 [m 3 4 [2,2,2],m 45 8 [1,2,3],m 63 16 [1,1,4],p 490 1 [4,4],p 4095 4 [3,5],p 1188 1 [2,6],p 1716 1 [1,7],m 969969 2 [10]],
 [p 209 16 [2,2,3],p 65 4 [1,3,3],p 291 8 [1,2,4],p 217 8 [1,1,5],m 30205 4 [4,5],m 32499 4 [3,6],m 9702 1 [2,7],m 14586 1 [1,8],p 4849845 1 [11]],
 [m 105 2 [2,3,3],m 939 16 [2,2,4],m 579 4 [1,3,4],m 693 4 [1,2,5],m 1071 8 [1,1,6],p 81585 4 [5,5],p 167985 4 [4,6],p 184899 4 [3,7],p 56628 1 [2,8],p 349635 4 [1,9],m 33948915 1 [12]],
 [p 55 1 [3,3,3],p 1473 4 [2,3,4],p 501 2 [1,4,4],p 1759 8 [2,2,5],p 4289 8 [1,3,5],p 2681 4 [1,2,6],p 4221 8 [1,1,7],m 178560 1 [5,6],m 751107 4 [4,7],m 842589 4 [3,8],m 263835 1 [2,9],m 413985 1 [1,10],p 373438065 2 [13]]],
[[m 1 48 [1,1,1,2],m 525 16 [2,2,3],m 275 7 [1,3,3],m 695 8 [1,2,4],m 975 16 [1,1,5],p 33075 2 [4,5],p 35343 2 [3,6],p 209781 10 [2,7],p 31317 1 [1,8],m 20369349 2 [11]],
 [p 13 80 [1,1,2,2],p 1 32 [1,1,1,3],p 24975 56 [2,3,3],p 7845 16 [2,2,4],p 9345 8 [1,3,4],p 10881 8 [1,2,5],p 15543 16 [1,1,6],m 297675 2 [5,5],m 305613 1 [4,6],m 334620 1 [3,7],m 817245 2 [2,8],m 2457741 4 [1,9],p 468495027 2 [12]],
 [p 1 384 [1,1,1,1,1],m 37 80 [1,2,2,2],m 1 12 [1,1,2,3],p 1 1 [1,1,1,4],m 118275 112 [3,3,3],m 55515 8 [2,3,4],m 36115 8 [1,4,4],m 64407 16 [2,2,5],m 19115 2 [1,3,5],m 91797 8 [1,2,6],m 66495 8 [1,1,7],p 2876202 1 [5,6],p 3014253 1 [4,7],p 3369366 1 [3,8],p 16786341 4 [2,9],p 25401519 4 [1,10],m 2810970162 1 [13]],
 [m 5 128 [1,1,1,1,2],p 39 80 [2,2,2,2],p 297 160 [1,2,2,3],m 49 24 [1,1,3,3],m 785 96 [1,1,2,4],m 315 32 [1,1,1,5],p 1920455 112 [3,3,4],p 18730 1 [2,4,4],p 39627 1 [2,3,5],p 410385 8 [1,4,5],p 380151 16 [2,2,6],p 450093 8 [1,3,6],p 551265 8 [1,2,7],p 403689 8 [1,1,8],m 19340937 2 [6,6],m 19718622 1 [5,7],m 21019713 1 [4,8],m 95615091 4 [3,9],m 120793959 4 [2,10],m 91869921 2 [1,11]],
 [p 35 192 [1,1,1,2,2],p 85 768 [1,1,1,1,3],m 327 80 [2,2,2,3],p 5 16 [1,2,3,3],p 2621 240 [1,2,2,4],p 1585 48 [1,1,3,4],p 5923 96 [1,1,2,5],p 5299 96 [1,1,1,6],m 1160295 16 [3,4,4],m 536265 7 [3,3,5],m 668193 4 [2,4,5],m 909925 8 [1,5,5],m 366393 2 [2,3,6],m 1888319 8 [1,4,6],m 897945 8 [2,2,7],m 530145 2 [1,3,7],m 2634027 8 [1,2,8],m 3888885 16 [1,1,9],p 207217395 2 [6,7],p 107263827 1 [5,8],p 464017125 4 [4,9],p 535182219 4 [3,10],p 341640585 2 [2,11],p 521704755 2 [1,12]]],
[[p 1 384 [1,1,1,1],p 7 20 [2,2,2],p 3 1 [1,2,3],p 119 48 [1,1,4],m 11221 24 [4,4],m 3885 4 [3,5],m 2211 2 [2,6],m 6149 4 [1,7],p 969969 2 [10]],
 [m 3 32 [1,1,1,2],m 57 4 [2,2,3],m 2155 112 [1,3,3],m 367 8 [1,2,4],m 633 16 [1,1,5],p 30429 2 [4,5],p 64845 4 [3,6],p 75933 4 [2,7],p 27885 1 [1,8],m 20369349 2 [11]],
 [p 41 64 [1,1,2,2],p 17 32 [1,1,1,3],p 10471 112 [2,3,3],p 1777 16 [2,2,4],p 2313 8 [1,3,4],p 3015 8 [1,2,5],p 5283 16 [1,1,6],m 520527 8 [5,5],m 266895 2 [4,6],m 290367 2 [3,7],m 174603 1 [2,8],m 1066065 4 [1,9],p 224062839 2 [12]],
 [m 43 32 [1,2,2,2],m 159 32 [1,1,2,3],m 73 32 [1,1,1,4],m 15455 112 [3,3,3],m 7777 8 [2,3,4],m 34675 48 [1,4,4],m 10101 16 [2,2,5],m 1601 1 [1,3,5],m 17505 8 [1,2,6],m 30767 16 [1,1,7],p 3192525 4 [5,6],p 3335805 4 [4,7],p 3695835 4 [3,8],p 4553835 4 [2,9],p 7134985 4 [1,10],m 1717815099 2 [13]],
 [p 107 128 [2,2,2,2],p 391 32 [1,2,2,3],p 119 16 [1,1,3,3],p 531 32 [1,1,2,4],p 257 32 [1,1,1,5],p 184421 112 [3,3,4],p 30525 16 [2,4,4],p 8455 2 [2,3,5],p 48543 8 [1,4,5],p 46107 16 [2,2,6],p 28629 4 [1,3,6],p 80313 8 [1,2,7],p 140613 16 [1,1,8],m 15372735 8 [6,6],m 7826985 2 [5,7],m 4151730 1 [4,8],m 4676100 1 [3,9],m 23545665 4 [2,10],m 37522485 4 [1,11]]]⟩
/-- `tDelta(4, 13)` — matslise_formulas.cpp:246 -/
def d4_13 : Entry4 :=
⟨[[p 1 48 [1,1,1,2],m 39 4 [2,2,3],m 655 56 [1,3,3],m 307 12 [1,2,4],m 71 4 [1,1,5],p 8085 2 [4,5],p 4389 1 [3,6],p 26598 5 [2,7],p 16159 2 [1,8],m 2469012 1 [11]],
 [m 5 16 [1,1,2,2],m 25 96 [1,1,1,3],p 7425 56 [2,3,3],p 145 1 [2,2,4],p 2065 6 [1,3,4],p 3177 8 [1,2,5],p 2255 8 [1,1,6],m 72765 2 [5,5],m 150381 2 [4,6],m 83655 1 [3,7],m 208065 2 [2,8],m 634491 4 [1,9],p 56787276 1 [12]],
 [p 17 16 [1,2,2,2],p 127 32 [1,1,2,3],p 59 32 [1,1,1,4],m 4395 14 [3,3,3],m 2056 1 [2,3,4],m 10595 8 [1,4,4],m 9471 8 [2,2,5],m 22349 8 [1,3,5],m 26667 8 [1,2,6],m 19239 8 [1,1,7],p 705012 1 [5,6],p 745998 1 [4,7],p 846846 1 [3,8],p 4286711 4 [2,9],p 6561269 4 [1,10],m 681447312 1 [13]],
 [m 15 16 [2,2,2,2],m 445 32 [1,2,2,3],m 275 32 [1,1,3,3],m 615 32 [1,1,2,4],m 455 48 [1,1,1,5],p 71235 14 [3,3,4],p 132995 24 [2,4,4],p 23373 2 [2,3,5],p 359335 24 [1,4,5],p 6954 1 [2,2,6],p 65415 4 [1,3,6],p 19954 1 [1,2,7],p 116545 8 [1,1,8],m 4739427 2 [6,6],m 9704079 2 [5,7],m 5229653 1 [4,8],m 24136541 4 [3,9],m 30919889 4 [2,10],m 11870573 1 [1,11]]],
[[p 1 6 [2,2,2],p 5 4 [1,2,3],p 7 8 [1,1,4],m 2107 18 [4,4],m 245 1 [3,5],m 286 1 [2,6],m 2431 6 [1,7],p 117572 1 [10]],
 [m 25 4 [2,2,3],m 125 16 [1,3,3],m 35 2 [1,2,4],m 105 8 [1,1,5],p 3822 1 [4,5],p 4125 1 [3,6],p 9867 2 [2,7],p 29315 4 [1,8],m 2469012 1 [11]],
 [p 645 16 [2,3,3],p 361 8 [2,2,4],p 899 8 [1,3,4],p 539 4 [1,2,5],p 843 8 [1,1,6],m 32683 2 [5,5],m 33690 1 [4,6],m 37191 1 [3,7],m 182039 4 [2,8],m 279565 4 [1,9],p 27159132 1 [12]],
 [m 2875 48 [3,3,3],m 3215 8 [2,3,4],m 4445 16 [1,4,4],m 1925 8 [2,2,5],m 595 1 [1,3,5],m 2985 4 [1,2,6],m 4785 8 [1,1,7],p 200865 1 [5,6],p 211640 1 [4,7],p 951665 4 [3,8],p 1189045 4 [2,9],p 5603455 12 [1,10],m 208220012 1 [13]]],
[[m 17 240 [1,1,2,2],m 1 24 [1,1,1,3],m 2825 28 [2,3,3],m 4471 40 [2,2,4],m 539 2 [1,3,4],m 1269 4 [1,2,5],m 935 4 [1,1,6],p 393372 11 [5,5],p 146951 2 [4,6],p 80405 1 [3,7],p 97695 1 [2,8],p 148954 1 [1,9],m 56787276 1 [12]],
 [m 1 768 [1,1,1,1,1],p 5 12 [1,2,2,2],p 5 6 [1,1,2,3],m 7 96 [1,1,1,4],p 14125 28 [3,3,3],p 13355 4 [2,3,4],p 318451 144 [1,4,4],p 78309 40 [2,2,5],p 37589 8 [1,3,5],p 5720 1 [1,2,6],p 102245 24 [1,1,7],m 2896047 2 [5,6],m 3036033 2 [4,7],m 1694550 1 [3,8],m 2107677 1 [2,9],m 12937119 4 [1,10],p 1419681900 1 [13]],
 [p 25 768 [1,1,1,1,2],m 151 240 [2,2,2,2],m 51 10 [1,2,2,3],m 101 168 [1,1,3,3],p 113 96 [1,1,2,4],p 491 96 [1,1,1,5],m 727287 56 [3,3,4],m 2056531 144 [2,4,4],m 242683 8 [2,3,5],m 159763 4 [1,4,5],m 147445 8 [2,2,6],m 352605 8 [1,3,6],m 657811 12 [1,2,7],m 329615 8 [1,1,8],p 15266979 2 [6,6],p 31136875 2 [5,7],p 33188441 2 [4,8],p 18846399 1 [3,9],p 95367467 4 [2,10],p 147153955 4 [1,11]],
 [m 85 384 [1,1,1,2,2],m 35 256 [1,1,1,1,3],p 55 6 [2,2,2,3],p 835 56 [1,2,3,3],p 571 96 [1,2,2,4],m 1691 96 [1,1,3,4],m 4237 96 [1,1,2,5],m 1623 32 [1,1,1,6],p 11089651 144 [3,4,4],p 81688 1 [3,3,5],p 716933 4 [2,4,5],p 1993159 16 [1,5,5],p 1582825 8 [2,3,6],p 1036417 4 [1,4,6],p 492129 4 [2,2,7],p 7039505 24 [1,3,7],p 1480765 4 [1,2,8],p 280280 1 [1,1,9],m 113785749 1 [6,7],m 235642407 2 [5,8],m 254746635 2 [4,9],m 587187939 4 [3,10],m 752229855 4 [2,11],m 1165873345 4 [1,12]]],
[[p 1 48 [1,1,1,2],p 11 4 [2,2,3],p 55 14 [1,3,3],p 113 12 [1,2,4],p 17 2 [1,1,5],m 7203 2 [4,5],m 3861 1 [3,6],m 22737 5 [2,7],m 6578 1 [1,8],p 2469012 1 [11]],
 [m 5 16 [1,1,2,2],m 25 96 [1,1,1,3],m 275 7 [2,3,3],m 95 2 [2,2,4],m 385 3 [1,3,4],m 1359 8 [1,2,5],m 1243 8 [1,1,6],p 64827 2 [5,5],p 133287 2 [4,6],p 72930 1 [3,7],p 87945 1 [2,8],p 532389 4 [1,9],m 56787276 1 [12]],
 [p 17 16 [1,2,2,2],p 127 32 [1,1,2,3],p 59 32 [1,1,1,4],p 2585 28 [3,3,3],p 664 1 [2,3,4],p 1035 2 [1,4,4],p 3535 8 [2,2,5],p 9221 8 [1,3,5],p 12861 8 [1,2,6],p 11781 8 [1,1,7],m 626724 1 [5,6],m 657261 1 [4,7],m 731874 1 [3,8],m 3609749 4 [2,9],m 5642351 4 [1,10],p 681447312 1 [13]],
 [m 15 16 [2,2,2,2],m 445 32 [1,2,2,3],m 275 32 [1,1,3,3],m 615 32 [1,1,2,4],m 455 48 [1,1,1,5],m 22005 14 [3,3,4],m 5570 3 [2,4,4],m 16597 4 [2,3,5],m 149075 24 [1,4,5],m 11619 4 [2,2,6],m 7392 1 [1,3,6],m 10604 1 [1,2,7],m 77363 8 [1,1,8],p 4214133 2 [6,6],p 8596203 2 [5,7],p 4578431 1 [4,8],p 20709689 4 [3,9],p 26062751 4 [2,10],p 20831239 2 [1,11]]]⟩
/-- `tDelta(4, 14)` — matslise_formulas.cpp:247 -/
def d4_14 : Entry4 :=
⟨[[p 1 16 [1,1,2,2],p 5 96 [1,1,1,3],m 3075 112 [2,3,3],m 601 20 [2,2,4],m 217 3 [1,3,4],m 669 8 [1,2,5],m 121 2 [1,1,6],p 170667 22 [5,5],p 32067 2 [4,6],p 35685 2 [3,7],p 88335 4 [2,8],p 136357 4 [1,9],m 12168702 1 [12]],
 [m 11 24 [1,2,2,2],m 55 32 [1,1,2,3],m 77 96 [1,1,1,4],p 15375 112 [3,3,3],p 7215 8 [2,3,4],p 21217 36 [1,4,4],p 20853 40 [2,2,5],p 9953 8 [1,3,5],p 11935 8 [1,2,6],p 3289 3 [1,1,7],m 629937 2 [5,6],m 333333 1 [4,7],m 1512225 4 [3,8],m 955383 2 [2,9],m 2960295 4 [1,10],p 304217550 1 [13]],
 [p 31 48 [2,2,2,2],p 309 32 [1,2,2,3],p 385 64 [1,1,3,3],p 431 32 [1,1,2,4],p 161 24 [1,1,1,5],m 394123 112 [3,3,4],m 554233 144 [2,4,4],m 65009 8 [2,3,5],m 253349 24 [1,4,5],m 38923 8 [2,2,6],m 92403 8 [1,3,6],m 170335 12 [1,2,7],m 168883 16 [1,1,8],p 1660176 1 [6,6],p 6799023 2 [5,7],p 14655069 4 [4,8],p 16891017 4 [3,9],p 5414279 1 [2,10],p 16833791 2 [1,11]]],
[[p 5 4 [2,2,3],p 25 16 [1,3,3],p 7 2 [1,2,4],p 21 8 [1,1,5],m 1617 2 [4,5],m 1749 2 [3,6],m 21021 20 [2,7],m 6149 4 [1,8],p 529074 1 [11]],
 [m 275 16 [2,3,3],m 77 4 [2,2,4],m 385 8 [1,3,4],m 231 4 [1,2,5],m 363 8 [1,1,6],p 14553 2 [5,5],p 15015 1 [4,6],p 66495 4 [3,7],p 40755 2 [2,8],p 123981 4 [1,9],m 12168702 1 [12]],
 [p 325 8 [3,3,3],p 2183 8 [2,3,4],p 3045 16 [1,4,4],p 1309 8 [2,2,5],p 1631 4 [1,3,5],p 2049 4 [1,2,6],p 6633 16 [1,1,7],m 140910 1 [5,6],m 594825 4 [4,7],m 670527 4 [3,8],m 837551 4 [2,9],m 1310309 4 [1,10],p 146024424 1 [13]]],
[[p 1 3840 [1,1,1,1,1],m 7 60 [1,2,2,2],m 31 96 [1,1,2,3],m 7 96 [1,1,1,4],m 1425 14 [3,3,3],m 1355 2 [2,3,4],m 65611 144 [1,4,4],m 8001 20 [2,2,5],m 7757 8 [1,3,5],m 47663 40 [1,2,6],m 27313 30 [1,1,7],p 307692 1 [5,6],p 645645 2 [4,7],p 360360 1 [3,8],p 1786785 4 [2,9],p 2775539 4 [1,10],m 304217550 1 [13]],
 [m 11 768 [1,1,1,1,2],p 7 20 [2,2,2,2],p 57 16 [1,2,2,3],p 815 672 [1,1,3,3],p 41 24 [1,1,2,4],m 31 32 [1,1,1,5],p 5525 1 [3,3,4],p 293251 48 [2,4,4],p 104055 8 [2,3,5],p 34755 2 [1,4,5],p 319011 40 [2,2,6],p 76989 4 [1,3,6],p 968539 40 [1,2,7],p 74503 4 [1,1,8],m 3384612 1 [6,6],m 13810797 2 [5,7],m 14729715 2 [4,8],m 33438405 4 [3,9],m 10568883 1 [2,10],m 66046071 4 [1,11]],
 [p 61 384 [1,1,1,2,2],p 19 192 [1,1,1,1,3],m 1397 160 [2,2,2,3],m 2179 112 [1,2,3,3],m 1447 96 [1,2,2,4],m 17 12 [1,1,3,4],p 317 24 [1,1,2,5],p 415 16 [1,1,1,6],m 1237711 24 [3,4,4],m 109713 2 [3,3,5],m 121009 1 [2,4,5],m 1368871 16 [1,5,5],m 670686 5 [2,3,6],m 1425459 8 [1,4,6],m 3373161 40 [2,2,7],m 8111213 40 [1,3,7],m 10366213 40 [1,2,8],m 3209063 16 [1,1,9],p 157669281 2 [6,7],p 163342179 2 [5,8],p 353287935 4 [4,9],p 406938129 4 [3,10],p 522107859 4 [2,11],p 819623805 4 [1,12]]],
[[p 1 16 [1,1,2,2],p 5 96 [1,1,1,3],p 775 112 [2,3,3],p 169 20 [2,2,4],p 287 12 [1,3,4],p 255 8 [1,2,5],p 121 4 [1,1,6],m 149499 22 [5,5],m 27993 2 [4,6],m 15405 1 [3,7],m 74685 4 [2,8],m 111605 4 [1,9],p 12168702 1 [12]],
 [m 11 24 [1,2,2,2],m 55 32 [1,1,2,3],m 77 96 [1,1,1,4],m 3875 112 [3,3,3],m 2025 8 [2,3,4],m 1862 9 [1,4,4],m 6867 40 [2,2,5],m 3697 8 [1,3,5],m 5225 8 [1,2,6],m 1859 3 [1,1,7],p 550935 2 [5,6],p 579579 2 [4,7],p 1297725 4 [3,8],p 401115 1 [2,9],p 2490007 4 [1,10],m 304217550 1 [13]],
 [p 31 48 [2,2,2,2],p 309 32 [1,2,2,3],p 385 64 [1,1,3,3],p 431 32 [1,1,2,4],p 161 24 [1,1,1,5],p 105607 112 [3,3,4],p 163337 144 [2,4,4],p 20405 8 [2,3,5],p 95461 24 [1,4,5],p 14603 8 [2,2,6],p 38079 8 [1,3,6],p 83303 12 [1,2,7],p 104819 16 [1,1,8],m 1452087 1 [6,6],m 5931849 2 [5,7],m 12685101 4 [4,8],m 14412255 4 [3,9],m 9078901 2 [2,10],m 14482351 2 [1,11]]]⟩
/-- `tDelta(4, 15)` — matslise_formulas.cpp:248 -/
def d4_15 : Entry4 :=
⟨[[p 1 12 [1,2,2,2],p 5 16 [1,1,2,3],p 7 48 [1,1,1,4],m 2875 112 [3,3,3],m 675 4 [2,3,4],m 2009 18 [1,4,4],m 1953 20 [2,2,5],m 943 4 [1,3,5],m 1133 4 [1,2,6],m 10153 48 [1,1,7],p 60291 1 [5,6],p 255255 4 [4,7],p 289575 4 [3,8],p 182325 2 [2,9],p 142766 1 [1,10],m 58503375 1 [13]],
 [m 1 4 [2,2,2,2],m 15 4 [1,2,2,3],m 75 32 [1,1,3,3],m 21 4 [1,1,2,4],m 21 8 [1,1,1,5],p 22125 16 [3,3,4],p 18193 12 [2,4,4],p 6405 2 [2,3,5],p 8421 2 [1,4,5],p 19239 10 [2,2,6],p 18447 4 [1,3,6],p 28457 5 [1,2,7],p 68783 16 [1,1,8],m 663201 1 [6,6],m 5432427 4 [5,7],m 2927925 2 [4,8],m 6746025 4 [3,9],m 4320771 2 [2,10],m 6789783 2 [1,11]]],
[[p 25 8 [2,3,3],p 7 2 [2,2,4],p 35 4 [1,3,4],p 21 2 [1,2,5],p 33 4 [1,1,6],m 30429 22 [5,5],m 2856 1 [4,6],m 12675 4 [3,7],m 3900 1 [2,8],m 11713 2 [1,9],p 2340135 1 [12]],
 [m 125 8 [3,3,3],m 105 1 [2,3,4],m 147 2 [1,4,4],m 63 1 [2,2,5],m 315 2 [1,3,5],m 198 1 [1,2,6],m 1287 8 [1,1,7],p 56133 1 [5,6],p 237237 4 [4,7],p 268125 4 [3,8],p 167739 2 [2,9],p 130169 1 [1,10],m 58503375 1 [13]]],
[[p 1 384 [1,1,1,1,2],m 3 40 [2,2,2,2],m 7 8 [1,2,2,3],m 535 1344 [1,1,3,3],m 17 24 [1,1,2,4],m 1 16 [1,1,1,5],m 178075 176 [3,3,4],m 98889 88 [2,4,4],m 210735 88 [2,3,5],m 71253 22 [1,4,5],m 29547 20 [2,2,6],m 28761 8 [1,3,6],m 45591 10 [1,2,7],m 57317 16 [1,1,8],p 16792083 26 [6,6],p 5272155 4 [5,7],p 5627475 4 [4,8],p 6389025 4 [3,9],p 2014551 1 [2,10],p 3181227 1 [1,11]],
 [m 1 16 [1,1,1,2,2],m 5 128 [1,1,1,1,3],p 33 8 [2,2,2,3],p 605 56 [1,2,3,3],p 193 20 [1,2,2,4],p 189 32 [1,1,3,4],p 3 2 [1,1,2,5],m 99 16 [1,1,1,6],p 79135 4 [3,4,4],p 337275 16 [3,3,5],p 373653 8 [2,4,5],p 736533 22 [1,5,5],p 207603 4 [2,3,6],p 558285 8 [1,4,6],p 657657 20 [2,2,7],p 159393 2 [1,3,7],p 205647 2 [1,2,8],p 1298375 16 [1,1,9],m 125162037 4 [6,7],m 32432400 1 [5,8],m 70195125 2 [4,9],m 161682495 4 [3,10],m 51849252 1 [2,11],m 164589495 2 [1,12]]],
[[p 1 12 [1,2,2,2],p 5 16 [1,1,2,3],p 7 48 [1,1,1,4],p 625 112 [3,3,3],p 165 4 [2,3,4],p 637 18 [1,4,4],p 567 20 [2,2,5],p 317 4 [1,3,5],p 451 4 [1,2,6],p 5291 48 [1,1,7],m 51975 1 [5,6],m 219219 4 [4,7],m 246675 4 [3,8],m 153153 2 [2,9],m 117572 1 [1,10],p 58503375 1 [13]],
 [m 1 4 [2,2,2,2],m 15 4 [1,2,2,3],m 75 32 [1,1,3,3],m 21 4 [1,1,2,4],m 21 8 [1,1,1,5],m 5175 16 [3,3,4],m 4739 12 [2,4,4],m 1785 2 [2,3,5],m 1449 1 [1,4,5],m 6501 10 [2,2,6],m 6963 4 [1,3,6],m 51337 20 [1,2,7],m 39897 16 [1,1,8],p 571725 1 [6,6],p 4675671 4 [5,7],p 2507505 2 [4,8],p 5725005 4 [3,9],p 3615339 2 [2,10],p 5731635 2 [1,11]]]⟩
/-- `tDelta(4, 16)` — matslise_formulas.cpp:249 -/
def d4_16 : Entry4 :=
⟨[[p 1 24 [2,2,2,2],p 5 8 [1,2,2,3],p 25 64 [1,1,3,3],p 7 8 [1,1,2,4],p 7 16 [1,1,1,5],m 3775 16 [3,3,4],m 9317 36 [2,4,4],m 4375 8 [2,3,5],m 2905 4 [1,4,5],m 3289 10 [2,2,6],m 6369 8 [1,3,6],m 59059 60 [1,2,7],m 36179 48 [1,1,8],p 2998017 26 [6,6],p 944559 4 [5,7],p 1018325 4 [4,8],p 1173425 4 [3,9],p 749683 2 [2,10],p 594643 1 [1,11]]],
[[p 125 48 [3,3,3],p 35 2 [2,3,4],p 49 4 [1,4,4],p 21 2 [2,2,5],p 105 4 [1,3,5],p 33 1 [1,2,6],p 429 16 [1,1,7],m 9702 1 [5,6],m 41041 4 [4,7],m 46475 4 [3,8],m 14586 1 [2,9],m 67184 3 [1,10],p 10214875 1 [13]]],
[[p 1 96 [1,1,1,2,2],p 5 768 [1,1,1,1,3],m 19 24 [2,2,2,3],m 65 28 [1,2,3,3],m 263 120 [1,2,2,4],m 91 48 [1,1,3,4],m 43 32 [1,1,2,5],p 11 32 [1,1,1,6],m 477505 144 [3,4,4],m 56575 16 [3,3,5],m 62895 8 [2,4,5],m 125307 22 [1,5,5],m 34991 4 [2,3,6],m 95053 8 [1,4,6],m 445731 80 [2,2,7],m 326417 24 [1,3,7],m 17667 1 [1,2,8],m 681343 48 [1,1,9],p 21702681 4 [6,7],p 22503195 4 [5,8],p 24370775 4 [4,9],p 196534195 28 [3,10],p 17975919 2 [2,11],p 28802233 2 [1,12]]],
[[p 1 24 [2,2,2,2],p 5 8 [1,2,2,3],p 25 64 [1,1,3,3],p 7 8 [1,1,2,4],p 7 16 [1,1,1,5],p 775 16 [3,3,4],p 2149 36 [2,4,4],p 1085 8 [2,3,5],p 917 4 [1,4,5],p 1001 10 [2,2,6],p 2211 8 [1,3,6],p 6149 15 [1,2,7],p 19591 48 [1,1,8],m 2551527 26 [6,6],m 803187 4 [5,7],m 863555 4 [4,8],m 990165 4 [3,9],m 627589 2 [2,10],m 492898 1 [1,11]]]⟩
/-- `tDelta(4, *)` -/
def d4 : List Entry4 := [d4_0,d4_1,d4_2,d4_3,d4_4,d4_5,d4_6,d4_7,d4_8,d4_9,d4_10,d4_11,d4_12,d4_13,d4_14,d4_15,d4_16]
/-- `tH[4]` — matslise_formulas.cpp:250 -/
def tH4 : Entry4 :=
⟨[[],
 [],
 [],
 [],
 [],
 [],
 [],
 [p 1 2 [1,2],m 63 2 [5]],
 [m 3 40 [2,2],p 1 4 [1,3]],
 [p 1 2 [2,3],p 1 2 [1,4],m 297 2 [7]],
 [p 1 14 [3,3],p 1 4 [1,5]],
 [p 1 2 [3,4],p 1 2 [2,5],p 1 2 [1,6],m 429 1 [9]],
 [m 1 24 [4,4],p 1 4 [3,5],p 1 4 [1,7]],
 [p 1 2 [4,5],p 1 2 [3,6],p 1 2 [2,7],p 1 2 [1,8],m 975 1 [11]],
 [p 1 11 [5,5],p 1 4 [3,7],p 1 4 [1,9]],
 [p 1 2 [5,6],p 1 2 [4,7],p 1 2 [3,8],p 1 2 [2,9],p 1 2 [1,10],m 3825 2 [13]],
 [m 3 104 [6,6],p 1 4 [5,7],p 1 4 [3,9],p 1 4 [1,11]],
 [p 1 2 [6,7],p 1 2 [5,8],p 1 2 [4,9],p 1 2 [3,10],p 1 2 [2,11],p 1 2 [1,12],m 6783 2 [15]],
 [p 1 10 [7,7],p 1 4 [5,9],p 1 4 [3,11],p 1 4 [1,13]]],
[[],
 [],
 [],
 [],
 [],
 [],
 [],
 [m 1 24 [1,1],p 7 2 [4]],
 [],
 [m 1 40 [2,2],p 9 1 [6]],
 [],
 [m 1 56 [3,3],p 33 2 [8]],
 [],
 [m 1 72 [4,4],p 26 1 [10]],
 [],
 [m 1 88 [5,5],p 75 2 [12]],
 [],
 [m 1 104 [6,6],p 51 1 [14]]],
[[],
 [],
 [],
 [],
 [],
 [],
 [],
 [p 57 40 [2,2],p 4 1 [1,3],m 693 2 [6]],
 [],
 [p 1 240 [1,1,2],p 249 56 [3,3],p 13 2 [2,4],p 43 4 [1,5],m 2574 1 [8]],
 [],
 [m 1 112 [2,2,2],p 9 280 [1,2,3],m 1 48 [1,1,4],p 35 6 [4,4],p 63 4 [3,5],p 12 1 [2,6],p 41 2 [1,7],m 10725 1 [10]],
 [],
 [m 1 560 [2,3,3],m 1 560 [2,2,4],p 1 42 [1,3,4],m 1 48 [1,1,6],p 543 44 [5,5],p 69 4 [4,6],p 51 2 [3,7],p 39 2 [2,8],p 133 4 [1,9],m 33150 1 [12]],
 [],
 [m 5 1232 [3,3,4],m 17 11088 [2,4,4],p 5 308 [2,3,5],p 5 264 [1,4,5],m 1 80 [2,2,6],m 1 48 [1,1,8],p 1323 104 [6,6],p 69 2 [5,7],p 99 4 [4,8],p 153 4 [3,9],p 29 1 [2,10],p 49 1 [1,11],m 169575 2 [14]],
 [],
 [m 839 144144 [4,4,4],p 15 2002 [3,4,5],m 3 2288 [2,5,5],m 43 16016 [3,3,6],p 15 1144 [2,4,6],p 9 572 [1,5,6],m 1 80 [2,2,8],m 1 48 [1,1,10],p 949 40 [7,7],p 33 1 [6,8],p 189 4 [5,9],p 137 4 [4,10],p 54 1 [3,11],p 81 2 [2,12],p 271 4 [1,13]]],
[[],
 [],
 [],
 [],
 [],
 [],
 [],
 [m 1 2 [1,2],p 63 2 [5]],
 [m 3 40 [2,2],p 1 4 [1,3]],
 [m 1 2 [2,3],m 1 2 [1,4],p 297 2 [7]],
 [p 1 14 [3,3],p 1 4 [1,5]],
 [m 1 2 [3,4],m 1 2 [2,5],m 1 2 [1,6],p 429 1 [9]],
 [m 1 24 [4,4],p 1 4 [3,5],p 1 4 [1,7]],
 [m 1 2 [4,5],m 1 2 [3,6],m 1 2 [2,7],m 1 2 [1,8],p 975 1 [11]],
 [p 1 11 [5,5],p 1 4 [3,7],p 1 4 [1,9]],
 [m 1 2 [5,6],m 1 2 [4,7],m 1 2 [3,8],m 1 2 [2,9],m 1 2 [1,10],p 3825 2 [13]],
 [m 3 104 [6,6],p 1 4 [5,7],p 1 4 [3,9],p 1 4 [1,11]],
 [m 1 2 [6,7],m 1 2 [5,8],m 1 2 [4,9],m 1 2 [3,10],m 1 2 [2,11],m 1 2 [1,12],p 6783 2 [15]],
 [p 1 10 [7,7],p 1 4 [5,9],p 1 4 [3,11],p 1 4 [1,13]]]⟩
end Verif.Formulas
