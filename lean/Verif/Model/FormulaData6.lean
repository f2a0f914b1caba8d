import Verif.Model.Formulas

/-! Generated by tools/gen_formulas.py from matslise/matslise/matslise_formulas.cpp (rows tDelta(6, *), tH[6]). -/
namespace Verif.Formulas
open Term
set_option maxRecDepth 100000

/-- `tDelta(6, 0)` — matslise_formulas.cpp:269 -/
def d6_0 : Entry4 :=
⟨[],
[],
[],
[]⟩
/-- `tDelta(6, 1)` — matslise_formulas.cpp:270 -/
def d6_1 : Entry4 :=
⟨[],
[],
[],
[]⟩
/-- `tDelta(6, 2)` — matslise_formulas.cpp:271 -/
def d6_2 : Entry4 :=
⟨[],
[],
[],
[]⟩
/-- `tDelta(6, 3)` — matslise_formulas.cpp:272 -/
def d6_3 : Entry4 :=
⟨[],
[],
[],
[]⟩
/-- `tDelta(6, 4)` — matslise_formulas.cpp:273 -/
def d6_4 : Entry4 :=
⟨[],
[],
[],
[]⟩
/-- `tDelta(6, 5)` — matslise_formulas.cpp:274 -/
def d6_5 : Entry4 :=
⟨[],
[],
[],
[]⟩
/-- `tDelta(6, 6)` — matslise_formulas.cpp:275 -/
def d6_6 : Entry4 :=
⟨[],
[],
[],
[]⟩
/-- `tDelta(6, 7)` — matslise_formulas.cpp:276 -/
def d6_7 : Entry4 :=
⟨[],
[],
[],
[]⟩
/-- `tDelta(6, 8)` — matslise_formulas.cpp:277 -/
def d6_8 : Entry4 :=
⟨[],
[],
[],
[]⟩
/-- `tDelta(6, 9)` — matslise_formulas.cpp:278 -/
def d6_9 : Entry4 :=
⟨[],
[],
[],
[]⟩
/-- `tDelta(6, 10)` — matslise_formulas.cpp:279 -/
def d6_10 : Entry4 :=
⟨[],
[],
[],
[]⟩
/-- `tDelta(6, 11)` — matslise_formulas.cpp:280 -/
def d6_11 : Entry4 :=
⟨[[m 31 80 [1,2,2],m 23 48 [1,1,3],p 105 2 [3,4],p 63 1 [2,5],p 99 1 [1,6],m 36465 2 [9]],
 [m 1 96 [1,1,1,1],p 93 80 [2,2,2],p 69 8 [1,2,3],p 287 48 [1,1,4],m 735 2 [4,4],m 1575 2 [3,5],m 990 1 [2,6],m 6435 4 [1,7],p 692835 2 [10]],
 [p 1 6 [1,1,1,2],m 1611 80 [2,2,3],m 397 16 [1,3,3],m 443 8 [1,2,4],m 1967 48 [1,1,5],p 11445 2 [4,5],p 12843 2 [3,6],p 33363 4 [2,7],p 55341 4 [1,8],m 3464175 1 [11]],
 [m 11 16 [1,1,2,2],m 9 16 [1,1,1,3],p 1293 16 [2,3,3],p 1439 16 [2,2,4],p 2641 12 [1,3,4],p 525 2 [1,2,5],p 3227 16 [1,1,6],m 15435 1 [5,5],m 64665 2 [4,6],m 149985 4 [3,7],m 199485 4 [2,8],m 83655 1 [1,9],p 24249225 1 [12]],
 [m 1 768 [1,1,1,1,1],p 1 1 [1,2,2,2],p 29 8 [1,1,2,3],p 13 8 [1,1,1,4],m 339 4 [3,3,3],m 2259 4 [2,3,4],m 18241 48 [1,4,4],m 1341 4 [2,2,5],m 6499 8 [1,3,5],m 8099 8 [1,2,6],m 6349 8 [1,1,7],p 135990 1 [5,6],p 588897 4 [4,7],p 699831 4 [3,8],p 236808 1 [2,9],p 398970 1 [1,10],m 266741475 2 [13]],
 [p 7 768 [1,1,1,1,2],m 15 32 [2,2,2,2],m 107 16 [1,2,2,3],m 127 32 [1,1,3,3],m 141 16 [1,1,2,4],m 33 8 [1,1,1,5],p 2971 4 [3,3,4],p 13171 16 [2,4,4],p 14055 8 [2,3,5],p 55979 24 [1,4,5],p 43533 40 [2,2,6],p 20853 8 [1,3,6],p 16737 5 [1,2,7],p 21175 8 [1,1,8],m 249039 1 [6,6],m 2059479 4 [5,7],m 2285415 4 [4,8],m 1383525 2 [3,9],m 948519 1 [2,10],m 1597167 1 [1,11]]],
[[p 11 240 [1,1,2],m 115 56 [3,3],m 19 4 [2,4],m 27 4 [1,5],p 2145 2 [8]],
 [m 31 80 [1,2,2],m 23 48 [1,1,3],p 105 2 [3,4],p 63 1 [2,5],p 99 1 [1,6],m 36465 2 [9]],
 [m 1 192 [1,1,1,1],p 21 40 [2,2,2],p 81 20 [1,2,3],p 23 8 [1,1,4],m 1375 8 [4,4],m 1477 4 [3,5],m 1845 4 [2,6],m 3069 4 [1,7],p 328185 2 [10]],
 [p 5 96 [1,1,1,2],m 57 10 [2,2,3],m 117 16 [1,3,3],m 391 24 [1,2,4],m 301 24 [1,1,5],p 1680 1 [4,5],p 1884 1 [3,6],p 2442 1 [2,7],p 16731 4 [1,8],m 2078505 2 [11]],
 [m 7 48 [1,1,2,2],m 1 8 [1,1,1,3],p 1287 80 [2,3,3],p 1449 80 [2,2,4],p 547 12 [1,3,4],p 219 4 [1,2,5],p 2107 48 [1,1,6],m 6415 2 [5,5],m 6721 1 [4,6],m 7776 1 [3,7],m 10395 1 [2,8],m 18018 1 [1,9],p 10392525 2 [12]],
 [m 1 3840 [1,1,1,1,1],p 5 32 [1,2,2,2],p 55 96 [1,1,2,3],p 13 48 [1,1,1,4],m 201 16 [3,3,3],m 341 4 [2,3,4],m 947 16 [1,4,4],m 4119 80 [2,2,5],m 1011 8 [1,3,5],m 1603 10 [1,2,6],m 10437 80 [1,1,7],p 21414 1 [5,6],p 23169 1 [4,7],p 27489 1 [3,8],p 150579 4 [2,9],p 261261 4 [1,10],m 43648605 2 [13]]],
[[p 13 1152 [1,1,1,1],m 631 560 [2,2,2],m 493 56 [1,2,3],m 299 48 [1,1,4],p 8785 24 [4,4],p 3165 4 [3,5],p 3927 4 [2,6],p 3289 2 [1,7],m 692835 2 [10]],
 [m 11 30 [1,1,1,2],p 693 16 [2,2,3],p 5995 112 [1,3,3],p 957 8 [1,2,4],p 1419 16 [1,1,5],m 24255 2 [4,5],m 27225 2 [3,6],m 70785 4 [2,7],m 117975 4 [1,8],p 14549535 2 [11]],
 [p 77 32 [1,1,2,2],p 185 96 [1,1,1,3],m 7809 28 [2,3,3],m 17487 56 [2,2,4],m 21033 28 [1,3,4],m 899 1 [1,2,5],m 1365 2 [1,1,6],p 414435 8 [5,5],p 434385 4 [4,6],p 503613 4 [3,7],p 168168 1 [2,8],p 1117545 4 [1,9],m 160044885 2 [12]],
 [p 7 1152 [1,1,1,1,1],m 807 160 [1,2,2,2],m 2851 160 [1,1,2,3],m 1121 144 [1,1,1,4],p 11605 28 [3,3,3],p 5533 2 [2,3,4],p 87565 48 [1,4,4],p 13167 8 [2,2,5],p 31219 8 [1,3,5],p 38973 8 [1,2,6],p 29953 8 [1,1,7],m 641025 1 [5,6],m 1388475 2 [4,7],m 825825 1 [3,8],m 2241525 2 [2,9],m 7426705 4 [1,10],p 1227010785 2 [13]],
 [m 15 256 [1,1,1,1,2],p 2031 640 [2,2,2,2],p 713 16 [1,2,2,3],p 1659 64 [1,1,3,3],p 4571 80 [1,1,2,4],p 2501 96 [1,1,1,5],m 134929 28 [3,3,4],m 74475 14 [2,4,4],m 318477 28 [2,3,5],m 118041 8 [1,4,5],m 7026 1 [2,2,6],m 132115 8 [1,3,6],m 169263 8 [1,2,7],m 130845 8 [1,1,8],p 12328575 8 [6,6],p 3186900 1 [5,7],p 14152215 4 [4,8],p 17166435 4 [3,9],p 23519925 4 [2,10],p 38835225 4 [1,11]],
 [p 19 96 [1,1,1,2,2],p 85 768 [1,1,1,1,3],m 2541 80 [2,2,2,3],m 17701 160 [1,2,3,3],m 19319 160 [1,2,2,4],m 2229 16 [1,1,3,4],m 25957 160 [1,1,2,5],m 1813 24 [1,1,1,6],p 15510 1 [3,4,4],p 463287 28 [3,3,5],p 290323 8 [2,4,5],p 99133 4 [1,5,5],p 324027 8 [2,3,6],p 103713 2 [1,4,6],p 1025937 40 [2,2,7],p 59895 1 [1,3,7],p 623865 8 [1,2,8],p 241527 4 [1,1,9],m 50807295 4 [6,7],m 53860125 4 [5,8],m 15242370 1 [4,9],m 18758025 1 [3,10],m 103392861 4 [2,11],m 170021709 4 [1,12]]],
[[p 31 80 [1,2,2],p 23 48 [1,1,3],m 105 2 [3,4],m 63 1 [2,5],m 99 1 [1,6],p 36465 2 [9]],
 [p 1 96 [1,1,1,1],m 93 80 [2,2,2],m 69 8 [1,2,3],m 287 48 [1,1,4],p 735 2 [4,4],p 1575 2 [3,5],p 990 1 [2,6],p 6435 4 [1,7],m 692835 2 [10]],
 [m 1 6 [1,1,1,2],p 1611 80 [2,2,3],p 397 16 [1,3,3],p 443 8 [1,2,4],p 1967 48 [1,1,5],m 11445 2 [4,5],m 12843 2 [3,6],m 33363 4 [2,7],m 55341 4 [1,8],p 3464175 1 [11]],
 [p 11 16 [1,1,2,2],p 9 16 [1,1,1,3],m 1293 16 [2,3,3],m 1439 16 [2,2,4],m 2641 12 [1,3,4],m 525 2 [1,2,5],m 3227 16 [1,1,6],p 15435 1 [5,5],p 64665 2 [4,6],p 149985 4 [3,7],p 199485 4 [2,8],p 83655 1 [1,9],m 24249225 1 [12]],
 [p 1 768 [1,1,1,1,1],m 1 1 [1,2,2,2],m 29 8 [1,1,2,3],m 13 8 [1,1,1,4],p 339 4 [3,3,3],p 2259 4 [2,3,4],p 18241 48 [1,4,4],p 1341 4 [2,2,5],p 6499 8 [1,3,5],p 8099 8 [1,2,6],p 6349 8 [1,1,7],m 135990 1 [5,6],m 588897 4 [4,7],m 699831 4 [3,8],m 236808 1 [2,9],m 398970 1 [1,10],p 266741475 2 [13]],
 [m 7 768 [1,1,1,1,2],p 15 32 [2,2,2,2],p 107 16 [1,2,2,3],p 127 32 [1,1,3,3],p 141 16 [1,1,2,4],p 33 8 [1,1,1,5],m 2971 4 [3,3,4],m 13171 16 [2,4,4],m 14055 8 [2,3,5],m 55979 24 [1,4,5],m 43533 40 [2,2,6],m 20853 8 [1,3,6],m 16737 5 [1,2,7],m 21175 8 [1,1,8],p 249039 1 [6,6],p 2059479 4 [5,7],p 2285415 4 [4,8],p 1383525 2 [3,9],p 948519 1 [2,10],p 1597167 1 [1,11]]]⟩
/-- `tDelta(6, 12)` — matslise_formulas.cpp:281 -/
def d6_12 : Entry4 :=
⟨[[p 13 1152 [1,1,1,1],m 631 560 [2,2,2],m 493 56 [1,2,3],m 299 48 [1,1,4],p 8785 24 [4,4],p 3165 4 [3,5],p 3927 4 [2,6],p 3289 2 [1,7],m 692835 2 [10]],
 [m 11 30 [1,1,1,2],p 693 16 [2,2,3],p 5995 112 [1,3,3],p 957 8 [1,2,4],p 1419 16 [1,1,5],m 24255 2 [4,5],m 27225 2 [3,6],m 70785 4 [2,7],m 117975 4 [1,8],p 14549535 2 [11]],
 [p 77 32 [1,1,2,2],p 185 96 [1,1,1,3],m 7809 28 [2,3,3],m 17487 56 [2,2,4],m 21033 28 [1,3,4],m 899 1 [1,2,5],m 1365 2 [1,1,6],p 414435 8 [5,5],p 434385 4 [4,6],p 503613 4 [3,7],p 168168 1 [2,8],p 1117545 4 [1,9],m 160044885 2 [12]],
 [p 7 1152 [1,1,1,1,1],m 807 160 [1,2,2,2],m 2851 160 [1,1,2,3],m 1121 144 [1,1,1,4],p 11605 28 [3,3,3],p 5533 2 [2,3,4],p 87565 48 [1,4,4],p 13167 8 [2,2,5],p 31219 8 [1,3,5],p 38973 8 [1,2,6],p 29953 8 [1,1,7],m 641025 1 [5,6],m 1388475 2 [4,7],m 825825 1 [3,8],m 2241525 2 [2,9],m 7426705 4 [1,10],p 1227010785 2 [13]],
 [m 15 256 [1,1,1,1,2],p 2031 640 [2,2,2,2],p 713 16 [1,2,2,3],p 1659 64 [1,1,3,3],p 4571 80 [1,1,2,4],p 2501 96 [1,1,1,5],m 134929 28 [3,3,4],m 74475 14 [2,4,4],m 318477 28 [2,3,5],m 118041 8 [1,4,5],m 7026 1 [2,2,6],m 132115 8 [1,3,6],m 169263 8 [1,2,7],m 130845 8 [1,1,8],p 12328575 8 [6,6],p 3186900 1 [5,7],p 14152215 4 [4,8],p 17166435 4 [3,9],p 23519925 4 [2,10],p 38835225 4 [1,11]]],
[[p 31 80 [1,2,2],p 23 48 [1,1,3],m 105 2 [3,4],m 63 1 [2,5],m 99 1 [1,6],p 36465 2 [9]],
 [p 1 96 [1,1,1,1],m 93 80 [2,2,2],m 69 8 [1,2,3],m 287 48 [1,1,4],p 735 2 [4,4],p 1575 2 [3,5],p 990 1 [2,6],p 6435 4 [1,7],m 692835 2 [10]],
 [m 1 6 [1,1,1,2],p 1611 80 [2,2,3],p 397 16 [1,3,3],p 443 8 [1,2,4],p 1967 48 [1,1,5],m 11445 2 [4,5],m 12843 2 [3,6],m 33363 4 [2,7],m 55341 4 [1,8],p 3464175 1 [11]],
 [p 11 16 [1,1,2,2],p 9 16 [1,1,1,3],m 1293 16 [2,3,3],m 1439 16 [2,2,4],m 2641 12 [1,3,4],m 525 2 [1,2,5],m 3227 16 [1,1,6],p 15435 1 [5,5],p 64665 2 [4,6],p 149985 4 [3,7],p 199485 4 [2,8],p 83655 1 [1,9],m 24249225 1 [12]],
 [p 1 768 [1,1,1,1,1],m 1 1 [1,2,2,2],m 29 8 [1,1,2,3],m 13 8 [1,1,1,4],p 339 4 [3,3,3],p 2259 4 [2,3,4],p 18241 48 [1,4,4],p 1341 4 [2,2,5],p 6499 8 [1,3,5],p 8099 8 [1,2,6],p 6349 8 [1,1,7],m 135990 1 [5,6],m 588897 4 [4,7],m 699831 4 [3,8],m 236808 1 [2,9],m 398970 1 [1,10],p 266741475 2 [13]]],
[[p 11 30 [1,1,1,2],m 693 16 [2,2,3],m 5995 112 [1,3,3],m 957 8 [1,2,4],m 1419 16 [1,1,5],p 24255 2 [4,5],p 27225 2 [3,6],p 70785 4 [2,7],p 117975 4 [1,8],m 14549535 2 [11]],
 [m 807 160 [1,1,2,2],m 383 96 [1,1,1,3],p 66495 112 [2,3,3],p 10593 16 [2,2,4],p 6335 4 [1,3,4],p 7569 4 [1,2,5],p 22737 16 [1,1,6],m 218295 2 [5,5],m 228690 1 [4,6],m 1061775 4 [3,7],m 353925 1 [2,8],m 583440 1 [1,9],p 334639305 2 [12]],
 [m 7 384 [1,1,1,1,1],p 135 8 [1,2,2,2],p 4713 80 [1,1,2,3],p 403 16 [1,1,1,4],m 157245 112 [3,3,3],m 37311 4 [2,3,4],m 97135 16 [1,4,4],m 88389 16 [2,2,5],m 103909 8 [1,3,5],m 16137 1 [1,2,6],m 195327 16 [1,1,7],p 2127510 1 [5,6],p 9218385 4 [4,7],p 10971675 4 [3,8],p 7419555 2 [2,9],p 12142845 2 [1,10],m 2007835830 1 [13]],
 [p 97 384 [1,1,1,1,2],m 2421 160 [2,2,2,2],m 16797 80 [1,2,2,3],m 3873 32 [1,1,3,3],m 8461 32 [1,1,2,4],m 707 6 [1,1,1,5],p 2568505 112 [3,3,4],p 403155 16 [2,4,4],p 53781 1 [2,3,5],p 275375 4 [1,4,5],p 528363 16 [2,2,6],p 615657 8 [1,3,6],p 195723 2 [1,2,7],p 1189617 16 [1,1,8],m 14293125 2 [6,6],m 59116365 4 [5,7],m 65664885 4 [4,8],m 79607385 4 [3,9],m 27129960 1 [2,10],m 176672925 4 [1,11]],
 [m 221 192 [1,1,1,2,2],m 165 256 [1,1,1,1,3],p 6387 32 [2,2,2,3],p 13797 20 [1,2,3,3],p 119589 160 [1,2,2,4],p 6863 8 [1,1,3,4],p 7881 8 [1,1,2,5],p 21581 48 [1,1,1,6],m 1553465 16 [3,4,4],m 11569743 112 [3,3,5],m 450957 2 [2,4,5],m 151765 1 [1,5,5],m 2007531 8 [2,3,6],m 2540169 8 [1,4,6],m 2522223 16 [2,2,7],m 1462461 4 [1,3,7],m 471537 1 [1,2,8],m 5744739 16 [1,1,9],p 76992300 1 [6,7],p 81636885 1 [5,8],p 369778695 4 [4,9],p 454304565 4 [3,10],p 621910575 4 [2,11],p 1008074925 4 [1,12]]],
[[m 11 1152 [1,1,1,1],p 671 560 [2,2,2],p 473 56 [1,2,3],p 275 48 [1,1,4],m 8855 24 [4,4],m 3135 4 [3,5],m 3993 4 [2,6],m 1573 1 [1,7],p 692835 2 [10]],
 [p 77 240 [1,1,1,2],m 693 16 [2,2,3],m 5765 112 [1,3,3],m 919 8 [1,2,4],m 1311 16 [1,1,5],p 24255 2 [4,5],p 27225 2 [3,6],p 70785 4 [2,7],p 113685 4 [1,8],m 14549535 2 [11]],
 [m 69 32 [1,1,2,2],m 163 96 [1,1,1,3],p 15483 56 [2,3,3],p 17037 56 [2,2,4],p 20365 28 [1,3,4],p 3439 4 [1,2,5],p 2541 4 [1,1,6],m 414645 8 [5,5],m 434115 4 [4,6],m 504207 4 [3,7],m 166452 1 [2,8],m 1083225 4 [1,9],p 160044885 2 [12]],
 [m 5 1152 [1,1,1,1,1],p 723 160 [1,2,2,2],p 2579 160 [1,1,2,3],p 497 72 [1,1,1,4],m 23095 56 [3,3,3],m 10837 4 [2,3,4],m 85195 48 [1,4,4],m 12663 8 [2,2,5],m 30311 8 [1,3,5],m 37131 8 [1,2,6],m 28105 8 [1,1,7],p 641025 1 [5,6],p 1388475 2 [4,7],p 1649505 2 [3,8],p 1102530 1 [2,9],p 7232225 4 [1,10],m 1227010785 2 [13]],
 [p 11 256 [1,1,1,1,2],m 1809 640 [2,2,2,2],m 643 16 [1,2,2,3],m 1529 64 [1,1,3,3],m 4139 80 [1,1,2,4],m 2239 96 [1,1,1,5],p 266335 56 [3,3,4],p 291157 56 [2,4,4],p 77277 7 [2,3,5],p 115283 8 [1,4,5],p 6708 1 [2,2,6],p 128159 8 [1,3,6],p 160941 8 [1,2,7],p 123717 8 [1,1,8],m 12329625 8 [6,6],m 6373125 2 [5,7],m 14150895 4 [4,8],m 17080635 4 [3,9],m 23056605 4 [2,10],m 37960065 4 [1,11]]]⟩
/-- `tDelta(6, 13)` — matslise_formulas.cpp:282 -/
def d6_13 : Entry4 :=
⟨[[p 1 5 [1,1,1,2],m 189 8 [2,2,3],m 1635 56 [1,3,3],m 261 4 [1,2,4],m 387 8 [1,1,5],p 6615 1 [4,5],p 7425 1 [3,6],p 19305 2 [2,7],p 32175 2 [1,8],m 3968055 1 [11]],
 [m 443 160 [1,1,2,2],m 211 96 [1,1,1,3],p 18135 56 [2,3,3],p 2889 8 [2,2,4],p 3465 4 [1,3,4],p 1035 1 [1,2,5],p 6237 8 [1,1,6],m 59535 1 [5,5],m 124740 1 [4,6],m 289575 2 [3,7],m 193050 1 [2,8],m 1276275 4 [1,9],p 91265265 1 [12]],
 [m 1 96 [1,1,1,1,1],p 371 40 [1,2,2,2],p 15623 480 [1,1,2,3],p 1345 96 [1,1,1,4],m 42885 56 [3,3,3],m 20361 4 [2,3,4],m 26625 8 [1,4,4],m 24129 8 [2,2,5],m 14241 2 [1,3,5],m 17703 2 [1,2,6],m 6732 1 [1,1,7],p 1160460 1 [5,6],p 2514105 2 [4,7],p 2992275 2 [3,8],p 8097375 4 [2,9],p 13309725 4 [1,10],m 1095183180 1 [13]],
 [p 7 48 [1,1,1,1,2],m 1329 160 [2,2,2,2],m 2317 20 [1,2,2,3],m 403 6 [1,1,3,3],m 14113 96 [1,1,2,4],m 6349 96 [1,1,1,5],p 700635 56 [3,3,4],p 110085 8 [2,4,4],p 117495 4 [2,3,5],p 151245 4 [1,4,5],p 144459 8 [2,2,6],p 42273 1 [1,3,6],p 215325 4 [1,2,7],p 41184 1 [1,1,8],m 3898125 1 [6,6],m 16122645 2 [5,7],m 17908605 2 [4,8],m 43425525 4 [3,9],m 59255625 4 [2,10],m 24249225 1 [1,11]]],
[[m 1 192 [1,1,1,1],p 183 280 [2,2,2],p 129 28 [1,2,3],p 25 8 [1,1,4],m 805 4 [4,4],m 855 2 [3,5],m 1089 2 [2,6],m 858 1 [1,7],p 188955 1 [10]],
 [p 17 96 [1,1,1,2],m 189 8 [2,2,3],m 3155 112 [1,3,3],m 503 8 [1,2,4],m 45 1 [1,1,5],p 6615 1 [4,5],p 7425 1 [3,6],p 19305 2 [2,7],p 62205 4 [1,8],m 3968055 1 [11]],
 [m 287 240 [1,1,2,2],m 91 96 [1,1,1,3],p 16901 112 [2,3,3],p 9305 56 [2,2,4],p 11175 28 [1,3,4],p 3777 8 [1,2,5],p 351 1 [1,1,6],m 113085 4 [5,5],m 118395 2 [4,6],m 137511 2 [3,7],m 363363 4 [2,8],m 594165 4 [1,9],p 43648605 1 [12]],
 [m 1 384 [1,1,1,1,1],p 401 160 [1,2,2,2],p 9 1 [1,1,2,3],p 187 48 [1,1,1,4],m 25205 112 [3,3,3],m 11843 8 [2,3,4],m 15615 16 [1,4,4],m 3465 4 [2,2,5],m 8335 4 [1,3,5],m 20457 8 [1,2,6],m 15609 8 [1,1,7],p 349650 1 [5,6],p 378675 1 [4,7],p 1799655 4 [3,8],p 2408835 4 [2,9],p 3974685 4 [1,10],m 334639305 1 [13]]],
[[p 593 224 [1,1,2,2],p 697 336 [1,1,1,3],m 18135 56 [2,3,3],m 2853 8 [2,2,4],m 855 1 [1,3,4],m 1017 1 [1,2,5],m 6039 8 [1,1,6],p 2622375 44 [5,5],p 249165 2 [4,6],p 145080 1 [3,7],p 384345 2 [2,8],p 314925 1 [1,9],m 91265265 1 [12]],
 [p 41 2304 [1,1,1,1,1],m 4189 224 [1,2,2,2],m 7311 112 [1,1,2,3],m 879 32 [1,1,1,4],p 90675 56 [3,3,3],p 10665 1 [2,3,4],p 331205 48 [1,4,4],p 50085 8 [2,2,5],p 118065 8 [1,3,5],p 145365 8 [1,2,6],p 108823 8 [1,1,7],m 2432430 1 [5,6],m 5270265 2 [4,7],m 6274125 2 [3,8],m 8423415 2 [2,9],m 27398475 4 [1,10],p 2281631625 1 [13]],
 [m 4609 11520 [1,1,1,1,2],p 373 14 [2,2,2,2],p 11821 32 [1,2,2,3],p 47869 224 [1,1,3,3],p 310669 672 [1,1,2,4],p 19517 96 [1,1,1,5],m 1164015 28 [3,3,4],m 2180975 48 [2,4,4],m 773211 8 [2,3,5],m 493515 4 [1,4,5],m 470859 8 [2,2,6],m 549999 4 [1,3,6],m 1384537 8 [1,2,7],m 1042899 8 [1,1,8],p 51270975 4 [6,6],p 53011035 2 [5,7],p 29452995 1 [4,8],p 71267625 2 [3,9],p 192876645 4 [2,10],p 312090675 4 [1,11]],
 [p 2509 960 [1,1,1,2,2],p 3425 2304 [1,1,1,1,3],m 55445 112 [2,2,2,3],m 54807 32 [1,2,3,3],m 206921 112 [1,2,2,4],m 1432687 672 [1,1,3,4],m 77331 32 [1,1,2,5],m 8753 8 [1,1,1,6],p 11818355 48 [3,4,4],p 2087265 8 [3,3,5],p 2271465 4 [2,4,5],p 6089055 16 [1,5,5],p 5031195 8 [2,3,6],p 6364305 8 [1,4,6],p 3134439 8 [2,2,7],p 7288501 8 [1,3,7],p 9307155 8 [1,2,8],p 7042035 8 [1,1,9],m 192161970 1 [6,7],m 203783580 1 [5,8],m 230705475 1 [4,9],m 1129735425 4 [3,10],m 1535637285 4 [2,11],m 2475625425 4 [1,12]]],
[[m 37 240 [1,1,1,2],p 189 8 [2,2,3],p 190 7 [1,3,3],p 121 2 [1,2,4],p 333 8 [1,1,5],m 6615 1 [4,5],m 7425 1 [3,6],m 19305 2 [2,7],m 15015 1 [1,8],p 3968055 1 [11]],
 [p 359 160 [1,1,2,2],p 55 32 [1,1,1,3],m 8895 28 [2,3,3],m 2775 8 [2,2,4],m 3255 4 [1,3,4],m 3807 4 [1,2,5],m 5445 8 [1,1,6],p 59535 1 [5,5],p 124740 1 [4,6],p 289575 2 [3,7],p 379665 2 [2,8],p 1203345 4 [1,9],m 91265265 1 [12]],
 [p 1 192 [1,1,1,1,1],m 607 80 [1,2,2,2],m 12857 480 [1,1,2,3],m 1069 96 [1,1,1,4],p 42195 56 [3,3,3],p 19617 4 [2,3,4],p 12625 4 [1,4,4],p 22617 8 [2,2,5],p 26843 4 [1,3,5],p 32373 4 [1,2,6],p 23859 4 [1,1,7],m 1160460 1 [5,6],m 2514105 2 [4,7],m 2979405 2 [3,8],m 7878585 4 [2,9],m 12653355 4 [1,10],p 1095183180 1 [13]],
 [m 5 64 [1,1,1,1,2],p 1077 160 [2,2,2,2],p 3827 40 [1,2,2,3],p 2735 48 [1,1,3,3],p 11677 96 [1,1,2,4],p 1715 32 [1,1,1,5],m 681845 56 [3,3,4],m 26395 2 [2,4,4],m 27888 1 [2,3,5],m 144255 4 [1,4,5],m 133389 8 [2,2,6],m 39795 1 [1,3,6],m 98175 2 [1,2,7],m 148005 4 [1,1,8],p 3898125 1 [6,6],p 16122645 2 [5,7],p 17887155 2 [4,8],p 42987945 4 [3,9],p 57286515 4 [2,10],p 46419945 2 [1,11]]]⟩
/-- `tDelta(6, 14)` — matslise_formulas.cpp:283 -/
def d6_14 : Entry4 :=
⟨[[p 1009 960 [1,1,2,2],p 5 6 [1,1,1,3],m 2015 16 [2,3,3],m 2219 16 [2,2,4],m 4025 12 [1,3,4],m 399 1 [1,2,5],m 4785 16 [1,1,6],p 2039625 88 [5,5],p 193795 4 [4,6],p 56420 1 [3,7],p 298935 4 [2,8],p 493935 4 [1,9],m 70984095 2 [12]],
 [p 1 128 [1,1,1,1,1],m 1665 224 [1,2,2,2],m 17599 672 [1,1,2,3],m 179 16 [1,1,1,4],p 10075 16 [3,3,3],p 16625 4 [2,3,4],p 65135 24 [1,4,4],p 39123 16 [2,2,5],p 5805 1 [1,3,5],p 57321 8 [1,2,6],p 86801 16 [1,1,7],m 945945 1 [5,6],m 4099095 4 [4,7],m 4879875 4 [3,8],m 1640925 1 [2,9],m 10770435 4 [1,10],p 1774602375 2 [13]],
 [m 17 96 [1,1,1,1,2],p 23713 2240 [2,2,2,2],p 82763 560 [1,2,2,3],p 7235 84 [1,1,3,3],p 8993 48 [1,1,2,4],p 8045 96 [1,1,1,5],m 129475 8 [3,3,4],m 851585 48 [2,4,4],m 302087 8 [2,3,5],m 583625 12 [1,4,5],m 92325 4 [2,2,6],m 54240 1 [1,3,6],m 548581 8 [1,2,7],m 418275 8 [1,1,8],p 39877425 8 [6,6],p 41230805 4 [5,7],p 22907885 2 [4,8],p 55454685 4 [3,9],p 18819255 1 [2,10],p 30736680 1 [1,11]]],
[[m 1 16 [1,1,1,2],p 147 16 [2,2,3],p 1195 112 [1,3,3],p 571 24 [1,2,4],p 265 16 [1,1,5],m 5145 2 [4,5],m 5775 2 [3,6],m 15015 4 [2,7],m 23595 4 [1,8],p 3086265 2 [11]],
 [p 73 80 [1,1,2,2],p 17 24 [1,1,1,3],m 13875 112 [2,3,3],m 2171 16 [2,2,4],m 1925 6 [1,3,4],m 753 2 [1,2,5],m 4367 16 [1,1,6],p 46305 2 [5,5],p 48510 1 [4,6],p 225225 4 [3,7],p 148005 2 [2,8],p 474045 4 [1,9],m 70984095 2 [12]],
 [p 1 384 [1,1,1,1,1],m 247 80 [1,2,2,2],m 1055 96 [1,1,2,3],m 149 32 [1,1,1,4],p 32895 112 [3,3,3],p 1919 1 [2,3,4],p 19955 16 [1,4,4],p 17787 16 [2,2,5],p 21235 8 [1,3,5],p 12879 4 [1,2,6],p 38511 16 [1,1,7],m 451290 1 [5,6],m 1955415 4 [4,7],m 2318745 4 [3,8],m 3078075 4 [2,9],m 4995705 4 [1,10],p 425904570 1 [13]]],
[[m 13 2304 [1,1,1,1,1],p 3847 560 [1,2,2,2],p 5417 224 [1,1,2,3],p 2899 288 [1,1,1,4],m 10075 16 [3,3,3],m 16415 4 [2,3,4],m 42455 16 [1,4,4],m 38115 16 [2,2,5],m 45375 8 [1,3,5],m 27621 4 [1,2,6],m 82225 16 [1,1,7],p 945945 1 [5,6],p 4099095 4 [4,7],p 4879875 4 [3,8],p 3245385 2 [2,9],p 5269745 2 [1,10],m 1774602375 2 [13]],
 [p 1061 3840 [1,1,1,1,2],m 11541 560 [2,2,2,2],m 32223 112 [1,2,2,3],m 37655 224 [1,1,3,3],m 721 2 [1,1,2,4],m 5041 32 [1,1,1,5],p 539875 16 [3,3,4],p 586985 16 [2,4,4],p 311085 4 [2,3,5],p 199185 2 [1,4,5],p 750717 16 [2,2,6],p 884235 8 [1,3,6],p 1101243 8 [1,2,7],p 1653795 16 [1,1,8],m 10405395 1 [6,6],m 86080995 4 [5,7],m 47822775 2 [4,8],m 115411725 4 [3,9],m 38735775 1 [2,10],m 62607090 1 [1,11]],
 [m 2791 960 [1,1,1,2,2],m 325 192 [1,1,1,1,3],p 680469 1120 [2,2,2,3],p 14807 7 [1,2,3,3],p 509833 224 [1,2,2,4],p 297083 112 [1,1,3,4],p 95261 32 [1,1,2,5],p 43073 32 [1,1,1,6],m 5018755 16 [3,4,4],m 5298375 16 [3,3,5],m 5755435 8 [2,4,5],m 7726215 16 [1,5,5],m 792504 1 [2,3,6],m 2015625 2 [1,4,6],m 7837335 16 [2,2,7],m 1147080 1 [1,3,7],m 11614317 8 [1,2,8],m 17561115 16 [1,1,9],p 975269295 4 [6,7],p 1034338305 4 [5,8],p 1169958075 4 [4,9],p 1426480965 4 [3,10],p 481583310 1 [2,11],p 775975200 1 [1,12]]],
[[m 743 960 [1,1,2,2],m 7 12 [1,1,1,3],p 13645 112 [2,3,3],p 2123 16 [2,2,4],p 1225 4 [1,3,4],p 354 1 [1,2,5],p 3949 16 [1,1,6],m 2035215 88 [5,5],m 194285 4 [4,6],m 112385 2 [3,7],m 293085 4 [2,8],m 454155 4 [1,9],p 70984095 2 [12]],
 [m 1 384 [1,1,1,1,1],p 6291 1120 [1,2,2,2],p 13229 672 [1,1,2,3],p 129 16 [1,1,1,4],m 68225 112 [3,3,3],m 15805 4 [2,3,4],m 60305 24 [1,4,4],m 36099 16 [2,2,5],m 5310 1 [1,3,5],m 50589 8 [1,2,6],m 73073 16 [1,1,7],p 945945 1 [5,6],p 4099095 4 [4,7],p 4836975 4 [3,8],p 3172455 2 [2,9],p 10014615 4 [1,10],m 1774602375 2 [13]],
 [p 13 192 [1,1,1,1,2],m 17783 2240 [2,2,2,2],m 63201 560 [1,2,2,3],m 22573 336 [1,1,3,3],m 6851 48 [1,1,2,4],m 5969 96 [1,1,1,5],p 868575 56 [3,3,4],p 804025 48 [2,4,4],p 282007 8 [2,3,5],p 181225 4 [1,4,5],p 20823 1 [2,2,6],p 49578 1 [1,3,6],p 483065 8 [1,2,7],p 358787 8 [1,1,8],m 39873015 8 [6,6],m 41236195 4 [5,7],m 11419265 1 [4,8],m 54609555 4 [3,9],m 36057255 2 [2,10],m 28847130 1 [1,11]]]⟩
/-- `tDelta(6, 15)` — matslise_formulas.cpp:284 -/
def d6_15 : Entry4 :=
⟨[[m 5 2304 [1,1,1,1,1],p 1233 560 [1,2,2,2],p 1755 224 [1,1,2,3],p 961 288 [1,1,1,4],m 775 4 [3,3,3],m 5075 4 [2,3,4],m 39865 48 [1,4,4],m 2961 4 [2,2,5],m 14205 8 [1,3,5],m 17391 8 [1,2,6],m 3289 2 [1,1,7],p 291060 1 [5,6],p 315315 1 [4,7],p 375375 1 [3,8],p 2005575 4 [2,9],p 3296215 4 [1,10],m 273015750 1 [13]],
 [p 27 256 [1,1,1,1,2],m 3699 560 [2,2,2,2],m 20805 224 [1,2,2,3],m 12235 224 [1,1,3,3],m 1891 16 [1,1,2,4],m 845 16 [1,1,1,5],p 20825 2 [3,3,4],p 181965 16 [2,4,4],p 193185 8 [2,3,5],p 62475 2 [1,4,5],p 117315 8 [2,2,6],p 69465 2 [1,3,6],p 348777 8 [1,2,7],p 66495 2 [1,1,8],m 3201660 1 [6,6],m 6621615 1 [5,7],m 7357350 1 [4,8],m 35553375 4 [3,9],m 23997285 2 [2,10],m 39239655 2 [1,11]]],
[[m 31 120 [1,1,2,2],m 19 96 [1,1,1,3],p 4225 112 [2,3,3],p 331 8 [2,2,4],p 385 4 [1,3,4],p 897 8 [1,2,5],p 319 4 [1,1,6],m 156555 22 [5,5],m 14945 1 [4,6],m 17290 1 [3,7],m 90675 4 [2,8],m 142545 4 [1,9],p 10920630 1 [12]],
 [m 1 768 [1,1,1,1,1],p 15 8 [1,2,2,2],p 635 96 [1,1,2,3],p 133 48 [1,1,1,4],m 21125 112 [3,3,3],m 9845 8 [2,3,4],m 37975 48 [1,4,4],m 2835 4 [2,2,5],m 6705 4 [1,3,5],m 16137 8 [1,2,6],m 11869 8 [1,1,7],p 291060 1 [5,6],p 315315 1 [4,7],p 1490775 4 [3,8],p 984555 2 [2,9],p 1574625 2 [1,10],m 273015750 1 [13]]],
[[m 809 11520 [1,1,1,1,2],p 83 14 [2,2,2,2],p 18749 224 [1,2,2,3],p 33275 672 [1,1,3,3],p 3375 32 [1,1,2,4],p 1473 32 [1,1,1,5],m 1359575 132 [3,3,4],m 1960385 176 [2,4,4],m 2073255 88 [2,3,5],m 1335005 44 [1,4,5],m 112581 8 [2,2,6],m 134055 4 [1,3,6],m 330681 8 [1,2,7],m 248235 8 [1,1,8],p 83218905 26 [6,6],p 6623820 1 [5,7],p 7353675 1 [4,8],p 17703375 2 [3,9],p 47166075 4 [2,10],p 76342665 4 [1,11]],
 [p 3049 1920 [1,1,1,2,2],p 2189 2304 [1,1,1,1,3],m 82807 224 [2,2,2,3],m 10395 8 [1,2,3,3],m 22333 16 [1,2,2,4],m 157915 96 [1,1,3,4],m 29349 16 [1,1,2,5],m 13299 16 [1,1,1,6],p 9594725 48 [3,4,4],p 1683975 8 [3,3,5],p 456435 1 [2,4,5],p 54179055 176 [1,5,5],p 4003395 8 [2,3,6],p 5128165 8 [1,4,6],p 613899 2 [2,2,7],p 5803005 8 [1,3,7],p 7288515 8 [1,2,8],p 5519475 8 [1,1,9],m 156080925 1 [6,7],m 165540375 1 [5,8],m 373948575 2 [4,9],m 908558625 4 [3,10],m 609757785 2 [2,11],m 492208395 1 [1,12]]],
[[p 1 2304 [1,1,1,1,1],m 867 560 [1,2,2,2],m 3625 672 [1,1,2,3],m 635 288 [1,1,1,4],p 10275 56 [3,3,3],p 2385 2 [2,3,4],p 36085 48 [1,4,4],p 2709 4 [2,2,5],p 12615 8 [1,3,5],p 14883 8 [1,2,6],p 5291 4 [1,1,7],m 291060 1 [5,6],m 315315 1 [4,7],m 740025 2 [3,8],m 1932645 4 [2,9],m 3002285 4 [1,10],p 273015750 1 [13]],
 [m 7 256 [1,1,1,1,2],p 2601 560 [2,2,2,2],p 14783 224 [1,2,2,3],p 26315 672 [1,1,3,3],p 1001 12 [1,1,2,4],p 145 4 [1,1,1,5],m 78525 8 [3,3,4],m 169645 16 [2,4,4],m 177885 8 [2,3,5],m 113715 4 [1,4,5],m 104247 8 [2,2,6],m 30855 1 [1,3,6],m 298155 8 [1,2,7],m 109395 4 [1,1,8],p 3201660 1 [6,6],p 6621615 1 [5,7],p 14639625 2 [4,8],p 34824075 4 [3,9],p 22863555 2 [2,10],p 18076695 1 [1,11]]]⟩
/-- `tDelta(6, 16)` — matslise_formulas.cpp:285 -/
def d6_16 : Entry4 :=
⟨[[m 19 768 [1,1,1,1,2],p 4539 2800 [2,2,2,2],p 25831 1120 [1,2,2,3],p 9209 672 [1,1,3,3],p 4723 160 [1,1,2,4],p 423 32 [1,1,1,5],m 117195 44 [3,3,4],m 509621 176 [2,4,4],m 540675 88 [2,3,5],m 351603 44 [1,4,5],m 148113 40 [2,2,6],m 35433 4 [1,3,6],m 441831 40 [1,2,7],m 67509 8 [1,1,8],p 21399147 26 [6,6],p 1703268 1 [5,7],p 1890945 1 [4,8],p 4562715 2 [3,9],p 12247191 4 [2,10],p 20084463 4 [1,11]]],
[[p 1 3840 [1,1,1,1,1],m 9 20 [1,2,2,2],m 151 96 [1,1,2,3],m 21 32 [1,1,1,4],p 2675 56 [3,3,3],p 625 2 [2,3,4],p 3185 16 [1,4,4],p 3591 20 [2,2,5],p 3357 8 [1,3,5],p 20097 40 [1,2,6],p 7293 20 [1,1,7],m 74844 1 [5,6],m 81081 1 [4,7],m 190905 2 [3,8],m 503217 4 [2,9],m 793611 4 [1,10],p 70204050 1 [13]]],
[[m 131 384 [1,1,1,2,2],m 121 576 [1,1,1,1,3],p 20009 224 [2,2,2,3],p 17785 56 [1,2,3,3],p 10899 32 [1,2,2,4],p 2435 6 [1,1,3,4],p 72177 160 [1,1,2,5],p 6567 32 [1,1,1,6],m 610225 12 [3,4,4],m 214005 4 [3,3,5],m 462735 4 [2,4,5],m 13821507 176 [1,5,5],m 505527 4 [2,3,6],m 1304653 8 [1,4,6],m 3077217 40 [2,2,7],m 183638 1 [1,3,7],m 916461 4 [1,2,8],m 1391637 8 [1,1,9],p 40135095 1 [6,7],p 42567525 1 [5,8],p 47987940 1 [4,9],p 58135155 1 [3,10],p 310301901 4 [2,11],p 502504989 4 [1,12]]],
[[p 1 256 [1,1,1,1,2],m 3021 2800 [2,2,2,2],m 17149 1120 [1,2,2,3],m 6071 672 [1,1,3,3],m 9311 480 [1,1,2,4],m 271 32 [1,1,1,5],p 27145 11 [3,3,4],p 470589 176 [2,4,4],p 491895 88 [2,3,5],p 312753 44 [1,4,5],p 130473 40 [2,2,6],p 30633 4 [1,3,6],p 368121 40 [1,2,7],p 53469 8 [1,1,8],m 21411621 26 [6,6],m 1702134 1 [5,7],m 1877820 1 [4,8],m 2222070 1 [3,9],m 11636721 4 [2,10],m 18185223 4 [1,11]]]⟩
/-- `tDelta(6, *)` -/
def d6 : List Entry4 := [d6_0,d6_1,d6_2,d6_3,d6_4,d6_5,d6_6,d6_7,d6_8,d6_9,d6_10,d6_11,d6_12,d6_13,d6_14,d6_15,d6_16]
/-- `tH[6]` — matslise_formulas.cpp:286 -/
def tH6 : Entry4 :=
⟨[[],
 [],
 [],
 [],
 [],
 [],
 [],
 [],
 [],
 [],
 [],
 [m 31 80 [1,2,2],m 23 48 [1,1,3],p 105 2 [3,4],p 63 1 [2,5],p 99 1 [1,6],m 36465 2 [9]],
 [p 1 1152 [1,1,1,1],p 1 28 [2,2,2],m 5 28 [1,2,3],m 1 4 [1,1,4],m 35 24 [4,4],p 15 4 [3,5],m 33 4 [2,6],p 143 4 [1,7]],
 [m 9 20 [2,2,3],m 27 56 [1,3,3],m 1 1 [1,2,4],m 2 3 [1,1,5],p 210 1 [4,5],p 234 1 [3,6],p 297 1 [2,7],p 429 1 [1,8],m 314925 2 [11]],
 [p 1 960 [1,1,2,2],m 5 28 [2,3,3],p 3 28 [2,2,4],m 11 42 [1,3,4],m 1 2 [1,2,5],m 1 4 [1,1,6],p 525 44 [5,5],m 55 2 [4,6],p 79 2 [3,7],m 39 2 [2,8],p 585 4 [1,9]],
 [m 17 112 [3,3,3],m 1 1 [2,3,4],m 7 16 [1,4,4],m 9 16 [2,2,5],m 9 8 [1,3,5],m 1 1 [1,2,6],m 15 16 [1,1,7],p 540 1 [5,6],p 1161 2 [4,7],p 1353 2 [3,8],p 858 1 [2,9],p 1170 1 [1,10],m 1526175 2 [13]],
 [p 1 3200 [2,2,2,2],p 1 1344 [1,1,3,3],m 31 154 [3,3,4],p 25 462 [2,4,4],m 26 77 [2,3,5],m 41 132 [1,4,5],m 1 2 [1,3,6],m 1 2 [1,2,7],m 1 4 [1,1,8],m 777 26 [6,6],p 62 1 [5,7],m 65 1 [4,8],p 150 1 [3,9],m 135 4 [2,10],p 765 2 [1,11]],
 [m 17 36 [3,4,4],m 17 28 [3,3,5],m 1 1 [2,4,5],m 45 88 [1,5,5],m 1 1 [2,3,6],m 1 1 [1,4,6],m 29 40 [2,2,7],m 9 8 [1,3,7],m 1 1 [1,2,8],m 31 24 [1,1,9],p 1125 1 [6,7],p 1185 1 [5,8],p 1320 1 [4,9],p 1560 1 [3,10],p 1950 1 [2,11],p 2550 1 [1,12],m 5460315 2 [15]],
 [p 1 2240 [2,2,3,3],p 1 1728 [1,1,4,4],p 45 4004 [4,4,4],m 851 2002 [3,4,5],m 59 286 [2,5,5],m 751 4004 [3,3,6],p 75 572 [2,4,6],m 49 143 [1,5,6],m 1 2 [2,3,7],m 1 2 [1,4,7],m 1 2 [1,3,8],m 1 2 [1,2,9],m 1 4 [1,1,10],p 257 4 [7,7],m 273 2 [6,8],p 345 2 [5,9],m 225 2 [4,10],p 1545 4 [3,11],m 51 1 [2,12],p 1615 2 [1,13]]],
[[],
 [],
 [],
 [],
 [],
 [],
 [],
 [],
 [],
 [],
 [],
 [p 11 240 [1,1,2],m 115 56 [3,3],m 19 4 [2,4],m 27 4 [1,5],p 2145 2 [8]],
 [],
 [p 9 560 [2,2,2],p 9 280 [1,2,3],p 1 48 [1,1,4],m 45 8 [4,4],m 37 4 [3,5],m 63 4 [2,6],m 33 2 [1,7],p 6630 1 [10]],
 [],
 [p 9 560 [2,3,3],p 13 560 [2,2,4],p 1 42 [1,3,4],p 1 48 [1,1,6],m 325 44 [5,5],m 21 1 [4,6],m 19 1 [3,7],m 123 4 [2,8],m 117 4 [1,9],p 24225 1 [12]],
 [],
 [p 17 1232 [3,3,4],p 137 11088 [2,4,4],p 5 308 [2,3,5],p 5 264 [1,4,5],p 1 80 [2,2,6],p 1 48 [1,1,8],m 783 52 [6,6],m 47 2 [5,7],m 36 1 [4,8],m 127 4 [3,9],m 199 4 [2,10],m 45 1 [1,11],p 67830 1 [14]]],
[[],
 [],
 [],
 [],
 [],
 [],
 [],
 [],
 [],
 [],
 [],
 [p 13 1152 [1,1,1,1],m 631 560 [2,2,2],m 493 56 [1,2,3],m 299 48 [1,1,4],p 8785 24 [4,4],p 3165 4 [3,5],p 3927 4 [2,6],p 3289 2 [1,7],m 692835 2 [10]],
 [],
 [p 11 1120 [1,1,2,2],p 1 84 [1,1,1,3],m 1011 112 [2,3,3],m 765 112 [2,2,4],m 157 7 [1,3,4],m 95 4 [1,2,5],m 261 16 [1,1,6],p 198555 88 [5,5],p 17955 4 [4,6],p 11079 2 [3,7],p 12831 2 [2,8],p 43485 4 [1,9],m 3968055 1 [12]],
 [],
 [p 3 640 [2,2,2,2],p 1 560 [1,2,2,3],p 1 192 [1,1,3,3],p 17 3360 [1,1,2,4],p 1 48 [1,1,1,5],m 28459 1848 [3,3,4],m 10555 924 [2,4,4],m 5085 154 [2,3,5],m 3401 88 [1,4,5],m 27 2 [2,2,6],m 331 8 [1,3,6],m 173 4 [1,2,7],m 273 8 [1,1,8],p 788865 104 [6,6],p 33795 2 [5,7],p 17115 1 [4,8],p 89325 4 [3,9],p 99705 4 [2,10],p 41820 1 [1,11],m 49142835 2 [14]],
 [],
 [p 51 12320 [2,2,3,3],p 5 1232 [1,3,3,3],p 3 352 [2,2,2,4],m 193 18480 [1,2,3,4],p 85 66528 [1,1,4,4],p 1 3080 [1,2,2,5],p 9 1232 [1,1,3,5],p 11 480 [1,1,2,6],p 1 48 [1,1,1,7],m 350345 72072 [4,4,4],m 1124213 24024 [3,4,5],m 27933 1144 [2,5,5],m 206673 8008 [3,3,6],m 20469 572 [2,4,6],m 34201 572 [1,5,6],m 213 4 [2,3,7],m 59 1 [1,4,7],m 195 8 [2,2,8],m 263 4 [1,3,8],m 275 4 [1,2,9],m 761 12 [1,1,10],p 180397 8 [7,7],p 84885 2 [6,8],p 199935 4 [5,9],p 201555 4 [4,10],p 272445 4 [3,11],p 73899 1 [2,12],p 243865 2 [1,13]]],
[[],
 [],
 [],
 [],
 [],
 [],
 [],
 [],
 [],
 [],
 [],
 [p 31 80 [1,2,2],p 23 48 [1,1,3],m 105 2 [3,4],m 63 1 [2,5],m 99 1 [1,6],p 36465 2 [9]],
 [p 1 1152 [1,1,1,1],p 1 28 [2,2,2],m 5 28 [1,2,3],m 1 4 [1,1,4],m 35 24 [4,4],p 15 4 [3,5],m 33 4 [2,6],p 143 4 [1,7]],
 [p 9 20 [2,2,3],p 27 56 [1,3,3],p 1 1 [1,2,4],p 2 3 [1,1,5],m 210 1 [4,5],m 234 1 [3,6],m 297 1 [2,7],m 429 1 [1,8],p 314925 2 [11]],
 [p 1 960 [1,1,2,2],m 5 28 [2,3,3],p 3 28 [2,2,4],m 11 42 [1,3,4],m 1 2 [1,2,5],m 1 4 [1,1,6],p 525 44 [5,5],m 55 2 [4,6],p 79 2 [3,7],m 39 2 [2,8],p 585 4 [1,9]],
 [p 17 112 [3,3,3],p 1 1 [2,3,4],p 7 16 [1,4,4],p 9 16 [2,2,5],p 9 8 [1,3,5],p 1 1 [1,2,6],p 15 16 [1,1,7],m 540 1 [5,6],m 1161 2 [4,7],m 1353 2 [3,8],m 858 1 [2,9],m 1170 1 [1,10],p 1526175 2 [13]],
 [p 1 3200 [2,2,2,2],p 1 1344 [1,1,3,3],m 31 154 [3,3,4],p 25 462 [2,4,4],m 26 77 [2,3,5],m 41 132 [1,4,5],m 1 2 [1,3,6],m 1 2 [1,2,7],m 1 4 [1,1,8],m 777 26 [6,6],p 62 1 [5,7],m 65 1 [4,8],p 150 1 [3,9],m 135 4 [2,10],p 765 2 [1,11]],
 [p 17 36 [3,4,4],p 17 28 [3,3,5],p 1 1 [2,4,5],p 45 88 [1,5,5],p 1 1 [2,3,6],p 1 1 [1,4,6],p 29 40 [2,2,7],p 9 8 [1,3,7],p 1 1 [1,2,8],p 31 24 [1,1,9],m 1125 1 [6,7],m 1185 1 [5,8],m 1320 1 [4,9],m 1560 1 [3,10],m 1950 1 [2,11],m 2550 1 [1,12],p 5460315 2 [15]],
 [p 1 2240 [2,2,3,3],p 1 1728 [1,1,4,4],p 45 4004 [4,4,4],m 851 2002 [3,4,5],m 59 286 [2,5,5],m 751 4004 [3,3,6],p 75 572 [2,4,6],m 49 143 [1,5,6],m 1 2 [2,3,7],m 1 2 [1,4,7],m 1 2 [1,3,8],m 1 2 [1,2,9],m 1 4 [1,1,10],p 257 4 [7,7],m 273 2 [6,8],p 345 2 [5,9],m 225 2 [4,10],p 1545 4 [3,11],m 51 1 [2,12],p 1615 2 [1,13]]]⟩
end Verif.Formulas
