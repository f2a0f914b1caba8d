import Verif.Model.Formulas

/-! Generated by tools/gen_formulas.py from matslise/matslise/matslise_formulas.cpp (rows tDelta(7, *), tH[7]). -/
namespace Verif.Formulas
open Term
set_option maxRecDepth 100000

/-- `tDelta(7, 0)` — matslise_formulas.cpp:287 -/
def d7_0 : Entry4 :=
⟨[],
[],
[],
[]⟩
/-- `tDelta(7, 1)` — matslise_formulas.cpp:288 -/
def d7_1 : Entry4 :=
⟨[],
[],
[],
[]⟩
/-- `tDelta(7, 2)` — matslise_formulas.cpp:289 -/
def d7_2 : Entry4 :=
⟨[],
[],
[],
[]⟩
/-- `tDelta(7, 3)` — matslise_formulas.cpp:290 -/
def d7_3 : Entry4 :=
⟨[],
[],
[],
[]⟩
/-- `tDelta(7, 4)` — matslise_formulas.cpp:291 -/
def d7_4 : Entry4 :=
⟨[],
[],
[],
[]⟩
/-- `tDelta(7, 5)` — matslise_formulas.cpp:292 -/
def d7_5 : Entry4 :=
⟨[],
[],
[],
[]⟩
/-- `tDelta(7, 6)` — matslise_formulas.cpp:293 -/
def d7_6 : Entry4 :=
⟨[],
[],
[],
[]⟩
/-- `tDelta(7, 7)` — matslise_formulas.cpp:294 -/
def d7_7 : Entry4 :=
⟨[],
[],
[],
[]⟩
/-- `tDelta(7, 8)` — matslise_formulas.cpp:295 -/
def d7_8 : Entry4 :=
⟨[],
[],
[],
[]⟩
/-- `tDelta(7, 9)` — matslise_formulas.cpp:296 -/
def d7_9 : Entry4 :=
⟨[],
[],
[],
[]⟩
/-- `tDelta(7, 10)` — matslise_formulas.cpp:297 -/
def d7_10 : Entry4 :=
⟨[],
[],
[],
[]⟩
/-- `tDelta(7, 11)` — matslise_formulas.cpp:298 -/
def d7_11 : Entry4 :=
⟨[],
[],
[],
[]⟩
/-- `tDelta(7, 12)` — matslise_formulas.cpp:299 -/
def d7_12 : Entry4 :=
⟨[],
[],
[],
[]⟩
/-- `tDelta(7, 13)` — matslise_formulas.cpp:300 -/
def d7_13 : Entry4 :=
⟨[[m 1 30 [1,1,1,2],p 63 16 [2,2,3],p 545 112 [1,3,3],p 87 8 [1,2,4],p 129 16 [1,1,5],m 2205 2 [4,5],m 2475 2 [3,6],m 6435 4 [2,7],m 10725 4 [1,8],p 1322685 2 [11]],
 [p 79 160 [1,1,2,2],p 13 32 [1,1,1,3],m 6045 112 [2,3,3],m 963 16 [2,2,4],m 595 4 [1,3,4],m 711 4 [1,2,5],m 2211 16 [1,1,6],p 19845 2 [5,5],p 20790 1 [4,6],p 96525 4 [3,7],p 32175 1 [2,8],p 109395 2 [1,9],m 30421755 2 [12]],
 [p 1 384 [1,1,1,1,1],m 67 40 [1,2,2,2],m 371 60 [1,1,2,3],m 17 6 [1,1,1,4],p 14295 112 [3,3,3],p 3411 4 [2,3,4],p 9365 16 [1,4,4],p 8127 16 [2,2,5],p 10019 8 [1,3,5],p 1566 1 [1,2,6],p 20097 16 [1,1,7],m 193410 1 [5,6],m 838035 4 [4,7],m 997425 4 [3,8],m 338910 1 [2,9],m 583440 1 [1,10],p 182530530 1 [13]],
 [m 5 128 [1,1,1,1,2],p 237 160 [2,2,2,2],p 1739 80 [1,2,2,3],p 1277 96 [1,1,3,3],p 2843 96 [1,1,2,4],p 231 16 [1,1,1,5],m 234035 112 [3,3,4],m 37185 16 [2,4,4],m 9933 2 [2,3,5],m 27115 4 [1,4,5],m 49473 16 [2,2,6],m 60711 8 [1,3,6],m 9801 1 [1,2,7],m 128271 16 [1,1,8],p 1299375 2 [6,6],p 5374215 4 [5,7],p 5969535 4 [4,8],p 7243665 4 [3,9],p 4995705 2 [2,10],p 17320875 4 [1,11]]],
[[p 1 1152 [1,1,1,1],m 61 560 [2,2,2],m 43 56 [1,2,3],m 25 48 [1,1,4],p 805 24 [4,4],p 285 4 [3,5],p 363 4 [2,6],p 143 1 [1,7],m 62985 2 [10]],
 [m 1 30 [1,1,1,2],p 63 16 [2,2,3],p 545 112 [1,3,3],p 87 8 [1,2,4],p 129 16 [1,1,5],m 2205 2 [4,5],m 2475 2 [3,6],m 6435 4 [2,7],m 10725 4 [1,8],p 1322685 2 [11]],
 [p 113 480 [1,1,2,2],p 19 96 [1,1,1,3],m 709 28 [2,3,3],m 1573 56 [2,2,4],m 1985 28 [1,3,4],m 169 2 [1,2,5],m 267 4 [1,1,6],p 37695 8 [5,5],p 39465 4 [4,6],p 45837 4 [3,7],p 30459 2 [2,8],p 105105 4 [1,9],m 14549535 2 [12]],
 [p 1 1152 [1,1,1,1,1],m 79 160 [1,2,2,2],m 301 160 [1,1,2,3],m 8 9 [1,1,1,4],p 1055 28 [3,3,3],p 503 2 [2,3,4],p 8495 48 [1,4,4],p 1197 8 [2,2,5],p 3029 8 [1,3,5],p 3783 8 [1,2,6],p 3113 8 [1,1,7],m 58275 1 [5,6],m 126225 2 [4,7],m 75075 1 [3,8],m 203775 2 [2,9],m 717145 4 [1,10],p 111546435 2 [13]]],
[[m 1133 2240 [1,1,2,2],m 143 336 [1,1,1,3],p 6045 112 [2,3,3],p 951 16 [2,2,4],p 605 4 [1,3,4],p 180 1 [1,2,5],p 2277 16 [1,1,6],m 874125 88 [5,5],m 83055 4 [4,6],m 24180 1 [3,7],m 128115 4 [2,8],m 222105 4 [1,9],p 30421755 2 [12]],
 [m 13 2304 [1,1,1,1,1],p 403 112 [1,2,2,2],p 2977 224 [1,1,2,3],p 195 32 [1,1,1,4],m 30225 112 [3,3,3],m 7215 4 [2,3,4],m 59605 48 [1,4,4],m 17199 16 [2,2,5],m 21255 8 [1,3,5],m 13299 4 [1,2,6],m 42757 16 [1,1,7],p 405405 1 [5,6],p 1756755 4 [4,7],p 2091375 4 [3,8],p 1422135 2 [2,9],p 2456415 2 [1,10],m 760543875 2 [13]],
 [p 1511 11520 [1,1,1,1,2],m 1637 320 [2,2,2,2],m 82843 1120 [1,2,2,3],m 10011 224 [1,1,3,3],m 67037 672 [1,1,2,4],m 2309 48 [1,1,1,5],p 390945 56 [3,3,4],p 93445 12 [2,4,4],p 66525 4 [2,3,5],p 45055 2 [1,4,5],p 83091 8 [2,2,6],p 100881 4 [1,3,6],p 130603 4 [1,2,7],p 105963 4 [1,1,8],m 17090325 8 [6,6],m 17670345 4 [5,7],m 9817665 2 [4,8],m 23828805 4 [3,9],m 32954415 4 [2,10],m 56749485 4 [1,11]],
 [m 83 96 [1,1,1,2,2],m 1183 2304 [1,1,1,1,3],p 21827 224 [2,2,2,3],p 78039 224 [1,2,3,3],p 21685 56 [1,2,2,4],p 9700 21 [1,1,3,4],p 8789 16 [1,1,2,5],p 8731 32 [1,1,1,6],m 996515 24 [3,4,4],m 354705 8 [3,3,5],m 394485 4 [2,4,5],m 1125075 16 [1,5,5],m 220467 2 [2,3,6],m 1177545 8 [1,4,6],m 567567 8 [2,2,7],m 1362647 8 [1,3,7],m 1804803 8 [1,2,8],m 735735 4 [1,1,9],p 32026995 1 [6,7],p 33963930 1 [5,8],p 38481300 1 [4,9],p 47447595 1 [3,10],p 66323205 1 [2,11],p 455444535 4 [1,12]]],
[[p 1 30 [1,1,1,2],m 63 16 [2,2,3],m 545 112 [1,3,3],m 87 8 [1,2,4],m 129 16 [1,1,5],p 2205 2 [4,5],p 2475 2 [3,6],p 6435 4 [2,7],p 10725 4 [1,8],m 1322685 2 [11]],
 [m 79 160 [1,1,2,2],m 13 32 [1,1,1,3],p 6045 112 [2,3,3],p 963 16 [2,2,4],p 595 4 [1,3,4],p 711 4 [1,2,5],p 2211 16 [1,1,6],m 19845 2 [5,5],m 20790 1 [4,6],m 96525 4 [3,7],m 32175 1 [2,8],m 109395 2 [1,9],p 30421755 2 [12]],
 [m 1 384 [1,1,1,1,1],p 67 40 [1,2,2,2],p 371 60 [1,1,2,3],p 17 6 [1,1,1,4],m 14295 112 [3,3,3],m 3411 4 [2,3,4],m 9365 16 [1,4,4],m 8127 16 [2,2,5],m 10019 8 [1,3,5],m 1566 1 [1,2,6],m 20097 16 [1,1,7],p 193410 1 [5,6],p 838035 4 [4,7],p 997425 4 [3,8],p 338910 1 [2,9],p 583440 1 [1,10],m 182530530 1 [13]],
 [p 5 128 [1,1,1,1,2],m 237 160 [2,2,2,2],m 1739 80 [1,2,2,3],m 1277 96 [1,1,3,3],m 2843 96 [1,1,2,4],m 231 16 [1,1,1,5],p 234035 112 [3,3,4],p 37185 16 [2,4,4],p 9933 2 [2,3,5],p 27115 4 [1,4,5],p 49473 16 [2,2,6],p 60711 8 [1,3,6],p 9801 1 [1,2,7],p 128271 16 [1,1,8],m 1299375 2 [6,6],m 5374215 4 [5,7],m 5969535 4 [4,8],m 7243665 4 [3,9],m 4995705 2 [2,10],m 17320875 4 [1,11]]]⟩
/-- `tDelta(7, 14)` — matslise_formulas.cpp:301 -/
def d7_14 : Entry4 :=
⟨[[m 1133 2240 [1,1,2,2],m 143 336 [1,1,1,3],p 6045 112 [2,3,3],p 951 16 [2,2,4],p 605 4 [1,3,4],p 180 1 [1,2,5],p 2277 16 [1,1,6],m 874125 88 [5,5],m 83055 4 [4,6],m 24180 1 [3,7],m 128115 4 [2,8],m 222105 4 [1,9],p 30421755 2 [12]],
 [m 13 2304 [1,1,1,1,1],p 403 112 [1,2,2,2],p 2977 224 [1,1,2,3],p 195 32 [1,1,1,4],m 30225 112 [3,3,3],m 7215 4 [2,3,4],m 59605 48 [1,4,4],m 17199 16 [2,2,5],m 21255 8 [1,3,5],m 13299 4 [1,2,6],m 42757 16 [1,1,7],p 405405 1 [5,6],p 1756755 4 [4,7],p 2091375 4 [3,8],p 1422135 2 [2,9],p 2456415 2 [1,10],m 760543875 2 [13]],
 [p 1511 11520 [1,1,1,1,2],m 1637 320 [2,2,2,2],m 82843 1120 [1,2,2,3],m 10011 224 [1,1,3,3],m 67037 672 [1,1,2,4],m 2309 48 [1,1,1,5],p 390945 56 [3,3,4],p 93445 12 [2,4,4],p 66525 4 [2,3,5],p 45055 2 [1,4,5],p 83091 8 [2,2,6],p 100881 4 [1,3,6],p 130603 4 [1,2,7],p 105963 4 [1,1,8],m 17090325 8 [6,6],m 17670345 4 [5,7],m 9817665 2 [4,8],m 23828805 4 [3,9],m 32954415 4 [2,10],m 56749485 4 [1,11]]],
[[p 1 30 [1,1,1,2],m 63 16 [2,2,3],m 545 112 [1,3,3],m 87 8 [1,2,4],m 129 16 [1,1,5],p 2205 2 [4,5],p 2475 2 [3,6],p 6435 4 [2,7],p 10725 4 [1,8],m 1322685 2 [11]],
 [m 79 160 [1,1,2,2],m 13 32 [1,1,1,3],p 6045 112 [2,3,3],p 963 16 [2,2,4],p 595 4 [1,3,4],p 711 4 [1,2,5],p 2211 16 [1,1,6],m 19845 2 [5,5],m 20790 1 [4,6],m 96525 4 [3,7],m 32175 1 [2,8],m 109395 2 [1,9],p 30421755 2 [12]],
 [m 1 384 [1,1,1,1,1],p 67 40 [1,2,2,2],p 371 60 [1,1,2,3],p 17 6 [1,1,1,4],m 14295 112 [3,3,3],m 3411 4 [2,3,4],m 9365 16 [1,4,4],m 8127 16 [2,2,5],m 10019 8 [1,3,5],m 1566 1 [1,2,6],m 20097 16 [1,1,7],p 193410 1 [5,6],p 838035 4 [4,7],p 997425 4 [3,8],p 338910 1 [2,9],p 583440 1 [1,10],m 182530530 1 [13]]],
[[p 13 2304 [1,1,1,1,1],m 403 112 [1,2,2,2],m 2977 224 [1,1,2,3],m 195 32 [1,1,1,4],p 30225 112 [3,3,3],p 7215 4 [2,3,4],p 59605 48 [1,4,4],p 17199 16 [2,2,5],p 21255 8 [1,3,5],p 13299 4 [1,2,6],p 42757 16 [1,1,7],m 405405 1 [5,6],m 1756755 4 [4,7],m 2091375 4 [3,8],m 1422135 2 [2,9],m 2456415 2 [1,10],p 760543875 2 [13]],
 [m 343 1280 [1,1,1,1,2],p 1209 112 [2,2,2,2],p 34803 224 [1,2,2,3],p 1305 14 [1,1,3,3],p 3323 16 [1,1,2,4],p 1587 16 [1,1,1,5],m 234975 16 [3,3,4],m 261625 16 [2,4,4],m 139815 4 [2,3,5],m 188055 4 [1,4,5],m 348777 16 [2,2,6],m 421245 8 [1,3,6],m 272415 4 [1,2,7],m 877305 16 [1,1,8],p 4459455 1 [6,6],p 36891855 4 [5,7],p 20495475 2 [4,8],p 49774725 4 [3,9],p 17194905 1 [2,10],p 117718965 4 [1,11]],
 [p 1333 480 [1,1,1,2,2],p 13 8 [1,1,1,1,3],m 36375 112 [2,2,2,3],m 128987 112 [1,2,3,3],m 71427 56 [1,2,2,4],m 168785 112 [1,1,3,4],m 28565 16 [1,1,2,5],m 6987 8 [1,1,1,6],p 2196935 16 [3,4,4],p 2346435 16 [3,3,5],p 2602425 8 [2,4,5],p 3672795 16 [1,5,5],p 1454859 4 [2,3,6],p 480555 1 [1,4,6],p 3736161 16 [2,2,7],p 4450017 8 [1,3,7],p 2939079 4 [1,2,8],p 9470175 16 [1,1,9],m 417972555 4 [6,7],m 443287845 4 [5,8],m 502348275 4 [4,9],m 619663005 4 [3,10],m 864469125 4 [2,11],m 1469503035 4 [1,12]]],
[[p 1079 2240 [1,1,2,2],p 65 168 [1,1,1,3],m 6045 112 [2,3,3],m 975 16 [2,2,4],m 585 4 [1,3,4],m 351 2 [1,2,5],m 2145 16 [1,1,6],p 872235 88 [5,5],p 83265 4 [4,6],p 48165 2 [3,7],p 129285 4 [2,8],p 215475 4 [1,9],m 30421755 2 [12]],
 [p 11 2304 [1,1,1,1,1],m 977 280 [1,2,2,2],m 2805 224 [1,1,2,3],m 535 96 [1,1,1,4],p 30225 112 [3,3,3],p 7215 4 [2,3,4],p 57995 48 [1,4,4],p 17199 16 [2,2,5],p 20685 8 [1,3,5],p 3234 1 [1,2,6],p 40469 16 [1,1,7],m 405405 1 [5,6],m 1756755 4 [4,7],m 2091375 4 [3,8],m 1422135 2 [2,9],m 1196715 1 [1,10],p 760543875 2 [13]],
 [m 1309 11520 [1,1,1,1,2],p 1579 320 [2,2,2,2],p 79529 1120 [1,2,2,3],p 9505 224 [1,1,3,3],p 63023 672 [1,1,2,4],p 1061 24 [1,1,1,5],m 391365 56 [3,3,4],m 185485 24 [2,4,4],m 16533 1 [2,3,5],m 22005 1 [1,4,5],m 81915 8 [2,2,6],m 98595 4 [1,3,6],m 63349 2 [1,2,7],m 100815 4 [1,1,8],p 17088435 8 [6,6],p 17672655 4 [5,7],p 4907760 1 [4,8],p 23841675 4 [3,9],p 32755515 4 [2,10],p 55489785 4 [1,11]]]⟩
/-- `tDelta(7, 15)` — matslise_formulas.cpp:302 -/
def d7_15 : Entry4 :=
⟨[[p 7 2304 [1,1,1,1,1],m 31 16 [1,2,2,2],m 229 32 [1,1,2,3],m 105 32 [1,1,1,4],p 2325 16 [3,3,3],p 3885 4 [2,3,4],p 32095 48 [1,4,4],p 9261 16 [2,2,5],p 11445 8 [1,3,5],p 7161 4 [1,2,6],p 23023 16 [1,1,7],m 218295 1 [5,6],m 945945 4 [4,7],m 1126125 4 [3,8],m 765765 2 [2,9],m 1322685 2 [1,10],p 409523625 2 [13]],
 [m 559 3840 [1,1,1,1,2],p 93 16 [2,2,2,2],p 1341 16 [1,2,2,3],p 11285 224 [1,1,3,3],p 449 4 [1,1,2,4],p 1719 32 [1,1,1,5],m 126525 16 [3,3,4],m 140875 16 [2,4,4],m 75285 4 [2,3,5],m 50715 2 [1,4,5],m 187803 16 [2,2,6],m 227205 8 [1,3,6],m 293865 8 [1,2,7],m 474045 16 [1,1,8],p 2401245 1 [6,6],p 19864845 4 [5,7],p 11036025 2 [4,8],p 26801775 4 [3,9],p 9258795 1 [2,10],p 15872220 1 [1,11]]],
[[p 83 320 [1,1,2,2],p 5 24 [1,1,1,3],m 465 16 [2,3,3],m 525 16 [2,2,4],m 315 4 [1,3,4],m 189 2 [1,2,5],m 1155 16 [1,1,6],p 469665 88 [5,5],p 44835 4 [4,6],p 25935 2 [3,7],p 69615 4 [2,8],p 116025 4 [1,9],m 16380945 2 [12]],
 [p 1 384 [1,1,1,1,1],m 2109 1120 [1,2,2,2],m 1517 224 [1,1,2,3],m 145 48 [1,1,1,4],p 2325 16 [3,3,3],p 3885 4 [2,3,4],p 5215 8 [1,4,4],p 9261 16 [2,2,5],p 1395 1 [1,3,5],p 13959 8 [1,2,6],p 21879 16 [1,1,7],m 218295 1 [5,6],m 945945 4 [4,7],m 1126125 4 [3,8],m 765765 2 [2,9],m 2582385 4 [1,10],p 409523625 2 [13]]],
[[p 523 3840 [1,1,1,1,2],m 3657 640 [2,2,2,2],m 165 2 [1,2,2,3],m 22075 448 [1,1,3,3],m 3495 32 [1,1,2,4],m 1653 32 [1,1,1,5],p 1394225 176 [3,3,4],p 1542765 176 [2,4,4],p 1654065 88 [2,3,5],p 2208675 88 [1,4,5],p 186543 16 [2,2,6],p 112545 4 [1,3,6],p 36270 1 [1,2,7],p 463515 16 [1,1,8],m 249656715 104 [6,6],m 4967865 1 [5,7],m 22061025 4 [4,8],m 13414275 2 [3,9],m 36933435 4 [2,10],m 31439205 2 [1,11]],
 [m 3313 1120 [1,1,1,2,2],m 3079 1792 [1,1,1,1,3],p 11577 32 [2,2,2,3],p 287295 224 [1,2,3,3],p 11289 8 [1,2,2,4],p 26615 16 [1,1,3,4],p 15651 8 [1,1,2,5],p 30261 32 [1,1,1,6],m 2475725 16 [3,4,4],m 2644425 16 [3,3,5],m 2917215 8 [2,4,5],m 11250225 44 [1,5,5],m 1631025 4 [2,3,6],m 4282635 8 [1,4,6],m 4166019 16 [2,2,7],m 2478645 4 [1,3,7],m 6511635 8 [1,2,8],m 10399155 16 [1,1,9],p 468242775 4 [6,7],p 496621125 4 [5,8],p 562837275 4 [4,9],p 694409625 4 [3,10],p 964237365 4 [2,11],p 407183490 1 [1,12]]],
[[m 5 2304 [1,1,1,1,1],p 64 35 [1,2,2,2],p 1431 224 [1,1,2,3],p 265 96 [1,1,1,4],m 2325 16 [3,3,3],m 3885 4 [2,3,4],m 30485 48 [1,4,4],m 9261 16 [2,2,5],m 10875 8 [1,3,5],m 3399 2 [1,2,6],m 20735 16 [1,1,7],p 218295 1 [5,6],p 945945 4 [4,7],p 1126125 4 [3,8],p 765765 2 [2,9],p 629850 1 [1,10],m 409523625 2 [13]],
 [p 421 3840 [1,1,1,1,2],m 192 35 [2,2,2,2],m 543 7 [1,2,2,3],m 10195 224 [1,1,3,3],m 1597 16 [1,1,2,4],m 1461 32 [1,1,1,5],p 126525 16 [3,3,4],p 139265 16 [2,4,4],p 37215 2 [2,3,5],p 24255 1 [1,4,5],p 183447 16 [2,2,6],p 217305 8 [1,3,6],p 277563 8 [1,2,7],p 431145 16 [1,1,8],m 2401245 1 [6,6],m 19864845 4 [5,7],m 11036025 2 [4,8],m 26801775 4 [3,9],m 18328635 2 [2,10],m 30421755 2 [1,11]]]⟩
/-- `tDelta(7, 16)` — matslise_formulas.cpp:303 -/
def d7_16 : Entry4 :=
⟨[[p 77 1440 [1,1,1,1,2],m 1219 560 [2,2,2,2],m 3541 112 [1,2,2,3],m 6385 336 [1,1,3,3],m 337 8 [1,1,2,4],m 321 16 [1,1,1,5],p 199175 66 [3,3,4],p 73465 22 [2,4,4],p 78765 11 [2,3,5],p 211505 22 [1,4,5],p 8883 2 [2,2,6],p 21555 2 [1,3,6],p 55575 4 [1,2,7],p 44655 4 [1,1,8],m 11888415 13 [6,6],m 1892520 1 [5,7],m 2101050 1 [4,8],m 2555100 1 [3,9],m 3517470 1 [2,10],m 12039825 2 [1,11]]],
[[m 1 1152 [1,1,1,1,1],p 393 560 [1,2,2,2],p 415 168 [1,1,2,3],p 155 144 [1,1,1,4],m 775 14 [3,3,3],m 370 1 [2,3,4],m 5845 24 [1,4,4],m 441 2 [2,2,5],m 2085 4 [1,3,5],m 2607 4 [1,2,6],m 1001 2 [1,1,7],p 83160 1 [5,6],p 90090 1 [4,7],p 107250 1 [3,8],p 145860 1 [2,9],p 482885 2 [1,10],m 78004500 1 [13]]],
[[p 1171 1120 [1,1,1,2,2],p 1223 2016 [1,1,1,1,3],m 7529 56 [2,2,2,3],m 3355 7 [1,2,3,3],m 4183 8 [1,2,2,4],m 1855 3 [1,1,3,4],m 5763 8 [1,1,2,5],m 2761 8 [1,1,1,6],p 353675 6 [3,4,4],p 125925 2 [3,3,5],p 137970 1 [2,4,5],p 4243995 44 [1,5,5],p 154275 1 [2,3,6],p 403935 2 [1,4,6],p 97812 1 [2,2,7],p 233740 1 [1,3,7],p 304785 1 [1,2,8],p 241995 1 [1,1,9],m 44594550 1 [6,7],m 47297250 1 [5,8],m 53603550 1 [4,9],m 66134250 1 [3,10],m 91265265 1 [2,11],m 153668865 1 [1,12]]],
[[m 101 2880 [1,1,1,1,2],p 1139 560 [2,2,2,2],p 1583 56 [1,2,2,3],p 1375 84 [1,1,3,3],p 285 8 [1,1,2,4],p 127 8 [1,1,1,5],m 198475 66 [3,3,4],m 145285 44 [2,4,4],m 154815 22 [2,3,5],m 99260 11 [1,4,5],m 4320 1 [2,2,6],m 10095 1 [1,3,6],m 25623 2 [1,2,7],m 9750 1 [1,1,8],p 11895345 13 [6,6],p 1891260 1 [5,7],p 2103150 1 [4,8],p 2550000 1 [3,9],p 3473865 1 [2,10],p 5663805 1 [1,11]]]⟩
/-- `tDelta(7, *)` -/
def d7 : List Entry4 := [d7_0,d7_1,d7_2,d7_3,d7_4,d7_5,d7_6,d7_7,d7_8,d7_9,d7_10,d7_11,d7_12,d7_13,d7_14,d7_15,d7_16]
/-- `tH[7]` — matslise_formulas.cpp:304 -/
def tH7 : Entry4 :=
⟨[[],
 [],
 [],
 [],
 [],
 [],
 [],
 [],
 [],
 [],
 [],
 [],
 [],
 [m 1 30 [1,1,1,2],p 63 16 [2,2,3],p 545 112 [1,3,3],p 87 8 [1,2,4],p 129 16 [1,1,5],m 2205 2 [4,5],m 2475 2 [3,6],m 6435 4 [2,7],m 10725 4 [1,8],p 1322685 2 [11]],
 [m 27 2240 [1,1,2,2],m 13 672 [1,1,1,3],m 3 4 [2,2,4],p 5 2 [1,3,4],p 9 4 [1,2,5],p 33 8 [1,1,6],m 945 88 [5,5],p 105 4 [4,6],m 195 4 [3,7],p 585 4 [2,8],m 3315 4 [1,9]],
 [m 1 70 [1,2,2,2],m 83 1680 [1,1,2,3],m 1 48 [1,1,1,4],p 345 112 [3,3,3],p 81 4 [2,3,4],p 195 16 [1,4,4],p 189 16 [2,2,5],p 209 8 [1,3,5],p 63 2 [1,2,6],p 363 16 [1,1,7],m 6300 1 [5,6],m 27225 4 [4,7],m 32175 4 [3,8],m 10725 1 [2,9],m 16575 1 [1,10],p 7020405 1 [13]],
 [p 3 2240 [2,2,2,2],m 37 1120 [1,2,2,3],m 3 224 [1,1,3,3],m 1 56 [1,1,2,4],m 1 96 [1,1,1,5],p 205 132 [3,3,4],m 155 66 [2,4,4],p 87 22 [2,3,5],p 225 44 [1,4,5],m 15 8 [2,2,6],p 33 4 [1,3,6],p 83 8 [1,2,7],p 39 4 [1,1,8],p 15435 104 [6,6],m 1365 4 [5,7],p 2055 4 [4,8],m 3765 4 [3,9],p 2295 4 [2,10],m 4845 1 [1,11]],
 [m 1 70 [2,2,2,3],m 1 35 [1,2,3,3],m 1 56 [1,2,2,4],m 11 336 [1,1,3,4],m 1 30 [1,1,2,5],m 1 48 [1,1,1,6],p 395 24 [3,4,4],p 969 56 [3,3,5],p 297 8 [2,4,5],p 1937 88 [1,5,5],p 327 8 [2,3,6],p 175 4 [1,4,6],p 999 40 [2,2,7],p 417 8 [1,3,7],p 477 8 [1,2,8],p 377 8 [1,1,9],m 86625 4 [6,7],m 91575 4 [5,8],m 25740 1 [4,9],m 31200 1 [3,10],m 82875 2 [2,11],m 121125 2 [1,12],p 81904725 2 [15]],
 [m 31 3520 [2,2,3,3],m 23 2464 [1,3,3,3],m 3 616 [2,2,2,4],m 71 1848 [1,2,3,4],m 277 44352 [1,1,4,4],m 227 12320 [1,2,2,5],m 59 2464 [1,1,3,5],m 1 96 [1,1,1,7],m 955 858 [4,4,4],p 10775 1716 [3,4,5],p 843 286 [2,5,5],p 5469 1144 [3,3,6],m 965 143 [2,4,6],p 1416 143 [1,5,6],p 83 8 [2,3,7],p 45 4 [1,4,7],m 15 8 [2,2,8],p 39 2 [1,3,8],p 21 1 [1,2,9],p 135 8 [1,1,10],m 4977 8 [7,7],p 5355 4 [6,8],m 6465 4 [5,9],p 7755 4 [4,10],m 20145 4 [3,11],p 2907 2 [2,12],m 33915 2 [1,13]]],
[[],
 [],
 [],
 [],
 [],
 [],
 [],
 [],
 [],
 [],
 [],
 [],
 [],
 [p 1 1152 [1,1,1,1],m 61 560 [2,2,2],m 43 56 [1,2,3],m 25 48 [1,1,4],p 805 24 [4,4],p 285 4 [3,5],p 363 4 [2,6],p 143 1 [1,7],m 62985 2 [10]],
 [],
 [p 1 960 [1,1,2,2],m 23 56 [2,3,3],m 5 7 [2,2,4],m 25 28 [1,3,4],m 5 4 [1,2,5],m 3 4 [1,1,6],p 5565 44 [5,5],p 285 1 [4,6],p 591 2 [3,7],p 1833 4 [2,8],p 585 1 [1,9],m 508725 2 [12]],
 [],
 [p 1 3200 [2,2,2,2],p 1 1344 [1,1,3,3],m 625 1232 [3,3,4],m 2857 3696 [2,4,4],m 155 154 [2,3,5],m 85 88 [1,4,5],m 81 80 [2,2,6],m 5 4 [1,3,6],m 5 4 [1,2,7],m 17 16 [1,1,8],p 9177 26 [6,6],p 633 1 [5,7],p 810 1 [4,8],p 3375 4 [3,9],p 2655 2 [2,10],p 1530 1 [1,11],m 2340135 2 [14]]],
[[],
 [],
 [],
 [],
 [],
 [],
 [],
 [],
 [],
 [],
 [],
 [],
 [],
 [m 1133 2240 [1,1,2,2],m 143 336 [1,1,1,3],p 6045 112 [2,3,3],p 951 16 [2,2,4],p 605 4 [1,3,4],p 180 1 [1,2,5],p 2277 16 [1,1,6],m 874125 88 [5,5],m 83055 4 [4,6],m 24180 1 [3,7],m 128115 4 [2,8],m 222105 4 [1,9],p 30421755 2 [12]],
 [],
 [m 7 11520 [1,1,1,1,2],m 157 4480 [2,2,2,2],m 307 280 [1,2,2,3],m 337 448 [1,1,3,3],m 433 336 [1,1,2,4],m 55 96 [1,1,1,5],p 133645 616 [3,3,4],p 53125 264 [2,4,4],p 41685 88 [2,3,5],p 53885 88 [1,4,5],p 987 4 [2,2,6],p 5607 8 [1,3,6],p 817 1 [1,2,7],p 5031 8 [1,1,8],m 2011905 26 [6,6],m 324975 2 [5,7],m 705405 4 [4,8],m 441315 2 [3,9],m 554115 2 [2,10],m 954465 2 [1,11],p 409523625 2 [14]],
 [],
 [m 17 67200 [1,1,2,2,2],m 3 2240 [1,1,1,2,3],p 1 2304 [1,1,1,1,4],m 7419 12320 [2,2,3,3],m 127 308 [1,3,3,3],m 3001 12320 [2,2,2,4],m 2745 1232 [1,2,3,4],m 1037 1386 [1,1,4,4],m 15263 12320 [1,2,2,5],m 4273 2464 [1,1,3,5],m 111 80 [1,1,2,6],m 47 48 [1,1,1,7],p 251905 1716 [4,4,4],p 1254005 1144 [3,4,5],p 338517 572 [2,5,5],p 349419 572 [3,3,6],p 1198491 1144 [2,4,6],p 918837 572 [1,5,6],p 5553 4 [2,3,7],p 1685 1 [1,4,7],p 2823 4 [2,2,8],p 8001 4 [1,3,8],p 4575 2 [1,2,9],p 14645 8 [1,1,10],m 2847663 8 [7,7],m 2830275 4 [6,8],m 3163995 4 [5,9],m 3451095 4 [4,10],m 4492845 4 [3,11],m 5444811 4 [2,12],m 2306220 1 [1,13]]],
[[],
 [],
 [],
 [],
 [],
 [],
 [],
 [],
 [],
 [],
 [],
 [],
 [],
 [p 1 30 [1,1,1,2],m 63 16 [2,2,3],m 545 112 [1,3,3],m 87 8 [1,2,4],m 129 16 [1,1,5],p 2205 2 [4,5],p 2475 2 [3,6],p 6435 4 [2,7],p 10725 4 [1,8],m 1322685 2 [11]],
 [m 27 2240 [1,1,2,2],m 13 672 [1,1,1,3],m 3 4 [2,2,4],p 5 2 [1,3,4],p 9 4 [1,2,5],p 33 8 [1,1,6],m 945 88 [5,5],p 105 4 [4,6],m 195 4 [3,7],p 585 4 [2,8],m 3315 4 [1,9]],
 [p 1 70 [1,2,2,2],p 83 1680 [1,1,2,3],p 1 48 [1,1,1,4],m 345 112 [3,3,3],m 81 4 [2,3,4],m 195 16 [1,4,4],m 189 16 [2,2,5],m 209 8 [1,3,5],m 63 2 [1,2,6],m 363 16 [1,1,7],p 6300 1 [5,6],p 27225 4 [4,7],p 32175 4 [3,8],p 10725 1 [2,9],p 16575 1 [1,10],m 7020405 1 [13]],
 [p 3 2240 [2,2,2,2],m 37 1120 [1,2,2,3],m 3 224 [1,1,3,3],m 1 56 [1,1,2,4],m 1 96 [1,1,1,5],p 205 132 [3,3,4],m 155 66 [2,4,4],p 87 22 [2,3,5],p 225 44 [1,4,5],m 15 8 [2,2,6],p 33 4 [1,3,6],p 83 8 [1,2,7],p 39 4 [1,1,8],p 15435 104 [6,6],m 1365 4 [5,7],p 2055 4 [4,8],m 3765 4 [3,9],p 2295 4 [2,10],m 4845 1 [1,11]],
 [p 1 70 [2,2,2,3],p 1 35 [1,2,3,3],p 1 56 [1,2,2,4],p 11 336 [1,1,3,4],p 1 30 [1,1,2,5],p 1 48 [1,1,1,6],m 395 24 [3,4,4],m 969 56 [3,3,5],m 297 8 [2,4,5],m 1937 88 [1,5,5],m 327 8 [2,3,6],m 175 4 [1,4,6],m 999 40 [2,2,7],m 417 8 [1,3,7],m 477 8 [1,2,8],m 377 8 [1,1,9],p 86625 4 [6,7],p 91575 4 [5,8],p 25740 1 [4,9],p 31200 1 [3,10],p 82875 2 [2,11],p 121125 2 [1,12],m 81904725 2 [15]],
 [m 31 3520 [2,2,3,3],m 23 2464 [1,3,3,3],m 3 616 [2,2,2,4],m 71 1848 [1,2,3,4],m 277 44352 [1,1,4,4],m 227 12320 [1,2,2,5],m 59 2464 [1,1,3,5],m 1 96 [1,1,1,7],m 955 858 [4,4,4],p 10775 1716 [3,4,5],p 843 286 [2,5,5],p 5469 1144 [3,3,6],m 965 143 [2,4,6],p 1416 143 [1,5,6],p 83 8 [2,3,7],p 45 4 [1,4,7],m 15 8 [2,2,8],p 39 2 [1,3,8],p 21 1 [1,2,9],p 135 8 [1,1,10],m 4977 8 [7,7],p 5355 4 [6,8],m 6465 4 [5,9],p 7755 4 [4,10],m 20145 4 [3,11],p 2907 2 [2,12],m 33915 2 [1,13]]]⟩
end Verif.Formulas
