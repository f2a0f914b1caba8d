import Verif.Model.Formulas

/-! Generated by tools/gen_formulas.py from matslise/matslise/matslise_formulas.cpp (rows tDelta(8, *), tH[8]). -/
namespace Verif.Formulas
open Term
set_option maxRecDepth 100000

/-- `tDelta(8, 0)` — matslise_formulas.cpp:305 -/
def d8_0 : Entry4 :=
⟨[],
[],
[],
[]⟩
/-- `tDelta(8, 1)` — matslise_formulas.cpp:306 -/
def d8_1 : Entry4 :=
⟨[],
[],
[],
[]⟩
/-- `tDelta(8, 2)` — matslise_formulas.cpp:307 -/
def d8_2 : Entry4 :=
⟨[],
[],
[],
[]⟩
/-- `tDelta(8, 3)` — matslise_formulas.cpp:308 -/
def d8_3 : Entry4 :=
⟨[],
[],
[],
[]⟩
/-- `tDelta(8, 4)` — matslise_formulas.cpp:309 -/
def d8_4 : Entry4 :=
⟨[],
[],
[],
[]⟩
/-- `tDelta(8, 5)` — matslise_formulas.cpp:310 -/
def d8_5 : Entry4 :=
⟨[],
[],
[],
[]⟩
/-- `tDelta(8, 6)` — matslise_formulas.cpp:311 -/
def d8_6 : Entry4 :=
⟨[],
[],
[],
[]⟩
/-- `tDelta(8, 7)` — matslise_formulas.cpp:312 -/
def d8_7 : Entry4 :=
⟨[],
[],
[],
[]⟩
/-- `tDelta(8, 8)` — matslise_formulas.cpp:313 -/
def d8_8 : Entry4 :=
⟨[],
[],
[],
[]⟩
/-- `tDelta(8, 9)` — matslise_formulas.cpp:314 -/
def d8_9 : Entry4 :=
⟨[],
[],
[],
[]⟩
/-- `tDelta(8, 10)` — matslise_formulas.cpp:315 -/
def d8_10 : Entry4 :=
⟨[],
[],
[],
[]⟩
/-- `tDelta(8, 11)` — matslise_formulas.cpp:316 -/
def d8_11 : Entry4 :=
⟨[],
[],
[],
[]⟩
/-- `tDelta(8, 12)` — matslise_formulas.cpp:317 -/
def d8_12 : Entry4 :=
⟨[],
[],
[],
[]⟩
/-- `tDelta(8, 13)` — matslise_formulas.cpp:318 -/
def d8_13 : Entry4 :=
⟨[],
[],
[],
[]⟩
/-- `tDelta(8, 14)` — matslise_formulas.cpp:319 -/
def d8_14 : Entry4 :=
⟨[],
[],
[],
[]⟩
/-- `tDelta(8, 15)` — matslise_formulas.cpp:320 -/
def d8_15 : Entry4 :=
⟨[[m 1 2304 [1,1,1,1,1],p 31 112 [1,2,2,2],p 229 224 [1,1,2,3],p 15 32 [1,1,1,4],m 2325 112 [3,3,3],m 555 4 [2,3,4],m 4585 48 [1,4,4],m 1323 16 [2,2,5],m 1635 8 [1,3,5],m 1023 4 [1,2,6],m 3289 16 [1,1,7],p 31185 1 [5,6],p 135135 4 [4,7],p 160875 4 [3,8],p 109395 2 [2,9],p 188955 2 [1,10],m 58503375 2 [13]],
 [p 89 3840 [1,1,1,1,2],m 93 112 [2,2,2,2],m 2745 224 [1,2,2,3],m 845 112 [1,1,3,3],m 269 16 [1,1,2,4],m 33 4 [1,1,1,5],p 18075 16 [3,3,4],p 20125 16 [2,4,4],p 10755 4 [2,3,5],p 14805 4 [1,4,5],p 26829 16 [2,2,6],p 33165 8 [1,3,6],p 10725 2 [1,2,7],p 70785 16 [1,1,8],m 343035 1 [6,6],m 2837835 4 [5,7],m 1576575 2 [4,8],m 3828825 4 [3,9],m 1322685 1 [2,10],m 9258795 4 [1,11]]],
[[m 83 2240 [1,1,2,2],m 5 168 [1,1,1,3],p 465 112 [2,3,3],p 75 16 [2,2,4],p 45 4 [1,3,4],p 27 2 [1,2,5],p 165 16 [1,1,6],m 67095 88 [5,5],m 6405 4 [4,6],m 3705 2 [3,7],m 9945 4 [2,8],m 16575 4 [1,9],p 2340135 2 [12]],
 [m 1 2304 [1,1,1,1,1],p 31 112 [1,2,2,2],p 229 224 [1,1,2,3],p 15 32 [1,1,1,4],m 2325 112 [3,3,3],m 555 4 [2,3,4],m 4585 48 [1,4,4],m 1323 16 [2,2,5],m 1635 8 [1,3,5],m 1023 4 [1,2,6],m 3289 16 [1,1,7],p 31185 1 [5,6],p 135135 4 [4,7],p 160875 4 [3,8],p 109395 2 [2,9],p 188955 2 [1,10],m 58503375 2 [13]]],
[[m 31 1280 [1,1,1,1,2],p 3657 4480 [2,2,2,2],p 1383 112 [1,2,2,3],p 495 64 [1,1,3,3],p 549 32 [1,1,2,4],p 273 32 [1,1,1,5],m 199175 176 [3,3,4],m 220395 176 [2,4,4],m 236295 88 [2,3,5],m 329385 88 [1,4,5],m 26649 16 [2,2,6],m 16785 4 [1,3,6],m 21645 4 [1,2,7],m 72345 16 [1,1,8],p 35665245 104 [6,6],p 709695 1 [5,7],p 3151575 4 [4,8],p 1916325 2 [3,9],p 5276205 4 [2,10],p 2340135 1 [1,11]],
 [p 487 896 [1,1,1,2,2],p 1795 5376 [1,1,1,1,3],m 11955 224 [2,2,2,3],m 1575 8 [1,2,3,3],m 7011 32 [1,2,2,4],m 4315 16 [1,1,3,4],m 5139 16 [1,1,2,5],m 165 1 [1,1,1,6],p 353675 16 [3,4,4],p 377775 16 [3,3,5],p 420525 8 [2,4,5],p 6803055 176 [1,5,5],p 235125 4 [2,3,6],p 323715 4 [1,4,6],p 606177 16 [2,2,7],p 187395 2 [1,3,7],p 248625 2 [1,2,8],p 1674075 16 [1,1,9],m 66891825 4 [6,7],m 70945875 4 [5,8],m 80405325 4 [4,9],m 99201375 4 [3,10],m 138881925 4 [2,11],m 245714175 4 [1,12]]],
[[p 1 2304 [1,1,1,1,1],m 31 112 [1,2,2,2],m 229 224 [1,1,2,3],m 15 32 [1,1,1,4],p 2325 112 [3,3,3],p 555 4 [2,3,4],p 4585 48 [1,4,4],p 1323 16 [2,2,5],p 1635 8 [1,3,5],p 1023 4 [1,2,6],p 3289 16 [1,1,7],m 31185 1 [5,6],m 135135 4 [4,7],m 160875 4 [3,8],m 109395 2 [2,9],m 188955 2 [1,10],p 58503375 2 [13]],
 [m 89 3840 [1,1,1,1,2],p 93 112 [2,2,2,2],p 2745 224 [1,2,2,3],p 845 112 [1,1,3,3],p 269 16 [1,1,2,4],p 33 4 [1,1,1,5],m 18075 16 [3,3,4],m 20125 16 [2,4,4],m 10755 4 [2,3,5],m 14805 4 [1,4,5],m 26829 16 [2,2,6],m 33165 8 [1,3,6],m 10725 2 [1,2,7],m 70785 16 [1,1,8],p 343035 1 [6,6],p 2837835 4 [5,7],p 1576575 2 [4,8],p 3828825 4 [3,9],p 1322685 1 [2,10],p 9258795 4 [1,11]]]⟩
/-- `tDelta(8, 16)` — matslise_formulas.cpp:321 -/
def d8_16 : Entry4 :=
⟨[[m 31 1280 [1,1,1,1,2],p 3657 4480 [2,2,2,2],p 1383 112 [1,2,2,3],p 495 64 [1,1,3,3],p 549 32 [1,1,2,4],p 273 32 [1,1,1,5],m 199175 176 [3,3,4],m 220395 176 [2,4,4],m 236295 88 [2,3,5],m 329385 88 [1,4,5],m 26649 16 [2,2,6],m 16785 4 [1,3,6],m 21645 4 [1,2,7],m 72345 16 [1,1,8],p 35665245 104 [6,6],p 709695 1 [5,7],p 3151575 4 [4,8],p 1916325 2 [3,9],p 5276205 4 [2,10],p 2340135 1 [1,11]]],
[[p 1 2304 [1,1,1,1,1],m 31 112 [1,2,2,2],m 229 224 [1,1,2,3],m 15 32 [1,1,1,4],p 2325 112 [3,3,3],p 555 4 [2,3,4],p 4585 48 [1,4,4],p 1323 16 [2,2,5],p 1635 8 [1,3,5],p 1023 4 [1,2,6],p 3289 16 [1,1,7],m 31185 1 [5,6],m 135135 4 [4,7],m 160875 4 [3,8],m 109395 2 [2,9],m 188955 2 [1,10],p 58503375 2 [13]]],
[[m 487 896 [1,1,1,2,2],m 1795 5376 [1,1,1,1,3],p 11955 224 [2,2,2,3],p 1575 8 [1,2,3,3],p 7011 32 [1,2,2,4],p 4315 16 [1,1,3,4],p 5139 16 [1,1,2,5],p 165 1 [1,1,1,6],m 353675 16 [3,4,4],m 377775 16 [3,3,5],m 420525 8 [2,4,5],m 6803055 176 [1,5,5],m 235125 4 [2,3,6],m 323715 4 [1,4,6],m 606177 16 [2,2,7],m 187395 2 [1,3,7],m 248625 2 [1,2,8],m 1674075 16 [1,1,9],p 66891825 4 [6,7],p 70945875 4 [5,8],p 80405325 4 [4,9],p 99201375 4 [3,10],p 138881925 4 [2,11],p 245714175 4 [1,12]]],
[[p 17 768 [1,1,1,1,2],m 3783 4480 [2,2,2,2],m 681 56 [1,2,2,3],m 3295 448 [1,1,3,3],m 527 32 [1,1,2,4],m 255 32 [1,1,1,5],p 198475 176 [3,3,4],p 222355 176 [2,4,4],p 236925 88 [2,3,5],p 322035 88 [1,4,5],p 27009 16 [2,2,6],p 4095 1 [1,3,6],p 21255 4 [1,2,7],p 69225 16 [1,1,8],m 35686035 104 [6,6],m 1418445 2 [5,7],m 3154725 4 [4,8],m 956250 1 [3,9],m 5305275 4 [2,10],m 4578525 2 [1,11]]]⟩
/-- `tDelta(8, *)` -/
def d8 : List Entry4 := [d8_0,d8_1,d8_2,d8_3,d8_4,d8_5,d8_6,d8_7,d8_8,d8_9,d8_10,d8_11,d8_12,d8_13,d8_14,d8_15,d8_16]
/-- `tH[8]` — matslise_formulas.cpp:322 -/
def tH8 : Entry4 :=
⟨[[],
 [],
 [],
 [],
 [],
 [],
 [],
 [],
 [],
 [],
 [],
 [],
 [],
 [],
 [],
 [m 1 2304 [1,1,1,1,1],p 31 112 [1,2,2,2],p 229 224 [1,1,2,3],p 15 32 [1,1,1,4],m 2325 112 [3,3,3],m 555 4 [2,3,4],m 4585 48 [1,4,4],m 1323 16 [2,2,5],m 1635 8 [1,3,5],m 1023 4 [1,2,6],m 3289 16 [1,1,7],p 31185 1 [5,6],p 135135 4 [4,7],p 160875 4 [3,8],p 109395 2 [2,9],p 188955 2 [1,10],m 58503375 2 [13]],
 [m 1 960 [1,1,1,1,2],m 9 640 [2,2,2,2],p 3 32 [1,2,2,3],p 85 448 [1,1,3,3],p 11 32 [1,1,2,4],p 9 32 [1,1,1,5],m 175 88 [3,3,4],p 245 44 [2,4,4],p 315 88 [2,3,5],m 3675 88 [1,4,5],p 45 4 [2,2,6],m 405 8 [1,3,6],m 195 4 [1,2,7],m 195 2 [1,1,8],m 10395 104 [6,6],p 945 4 [5,7],m 1575 4 [4,8],p 3825 4 [3,9],m 14535 4 [2,10],p 101745 4 [1,11]],
 [m 1 1920 [1,1,1,2,2],m 1 2304 [1,1,1,1,3],p 85 224 [2,2,2,3],p 139 112 [1,2,3,3],p 1497 1120 [1,2,2,4],p 127 84 [1,1,3,4],p 139 80 [1,1,2,5],p 13 16 [1,1,1,6],m 740 3 [3,4,4],m 525 2 [3,3,5],m 1155 2 [2,4,5],m 33663 88 [1,5,5],m 642 1 [2,3,6],m 3193 4 [1,4,6],m 4059 10 [2,2,7],m 7355 8 [1,3,7],m 2379 2 [1,2,8],m 910 1 [1,1,9],p 467775 2 [6,7],p 495495 2 [5,8],p 559845 2 [4,9],p 686205 2 [3,10],p 944775 2 [2,11],p 1526175 2 [1,12],m 737142525 2 [15]],
 [m 13 16800 [1,1,2,2,2],m 3 2240 [1,1,1,2,3],p 765 4928 [2,2,3,3],p 215 1232 [1,3,3,3],m 213 1760 [2,2,2,4],p 61 88 [1,2,3,4],p 841 6336 [1,1,4,4],p 201 440 [1,2,2,5],p 241 352 [1,1,3,5],p 23 32 [1,1,2,6],p 5 12 [1,1,1,7],p 14945 1144 [4,4,4],m 5215 143 [3,4,5],m 7497 572 [2,5,5],m 48915 1144 [3,3,6],p 83679 1144 [2,4,6],m 24192 143 [1,5,6],m 525 8 [2,3,7],m 297 2 [1,4,7],p 45 1 [2,2,8],m 1095 4 [1,3,8],m 1215 4 [1,2,9],m 765 2 [1,1,10],p 2079 1 [7,7],m 4725 1 [6,8],p 6930 1 [5,9],m 13005 1 [4,10],p 29070 1 [3,11],m 20349 1 [2,12],p 780045 4 [1,13]]],
[[],
 [],
 [],
 [],
 [],
 [],
 [],
 [],
 [],
 [],
 [],
 [],
 [],
 [],
 [],
 [m 83 2240 [1,1,2,2],m 5 168 [1,1,1,3],p 465 112 [2,3,3],p 75 16 [2,2,4],p 45 4 [1,3,4],p 27 2 [1,2,5],p 165 16 [1,1,6],m 67095 88 [5,5],m 6405 4 [4,6],m 3705 2 [3,7],m 9945 4 [2,8],m 16575 4 [1,9],p 2340135 2 [12]],
 [],
 [m 89 11200 [2,2,2,2],m 31 560 [1,2,2,3],m 11 672 [1,1,3,3],m 69 1120 [1,1,2,4],m 1 48 [1,1,1,5],p 34525 3696 [3,3,4],p 2301 176 [2,4,4],p 537 22 [2,3,5],p 1231 44 [1,4,5],p 1449 80 [2,2,6],p 237 8 [1,3,6],p 171 4 [1,2,7],p 455 16 [1,1,8],m 445347 104 [6,6],m 8652 1 [5,7],m 19725 2 [4,8],m 22575 2 [3,9],m 68085 4 [2,10],m 24225 1 [1,11],p 11700675 1 [14]]],
[[],
 [],
 [],
 [],
 [],
 [],
 [],
 [],
 [],
 [],
 [],
 [],
 [],
 [],
 [],
 [m 31 1280 [1,1,1,1,2],p 3657 4480 [2,2,2,2],p 1383 112 [1,2,2,3],p 495 64 [1,1,3,3],p 549 32 [1,1,2,4],p 273 32 [1,1,1,5],m 199175 176 [3,3,4],m 220395 176 [2,4,4],m 236295 88 [2,3,5],m 329385 88 [1,4,5],m 26649 16 [2,2,6],m 16785 4 [1,3,6],m 21645 4 [1,2,7],m 72345 16 [1,1,8],p 35665245 104 [6,6],p 709695 1 [5,7],p 3151575 4 [4,8],p 1916325 2 [3,9],p 5276205 4 [2,10],p 2340135 1 [1,11],m 1579591125 2 [14]],
 [],
 [m 1 82944 [1,1,1,1,1,1],m 481 33600 [1,1,2,2,2],m 23 480 [1,1,1,2,3],m 13 1152 [1,1,1,1,4],p 7625 616 [2,2,3,3],p 40715 3696 [1,3,3,3],p 17291 2464 [2,2,2,4],p 236479 3696 [1,2,3,4],p 63451 3168 [1,1,4,4],p 14979 440 [1,2,2,5],p 7915 176 [1,1,3,5],p 493 10 [1,1,2,6],p 1157 48 [1,1,1,7],m 13420435 6864 [4,4,4],m 14952725 1144 [3,4,5],m 16597287 2288 [2,5,5],m 16948785 2288 [3,3,6],m 8425515 572 [2,4,6],m 24770781 1144 [1,5,6],m 17655 1 [2,3,7],m 92849 4 [1,4,7],m 167535 16 [2,2,8],m 55995 2 [1,3,8],m 279675 8 [1,2,9],m 455005 16 [1,1,10],p 26818407 8 [7,7],p 13680765 2 [6,8],p 29747655 4 [5,9],p 8455035 1 [4,10],p 42950925 4 [3,11],p 28346157 2 [2,12],p 99065715 4 [1,13]]],
[[],
 [],
 [],
 [],
 [],
 [],
 [],
 [],
 [],
 [],
 [],
 [],
 [],
 [],
 [],
 [p 1 2304 [1,1,1,1,1],m 31 112 [1,2,2,2],m 229 224 [1,1,2,3],m 15 32 [1,1,1,4],p 2325 112 [3,3,3],p 555 4 [2,3,4],p 4585 48 [1,4,4],p 1323 16 [2,2,5],p 1635 8 [1,3,5],p 1023 4 [1,2,6],p 3289 16 [1,1,7],m 31185 1 [5,6],m 135135 4 [4,7],m 160875 4 [3,8],m 109395 2 [2,9],m 188955 2 [1,10],p 58503375 2 [13]],
 [m 1 960 [1,1,1,1,2],m 9 640 [2,2,2,2],p 3 32 [1,2,2,3],p 85 448 [1,1,3,3],p 11 32 [1,1,2,4],p 9 32 [1,1,1,5],m 175 88 [3,3,4],p 245 44 [2,4,4],p 315 88 [2,3,5],m 3675 88 [1,4,5],p 45 4 [2,2,6],m 405 8 [1,3,6],m 195 4 [1,2,7],m 195 2 [1,1,8],m 10395 104 [6,6],p 945 4 [5,7],m 1575 4 [4,8],p 3825 4 [3,9],m 14535 4 [2,10],p 101745 4 [1,11]],
 [p 1 1920 [1,1,1,2,2],p 1 2304 [1,1,1,1,3],m 85 224 [2,2,2,3],m 139 112 [1,2,3,3],m 1497 1120 [1,2,2,4],m 127 84 [1,1,3,4],m 139 80 [1,1,2,5],m 13 16 [1,1,1,6],p 740 3 [3,4,4],p 525 2 [3,3,5],p 1155 2 [2,4,5],p 33663 88 [1,5,5],p 642 1 [2,3,6],p 3193 4 [1,4,6],p 4059 10 [2,2,7],p 7355 8 [1,3,7],p 2379 2 [1,2,8],p 910 1 [1,1,9],m 467775 2 [6,7],m 495495 2 [5,8],m 559845 2 [4,9],m 686205 2 [3,10],m 944775 2 [2,11],m 1526175 2 [1,12],p 737142525 2 [15]],
 [m 13 16800 [1,1,2,2,2],m 3 2240 [1,1,1,2,3],p 765 4928 [2,2,3,3],p 215 1232 [1,3,3,3],m 213 1760 [2,2,2,4],p 61 88 [1,2,3,4],p 841 6336 [1,1,4,4],p 201 440 [1,2,2,5],p 241 352 [1,1,3,5],p 23 32 [1,1,2,6],p 5 12 [1,1,1,7],p 14945 1144 [4,4,4],m 5215 143 [3,4,5],m 7497 572 [2,5,5],m 48915 1144 [3,3,6],p 83679 1144 [2,4,6],m 24192 143 [1,5,6],m 525 8 [2,3,7],m 297 2 [1,4,7],p 45 1 [2,2,8],m 1095 4 [1,3,8],m 1215 4 [1,2,9],m 765 2 [1,1,10],p 2079 1 [7,7],m 4725 1 [6,8],p 6930 1 [5,9],m 13005 1 [4,10],p 29070 1 [3,11],m 20349 1 [2,12],p 780045 4 [1,13]]]⟩
/-- `tH[9]` — matslise_formulas.cpp:323 -/
def tH9 : Entry4 :=
⟨[[],
 [],
 [],
 [],
 [],
 [],
 [],
 [],
 [],
 [],
 [],
 [],
 [],
 [],
 [],
 [],
 [],
 [p 487 13440 [1,1,1,2,2],p 359 16128 [1,1,1,1,3],m 797 224 [2,2,2,3],m 105 8 [1,2,3,3],m 2337 160 [1,2,2,4],m 863 48 [1,1,3,4],m 1713 80 [1,1,2,5],m 11 1 [1,1,1,6],p 70735 48 [3,4,4],p 25185 16 [3,3,5],p 28035 8 [2,4,5],p 453537 176 [1,5,5],p 15675 4 [2,3,6],p 21581 4 [1,4,6],p 202059 80 [2,2,7],p 12493 2 [1,3,7],p 16575 2 [1,2,8],p 111605 16 [1,1,9],m 4459455 4 [6,7],m 4729725 4 [5,8],m 5360355 4 [4,9],m 6613425 4 [3,10],m 9258795 4 [2,11],m 16380945 4 [1,12],p 3053876175 2 [15]],
 [m 1 82944 [1,1,1,1,1,1],p 197 33600 [1,1,2,2,2],p 101 3360 [1,1,1,2,3],p 1 72 [1,1,1,1,4],p 1219 4928 [2,2,3,3],m 6095 7392 [1,3,3,3],p 951 1760 [2,2,2,4],m 509 132 [1,2,3,4],m 18907 6336 [1,1,4,4],m 2853 1760 [1,2,2,5],m 2383 352 [1,1,3,5],m 235 32 [1,1,2,6],m 611 96 [1,1,1,7],m 5145 572 [4,4,4],p 19845 572 [3,4,5],m 35721 572 [2,5,5],p 4425 104 [3,3,6],m 2541 13 [2,4,6],p 27153 26 [1,5,6],m 885 8 [2,3,7],p 8841 8 [1,4,7],m 1035 4 [2,2,8],p 11325 8 [1,3,8],p 5865 4 [1,2,9],p 24225 8 [1,1,10],m 9009 8 [7,7],p 10395 4 [6,8],m 16065 4 [5,9],p 33915 4 [4,10],m 101745 4 [3,11],p 468027 4 [2,12],m 3900225 4 [1,13]]],
[[],
 [],
 [],
 [],
 [],
 [],
 [],
 [],
 [],
 [],
 [],
 [],
 [],
 [],
 [],
 [],
 [],
 [m 17 11520 [1,1,1,1,2],p 1261 22400 [2,2,2,2],p 227 280 [1,2,2,3],p 659 1344 [1,1,3,3],p 527 480 [1,1,2,4],p 17 32 [1,1,1,5],m 39695 528 [3,3,4],m 44471 528 [2,4,4],m 15795 88 [2,3,5],m 21469 88 [1,4,5],m 9003 80 [2,2,6],m 273 1 [1,3,6],m 1417 4 [1,2,7],m 4615 16 [1,1,8],p 2379069 104 [6,6],p 94563 2 [5,7],p 210315 4 [4,8],p 63750 1 [3,9],p 353685 4 [2,10],p 305235 2 [1,11],m 105306075 2 [14]]],
[[],
 [],
 [],
 [],
 [],
 [],
 [],
 [],
 [],
 [],
 [],
 [],
 [],
 [],
 [],
 [],
 [],
 [m 19 82944 [1,1,1,1,1,1],p 31609 67200 [1,1,2,2,2],p 7867 6720 [1,1,1,2,3],p 931 2304 [1,1,1,1,4],m 455831 4928 [2,2,3,3],m 35495 462 [1,3,3,3],m 24001 352 [2,2,2,4],m 269765 528 [1,2,3,4],m 1118929 6336 [1,1,4,4],m 533097 1760 [1,2,2,5],m 132997 352 [1,1,3,5],m 75161 160 [1,1,2,6],m 12103 48 [1,1,1,7],p 70743995 6864 [4,4,4],p 75640215 1144 [3,4,5],p 89707149 2288 [2,5,5],p 7685805 208 [3,3,6],p 8524845 104 [2,4,6],p 12676167 104 [1,5,6],p 94830 1 [2,3,7],p 527443 4 [1,4,7],p 999837 16 [2,2,8],p 156660 1 [1,3,8],p 1692435 8 [1,2,9],p 2924765 16 [1,1,10],m 115954839 8 [7,7],m 118908405 4 [6,8],m 128664585 4 [5,9],m 148106805 4 [4,10],m 185277645 4 [3,11],m 261627093 4 [2,12],m 471927225 4 [1,13]]],
[[],
 [],
 [],
 [],
 [],
 [],
 [],
 [],
 [],
 [],
 [],
 [],
 [],
 [],
 [],
 [],
 [],
 [m 487 13440 [1,1,1,2,2],m 359 16128 [1,1,1,1,3],p 797 224 [2,2,2,3],p 105 8 [1,2,3,3],p 2337 160 [1,2,2,4],p 863 48 [1,1,3,4],p 1713 80 [1,1,2,5],p 11 1 [1,1,1,6],m 70735 48 [3,4,4],m 25185 16 [3,3,5],m 28035 8 [2,4,5],m 453537 176 [1,5,5],m 15675 4 [2,3,6],m 21581 4 [1,4,6],m 202059 80 [2,2,7],m 12493 2 [1,3,7],m 16575 2 [1,2,8],m 111605 16 [1,1,9],p 4459455 4 [6,7],p 4729725 4 [5,8],p 5360355 4 [4,9],p 6613425 4 [3,10],p 9258795 4 [2,11],p 16380945 4 [1,12],m 3053876175 2 [15]],
 [m 1 82944 [1,1,1,1,1,1],p 197 33600 [1,1,2,2,2],p 101 3360 [1,1,1,2,3],p 1 72 [1,1,1,1,4],p 1219 4928 [2,2,3,3],m 6095 7392 [1,3,3,3],p 951 1760 [2,2,2,4],m 509 132 [1,2,3,4],m 18907 6336 [1,1,4,4],m 2853 1760 [1,2,2,5],m 2383 352 [1,1,3,5],m 235 32 [1,1,2,6],m 611 96 [1,1,1,7],m 5145 572 [4,4,4],p 19845 572 [3,4,5],m 35721 572 [2,5,5],p 4425 104 [3,3,6],m 2541 13 [2,4,6],p 27153 26 [1,5,6],m 885 8 [2,3,7],p 8841 8 [1,4,7],m 1035 4 [2,2,8],p 11325 8 [1,3,8],p 5865 4 [1,2,9],p 24225 8 [1,1,10],m 9009 8 [7,7],p 10395 4 [6,8],m 16065 4 [5,9],p 33915 4 [4,10],m 101745 4 [3,11],p 468027 4 [2,12],m 3900225 4 [1,13]]]⟩
end Verif.Formulas
