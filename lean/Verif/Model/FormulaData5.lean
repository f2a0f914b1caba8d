import Verif.Model.Formulas

/-! Generated by tools/gen_formulas.py from matslise/matslise/matslise_formulas.cpp (rows tDelta(5, *), tH[5]). -/
namespace Verif.Formulas
open Term
set_option maxRecDepth 100000

/-- `tDelta(5, 0)` — matslise_formulas.cpp:251 -/
def d5_0 : Entry4 :=
⟨[],
[],
[],
[]⟩
/-- `tDelta(5, 1)` — matslise_formulas.cpp:252 -/
def d5_1 : Entry4 :=
⟨[],
[],
[],
[]⟩
/-- `tDelta(5, 2)` — matslise_formulas.cpp:253 -/
def d5_2 : Entry4 :=
⟨[],
[],
[],
[]⟩
/-- `tDelta(5, 3)` — matslise_formulas.cpp:254 -/
def d5_3 : Entry4 :=
⟨[],
[],
[],
[]⟩
/-- `tDelta(5, 4)` — matslise_formulas.cpp:255 -/
def d5_4 : Entry4 :=
⟨[],
[],
[],
[]⟩
/-- `tDelta(5, 5)` — matslise_formulas.cpp:256 -/
def d5_5 : Entry4 :=
⟨[],
[],
[],
[]⟩
/-- `tDelta(5, 6)` — matslise_formulas.cpp:257 -/
def d5_6 : Entry4 :=
⟨[],
[],
[],
[]⟩
/-- `tDelta(5, 7)` — matslise_formulas.cpp:258 -/
def d5_7 : Entry4 :=
⟨[],
[],
[],
[]⟩
/-- `tDelta(5, 8)` — matslise_formulas.cpp:259 -/
def d5_8 : Entry4 :=
⟨[],
[],
[],
[]⟩
/-- `tDelta(5, 9)` — matslise_formulas.cpp:260 -/
def d5_9 : Entry4 :=
⟨[[p 1 48 [1,1,1],m 15 4 [2,3],m 21 4 [1,4],p 1287 2 [7]],
 [m 7 16 [1,1,2],p 75 4 [3,3],p 42 1 [2,4],p 63 1 [1,5],m 19305 2 [8]],
 [p 25 16 [1,2,2],p 31 16 [1,1,3],m 219 1 [3,4],m 525 2 [2,5],m 819 2 [1,6],p 77220 1 [9]],
 [p 1 96 [1,1,1,1],m 21 16 [2,2,2],m 77 8 [1,2,3],m 105 16 [1,1,4],p 1785 4 [4,4],p 1911 2 [3,5],p 1197 1 [2,6],p 7623 4 [1,7],m 437580 1 [10]],
 [m 1 16 [1,1,1,2],p 155 16 [2,2,3],p 93 8 [1,3,3],p 207 8 [1,2,4],p 295 16 [1,1,5],m 12243 4 [4,5],m 13713 4 [3,6],m 17703 4 [2,7],m 28413 4 [1,8],p 1969110 1 [11]],
 [p 1 8 [1,1,2,2],p 3 32 [1,1,1,3],m 161 8 [2,3,3],m 357 16 [2,2,4],m 105 2 [1,3,4],m 497 8 [1,2,5],m 721 16 [1,1,6],p 8799 2 [5,5],p 18417 2 [4,6],p 10647 1 [3,7],p 56133 4 [2,8],p 45045 2 [1,9],m 7482618 1 [12]],
 [m 5 48 [1,2,2,2],m 11 32 [1,1,2,3],m 13 96 [1,1,1,4],p 197 16 [3,3,3],p 163 2 [2,3,4],p 415 8 [1,4,4],p 767 16 [2,2,5],p 885 8 [1,3,5],p 1087 8 [1,2,6],p 791 8 [1,1,7],m 23100 1 [5,6],m 24969 1 [4,7],m 29547 1 [3,8],m 39501 1 [2,9],m 63063 1 [1,10],p 24942060 1 [13]],
 [p 1 32 [2,2,2,2],p 13 32 [1,2,2,3],p 7 32 [1,1,3,3],p 15 32 [1,1,2,4],p 3 16 [1,1,1,5],m 1085 16 [3,3,4],m 595 8 [2,4,4],m 1267 8 [2,3,5],m 1575 8 [1,4,5],m 1545 16 [2,2,6],m 1751 8 [1,3,6],m 275 1 [1,2,7],m 1593 8 [1,1,8],p 54369 2 [6,6],p 112329 2 [5,7],p 62181 1 [4,8],p 299475 4 [3,9],p 202059 2 [2,10],p 639639 4 [1,11]]],
[[p 9 40 [2,2],p 1 2 [1,3],m 99 2 [6]],
 [p 1 48 [1,1,1],m 15 4 [2,3],m 21 4 [1,4],p 1287 2 [7]],
 [m 5 24 [1,1,2],p 69 8 [3,3],p 19 1 [2,4],p 119 4 [1,5],m 9009 2 [8]],
 [p 7 16 [1,2,2],p 7 12 [1,1,3],m 123 2 [3,4],m 147 2 [2,5],m 483 4 [1,6],p 45045 2 [9]],
 [p 1 384 [1,1,1,1],m 1 4 [2,2,2],m 15 8 [1,2,3],m 11 8 [1,1,4],p 699 8 [4,4],p 186 1 [3,5],p 945 4 [2,6],p 1575 4 [1,7],m 90090 1 [10]],
 [m 1 96 [1,1,1,2],p 11 8 [2,2,3],p 13 8 [1,3,3],p 91 24 [1,2,4],p 17 6 [1,1,5],m 1785 4 [4,5],m 1995 4 [3,6],m 13209 20 [2,7],m 4389 4 [1,8],p 306306 1 [11]],
 [p 1 64 [1,1,2,2],p 1 96 [1,1,1,3],m 35 16 [2,3,3],m 5 2 [2,2,4],m 17 3 [1,3,4],m 57 8 [1,2,5],m 253 48 [1,1,6],p 4011 8 [5,5],p 2093 2 [4,6],p 4865 4 [3,7],p 6615 4 [2,8],p 10857 4 [1,9],m 918918 1 [12]],
 [m 1 96 [1,2,2,2],m 1 32 [1,1,2,3],m 1 96 [1,1,1,4],p 17 16 [3,3,3],p 57 8 [2,3,4],p 35 8 [1,4,4],p 35 8 [2,2,5],p 77 8 [1,3,5],p 25 2 [1,2,6],p 145 16 [1,1,7],m 2121 1 [5,6],m 2289 1 [4,7],m 10971 4 [3,8],m 15147 4 [2,9],m 24453 4 [1,10],p 2494206 1 [13]]],
[[p 37 80 [1,1,2],m 1065 56 [3,3],m 165 4 [2,4],m 261 4 [1,5],p 19305 2 [8]],
 [m 279 80 [1,2,2],m 69 16 [1,1,3],p 945 2 [3,4],p 567 1 [2,5],p 891 1 [1,6],m 328185 2 [9]],
 [m 7 192 [1,1,1,1],p 39 8 [2,2,2],p 691 20 [1,2,3],p 185 8 [1,1,4],m 12405 8 [4,4],m 13251 4 [3,5],m 16731 4 [2,6],m 26235 4 [1,7],p 2953665 2 [10]],
 [p 31 96 [1,1,1,2],m 513 10 [2,2,3],m 953 16 [1,3,3],m 1061 8 [1,2,4],m 735 8 [1,1,5],p 15120 1 [4,5],p 16956 1 [3,6],p 21978 1 [2,7],p 137709 4 [1,8],m 18706545 2 [11]],
 [m 43 48 [1,1,2,2],m 2 3 [1,1,1,3],p 11427 80 [2,3,3],p 12517 80 [2,2,4],p 1443 4 [1,3,4],p 1697 4 [1,2,5],p 4781 16 [1,1,6],m 57765 2 [5,5],m 60447 1 [4,6],m 70110 1 [3,7],m 92169 1 [2,8],m 144144 1 [1,9],p 93532725 2 [12]],
 [m 1 3840 [1,1,1,1,1],p 31 32 [1,2,2,2],p 313 96 [1,1,2,3],p 61 48 [1,1,1,4],m 1809 16 [3,3,3],m 2943 4 [2,3,4],m 7319 16 [1,4,4],m 34047 80 [2,2,5],m 7811 8 [1,3,5],m 11823 10 [1,2,6],m 67137 80 [1,1,7],p 192726 1 [5,6],p 208521 1 [4,7],p 247401 1 [3,8],p 1311453 4 [2,9],p 2045043 4 [1,10],m 392837445 2 [13]],
 [p 1 768 [1,1,1,1,2],m 23 64 [2,2,2,2],m 77 16 [1,2,2,3],m 517 192 [1,1,3,3],m 181 32 [1,1,2,4],m 217 96 [1,1,1,5],p 6161 8 [3,3,4],p 13289 16 [2,4,4],p 14079 8 [2,3,5],p 8655 4 [1,4,5],p 21051 20 [2,2,6],p 9605 4 [1,3,6],p 118279 40 [1,2,7],p 33663 16 [1,1,8],m 558747 2 [6,6],m 577323 1 [5,7],m 640332 1 [4,8],m 771309 1 [3,9],m 1027026 1 [2,10],m 1594593 1 [1,11]],
 [m 1 384 [1,1,1,2,2],m 1 768 [1,1,1,1,3],p 71 32 [2,2,2,3],p 59 8 [1,2,3,3],p 187 24 [1,2,2,4],p 277 32 [1,1,3,4],p 449 48 [1,1,2,5],p 91 24 [1,1,1,6],m 25269 16 [3,4,4],m 13311 8 [3,3,5],m 7155 2 [2,4,5],m 36701 16 [1,5,5],m 157437 40 [2,3,6],m 38339 8 [1,4,6],m 19227 8 [2,2,7],m 217857 40 [1,3,7],m 271077 40 [1,2,8],m 77055 16 [1,1,9],p 1494234 1 [6,7],p 1582686 1 [5,8],p 1787940 1 [4,9],p 60917571 28 [3,10],p 11620323 4 [2,11],p 4485195 1 [1,12]]],
[[m 1 48 [1,1,1],p 15 4 [2,3],p 21 4 [1,4],m 1287 2 [7]],
 [p 7 16 [1,1,2],m 75 4 [3,3],m 42 1 [2,4],m 63 1 [1,5],p 19305 2 [8]],
 [m 25 16 [1,2,2],m 31 16 [1,1,3],p 219 1 [3,4],p 525 2 [2,5],p 819 2 [1,6],m 77220 1 [9]],
 [m 1 96 [1,1,1,1],p 21 16 [2,2,2],p 77 8 [1,2,3],p 105 16 [1,1,4],m 1785 4 [4,4],m 1911 2 [3,5],m 1197 1 [2,6],m 7623 4 [1,7],p 437580 1 [10]],
 [p 1 16 [1,1,1,2],m 155 16 [2,2,3],m 93 8 [1,3,3],m 207 8 [1,2,4],m 295 16 [1,1,5],p 12243 4 [4,5],p 13713 4 [3,6],p 17703 4 [2,7],p 28413 4 [1,8],m 1969110 1 [11]],
 [m 1 8 [1,1,2,2],m 3 32 [1,1,1,3],p 161 8 [2,3,3],p 357 16 [2,2,4],p 105 2 [1,3,4],p 497 8 [1,2,5],p 721 16 [1,1,6],m 8799 2 [5,5],m 18417 2 [4,6],m 10647 1 [3,7],m 56133 4 [2,8],m 45045 2 [1,9],p 7482618 1 [12]],
 [p 5 48 [1,2,2,2],p 11 32 [1,1,2,3],p 13 96 [1,1,1,4],m 197 16 [3,3,3],m 163 2 [2,3,4],m 415 8 [1,4,4],m 767 16 [2,2,5],m 885 8 [1,3,5],m 1087 8 [1,2,6],m 791 8 [1,1,7],p 23100 1 [5,6],p 24969 1 [4,7],p 29547 1 [3,8],p 39501 1 [2,9],p 63063 1 [1,10],m 24942060 1 [13]],
 [m 1 32 [2,2,2,2],m 13 32 [1,2,2,3],m 7 32 [1,1,3,3],m 15 32 [1,1,2,4],m 3 16 [1,1,1,5],p 1085 16 [3,3,4],p 595 8 [2,4,4],p 1267 8 [2,3,5],p 1575 8 [1,4,5],p 1545 16 [2,2,6],p 1751 8 [1,3,6],p 275 1 [1,2,7],p 1593 8 [1,1,8],m 54369 2 [6,6],m 112329 2 [5,7],m 62181 1 [4,8],m 299475 4 [3,9],m 202059 2 [2,10],m 639639 4 [1,11]]]⟩
/-- `tDelta(5, 10)` — matslise_formulas.cpp:261 -/
def d5_10 : Entry4 :=
⟨[[p 37 80 [1,1,2],m 1065 56 [3,3],m 165 4 [2,4],m 261 4 [1,5],p 19305 2 [8]],
 [m 279 80 [1,2,2],m 69 16 [1,1,3],p 945 2 [3,4],p 567 1 [2,5],p 891 1 [1,6],m 328185 2 [9]],
 [m 7 192 [1,1,1,1],p 39 8 [2,2,2],p 691 20 [1,2,3],p 185 8 [1,1,4],m 12405 8 [4,4],m 13251 4 [3,5],m 16731 4 [2,6],m 26235 4 [1,7],p 2953665 2 [10]],
 [p 31 96 [1,1,1,2],m 513 10 [2,2,3],m 953 16 [1,3,3],m 1061 8 [1,2,4],m 735 8 [1,1,5],p 15120 1 [4,5],p 16956 1 [3,6],p 21978 1 [2,7],p 137709 4 [1,8],m 18706545 2 [11]],
 [m 43 48 [1,1,2,2],m 2 3 [1,1,1,3],p 11427 80 [2,3,3],p 12517 80 [2,2,4],p 1443 4 [1,3,4],p 1697 4 [1,2,5],p 4781 16 [1,1,6],m 57765 2 [5,5],m 60447 1 [4,6],m 70110 1 [3,7],m 92169 1 [2,8],m 144144 1 [1,9],p 93532725 2 [12]],
 [m 1 3840 [1,1,1,1,1],p 31 32 [1,2,2,2],p 313 96 [1,1,2,3],p 61 48 [1,1,1,4],m 1809 16 [3,3,3],m 2943 4 [2,3,4],m 7319 16 [1,4,4],m 34047 80 [2,2,5],m 7811 8 [1,3,5],m 11823 10 [1,2,6],m 67137 80 [1,1,7],p 192726 1 [5,6],p 208521 1 [4,7],p 247401 1 [3,8],p 1311453 4 [2,9],p 2045043 4 [1,10],m 392837445 2 [13]],
 [p 1 768 [1,1,1,1,2],m 23 64 [2,2,2,2],m 77 16 [1,2,2,3],m 517 192 [1,1,3,3],m 181 32 [1,1,2,4],m 217 96 [1,1,1,5],p 6161 8 [3,3,4],p 13289 16 [2,4,4],p 14079 8 [2,3,5],p 8655 4 [1,4,5],p 21051 20 [2,2,6],p 9605 4 [1,3,6],p 118279 40 [1,2,7],p 33663 16 [1,1,8],m 558747 2 [6,6],m 577323 1 [5,7],m 640332 1 [4,8],m 771309 1 [3,9],m 1027026 1 [2,10],m 1594593 1 [1,11]]],
[[m 1 48 [1,1,1],p 15 4 [2,3],p 21 4 [1,4],m 1287 2 [7]],
 [p 7 16 [1,1,2],m 75 4 [3,3],m 42 1 [2,4],m 63 1 [1,5],p 19305 2 [8]],
 [m 25 16 [1,2,2],m 31 16 [1,1,3],p 219 1 [3,4],p 525 2 [2,5],p 819 2 [1,6],m 77220 1 [9]],
 [m 1 96 [1,1,1,1],p 21 16 [2,2,2],p 77 8 [1,2,3],p 105 16 [1,1,4],m 1785 4 [4,4],m 1911 2 [3,5],m 1197 1 [2,6],m 7623 4 [1,7],p 437580 1 [10]],
 [p 1 16 [1,1,1,2],m 155 16 [2,2,3],m 93 8 [1,3,3],m 207 8 [1,2,4],m 295 16 [1,1,5],p 12243 4 [4,5],p 13713 4 [3,6],p 17703 4 [2,7],p 28413 4 [1,8],m 1969110 1 [11]],
 [m 1 8 [1,1,2,2],m 3 32 [1,1,1,3],p 161 8 [2,3,3],p 357 16 [2,2,4],p 105 2 [1,3,4],p 497 8 [1,2,5],p 721 16 [1,1,6],m 8799 2 [5,5],m 18417 2 [4,6],m 10647 1 [3,7],m 56133 4 [2,8],m 45045 2 [1,9],p 7482618 1 [12]],
 [p 5 48 [1,2,2,2],p 11 32 [1,1,2,3],p 13 96 [1,1,1,4],m 197 16 [3,3,3],m 163 2 [2,3,4],m 415 8 [1,4,4],m 767 16 [2,2,5],m 885 8 [1,3,5],m 1087 8 [1,2,6],m 791 8 [1,1,7],p 23100 1 [5,6],p 24969 1 [4,7],p 29547 1 [3,8],p 39501 1 [2,9],p 63063 1 [1,10],m 24942060 1 [13]]],
[[p 279 80 [1,2,2],p 69 16 [1,1,3],m 945 2 [3,4],m 567 1 [2,5],m 891 1 [1,6],p 328185 2 [9]],
 [p 7 96 [1,1,1,1],m 837 80 [2,2,2],m 591 8 [1,2,3],m 777 16 [1,1,4],p 6615 2 [4,4],p 14175 2 [3,5],p 8910 1 [2,6],p 55341 4 [1,7],m 6235515 2 [10]],
 [m 25 24 [1,1,1,2],p 14199 80 [2,2,3],p 3273 16 [1,3,3],p 3609 8 [1,2,4],p 4893 16 [1,1,5],m 103005 2 [4,5],m 115587 2 [3,6],m 297693 4 [2,7],m 459459 4 [1,8],p 31177575 1 [11]],
 [p 67 16 [1,1,2,2],p 149 48 [1,1,1,3],m 11277 16 [2,3,3],m 12279 16 [2,2,4],m 3513 2 [1,3,4],m 2037 1 [1,2,5],m 22491 16 [1,1,6],p 138915 1 [5,5],p 581985 2 [4,6],p 1347291 4 [3,7],p 1756755 4 [2,8],p 675675 1 [1,9],m 218243025 1 [12]],
 [p 1 768 [1,1,1,1,1],m 49 8 [1,2,2,2],m 165 8 [1,1,2,3],m 193 24 [1,1,1,4],p 744 1 [3,3,3],p 4818 1 [2,3,4],p 47499 16 [1,4,4],p 11019 4 [2,2,5],p 50343 8 [1,3,5],p 60039 8 [1,2,6],p 41895 8 [1,1,7],m 1223910 1 [5,6],m 5297499 4 [4,7],m 6259869 4 [3,8],m 2054052 1 [2,9],m 3153150 1 [1,10],p 2400673275 2 [13]],
 [m 7 768 [1,1,1,1,2],p 93 32 [2,2,2,2],p 629 16 [1,2,2,3],p 709 32 [1,1,3,3],p 743 16 [1,1,2,4],p 56 3 [1,1,1,5],m 6447 1 [3,3,4],m 110727 16 [2,4,4],m 116721 8 [2,3,5],m 142905 8 [1,4,5],m 343917 40 [2,2,6],m 156975 8 [1,3,6],m 237951 10 [1,2,7],m 133749 8 [1,1,8],p 2241351 1 [6,6],p 18532737 4 [5,7],p 20530125 4 [4,8],p 12297285 2 [3,9],p 8099091 1 [2,10],p 12405393 1 [1,11]],
 [p 3 128 [1,1,1,2,2],p 5 384 [1,1,1,1,3],m 179 8 [2,2,2,3],m 605 8 [1,2,3,3],m 637 8 [1,2,2,4],m 359 4 [1,1,3,4],m 387 4 [1,1,2,5],m 119 3 [1,1,1,6],p 32643 2 [3,4,4],p 68517 4 [3,3,5],p 293325 8 [2,4,5],p 375081 16 [1,5,5],p 319935 8 [2,3,6],p 389907 8 [1,4,6],p 961443 40 [2,2,7],p 438081 8 [1,3,7],p 134253 2 [1,2,8],p 757449 16 [1,1,9],m 58759281 4 [6,7],m 62232975 4 [5,8],m 35062335 2 [4,9],m 42387345 2 [3,10],m 27972945 1 [2,11],m 42729687 1 [1,12]]],
[[m 33 80 [1,1,2],p 1035 56 [3,3],p 171 4 [2,4],p 243 4 [1,5],m 19305 2 [8]],
 [p 261 80 [1,2,2],p 61 16 [1,1,3],m 945 2 [3,4],m 567 1 [2,5],m 1683 2 [1,6],p 328185 2 [9]],
 [p 5 192 [1,1,1,1],m 9 2 [2,2,2],m 161 5 [1,2,3],m 165 8 [1,1,4],p 12375 8 [4,4],p 13293 4 [3,5],p 16407 4 [2,6],p 25047 4 [1,7],m 2953665 2 [10]],
 [m 23 96 [1,1,1,2],p 1893 40 [2,2,3],p 907 16 [1,3,3],p 979 8 [1,2,4],p 665 8 [1,1,5],m 15120 1 [4,5],m 33813 2 [3,6],m 42669 2 [2,7],m 132561 4 [1,8],p 18706545 2 [11]],
 [p 2 3 [1,1,2,2],p 25 48 [1,1,1,3],m 10593 80 [2,3,3],m 11503 80 [2,2,4],m 343 1 [1,3,4],m 779 2 [1,2,5],m 4389 16 [1,1,6],p 57735 2 [5,5],p 120879 2 [4,6],p 138681 2 [3,7],p 178101 2 [2,8],p 279279 2 [1,9],m 93532725 2 [12]],
 [m 1 3840 [1,1,1,1,1],m 23 32 [1,2,2,2],m 239 96 [1,1,2,3],m 25 24 [1,1,1,4],p 1671 16 [3,3,3],p 683 1 [2,3,4],p 7041 16 [1,4,4],p 31173 80 [2,2,5],p 7369 8 [1,3,5],p 10857 10 [1,2,6],p 62433 80 [1,1,7],m 385353 2 [5,6],m 415755 2 [4,7],m 485793 2 [3,8],m 1265121 4 [2,9],m 1990989 4 [1,10],p 392837445 2 [13]],
 [p 1 768 [1,1,1,1,2],p 17 64 [2,2,2,2],p 29 8 [1,2,2,3],p 395 192 [1,1,3,3],p 143 32 [1,1,2,4],p 185 96 [1,1,1,5],m 2847 4 [3,3,4],m 12431 16 [2,4,4],m 13041 8 [2,3,5],m 2080 1 [1,4,5],m 38493 40 [2,2,6],m 8995 4 [1,3,6],m 109011 40 [1,2,7],m 31647 16 [1,1,8],p 279279 1 [6,6],p 1153611 2 [5,7],p 1270899 2 [4,8],p 1505889 2 [3,9],p 990990 1 [2,10],p 1558557 1 [1,11]]]⟩
/-- `tDelta(5, 11)` — matslise_formulas.cpp:262 -/
def d5_11 : Entry4 :=
⟨[[p 31 16 [1,2,2],p 115 48 [1,1,3],m 525 2 [3,4],m 315 1 [2,5],m 495 1 [1,6],p 182325 2 [9]],
 [p 1 24 [1,1,1,1],m 93 16 [2,2,2],m 165 4 [1,2,3],m 1309 48 [1,1,4],p 3675 2 [4,4],p 7875 2 [3,5],p 4950 1 [2,6],p 7722 1 [1,7],m 3464175 2 [10]],
 [m 29 48 [1,1,1,2],p 1581 16 [2,2,3],p 1835 16 [1,3,3],p 1013 4 [1,2,4],p 8323 48 [1,1,5],m 57225 2 [4,5],m 64215 2 [3,6],m 41382 1 [2,7],m 64350 1 [1,8],p 17320875 1 [11]],
 [p 39 16 [1,1,2,2],p 11 6 [1,1,1,3],m 6285 16 [2,3,3],m 6859 16 [2,2,4],m 23719 24 [1,3,4],m 4599 4 [1,2,5],m 12859 16 [1,1,6],p 77175 1 [5,5],p 323325 2 [4,6],p 374319 2 [3,7],p 244530 1 [2,8],p 379665 1 [1,9],m 121246125 1 [12]],
 [p 1 768 [1,1,1,1,1],m 57 16 [1,2,2,2],m 97 8 [1,1,2,3],m 29 6 [1,1,1,4],p 3315 8 [3,3,3],p 21531 8 [2,3,4],p 80369 48 [1,4,4],p 1545 1 [2,2,5],p 28421 8 [1,3,5],p 34069 8 [1,2,6],p 12061 4 [1,1,7],m 679950 1 [5,6],m 1471599 2 [4,7],m 1739925 2 [3,8],m 1145430 1 [2,9],m 1776060 1 [1,10],p 1333707375 2 [13]],
 [m 7 768 [1,1,1,1,2],p 27 16 [2,2,2,2],p 23 1 [1,2,2,3],p 209 16 [1,1,3,3],p 221 8 [1,1,2,4],p 547 48 [1,1,1,5],m 28759 8 [3,3,4],m 61949 16 [2,4,4],m 16347 2 [2,3,5],m 242347 24 [1,4,5],m 38745 8 [2,2,6],m 44457 4 [1,3,6],m 54285 4 [1,2,7],m 38731 4 [1,1,8],p 1245195 1 [6,6],p 2574027 1 [5,7],p 5703885 2 [4,8],p 6840405 2 [3,9],p 4523805 1 [2,10],p 7001280 1 [1,11]]],
[[m 11 48 [1,1,2],p 575 56 [3,3],p 95 4 [2,4],p 135 4 [1,5],m 10725 2 [8]],
 [p 73 40 [1,2,2],p 103 48 [1,1,3],m 525 2 [3,4],m 315 1 [2,5],m 1881 4 [1,6],p 182325 2 [9]],
 [p 1 64 [1,1,1,1],m 201 80 [2,2,2],m 145 8 [1,2,3],m 47 4 [1,1,4],p 6875 8 [4,4],p 7385 4 [3,5],p 4563 2 [2,6],p 7029 2 [1,7],m 1640925 2 [10]],
 [m 7 48 [1,1,1,2],p 2121 80 [2,2,3],p 32 1 [1,3,3],p 208 3 [1,2,4],p 287 6 [1,1,5],m 8400 1 [4,5],m 37581 4 [3,6],m 47553 4 [2,7],m 37323 2 [1,8],p 10392525 2 [11]],
 [p 13 32 [1,1,2,2],p 31 96 [1,1,1,3],m 297 4 [2,3,3],m 1619 20 [2,2,4],m 4663 24 [1,3,4],m 1777 8 [1,2,5],m 7637 48 [1,1,6],p 32075 2 [5,5],p 134321 4 [4,6],p 154233 4 [3,7],p 198891 4 [2,8],p 315315 4 [1,9],m 51962625 2 [12]],
 [m 7 16 [1,2,2,2],m 49 32 [1,1,2,3],m 21 32 [1,1,1,4],p 117 2 [3,3,3],p 3073 8 [2,3,4],p 1997 8 [1,4,4],p 8823 40 [2,2,5],p 2095 4 [1,3,5],p 623 1 [1,2,6],p 7287 16 [1,1,7],m 428181 4 [5,6],m 462093 4 [4,7],m 540771 4 [3,8],m 353925 2 [2,9],m 1126125 4 [1,10],p 218243025 2 [13]]],
[[m 41 1152 [1,1,1,1],p 631 112 [2,2,2],p 2255 56 [1,2,3],p 1243 48 [1,1,4],m 43925 24 [4,4],m 15825 4 [3,5],m 19635 4 [2,6],m 7579 1 [1,7],p 3464175 2 [10]],
 [p 529 480 [1,1,1,2],m 3285 16 [2,2,3],m 1915 8 [1,3,3],m 2079 4 [1,2,4],m 5565 16 [1,1,5],p 121275 2 [4,5],p 136125 2 [3,6],p 346203 4 [2,7],p 132990 1 [1,8],m 72747675 2 [11]],
 [m 1149 160 [1,1,2,2],m 65 12 [1,1,1,3],p 146295 112 [2,3,3],p 9903 7 [2,2,4],p 22884 7 [1,3,4],p 29819 8 [1,2,5],p 5115 2 [1,1,6],m 2072175 8 [5,5],m 2171925 4 [4,6],m 2502621 4 [3,7],m 3228225 4 [2,8],m 1237665 1 [1,9],p 800224425 2 [12]],
 [m 1 576 [1,1,1,1,1],p 1203 80 [1,2,2,2],p 8219 160 [1,1,2,3],p 2965 144 [1,1,1,4],m 31205 16 [3,3,3],m 101033 8 [2,3,4],m 188335 24 [1,4,4],m 57267 8 [2,2,5],m 131915 8 [1,3,5],m 77583 4 [1,2,6],m 27071 2 [1,1,7],p 3205125 1 [5,6],p 6929505 2 [4,7],p 16265535 4 [3,8],p 21160425 4 [2,9],p 8107385 1 [1,10],m 6135053925 2 [13]],
 [p 5 256 [1,1,1,1,2],m 1215 128 [2,2,2,2],m 20833 160 [1,2,2,3],m 4763 64 [1,1,3,3],m 25223 160 [1,1,2,4],m 6295 96 [1,1,1,5],p 2502887 112 [3,3,4],p 2692875 112 [2,4,4],p 2824263 56 [2,3,5],p 124827 2 [1,4,5],p 235581 8 [2,2,6],p 542105 8 [1,3,6],p 81378 1 [1,2,7],p 229845 4 [1,1,8],m 61642875 8 [6,6],m 31849695 2 [5,7],m 35177835 2 [4,8],m 41825355 2 [3,9],m 27348750 1 [2,10],m 41898285 1 [1,11]],
 [m 13 192 [1,1,1,2,2],m 35 768 [1,1,1,1,3],p 7503 80 [2,2,2,3],p 51509 160 [1,2,3,3],p 54699 160 [1,2,2,4],p 12519 32 [1,1,3,4],p 34309 80 [1,1,2,5],p 17549 96 [1,1,1,6],m 1146735 16 [3,4,4],m 1200795 16 [3,3,5],m 322301 2 [2,4,5],m 832783 8 [1,5,5],m 174402 1 [2,3,6],m 860799 4 [1,4,6],m 831807 8 [2,2,7],m 1912473 8 [1,3,7],m 582549 2 [1,2,8],m 829257 4 [1,1,9],p 253982421 4 [6,7],p 134351085 2 [5,8],p 301430415 4 [4,9],p 361704915 4 [3,10],p 118657110 1 [2,11],p 181661337 1 [1,12]]],
[[m 137 80 [1,2,2],m 91 48 [1,1,3],p 525 2 [3,4],p 315 1 [2,5],p 891 2 [1,6],m 182325 2 [9]],
 [m 1 48 [1,1,1,1],p 411 80 [2,2,2],p 36 1 [1,2,3],p 1057 48 [1,1,4],m 3675 2 [4,4],m 7875 2 [3,5],m 9603 2 [2,6],m 14157 2 [1,7],p 3464175 2 [10]],
 [p 1 3 [1,1,1,2],m 6897 80 [2,2,3],m 1649 16 [1,3,3],m 437 2 [1,2,4],m 6895 48 [1,1,5],p 57225 2 [4,5],p 63621 2 [3,6],p 78903 2 [2,7],p 119691 2 [1,8],m 17320875 1 [11]],
 [m 11 8 [1,1,2,2],m 9 8 [1,1,1,3],p 5511 16 [2,3,3],p 5911 16 [2,2,4],p 21367 24 [1,3,4],p 987 1 [1,2,5],p 10927 16 [1,1,6],m 77175 1 [5,5],m 322335 2 [4,6],m 366597 2 [3,7],m 462033 2 [2,8],m 714285 2 [1,9],p 121246125 1 [12]],
 [p 1 768 [1,1,1,1,1],p 2 1 [1,2,2,2],p 29 4 [1,1,2,3],p 13 4 [1,1,1,4],m 2901 8 [3,3,3],m 18843 8 [2,3,4],m 73655 48 [1,4,4],m 10569 8 [2,2,5],m 25445 8 [1,3,5],m 29281 8 [1,2,6],m 5243 2 [1,1,7],p 1358415 2 [5,6],p 1458729 2 [4,7],p 1685871 2 [3,8],p 2155725 2 [2,9],p 1685970 1 [1,10],m 1333707375 2 [13]],
 [m 7 768 [1,1,1,1,2],m 15 16 [2,2,2,2],m 107 8 [1,2,2,3],m 127 16 [1,1,3,3],m 141 8 [1,1,2,4],m 33 4 [1,1,1,5],p 25117 8 [3,3,4],p 54715 16 [2,4,4],p 28473 4 [2,3,5],p 222607 24 [1,4,5],p 82593 20 [2,2,6],p 19761 2 [1,3,6],p 234591 20 [1,2,7],p 17171 2 [1,1,8],m 2488311 2 [6,6],m 5128749 2 [5,7],m 5613795 2 [4,8],m 6570135 2 [3,9],m 4253535 1 [2,10],m 6694974 1 [1,11]]]⟩
/-- `tDelta(5, 12)` — matslise_formulas.cpp:263 -/
def d5_12 : Entry4 :=
⟨[[m 1 64 [1,1,1,1],p 631 280 [2,2,2],p 229 14 [1,2,3],p 257 24 [1,1,4],m 8785 12 [4,4],m 3165 2 [3,5],m 3927 2 [2,6],m 6149 2 [1,7],p 692835 1 [10]],
 [p 47 96 [1,1,1,2],m 663 8 [2,2,3],m 10935 112 [1,3,3],m 1705 8 [1,2,4],m 291 2 [1,1,5],p 24255 1 [4,5],p 27225 1 [3,6],p 34749 1 [2,7],p 216645 4 [1,8],m 14549535 1 [11]],
 [m 767 240 [1,1,2,2],m 235 96 [1,1,1,3],p 59177 112 [2,3,3],p 32237 56 [2,2,4],p 37523 28 [1,3,4],p 12337 8 [1,2,5],p 1080 1 [1,1,6],m 414435 4 [5,5],m 434385 2 [4,6],m 501039 2 [3,7],m 1300299 4 [2,8],m 2022735 4 [1,9],p 160044885 1 [12]],
 [m 1 384 [1,1,1,1,1],p 1071 160 [1,2,2,2],p 369 16 [1,1,2,3],p 227 24 [1,1,1,4],m 88285 112 [3,3,3],m 41055 8 [2,3,4],m 154745 48 [1,4,4],m 11739 4 [2,2,5],m 27189 4 [1,3,5],m 64713 8 [1,2,6],m 46079 8 [1,1,7],p 1282050 1 [5,6],p 1386330 1 [4,7],p 6522945 4 [3,8],p 8547825 4 [2,9],p 13285415 4 [1,10],m 1227010785 1 [13]],
 [p 5 192 [1,1,1,1,2],m 1351 320 [2,2,2,2],m 9321 160 [1,2,2,3],m 3211 96 [1,1,3,3],m 2291 32 [1,1,2,4],m 733 24 [1,1,1,5],p 1014201 112 [3,3,4],p 1096225 112 [2,4,4],p 1153739 56 [2,3,5],p 205783 8 [1,4,5],p 97263 8 [2,2,6],p 56185 2 [1,3,6],p 273429 8 [1,2,7],p 196845 8 [1,1,8],m 12328575 4 [6,6],m 12741165 2 [5,7],m 28169295 4 [4,8],m 33605715 4 [3,9],m 44304975 4 [2,10],m 68809455 4 [1,11]]],
[[m 7 10 [1,2,2],m 19 24 [1,1,3],p 105 1 [3,4],p 126 1 [2,5],p 363 2 [1,6],m 36465 1 [9]],
 [m 1 96 [1,1,1,1],p 21 10 [2,2,2],p 119 8 [1,2,3],p 28 3 [1,1,4],m 735 1 [4,4],m 1575 1 [3,5],m 3861 2 [2,6],m 11583 4 [1,7],p 692835 1 [10]],
 [p 1 6 [1,1,1,2],m 709 20 [2,2,3],m 341 8 [1,3,3],m 2191 24 [1,2,4],m 1477 24 [1,1,5],p 11445 1 [4,5],p 12744 1 [3,6],p 63723 4 [2,7],p 98241 4 [1,8],m 6928350 1 [11]],
 [m 11 16 [1,1,2,2],m 9 16 [1,1,1,3],p 567 4 [2,3,3],p 1225 8 [2,2,4],p 2961 8 [1,3,4],p 833 2 [1,2,5],p 2359 8 [1,1,6],m 30870 1 [5,5],m 64500 1 [4,6],m 294393 4 [3,7],m 374517 4 [2,8],m 293865 2 [1,9],p 48498450 1 [12]],
 [p 1 1 [1,2,2,2],p 29 8 [1,1,2,3],p 13 8 [1,1,1,4],m 1193 8 [3,3,3],m 7787 8 [2,3,4],m 3829 6 [1,4,4],m 4417 8 [2,2,5],m 1331 1 [1,3,5],m 3115 2 [1,2,6],m 9107 8 [1,1,7],p 543465 2 [5,6],p 1168785 4 [4,7],p 1357191 4 [3,8],p 876447 2 [2,9],p 694980 1 [1,10],m 266741475 1 [13]]],
[[m 23 60 [1,1,1,2],p 633 8 [2,2,3],p 755 8 [1,3,3],p 805 4 [1,2,4],p 1071 8 [1,1,5],m 24255 1 [4,5],m 27225 1 [3,6],m 68211 2 [2,7],m 105105 2 [1,8],p 14549535 1 [11]],
 [p 861 160 [1,1,2,2],p 401 96 [1,1,1,3],m 8595 8 [2,3,3],m 9261 8 [2,2,4],m 10885 4 [1,3,4],m 6111 2 [1,2,5],m 16797 8 [1,1,6],p 218295 1 [5,5],p 457380 1 [4,6],p 1048905 2 [3,7],p 669240 1 [2,8],p 4120545 4 [1,9],m 334639305 1 [12]],
 [m 723 40 [1,2,2,2],m 30257 480 [1,1,2,3],m 2519 96 [1,1,1,4],p 20355 8 [3,3,3],p 65985 4 [2,3,4],p 83195 8 [1,4,4],p 74361 8 [2,2,5],p 43393 2 [1,3,5],p 25251 1 [1,2,6],p 35475 2 [1,1,7],m 4255020 1 [5,6],m 9179775 2 [4,7],m 10701405 2 [3,8],m 27638325 4 [2,9],m 42554655 4 [1,10],p 4015671660 1 [13]],
 [m 1 96 [1,1,1,1,2],p 2583 160 [2,2,2,2],p 9013 40 [1,2,2,3],p 1571 12 [1,1,3,3],p 9009 32 [1,1,2,4],p 11711 96 [1,1,1,5],m 328145 8 [3,3,4],m 354515 8 [2,4,4],m 370377 4 [2,3,5],m 465325 4 [1,4,5],m 430407 8 [2,2,6],m 250341 2 [1,3,6],m 597729 4 [1,2,7],m 213213 2 [1,1,8],p 14293125 1 [6,6],p 59026275 2 [5,7],p 64957035 2 [4,8],p 153391095 4 [3,9],p 199645875 4 [2,10],p 76904685 1 [1,11]],
 [p 1 16 [1,1,1,2,2],p 25 384 [1,1,1,1,3],m 17061 80 [2,2,2,3],m 29751 40 [1,2,3,3],m 191941 240 [1,2,2,4],m 14859 16 [1,1,3,4],m 99943 96 [1,1,2,5],m 44429 96 [1,1,1,6],p 1385345 8 [3,4,4],p 1448901 8 [3,3,5],p 1563639 4 [2,4,5],p 256060 1 [1,5,5],p 420771 1 [2,3,6],p 527137 1 [1,4,6],p 500133 2 [2,2,7],p 580755 1 [1,3,7],p 2824899 4 [1,2,8],p 4075071 8 [1,1,9],m 153894510 1 [6,7],m 162501570 1 [5,8],m 725805795 4 [4,9],m 865398105 4 [3,10],m 283114260 1 [2,11],m 436486050 1 [1,12]]],
[[p 1 192 [1,1,1,1],m 109 56 [2,2,2],m 375 28 [1,2,3],m 191 24 [1,1,4],p 8855 12 [4,4],p 3135 2 [3,5],p 3795 2 [2,6],p 2717 1 [1,7],m 692835 1 [10]],
 [m 19 96 [1,1,1,2],p 555 8 [2,2,3],p 9225 112 [1,3,3],p 1389 8 [1,2,4],p 447 4 [1,1,5],m 24255 1 [4,5],m 26730 1 [3,6],m 65637 2 [2,7],m 195195 4 [1,8],p 14549535 1 [11]],
 [p 41 30 [1,1,2,2],p 113 96 [1,1,1,3],m 49575 112 [2,3,3],m 26465 56 [2,2,4],m 31959 28 [1,3,4],m 10035 8 [1,2,5],m 3429 4 [1,1,6],p 414645 4 [5,5],p 431145 2 [4,6],p 486189 2 [3,7],p 1211925 4 [2,8],p 1851135 4 [1,9],m 160044885 1 [12]],
 [m 1 384 [1,1,1,1,1],m 459 160 [1,2,2,2],m 87 8 [1,1,2,3],m 251 48 [1,1,1,4],p 73975 112 [3,3,3],p 34209 8 [2,3,4],p 134495 48 [1,4,4],p 4767 2 [2,2,5],p 23169 4 [1,3,5],p 52803 8 [1,2,6],p 37697 8 [1,1,7],m 1278585 1 [5,6],m 1364880 1 [4,7],m 6256965 4 [3,8],m 7912905 4 [2,9],m 12313015 4 [1,10],p 1227010785 1 [13]],
 [p 5 192 [1,1,1,1,2],p 569 320 [2,2,2,2],p 4239 160 [1,2,2,3],p 1571 96 [1,1,3,3],p 1193 32 [1,1,2,4],p 113 6 [1,1,1,5],m 846203 112 [3,3,4],m 920223 112 [2,4,4],m 955515 56 [2,3,5],m 180141 8 [1,4,5],m 78675 8 [2,2,6],m 95523 4 [1,3,6],m 224691 8 [1,2,7],m 165363 8 [1,1,8],p 12301905 4 [6,6],p 6321645 1 [5,7],p 27497415 4 [4,8],p 31915455 4 [3,9],p 40907295 4 [2,10],p 64433655 4 [1,11]]]⟩
/-- `tDelta(5, 13)` — matslise_formulas.cpp:264 -/
def d5_13 : Entry4 :=
⟨[[m 7 48 [1,1,1,2],p 411 16 [2,2,3],p 865 28 [1,3,3],p 533 8 [1,2,4],p 729 16 [1,1,5],m 15435 2 [4,5],m 17325 2 [3,6],m 21879 2 [2,7],m 17160 1 [1,8],p 9258795 2 [11]],
 [p 163 80 [1,1,2,2],p 51 32 [1,1,1,3],m 19575 56 [2,3,3],m 6075 16 [2,2,4],m 7175 8 [1,3,4],m 8181 8 [1,2,5],m 11517 16 [1,1,6],p 138915 2 [5,5],p 145530 1 [4,6],p 167310 1 [3,7],p 431145 2 [2,8],p 1349205 4 [1,9],m 212952285 2 [12]],
 [p 1 384 [1,1,1,1,1],m 547 80 [1,2,2,2],m 1147 48 [1,1,2,3],m 161 16 [1,1,1,4],p 92685 112 [3,3,3],p 43173 8 [2,3,4],p 27455 8 [1,4,4],p 49245 16 [2,2,5],p 28817 4 [1,3,5],p 68205 8 [1,2,6],p 48939 8 [1,1,7],m 1353870 1 [5,6],m 1461735 1 [4,7],m 1711710 1 [3,8],m 8933925 4 [2,9],m 13966095 4 [1,10],p 1277713710 1 [13]],
 [m 5 128 [1,1,1,1,2],p 489 80 [2,2,2,2],p 13647 160 [1,2,2,3],p 2377 48 [1,1,3,3],p 10285 96 [1,1,2,4],p 1505 32 [1,1,1,5],m 1498825 112 [3,3,4],m 58075 4 [2,4,4],m 30492 1 [2,3,5],m 308285 8 [1,4,5],m 287433 16 [2,2,6],m 334887 8 [1,3,6],m 406527 8 [1,2,7],m 295581 8 [1,1,8],p 9095625 2 [6,6],p 9393615 1 [5,7],p 10358205 1 [4,8],p 49204155 4 [3,9],p 64725375 4 [2,10],p 50576955 2 [1,11]]],
[[p 1 384 [1,1,1,1],m 13 20 [2,2,2],m 9 2 [1,2,3],m 133 48 [1,1,4],p 5635 24 [4,4],p 1995 4 [3,5],p 1221 2 [2,6],p 3575 4 [1,7],m 440895 2 [10]],
 [m 3 32 [1,1,1,2],p 93 4 [2,2,3],p 3095 112 [1,3,3],p 473 8 [1,2,4],p 627 16 [1,1,5],m 15435 2 [4,5],m 34155 4 [3,6],m 42471 4 [2,7],m 32175 2 [1,8],p 9258795 2 [11]],
 [p 41 64 [1,1,2,2],p 17 32 [1,1,1,3],m 16619 112 [2,3,3],m 2555 16 [2,2,4],m 3081 8 [1,3,4],m 3453 8 [1,2,5],m 4833 16 [1,1,6],p 263865 8 [5,5],p 137385 2 [4,6],p 155925 2 [3,7],p 196911 2 [2,8],p 611325 4 [1,9],m 101846745 2 [12]],
 [m 43 32 [1,2,2,2],m 159 32 [1,1,2,3],m 73 32 [1,1,1,4],p 24795 112 [3,3,3],p 11513 8 [2,3,4],p 45335 48 [1,4,4],p 12999 16 [2,2,5],p 1969 1 [1,3,5],p 18315 8 [1,2,6],p 26653 16 [1,1,7],m 1628235 4 [5,6],m 1743555 4 [4,7],m 2014155 4 [3,8],m 2580435 4 [2,9],m 4071925 4 [1,10],p 780825045 2 [13]]],
[[m 477 320 [1,1,2,2],m 115 96 [1,1,1,3],p 9255 28 [2,3,3],p 5667 16 [2,2,4],p 3395 4 [1,3,4],p 7533 8 [1,2,5],p 10395 16 [1,1,6],m 6118875 88 [5,5],m 581385 4 [4,6],m 332085 2 [3,7],m 419445 2 [2,8],m 324870 1 [1,9],p 212952285 2 [12]],
 [p 1 768 [1,1,1,1,1],p 2395 224 [1,2,2,2],p 4271 112 [1,1,2,3],p 793 48 [1,1,1,4],m 46275 28 [3,3,3],m 85725 8 [2,3,4],m 329105 48 [1,4,4],m 96201 16 [2,2,5],m 56985 4 [1,3,5],m 32901 2 [1,2,6],m 186329 16 [1,1,7],p 2837835 1 [5,6],p 12207195 4 [4,7],p 3539250 1 [3,8],p 9079785 2 [2,9],p 28154295 4 [1,10],m 5323807125 2 [13]],
 [m 11 768 [1,1,1,1,2],m 33967 2240 [2,2,2,2],m 241559 1120 [1,2,2,3],m 8155 64 [1,1,3,3],m 1669 6 [1,1,2,4],m 1505 12 [1,1,1,5],p 4708785 112 [3,3,4],p 2186915 48 [2,4,4],p 759813 8 [2,3,5],p 969025 8 [1,4,5],p 220215 4 [2,2,6],p 129645 1 [1,3,6],p 1233199 8 [1,2,7],p 1778205 16 [1,1,8],m 119632275 8 [6,6],m 123332055 4 [5,7],m 135227235 4 [4,8],m 79401465 2 [3,9],m 205884705 4 [2,10],m 319648875 4 [1,11]],
 [p 101 1920 [1,1,1,2,2],m 13 768 [1,1,1,1,3],p 31973 112 [2,2,2,3],p 226629 224 [1,2,3,3],p 123373 112 [1,2,2,4],p 871681 672 [1,1,3,4],p 23771 16 [1,1,2,5],p 5491 8 [1,1,1,6],m 11931455 48 [3,4,4],m 4156665 16 [3,3,5],m 4506075 8 [2,4,5],m 5986365 16 [1,5,5],m 4835679 8 [2,3,6],m 6148335 8 [1,4,6],m 718047 2 [2,2,7],m 6740239 8 [1,3,7],m 8190039 8 [1,2,8],m 11966955 16 [1,1,9],p 223918695 1 [6,7],p 943557615 4 [5,8],p 1049344725 4 [4,9],p 1244991345 4 [3,10],p 1626335685 4 [2,11],p 2528532825 4 [1,12]]],
[[p 1 24 [1,1,1,2],m 333 16 [2,2,3],m 195 8 [1,3,3],m 413 8 [1,2,4],m 525 16 [1,1,5],p 15435 2 [4,5],p 8415 1 [3,6],p 10296 1 [2,7],p 15015 1 [1,8],m 9258795 2 [11]],
 [m 13 20 [1,1,2,2],m 19 32 [1,1,1,3],p 1125 4 [2,3,3],p 4809 16 [2,2,4],p 5775 8 [1,3,4],p 6363 8 [1,2,5],p 8613 16 [1,1,6],m 138915 2 [5,5],m 287595 2 [4,6],m 160875 1 [3,7],m 199485 1 [2,8],m 1203345 4 [1,9],p 212952285 2 [12]],
 [p 1 384 [1,1,1,1,1],p 89 40 [1,2,2,2],p 425 48 [1,1,2,3],p 73 16 [1,1,1,4],m 10665 16 [3,3,3],m 34493 8 [2,3,4],m 11305 4 [1,4,4],m 38493 16 [2,2,5],m 23415 4 [1,3,5],m 53367 8 [1,2,6],m 37917 8 [1,1,7],p 1346940 1 [5,6],p 1429560 1 [4,7],p 1628055 1 [3,8],p 8187465 4 [2,9],p 12653355 4 [1,10],m 1277713710 1 [13]],
 [m 5 128 [1,1,1,1,2],m 39 20 [2,2,2,2],m 4863 160 [1,2,2,3],m 469 24 [1,1,3,3],m 4385 96 [1,1,2,4],m 791 32 [1,1,1,5],p 171625 16 [3,3,4],p 93205 8 [2,4,4],p 48447 2 [2,3,5],p 257145 8 [1,4,5],p 223533 16 [2,2,6],p 273273 8 [1,3,6],p 320859 8 [1,2,7],p 236379 8 [1,1,8],m 9054045 2 [6,6],m 18562005 2 [5,7],m 10034310 1 [4,8],m 46334145 4 [3,9],m 59036835 4 [2,10],m 46419945 2 [1,11]]]⟩
/-- `tDelta(5, 14)` — matslise_formulas.cpp:265 -/
def d5_14 : Entry4 :=
⟨[[m 61 120 [1,1,2,2],m 13 32 [1,1,1,3],p 10225 112 [2,3,3],p 3943 40 [2,2,4],p 1421 6 [1,3,4],p 2145 8 [1,2,5],p 759 4 [1,1,6],m 407925 22 [5,5],m 38759 1 [4,6],m 88985 2 [3,7],m 227565 4 [2,8],m 358683 4 [1,9],p 28393638 1 [12]],
 [m 1 768 [1,1,1,1,1],p 29 8 [1,2,2,2],p 1235 96 [1,1,2,3],p 133 24 [1,1,1,4],m 51125 112 [3,3,3],m 23795 8 [2,3,4],m 30625 16 [1,4,4],m 33831 20 [2,2,5],m 16041 4 [1,3,5],m 37785 8 [1,2,6],m 27313 8 [1,1,7],p 756756 1 [5,6],p 1630629 2 [4,7],p 3807375 4 [3,8],p 2472327 2 [2,9],p 3892473 2 [1,10],m 709840950 1 [13]],
 [p 25 768 [1,1,1,1,2],m 103 20 [2,2,2,2],m 11631 160 [1,2,2,3],m 57403 1344 [1,1,3,3],m 4469 48 [1,1,2,4],m 1339 32 [1,1,1,5],p 1304287 112 [3,3,4],p 151925 12 [2,4,4],p 53095 2 [2,3,5],p 814865 24 [1,4,5],p 15627 1 [2,2,6],p 36777 1 [1,3,6],p 89089 2 [1,2,7],p 522951 16 [1,1,8],m 7975485 2 [6,6],m 8228143 1 [5,7],m 36208601 4 [4,8],m 42851523 4 [3,9],m 56232345 4 [2,10],m 88519119 4 [1,11]]],
[[p 1 48 [1,1,1,2],m 6 1 [2,2,3],m 785 112 [1,3,3],m 181 12 [1,2,4],m 79 8 [1,1,5],p 2058 1 [4,5],p 4521 2 [3,6],p 56199 20 [2,7],p 16731 4 [1,8],m 1234506 1 [11]],
 [m 5 16 [1,1,2,2],m 25 96 [1,1,1,3],p 9075 112 [2,3,3],p 349 4 [2,2,4],p 5005 24 [1,3,4],p 1875 8 [1,2,5],p 649 4 [1,1,6],m 18522 1 [5,5],m 76923 2 [4,6],m 173745 4 [3,7],m 109395 2 [2,8],m 167739 2 [1,9],p 28393638 1 [12]],
 [p 17 16 [1,2,2,2],p 127 32 [1,1,2,3],p 59 32 [1,1,1,4],m 10755 56 [3,3,3],m 9969 8 [2,3,4],m 13035 16 [1,4,4],m 1407 2 [2,2,5],m 13613 8 [1,3,5],m 15825 8 [1,2,6],m 22869 16 [1,1,7],p 359646 1 [5,6],p 1534731 4 [4,7],p 1766193 4 [3,8],p 563277 1 [2,9],p 882453 1 [1,10],m 340723656 1 [13]]],
[[m 7 11520 [1,1,1,1,1],m 1399 560 [1,2,2,2],m 2039 224 [1,1,2,3],m 1181 288 [1,1,1,4],p 11975 28 [3,3,3],p 11065 4 [2,3,4],p 86065 48 [1,4,4],p 30933 20 [2,2,5],p 29781 8 [1,3,5],p 170907 40 [1,2,6],p 30459 10 [1,1,7],m 756756 1 [5,6],m 810810 1 [4,7],m 937365 1 [3,8],m 4776915 4 [2,9],m 7461623 4 [1,10],p 709840950 1 [13]],
 [p 5 256 [1,1,1,1,2],p 4197 560 [2,2,2,2],p 24303 224 [1,2,2,3],p 2085 32 [1,1,3,3],p 2305 16 [1,1,2,4],p 539 8 [1,1,1,5],m 45625 2 [3,3,4],m 395885 16 [2,4,4],m 412245 8 [2,3,5],m 133203 2 [1,4,5],m 1193247 40 [2,2,6],m 71148 1 [1,3,6],m 3372369 40 [1,2,7],m 61347 1 [1,1,8],p 8324316 1 [6,6],p 17135118 1 [5,7],p 18723705 1 [4,8],p 87625395 4 [3,9],p 56573127 2 [2,10],p 44265858 1 [1,11]],
 [m 293 1920 [1,1,1,2,2],m 5 96 [1,1,1,1,3],m 63207 280 [2,2,2,3],m 12997 16 [1,2,3,3],m 100133 112 [1,2,2,4],m 14939 14 [1,1,3,4],m 39821 32 [1,1,2,5],m 19039 32 [1,1,1,6],p 1695515 8 [3,4,4],p 885633 4 [3,3,5],p 1925581 4 [2,4,5],p 5182191 16 [1,5,5],p 5160213 10 [2,3,6],p 5319285 8 [1,4,6],p 2452923 8 [2,2,7],p 29091117 40 [1,3,7],p 35316567 40 [1,2,8],p 10435425 16 [1,1,9],m 194648454 1 [6,7],m 204570366 1 [5,8],m 907028265 4 [4,9],m 1072244043 4 [3,10],m 349516362 1 [2,11],m 548032485 1 [1,12]]],
[[p 7 60 [1,1,2,2],p 11 96 [1,1,1,3],m 7925 112 [2,3,3],m 3037 40 [2,2,4],m 721 4 [1,3,4],m 1605 8 [1,2,5],m 539 4 [1,1,6],p 407043 22 [5,5],p 38164 1 [4,6],p 42380 1 [3,7],p 210015 4 [2,8],p 312273 4 [1,9],m 28393638 1 [12]],
 [m 1 768 [1,1,1,1,1],m 7 8 [1,2,2,2],m 355 96 [1,1,2,3],m 49 24 [1,1,1,4],p 39625 112 [3,3,3],p 18325 8 [2,3,4],p 71785 48 [1,4,4],p 6426 5 [2,2,5],p 3111 1 [1,3,5],p 28545 8 [1,2,6],p 20163 8 [1,1,7],m 750519 1 [5,6],m 792792 1 [4,7],m 3592875 4 [3,8],m 2253537 2 [2,9],m 1725789 1 [1,10],p 709840950 1 [13]],
 [p 25 768 [1,1,1,1,2],p 49 40 [2,2,2,2],p 3219 160 [1,2,2,3],p 18197 1344 [1,1,3,3],p 1555 48 [1,1,2,4],p 1793 96 [1,1,1,5],m 1007343 112 [3,3,4],m 234335 24 [2,4,4],m 81445 4 [2,3,5],m 216155 8 [1,4,5],m 47211 4 [2,2,6],m 115473 4 [1,3,6],m 34012 1 [1,2,7],m 399971 16 [1,1,8],p 7912233 2 [6,6],p 8094086 1 [5,7],p 34841521 4 [4,8],p 40067313 4 [3,9],p 50901825 4 [2,10],p 79701219 4 [1,11]]]⟩
/-- `tDelta(5, 15)` — matslise_formulas.cpp:266 -/
def d5_15 : Entry4 :=
⟨[[p 1 3840 [1,1,1,1,1],m 47 60 [1,2,2,2],m 271 96 [1,1,2,3],m 119 96 [1,1,1,4],p 725 7 [3,3,3],p 1345 2 [2,3,4],p 62965 144 [1,4,4],p 7623 20 [2,2,5],p 7331 8 [1,3,5],p 42977 40 [1,2,6],p 11726 15 [1,1,7],m 174636 1 [5,6],m 375375 2 [4,7],m 218790 1 [3,8],m 1130415 4 [2,9],m 1792973 4 [1,10],p 163809450 1 [13]],
 [m 11 768 [1,1,1,1,2],p 47 20 [2,2,2,2],p 537 16 [1,2,2,3],p 13415 672 [1,1,3,3],p 1049 24 [1,1,2,4],p 641 32 [1,1,1,5],m 11075 2 [3,3,4],m 288925 48 [2,4,4],m 100905 8 [2,3,5],m 32613 2 [1,4,5],m 296637 40 [2,2,6],m 70587 4 [1,3,6],m 852709 40 [1,2,7],m 63063 4 [1,1,8],p 1920996 1 [6,6],p 7918911 2 [5,7],p 8693685 2 [4,8],p 20529795 4 [3,9],p 6714201 1 [2,10],p 42590457 4 [1,11]]],
[[p 1 16 [1,1,2,2],p 5 96 [1,1,1,3],m 2025 112 [2,3,3],m 391 20 [2,2,4],m 553 12 [1,3,4],m 417 8 [1,2,5],m 143 4 [1,1,6],p 93933 22 [5,5],p 17703 2 [4,6],p 9945 1 [3,7],p 50115 4 [2,8],p 75803 4 [1,9],m 6552378 1 [12]],
 [m 11 24 [1,2,2,2],m 55 32 [1,1,2,3],m 77 96 [1,1,1,4],p 10125 112 [3,3,3],p 4695 8 [2,3,4],p 3430 9 [1,4,4],p 13293 40 [2,2,5],p 6383 8 [1,3,5],p 7447 8 [1,2,6],p 2002 3 [1,1,7],m 347193 2 [5,6],m 369369 2 [4,7],m 847275 4 [3,8],m 269841 1 [2,9],m 1675401 4 [1,10],p 163809450 1 [13]]],
[[m 5 768 [1,1,1,1,2],m 4281 2800 [2,2,2,2],m 25129 1120 [1,2,2,3],m 3067 224 [1,1,3,3],m 14671 480 [1,1,2,4],m 473 32 [1,1,1,5],p 450385 88 [3,3,4],p 975569 176 [2,4,4],p 1016055 88 [2,3,5],p 166005 11 [1,4,5],p 267057 40 [2,2,6],p 64527 4 [1,3,6],p 762099 40 [1,2,7],p 111761 8 [1,1,8],m 49931343 26 [6,6],m 3947265 1 [5,7],m 8599185 2 [4,8],m 10038585 2 [3,9],m 25805439 4 [2,10],m 40691217 4 [1,11]],
 [p 109 960 [1,1,1,2,2],p 41 768 [1,1,1,1,3],p 21927 224 [2,2,2,3],p 9995 28 [1,2,3,3],p 63413 160 [1,2,2,4],p 46009 96 [1,1,3,4],p 45339 80 [1,1,2,5],p 8943 32 [1,1,1,6],m 1589875 16 [3,4,4],m 207585 2 [3,3,5],m 903483 4 [2,4,5],m 1690731 11 [1,5,5],m 1937331 8 [2,3,6],m 315665 1 [1,4,6],m 2879019 20 [2,2,7],m 2761421 8 [1,3,7],m 3347643 8 [1,2,8],m 2495753 8 [1,1,9],p 93351258 1 [6,7],p 195810615 2 [5,8],p 108228120 1 [4,9],p 510493425 4 [3,10],p 331993935 2 [2,11],p 1049472543 4 [1,12]]],
[[p 1 3840 [1,1,1,1,1],p 2 15 [1,2,2,2],p 59 96 [1,1,2,3],p 35 96 [1,1,1,4],m 4325 56 [3,3,3],m 2005 4 [2,3,4],m 46795 144 [1,4,4],m 567 2 [2,2,5],m 5435 8 [1,3,5],m 31493 40 [1,2,6],m 8294 15 [1,1,7],p 172557 1 [5,6],p 363363 2 [4,7],p 409695 2 [3,8],p 1028313 4 [2,9],p 1557829 4 [1,10],m 163809450 1 [13]],
 [m 11 768 [1,1,1,1,2],m 2 5 [2,2,2,2],m 113 16 [1,2,2,3],m 3385 672 [1,1,3,3],m 295 24 [1,1,2,4],m 241 32 [1,1,1,5],p 33025 8 [3,3,4],p 215215 48 [2,4,4],p 75075 8 [2,3,5],p 49623 4 [1,4,5],p 219219 40 [2,2,6],p 53361 4 [1,3,6],p 633061 40 [1,2,7],p 11583 1 [1,1,8],m 1898127 1 [6,6],m 7756749 2 [5,7],m 4159155 1 [4,8],m 19071195 4 [3,9],m 12105717 2 [2,10],m 37652433 4 [1,11]]]⟩
/-- `tDelta(5, 16)` — matslise_formulas.cpp:267 -/
def d5_16 : Entry4 :=
⟨[[p 1 384 [1,1,1,1,2],m 9 20 [2,2,2,2],m 13 2 [1,2,2,3],m 1315 336 [1,1,3,3],m 103 12 [1,1,2,4],m 4 1 [1,1,1,5],p 97825 88 [3,3,4],p 106085 88 [2,4,4],p 111195 44 [2,3,5],p 145089 44 [1,4,5],p 5931 4 [2,2,6],p 3570 1 [1,3,6],p 17199 4 [1,2,7],p 12805 4 [1,1,8],m 5095035 13 [6,6],m 807219 1 [5,7],m 1768725 2 [4,8],m 1042950 1 [3,9],m 2718045 2 [2,10],m 2170560 1 [1,11]]],
[[p 1 12 [1,2,2,2],p 5 16 [1,1,2,3],p 7 48 [1,1,1,4],m 125 7 [3,3,3],m 465 4 [2,3,4],m 2695 36 [1,4,4],m 1323 20 [2,2,5],m 157 1 [1,3,5],m 737 4 [1,2,6],m 1573 12 [1,1,7],p 35343 1 [5,6],p 75075 2 [4,7],p 42900 1 [3,8],p 109395 2 [2,9],p 83980 1 [1,10],m 33430500 1 [13]]],
[[m 7 240 [1,1,1,2,2],m 1 64 [1,1,1,1,3],m 2015 112 [2,2,2,3],m 7425 112 [1,2,3,3],m 5929 80 [1,2,2,4],m 4357 48 [1,1,3,4],m 8673 80 [1,1,2,5],m 55 1 [1,1,1,6],p 237125 12 [3,4,4],p 41295 2 [3,3,5],p 89775 2 [2,4,5],p 339381 11 [1,5,5],p 48180 1 [2,3,6],p 63413 1 [1,4,6],p 114543 4 [2,2,7],p 69420 1 [1,3,7],p 335985 4 [1,2,8],p 126191 2 [1,1,9],m 19027008 1 [6,7],m 19922760 1 [5,8],m 43940325 2 [4,9],m 181081875 7 [3,10],m 67079025 2 [2,11],m 53399652 1 [1,12]]],
[[p 1 384 [1,1,1,1,2],p 1 20 [2,2,2,2],p 1 1 [1,2,2,3],p 65 84 [1,1,3,3],p 23 12 [1,1,2,4],p 5 4 [1,1,1,5],m 70475 88 [3,3,4],m 229985 264 [2,4,4],m 80535 44 [2,3,5],m 105777 44 [1,4,5],m 21561 20 [2,2,6],m 2601 1 [1,3,6],m 15574 5 [1,2,7],m 4537 2 [1,1,8],p 5013063 13 [6,6],p 787374 1 [5,7],p 1684725 2 [4,8],p 962625 1 [3,9],p 2446725 2 [2,10],p 1885674 1 [1,11]]]⟩
/-- `tDelta(5, *)` -/
def d5 : List Entry4 := [d5_0,d5_1,d5_2,d5_3,d5_4,d5_5,d5_6,d5_7,d5_8,d5_9,d5_10,d5_11,d5_12,d5_13,d5_14,d5_15,d5_16]
/-- `tH[5]` — matslise_formulas.cpp:268 -/
def tH5 : Entry4 :=
⟨[[],
 [],
 [],
 [],
 [],
 [],
 [],
 [],
 [],
 [p 1 48 [1,1,1],m 15 4 [2,3],m 21 4 [1,4],p 1287 2 [7]],
 [p 1 40 [1,1,2],m 15 56 [3,3],p 3 4 [2,4],m 9 4 [1,5]],
 [p 1 80 [1,2,2],p 1 48 [1,1,3],m 9 1 [3,4],m 21 2 [2,5],m 27 2 [1,6],p 4290 1 [9]],
 [p 1 280 [2,2,2],p 9 280 [1,2,3],p 25 24 [4,4],m 9 4 [3,5],p 3 4 [2,6],m 11 2 [1,7]],
 [p 1 80 [2,2,3],p 1 112 [1,3,3],p 1 48 [1,1,5],m 63 4 [4,5],m 69 4 [3,6],m 81 4 [2,7],m 99 4 [1,8],p 16575 1 [11]],
 [p 1 140 [2,3,3],p 3 280 [2,2,4],p 1 42 [1,3,4],m 57 44 [5,5],p 5 2 [4,6],m 11 2 [3,7],p 3 4 [2,8],m 39 4 [1,9]],
 [p 1 112 [3,3,3],p 1 144 [1,4,4],p 1 80 [2,2,5],p 1 48 [1,1,7],m 24 1 [5,6],m 51 2 [4,7],m 57 2 [3,8],m 33 1 [2,9],m 39 1 [1,10],p 48450 1 [13]],
 [p 3 616 [3,3,4],p 5 924 [2,4,4],p 5 308 [2,3,5],p 5 264 [1,4,5],p 129 52 [6,6],m 11 2 [5,7],p 5 2 [4,8],m 39 4 [3,9],p 3 4 [2,10],m 15 1 [1,11]],
 [p 1 144 [3,4,4],p 1 112 [3,3,5],p 1 176 [1,5,5],p 1 80 [2,2,7],p 1 48 [1,1,9],m 135 4 [6,7],m 141 4 [5,8],m 153 4 [4,9],m 171 4 [3,10],m 195 4 [2,11],m 225 4 [1,12],p 237405 2 [15]],
 [p 9 8008 [4,4,4],p 15 2002 [3,4,5],p 5 1144 [2,5,5],p 25 4004 [3,3,6],p 15 1144 [2,4,6],p 9 572 [1,5,6],m 23 8 [7,7],p 21 4 [6,8],m 39 4 [5,9],p 5 2 [4,10],m 15 1 [3,11],p 3 4 [2,12],m 85 4 [1,13]]],
[[],
 [],
 [],
 [],
 [],
 [],
 [],
 [],
 [],
 [p 9 40 [2,2],p 1 2 [1,3],m 99 2 [6]],
 [],
 [p 1 7 [3,3],p 3 4 [2,4],p 1 2 [1,5],m 429 2 [8]],
 [],
 [p 7 24 [4,4],p 1 2 [3,5],p 3 4 [2,6],p 1 2 [1,7],m 585 1 [10]],
 [],
 [p 2 11 [5,5],p 3 4 [4,6],p 1 2 [3,7],p 3 4 [2,8],p 1 2 [1,9],m 1275 1 [12]],
 [],
 [p 33 104 [6,6],p 1 2 [5,7],p 3 4 [4,8],p 1 2 [3,9],p 3 4 [2,10],p 1 2 [1,11],m 4845 2 [14]]],
[[],
 [],
 [],
 [],
 [],
 [],
 [],
 [],
 [],
 [p 37 80 [1,1,2],m 1065 56 [3,3],m 165 4 [2,4],m 261 4 [1,5],p 19305 2 [8]],
 [],
 [p 1 1152 [1,1,1,1],p 13 280 [2,2,2],p 33 35 [1,2,3],p 11 24 [1,1,4],m 220 3 [4,4],m 363 2 [3,5],m 363 2 [2,6],m 605 2 [1,7],p 182325 2 [10]],
 [],
 [p 1 960 [1,1,2,2],p 219 560 [2,3,3],p 169 560 [2,2,4],p 25 28 [1,3,4],p 3 4 [1,2,5],p 11 16 [1,1,6],m 4995 22 [5,5],m 402 1 [4,6],m 1065 2 [3,7],m 519 1 [2,8],m 3471 4 [1,9],p 944775 2 [12]],
 [],
 [p 1 3200 [2,2,2,2],p 1 1344 [1,1,3,3],p 271 616 [3,3,4],p 46 231 [2,4,4],p 261 308 [2,3,5],p 19 22 [1,4,5],p 3 8 [2,2,6],p 3 4 [1,3,6],p 3 4 [1,2,7],p 1 1 [1,1,8],m 21399 52 [6,6],m 2019 2 [5,7],m 897 1 [4,8],m 2493 2 [3,9],m 4755 4 [2,10],m 1965 1 [1,11],p 3561075 2 [14]],
 [],
 [p 1 2240 [2,2,3,3],p 1 1728 [1,1,4,4],p 13985 144144 [4,4,4],p 3183 4004 [3,4,5],p 879 2288 [2,5,5],p 8751 16016 [3,3,6],p 519 1144 [2,4,6],p 483 572 [1,5,6],p 3 4 [2,3,7],p 3 4 [1,4,7],p 9 16 [2,2,8],p 3 4 [1,3,8],p 3 4 [1,2,9],p 67 48 [1,1,10],m 7367 8 [7,7],m 6261 4 [6,8],m 7965 4 [5,9],m 7065 4 [4,10],m 5055 2 [3,11],m 9447 4 [2,12],m 15385 4 [1,13]]],
[[],
 [],
 [],
 [],
 [],
 [],
 [],
 [],
 [],
 [m 1 48 [1,1,1],p 15 4 [2,3],p 21 4 [1,4],m 1287 2 [7]],
 [p 1 40 [1,1,2],m 15 56 [3,3],p 3 4 [2,4],m 9 4 [1,5]],
 [m 1 80 [1,2,2],m 1 48 [1,1,3],p 9 1 [3,4],p 21 2 [2,5],p 27 2 [1,6],m 4290 1 [9]],
 [p 1 280 [2,2,2],p 9 280 [1,2,3],p 25 24 [4,4],m 9 4 [3,5],p 3 4 [2,6],m 11 2 [1,7]],
 [m 1 80 [2,2,3],m 1 112 [1,3,3],m 1 48 [1,1,5],p 63 4 [4,5],p 69 4 [3,6],p 81 4 [2,7],p 99 4 [1,8],m 16575 1 [11]],
 [p 1 140 [2,3,3],p 3 280 [2,2,4],p 1 42 [1,3,4],m 57 44 [5,5],p 5 2 [4,6],m 11 2 [3,7],p 3 4 [2,8],m 39 4 [1,9]],
 [m 1 112 [3,3,3],m 1 144 [1,4,4],m 1 80 [2,2,5],m 1 48 [1,1,7],p 24 1 [5,6],p 51 2 [4,7],p 57 2 [3,8],p 33 1 [2,9],p 39 1 [1,10],m 48450 1 [13]],
 [p 3 616 [3,3,4],p 5 924 [2,4,4],p 5 308 [2,3,5],p 5 264 [1,4,5],p 129 52 [6,6],m 11 2 [5,7],p 5 2 [4,8],m 39 4 [3,9],p 3 4 [2,10],m 15 1 [1,11]],
 [m 1 144 [3,4,4],m 1 112 [3,3,5],m 1 176 [1,5,5],m 1 80 [2,2,7],m 1 48 [1,1,9],p 135 4 [6,7],p 141 4 [5,8],p 153 4 [4,9],p 171 4 [3,10],p 195 4 [2,11],p 225 4 [1,12],m 237405 2 [15]],
 [p 9 8008 [4,4,4],p 15 2002 [3,4,5],p 5 1144 [2,5,5],p 25 4004 [3,3,6],p 15 1144 [2,4,6],p 9 572 [1,5,6],m 23 8 [7,7],p 21 4 [6,8],m 39 4 [5,9],p 5 2 [4,10],m 15 1 [3,11],p 3 4 [2,12],m 85 4 [1,13]]]⟩
end Verif.Formulas
