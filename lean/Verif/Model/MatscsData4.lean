import Verif.Model.MatscsTerm

/-! Generated by `tools/gen_matscs.py`: row 4 of `tDelta` — matslise/matscs/matscs_formulas.cpp:145-419 -/
namespace Verif.MFormulas

/-- `tDelta(4, 0 … 9)` — matscs_formulas.cpp -/
def tDelta4 : List MEntry4 := [
    ⟨[],
     [],
     [],
     []⟩,
    ⟨[],
     [],
     [],
     []⟩,
    ⟨[],
     [],
     [],
     []⟩,
    ⟨[],
     [],
     [],
     []⟩,
    ⟨[],
     [],
     [],
     []⟩,
    ⟨[],
     [],
     [],
     []⟩,
    ⟨[],
     [],
     [],
     []⟩,
    ⟨[(0, [⟨-3125, 5, [1, 0, 0]⟩, ⟨625, 4, [0, 1, 0]⟩, ⟨-75, 2, [3, 0]⟩, ⟨75, 2, [0, 3]⟩, ⟨275, 3, [2, 1]⟩, ⟨225, 3, [1, 2]⟩, ⟨-315, 1, [5]⟩, ⟨-3125, 5, [0, 0, 1]⟩]), (1, [⟨520833333333, 13, [0, 1, 1]⟩, ⟨-1875, 4, [0, 2, 0]⟩, ⟨416666666667, 13, [1, 0, 1]⟩, ⟨-15, 1, [2, 2]⟩, ⟨-1875, 3, [1, 3]⟩, ⟨3465, 1, [6]⟩, ⟨-9375, 5, [1, 1, 0]⟩, ⟨525, 2, [4, 0]⟩, ⟨9375, 5, [0, 0, 2]⟩, ⟨-1875, 3, [3, 1]⟩, ⟨9375, 5, [2, 0, 0]⟩, ⟨-525, 2, [0, 4]⟩]), (2, [⟨5775, 3, [2, 3]⟩, ⟨-104166666667, 12, [1, 0, 2]⟩, ⟨-625, 4, [2, 0, 1]⟩, ⟨210, 1, [0, 5]⟩, ⟨-9375, 5, [0, 2, 1]⟩, ⟨-625, 4, [1, 1, 1]⟩, ⟨21875, 5, [1, 2, 0]⟩, ⟨-1875, 4, [0, 0, 3]⟩, ⟨375, 3, [0, 3, 0]⟩, ⟨7625, 3, [4, 1]⟩, ⟨-210, 1, [5, 0]⟩, ⟨15625, 5, [2, 1, 0]⟩, ⟨5975, 3, [3, 2]⟩, ⟨-114583333333, 12, [0, 1, 2]⟩, ⟨-1875, 4, [3, 0, 0]⟩, ⟨-20790, 1, [7]⟩, ⟨8625, 3, [1, 4]⟩])],
     [(0, [⟨-125, 3, [0, 2]⟩, ⟨-416666666667, 13, [1, 1]⟩, ⟨125, 3, [2, 0]⟩, ⟨35, 1, [4]⟩]), (1, [⟨-208333333333, 13, [1, 0, 0]⟩, ⟨416666666667, 13, [0, 1, 0]⟩, ⟨-625, 3, [3, 0]⟩, ⟨625, 3, [0, 3]⟩, ⟨25, 2, [2, 1]⟩, ⟨25, 2, [1, 2]⟩, ⟨-315, 1, [5]⟩, ⟨-208333333333, 13, [0, 0, 1]⟩]), (2, [⟨208333333333, 13, [0, 1, 1]⟩, ⟨-416666666667, 13, [0, 2, 0]⟩, ⟨208333333333, 13, [1, 0, 1]⟩, ⟨-625, 3, [2, 2]⟩, ⟨-875, 3, [1, 3]⟩, ⟨1575, 1, [6]⟩, ⟨-416666666667, 13, [1, 1, 0]⟩, ⟨1875, 3, [4, 0]⟩, ⟨208333333333, 13, [0, 0, 2]⟩, ⟨-875, 3, [3, 1]⟩, ⟨208333333333, 13, [2, 0, 0]⟩, ⟨-1875, 3, [0, 4]⟩])],
     [(0, [⟨1, 1, [1, 1, 0]⟩, ⟨1125, 4, [0, 2, 0]⟩, ⟨-541666666667, 13, [1, 0, 1]⟩, ⟨1425, 3, [2, 2]⟩, ⟨20, 1, [1, 3]⟩, ⟨-3465, 1, [6]⟩, ⟨-458333333333, 13, [0, 1, 1]⟩, ⟨-4375, 3, [4, 0]⟩, ⟨-5625, 5, [0, 0, 2]⟩, ⟨20, 1, [3, 1]⟩, ⟨-5625, 5, [2, 0, 0]⟩, ⟨4375, 3, [0, 4]⟩]), (1, [⟨-13125, 3, [2, 3]⟩, ⟨-78125, 7, [0, 1, 0, 0]⟩, ⟨21875, 5, [1, 0, 2]⟩, ⟨-13125, 3, [3, 2]⟩, ⟨21875, 5, [2, 0, 1]⟩, ⟨-18375, 3, [4, 1]⟩, ⟨-260416666667, 14, [0, 0, 0, 1]⟩, ⟨145833333333, 12, [1, 1, 1]⟩, ⟨-18375, 3, [1, 4]⟩, ⟨28125, 5, [0, 0, 3]⟩, ⟨-5625, 4, [0, 3, 0]⟩, ⟨19375, 5, [0, 1, 2]⟩, ⟨39375, 3, [5, 0]⟩, ⟨-43125, 5, [2, 1, 0]⟩, ⟨-4125, 4, [1, 2, 0]⟩, ⟨45045, 1, [7]⟩, ⟨78125, 7, [0, 0, 1, 0]⟩, ⟨28125, 5, [3, 0, 0]⟩, ⟨260416666667, 14, [1, 0, 0, 0]⟩, ⟨2125, 4, [0, 2, 1]⟩, ⟨-39375, 3, [0, 5]⟩]), (2, [⟨-84375, 5, [0, 0, 4]⟩, ⟨260416666667, 14, [0, 0, 0, 2]⟩, ⟨16875, 4, [0, 4, 0]⟩, ⟨-84375, 5, [4, 0, 0]⟩, ⟨-404166666667, 12, [1, 2, 1]⟩, ⟨260416666667, 14, [0, 0, 1, 1]⟩, ⟨-260416666667, 14, [2, 0, 0, 0]⟩, ⟨11625, 4, [1, 3, 0]⟩, ⟨6775, 2, [2, 4]⟩, ⟨59625, 3, [3, 3]⟩, ⟨-6, 1, [2, 0, 2]⟩, ⟨-402083333333, 12, [1, 1, 2]⟩, ⟨-78125, 7, [0, 1, 1, 0]⟩, ⟨114375, 5, [2, 2, 0]⟩, ⟨-196875, 3, [6, 0]⟩, ⟨-55625, 5, [0, 1, 3]⟩, ⟨78125, 7, [1, 1, 0, 0]⟩, ⟨6775, 2, [4, 2]⟩, ⟨-78125, 7, [0, 0, 2, 0]⟩, ⟨-60625, 5, [1, 0, 3]⟩, ⟨-78125, 7, [1, 0, 1, 0]⟩, ⟨78125, 7, [0, 2, 0, 0]⟩, ⟨196875, 3, [0, 6]⟩, ⟨260416666667, 14, [1, 0, 0, 1]⟩, ⟨95375, 3, [5, 1]⟩, ⟨-54375, 5, [0, 2, 2]⟩, ⟨-60625, 5, [3, 0, 1]⟩, ⟨-402083333333, 12, [2, 1, 1]⟩, ⟨125625, 5, [3, 1, 0]⟩, ⟨95375, 3, [1, 5]⟩, ⟨-65, 2, [0, 3, 1]⟩, ⟨260416666667, 14, [0, 1, 0, 1]⟩])],
     [(0, [⟨104166666667, 13, [1, 0, 0]⟩, ⟨-208333333333, 13, [0, 1, 0]⟩, ⟨5, 1, [3, 0]⟩, ⟨-5, 1, [0, 3]⟩, ⟨-225, 3, [2, 1]⟩, ⟨-275, 3, [1, 2]⟩, ⟨315, 1, [5]⟩, ⟨104166666667, 13, [0, 0, 1]⟩]), (1, [⟨729166666667, 13, [1, 1, 0]⟩, ⟨625, 4, [0, 2, 0]⟩, ⟨-416666666667, 13, [1, 0, 1]⟩, ⟨15, 1, [2, 2]⟩, ⟨1875, 3, [1, 3]⟩, ⟨-3465, 1, [6]⟩, ⟨-3125, 5, [0, 1, 1]⟩, ⟨-35, 1, [4, 0]⟩, ⟨-3125, 5, [0, 0, 2]⟩, ⟨1875, 3, [3, 1]⟩, ⟨-3125, 5, [2, 0, 0]⟩, ⟨35, 1, [0, 4]⟩]), (2, [⟨-5975, 3, [2, 3]⟩, ⟨625, 4, [1, 0, 2]⟩, ⟨104166666667, 12, [2, 0, 1]⟩, ⟨-140, 1, [0, 5]⟩, ⟨729166666667, 13, [0, 2, 1]⟩, ⟨625, 4, [1, 1, 1]⟩, ⟨-114583333333, 12, [1, 2, 0]⟩, ⟨625, 4, [0, 0, 3]⟩, ⟨-125, 3, [0, 3, 0]⟩, ⟨-8625, 3, [4, 1]⟩, ⟨140, 1, [5, 0]⟩, ⟨-177083333333, 12, [2, 1, 0]⟩, ⟨-5775, 3, [3, 2]⟩, ⟨520833333333, 13, [0, 1, 2]⟩, ⟨625, 4, [3, 0, 0]⟩, ⟨20790, 1, [7]⟩, ⟨-7625, 3, [1, 4]⟩])]⟩,
    ⟨[(0, [⟨-458333333333, 13, [0, 1, 1]⟩, ⟨1125, 4, [0, 2, 0]⟩, ⟨-541666666667, 13, [1, 0, 1]⟩, ⟨1425, 3, [2, 2]⟩, ⟨20, 1, [1, 3]⟩, ⟨-3465, 1, [6]⟩, ⟨1, 1, [1, 1, 0]⟩, ⟨-4375, 3, [4, 0]⟩, ⟨-5625, 5, [0, 0, 2]⟩, ⟨20, 1, [3, 1]⟩, ⟨-5625, 5, [2, 0, 0]⟩, ⟨4375, 3, [0, 4]⟩]), (1, [⟨-13125, 3, [2, 3]⟩, ⟨-78125, 7, [0, 1, 0, 0]⟩, ⟨21875, 5, [1, 0, 2]⟩, ⟨21875, 5, [2, 0, 1]⟩, ⟨-18375, 3, [4, 1]⟩, ⟨-260416666667, 14, [0, 0, 0, 1]⟩, ⟨-18375, 3, [1, 4]⟩, ⟨145833333333, 12, [1, 1, 1]⟩, ⟨-4125, 4, [1, 2, 0]⟩, ⟨28125, 5, [0, 0, 3]⟩, ⟨-5625, 4, [0, 3, 0]⟩, ⟨45045, 1, [7]⟩, ⟨39375, 3, [5, 0]⟩, ⟨-43125, 5, [2, 1, 0]⟩, ⟨-13125, 3, [3, 2]⟩, ⟨19375, 5, [0, 1, 2]⟩, ⟨78125, 7, [0, 0, 1, 0]⟩, ⟨28125, 5, [3, 0, 0]⟩, ⟨260416666667, 14, [1, 0, 0, 0]⟩, ⟨2125, 4, [0, 2, 1]⟩, ⟨-39375, 3, [0, 5]⟩])],
     [(0, [⟨104166666667, 13, [1, 0, 0]⟩, ⟨-208333333333, 13, [0, 1, 0]⟩, ⟨5, 1, [3, 0]⟩, ⟨-5, 1, [0, 3]⟩, ⟨-225, 3, [2, 1]⟩, ⟨-275, 3, [1, 2]⟩, ⟨315, 1, [5]⟩, ⟨104166666667, 13, [0, 0, 1]⟩]), (1, [⟨-3125, 5, [0, 1, 1]⟩, ⟨625, 4, [0, 2, 0]⟩, ⟨-416666666667, 13, [1, 0, 1]⟩, ⟨15, 1, [2, 2]⟩, ⟨1875, 3, [1, 3]⟩, ⟨-3465, 1, [6]⟩, ⟨729166666667, 13, [1, 1, 0]⟩, ⟨-35, 1, [4, 0]⟩, ⟨-3125, 5, [0, 0, 2]⟩, ⟨1875, 3, [3, 1]⟩, ⟨-3125, 5, [2, 0, 0]⟩, ⟨35, 1, [0, 4]⟩])],
     [(0, [⟨135, 1, [2, 3]⟩, ⟨-625, 5, [0, 1, 0, 0]⟩, ⟨-175, 3, [1, 0, 2]⟩, ⟨1275, 2, [3, 2]⟩, ⟨-2625, 4, [2, 0, 1]⟩, ⟨1925, 2, [4, 1]⟩, ⟨-208333333333, 14, [0, 0, 0, 1]⟩, ⟨-145833333333, 12, [1, 1, 1]⟩, ⟨175, 1, [1, 4]⟩, ⟨-125, 3, [0, 0, 3]⟩, ⟨25, 2, [0, 3, 0]⟩, ⟨-125, 3, [0, 1, 2]⟩, ⟨-315, 1, [5, 0]⟩, ⟨425, 3, [2, 1, 0]⟩, ⟨3, 1, [1, 2, 0]⟩, ⟨-45045, 1, [7]⟩, ⟨625, 5, [0, 0, 1, 0]⟩, ⟨-125, 3, [3, 0, 0]⟩, ⟨208333333333, 14, [1, 0, 0, 0]⟩, ⟨-1625, 4, [0, 2, 1]⟩, ⟨315, 1, [0, 5]⟩]), (1, [⟨875, 3, [0, 0, 4]⟩, ⟨625, 5, [0, 0, 0, 2]⟩, ⟨-175, 2, [0, 4, 0]⟩, ⟨875, 3, [4, 0, 0]⟩, ⟨8625, 4, [1, 2, 1]⟩, ⟨104166666667, 14, [0, 0, 1, 1]⟩, ⟨-625, 5, [2, 0, 0, 0]⟩, ⟨-175, 2, [1, 3, 0]⟩, ⟨-1470, 1, [2, 4]⟩, ⟨-13125, 2, [3, 3]⟩, ⟨13125, 4, [2, 0, 2]⟩, ⟨7375, 4, [1, 1, 2]⟩, ⟨-2175, 3, [2, 2, 0]⟩, ⟨3465, 1, [6, 0]⟩, ⟨75, 2, [0, 1, 3]⟩, ⟨-625, 5, [1, 1, 0, 0]⟩, ⟨-1470, 1, [4, 2]⟩, ⟨-1875, 5, [0, 0, 2, 0]⟩, ⟨10, 1, [1, 0, 3]⟩, ⟨125, 4, [1, 0, 1, 0]⟩, ⟨1875, 5, [0, 2, 0, 0]⟩, ⟨-3465, 1, [0, 6]⟩, ⟨-520833333333, 14, [1, 0, 0, 1]⟩, ⟨-2205, 1, [5, 1]⟩, ⟨8625, 4, [0, 2, 2]⟩, ⟨175, 2, [3, 0, 1]⟩, ⟨9625, 4, [2, 1, 1]⟩, ⟨-29375, 4, [3, 1, 0]⟩, ⟨-1890, 1, [1, 5]⟩, ⟨11875, 4, [0, 3, 1]⟩, ⟨-208333333333, 14, [0, 1, 0, 1]⟩])],
     [(0, [⟨166666666667, 13, [0, 1, 1]⟩, ⟨-125, 4, [0, 2, 0]⟩, ⟨291666666667, 13, [1, 0, 1]⟩, ⟨-1575, 3, [2, 2]⟩, ⟨-175, 2, [1, 3]⟩, ⟨3465, 1, [6]⟩, ⟨-458333333333, 13, [1, 1, 0]⟩, ⟨2625, 3, [4, 0]⟩, ⟨625, 5, [0, 0, 2]⟩, ⟨-175, 2, [3, 1]⟩, ⟨625, 5, [2, 0, 0]⟩, ⟨-2625, 3, [0, 4]⟩]), (1, [⟨13125, 3, [2, 3]⟩, ⟨-78125, 7, [0, 1, 0, 0]⟩, ⟨-9375, 5, [1, 0, 2]⟩, ⟨-21875, 5, [2, 0, 1]⟩, ⟨18375, 3, [4, 1]⟩, ⟨-260416666667, 14, [0, 0, 0, 1]⟩, ⟨14875, 3, [1, 4]⟩, ⟨-104166666667, 12, [1, 1, 1]⟩, ⟨15, 2, [1, 2, 0]⟩, ⟨-3125, 5, [0, 0, 3]⟩, ⟨625, 4, [0, 3, 0]⟩, ⟨-45045, 1, [7]⟩, ⟨-23625, 3, [5, 0]⟩, ⟨31875, 5, [2, 1, 0]⟩, ⟨13125, 3, [3, 2]⟩, ⟨-5625, 5, [0, 1, 2]⟩, ⟨78125, 7, [0, 0, 1, 0]⟩, ⟨-3125, 5, [3, 0, 0]⟩, ⟨260416666667, 14, [1, 0, 0, 0]⟩, ⟨-1, 1, [0, 2, 1]⟩, ⟨23625, 3, [0, 5]⟩])]⟩,
    ⟨[(0, [⟨771428571429, 11, [2, 3]⟩, ⟨3125, 6, [0, 1, 0, 0]⟩, ⟨-1, 1, [1, 0, 2]⟩, ⟨-15, 2, [2, 0, 1]⟩, ⟨110, 1, [4, 1]⟩, ⟨104166666667, 14, [0, 0, 0, 1]⟩, ⟨100, 1, [1, 4]⟩, ⟨-833333333333, 13, [1, 1, 1]⟩, ⟨1875, 4, [1, 2, 0]⟩, ⟨-125, 3, [0, 0, 3]⟩, ⟨25, 2, [0, 3, 0]⟩, ⟨-25740, 1, [7]⟩, ⟨-2025, 2, [5, 0]⟩, ⟨2625, 4, [2, 1, 0]⟩, ⟨728571428571, 11, [3, 2]⟩, ⟨-875, 4, [0, 1, 2]⟩, ⟨-3125, 6, [0, 0, 1, 0]⟩, ⟨-125, 3, [3, 0, 0]⟩, ⟨-104166666667, 14, [1, 0, 0, 0]⟩, ⟨-1125, 4, [0, 2, 1]⟩, ⟨2025, 2, [0, 5]⟩])],
     [(0, [⟨125, 4, [0, 1, 1]⟩, ⟨-25, 3, [0, 2, 0]⟩, ⟨166666666667, 13, [1, 0, 1]⟩, ⟨-9, 1, [2, 2]⟩, ⟨-10, 1, [1, 3]⟩, ⟨1980, 1, [6]⟩, ⟨-291666666667, 13, [1, 1, 0]⟩, ⟨175, 2, [4, 0]⟩, ⟨125, 4, [0, 0, 2]⟩, ⟨-10, 1, [3, 1]⟩, ⟨125, 4, [2, 0, 0]⟩, ⟨-175, 2, [0, 4]⟩])],
     [(0, [⟨-3125, 4, [0, 0, 4]⟩, ⟨-3125, 6, [0, 0, 0, 2]⟩, ⟨625, 3, [0, 4, 0]⟩, ⟨-3125, 4, [4, 0, 0]⟩, ⟨-446428571429, 12, [1, 2, 1]⟩, ⟨-208333333333, 14, [0, 0, 1, 1]⟩, ⟨3125, 6, [2, 0, 0, 0]⟩, ⟨678571428571, 12, [1, 3, 0]⟩, ⟨825, 1, [2, 4]⟩, ⟨760714285714, 10, [3, 3]⟩, ⟨-664285714286, 12, [2, 0, 2]⟩, ⟨-339285714286, 12, [1, 1, 2]⟩, ⟨625, 5, [0, 1, 1, 0]⟩, ⟨104464285714, 11, [2, 2, 0]⟩, ⟨-17325, 2, [6, 0]⟩, ⟨-285714285714, 12, [0, 1, 3]⟩, ⟨-625, 5, [1, 1, 0, 0]⟩, ⟨825, 1, [4, 2]⟩, ⟨9375, 6, [0, 0, 2, 0]⟩, ⟨-392857142857, 12, [1, 0, 3]⟩, ⟨625, 5, [1, 0, 1, 0]⟩, ⟨-9375, 6, [0, 2, 0, 0]⟩, ⟨17325, 2, [0, 6]⟩, ⟨-208333333333, 14, [1, 0, 0, 1]⟩, ⟨1305, 1, [5, 1]⟩, ⟨-380357142857, 12, [0, 2, 2]⟩, ⟨-114285714286, 11, [3, 0, 1]⟩, ⟨-564285714286, 12, [2, 1, 1]⟩, ⟨171428571429, 11, [3, 1, 0]⟩, ⟨990, 1, [1, 5]⟩, ⟨-571428571429, 12, [0, 3, 1]⟩, ⟨-208333333333, 14, [0, 1, 0, 1]⟩])],
     [(0, [⟨-728571428571, 11, [2, 3]⟩, ⟨3125, 6, [0, 1, 0, 0]⟩, ⟨25, 3, [1, 0, 2]⟩, ⟨1, 1, [2, 0, 1]⟩, ⟨-100, 1, [4, 1]⟩, ⟨375, 4, [0, 2, 1]⟩, ⟨416666666667, 13, [1, 1, 1]⟩, ⟨-375, 4, [1, 2, 0]⟩, ⟨-1125, 2, [0, 5]⟩, ⟨-75, 1, [1, 4]⟩, ⟨25740, 1, [7]⟩, ⟨1125, 2, [5, 0]⟩, ⟨-1375, 4, [2, 1, 0]⟩, ⟨-771428571429, 11, [3, 2]⟩, ⟨125, 4, [0, 1, 2]⟩, ⟨-3125, 6, [0, 0, 1, 0]⟩, ⟨-104166666667, 14, [1, 0, 0, 0]⟩, ⟨104166666667, 14, [0, 0, 0, 1]⟩])]⟩]

end Verif.MFormulas
