import Verif.Model.MatscsTerm

/-! Generated by `tools/gen_matscs.py`: row 2 of `tDelta` — matslise/matscs/matscs_formulas.cpp:145-419 -/
namespace Verif.MFormulas

/-- `tDelta(2, 0 … 9)` — matscs_formulas.cpp -/
def tDelta2 : List MEntry4 := [
    ⟨[],
     [],
     [],
     []⟩,
    ⟨[],
     [],
     [],
     []⟩,
    ⟨[],
     [],
     [],
     []⟩,
    ⟨[(0, [⟨-5, 1, [1]⟩]), (1, [⟨15, 1, [2]⟩]), (2, [⟨-30, 1, [3]⟩]), (3, [⟨50, 1, [4]⟩]), (4, [⟨-75, 1, [5]⟩]), (5, [⟨105, 1, [6]⟩]), (6, [⟨-140, 1, [7]⟩])],
     [(1, [⟨-5, 1, [1]⟩]), (2, [⟨5, 1, [2]⟩]), (3, [⟨-5, 1, [3]⟩]), (4, [⟨5, 1, [4]⟩]), (5, [⟨-5, 1, [5]⟩]), (6, [⟨5, 1, [6]⟩])],
     [(0, [⟨-15, 1, [2]⟩]), (1, [⟨75, 1, [3]⟩, ⟨-125, 3, [0, 1]⟩, ⟨125, 3, [1, 0]⟩]), (2, [⟨125, 3, [0, 2]⟩, ⟨125, 3, [1, 1]⟩, ⟨-125, 3, [2, 0]⟩, ⟨-225, 1, [4]⟩]), (3, [⟨125, 3, [3, 0]⟩, ⟨-125, 3, [1, 2]⟩, ⟨-125, 3, [0, 3]⟩, ⟨525, 1, [5]⟩, ⟨-125, 3, [2, 1]⟩]), (4, [⟨125, 3, [2, 2]⟩, ⟨125, 3, [1, 3]⟩, ⟨-1050, 1, [6]⟩, ⟨-125, 3, [4, 0]⟩, ⟨125, 3, [3, 1]⟩, ⟨125, 3, [0, 4]⟩]), (5, [⟨-125, 3, [2, 3]⟩, ⟨-125, 3, [1, 4]⟩, ⟨-125, 3, [4, 1]⟩, ⟨-125, 3, [0, 5]⟩, ⟨125, 3, [5, 0]⟩, ⟨-125, 3, [3, 2]⟩, ⟨1890, 1, [7]⟩]), (6, [⟨125, 3, [2, 4]⟩, ⟨125, 3, [5, 1]⟩, ⟨125, 3, [3, 3]⟩, ⟨125, 3, [4, 2]⟩, ⟨125, 3, [1, 5]⟩, ⟨-125, 3, [6, 0]⟩, ⟨125, 3, [0, 6]⟩])],
     [(0, [⟨5, 1, [1]⟩]), (1, [⟨-15, 1, [2]⟩]), (2, [⟨30, 1, [3]⟩]), (3, [⟨-50, 1, [4]⟩]), (4, [⟨75, 1, [5]⟩]), (5, [⟨-105, 1, [6]⟩]), (6, [⟨140, 1, [7]⟩])]⟩,
    ⟨[(0, [⟨-15, 1, [2]⟩]), (1, [⟨75, 1, [3]⟩, ⟨-125, 3, [0, 1]⟩, ⟨125, 3, [1, 0]⟩]), (2, [⟨125, 3, [0, 2]⟩, ⟨125, 3, [1, 1]⟩, ⟨-125, 3, [2, 0]⟩, ⟨-225, 1, [4]⟩]), (3, [⟨125, 3, [3, 0]⟩, ⟨-125, 3, [1, 2]⟩, ⟨-125, 3, [0, 3]⟩, ⟨-125, 3, [2, 1]⟩, ⟨525, 1, [5]⟩]), (4, [⟨125, 3, [2, 2]⟩, ⟨125, 3, [3, 1]⟩, ⟨-1050, 1, [6]⟩, ⟨-125, 3, [4, 0]⟩, ⟨125, 3, [1, 3]⟩, ⟨125, 3, [0, 4]⟩]), (5, [⟨-125, 3, [2, 3]⟩, ⟨-125, 3, [1, 4]⟩, ⟨-125, 3, [4, 1]⟩, ⟨-125, 3, [0, 5]⟩, ⟨125, 3, [5, 0]⟩, ⟨-125, 3, [3, 2]⟩, ⟨1890, 1, [7]⟩])],
     [(0, [⟨5, 1, [1]⟩]), (1, [⟨-15, 1, [2]⟩]), (2, [⟨30, 1, [3]⟩]), (3, [⟨-50, 1, [4]⟩]), (4, [⟨75, 1, [5]⟩]), (5, [⟨-105, 1, [6]⟩])],
     [(0, [⟨-75, 1, [3]⟩]), (1, [⟨-25, 2, [1, 1]⟩, ⟨525, 1, [4]⟩]), (2, [⟨25, 2, [1, 2]⟩, ⟨75, 2, [2, 1]⟩, ⟨-2100, 1, [5]⟩]), (3, [⟨-75, 2, [2, 2]⟩, ⟨6300, 1, [6]⟩, ⟨-15, 1, [3, 1]⟩, ⟨-25, 2, [1, 3]⟩]), (4, [⟨75, 2, [2, 3]⟩, ⟨25, 1, [4, 1]⟩, ⟨25, 2, [1, 4]⟩, ⟨-15750, 1, [7]⟩, ⟨15, 1, [3, 2]⟩]), (5, [⟨-75, 2, [2, 4]⟩, ⟨-15, 1, [3, 3]⟩, ⟨-25, 2, [1, 5]⟩, ⟨-25, 1, [4, 2]⟩, ⟨-375, 2, [5, 1]⟩])],
     [(0, [⟨15, 1, [2]⟩]), (1, [⟨-125, 3, [0, 1]⟩, ⟨-75, 1, [3]⟩, ⟨125, 3, [1, 0]⟩]), (2, [⟨125, 3, [0, 2]⟩, ⟨125, 3, [1, 1]⟩, ⟨-125, 3, [2, 0]⟩, ⟨225, 1, [4]⟩]), (3, [⟨125, 3, [3, 0]⟩, ⟨-125, 3, [1, 2]⟩, ⟨-125, 3, [0, 3]⟩, ⟨-125, 3, [2, 1]⟩, ⟨-525, 1, [5]⟩]), (4, [⟨125, 3, [2, 2]⟩, ⟨125, 3, [3, 1]⟩, ⟨1050, 1, [6]⟩, ⟨-125, 3, [4, 0]⟩, ⟨125, 3, [1, 3]⟩, ⟨125, 3, [0, 4]⟩]), (5, [⟨-125, 3, [2, 3]⟩, ⟨-125, 3, [1, 4]⟩, ⟨-125, 3, [4, 1]⟩, ⟨-125, 3, [0, 5]⟩, ⟨125, 3, [5, 0]⟩, ⟨-125, 3, [3, 2]⟩, ⟨-1890, 1, [7]⟩])]⟩,
    ⟨[(0, [⟨-50, 1, [3]⟩, ⟨833333333333, 13, [0, 1]⟩, ⟨-833333333333, 13, [1, 0]⟩]), (1, [⟨-25, 2, [0, 2]⟩, ⟨-25, 2, [1, 1]⟩, ⟨25, 2, [2, 0]⟩, ⟨350, 1, [4]⟩]), (2, [⟨-5, 1, [3, 0]⟩, ⟨416666666667, 12, [1, 2]⟩, ⟨5, 1, [0, 3]⟩, ⟨583333333333, 12, [2, 1]⟩, ⟨-1400, 1, [5]⟩]), (3, [⟨-75, 2, [2, 2]⟩, ⟨-108333333333, 11, [3, 1]⟩, ⟨4200, 1, [6]⟩, ⟨833333333333, 12, [4, 0]⟩, ⟨-666666666667, 12, [1, 3]⟩, ⟨-833333333333, 12, [0, 4]⟩]), (4, [⟨10, 1, [2, 3]⟩, ⟨10, 1, [1, 4]⟩, ⟨175, 2, [4, 1]⟩, ⟨125, 2, [0, 5]⟩, ⟨-125, 2, [5, 0]⟩, ⟨125, 2, [3, 2]⟩, ⟨-10500, 1, [7]⟩])],
     [(0, [⟨10, 1, [2]⟩]), (1, [⟨-50, 1, [3]⟩]), (2, [⟨150, 1, [4]⟩]), (3, [⟨-350, 1, [5]⟩]), (4, [⟨700, 1, [6]⟩])],
     [(0, [⟨833333333333, 13, [1, 1]⟩, ⟨-350, 1, [4]⟩]), (1, [⟨-208333333333, 13, [1, 0, 0]⟩, ⟨416666666667, 13, [0, 1, 0]⟩, ⟨-10, 1, [2, 1]⟩, ⟨-25, 2, [1, 2]⟩, ⟨3150, 1, [5]⟩, ⟨-208333333333, 13, [0, 0, 1]⟩]), (2, [⟨208333333333, 13, [0, 1, 1]⟩, ⟨-416666666667, 13, [0, 2, 0]⟩, ⟨208333333333, 13, [1, 0, 1]⟩, ⟨15, 1, [2, 2]⟩, ⟨5, 1, [1, 3]⟩, ⟨-15750, 1, [6]⟩, ⟨-416666666667, 13, [1, 1, 0]⟩, ⟨208333333333, 13, [0, 0, 2]⟩, ⟨425, 2, [3, 1]⟩, ⟨208333333333, 13, [2, 0, 0]⟩]), (3, [⟨-225, 2, [2, 3]⟩, ⟨-208333333333, 13, [1, 0, 2]⟩, ⟨-208333333333, 13, [2, 0, 1]⟩, ⟨-120833333333, 10, [4, 1]⟩, ⟨-208333333333, 13, [0, 2, 1]⟩, ⟨-208333333333, 13, [1, 1, 1]⟩, ⟨416666666667, 13, [1, 2, 0]⟩, ⟨-208333333333, 13, [3, 0, 0]⟩, ⟨416666666667, 13, [0, 3, 0]⟩, ⟨57750, 1, [7]⟩, ⟨416666666667, 13, [2, 1, 0]⟩, ⟨-525, 2, [3, 2]⟩, ⟨-208333333333, 13, [0, 1, 2]⟩, ⟨-208333333333, 13, [0, 0, 3]⟩, ⟨-833333333333, 12, [1, 4]⟩]), (4, [⟨325, 2, [2, 4]⟩, ⟨208333333333, 13, [0, 0, 4]⟩, ⟨208333333333, 13, [0, 1, 3]⟩, ⟨-416666666667, 13, [1, 3, 0]⟩, ⟨208333333333, 13, [1, 0, 3]⟩, ⟨-416666666667, 13, [0, 4, 0]⟩, ⟨208333333333, 13, [4, 0, 0]⟩, ⟨675, 2, [3, 3]⟩, ⟨208333333333, 13, [2, 0, 2]⟩, ⟨208333333333, 13, [3, 0, 1]⟩, ⟨208333333333, 13, [1, 2, 1]⟩, ⟨-416666666667, 13, [2, 2, 0]⟩, ⟨1375, 2, [4, 2]⟩, ⟨208333333333, 13, [1, 1, 2]⟩, ⟨-416666666667, 13, [3, 1, 0]⟩, ⟨125, 2, [1, 5]⟩, ⟨208333333333, 13, [0, 3, 1]⟩, ⟨275, 1, [5, 1]⟩, ⟨208333333333, 13, [0, 2, 2]⟩, ⟨208333333333, 13, [2, 1, 1]⟩])],
     [(0, [⟨833333333333, 13, [0, 1]⟩, ⟨50, 1, [3]⟩, ⟨-833333333333, 13, [1, 0]⟩]), (1, [⟨-25, 2, [0, 2]⟩, ⟨-25, 2, [1, 1]⟩, ⟨25, 2, [2, 0]⟩, ⟨-350, 1, [4]⟩]), (2, [⟨-5, 1, [3, 0]⟩, ⟨416666666667, 12, [1, 2]⟩, ⟨5, 1, [0, 3]⟩, ⟨583333333333, 12, [2, 1]⟩, ⟨1400, 1, [5]⟩]), (3, [⟨-75, 2, [2, 2]⟩, ⟨-108333333333, 11, [3, 1]⟩, ⟨-4200, 1, [6]⟩, ⟨833333333333, 12, [4, 0]⟩, ⟨-666666666667, 12, [1, 3]⟩, ⟨-833333333333, 12, [0, 4]⟩]), (4, [⟨10, 1, [2, 3]⟩, ⟨10, 1, [1, 4]⟩, ⟨175, 2, [4, 1]⟩, ⟨125, 2, [0, 5]⟩, ⟨-125, 2, [5, 0]⟩, ⟨125, 2, [3, 2]⟩, ⟨10500, 1, [7]⟩])]⟩,
    ⟨[(0, [⟨125, 3, [0, 2]⟩, ⟨125, 3, [1, 1]⟩, ⟨-125, 3, [2, 0]⟩, ⟨-175, 1, [4]⟩]), (1, [⟨625, 3, [3, 0]⟩, ⟨-5, 1, [1, 2]⟩, ⟨-625, 3, [0, 3]⟩, ⟨-75, 2, [2, 1]⟩, ⟨1575, 1, [5]⟩]), (2, [⟨1625, 3, [2, 2]⟩, ⟨2625, 3, [3, 1]⟩, ⟨-7875, 1, [6]⟩, ⟨-1875, 3, [4, 0]⟩, ⟨1375, 3, [1, 3]⟩, ⟨1875, 3, [0, 4]⟩]), (3, [⟨-325, 2, [2, 3]⟩, ⟨-3125, 3, [1, 4]⟩, ⟨-6875, 3, [4, 1]⟩, ⟨-4375, 3, [0, 5]⟩, ⟨4375, 3, [5, 0]⟩, ⟨-425, 2, [3, 2]⟩, ⟨28875, 1, [7]⟩])],
     [(0, [⟨25, 1, [3]⟩]), (1, [⟨-175, 1, [4]⟩]), (2, [⟨700, 1, [5]⟩]), (3, [⟨-2100, 1, [6]⟩])],
     [(0, [⟨104166666667, 13, [1, 0, 0]⟩, ⟨-208333333333, 13, [0, 1, 0]⟩, ⟨375, 3, [2, 1]⟩, ⟨125, 3, [1, 2]⟩, ⟨-1575, 1, [5]⟩, ⟨104166666667, 13, [0, 0, 1]⟩]), (1, [⟨-3125, 5, [0, 1, 1]⟩, ⟨625, 4, [0, 2, 0]⟩, ⟨-416666666667, 13, [1, 0, 1]⟩, ⟨-15, 1, [2, 2]⟩, ⟨-625, 3, [1, 3]⟩, ⟨17325, 1, [6]⟩, ⟨729166666667, 13, [1, 1, 0]⟩, ⟨-3125, 5, [0, 0, 2]⟩, ⟨-4375, 3, [3, 1]⟩, ⟨-3125, 5, [2, 0, 0]⟩]), (2, [⟨4125, 3, [2, 3]⟩, ⟨-114583333333, 12, [1, 2, 0]⟩, ⟨104166666667, 12, [2, 0, 1]⟩, ⟨23125, 3, [4, 1]⟩, ⟨729166666667, 13, [0, 2, 1]⟩, ⟨625, 4, [1, 1, 1]⟩, ⟨625, 4, [1, 0, 2]⟩, ⟨625, 4, [3, 0, 0]⟩, ⟨-125, 3, [0, 3, 0]⟩, ⟨-103950, 1, [7]⟩, ⟨-177083333333, 12, [2, 1, 0]⟩, ⟨8875, 3, [3, 2]⟩, ⟨520833333333, 13, [0, 1, 2]⟩, ⟨625, 4, [0, 0, 3]⟩, ⟨1875, 3, [1, 4]⟩]), (3, [⟨-9375, 3, [2, 4]⟩, ⟨-104166666667, 12, [0, 0, 4]⟩, ⟨-833333333333, 13, [0, 1, 3]⟩, ⟨177083333333, 12, [1, 3, 0]⟩, ⟨-9375, 5, [1, 0, 3]⟩, ⟨208333333333, 12, [0, 4, 0]⟩, ⟨-104166666667, 12, [4, 0, 0]⟩, ⟨-175, 1, [3, 3]⟩, ⟨-125, 3, [2, 0, 2]⟩, ⟨-197916666667, 12, [3, 0, 1]⟩, ⟨-104166666667, 12, [1, 2, 1]⟩, ⟨21875, 5, [2, 2, 0]⟩, ⟨-35625, 3, [4, 2]⟩, ⟨-833333333333, 13, [1, 1, 2]⟩, ⟨333333333333, 12, [3, 1, 0]⟩, ⟨-4375, 3, [1, 5]⟩, ⟨-135416666667, 12, [0, 3, 1]⟩, ⟨-83125, 3, [5, 1]⟩, ⟨-9375, 5, [0, 2, 2]⟩, ⟨-125, 3, [2, 1, 1]⟩])],
     [(0, [⟨125, 3, [0, 2]⟩, ⟨125, 3, [1, 1]⟩, ⟨-125, 3, [2, 0]⟩, ⟨175, 1, [4]⟩]), (1, [⟨625, 3, [3, 0]⟩, ⟨-5, 1, [1, 2]⟩, ⟨-625, 3, [0, 3]⟩, ⟨-75, 2, [2, 1]⟩, ⟨-1575, 1, [5]⟩]), (2, [⟨1625, 3, [2, 2]⟩, ⟨2625, 3, [3, 1]⟩, ⟨7875, 1, [6]⟩, ⟨-1875, 3, [4, 0]⟩, ⟨1375, 3, [1, 3]⟩, ⟨1875, 3, [0, 4]⟩]), (3, [⟨-325, 2, [2, 3]⟩, ⟨-3125, 3, [1, 4]⟩, ⟨-6875, 3, [4, 1]⟩, ⟨-4375, 3, [0, 5]⟩, ⟨4375, 3, [5, 0]⟩, ⟨-425, 2, [3, 2]⟩, ⟨-28875, 1, [7]⟩])]⟩,
    ⟨[(0, [⟨-25, 2, [3, 0]⟩, ⟨2, 1, [1, 2]⟩, ⟨25, 2, [0, 3]⟩, ⟨3, 1, [2, 1]⟩, ⟨-630, 1, [5]⟩]), (1, [⟨-15, 1, [2, 2]⟩, ⟨-25, 1, [3, 1]⟩, ⟨6930, 1, [6]⟩, ⟨175, 2, [4, 0]⟩, ⟨-125, 2, [1, 3]⟩, ⟨-175, 2, [0, 4]⟩]), (2, [⟨505, 2, [2, 3]⟩, ⟨475, 2, [1, 4]⟩, ⟨115, 1, [4, 1]⟩, ⟨70, 1, [0, 5]⟩, ⟨-70, 1, [5, 0]⟩, ⟨67, 1, [3, 2]⟩, ⟨-41580, 1, [7]⟩])],
     [(0, [⟨70, 1, [4]⟩]), (1, [⟨-630, 1, [5]⟩]), (2, [⟨3150, 1, [6]⟩])],
     [(0, [⟨125, 4, [0, 1, 1]⟩, ⟨-25, 3, [0, 2, 0]⟩, ⟨166666666667, 13, [1, 0, 1]⟩, ⟨6, 1, [2, 2]⟩, ⟨25, 2, [1, 3]⟩, ⟨-6930, 1, [6]⟩, ⟨-291666666667, 13, [1, 1, 0]⟩, ⟨125, 4, [0, 0, 2]⟩, ⟨15, 1, [3, 1]⟩, ⟨125, 4, [2, 0, 0]⟩]), (1, [⟨-375, 2, [2, 3]⟩, ⟨-625, 4, [1, 0, 2]⟩, ⟨-125, 3, [2, 0, 1]⟩, ⟨-1925, 2, [4, 1]⟩, ⟨-75, 3, [0, 2, 1]⟩, ⟨-625, 4, [1, 1, 1]⟩, ⟨1125, 4, [1, 2, 0]⟩, ⟨-625, 4, [3, 0, 0]⟩, ⟨125, 3, [0, 3, 0]⟩, ⟨90090, 1, [7]⟩, ⟨2, 1, [2, 1, 0]⟩, ⟨-75, 1, [3, 2]⟩, ⟨-5, 2, [0, 1, 2]⟩, ⟨-625, 4, [0, 0, 3]⟩, ⟨-175, 2, [1, 4]⟩]), (2, [⟨1425, 2, [2, 4]⟩, ⟨1875, 4, [0, 0, 4]⟩, ⟨1375, 4, [0, 1, 3]⟩, ⟨-3, 1, [1, 3, 0]⟩, ⟨1625, 4, [1, 0, 3]⟩, ⟨-375, 3, [0, 4, 0]⟩, ⟨1875, 4, [4, 0, 0]⟩, ⟨255, 1, [3, 3]⟩, ⟨2375, 4, [2, 0, 2]⟩, ⟨475, 3, [3, 0, 1]⟩, ⟨191666666667, 12, [1, 2, 1]⟩, ⟨-4, 1, [2, 2, 0]⟩, ⟨4925, 2, [4, 2]⟩, ⟨133333333333, 12, [1, 1, 2]⟩, ⟨-7375, 4, [3, 1, 0]⟩, ⟨70, 1, [1, 5]⟩, ⟨2625, 4, [0, 3, 1]⟩, ⟨12075, 2, [5, 1]⟩, ⟨1625, 4, [0, 2, 2]⟩, ⟨2375, 4, [2, 1, 1]⟩])],
     [(0, [⟨-25, 2, [3, 0]⟩, ⟨2, 1, [1, 2]⟩, ⟨25, 2, [0, 3]⟩, ⟨3, 1, [2, 1]⟩, ⟨630, 1, [5]⟩]), (1, [⟨-15, 1, [2, 2]⟩, ⟨-25, 1, [3, 1]⟩, ⟨-6930, 1, [6]⟩, ⟨175, 2, [4, 0]⟩, ⟨-125, 2, [1, 3]⟩, ⟨-175, 2, [0, 4]⟩]), (2, [⟨505, 2, [2, 3]⟩, ⟨475, 2, [1, 4]⟩, ⟨115, 1, [4, 1]⟩, ⟨70, 1, [0, 5]⟩, ⟨-70, 1, [5, 0]⟩, ⟨67, 1, [3, 2]⟩, ⟨41580, 1, [7]⟩])]⟩,
    ⟨[(0, [⟨5, 1, [2, 2]⟩, ⟨833333333333, 12, [3, 1]⟩, ⟨-2310, 1, [6]⟩, ⟨-583333333333, 12, [4, 0]⟩, ⟨416666666667, 12, [1, 3]⟩, ⟨583333333333, 12, [0, 4]⟩]), (1, [⟨-375, 2, [2, 3]⟩, ⟨-35, 1, [1, 4]⟩, ⟨-875, 2, [4, 1]⟩, ⟨-525, 2, [0, 5]⟩, ⟨525, 2, [5, 0]⟩, ⟨-50, 1, [3, 2]⟩, ⟨30030, 1, [7]⟩])],
     [(0, [⟨210, 1, [5]⟩]), (1, [⟨-2310, 1, [6]⟩])],
     [(0, [⟨125, 2, [2, 3]⟩, ⟨208333333333, 13, [1, 0, 2]⟩, ⟨416666666667, 13, [2, 0, 1]⟩, ⟨583333333333, 11, [4, 1]⟩, ⟨25, 3, [0, 2, 1]⟩, ⟨208333333333, 13, [1, 1, 1]⟩, ⟨-375, 4, [1, 2, 0]⟩, ⟨208333333333, 13, [3, 0, 0]⟩, ⟨-416666666667, 13, [0, 3, 0]⟩, ⟨-30030, 1, [7]⟩, ⟨-666666666667, 13, [2, 1, 0]⟩, ⟨25, 1, [3, 2]⟩, ⟨166666666667, 13, [0, 1, 2]⟩, ⟨208333333333, 13, [0, 0, 3]⟩, ⟨583333333333, 12, [1, 4]⟩]), (1, [⟨-105, 1, [2, 4]⟩, ⟨-145833333333, 12, [0, 0, 4]⟩, ⟨-104166666667, 12, [0, 1, 3]⟩, ⟨229166666667, 12, [1, 3, 0]⟩, ⟨-125, 3, [1, 0, 3]⟩, ⟨291666666667, 12, [0, 4, 0]⟩, ⟨-145833333333, 12, [4, 0, 0]⟩, ⟨-1875, 2, [3, 3]⟩, ⟨-1875, 4, [2, 0, 2]⟩, ⟨-416666666667, 12, [3, 0, 1]⟩, ⟨-15, 2, [1, 2, 1]⟩, ⟨3125, 4, [2, 2, 0]⟩, ⟨-350, 1, [4, 2]⟩, ⟨-1, 1, [1, 1, 2]⟩, ⟨625, 3, [3, 1, 0]⟩, ⟨-525, 2, [1, 5]⟩, ⟨-208333333333, 12, [0, 3, 1]⟩, ⟨-840, 1, [5, 1]⟩, ⟨-125, 3, [0, 2, 2]⟩, ⟨-1875, 4, [2, 1, 1]⟩])],
     [(0, [⟨5, 1, [2, 2]⟩, ⟨833333333333, 12, [3, 1]⟩, ⟨2310, 1, [6]⟩, ⟨-583333333333, 12, [4, 0]⟩, ⟨416666666667, 12, [1, 3]⟩, ⟨583333333333, 12, [0, 4]⟩]), (1, [⟨-375, 2, [2, 3]⟩, ⟨-35, 1, [1, 4]⟩, ⟨-875, 2, [4, 1]⟩, ⟨-525, 2, [0, 5]⟩, ⟨525, 2, [5, 0]⟩, ⟨-50, 1, [3, 2]⟩, ⟨-30030, 1, [7]⟩])]⟩,
    ⟨[(0, [⟨107142857143, 11, [2, 3]⟩, ⟨10, 1, [1, 4]⟩, ⟨25, 1, [4, 1]⟩, ⟨15, 1, [0, 5]⟩, ⟨-15, 1, [5, 0]⟩, ⟨142857142857, 11, [3, 2]⟩, ⟨-8580, 1, [7]⟩])],
     [(0, [⟨660, 1, [6]⟩])],
     [(0, [⟨30, 1, [2, 4]⟩, ⟨416666666667, 13, [0, 0, 4]⟩, ⟨297619047619, 13, [0, 1, 3]⟩, ⟨-654761904762, 13, [1, 3, 0]⟩, ⟨357142857143, 13, [1, 0, 3]⟩, ⟨-833333333333, 13, [0, 4, 0]⟩, ⟨416666666667, 13, [4, 0, 0]⟩, ⟨535714285714, 11, [3, 3]⟩, ⟨535714285714, 13, [2, 0, 2]⟩, ⟨119047619048, 12, [3, 0, 1]⟩, ⟨428571428571, 13, [1, 2, 1]⟩, ⟨-892857142857, 13, [2, 2, 0]⟩, ⟨100, 1, [4, 2]⟩, ⟨285714285714, 13, [1, 1, 2]⟩, ⟨-178571428571, 12, [3, 1, 0]⟩, ⟨15, 1, [1, 5]⟩, ⟨595238095238, 13, [0, 3, 1]⟩, ⟨225, 1, [5, 1]⟩, ⟨357142857143, 13, [0, 2, 2]⟩, ⟨535714285714, 13, [2, 1, 1]⟩])],
     [(0, [⟨107142857143, 11, [2, 3]⟩, ⟨10, 1, [1, 4]⟩, ⟨25, 1, [4, 1]⟩, ⟨15, 1, [0, 5]⟩, ⟨-15, 1, [5, 0]⟩, ⟨142857142857, 11, [3, 2]⟩, ⟨8580, 1, [7]⟩])]⟩]

end Verif.MFormulas
