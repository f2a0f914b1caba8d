import Verif.Model.MatscsTerm

/-! Generated by `tools/gen_matscs.py`: row 3 of `tDelta` — matslise/matscs/matscs_formulas.cpp:145-419 -/
namespace Verif.MFormulas

/-- `tDelta(3, 0 … 9)` — matscs_formulas.cpp -/
def tDelta3 : List MEntry4 := [
    ⟨[],
     [],
     [],
     []⟩,
    ⟨[],
     [],
     [],
     []⟩,
    ⟨[],
     [],
     [],
     []⟩,
    ⟨[],
     [],
     [],
     []⟩,
    ⟨[],
     [],
     [],
     []⟩,
    ⟨[(0, [⟨-166666666667, 12, [0, 1]⟩, ⟨25, 1, [3]⟩, ⟨166666666667, 12, [1, 0]⟩]), (1, [⟨5, 1, [0, 2]⟩, ⟨25, 2, [1, 1]⟩, ⟨-5, 1, [2, 0]⟩, ⟨-175, 1, [4]⟩]), (2, [⟨10, 1, [3, 0]⟩, ⟨-583333333333, 12, [1, 2]⟩, ⟨-10, 1, [0, 3]⟩, ⟨-416666666667, 12, [2, 1]⟩, ⟨700, 1, [5]⟩]), (3, [⟨75, 2, [2, 2]⟩, ⟨666666666667, 12, [3, 1]⟩, ⟨-2100, 1, [6]⟩, ⟨-166666666667, 11, [4, 0]⟩, ⟨108333333333, 11, [1, 3]⟩, ⟨166666666667, 11, [0, 4]⟩]), (4, [⟨-125, 2, [2, 3]⟩, ⟨-175, 2, [1, 4]⟩, ⟨-10, 1, [4, 1]⟩, ⟨-25, 1, [0, 5]⟩, ⟨25, 1, [5, 0]⟩, ⟨-10, 1, [3, 2]⟩, ⟨5250, 1, [7]⟩])],
     [(0, [⟨-5, 1, [2]⟩]), (1, [⟨25, 1, [3]⟩, ⟨-125, 3, [0, 1]⟩, ⟨125, 3, [1, 0]⟩]), (2, [⟨125, 3, [0, 2]⟩, ⟨125, 3, [1, 1]⟩, ⟨-125, 3, [2, 0]⟩, ⟨-75, 1, [4]⟩]), (3, [⟨125, 3, [3, 0]⟩, ⟨-125, 3, [1, 2]⟩, ⟨-125, 3, [0, 3]⟩, ⟨175, 1, [5]⟩, ⟨-125, 3, [2, 1]⟩]), (4, [⟨125, 3, [2, 2]⟩, ⟨125, 3, [1, 3]⟩, ⟨-350, 1, [6]⟩, ⟨-125, 3, [4, 0]⟩, ⟨125, 3, [3, 1]⟩, ⟨125, 3, [0, 4]⟩])],
     [(0, [⟨-375, 3, [0, 2]⟩, ⟨-291666666667, 12, [1, 1]⟩, ⟨375, 3, [2, 0]⟩, ⟨175, 1, [4]⟩]), (1, [⟨-208333333333, 13, [1, 0, 0]⟩, ⟨416666666667, 13, [0, 1, 0]⟩, ⟨-1875, 3, [3, 0]⟩, ⟨1875, 3, [0, 3]⟩, ⟨-1575, 1, [5]⟩, ⟨125, 2, [1, 2]⟩, ⟨125, 2, [2, 1]⟩, ⟨-208333333333, 13, [0, 0, 1]⟩]), (2, [⟨208333333333, 13, [0, 1, 1]⟩, ⟨-416666666667, 13, [0, 2, 0]⟩, ⟨208333333333, 13, [1, 0, 1]⟩, ⟨-3375, 3, [2, 2]⟩, ⟨-3625, 3, [1, 3]⟩, ⟨7875, 1, [6]⟩, ⟨-416666666667, 13, [1, 1, 0]⟩, ⟨5625, 3, [4, 0]⟩, ⟨208333333333, 13, [0, 0, 2]⟩, ⟨-3625, 3, [3, 1]⟩, ⟨208333333333, 13, [2, 0, 0]⟩, ⟨-5625, 3, [0, 4]⟩]), (3, [⟨75, 1, [2, 3]⟩, ⟨-208333333333, 13, [1, 0, 2]⟩, ⟨-208333333333, 13, [2, 0, 1]⟩, ⟨854166666667, 11, [4, 1]⟩, ⟨-208333333333, 13, [0, 2, 1]⟩, ⟨-208333333333, 13, [1, 1, 1]⟩, ⟨416666666667, 13, [1, 2, 0]⟩, ⟨-208333333333, 13, [0, 0, 3]⟩, ⟨416666666667, 13, [0, 3, 0]⟩, ⟨13125, 3, [0, 5]⟩, ⟨-13125, 3, [5, 0]⟩, ⟨416666666667, 13, [2, 1, 0]⟩, ⟨75, 1, [3, 2]⟩, ⟨-28875, 1, [7]⟩, ⟨-208333333333, 13, [3, 0, 0]⟩, ⟨-208333333333, 13, [0, 1, 2]⟩, ⟨854166666667, 11, [1, 4]⟩]), (4, [⟨208333333333, 13, [0, 0, 4]⟩, ⟨-416666666667, 13, [0, 4, 0]⟩, ⟨208333333333, 13, [4, 0, 0]⟩, ⟨208333333333, 13, [1, 2, 1]⟩, ⟨-416666666667, 13, [1, 3, 0]⟩, ⟨-1475, 2, [2, 4]⟩, ⟨-1425, 2, [3, 3]⟩, ⟨208333333333, 13, [2, 0, 2]⟩, ⟨-416666666667, 13, [2, 2, 0]⟩, ⟨2625, 2, [6, 0]⟩, ⟨208333333333, 13, [0, 1, 3]⟩, ⟨208333333333, 13, [2, 1, 1]⟩, ⟨208333333333, 13, [1, 0, 3]⟩, ⟨-175, 1, [5, 1]⟩, ⟨-416666666667, 13, [3, 1, 0]⟩, ⟨-2625, 2, [0, 6]⟩, ⟨208333333333, 13, [0, 2, 2]⟩, ⟨208333333333, 13, [3, 0, 1]⟩, ⟨-1475, 2, [4, 2]⟩, ⟨208333333333, 13, [1, 1, 2]⟩, ⟨-175, 1, [1, 5]⟩, ⟨208333333333, 13, [0, 3, 1]⟩])],
     [(0, [⟨-25, 1, [3]⟩, ⟨833333333333, 13, [0, 1]⟩, ⟨-833333333333, 13, [1, 0]⟩]), (1, [⟨-25, 2, [0, 2]⟩, ⟨-25, 2, [1, 1]⟩, ⟨25, 2, [2, 0]⟩, ⟨175, 1, [4]⟩]), (2, [⟨-5, 1, [3, 0]⟩, ⟨416666666667, 12, [1, 2]⟩, ⟨5, 1, [0, 3]⟩, ⟨583333333333, 12, [2, 1]⟩, ⟨-700, 1, [5]⟩]), (3, [⟨-75, 2, [2, 2]⟩, ⟨-108333333333, 11, [3, 1]⟩, ⟨2100, 1, [6]⟩, ⟨833333333333, 12, [4, 0]⟩, ⟨-666666666667, 12, [1, 3]⟩, ⟨-833333333333, 12, [0, 4]⟩]), (4, [⟨10, 1, [2, 3]⟩, ⟨10, 1, [1, 4]⟩, ⟨175, 2, [4, 1]⟩, ⟨125, 2, [0, 5]⟩, ⟨-125, 2, [5, 0]⟩, ⟨125, 2, [3, 2]⟩, ⟨-5250, 1, [7]⟩])]⟩,
    ⟨[(0, [⟨-375, 3, [0, 2]⟩, ⟨-291666666667, 12, [1, 1]⟩, ⟨375, 3, [2, 0]⟩, ⟨175, 1, [4]⟩]), (1, [⟨-208333333333, 13, [1, 0, 0]⟩, ⟨416666666667, 13, [0, 1, 0]⟩, ⟨-1875, 3, [3, 0]⟩, ⟨1875, 3, [0, 3]⟩, ⟨125, 2, [2, 1]⟩, ⟨125, 2, [1, 2]⟩, ⟨-1575, 1, [5]⟩, ⟨-208333333333, 13, [0, 0, 1]⟩]), (2, [⟨-416666666667, 13, [1, 1, 0]⟩, ⟨-416666666667, 13, [0, 2, 0]⟩, ⟨208333333333, 13, [1, 0, 1]⟩, ⟨-3375, 3, [2, 2]⟩, ⟨-3625, 3, [1, 3]⟩, ⟨7875, 1, [6]⟩, ⟨208333333333, 13, [0, 1, 1]⟩, ⟨5625, 3, [4, 0]⟩, ⟨208333333333, 13, [0, 0, 2]⟩, ⟨-3625, 3, [3, 1]⟩, ⟨208333333333, 13, [2, 0, 0]⟩, ⟨-5625, 3, [0, 4]⟩]), (3, [⟨75, 1, [2, 3]⟩, ⟨-208333333333, 13, [1, 0, 2]⟩, ⟨-208333333333, 13, [2, 0, 1]⟩, ⟨13125, 3, [0, 5]⟩, ⟨-208333333333, 13, [0, 2, 1]⟩, ⟨-208333333333, 13, [1, 1, 1]⟩, ⟨416666666667, 13, [1, 2, 0]⟩, ⟨-208333333333, 13, [0, 0, 3]⟩, ⟨416666666667, 13, [0, 3, 0]⟩, ⟨854166666667, 11, [4, 1]⟩, ⟨-13125, 3, [5, 0]⟩, ⟨416666666667, 13, [2, 1, 0]⟩, ⟨75, 1, [3, 2]⟩, ⟨-208333333333, 13, [0, 1, 2]⟩, ⟨-208333333333, 13, [3, 0, 0]⟩, ⟨-28875, 1, [7]⟩, ⟨854166666667, 11, [1, 4]⟩])],
     [(0, [⟨-25, 1, [3]⟩, ⟨833333333333, 13, [0, 1]⟩, ⟨-833333333333, 13, [1, 0]⟩]), (1, [⟨-25, 2, [0, 2]⟩, ⟨-25, 2, [1, 1]⟩, ⟨25, 2, [2, 0]⟩, ⟨175, 1, [4]⟩]), (2, [⟨-5, 1, [3, 0]⟩, ⟨416666666667, 12, [1, 2]⟩, ⟨5, 1, [0, 3]⟩, ⟨-700, 1, [5]⟩, ⟨583333333333, 12, [2, 1]⟩]), (3, [⟨-75, 2, [2, 2]⟩, ⟨-666666666667, 12, [1, 3]⟩, ⟨2100, 1, [6]⟩, ⟨833333333333, 12, [4, 0]⟩, ⟨-108333333333, 11, [3, 1]⟩, ⟨-833333333333, 12, [0, 4]⟩])],
     [(0, [⟨-104166666667, 13, [1, 0, 0]⟩, ⟨208333333333, 13, [0, 1, 0]⟩, ⟨125, 2, [3, 0]⟩, ⟨-125, 2, [0, 3]⟩, ⟨1575, 1, [5]⟩, ⟨-1125, 3, [1, 2]⟩, ⟨-1375, 3, [2, 1]⟩, ⟨-104166666667, 13, [0, 0, 1]⟩]), (1, [⟨520833333333, 13, [1, 1, 0]⟩, ⟨-625, 4, [0, 2, 0]⟩, ⟨-416666666667, 13, [1, 0, 1]⟩, ⟨75, 1, [2, 2]⟩, ⟨6875, 3, [1, 3]⟩, ⟨-17325, 1, [6]⟩, ⟨-104166666667, 13, [0, 1, 1]⟩, ⟨-875, 2, [4, 0]⟩, ⟨3125, 5, [0, 0, 2]⟩, ⟨9375, 3, [3, 1]⟩, ⟨3125, 5, [2, 0, 0]⟩, ⟨875, 2, [0, 4]⟩]), (2, [⟨-26375, 3, [2, 3]⟩, ⟨-104166666667, 13, [1, 2, 0]⟩, ⟨145833333333, 12, [2, 0, 1]⟩, ⟨-38125, 3, [4, 1]⟩, ⟨520833333333, 13, [0, 2, 1]⟩, ⟨625, 4, [1, 1, 1]⟩, ⟨208333333333, 13, [1, 0, 2]⟩, ⟨-625, 4, [0, 0, 3]⟩, ⟨125, 3, [0, 3, 0]⟩, ⟨-350, 1, [0, 5]⟩, ⟨350, 1, [5, 0]⟩, ⟨-197916666667, 12, [2, 1, 0]⟩, ⟨-29875, 3, [3, 2]⟩, ⟨103950, 1, [7]⟩, ⟨-625, 4, [3, 0, 0]⟩, ⟨-104166666667, 13, [0, 1, 2]⟩, ⟨-25625, 3, [1, 4]⟩]), (3, [⟨104166666667, 12, [0, 0, 4]⟩, ⟨-208333333333, 12, [0, 4, 0]⟩, ⟨104166666667, 12, [4, 0, 0]⟩, ⟨-104166666667, 12, [1, 2, 1]⟩, ⟨-520833333333, 13, [1, 3, 0]⟩, ⟨73125, 3, [2, 4]⟩, ⟨7875, 2, [3, 3]⟩, ⟨-125, 3, [2, 0, 2]⟩, ⟨15625, 5, [2, 2, 0]⟩, ⟨-1050, 1, [6, 0]⟩, ⟨416666666667, 13, [0, 1, 3]⟩, ⟨-166666666667, 12, [2, 1, 1]⟩, ⟨104166666667, 13, [1, 0, 3]⟩, ⟨118125, 3, [5, 1]⟩, ⟨416666666667, 12, [3, 1, 0]⟩, ⟨1050, 1, [0, 6]⟩, ⟨-3125, 5, [0, 2, 2]⟩, ⟨-302083333333, 12, [3, 0, 1]⟩, ⟨90625, 3, [4, 2]⟩, ⟨-416666666667, 13, [1, 1, 2]⟩, ⟨74375, 3, [1, 5]⟩, ⟨-114583333333, 12, [0, 3, 1]⟩])],
     [(0, [⟨125, 3, [0, 2]⟩, ⟨208333333333, 12, [1, 1]⟩, ⟨-125, 3, [2, 0]⟩, ⟨-175, 1, [4]⟩]), (1, [⟨-208333333333, 13, [1, 0, 0]⟩, ⟨416666666667, 13, [0, 1, 0]⟩, ⟨625, 3, [3, 0]⟩, ⟨-625, 3, [0, 3]⟩, ⟨-125, 2, [2, 1]⟩, ⟨-75, 2, [1, 2]⟩, ⟨1575, 1, [5]⟩, ⟨-208333333333, 13, [0, 0, 1]⟩]), (2, [⟨-416666666667, 13, [1, 1, 0]⟩, ⟨-416666666667, 13, [0, 2, 0]⟩, ⟨208333333333, 13, [1, 0, 1]⟩, ⟨2625, 3, [2, 2]⟩, ⟨1875, 3, [1, 3]⟩, ⟨-7875, 1, [6]⟩, ⟨208333333333, 13, [0, 1, 1]⟩, ⟨-1875, 3, [4, 0]⟩, ⟨208333333333, 13, [0, 0, 2]⟩, ⟨4375, 3, [3, 1]⟩, ⟨208333333333, 13, [2, 0, 0]⟩, ⟨1875, 3, [0, 4]⟩]), (3, [⟨-50, 1, [2, 3]⟩, ⟨-208333333333, 13, [1, 0, 2]⟩, ⟨-208333333333, 13, [2, 0, 1]⟩, ⟨-114583333333, 10, [4, 1]⟩, ⟨-208333333333, 13, [0, 2, 1]⟩, ⟨-208333333333, 13, [1, 1, 1]⟩, ⟨416666666667, 13, [1, 2, 0]⟩, ⟨-208333333333, 13, [0, 0, 3]⟩, ⟨416666666667, 13, [0, 3, 0]⟩, ⟨-4375, 3, [0, 5]⟩, ⟨4375, 3, [5, 0]⟩, ⟨416666666667, 13, [2, 1, 0]⟩, ⟨-70, 1, [3, 2]⟩, ⟨28875, 1, [7]⟩, ⟨-208333333333, 13, [3, 0, 0]⟩, ⟨-208333333333, 13, [0, 1, 2]⟩, ⟨-395833333333, 11, [1, 4]⟩])]⟩,
    ⟨[(0, [⟨104166666667, 13, [1, 0, 0]⟩, ⟨-208333333333, 13, [0, 1, 0]⟩, ⟨10, 1, [3, 0]⟩, ⟨-10, 1, [0, 3]⟩, ⟨-825, 3, [2, 1]⟩, ⟨-675, 3, [1, 2]⟩, ⟨945, 1, [5]⟩, ⟨104166666667, 13, [0, 0, 1]⟩]), (1, [⟨729166666667, 13, [1, 1, 0]⟩, ⟨625, 4, [0, 2, 0]⟩, ⟨-416666666667, 13, [1, 0, 1]⟩, ⟨45, 1, [2, 2]⟩, ⟨4375, 3, [1, 3]⟩, ⟨-10395, 1, [6]⟩, ⟨-3125, 5, [0, 1, 1]⟩, ⟨-70, 1, [4, 0]⟩, ⟨-3125, 5, [0, 0, 2]⟩, ⟨5625, 3, [3, 1]⟩, ⟨-3125, 5, [2, 0, 0]⟩, ⟨70, 1, [0, 4]⟩]), (2, [⟨-16075, 3, [2, 3]⟩, ⟨-114583333333, 12, [1, 2, 0]⟩, ⟨104166666667, 12, [2, 0, 1]⟩, ⟨-280, 1, [0, 5]⟩, ⟨729166666667, 13, [0, 2, 1]⟩, ⟨625, 4, [1, 1, 1]⟩, ⟨625, 4, [1, 0, 2]⟩, ⟨625, 4, [0, 0, 3]⟩, ⟨-125, 3, [0, 3, 0]⟩, ⟨-22875, 3, [4, 1]⟩, ⟨280, 1, [5, 0]⟩, ⟨-177083333333, 12, [2, 1, 0]⟩, ⟨-17925, 3, [3, 2]⟩, ⟨520833333333, 13, [0, 1, 2]⟩, ⟨625, 4, [3, 0, 0]⟩, ⟨62370, 1, [7]⟩, ⟨-17125, 3, [1, 4]⟩])],
     [(0, [⟨125, 3, [0, 2]⟩, ⟨125, 3, [1, 1]⟩, ⟨-125, 3, [2, 0]⟩, ⟨-105, 1, [4]⟩]), (1, [⟨625, 3, [3, 0]⟩, ⟨-5, 1, [1, 2]⟩, ⟨-625, 3, [0, 3]⟩, ⟨945, 1, [5]⟩, ⟨-75, 2, [2, 1]⟩]), (2, [⟨1625, 3, [2, 2]⟩, ⟨1375, 3, [1, 3]⟩, ⟨-4725, 1, [6]⟩, ⟨-1875, 3, [4, 0]⟩, ⟨2625, 3, [3, 1]⟩, ⟨1875, 3, [0, 4]⟩])],
     [(0, [⟨125, 4, [1, 1, 0]⟩, ⟨375, 4, [0, 2, 0]⟩, ⟨-416666666667, 14, [1, 0, 1]⟩, ⟨-4275, 3, [2, 2]⟩, ⟨-35, 1, [1, 3]⟩, ⟨10395, 1, [6]⟩, ⟨-833333333333, 14, [0, 1, 1]⟩, ⟨4375, 3, [4, 0]⟩, ⟨-1875, 5, [0, 0, 2]⟩, ⟨-60, 1, [3, 1]⟩, ⟨-1875, 5, [2, 0, 0]⟩, ⟨-4375, 3, [0, 4]⟩]), (1, [⟨31875, 3, [2, 3]⟩, ⟨-78125, 7, [0, 1, 0, 0]⟩, ⟨3125, 5, [1, 0, 2]⟩, ⟨39375, 3, [3, 2]⟩, ⟨-15625, 5, [2, 0, 1]⟩, ⟨55125, 3, [4, 1]⟩, ⟨-260416666667, 14, [0, 0, 0, 1]⟩, ⟨-416666666667, 13, [1, 1, 1]⟩, ⟨28875, 3, [1, 4]⟩, ⟨9375, 5, [0, 0, 3]⟩, ⟨-1875, 4, [0, 3, 0]⟩, ⟨4375, 5, [0, 1, 2]⟩, ⟨-39375, 3, [5, 0]⟩, ⟨16875, 5, [2, 1, 0]⟩, ⟨-75, 3, [1, 2, 0]⟩, ⟨-135135, 1, [7]⟩, ⟨78125, 7, [0, 0, 1, 0]⟩, ⟨9375, 5, [3, 0, 0]⟩, ⟨260416666667, 14, [1, 0, 0, 0]⟩, ⟨-125, 4, [0, 2, 1]⟩, ⟨39375, 3, [0, 5]⟩]), (2, [⟨-28125, 5, [0, 0, 4]⟩, ⟨260416666667, 14, [0, 0, 0, 2]⟩, ⟨5625, 4, [0, 4, 0]⟩, ⟨-28125, 5, [4, 0, 0]⟩, ⟨170833333333, 12, [1, 2, 1]⟩, ⟨260416666667, 14, [0, 0, 1, 1]⟩, ⟨-260416666667, 14, [2, 0, 0, 0]⟩, ⟨2625, 4, [1, 3, 0]⟩, ⟨-1420, 1, [2, 4]⟩, ⟨-163875, 3, [3, 3]⟩, ⟨1125, 4, [2, 0, 2]⟩, ⟨-208333333333, 14, [1, 1, 2]⟩, ⟨-78125, 7, [0, 1, 1, 0]⟩, ⟨-5625, 5, [2, 2, 0]⟩, ⟨196875, 3, [6, 0]⟩, ⟨-14375, 5, [0, 1, 3]⟩, ⟨78125, 7, [1, 1, 0, 0]⟩, ⟨-20325, 2, [4, 2]⟩, ⟨-78125, 7, [0, 0, 2, 0]⟩, ⟨-11875, 5, [1, 0, 3]⟩, ⟨-78125, 7, [1, 0, 1, 0]⟩, ⟨78125, 7, [0, 2, 0, 0]⟩, ⟨-196875, 3, [0, 6]⟩, ⟨260416666667, 14, [1, 0, 0, 1]⟩, ⟨-286125, 3, [5, 1]⟩, ⟨-5625, 5, [0, 2, 2]⟩, ⟨81875, 5, [3, 0, 1]⟩, ⟨310416666667, 12, [2, 1, 1]⟩, ⟨-95625, 5, [3, 1, 0]⟩, ⟨-137375, 3, [1, 5]⟩, ⟨1375, 4, [0, 3, 1]⟩, ⟨260416666667, 14, [0, 1, 0, 1]⟩])],
     [(0, [⟨104166666667, 13, [1, 0, 0]⟩, ⟨-208333333333, 13, [0, 1, 0]⟩, ⟨-25, 2, [3, 0]⟩, ⟨25, 2, [0, 3]⟩, ⟨675, 3, [2, 1]⟩, ⟨325, 3, [1, 2]⟩, ⟨-945, 1, [5]⟩, ⟨104166666667, 13, [0, 0, 1]⟩]), (1, [⟨729166666667, 13, [1, 1, 0]⟩, ⟨625, 4, [0, 2, 0]⟩, ⟨-416666666667, 13, [1, 0, 1]⟩, ⟨-30, 1, [2, 2]⟩, ⟨-1875, 3, [1, 3]⟩, ⟨10395, 1, [6]⟩, ⟨-3125, 5, [0, 1, 1]⟩, ⟨175, 2, [4, 0]⟩, ⟨-3125, 5, [0, 0, 2]⟩, ⟨-5625, 3, [3, 1]⟩, ⟨-3125, 5, [2, 0, 0]⟩, ⟨-175, 2, [0, 4]⟩]), (2, [⟨9175, 3, [2, 3]⟩, ⟨625, 4, [1, 0, 2]⟩, ⟨104166666667, 12, [2, 0, 1]⟩, ⟨25875, 3, [4, 1]⟩, ⟨729166666667, 13, [0, 2, 1]⟩, ⟨625, 4, [1, 1, 1]⟩, ⟨-114583333333, 12, [1, 2, 0]⟩, ⟨625, 4, [0, 0, 3]⟩, ⟨-125, 3, [0, 3, 0]⟩, ⟨70, 1, [0, 5]⟩, ⟨-70, 1, [5, 0]⟩, ⟨-177083333333, 12, [2, 1, 0]⟩, ⟨14325, 3, [3, 2]⟩, ⟨-62370, 1, [7]⟩, ⟨625, 4, [3, 0, 0]⟩, ⟨520833333333, 13, [0, 1, 2]⟩, ⟨6625, 3, [1, 4]⟩])]⟩,
    ⟨[(0, [⟨-291666666667, 13, [1, 1, 0]⟩, ⟨-25, 3, [0, 2, 0]⟩, ⟨166666666667, 13, [1, 0, 1]⟩, ⟨-19, 1, [2, 2]⟩, ⟨-183333333333, 11, [1, 3]⟩, ⟨4620, 1, [6]⟩, ⟨125, 4, [0, 1, 1]⟩, ⟨291666666667, 11, [4, 0]⟩, ⟨125, 4, [0, 0, 2]⟩, ⟨-266666666667, 11, [3, 1]⟩, ⟨125, 4, [2, 0, 0]⟩, ⟨-291666666667, 11, [0, 4]⟩]), (1, [⟨150, 1, [2, 3]⟩, ⟨-625, 4, [1, 0, 2]⟩, ⟨-125, 3, [2, 0, 1]⟩, ⟨2625, 2, [0, 5]⟩, ⟨-75, 3, [0, 2, 1]⟩, ⟨-625, 4, [1, 1, 1]⟩, ⟨1125, 4, [1, 2, 0]⟩, ⟨-625, 4, [0, 0, 3]⟩, ⟨125, 3, [0, 3, 0]⟩, ⟨245, 1, [4, 1]⟩, ⟨-2625, 2, [5, 0]⟩, ⟨2, 1, [2, 1, 0]⟩, ⟨175, 1, [3, 2]⟩, ⟨-5, 2, [0, 1, 2]⟩, ⟨-625, 4, [3, 0, 0]⟩, ⟨-60060, 1, [7]⟩, ⟨1575, 2, [1, 4]⟩])],
     [(0, [⟨-25, 2, [3, 0]⟩, ⟨2, 1, [1, 2]⟩, ⟨25, 2, [0, 3]⟩, ⟨-420, 1, [5]⟩, ⟨3, 1, [2, 1]⟩]), (1, [⟨-15, 1, [2, 2]⟩, ⟨-125, 2, [1, 3]⟩, ⟨4620, 1, [6]⟩, ⟨175, 2, [4, 0]⟩, ⟨-25, 1, [3, 1]⟩, ⟨-175, 2, [0, 4]⟩])],
     [(0, [⟨-130, 1, [2, 3]⟩, ⟨3125, 6, [0, 1, 0, 0]⟩, ⟨-166666666667, 13, [1, 0, 2]⟩, ⟨166666666667, 13, [2, 0, 1]⟩, ⟨-1575, 2, [0, 5]⟩, ⟨104166666667, 14, [0, 0, 0, 1]⟩, ⟨60060, 1, [7]⟩, ⟨375, 4, [1, 2, 0]⟩, ⟨-416666666667, 13, [3, 0, 0]⟩, ⟨833333333333, 13, [0, 3, 0]⟩, ⟨-256666666667, 10, [4, 1]⟩, ⟨1575, 2, [5, 0]⟩, ⟨-416666666667, 14, [2, 1, 0]⟩, ⟨-170, 1, [3, 2]⟩, ⟨-208333333333, 13, [0, 1, 2]⟩, ⟨-3125, 6, [0, 0, 1, 0]⟩, ⟨-416666666667, 13, [0, 0, 3]⟩, ⟨-104166666667, 14, [1, 0, 0, 0]⟩, ⟨-125, 4, [0, 2, 1]⟩, ⟨-116666666667, 10, [1, 4]⟩]), (1, [⟨291666666667, 12, [0, 0, 4]⟩, ⟨-3125, 6, [0, 0, 0, 2]⟩, ⟨-583333333333, 12, [0, 4, 0]⟩, ⟨291666666667, 12, [4, 0, 0]⟩, ⟨-875, 4, [1, 2, 1]⟩, ⟨-3125, 6, [0, 0, 1, 1]⟩, ⟨3125, 6, [2, 0, 0, 0]⟩, ⟨-270833333333, 12, [1, 3, 0]⟩, ⟨1260, 1, [2, 4]⟩, ⟨1500, 1, [3, 3]⟩, ⟨375, 4, [1, 1, 2]⟩, ⟨104166666667, 13, [0, 1, 1, 0]⟩, ⟨-1, 1, [2, 2, 0]⟩, ⟨-17325, 2, [6, 0]⟩, ⟨145833333333, 12, [0, 1, 3]⟩, ⟨-125, 4, [1, 1, 0, 0]⟩, ⟨-2, 1, [2, 1, 1]⟩, ⟨9375, 6, [0, 0, 2, 0]⟩, ⟨125, 3, [1, 0, 3]⟩, ⟨145833333333, 13, [1, 0, 1, 0]⟩, ⟨-9375, 6, [0, 2, 0, 0]⟩, ⟨17325, 2, [0, 6]⟩, ⟨-520833333333, 14, [1, 0, 0, 1]⟩, ⟨2940, 1, [5, 1]⟩, ⟨1, 1, [0, 2, 2]⟩, ⟨-666666666667, 12, [3, 0, 1]⟩, ⟨1960, 1, [4, 2]⟩, ⟨6875, 4, [3, 1, 0]⟩, ⟨12075, 2, [1, 5]⟩, ⟨-208333333333, 13, [0, 3, 1]⟩, ⟨-416666666667, 14, [0, 1, 0, 1]⟩])],
     [(0, [⟨-291666666667, 13, [1, 1, 0]⟩, ⟨-25, 3, [0, 2, 0]⟩, ⟨166666666667, 13, [1, 0, 1]⟩, ⟨11, 1, [2, 2]⟩, ⟨666666666667, 12, [1, 3]⟩, ⟨-4620, 1, [6]⟩, ⟨125, 4, [0, 1, 1]⟩, ⟨-583333333333, 12, [4, 0]⟩, ⟨125, 4, [0, 0, 2]⟩, ⟨233333333333, 11, [3, 1]⟩, ⟨125, 4, [2, 0, 0]⟩, ⟨583333333333, 12, [0, 4]⟩]), (1, [⟨-75, 1, [2, 3]⟩, ⟨-625, 4, [1, 0, 2]⟩, ⟨-125, 3, [2, 0, 1]⟩, ⟨-245, 1, [4, 1]⟩, ⟨-75, 3, [0, 2, 1]⟩, ⟨-625, 4, [1, 1, 1]⟩, ⟨1125, 4, [1, 2, 0]⟩, ⟨-625, 4, [0, 0, 3]⟩, ⟨125, 3, [0, 3, 0]⟩, ⟨-525, 2, [0, 5]⟩, ⟨525, 2, [5, 0]⟩, ⟨2, 1, [2, 1, 0]⟩, ⟨-125, 1, [3, 2]⟩, ⟨60060, 1, [7]⟩, ⟨-625, 4, [3, 0, 0]⟩, ⟨-5, 2, [0, 1, 2]⟩, ⟨-525, 2, [1, 4]⟩])]⟩,
    ⟨[(0, [⟨-517857142857, 11, [2, 3]⟩, ⟨208333333333, 13, [1, 0, 2]⟩, ⟨416666666667, 13, [2, 0, 1]⟩, ⟨-90, 1, [0, 5]⟩, ⟨25, 3, [0, 2, 1]⟩, ⟨208333333333, 13, [1, 1, 1]⟩, ⟨-375, 4, [1, 2, 0]⟩, ⟨208333333333, 13, [0, 0, 3]⟩, ⟨-416666666667, 13, [0, 3, 0]⟩, ⟨-916666666667, 11, [4, 1]⟩, ⟨90, 1, [5, 0]⟩, ⟨-666666666667, 13, [2, 1, 0]⟩, ⟨-607142857143, 11, [3, 2]⟩, ⟨166666666667, 13, [0, 1, 2]⟩, ⟨208333333333, 13, [3, 0, 0]⟩, ⟨21450, 1, [7]⟩, ⟨-541666666667, 11, [1, 4]⟩])],
     [(0, [⟨5, 1, [2, 2]⟩, ⟨416666666667, 12, [1, 3]⟩, ⟨-1650, 1, [6]⟩, ⟨-583333333333, 12, [4, 0]⟩, ⟨833333333333, 12, [3, 1]⟩, ⟨583333333333, 12, [0, 4]⟩])],
     [(0, [⟨-104166666667, 12, [0, 0, 4]⟩, ⟨104166666667, 14, [0, 0, 0, 2]⟩, ⟨208333333333, 12, [0, 4, 0]⟩, ⟨-104166666667, 12, [4, 0, 0]⟩, ⟨535714285714, 14, [1, 2, 1]⟩, ⟨104166666667, 14, [0, 0, 1, 1]⟩, ⟨-104166666667, 14, [2, 0, 0, 0]⟩, ⟨10119047619, 11, [1, 3, 0]⟩, ⟨-425, 1, [2, 4]⟩, ⟨-508928571429, 10, [3, 3]⟩, ⟨-892857142857, 14, [2, 0, 2]⟩, ⟨-172619047619, 13, [1, 1, 2]⟩, ⟨-347222222222, 14, [0, 1, 1, 0]⟩, ⟨482142857143, 13, [2, 2, 0]⟩, ⟨5775, 2, [6, 0]⟩, ⟨-535714285714, 13, [0, 1, 3]⟩, ⟨416666666667, 14, [1, 1, 0, 0]⟩, ⟨-6875, 2, [4, 2]⟩, ⟨-3125, 6, [0, 0, 2, 0]⟩, ⟨-47619047619, 12, [1, 0, 3]⟩, ⟨-486111111111, 14, [1, 0, 1, 0]⟩, ⟨3125, 6, [0, 2, 0, 0]⟩, ⟨-5775, 2, [0, 6]⟩, ⟨173611111111, 14, [1, 0, 0, 1]⟩, ⟨-10875, 2, [5, 1]⟩, ⟨-392857142857, 13, [0, 2, 2]⟩, ⟨119047619048, 12, [3, 0, 1]⟩, ⟨327380952381, 13, [2, 1, 1]⟩, ⟨-952380952381, 13, [3, 1, 0]⟩, ⟨-405, 1, [1, 5]⟩, ⟨-238095238095, 13, [0, 3, 1]⟩, ⟨138888888889, 14, [0, 1, 0, 1]⟩])],
     [(0, [⟨232142857143, 11, [2, 3]⟩, ⟨208333333333, 13, [1, 0, 2]⟩, ⟨416666666667, 13, [2, 0, 1]⟩, ⟨833333333333, 11, [4, 1]⟩, ⟨25, 3, [0, 2, 1]⟩, ⟨208333333333, 13, [1, 1, 1]⟩, ⟨-375, 4, [1, 2, 0]⟩, ⟨208333333333, 13, [0, 0, 3]⟩, ⟨-416666666667, 13, [0, 3, 0]⟩, ⟨15, 1, [0, 5]⟩, ⟨-15, 1, [5, 0]⟩, ⟨-666666666667, 13, [2, 1, 0]⟩, ⟨392857142857, 11, [3, 2]⟩, ⟨-21450, 1, [7]⟩, ⟨208333333333, 13, [3, 0, 0]⟩, ⟨166666666667, 13, [0, 1, 2]⟩, ⟨158333333333, 11, [1, 4]⟩])]⟩]

end Verif.MFormulas
