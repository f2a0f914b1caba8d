import Verif.Model.MatscsTerm

/-! Generated by `tools/gen_matscs.py`: row 1 of `tDelta` — matslise/matscs/matscs_formulas.cpp:145-419 -/
namespace Verif.MFormulas

/-- `tDelta(1, 0 … 9)` — matscs_formulas.cpp -/
def tDelta1 : List MEntry4 := [
    ⟨[],
     [],
     [],
     []⟩,
    ⟨[],
     [(0, [⟨10, 1, []⟩])],
     [(1, [⟨-5, 1, [1]⟩]), (2, [⟨5, 1, [2]⟩]), (3, [⟨-5, 1, [3]⟩]), (4, [⟨5, 1, [4]⟩]), (5, [⟨-5, 1, [5]⟩]), (6, [⟨5, 1, [6]⟩]), (7, [⟨-5, 1, [7]⟩])],
     []⟩,
    ⟨[(1, [⟨-5, 1, [1]⟩]), (2, [⟨5, 1, [2]⟩]), (3, [⟨-5, 1, [3]⟩]), (4, [⟨5, 1, [4]⟩]), (5, [⟨-5, 1, [5]⟩]), (6, [⟨5, 1, [6]⟩]), (7, [⟨-5, 1, [7]⟩])],
     [],
     [(0, [⟨5, 1, [1]⟩]), (1, [⟨-15, 1, [2]⟩]), (2, [⟨30, 1, [3]⟩]), (3, [⟨-50, 1, [4]⟩]), (4, [⟨75, 1, [5]⟩]), (5, [⟨-105, 1, [6]⟩]), (6, [⟨140, 1, [7]⟩])],
     [(1, [⟨-5, 1, [1]⟩]), (2, [⟨5, 1, [2]⟩]), (3, [⟨-5, 1, [3]⟩]), (4, [⟨5, 1, [4]⟩]), (5, [⟨-5, 1, [5]⟩]), (6, [⟨5, 1, [6]⟩]), (7, [⟨-5, 1, [7]⟩])]⟩,
    ⟨[(0, [⟨5, 1, [1]⟩]), (1, [⟨-15, 1, [2]⟩]), (2, [⟨30, 1, [3]⟩]), (3, [⟨-50, 1, [4]⟩]), (4, [⟨75, 1, [5]⟩]), (5, [⟨-105, 1, [6]⟩]), (6, [⟨140, 1, [7]⟩])],
     [],
     [(0, [⟨15, 1, [2]⟩]), (1, [⟨-125, 3, [0, 1]⟩, ⟨-75, 1, [3]⟩, ⟨125, 3, [1, 0]⟩]), (2, [⟨125, 3, [0, 2]⟩, ⟨125, 3, [1, 1]⟩, ⟨-125, 3, [2, 0]⟩, ⟨225, 1, [4]⟩]), (3, [⟨125, 3, [3, 0]⟩, ⟨-125, 3, [1, 2]⟩, ⟨-125, 3, [0, 3]⟩, ⟨-525, 1, [5]⟩, ⟨-125, 3, [2, 1]⟩]), (4, [⟨125, 3, [2, 2]⟩, ⟨125, 3, [1, 3]⟩, ⟨1050, 1, [6]⟩, ⟨-125, 3, [4, 0]⟩, ⟨125, 3, [3, 1]⟩, ⟨125, 3, [0, 4]⟩]), (5, [⟨-125, 3, [2, 3]⟩, ⟨-125, 3, [1, 4]⟩, ⟨-125, 3, [4, 1]⟩, ⟨-125, 3, [0, 5]⟩, ⟨125, 3, [5, 0]⟩, ⟨-125, 3, [3, 2]⟩, ⟨-1890, 1, [7]⟩]), (6, [⟨125, 3, [2, 4]⟩, ⟨125, 3, [5, 1]⟩, ⟨125, 3, [3, 3]⟩, ⟨125, 3, [4, 2]⟩, ⟨125, 3, [1, 5]⟩, ⟨-125, 3, [6, 0]⟩, ⟨125, 3, [0, 6]⟩])],
     [(0, [⟨5, 1, [1]⟩]), (1, [⟨-15, 1, [2]⟩]), (2, [⟨30, 1, [3]⟩]), (3, [⟨-50, 1, [4]⟩]), (4, [⟨75, 1, [5]⟩]), (5, [⟨-105, 1, [6]⟩]), (6, [⟨140, 1, [7]⟩])]⟩,
    ⟨[(0, [⟨10, 1, [2]⟩]), (1, [⟨-50, 1, [3]⟩]), (2, [⟨150, 1, [4]⟩]), (3, [⟨-350, 1, [5]⟩]), (4, [⟨700, 1, [6]⟩]), (5, [⟨-1260, 1, [7]⟩])],
     [],
     [(0, [⟨833333333333, 13, [0, 1]⟩, ⟨50, 1, [3]⟩, ⟨-833333333333, 13, [1, 0]⟩]), (1, [⟨-25, 2, [0, 2]⟩, ⟨-25, 2, [1, 1]⟩, ⟨25, 2, [2, 0]⟩, ⟨-350, 1, [4]⟩]), (2, [⟨-5, 1, [3, 0]⟩, ⟨416666666667, 12, [1, 2]⟩, ⟨5, 1, [0, 3]⟩, ⟨1400, 1, [5]⟩, ⟨583333333333, 12, [2, 1]⟩]), (3, [⟨-75, 2, [2, 2]⟩, ⟨-666666666667, 12, [1, 3]⟩, ⟨-4200, 1, [6]⟩, ⟨833333333333, 12, [4, 0]⟩, ⟨-108333333333, 11, [3, 1]⟩, ⟨-833333333333, 12, [0, 4]⟩]), (4, [⟨10, 1, [2, 3]⟩, ⟨10, 1, [1, 4]⟩, ⟨175, 2, [4, 1]⟩, ⟨125, 2, [0, 5]⟩, ⟨-125, 2, [5, 0]⟩, ⟨125, 2, [3, 2]⟩, ⟨10500, 1, [7]⟩]), (5, [⟨-133333333333, 11, [2, 4]⟩, ⟨-258333333333, 11, [5, 1]⟩, ⟨-15, 1, [3, 3]⟩, ⟨-191666666667, 11, [4, 2]⟩, ⟨-141666666667, 11, [1, 5]⟩, ⟨175, 2, [6, 0]⟩, ⟨-175, 2, [0, 6]⟩])],
     [(0, [⟨10, 1, [2]⟩]), (1, [⟨-50, 1, [3]⟩]), (2, [⟨150, 1, [4]⟩]), (3, [⟨-350, 1, [5]⟩]), (4, [⟨700, 1, [6]⟩]), (5, [⟨-1260, 1, [7]⟩])]⟩,
    ⟨[(0, [⟨25, 1, [3]⟩]), (1, [⟨-175, 1, [4]⟩]), (2, [⟨700, 1, [5]⟩]), (3, [⟨-2100, 1, [6]⟩]), (4, [⟨5250, 1, [7]⟩])],
     [],
     [(0, [⟨125, 3, [0, 2]⟩, ⟨125, 3, [1, 1]⟩, ⟨-125, 3, [2, 0]⟩, ⟨175, 1, [4]⟩]), (1, [⟨625, 3, [3, 0]⟩, ⟨-5, 1, [1, 2]⟩, ⟨-625, 3, [0, 3]⟩, ⟨-1575, 1, [5]⟩, ⟨-75, 2, [2, 1]⟩]), (2, [⟨1625, 3, [2, 2]⟩, ⟨1375, 3, [1, 3]⟩, ⟨7875, 1, [6]⟩, ⟨-1875, 3, [4, 0]⟩, ⟨2625, 3, [3, 1]⟩, ⟨1875, 3, [0, 4]⟩]), (3, [⟨-325, 2, [2, 3]⟩, ⟨-3125, 3, [1, 4]⟩, ⟨-6875, 3, [4, 1]⟩, ⟨-4375, 3, [0, 5]⟩, ⟨4375, 3, [5, 0]⟩, ⟨-425, 2, [3, 2]⟩, ⟨-28875, 1, [7]⟩]), (4, [⟨60, 1, [2, 4]⟩, ⟨150, 1, [5, 1]⟩, ⟨70, 1, [3, 3]⟩, ⟨95, 1, [4, 2]⟩, ⟨625, 2, [1, 5]⟩, ⟨-875, 2, [6, 0]⟩, ⟨875, 2, [0, 6]⟩])],
     [(0, [⟨25, 1, [3]⟩]), (1, [⟨-175, 1, [4]⟩]), (2, [⟨700, 1, [5]⟩]), (3, [⟨-2100, 1, [6]⟩]), (4, [⟨5250, 1, [7]⟩])]⟩,
    ⟨[(0, [⟨70, 1, [4]⟩]), (1, [⟨-630, 1, [5]⟩]), (2, [⟨3150, 1, [6]⟩]), (3, [⟨-11550, 1, [7]⟩])],
     [],
     [(0, [⟨-25, 2, [3, 0]⟩, ⟨2, 1, [1, 2]⟩, ⟨25, 2, [0, 3]⟩, ⟨630, 1, [5]⟩, ⟨3, 1, [2, 1]⟩]), (1, [⟨-15, 1, [2, 2]⟩, ⟨-125, 2, [1, 3]⟩, ⟨-6930, 1, [6]⟩, ⟨175, 2, [4, 0]⟩, ⟨-25, 1, [3, 1]⟩, ⟨-175, 2, [0, 4]⟩]), (2, [⟨505, 2, [2, 3]⟩, ⟨475, 2, [1, 4]⟩, ⟨115, 1, [4, 1]⟩, ⟨70, 1, [0, 5]⟩, ⟨-70, 1, [5, 0]⟩, ⟨67, 1, [3, 2]⟩, ⟨41580, 1, [7]⟩]), (3, [⟨-1375, 2, [2, 4]⟩, ⟨-385, 1, [5, 1]⟩, ⟨-1625, 2, [3, 3]⟩, ⟨-225, 1, [4, 2]⟩, ⟨-140, 1, [1, 5]⟩, ⟨210, 1, [6, 0]⟩, ⟨-210, 1, [0, 6]⟩])],
     [(0, [⟨70, 1, [4]⟩]), (1, [⟨-630, 1, [5]⟩]), (2, [⟨3150, 1, [6]⟩]), (3, [⟨-11550, 1, [7]⟩])]⟩,
    ⟨[(0, [⟨210, 1, [5]⟩]), (1, [⟨-2310, 1, [6]⟩]), (2, [⟨13860, 1, [7]⟩])],
     [],
     [(0, [⟨5, 1, [2, 2]⟩, ⟨416666666667, 12, [1, 3]⟩, ⟨2310, 1, [6]⟩, ⟨-583333333333, 12, [4, 0]⟩, ⟨833333333333, 12, [3, 1]⟩, ⟨583333333333, 12, [0, 4]⟩]), (1, [⟨-375, 2, [2, 3]⟩, ⟨-35, 1, [1, 4]⟩, ⟨-875, 2, [4, 1]⟩, ⟨-525, 2, [0, 5]⟩, ⟨525, 2, [5, 0]⟩, ⟨-50, 1, [3, 2]⟩, ⟨-30030, 1, [7]⟩]), (2, [⟨168333333333, 10, [2, 4]⟩, ⟨495833333333, 10, [5, 1]⟩, ⟨200, 1, [3, 3]⟩, ⟨279166666667, 10, [4, 2]⟩, ⟨169166666667, 10, [1, 5]⟩, ⟨-2625, 2, [6, 0]⟩, ⟨2625, 2, [0, 6]⟩])],
     [(0, [⟨210, 1, [5]⟩]), (1, [⟨-2310, 1, [6]⟩]), (2, [⟨13860, 1, [7]⟩])]⟩,
    ⟨[(0, [⟨660, 1, [6]⟩]), (1, [⟨-8580, 1, [7]⟩])],
     [],
     [(0, [⟨107142857143, 11, [2, 3]⟩, ⟨10, 1, [1, 4]⟩, ⟨25, 1, [4, 1]⟩, ⟨15, 1, [0, 5]⟩, ⟨-15, 1, [5, 0]⟩, ⟨142857142857, 11, [3, 2]⟩, ⟨8580, 1, [7]⟩]), (1, [⟨-105, 1, [2, 4]⟩, ⟨-315, 1, [5, 1]⟩, ⟨-125, 1, [3, 3]⟩, ⟨-175, 1, [4, 2]⟩, ⟨-105, 1, [1, 5]⟩, ⟨165, 1, [6, 0]⟩, ⟨-165, 1, [0, 6]⟩])],
     [(0, [⟨660, 1, [6]⟩]), (1, [⟨-8580, 1, [7]⟩])]⟩,
    ⟨[(0, [⟨2145, 1, [7]⟩])],
     [],
     [(0, [⟨2625, 3, [2, 4]⟩, ⟨7875, 3, [5, 1]⟩, ⟨3125, 3, [3, 3]⟩, ⟨4375, 3, [4, 2]⟩, ⟨2625, 3, [1, 5]⟩, ⟨-4125, 3, [6, 0]⟩, ⟨4125, 3, [0, 6]⟩])],
     [(0, [⟨2145, 1, [7]⟩])]⟩]

end Verif.MFormulas
