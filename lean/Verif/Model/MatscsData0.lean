import Verif.Model.MatscsTerm

/-! Generated by `tools/gen_matscs.py`: row 0 of `tDelta` — matslise/matscs/matscs_formulas.cpp:145-419 -/
namespace Verif.MFormulas

/-- `tDelta(0, 0 … 9)` — matscs_formulas.cpp -/
def tDelta0 : List MEntry4 := [
    ⟨[(0, [⟨10, 1, []⟩])],
     [],
     [],
     [(0, [⟨10, 1, []⟩])]⟩,
    ⟨[],
     [],
     [(1, [⟨-5, 1, [1]⟩]), (2, [⟨5, 1, [2]⟩]), (3, [⟨-5, 1, [3]⟩]), (4, [⟨5, 1, [4]⟩]), (5, [⟨-5, 1, [5]⟩]), (6, [⟨5, 1, [6]⟩]), (7, [⟨-5, 1, [7]⟩])],
     []⟩,
    ⟨[],
     [],
     [(0, [⟨5, 1, [1]⟩]), (1, [⟨-15, 1, [2]⟩]), (2, [⟨30, 1, [3]⟩]), (3, [⟨-50, 1, [4]⟩]), (4, [⟨75, 1, [5]⟩]), (5, [⟨-105, 1, [6]⟩]), (6, [⟨140, 1, [7]⟩])],
     []⟩,
    ⟨[],
     [],
     [(0, [⟨10, 1, [2]⟩]), (1, [⟨-50, 1, [3]⟩]), (2, [⟨150, 1, [4]⟩]), (3, [⟨-350, 1, [5]⟩]), (4, [⟨700, 1, [6]⟩]), (5, [⟨-1260, 1, [7]⟩])],
     []⟩,
    ⟨[],
     [],
     [(0, [⟨25, 1, [3]⟩]), (1, [⟨-175, 1, [4]⟩]), (2, [⟨700, 1, [5]⟩]), (3, [⟨-2100, 1, [6]⟩]), (4, [⟨5250, 1, [7]⟩])],
     []⟩,
    ⟨[],
     [],
     [(0, [⟨70, 1, [4]⟩]), (1, [⟨-630, 1, [5]⟩]), (2, [⟨3150, 1, [6]⟩]), (3, [⟨-11550, 1, [7]⟩])],
     []⟩,
    ⟨[],
     [],
     [(0, [⟨210, 1, [5]⟩]), (1, [⟨-2310, 1, [6]⟩]), (2, [⟨13860, 1, [7]⟩])],
     []⟩,
    ⟨[],
     [],
     [(0, [⟨660, 1, [6]⟩]), (1, [⟨-8580, 1, [7]⟩])],
     []⟩,
    ⟨[],
     [],
     [(0, [⟨2145, 1, [7]⟩])],
     []⟩,
    ⟨[],
     [],
     [],
     []⟩]

end Verif.MFormulas
