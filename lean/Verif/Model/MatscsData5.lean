import Verif.Model.MatscsTerm

/-! Generated by `tools/gen_matscs.py`: `tH` — matslise/matscs/matscs_formulas.cpp:204-419 -/
namespace Verif.MFormulas

/-- `tH[0 … 5]` — matscs_formulas.cpp -/
def tHData : List MEntry4 := [
    ⟨[(0, [⟨10, 1, []⟩])],
     [],
     [],
     [(0, [⟨10, 1, []⟩])]⟩,
    ⟨[],
     [(1, [⟨10, 1, []⟩])],
     [(3, [⟨5, 1, [2]⟩]), (4, [⟨-416666666667, 13, [0, 1]⟩, ⟨416666666667, 13, [1, 0]⟩]), (5, [⟨5, 1, [4]⟩]), (6, [⟨-833333333333, 14, [1, 2]⟩, ⟨833333333333, 14, [2, 1]⟩]), (7, [⟨5, 1, [6]⟩]), (8, [⟨-357142857143, 14, [2, 3]⟩, ⟨357142857143, 14, [3, 2]⟩]), (9, [⟨5, 1, [8]⟩]), (10, [⟨-198412698413, 14, [3, 4]⟩, ⟨198412698413, 14, [4, 3]⟩])],
     []⟩,
    ⟨[(3, [⟨-5, 1, [1]⟩]), (5, [⟨-5, 1, [3]⟩, ⟨-416666666667, 13, [0, 1]⟩, ⟨416666666667, 13, [1, 0]⟩]), (7, [⟨-833333333333, 14, [1, 2]⟩, ⟨-5, 1, [5]⟩, ⟨833333333333, 14, [2, 1]⟩]), (9, [⟨-357142857143, 14, [2, 3]⟩, ⟨-5, 1, [7]⟩, ⟨357142857143, 14, [3, 2]⟩])],
     [],
     [(3, [⟨-15, 1, [2]⟩]), (4, [⟨-125, 3, [0, 1]⟩, ⟨125, 3, [1, 0]⟩]), (5, [⟨125, 3, [0, 2]⟩, ⟨-416666666667, 13, [1, 1]⟩, ⟨-125, 3, [2, 0]⟩, ⟨-50, 1, [4]⟩]), (6, [⟨125, 3, [3, 0]⟩, ⟨-125, 3, [0, 3]⟩, ⟨-104166666667, 13, [1, 0, 0]⟩, ⟨208333333333, 13, [0, 1, 0]⟩, ⟨-104166666667, 13, [0, 0, 1]⟩]), (7, [⟨208333333333, 14, [1, 1, 0]⟩, ⟨-416666666667, 14, [0, 2, 0]⟩, ⟨-416666666667, 14, [1, 0, 1]⟩, ⟨-25, 3, [2, 2]⟩, ⟨-105, 1, [6]⟩, ⟨208333333333, 14, [0, 1, 1]⟩, ⟨-125, 3, [4, 0]⟩, ⟨208333333333, 14, [0, 0, 2]⟩, ⟨208333333333, 14, [2, 0, 0]⟩, ⟨125, 3, [0, 4]⟩]), (8, [⟨208333333333, 14, [1, 2, 0]⟩, ⟨-125, 3, [0, 5]⟩, ⟨208333333333, 14, [0, 2, 1]⟩, ⟨125, 3, [5, 0]⟩, ⟨-208333333333, 14, [2, 1, 0]⟩, ⟨-208333333333, 14, [0, 1, 2]⟩]), (9, [⟨595238095238, 15, [3, 1, 0]⟩, ⟨-595238095238, 15, [2, 0, 2]⟩, ⟨297619047619, 15, [1, 0, 3]⟩, ⟨-178571428571, 13, [3, 3]⟩, ⟨-180, 1, [8]⟩, ⟨119047619048, 14, [1, 2, 1]⟩, ⟨595238095238, 15, [0, 1, 3]⟩, ⟨-595238095238, 15, [1, 1, 2]⟩, ⟨297619047619, 15, [2, 2, 0]⟩, ⟨125, 3, [0, 6]⟩, ⟨-892857142857, 15, [1, 3, 0]⟩, ⟨-125, 3, [6, 0]⟩, ⟨-595238095238, 15, [2, 1, 1]⟩, ⟨-892857142857, 15, [0, 3, 1]⟩, ⟨297619047619, 15, [0, 2, 2]⟩, ⟨297619047619, 15, [3, 0, 1]⟩]), (10, [⟨125, 3, [7, 0]⟩, ⟨-125, 3, [0, 7]⟩, ⟨892857142857, 15, [0, 3, 2]⟩, ⟨-892857142857, 15, [0, 2, 3]⟩, ⟨892857142857, 15, [2, 3, 0]⟩, ⟨-892857142857, 15, [3, 2, 0]⟩])],
     [(3, [⟨5, 1, [1]⟩]), (5, [⟨-416666666667, 13, [0, 1]⟩, ⟨5, 1, [3]⟩, ⟨416666666667, 13, [1, 0]⟩]), (7, [⟨-833333333333, 14, [1, 2]⟩, ⟨5, 1, [5]⟩, ⟨833333333333, 14, [2, 1]⟩]), (9, [⟨-357142857143, 14, [2, 3]⟩, ⟨5, 1, [7]⟩, ⟨357142857143, 14, [3, 2]⟩])]⟩,
    ⟨[(5, [⟨-166666666667, 12, [0, 1]⟩, ⟨25, 1, [3]⟩, ⟨166666666667, 12, [1, 0]⟩]), (6, [⟨125, 3, [0, 2]⟩, ⟨-416666666667, 13, [1, 1]⟩, ⟨-125, 3, [2, 0]⟩]), (7, [⟨-104166666667, 13, [1, 0, 0]⟩, ⟨208333333333, 13, [0, 1, 0]⟩, ⟨125, 3, [3, 0]⟩, ⟨-125, 3, [0, 3]⟩, ⟨70, 1, [5]⟩, ⟨-833333333333, 14, [1, 2]⟩, ⟨833333333333, 14, [2, 1]⟩, ⟨-104166666667, 13, [0, 0, 1]⟩]), (8, [⟨208333333333, 14, [0, 1, 1]⟩, ⟨-416666666667, 14, [0, 2, 0]⟩, ⟨-416666666667, 14, [1, 0, 1]⟩, ⟨-25, 3, [2, 2]⟩, ⟨208333333333, 14, [1, 1, 0]⟩, ⟨-125, 3, [4, 0]⟩, ⟨208333333333, 14, [0, 0, 2]⟩, ⟨208333333333, 14, [2, 0, 0]⟩, ⟨125, 3, [0, 4]⟩]), (9, [⟨-357142857143, 14, [2, 3]⟩, ⟨208333333333, 14, [1, 2, 0]⟩, ⟨-125, 3, [0, 5]⟩, ⟨208333333333, 14, [0, 2, 1]⟩, ⟨135, 1, [7]⟩, ⟨125, 3, [5, 0]⟩, ⟨-208333333333, 14, [2, 1, 0]⟩, ⟨357142857143, 14, [3, 2]⟩, ⟨-208333333333, 14, [0, 1, 2]⟩]), (10, [⟨595238095238, 15, [3, 1, 0]⟩, ⟨-892857142857, 15, [0, 3, 1]⟩, ⟨297619047619, 15, [1, 0, 3]⟩, ⟨-178571428571, 13, [3, 3]⟩, ⟨-595238095238, 15, [2, 0, 2]⟩, ⟨119047619048, 14, [1, 2, 1]⟩, ⟨-595238095238, 15, [1, 1, 2]⟩, ⟨297619047619, 15, [2, 2, 0]⟩, ⟨125, 3, [0, 6]⟩, ⟨-892857142857, 15, [1, 3, 0]⟩, ⟨-125, 3, [6, 0]⟩, ⟨-595238095238, 15, [2, 1, 1]⟩, ⟨595238095238, 15, [0, 1, 3]⟩, ⟨297619047619, 15, [0, 2, 2]⟩, ⟨297619047619, 15, [3, 0, 1]⟩])],
     [(5, [⟨-5, 1, [2]⟩]), (6, [⟨-416666666667, 13, [0, 1]⟩, ⟨416666666667, 13, [1, 0]⟩]), (7, [⟨-5, 1, [4]⟩]), (8, [⟨-833333333333, 14, [1, 2]⟩, ⟨833333333333, 14, [2, 1]⟩]), (9, [⟨-5, 1, [6]⟩]), (10, [⟨-357142857143, 14, [2, 3]⟩, ⟨357142857143, 14, [3, 2]⟩])],
     [(5, [⟨-375, 3, [0, 2]⟩, ⟨-291666666667, 12, [1, 1]⟩, ⟨375, 3, [2, 0]⟩, ⟨175, 1, [4]⟩]), (6, [⟨-3125, 5, [1, 0, 0]⟩, ⟨625, 4, [0, 1, 0]⟩, ⟨-625, 3, [3, 0]⟩, ⟨625, 3, [0, 3]⟩, ⟨125, 3, [1, 2]⟩, ⟨-125, 3, [2, 1]⟩, ⟨-3125, 5, [0, 0, 1]⟩]), (7, [⟨229166666667, 13, [1, 1, 0]⟩, ⟨-666666666667, 13, [0, 2, 0]⟩, ⟨-25, 3, [1, 0, 1]⟩, ⟨-15, 2, [2, 2]⟩, ⟨-25, 2, [1, 3]⟩, ⟨945, 1, [6]⟩, ⟨208333333333, 14, [0, 1, 1]⟩, ⟨125, 2, [4, 0]⟩, ⟨333333333333, 13, [0, 0, 2]⟩, ⟨-25, 2, [3, 1]⟩, ⟨333333333333, 13, [2, 0, 0]⟩, ⟨-125, 2, [0, 4]⟩]), (8, [⟨-46875, 7, [0, 1, 0, 0]⟩, ⟨145833333333, 13, [1, 0, 2]⟩, ⟨-145833333333, 13, [2, 0, 1]⟩, ⟨-125, 3, [4, 1]⟩, ⟨-15625, 7, [0, 0, 0, 1]⟩, ⟨125, 3, [1, 4]⟩, ⟨-3125, 5, [0, 0, 3]⟩, ⟨625, 4, [0, 3, 0]⟩, ⟨175, 2, [0, 5]⟩, ⟨-175, 2, [5, 0]⟩, ⟨833333333333, 14, [2, 1, 0]⟩, ⟨-625, 5, [1, 2, 0]⟩, ⟨-833333333333, 14, [0, 1, 2]⟩, ⟨46875, 7, [0, 0, 1, 0]⟩, ⟨-3125, 5, [3, 0, 0]⟩, ⟨15625, 7, [1, 0, 0, 0]⟩, ⟨625, 5, [0, 2, 1]⟩]), (9, [⟨3125, 5, [0, 0, 4]⟩, ⟨520833333333, 15, [0, 0, 0, 2]⟩, ⟨-625, 4, [0, 4, 0]⟩, ⟨3125, 5, [4, 0, 0]⟩, ⟨535714285714, 14, [1, 2, 1]⟩, ⟨520833333333, 15, [0, 0, 1, 1]⟩, ⟨-520833333333, 15, [2, 0, 0, 0]⟩, ⟨-892857142857, 15, [1, 3, 0]⟩, ⟨-125, 3, [2, 4]⟩, ⟨-267857142857, 12, [3, 3]⟩, ⟨-595238095238, 15, [2, 0, 2]⟩, ⟨-868055555556, 15, [0, 1, 1, 0]⟩, ⟨654761904762, 14, [2, 2, 0]⟩, ⟨2625, 3, [6, 0]⟩, ⟨110119047619, 13, [0, 1, 3]⟩, ⟨-520833333333, 15, [1, 1, 0, 0]⟩, ⟨-267857142857, 14, [2, 1, 1]⟩, ⟨-15625, 7, [0, 0, 2, 0]⟩, ⟨-10119047619, 12, [1, 0, 3]⟩, ⟨190972222222, 14, [1, 0, 1, 0]⟩, ⟨15625, 7, [0, 2, 0, 0]⟩, ⟨110119047619, 13, [3, 1, 0]⟩, ⟨-2625, 3, [0, 6]⟩, ⟨-868055555556, 15, [1, 0, 0, 1]⟩, ⟨-25, 2, [5, 1]⟩, ⟨-595238095238, 14, [0, 2, 2]⟩, ⟨-10119047619, 12, [3, 0, 1]⟩, ⟨2970, 1, [8]⟩, ⟨-125, 3, [4, 2]⟩, ⟨-267857142857, 14, [1, 1, 2]⟩, ⟨-25, 2, [1, 5]⟩, ⟨-892857142857, 15, [0, 3, 1]⟩, ⟨-173611111111, 15, [0, 1, 0, 1]⟩]), (10, [⟨178571428571, 14, [0, 2, 3]⟩, ⟨-372023809524, 15, [1, 0, 2, 0]⟩, ⟨-223214285714, 15, [2, 0, 0, 1]⟩, ⟨-14880952381, 13, [3, 1, 1]⟩, ⟨357142857143, 14, [0, 3, 2]⟩, ⟨372023809524, 15, [2, 1, 0, 0]⟩, ⟨223214285714, 15, [1, 0, 1, 1]⟩, ⟨-104166666667, 13, [4, 0, 1]⟩, ⟨-372023809524, 15, [0, 0, 1, 2]⟩, ⟨744047619048, 16, [2, 0, 1, 0]⟩, ⟨178571428571, 14, [2, 0, 3]⟩, ⟨744047619048, 16, [3, 0, 0, 0]⟩, ⟨3375, 3, [0, 7]⟩, ⟨625, 4, [0, 5, 0]⟩, ⟨-744047619048, 16, [0, 0, 0, 3]⟩, ⟨-3125, 5, [0, 0, 5]⟩, ⟨-357142857143, 14, [2, 3, 0]⟩, ⟨-223214285714, 15, [0, 3, 0, 0]⟩, ⟨-178571428571, 14, [3, 2, 0]⟩, ⟨-3375, 3, [7, 0]⟩, ⟨-3125, 5, [5, 0, 0]⟩, ⟨-818452380952, 15, [0, 2, 1, 0]⟩, ⟨327380952381, 14, [2, 2, 1]⟩, ⟨125, 3, [3, 4]⟩, ⟨-223214285714, 15, [1, 2, 0, 0]⟩, ⟨223214285714, 15, [0, 0, 2, 1]⟩, ⟨104166666667, 13, [4, 1, 0]⟩, ⟨-327380952381, 14, [1, 2, 2]⟩, ⟨818452380952, 15, [0, 1, 2, 0]⟩, ⟨223214285714, 15, [0, 0, 3, 0]⟩, ⟨-104166666667, 13, [0, 1, 4]⟩, ⟨-125, 3, [6, 1]⟩, ⟨104166666667, 13, [1, 0, 4]⟩, ⟨372023809524, 15, [0, 2, 0, 1]⟩, ⟨223214285714, 15, [1, 0, 0, 2]⟩, ⟨-125, 3, [4, 3]⟩, ⟨-178571428571, 14, [3, 0, 2]⟩, ⟨14880952381, 13, [1, 1, 3]⟩, ⟨125, 3, [1, 6]⟩, ⟨744047619048, 16, [1, 1, 1, 0]⟩, ⟨-744047619048, 16, [0, 1, 0, 2]⟩, ⟨-223214285714, 15, [1, 1, 0, 1]⟩, ⟨-744047619048, 16, [0, 1, 1, 1]⟩])],
     [(5, [⟨-25, 1, [3]⟩, ⟨833333333333, 13, [0, 1]⟩, ⟨-833333333333, 13, [1, 0]⟩]), (6, [⟨-125, 3, [0, 2]⟩, ⟨-416666666667, 13, [1, 1]⟩, ⟨125, 3, [2, 0]⟩]), (7, [⟨-104166666667, 13, [1, 0, 0]⟩, ⟨208333333333, 13, [0, 1, 0]⟩, ⟨-125, 3, [3, 0]⟩, ⟨125, 3, [0, 3]⟩, ⟨-70, 1, [5]⟩, ⟨-833333333333, 14, [1, 2]⟩, ⟨833333333333, 14, [2, 1]⟩, ⟨-104166666667, 13, [0, 0, 1]⟩]), (8, [⟨208333333333, 14, [1, 1, 0]⟩, ⟨-416666666667, 14, [0, 2, 0]⟩, ⟨-416666666667, 14, [1, 0, 1]⟩, ⟨-25, 3, [2, 2]⟩, ⟨208333333333, 14, [0, 1, 1]⟩, ⟨125, 3, [4, 0]⟩, ⟨208333333333, 14, [0, 0, 2]⟩, ⟨208333333333, 14, [2, 0, 0]⟩, ⟨-125, 3, [0, 4]⟩]), (9, [⟨-357142857143, 14, [2, 3]⟩, ⟨208333333333, 14, [1, 2, 0]⟩, ⟨125, 3, [0, 5]⟩, ⟨208333333333, 14, [0, 2, 1]⟩, ⟨-208333333333, 14, [0, 1, 2]⟩, ⟨-125, 3, [5, 0]⟩, ⟨-208333333333, 14, [2, 1, 0]⟩, ⟨357142857143, 14, [3, 2]⟩, ⟨-135, 1, [7]⟩]), (10, [⟨595238095238, 15, [3, 1, 0]⟩, ⟨-892857142857, 15, [0, 3, 1]⟩, ⟨297619047619, 15, [1, 0, 3]⟩, ⟨-178571428571, 13, [3, 3]⟩, ⟨-595238095238, 15, [2, 0, 2]⟩, ⟨119047619048, 14, [1, 2, 1]⟩, ⟨-595238095238, 15, [1, 1, 2]⟩, ⟨297619047619, 15, [2, 2, 0]⟩, ⟨-125, 3, [0, 6]⟩, ⟨-892857142857, 15, [1, 3, 0]⟩, ⟨125, 3, [6, 0]⟩, ⟨-595238095238, 15, [2, 1, 1]⟩, ⟨595238095238, 15, [0, 1, 3]⟩, ⟨297619047619, 15, [0, 2, 2]⟩, ⟨297619047619, 15, [3, 0, 1]⟩])]⟩,
    ⟨[(7, [⟨-3125, 5, [1, 0, 0]⟩, ⟨625, 4, [0, 1, 0]⟩, ⟨-75, 2, [3, 0]⟩, ⟨75, 2, [0, 3]⟩, ⟨-315, 1, [5]⟩, ⟨225, 3, [1, 2]⟩, ⟨275, 3, [2, 1]⟩, ⟨-3125, 5, [0, 0, 1]⟩]), (8, [⟨625, 5, [0, 1, 1]⟩, ⟨-75, 3, [0, 2, 0]⟩, ⟨-125, 4, [1, 0, 1]⟩, ⟨-75, 3, [2, 2]⟩, ⟨125, 3, [1, 3]⟩, ⟨625, 5, [1, 1, 0]⟩, ⟨875, 3, [4, 0]⟩, ⟨375, 4, [0, 0, 2]⟩, ⟨125, 3, [3, 1]⟩, ⟨375, 4, [2, 0, 0]⟩, ⟨-875, 3, [0, 4]⟩]), (9, [⟨364285714286, 12, [2, 3]⟩, ⟨-46875, 7, [0, 1, 0, 0]⟩, ⟨145833333333, 13, [1, 0, 2]⟩, ⟨625, 5, [2, 0, 1]⟩, ⟨25, 2, [4, 1]⟩, ⟨-15625, 7, [0, 0, 0, 1]⟩, ⟨25, 2, [1, 4]⟩, ⟨-625, 5, [1, 2, 0]⟩, ⟨-3125, 5, [0, 0, 3]⟩, ⟨625, 4, [0, 3, 0]⟩, ⟨-1485, 1, [7]⟩, ⟨-1875, 3, [5, 0]⟩, ⟨-125, 4, [2, 1, 0]⟩, ⟨135714285714, 12, [3, 2]⟩, ⟨-833333333333, 14, [0, 1, 2]⟩, ⟨46875, 7, [0, 0, 1, 0]⟩, ⟨-3125, 5, [3, 0, 0]⟩, ⟨15625, 7, [1, 0, 0, 0]⟩, ⟨625, 5, [0, 2, 1]⟩, ⟨1875, 3, [0, 5]⟩]), (10, [⟨3125, 5, [0, 0, 4]⟩, ⟨520833333333, 15, [0, 0, 0, 2]⟩, ⟨-625, 4, [0, 4, 0]⟩, ⟨3125, 5, [4, 0, 0]⟩, ⟨357142857143, 14, [1, 2, 1]⟩, ⟨520833333333, 15, [0, 0, 1, 1]⟩, ⟨-520833333333, 15, [2, 0, 0, 0]⟩, ⟨-267857142857, 14, [1, 3, 0]⟩, ⟨190972222222, 14, [1, 0, 1, 0]⟩, ⟨714285714286, 13, [3, 3]⟩, ⟨-178571428571, 14, [2, 0, 2]⟩, ⟨297619047619, 15, [1, 1, 2]⟩, ⟨-868055555556, 15, [0, 1, 1, 0]⟩, ⟨714285714286, 14, [2, 2, 0]⟩, ⟨225, 2, [6, 0]⟩, ⟨122023809524, 13, [0, 1, 3]⟩, ⟨-520833333333, 15, [1, 1, 0, 0]⟩, ⟨-15625, 7, [0, 0, 2, 0]⟩, ⟨-952380952381, 14, [1, 0, 3]⟩, ⟨125, 3, [5, 1]⟩, ⟨15625, 7, [0, 2, 0, 0]⟩, ⟨-225, 2, [0, 6]⟩, ⟨-868055555556, 15, [1, 0, 0, 1]⟩, ⟨-535714285714, 14, [0, 2, 2]⟩, ⟨113095238095, 13, [3, 0, 1]⟩, ⟨-386904761905, 14, [2, 1, 1]⟩, ⟨-863095238095, 14, [3, 1, 0]⟩, ⟨125, 3, [1, 5]⟩, ⟨-267857142857, 14, [0, 3, 1]⟩, ⟨-173611111111, 15, [0, 1, 0, 1]⟩])],
     [(7, [⟨-125, 3, [0, 2]⟩, ⟨-416666666667, 13, [1, 1]⟩, ⟨125, 3, [2, 0]⟩, ⟨35, 1, [4]⟩]), (8, [⟨-104166666667, 13, [1, 0, 0]⟩, ⟨208333333333, 13, [0, 1, 0]⟩, ⟨-125, 3, [3, 0]⟩, ⟨125, 3, [0, 3]⟩, ⟨-25, 3, [1, 2]⟩, ⟨25, 3, [2, 1]⟩, ⟨-104166666667, 13, [0, 0, 1]⟩]), (9, [⟨208333333333, 14, [0, 1, 1]⟩, ⟨-416666666667, 14, [0, 2, 0]⟩, ⟨-416666666667, 14, [1, 0, 1]⟩, ⟨-25, 3, [2, 2]⟩, ⟨90, 1, [6]⟩, ⟨208333333333, 14, [1, 1, 0]⟩, ⟨125, 3, [4, 0]⟩, ⟨208333333333, 14, [0, 0, 2]⟩, ⟨208333333333, 14, [2, 0, 0]⟩, ⟨-125, 3, [0, 4]⟩]), (10, [⟨-107142857143, 13, [2, 3]⟩, ⟨208333333333, 14, [1, 2, 0]⟩, ⟨125, 3, [0, 5]⟩, ⟨208333333333, 14, [0, 2, 1]⟩, ⟨-125, 3, [5, 0]⟩, ⟨-208333333333, 14, [2, 1, 0]⟩, ⟨107142857143, 13, [3, 2]⟩, ⟨-208333333333, 14, [0, 1, 2]⟩])],
     [(7, [⟨-458333333333, 13, [0, 1, 1]⟩, ⟨1125, 4, [0, 2, 0]⟩, ⟨-541666666667, 13, [1, 0, 1]⟩, ⟨1425, 3, [2, 2]⟩, ⟨20, 1, [1, 3]⟩, ⟨-3465, 1, [6]⟩, ⟨1, 1, [1, 1, 0]⟩, ⟨-4375, 3, [4, 0]⟩, ⟨-5625, 5, [0, 0, 2]⟩, ⟨20, 1, [3, 1]⟩, ⟨-5625, 5, [2, 0, 0]⟩, ⟨4375, 3, [0, 4]⟩]), (8, [⟨375, 3, [2, 3]⟩, ⟨-140625, 7, [0, 1, 0, 0]⟩, ⟨4375, 5, [1, 0, 2]⟩, ⟨-4375, 5, [2, 0, 1]⟩, ⟨875, 3, [4, 1]⟩, ⟨-46875, 7, [0, 0, 0, 1]⟩, ⟨-1125, 4, [1, 2, 0]⟩, ⟨15625, 5, [0, 0, 3]⟩, ⟨-3125, 4, [0, 3, 0]⟩, ⟨-7875, 3, [0, 5]⟩, ⟨7875, 3, [5, 0]⟩, ⟨-625, 5, [2, 1, 0]⟩, ⟨-375, 3, [3, 2]⟩, ⟨6875, 5, [0, 1, 2]⟩, ⟨140625, 7, [0, 0, 1, 0]⟩, ⟨15625, 5, [3, 0, 0]⟩, ⟨46875, 7, [1, 0, 0, 0]⟩, ⟨5, 2, [0, 2, 1]⟩, ⟨-875, 3, [1, 4]⟩]), (9, [⟨-28125, 5, [0, 0, 4]⟩, ⟨572916666667, 14, [0, 0, 0, 2]⟩, ⟨5625, 4, [0, 4, 0]⟩, ⟨-28125, 5, [4, 0, 0]⟩, ⟨119047619048, 13, [1, 2, 1]⟩, ⟨15625, 7, [0, 0, 1, 1]⟩, ⟨-572916666667, 14, [2, 0, 0, 0]⟩, ⟨910714285714, 13, [1, 3, 0]⟩, ⟨325, 2, [2, 4]⟩, ⟨444642857143, 11, [3, 3]⟩, ⟨482142857143, 13, [2, 0, 2]⟩, ⟨-15625, 7, [0, 1, 1, 0]⟩, ⟨133928571429, 13, [2, 2, 0]⟩, ⟨-23625, 3, [6, 0]⟩, ⟨-919642857143, 13, [0, 1, 3]⟩, ⟨-46875, 7, [1, 1, 0, 0]⟩, ⟨-386904761905, 14, [2, 1, 1]⟩, ⟨-171875, 7, [0, 0, 2, 0]⟩, ⟨892857142857, 15, [1, 0, 3]⟩, ⟨109375, 7, [1, 0, 1, 0]⟩, ⟨171875, 7, [0, 2, 0, 0]⟩, ⟨330357142857, 13, [3, 1, 0]⟩, ⟨23625, 3, [0, 6]⟩, ⟨-46875, 7, [1, 0, 0, 1]⟩, ⟨5375, 3, [5, 1]⟩, ⟨-616071428571, 13, [0, 2, 2]⟩, ⟨892857142857, 15, [3, 0, 1]⟩, ⟨-25740, 1, [8]⟩, ⟨325, 2, [4, 2]⟩, ⟨-386904761905, 14, [1, 1, 2]⟩, ⟨5375, 3, [1, 5]⟩, ⟨-339285714286, 13, [0, 3, 1]⟩, ⟨-15625, 7, [0, 1, 0, 1]⟩]), (10, [⟨678571428571, 13, [0, 2, 3]⟩, ⟨-104166666667, 14, [0, 0, 1, 0, 0]⟩, ⟨-200892857143, 14, [2, 1, 0, 0]⟩, ⟨111607142857, 14, [0, 2, 0, 1]⟩, ⟨419642857143, 13, [0, 3, 2]⟩, ⟨-379464285714, 14, [2, 0, 0, 1]⟩, ⟨136408730159, 14, [1, 0, 1, 1]⟩, ⟨416666666667, 13, [4, 0, 1]⟩, ⟨647321428571, 14, [2, 0, 1, 0]⟩, ⟨3125, 5, [0, 4, 1]⟩, ⟨-258928571429, 13, [2, 0, 3]⟩, ⟨543154761905, 14, [3, 0, 0, 0]⟩, ⟨-37125, 3, [0, 7]⟩, ⟨-875, 3, [0, 5, 0]⟩, ⟨-543154761905, 14, [0, 0, 0, 3]⟩, ⟨4375, 4, [0, 0, 5]⟩, ⟨-419642857143, 13, [2, 3, 0]⟩, ⟨379464285714, 14, [1, 0, 0, 2]⟩, ⟨-678571428571, 13, [3, 2, 0]⟩, ⟨-9375, 5, [1, 4, 0]⟩, ⟨982142857143, 14, [2, 2, 1]⟩, ⟨37125, 3, [7, 0]⟩, ⟨-245535714286, 14, [0, 2, 1, 0]⟩, ⟨-14880952381, 12, [3, 1, 1]⟩, ⟨-173611111111, 15, [0, 0, 0, 0, 1]⟩, ⟨-875, 3, [3, 4]⟩, ⟨669642857143, 15, [0, 0, 2, 1]⟩, ⟨245535714286, 14, [1, 2, 0, 0]⟩, ⟨-136408730159, 14, [1, 1, 0, 1]⟩, ⟨-729166666667, 13, [4, 1, 0]⟩, ⟨-173611111111, 15, [1, 0, 0, 0, 0]⟩, ⟨349702380952, 14, [0, 1, 2, 0]⟩, ⟨162946428571, 13, [0, 0, 3, 0]⟩, ⟨694444444444, 15, [0, 1, 0, 0, 0]⟩, ⟨135416666667, 12, [0, 1, 4]⟩, ⟨225, 2, [6, 1]⟩, ⟨-416666666667, 13, [1, 0, 4]⟩, ⟨4375, 4, [5, 0, 0]⟩, ⟨-215773809524, 14, [0, 0, 1, 2]⟩, ⟨875, 3, [4, 3]⟩, ⟨258928571429, 13, [3, 0, 2]⟩, ⟨375, 3, [2, 5]⟩, ⟨14880952381, 12, [1, 1, 3]⟩, ⟨-225, 2, [1, 6]⟩, ⟨-162946428571, 13, [0, 3, 0, 0]⟩, ⟨-124007936508, 15, [1, 1, 1, 0]⟩, ⟨-982142857143, 14, [1, 2, 2]⟩, ⟨818452380952, 15, [0, 1, 0, 2]⟩, ⟨694444444444, 15, [0, 0, 0, 1, 0]⟩, ⟨-375, 3, [5, 2]⟩, ⟨124007936508, 15, [0, 1, 1, 1]⟩, ⟨-840773809524, 14, [1, 0, 2, 0]⟩])],
     [(7, [⟨104166666667, 13, [1, 0, 0]⟩, ⟨-208333333333, 13, [0, 1, 0]⟩, ⟨5, 1, [3, 0]⟩, ⟨-5, 1, [0, 3]⟩, ⟨315, 1, [5]⟩, ⟨-275, 3, [1, 2]⟩, ⟨-225, 3, [2, 1]⟩, ⟨104166666667, 13, [0, 0, 1]⟩]), (8, [⟨-145833333333, 13, [0, 1, 1]⟩, ⟨5, 2, [0, 2, 0]⟩, ⟨-125, 4, [1, 0, 1]⟩, ⟨-75, 3, [2, 2]⟩, ⟨125, 3, [1, 3]⟩, ⟨270833333333, 13, [1, 1, 0]⟩, ⟨-875, 3, [4, 0]⟩, ⟨-25, 3, [0, 0, 2]⟩, ⟨125, 3, [3, 1]⟩, ⟨-25, 3, [2, 0, 0]⟩, ⟨875, 3, [0, 4]⟩]), (9, [⟨-135714285714, 12, [2, 3]⟩, ⟨-46875, 7, [0, 1, 0, 0]⟩, ⟨-625, 5, [1, 0, 2]⟩, ⟨-208333333333, 14, [1, 2, 0]⟩, ⟨-145833333333, 13, [2, 0, 1]⟩, ⟨-25, 2, [4, 1]⟩, ⟨-15625, 7, [0, 0, 0, 1]⟩, ⟨-25, 2, [1, 4]⟩, ⟨3125, 5, [0, 0, 3]⟩, ⟨-625, 4, [0, 3, 0]⟩, ⟨1485, 1, [7]⟩, ⟨1625, 3, [5, 0]⟩, ⟨416666666667, 14, [2, 1, 0]⟩, ⟨-364285714286, 12, [3, 2]⟩, ⟨833333333333, 14, [0, 1, 2]⟩, ⟨46875, 7, [0, 0, 1, 0]⟩, ⟨3125, 5, [3, 0, 0]⟩, ⟨15625, 7, [1, 0, 0, 0]⟩, ⟨104166666667, 13, [0, 2, 1]⟩, ⟨-1625, 3, [0, 5]⟩]), (10, [⟨-3125, 5, [0, 0, 4]⟩, ⟨520833333333, 15, [0, 0, 0, 2]⟩, ⟨625, 4, [0, 4, 0]⟩, ⟨-3125, 5, [4, 0, 0]⟩, ⟨357142857143, 14, [1, 2, 1]⟩, ⟨520833333333, 15, [0, 0, 1, 1]⟩, ⟨-520833333333, 15, [2, 0, 0, 0]⟩, ⟨-267857142857, 14, [1, 3, 0]⟩, ⟨190972222222, 14, [1, 0, 1, 0]⟩, ⟨714285714286, 13, [3, 3]⟩, ⟨-178571428571, 14, [2, 0, 2]⟩, ⟨-386904761905, 14, [1, 1, 2]⟩, ⟨-868055555556, 15, [0, 1, 1, 0]⟩, ⟨714285714286, 14, [2, 2, 0]⟩, ⟨-225, 2, [6, 0]⟩, ⟨-863095238095, 14, [0, 1, 3]⟩, ⟨-520833333333, 15, [1, 1, 0, 0]⟩, ⟨-15625, 7, [0, 0, 2, 0]⟩, ⟨113095238095, 13, [1, 0, 3]⟩, ⟨125, 3, [5, 1]⟩, ⟨15625, 7, [0, 2, 0, 0]⟩, ⟨225, 2, [0, 6]⟩, ⟨-868055555556, 15, [1, 0, 0, 1]⟩, ⟨-535714285714, 14, [0, 2, 2]⟩, ⟨-952380952381, 14, [3, 0, 1]⟩, ⟨297619047619, 15, [2, 1, 1]⟩, ⟨122023809524, 13, [3, 1, 0]⟩, ⟨125, 3, [1, 5]⟩, ⟨-267857142857, 14, [0, 3, 1]⟩, ⟨-173611111111, 15, [0, 1, 0, 1]⟩])]⟩,
    ⟨[(9, [⟨-192857142857, 11, [2, 3]⟩, ⟨-125, 4, [0, 1, 0, 0]⟩, ⟨25, 3, [1, 0, 2]⟩, ⟨375, 4, [2, 0, 1]⟩, ⟨-275, 2, [4, 1]⟩, ⟨-416666666667, 14, [0, 0, 0, 1]⟩, ⟨-25, 1, [1, 4]⟩, ⟨208333333333, 13, [1, 1, 1]⟩, ⟨-75, 3, [1, 2, 0]⟩, ⟨125, 3, [0, 0, 3]⟩, ⟨-25, 2, [0, 3, 0]⟩, ⟨6435, 1, [7]⟩, ⟨90, 1, [5, 0]⟩, ⟨-1, 1, [2, 1, 0]⟩, ⟨-182142857143, 11, [3, 2]⟩, ⟨5, 2, [0, 1, 2]⟩, ⟨125, 4, [0, 0, 1, 0]⟩, ⟨125, 3, [3, 0, 0]⟩, ⟨416666666667, 14, [1, 0, 0, 0]⟩, ⟨625, 4, [0, 2, 1]⟩, ⟨-90, 1, [0, 5]⟩]), (10, [⟨-25, 2, [0, 0, 4]⟩, ⟨625, 5, [0, 0, 0, 2]⟩, ⟨5, 1, [0, 4, 0]⟩, ⟨-25, 2, [4, 0, 0]⟩, ⟨178571428571, 13, [1, 2, 1]⟩, ⟨208333333333, 14, [0, 0, 1, 1]⟩, ⟨-625, 5, [2, 0, 0, 0]⟩, ⟨178571428571, 13, [1, 3, 0]⟩, ⟨375, 3, [2, 4]⟩, ⟨-267857142857, 12, [3, 3]⟩, ⟨-214285714286, 13, [2, 0, 2]⟩, ⟨357142857143, 14, [1, 1, 2]⟩, ⟨-416666666667, 14, [0, 1, 1, 0]⟩, ⟨857142857143, 13, [2, 2, 0]⟩, ⟨-12375, 3, [6, 0]⟩, ⟨-535714285714, 13, [0, 1, 3]⟩, ⟨375, 3, [4, 2]⟩, ⟨-1875, 5, [0, 0, 2, 0]⟩, ⟨357142857143, 13, [1, 0, 3]⟩, ⟨416666666667, 14, [1, 0, 1, 0]⟩, ⟨1875, 5, [0, 2, 0, 0]⟩, ⟨12375, 3, [0, 6]⟩, ⟨-208333333333, 14, [1, 0, 0, 1]⟩, ⟨-1125, 3, [5, 1]⟩, ⟨-642857142857, 13, [0, 2, 2]⟩, ⟨357142857143, 13, [3, 0, 1]⟩, ⟨357142857143, 14, [2, 1, 1]⟩, ⟨892857142857, 14, [3, 1, 0]⟩, ⟨-1125, 3, [1, 5]⟩, ⟨-446428571429, 13, [0, 3, 1]⟩])],
     [(9, [⟨125, 4, [1, 1, 0]⟩, ⟨375, 4, [0, 2, 0]⟩, ⟨-416666666667, 14, [1, 0, 1]⟩, ⟨225, 3, [2, 2]⟩, ⟨25, 2, [1, 3]⟩, ⟨-495, 1, [6]⟩, ⟨-833333333333, 14, [0, 1, 1]⟩, ⟨-875, 3, [4, 0]⟩, ⟨-1875, 5, [0, 0, 2]⟩, ⟨25, 2, [3, 1]⟩, ⟨-1875, 5, [2, 0, 0]⟩, ⟨875, 3, [0, 4]⟩]), (10, [⟨-535714285714, 13, [2, 3]⟩, ⟨-46875, 7, [0, 1, 0, 0]⟩, ⟨-625, 5, [1, 0, 2]⟩, ⟨625, 5, [2, 0, 1]⟩, ⟨-125, 3, [4, 1]⟩, ⟨-15625, 7, [0, 0, 0, 1]⟩, ⟨125, 3, [1, 4]⟩, ⟨3125, 5, [0, 0, 3]⟩, ⟨-625, 4, [0, 3, 0]⟩, ⟨-1125, 3, [0, 5]⟩, ⟨1125, 3, [5, 0]⟩, ⟨-1875, 5, [2, 1, 0]⟩, ⟨535714285714, 13, [3, 2]⟩, ⟨625, 5, [0, 1, 2]⟩, ⟨46875, 7, [0, 0, 1, 0]⟩, ⟨3125, 5, [3, 0, 0]⟩, ⟨15625, 7, [1, 0, 0, 0]⟩, ⟨125, 4, [0, 2, 1]⟩])],
     [(9, [⟨625, 3, [0, 0, 4]⟩, ⟨-625, 5, [0, 0, 0, 2]⟩, ⟨-125, 2, [0, 4, 0]⟩, ⟨625, 3, [4, 0, 0]⟩, ⟨180357142857, 12, [1, 2, 1]⟩, ⟨-520833333333, 14, [0, 0, 1, 1]⟩, ⟨625, 5, [2, 0, 0, 0]⟩, ⟨-607142857143, 12, [1, 3, 0]⟩, ⟨-20625, 3, [2, 4]⟩, ⟨-190178571429, 10, [3, 3]⟩, ⟨166071428571, 12, [2, 0, 2]⟩, ⟨166666666667, 13, [0, 1, 1, 0]⟩, ⟨-439285714286, 12, [2, 2, 0]⟩, ⟨86625, 3, [6, 0]⟩, ⟨321428571429, 12, [0, 1, 3]⟩, ⟨-1875, 5, [1, 1, 0, 0]⟩, ⟨141071428571, 12, [2, 1, 1]⟩, ⟨1875, 5, [0, 0, 2, 0]⟩, ⟨285714285714, 12, [1, 0, 3]⟩, ⟨208333333333, 13, [1, 0, 1, 0]⟩, ⟨-1875, 5, [0, 2, 0, 0]⟩, ⟨-678571428571, 12, [3, 1, 0]⟩, ⟨-86625, 3, [0, 6]⟩, ⟨-729166666667, 14, [1, 0, 0, 1]⟩, ⟨-32625, 3, [5, 1]⟩, ⟨273214285714, 12, [0, 2, 2]⟩, ⟨285714285714, 12, [3, 0, 1]⟩, ⟨96525, 1, [8]⟩, ⟨-20625, 3, [4, 2]⟩, ⟨141071428571, 12, [1, 1, 2]⟩, ⟨-32625, 3, [1, 5]⟩, ⟨392857142857, 12, [0, 3, 1]⟩, ⟨-625, 5, [0, 1, 0, 1]⟩]), (10, [⟨-441964285714, 12, [0, 2, 3]⟩, ⟨-3125, 6, [0, 0, 1, 0, 0]⟩, ⟨714285714286, 14, [2, 1, 0, 0]⟩, ⟨401785714286, 14, [0, 2, 0, 1]⟩, ⟨-508928571429, 12, [0, 3, 2]⟩, ⟨-803571428571, 14, [2, 0, 0, 1]⟩, ⟨178571428571, 14, [1, 0, 1, 1]⟩, ⟨28125, 5, [4, 0, 1]⟩, ⟨120535714286, 13, [2, 0, 1, 0]⟩, ⟨-53125, 5, [0, 4, 1]⟩, ⟨120535714286, 12, [2, 0, 3]⟩, ⟨-223214285714, 13, [3, 0, 0, 0]⟩, ⟨160875, 3, [0, 7]⟩, ⟨39375, 4, [0, 5, 0]⟩, ⟨223214285714, 13, [0, 0, 0, 3]⟩, ⟨-196875, 5, [0, 0, 5]⟩, ⟨321428571429, 12, [2, 3, 0]⟩, ⟨803571428571, 14, [1, 0, 0, 2]⟩, ⟨-120535714286, 12, [3, 0, 2]⟩, ⟨96875, 5, [1, 4, 0]⟩, ⟨803571428571, 13, [2, 2, 1]⟩, ⟨-160875, 3, [7, 0]⟩, ⟨-263392857143, 13, [0, 2, 1, 0]⟩, ⟨401785714286, 13, [3, 1, 1]⟩, ⟨-520833333333, 15, [0, 0, 0, 0, 1]⟩, ⟨1875, 3, [3, 4]⟩, ⟨111607142857, 13, [0, 0, 2, 1]⟩, ⟨294642857143, 13, [1, 2, 0, 0]⟩, ⟨-178571428571, 14, [1, 1, 0, 1]⟩, ⟨25, 2, [4, 1, 0]⟩, ⟨-520833333333, 15, [1, 0, 0, 0, 0]⟩, ⟨-330357142857, 13, [0, 1, 2, 0]⟩, ⟨-669642857143, 13, [0, 0, 3, 0]⟩, ⟨208333333333, 14, [0, 1, 0, 0, 0]⟩, ⟨-6875, 4, [0, 1, 4]⟩, ⟨-12375, 3, [6, 1]⟩, ⟨-28125, 5, [1, 0, 4]⟩, ⟨-196875, 5, [5, 0, 0]⟩, ⟨116071428571, 13, [0, 0, 1, 2]⟩, ⟨-1875, 3, [4, 3]⟩, ⟨629464285714, 12, [3, 2, 0]⟩, ⟨-3375, 3, [2, 5]⟩, ⟨-401785714286, 13, [1, 1, 3]⟩, ⟨12375, 3, [1, 6]⟩, ⟨669642857143, 13, [0, 3, 0, 0]⟩, ⟨-46130952381, 13, [1, 1, 1, 0]⟩, ⟨-803571428571, 13, [1, 2, 2]⟩, ⟨982142857143, 14, [0, 1, 0, 2]⟩, ⟨208333333333, 14, [0, 0, 0, 1, 0]⟩, ⟨3375, 3, [5, 2]⟩, ⟨46130952381, 13, [0, 1, 1, 1]⟩, ⟨-258928571429, 13, [1, 0, 2, 0]⟩])],
     [(9, [⟨182142857143, 11, [2, 3]⟩, ⟨3125, 6, [0, 1, 0, 0]⟩, ⟨-375, 4, [1, 0, 2]⟩, ⟨-25, 3, [2, 0, 1]⟩, ⟨25, 1, [4, 1]⟩, ⟨104166666667, 14, [0, 0, 0, 1]⟩, ⟨275, 2, [1, 4]⟩, ⟨-208333333333, 13, [1, 1, 1]⟩, ⟨75, 3, [1, 2, 0]⟩, ⟨-625, 4, [0, 0, 3]⟩, ⟨125, 3, [0, 3, 0]⟩, ⟨-6435, 1, [7]⟩, ⟨-675, 2, [5, 0]⟩, ⟨625, 4, [2, 1, 0]⟩, ⟨192857142857, 11, [3, 2]⟩, ⟨-375, 4, [0, 1, 2]⟩, ⟨-3125, 6, [0, 0, 1, 0]⟩, ⟨-625, 4, [3, 0, 0]⟩, ⟨-104166666667, 14, [1, 0, 0, 0]⟩, ⟨-375, 4, [0, 2, 1]⟩, ⟨675, 2, [0, 5]⟩]), (10, [⟨1875, 4, [0, 0, 4]⟩, ⟨-3125, 6, [0, 0, 0, 2]⟩, ⟨-375, 3, [0, 4, 0]⟩, ⟨1875, 4, [4, 0, 0]⟩, ⟨178571428571, 13, [1, 2, 1]⟩, ⟨-208333333333, 14, [0, 0, 1, 1]⟩, ⟨3125, 6, [2, 0, 0, 0]⟩, ⟨-107142857143, 12, [1, 3, 0]⟩, ⟨375, 3, [2, 4]⟩, ⟨-267857142857, 12, [3, 3]⟩, ⟨-214285714286, 13, [2, 0, 2]⟩, ⟨625, 5, [0, 1, 1, 0]⟩, ⟨-267857142857, 13, [2, 2, 0]⟩, ⟨12375, 3, [6, 0]⟩, ⟨714285714286, 13, [0, 1, 3]⟩, ⟨-625, 5, [1, 1, 0, 0]⟩, ⟨357142857143, 14, [2, 1, 1]⟩, ⟨9375, 6, [0, 0, 2, 0]⟩, ⟨357142857143, 13, [1, 0, 3]⟩, ⟨625, 5, [1, 0, 1, 0]⟩, ⟨-9375, 6, [0, 2, 0, 0]⟩, ⟨-116071428571, 12, [3, 1, 0]⟩, ⟨-12375, 3, [0, 6]⟩, ⟨-208333333333, 14, [1, 0, 0, 1]⟩, ⟨-1125, 3, [5, 1]⟩, ⟨482142857143, 13, [0, 2, 2]⟩, ⟨357142857143, 13, [3, 0, 1]⟩, ⟨375, 3, [4, 2]⟩, ⟨357142857143, 14, [1, 1, 2]⟩, ⟨-1125, 3, [1, 5]⟩, ⟨803571428571, 13, [0, 3, 1]⟩, ⟨-208333333333, 14, [0, 1, 0, 1]⟩])]⟩]

end Verif.MFormulas
