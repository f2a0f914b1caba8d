import Verif.Lemmas.NPoly

/-!
# Terms of total power 9 and 10 that the tables of coupled systems leave out

Generated by `tools/gen_matscs_ext.py` from the recurrence of the η functions; nothing about them is trusted, the kernel checks the
identities they satisfy (`Lemmas/MatscsKernel`). Coefficients are multiples of `1 / 40320`.
-/
namespace Verif.NP

/-- common denominator -/
def LL : Nat := 40320

def extA : NP := [
  mk 1 10 0 [8] (28828800),
  mk 1 2 8 [8] (20160),
  mk 1 3 7 [8] (-725760),
  mk 1 4 6 [8] (8467200),
  mk 1 5 5 [8] (-46569600),
  mk 1 6 4 [8] (139708800),
  mk 1 7 3 [8] (-242161920),
  mk 1 8 2 [8] (242161920),
  mk 1 9 1 [8] (-129729600),
  mk 2 10 0 [0, 6] (166320),
  mk 2 10 0 [1, 5] (105840),
  mk 2 10 0 [2, 4] (105840),
  mk 2 10 0 [3, 3] (126000),
  mk 2 10 0 [4, 2] (176400),
  mk 2 10 0 [5, 1] (317520),
  mk 2 10 0 [6, 0] (-166320),
  mk 2 10 0 [8] (-129729600),
  mk 2 3 7 [8] (725760),
  mk 2 4 6 [0, 6] (5040),
  mk 2 4 6 [1, 5] (5040),
  mk 2 4 6 [2, 4] (5040),
  mk 2 4 6 [3, 3] (5040),
  mk 2 4 6 [4, 2] (5040),
  mk 2 4 6 [5, 1] (5040),
  mk 2 4 6 [6, 0] (-5040),
  mk 2 4 6 [8] (-12700800),
  mk 2 5 5 [0, 6] (-70560),
  mk 2 5 5 [1, 5] (-57120),
  mk 2 5 5 [2, 4] (-53760),
  mk 2 5 5 [3, 3] (-60480),
  mk 2 5 5 [4, 2] (-77280),
  mk 2 5 5 [5, 1] (-104160),
  mk 2 5 5 [6, 0] (70560),
  mk 2 5 5 [8] (93139200),
  mk 2 6 4 [0, 6] (352800),
  mk 2 6 4 [1, 5] (252000),
  mk 2 6 4 [2, 4] (241920),
  mk 2 6 4 [3, 3] (282240),
  mk 2 6 4 [4, 2] (383040),
  mk 2 6 4 [5, 1] (604800),
  mk 2 6 4 [6, 0] (-352800),
  mk 2 6 4 [8] (-349272000),
  mk 2 7 3 [0, 6] (-846720),
  mk 2 7 3 [1, 5] (-564480),
  mk 2 7 3 [2, 4] (-554400),
  mk 2 7 3 [3, 3] (-655200),
  mk 2 7 3 [4, 2] (-907200),
  mk 2 7 3 [5, 1] (-1552320),
  mk 2 7 3 [6, 0] (846720),
  mk 2 7 3 [8] (726485760),
  mk 2 8 2 [0, 6] (1058400),
  mk 2 8 2 [1, 5] (682080),
  mk 2 8 2 [2, 4] (678720),
  mk 2 8 2 [3, 3] (806400),
  mk 2 8 2 [4, 2] (1125600),
  mk 2 8 2 [5, 1] (1999200),
  mk 2 8 2 [6, 0] (-1058400),
  mk 2 8 2 [8] (-847566720),
  mk 2 9 1 [0, 6] (-665280),
  mk 2 9 1 [1, 5] (-423360),
  mk 2 9 1 [2, 4] (-423360),
  mk 2 9 1 [3, 3] (-504000),
  mk 2 9 1 [4, 2] (-705600),
  mk 2 9 1 [5, 1] (-1270080),
  mk 2 9 1 [6, 0] (665280),
  mk 2 9 1 [8] (518918400),
  mk 3 10 0 [0, 0, 4] (1680),
  mk 3 10 0 [0, 1, 3] (1200),
  mk 3 10 0 [0, 2, 2] (1440),
  mk 3 10 0 [0, 3, 1] (2400),
  mk 3 10 0 [0, 4, 0] (-3360),
  mk 3 10 0 [0, 6] (-1164240),
  mk 3 10 0 [1, 0, 3] (1440),
  mk 3 10 0 [1, 1, 2] (1152),
  mk 3 10 0 [1, 2, 1] (1728),
  mk 3 10 0 [1, 3, 0] (-2640),
  mk 3 10 0 [1, 5] (-680400),
  mk 3 10 0 [2, 0, 2] (2160),
  mk 3 10 0 [2, 1, 1] (2160),
  mk 3 10 0 [2, 2, 0] (-3600),
  mk 3 10 0 [2, 4] (-619920),
  mk 3 10 0 [3, 0, 1] (4800),
  mk 3 10 0 [3, 1, 0] (-7200),
  mk 3 10 0 [3, 3] (-666000),
  mk 3 10 0 [4, 0, 0] (1680),
  mk 3 10 0 [4, 2] (-831600),
  mk 3 10 0 [5, 1] (-1315440),
  mk 3 10 0 [6, 0] (1164240),
  mk 3 10 0 [8] (389188800),
  mk 3 5 5 [0, 6] (141120),
  mk 3 5 5 [1, 5] (104160),
  mk 3 5 5 [2, 4] (77280),
  mk 3 5 5 [3, 3] (60480),
  mk 3 5 5 [4, 2] (53760),
  mk 3 5 5 [5, 1] (57120),
  mk 3 5 5 [6, 0] (-141120),
  mk 3 5 5 [8] (-46569600),
  mk 3 6 4 [0, 0, 4] (840),
  mk 3 6 4 [0, 1, 3] (840),
  mk 3 6 4 [0, 2, 2] (840),
  mk 3 6 4 [0, 3, 1] (840),
  mk 3 6 4 [0, 4, 0] (-1680),
  mk 3 6 4 [0, 6] (-1058400),
  mk 3 6 4 [1, 0, 3] (840),
  mk 3 6 4 [1, 1, 2] (840),
  mk 3 6 4 [1, 2, 1] (840),
  mk 3 6 4 [1, 3, 0] (-1680),
  mk 3 6 4 [1, 5] (-705600),
  mk 3 6 4 [2, 0, 2] (840),
  mk 3 6 4 [2, 1, 1] (840),
  mk 3 6 4 [2, 2, 0] (-1680),
  mk 3 6 4 [2, 4] (-594720),
  mk 3 6 4 [3, 0, 1] (840),
  mk 3 6 4 [3, 1, 0] (-1680),
  mk 3 6 4 [3, 3] (-574560),
  mk 3 6 4 [4, 0, 0] (840),
  mk 3 6 4 [4, 2] (-594720),
  mk 3 6 4 [5, 1] (-705600),
  mk 3 6 4 [6, 0] (1058400),
  mk 3 6 4 [8] (349272000),
  mk 3 7 3 [0, 0, 4] (-4200),
  mk 3 7 3 [0, 1, 3] (-3360),
  mk 3 7 3 [0, 2, 2] (-3780),
  mk 3 7 3 [0, 3, 1] (-5460),
  mk 3 7 3 [0, 4, 0] (8400),
  mk 3 7 3 [0, 6] (3386880),
  mk 3 7 3 [1, 0, 3] (-3780),
  mk 3 7 3 [1, 1, 2] (-3360),
  mk 3 7 3 [1, 2, 1] (-4200),
  mk 3 7 3 [1, 3, 0] (7140),
  mk 3 7 3 [1, 5] (2081520),
  mk 3 7 3 [2, 0, 2] (-5040),
  mk 3 7 3 [2, 1, 1] (-5040),
  mk 3 7 3 [2, 2, 0] (8820),
  mk 3 7 3 [2, 4] (1839600),
  mk 3 7 3 [3, 0, 1] (-7980),
  mk 3 7 3 [3, 1, 0] (13440),
  mk 3 7 3 [3, 3] (1915200),
  mk 3 7 3 [4, 0, 0] (-4200),
  mk 3 7 3 [4, 2] (2192400),
  mk 3 7 3 [5, 1] (2857680),
  mk 3 7 3 [6, 0] (-3386880),
  mk 3 7 3 [8] (-1089728640),
  mk 3 8 2 [0, 0, 4] (7560),
  mk 3 8 2 [0, 1, 3] (5544),
  mk 3 8 2 [0, 2, 2] (6552),
  mk 3 8 2 [0, 3, 1] (10584),
  mk 3 8 2 [0, 4, 0] (-15120),
  mk 3 8 2 [0, 6] (-5292000),
  mk 3 8 2 [1, 0, 3] (6552),
  mk 3 8 2 [1, 1, 2] (5376),
  mk 3 8 2 [1, 2, 1] (7728),
  mk 3 8 2 [1, 3, 0] (-12096),
  mk 3 8 2 [1, 5] (-3128160),
  mk 3 8 2 [2, 0, 2] (9576),
  mk 3 8 2 [2, 1, 1] (9576),
  mk 3 8 2 [2, 2, 0] (-16128),
  mk 3 8 2 [2, 4] (-2819040),
  mk 3 8 2 [3, 0, 1] (19152),
  mk 3 8 2 [3, 1, 0] (-29736),
  mk 3 8 2 [3, 3] (-3003840),
  mk 3 8 2 [4, 0, 0] (7560),
  mk 3 8 2 [4, 2] (-3642240),
  mk 3 8 2 [5, 1] (-5127360),
  mk 3 8 2 [6, 0] (5292000),
  mk 3 8 2 [8] (1695133440),
  mk 3 9 1 [0, 0, 4] (-5880),
  mk 3 9 1 [0, 1, 3] (-4200),
  mk 3 9 1 [0, 2, 2] (-5040),
  mk 3 9 1 [0, 3, 1] (-8400),
  mk 3 9 1 [0, 4, 0] (11760),
  mk 3 9 1 [0, 6] (3991680),
  mk 3 9 1 [1, 0, 3] (-5040),
  mk 3 9 1 [1, 1, 2] (-4032),
  mk 3 9 1 [1, 2, 1] (-6048),
  mk 3 9 1 [1, 3, 0] (9240),
  mk 3 9 1 [1, 5] (2328480),
  mk 3 9 1 [2, 0, 2] (-7560),
  mk 3 9 1 [2, 1, 1] (-7560),
  mk 3 9 1 [2, 2, 0] (12600),
  mk 3 9 1 [2, 4] (2116800),
  mk 3 9 1 [3, 0, 1] (-16800),
  mk 3 9 1 [3, 1, 0] (25200),
  mk 3 9 1 [3, 3] (2268000),
  mk 3 9 1 [4, 0, 0] (-5880),
  mk 3 9 1 [4, 2] (2822400),
  mk 3 9 1 [5, 1] (4233600),
  mk 3 9 1 [6, 0] (-3991680),
  mk 3 9 1 [8] (-1297296000),
  mk 4 10 0 [0, 0, 0, 2] (42),
  mk 4 10 0 [0, 0, 1, 1] (42),
  mk 4 10 0 [0, 0, 2, 0] (-126),
  mk 4 10 0 [0, 0, 4] (-12600),
  mk 4 10 0 [0, 1, 0, 1] (56),
  mk 4 10 0 [0, 1, 1, 0] (-140),
  mk 4 10 0 [0, 1, 3] (-8160),
  mk 4 10 0 [0, 2, 0, 0] (126),
  mk 4 10 0 [0, 2, 2] (-8784),
  mk 4 10 0 [0, 3, 1] (-12960),
  mk 4 10 0 [0, 4, 0] (25200),
  mk 4 10 0 [0, 6] (3492720),
  mk 4 10 0 [1, 0, 0, 1] (70),
  mk 4 10 0 [1, 0, 1, 0] (-196),
  mk 4 10 0 [1, 0, 3] (-9120),
  mk 4 10 0 [1, 1, 0, 0] (168),
  mk 4 10 0 [1, 1, 2] (-6456),
  mk 4 10 0 [1, 2, 1] (-8424),
  mk 4 10 0 [1, 3, 0] (17280),
  mk 4 10 0 [1, 5] (1769040),
  mk 4 10 0 [2, 0, 0, 0] (-42),
  mk 4 10 0 [2, 0, 2] (-11160),
  mk 4 10 0 [2, 1, 1] (-9480),
  mk 4 10 0 [2, 2, 0] (19944),
  mk 4 10 0 [2, 4] (1386000),
  mk 4 10 0 [3, 0, 1] (-19200),
  mk 4 10 0 [3, 1, 0] (32160),
  mk 4 10 0 [3, 3] (1278000),
  mk 4 10 0 [4, 0, 0] (-12600),
  mk 4 10 0 [4, 2] (1386000),
  mk 4 10 0 [5, 1] (2192400),
  mk 4 10 0 [6, 0] (-3492720),
  mk 4 10 0 [8] (-648648000),
  mk 4 7 3 [0, 0, 4] (12600),
  mk 4 7 3 [0, 1, 3] (8400),
  mk 4 7 3 [0, 2, 2] (6300),
  mk 4 7 3 [0, 3, 1] (6300),
  mk 4 7 3 [0, 4, 0] (-25200),
  mk 4 7 3 [0, 6] (-2540160),
  mk 4 7 3 [1, 0, 3] (7980),
  mk 4 7 3 [1, 1, 2] (5040),
  mk 4 7 3 [1, 2, 1] (4200),
  mk 4 7 3 [1, 3, 0] (-16380),
  mk 4 7 3 [1, 5] (-1164240),
  mk 4 7 3 [2, 0, 2] (5040),
  mk 4 7 3 [2, 1, 1] (3360),
  mk 4 7 3 [2, 2, 0] (-11340),
  mk 4 7 3 [2, 4] (-730800),
  mk 4 7 3 [3, 0, 1] (3780),
  mk 4 7 3 [3, 1, 0] (-10080),
  mk 4 7 3 [3, 3] (-655200),
  mk 4 7 3 [4, 0, 0] (12600),
  mk 4 7 3 [4, 2] (-730800),
  mk 4 7 3 [5, 1] (-952560),
  mk 4 7 3 [6, 0] (2540160),
  mk 4 7 3 [8] (363242880),
  mk 4 8 2 [0, 0, 0, 2] (105),
  mk 4 8 2 [0, 0, 1, 1] (105),
  mk 4 8 2 [0, 0, 2, 0] (-315),
  mk 4 8 2 [0, 0, 4] (-34020),
  mk 4 8 2 [0, 1, 0, 1] (105),
  mk 4 8 2 [0, 1, 1, 0] (-315),
  mk 4 8 2 [0, 1, 3] (-22428),
  mk 4 8 2 [0, 2, 0, 0] (315),
  mk 4 8 2 [0, 2, 2] (-21924),
  mk 4 8 2 [0, 3, 1] (-26208),
  mk 4 8 2 [0, 4, 0] (68040),
  mk 4 8 2 [0, 6] (7938000),
  mk 4 8 2 [1, 0, 0, 1] (105),
  mk 4 8 2 [1, 0, 1, 0] (-315),
  mk 4 8 2 [1, 0, 3] (-24444),
  mk 4 8 2 [1, 1, 0, 0] (315),
  mk 4 8 2 [1, 1, 2] (-16212),
  mk 4 8 2 [1, 2, 1] (-16296),
  mk 4 8 2 [1, 3, 0] (46872),
  mk 4 8 2 [1, 5] (3845520),
  mk 4 8 2 [2, 0, 0, 0] (-105),
  mk 4 8 2 [2, 0, 2] (-24192),
  mk 4 8 2 [2, 1, 1] (-16212),
  mk 4 8 2 [2, 2, 0] (46116),
  mk 4 8 2 [2, 4] (2731680),
  mk 4 8 2 [3, 0, 1] (-24444),
  mk 4 8 2 [3, 1, 0] (50652),
  mk 4 8 2 [3, 3] (2404080),
  mk 4 8 2 [4, 0, 0] (-34020),
  mk 4 8 2 [4, 2] (2731680),
  mk 4 8 2 [5, 1] (3845520),
  mk 4 8 2 [6, 0] (-7938000),
  mk 4 8 2 [8] (-1271350080),
  mk 4 9 1 [0, 0, 0, 2] (-126),
  mk 4 9 1 [0, 0, 1, 1] (-126),
  mk 4 9 1 [0, 0, 2, 0] (378),
  mk 4 9 1 [0, 0, 4] (35280),
  mk 4 9 1 [0, 1, 0, 1] (-168),
  mk 4 9 1 [0, 1, 1, 0] (420),
  mk 4 9 1 [0, 1, 3] (22680),
  mk 4 9 1 [0, 2, 0, 0] (-378),
  mk 4 9 1 [0, 2, 2] (24192),
  mk 4 9 1 [0, 3, 1] (32760),
  mk 4 9 1 [0, 4, 0] (-70560),
  mk 4 9 1 [0, 6] (-8981280),
  mk 4 9 1 [1, 0, 0, 1] (-210),
  mk 4 9 1 [1, 0, 1, 0] (588),
  mk 4 9 1 [1, 0, 3] (25200),
  mk 4 9 1 [1, 1, 0, 0] (-504),
  mk 4 9 1 [1, 1, 2] (17640),
  mk 4 9 1 [1, 2, 1] (20664),
  mk 4 9 1 [1, 3, 0] (-47880),
  mk 4 9 1 [1, 5] (-4445280),
  mk 4 9 1 [2, 0, 0, 0] (126),
  mk 4 9 1 [2, 0, 2] (30240),
  mk 4 9 1 [2, 1, 1] (22176),
  mk 4 9 1 [2, 2, 0] (-54432),
  mk 4 9 1 [2, 4] (-3386880),
  mk 4 9 1 [3, 0, 1] (40320),
  mk 4 9 1 [3, 1, 0] (-73080),
  mk 4 9 1 [3, 3] (-3024000),
  mk 4 9 1 [4, 0, 0] (35280),
  mk 4 9 1 [4, 2] (-3386880),
  mk 4 9 1 [5, 1] (-5080320),
  mk 4 9 1 [6, 0] (8981280),
  mk 4 9 1 [8] (1556755200),
  mk 5 10 0 [0, 0, 0, 2] (-252),
  mk 5 10 0 [0, 0, 1, 1] (-210),
  mk 5 10 0 [0, 0, 2, 0] (756),
  mk 5 10 0 [0, 0, 4] (25200),
  mk 5 10 0 [0, 1, 0, 1] (-252),
  mk 5 10 0 [0, 1, 1, 0] (672),
  mk 5 10 0 [0, 1, 3] (12960),
  mk 5 10 0 [0, 2, 0, 0] (-756),
  mk 5 10 0 [0, 2, 2] (11016),
  mk 5 10 0 [0, 3, 1] (15840),
  mk 5 10 0 [0, 4, 0] (-50400),
  mk 5 10 0 [0, 6] (-3492720),
  mk 5 10 0 [1, 0, 0, 1] (-294),
  mk 5 10 0 [1, 0, 1, 0] (840),
  mk 5 10 0 [1, 0, 3] (11520),
  mk 5 10 0 [1, 1, 0, 0] (-756),
  mk 5 10 0 [1, 1, 2] (5688),
  mk 5 10 0 [1, 2, 1] (7272),
  mk 5 10 0 [1, 3, 0] (-24480),
  mk 5 10 0 [1, 5] (-1315440),
  mk 5 10 0 [2, 0, 0, 0] (252),
  mk 5 10 0 [2, 0, 2] (6696),
  mk 5 10 0 [2, 1, 1] (5688),
  mk 5 10 0 [2, 2, 0] (-17712),
  mk 5 10 0 [2, 4] (-831600),
  mk 5 10 0 [3, 0, 1] (11520),
  mk 5 10 0 [3, 1, 0] (-27360),
  mk 5 10 0 [3, 3] (-766800),
  mk 5 10 0 [4, 0, 0] (25200),
  mk 5 10 0 [4, 2] (-831600),
  mk 5 10 0 [5, 1] (-1315440),
  mk 5 10 0 [6, 0] (3492720),
  mk 5 10 0 [8] (389188800),
  mk 5 9 0 [0, 0, 0, 1] (-168),
  mk 5 9 0 [0, 0, 1, 0] (504),
  mk 5 9 0 [0, 0, 3] (5040),
  mk 5 9 0 [0, 1, 0, 0] (-504),
  mk 5 9 0 [0, 1, 2] (2016),
  mk 5 9 0 [0, 2, 1] (2520),
  mk 5 9 0 [0, 3, 0] (-10080),
  mk 5 9 0 [0, 5] (-362880),
  mk 5 9 0 [1, 0, 0, 0] (168),
  mk 5 9 0 [1, 0, 2] (1008),
  mk 5 9 0 [1, 1, 1] (840),
  mk 5 9 0 [1, 2, 0] (-3024),
  mk 5 9 0 [1, 4] (-100800),
  mk 5 9 0 [2, 0, 1] (1512),
  mk 5 9 0 [2, 1, 0] (-4032),
  mk 5 9 0 [2, 3] (-77760),
  mk 5 9 0 [3, 0, 0] (5040),
  mk 5 9 0 [3, 2] (-73440),
  mk 5 9 0 [4, 1] (-110880),
  mk 5 9 0 [5, 0] (362880),
  mk 5 9 0 [7] (25945920),
  mk 5 9 1 [0, 0, 0, 2] (504),
  mk 5 9 1 [0, 0, 1, 1] (294),
  mk 5 9 1 [0, 0, 2, 0] (-1512),
  mk 5 9 1 [0, 0, 4] (-35280),
  mk 5 9 1 [0, 1, 0, 1] (252),
  mk 5 9 1 [0, 1, 1, 0] (-840),
  mk 5 9 1 [0, 1, 3] (-15120),
  mk 5 9 1 [0, 2, 0, 0] (1512),
  mk 5 9 1 [0, 2, 2] (-13608),
  mk 5 9 1 [0, 3, 1] (-17640),
  mk 5 9 1 [0, 4, 0] (70560),
  mk 5 9 1 [0, 6] (3991680),
  mk 5 9 1 [1, 0, 0, 1] (210),
  mk 5 9 1 [1, 0, 1, 0] (-672),
  mk 5 9 1 [1, 0, 3] (-10080),
  mk 5 9 1 [1, 1, 0, 0] (756),
  mk 5 9 1 [1, 1, 2] (-5544),
  mk 5 9 1 [1, 2, 1] (-6552),
  mk 5 9 1 [1, 3, 0] (25200),
  mk 5 9 1 [1, 5] (1270080),
  mk 5 9 1 [2, 0, 0, 0] (-504),
  mk 5 9 1 [2, 0, 2] (-7560),
  mk 5 9 1 [2, 1, 1] (-5544),
  mk 5 9 1 [2, 2, 0] (21168),
  mk 5 9 1 [2, 4] (846720),
  mk 5 9 1 [3, 0, 1] (-10080),
  mk 5 9 1 [3, 1, 0] (27720),
  mk 5 9 1 [3, 3] (756000),
  mk 5 9 1 [4, 0, 0] (-35280),
  mk 5 9 1 [4, 2] (846720),
  mk 5 9 1 [5, 1] (1270080),
  mk 5 9 1 [6, 0] (-3991680),
  mk 5 9 1 [8] (-389188800)]

def extB : NP := [
  mk 2 10 0 [7] (8648640),
  mk 2 3 7 [7] (-20160),
  mk 2 4 6 [7] (564480),
  mk 2 5 5 [7] (-5080320),
  mk 2 6 4 [7] (21168000),
  mk 2 7 3 [7] (-46569600),
  mk 2 8 2 [7] (55883520),
  mk 2 9 1 [7] (-34594560),
  mk 3 10 0 [0, 5] (60480),
  mk 3 10 0 [1, 4] (40320),
  mk 3 10 0 [2, 3] (43200),
  mk 3 10 0 [3, 2] (57600),
  mk 3 10 0 [4, 1] (100800),
  mk 3 10 0 [5, 0] (-60480),
  mk 3 10 0 [7] (-25945920),
  mk 3 5 5 [0, 5] (-5040),
  mk 3 5 5 [1, 4] (-5040),
  mk 3 5 5 [2, 3] (-5040),
  mk 3 5 5 [3, 2] (-5040),
  mk 3 5 5 [4, 1] (-5040),
  mk 3 5 5 [5, 0] (5040),
  mk 3 5 5 [7] (2540160),
  mk 3 6 4 [0, 5] (50400),
  mk 3 6 4 [1, 4] (40320),
  mk 3 6 4 [2, 3] (40320),
  mk 3 6 4 [3, 2] (50400),
  mk 3 6 4 [4, 1] (70560),
  mk 3 6 4 [5, 0] (-50400),
  mk 3 6 4 [7] (-21168000),
  mk 3 7 3 [0, 5] (-176400),
  mk 3 7 3 [1, 4] (-126000),
  mk 3 7 3 [2, 3] (-131040),
  mk 3 7 3 [3, 2] (-171360),
  mk 3 7 3 [4, 1] (-277200),
  mk 3 7 3 [5, 0] (176400),
  mk 3 7 3 [7] (69854400),
  mk 3 8 2 [0, 5] (282240),
  mk 3 8 2 [1, 4] (191520),
  mk 3 8 2 [2, 3] (203616),
  mk 3 8 2 [3, 2] (270144),
  mk 3 8 2 [4, 1] (463680),
  mk 3 8 2 [5, 0] (-282240),
  mk 3 8 2 [7] (-111767040),
  mk 3 9 1 [0, 5] (-211680),
  mk 3 9 1 [1, 4] (-141120),
  mk 3 9 1 [2, 3] (-151200),
  mk 3 9 1 [3, 2] (-201600),
  mk 3 9 1 [4, 1] (-352800),
  mk 3 9 1 [5, 0] (211680),
  mk 3 9 1 [7] (86486400),
  mk 4 10 0 [0, 0, 3] (840),
  mk 4 10 0 [0, 1, 2] (672),
  mk 4 10 0 [0, 2, 1] (1008),
  mk 4 10 0 [0, 3, 0] (-1680),
  mk 4 10 0 [0, 5] (-241920),
  mk 4 10 0 [1, 0, 2] (840),
  mk 4 10 0 [1, 1, 1] (840),
  mk 4 10 0 [1, 2, 0] (-1512),
  mk 4 10 0 [1, 4] (-137760),
  mk 4 10 0 [2, 0, 1] (1680),
  mk 4 10 0 [2, 1, 0] (-2688),
  mk 4 10 0 [2, 3] (-122400),
  mk 4 10 0 [3, 0, 0] (840),
  mk 4 10 0 [3, 2] (-129600),
  mk 4 10 0 [4, 1] (-168000),
  mk 4 10 0 [5, 0] (241920),
  mk 4 10 0 [7] (43243200),
  mk 4 7 3 [0, 0, 3] (-840),
  mk 4 7 3 [0, 1, 2] (-840),
  mk 4 7 3 [0, 2, 1] (-840),
  mk 4 7 3 [0, 3, 0] (1680),
  mk 4 7 3 [0, 5] (176400),
  mk 4 7 3 [1, 0, 2] (-840),
  mk 4 7 3 [1, 1, 1] (-840),
  mk 4 7 3 [1, 2, 0] (1680),
  mk 4 7 3 [1, 4] (92400),
  mk 4 7 3 [2, 0, 1] (-840),
  mk 4 7 3 [2, 1, 0] (1680),
  mk 4 7 3 [2, 3] (60480),
  mk 4 7 3 [3, 0, 0] (-840),
  mk 4 7 3 [3, 2] (60480),
  mk 4 7 3 [4, 1] (92400),
  mk 4 7 3 [5, 0] (-176400),
  mk 4 7 3 [7] (-23284800),
  mk 4 8 2 [0, 0, 3] (2520),
  mk 4 8 2 [0, 1, 2] (2100),
  mk 4 8 2 [0, 2, 1] (2940),
  mk 4 8 2 [0, 3, 0] (-5040),
  mk 4 8 2 [0, 5] (-564480),
  mk 4 8 2 [1, 0, 2] (2520),
  mk 4 8 2 [1, 1, 1] (2520),
  mk 4 8 2 [1, 2, 0] (-4620),
  mk 4 8 2 [1, 4] (-307440),
  mk 4 8 2 [2, 0, 1] (4200),
  mk 4 8 2 [2, 1, 0] (-7140),
  mk 4 8 2 [2, 3] (-240912),
  mk 4 8 2 [3, 0, 0] (2520),
  mk 4 8 2 [3, 2] (-232848),
  mk 4 8 2 [4, 1] (-347760),
  mk 4 8 2 [5, 0] (564480),
  mk 4 8 2 [7] (83825280),
  mk 4 9 1 [0, 0, 3] (-2520),
  mk 4 9 1 [0, 1, 2] (-2016),
  mk 4 9 1 [0, 2, 1] (-3024),
  mk 4 9 1 [0, 3, 0] (5040),
  mk 4 9 1 [0, 5] (635040),
  mk 4 9 1 [1, 0, 2] (-2520),
  mk 4 9 1 [1, 1, 1] (-2520),
  mk 4 9 1 [1, 2, 0] (4536),
  mk 4 9 1 [1, 4] (352800),
  mk 4 9 1 [2, 0, 1] (-5040),
  mk 4 9 1 [2, 1, 0] (8064),
  mk 4 9 1 [2, 3] (302400),
  mk 4 9 1 [3, 0, 0] (-2520),
  mk 4 9 1 [3, 2] (302400),
  mk 4 9 1 [4, 1] (423360),
  mk 4 9 1 [5, 0] (-635040),
  mk 4 9 1 [7] (-103783680),
  mk 5 10 0 [0, 0, 0, 1] (42),
  mk 5 10 0 [0, 0, 1, 0] (-126),
  mk 5 10 0 [0, 0, 3] (-2520),
  mk 5 10 0 [0, 1, 0, 0] (126),
  mk 5 10 0 [0, 1, 2] (-1512),
  mk 5 10 0 [0, 2, 1] (-1512),
  mk 5 10 0 [0, 3, 0] (5040),
  mk 5 10 0 [0, 5] (272160),
  mk 5 10 0 [1, 0, 0, 0] (-42),
  mk 5 10 0 [1, 0, 2] (-1512),
  mk 5 10 0 [1, 1, 1] (-840),
  mk 5 10 0 [1, 2, 0] (3024),
  mk 5 10 0 [1, 4] (110880),
  mk 5 10 0 [2, 0, 1] (-1008),
  mk 5 10 0 [2, 1, 0] (2520),
  mk 5 10 0 [2, 3] (73440),
  mk 5 10 0 [3, 0, 0] (-2520),
  mk 5 10 0 [3, 2] (77760),
  mk 5 10 0 [4, 1] (100800),
  mk 5 10 0 [5, 0] (-272160),
  mk 5 10 0 [7] (-25945920),
  mk 5 9 0 [0, 0, 2] (-756),
  mk 5 9 0 [0, 1, 1] (-336),
  mk 5 9 0 [0, 2, 0] (1512),
  mk 5 9 0 [0, 4] (35280),
  mk 5 9 0 [1, 0, 1] (-168),
  mk 5 9 0 [1, 1, 0] (504),
  mk 5 9 0 [1, 3] (10080),
  mk 5 9 0 [2, 0, 0] (-756),
  mk 5 9 0 [2, 2] (9072),
  mk 5 9 0 [3, 1] (10080),
  mk 5 9 0 [4, 0] (-35280),
  mk 5 9 0 [6] (-1995840),
  mk 5 9 1 [0, 0, 0, 1] (-105),
  mk 5 9 1 [0, 0, 1, 0] (315),
  mk 5 9 1 [0, 0, 3] (3780),
  mk 5 9 1 [0, 1, 0, 0] (-315),
  mk 5 9 1 [0, 1, 2] (1764),
  mk 5 9 1 [0, 2, 1] (2016),
  mk 5 9 1 [0, 3, 0] (-7560),
  mk 5 9 1 [0, 5] (-317520),
  mk 5 9 1 [1, 0, 0, 0] (105),
  mk 5 9 1 [1, 0, 2] (1260),
  mk 5 9 1 [1, 1, 1] (840),
  mk 5 9 1 [1, 2, 0] (-3024),
  mk 5 9 1 [1, 4] (-105840),
  mk 5 9 1 [2, 0, 1] (1260),
  mk 5 9 1 [2, 1, 0] (-3276),
  mk 5 9 1 [2, 3] (-75600),
  mk 5 9 1 [3, 0, 0] (3780),
  mk 5 9 1 [3, 2] (-75600),
  mk 5 9 1 [4, 1] (-105840),
  mk 5 9 1 [5, 0] (317520),
  mk 5 9 1 [7] (25945920)]

def extC : NP := [
  mk 0 1 8 [8] (20160),
  mk 0 2 7 [8] (-725760),
  mk 0 3 6 [8] (8467200),
  mk 0 4 5 [8] (-46569600),
  mk 0 5 4 [8] (139708800),
  mk 0 6 3 [8] (-242161920),
  mk 0 7 2 [8] (242161920),
  mk 0 8 1 [8] (-129729600),
  mk 0 9 0 [8] (28828800),
  mk 1 1 8 [8] (20160),
  mk 1 2 7 [8] (-725760),
  mk 1 3 6 [8] (12700800),
  mk 1 4 5 [8] (-93139200),
  mk 1 5 4 [8] (349272000),
  mk 1 6 3 [8] (-726485760),
  mk 1 7 2 [8] (847566720),
  mk 1 8 1 [8] (-518918400),
  mk 1 9 0 [8] (129729600),
  mk 2 3 6 [8] (-12700800),
  mk 2 4 5 [8] (139708800),
  mk 2 5 4 [8] (-698544000),
  mk 2 6 3 [8] (1816214400),
  mk 2 7 2 [8] (-2542700160),
  mk 2 8 1 [8] (1816214400),
  mk 2 9 0 [8] (-518918400),
  mk 3 5 4 [8] (349272000),
  mk 3 6 3 [8] (-1816214400),
  mk 3 7 2 [8] (3814050240),
  mk 3 8 1 [8] (-3632428800),
  mk 3 9 0 [8] (1297296000),
  mk 4 7 2 [8] (-1271350080),
  mk 4 8 1 [8] (2724321600),
  mk 4 9 0 [8] (-1556755200),
  mk 5 9 0 [0, 0, 0, 2] (-252),
  mk 5 9 0 [0, 0, 1, 1] (-210),
  mk 5 9 0 [0, 0, 2, 0] (756),
  mk 5 9 0 [0, 0, 4] (25200),
  mk 5 9 0 [0, 1, 0, 1] (-252),
  mk 5 9 0 [0, 1, 1, 0] (672),
  mk 5 9 0 [0, 1, 3] (12960),
  mk 5 9 0 [0, 2, 0, 0] (-756),
  mk 5 9 0 [0, 2, 2] (11016),
  mk 5 9 0 [0, 3, 1] (15840),
  mk 5 9 0 [0, 4, 0] (-50400),
  mk 5 9 0 [0, 6] (-3492720),
  mk 5 9 0 [1, 0, 0, 1] (-294),
  mk 5 9 0 [1, 0, 1, 0] (840),
  mk 5 9 0 [1, 0, 3] (11520),
  mk 5 9 0 [1, 1, 0, 0] (-756),
  mk 5 9 0 [1, 1, 2] (5688),
  mk 5 9 0 [1, 2, 1] (7272),
  mk 5 9 0 [1, 3, 0] (-24480),
  mk 5 9 0 [1, 5] (-1315440),
  mk 5 9 0 [2, 0, 0, 0] (252),
  mk 5 9 0 [2, 0, 2] (6696),
  mk 5 9 0 [2, 1, 1] (5688),
  mk 5 9 0 [2, 2, 0] (-17712),
  mk 5 9 0 [2, 4] (-831600),
  mk 5 9 0 [3, 0, 1] (11520),
  mk 5 9 0 [3, 1, 0] (-27360),
  mk 5 9 0 [3, 3] (-766800),
  mk 5 9 0 [4, 0, 0] (25200),
  mk 5 9 0 [4, 2] (-831600),
  mk 5 9 0 [5, 1] (-1315440),
  mk 5 9 0 [6, 0] (3492720),
  mk 5 9 0 [8] (389188800)]

def extD : NP := [
  mk 5 9 0 [0, 0, 0, 1] (42),
  mk 5 9 0 [0, 0, 1, 0] (-126),
  mk 5 9 0 [0, 0, 3] (-2520),
  mk 5 9 0 [0, 1, 0, 0] (126),
  mk 5 9 0 [0, 1, 2] (-1512),
  mk 5 9 0 [0, 2, 1] (-1512),
  mk 5 9 0 [0, 3, 0] (5040),
  mk 5 9 0 [0, 5] (272160),
  mk 5 9 0 [1, 0, 0, 0] (-42),
  mk 5 9 0 [1, 0, 2] (-1512),
  mk 5 9 0 [1, 1, 1] (-840),
  mk 5 9 0 [1, 2, 0] (3024),
  mk 5 9 0 [1, 4] (110880),
  mk 5 9 0 [2, 0, 1] (-1008),
  mk 5 9 0 [2, 1, 0] (2520),
  mk 5 9 0 [2, 3] (73440),
  mk 5 9 0 [3, 0, 0] (-2520),
  mk 5 9 0 [3, 2] (77760),
  mk 5 9 0 [4, 1] (100800),
  mk 5 9 0 [5, 0] (-272160),
  mk 5 9 0 [7] (-25945920)]

end Verif.NP
