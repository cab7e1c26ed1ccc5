/-
Tables of src/nutc.cc, generated from the source text by a script: one row per term, in source order.
`fa` are the multipliers of the nine fundamental angles (src/nutc.cc:65-260); `p` and `e` are the coefficients of
the longitude series (lines 263-458) and of the obliquity series (lines 461-656), in units of
0.1 microarcsecond (the source writes every coefficient with exactly one decimal).
-/
namespace Sla

/-- One row of the tables `fa_coef`, `l_psi`, `o_eps` (src/nutc.cc:65-656). -/
structure NutTerm where
  fa : List Int
  p : Int × Int × Int × Int
  e : Int × Int × Int × Int
deriving DecidableEq

/-- src/nutc.cc: rows 0 to 19 of the three tables. -/
def nutTerms0 : List NutTerm := [
  ⟨[0, 0, 0, 0, -1, 0, 0, 0, 0], (33415, 172062418, 31, 174095), (92053658, -15062, 8857, -2)⟩,
  ⟨[0, 0, 2, -2, 2, 0, 0, 0, 0], (-17168, -13171853, 14, -1568), (5730959, -5702, -3050, -3)⟩,
  ⟨[0, 0, 2, 0, 2, 0, 0, 0, 0], (2857, -2276670, 3, -235), (978455, 1478, -488, -2)⟩,
  ⟨[0, 0, 0, 0, -2, 0, 0, 0, 0], (-686, -2074480, 0, -214), (-897536, 280, 469, 0)⟩,
  ⟨[0, 1, 0, 0, 0, 0, 0, 0, 0], (9503, 1476079, -23, -3550), (74067, -3271, -182, 8)⟩,
  ⟨[0, 1, 2, -2, 2, 0, 0, 0, 0], (-667, -516891, 2, 1226), (224423, -223, -676, 0)⟩,
  ⟨[1, 0, 0, 0, 0, 0, 0, 0, 0], (-1086, 711176, 0, 70), (-6836, 468, 0, 0)⟩,
  ⟨[0, 0, 2, 0, 1, 0, 0, 0, 0], (356, -387402, 1, -362), (200707, 360, 16, 0)⟩,
  ⟨[1, 0, 2, 0, 2, 0, 0, 0, 0], (854, -301276, 0, -31), (128938, 395, -62, 0)⟩,
  ⟨[0, -1, 2, -2, 2, 0, 0, 0, 0], (90, 215830, 1, -503), (-95932, 144, 302, -1)⟩,
  ⟨[0, 0, 2, -2, 1, 0, 0, 0, 0], (221, 128228, 0, 133), (-68995, 48, -6, 0)⟩,
  ⟨[-1, 0, 2, 0, 2, 0, 0, 0, 0], (34, 123508, 0, 13), (-53325, -1, 27, 0)⟩,
  ⟨[-1, 0, 0, 2, 0, 0, 0, 0, 0], (-211, 156994, 0, 16), (-1252, 105, 0, 0)⟩,
  ⟨[1, 0, 0, 0, 1, 0, 0, 0, 0], (42, 63138, 0, 62), (-33234, -9, -3, 0)⟩,
  ⟨[1, 0, 0, 0, -1, 0, 0, 0, 0], (-228, 57969, 0, 61), (31423, 89, 3, 0)⟩,
  ⟨[-1, 0, 2, 2, 2, 0, 0, 0, 0], (157, -59611, 0, -6), (25525, 73, -12, 0)⟩,
  ⟨[1, 0, 2, 0, 1, 0, 0, 0, 0], (131, -51591, 0, -46), (26344, 88, 2, 0)⟩,
  ⟨[-2, 0, 2, 0, 1, 0, 0, 0, 0], (18, 45927, 0, 45), (-24244, 16, -4, 0)⟩,
  ⟨[0, 0, 0, 2, 0, 0, 0, 0, 0], (-175, 63360, 0, 7), (-1233, 39, 0, 0)⟩,
  ⟨[0, 0, 2, 2, 2, 0, 0, 0, 0], (163, -38511, 0, -4), (16424, 73, -8, 0)⟩]

/-- src/nutc.cc: rows 20 to 39 of the three tables. -/
def nutTerms1 : List NutTerm := [
  ⟨[2, 0, 0, -2, 0, 0, 0, 0, 0], (-28, 47717, 0, 5), (479, 32, 0, 0)⟩,
  ⟨[2, 0, 2, 0, 2, 0, 0, 0, 0], (138, -30993, 0, -3), (13212, 62, -6, 0)⟩,
  ⟨[1, 0, 2, -2, 2, 0, 0, 0, 0], (2, 28603, 0, 3), (-12341, -3, 6, 0)⟩,
  ⟨[-1, 0, 2, 0, 1, 0, 0, 0, 0], (14, 20453, 0, 20), (-10765, -3, 0, 0)⟩,
  ⟨[2, 0, 0, 0, 0, 0, 0, 0, 0], (-86, 29226, 0, 3), (-616, 18, 0, 0)⟩,
  ⟨[0, 0, 2, 0, 0, 0, 0, 0, 0], (-77, 25879, 0, 2), (-554, 16, 0, 0)⟩,
  ⟨[0, 1, 0, 0, 1, 0, 0, 0, 0], (88, -14081, 0, 37), (8569, -49, -21, 0)⟩,
  ⟨[-1, 0, 0, 2, 1, 0, 0, 0, 0], (14, 15175, 0, 15), (-8007, -1, 0, 0)⟩,
  ⟨[0, 2, 2, -2, 2, 0, 0, 0, 0], (-19, -15797, 0, 77), (6851, -6, -38, 0)⟩,
  ⟨[0, 0, 2, -2, 0, 0, 0, 0, 0], (13, -21786, 0, -2), (-169, -15, 0, 0)⟩,
  ⟨[-1, 0, 0, 2, -1, 0, 0, 0, 0], (-48, 12868, 0, 13), (6957, 18, 0, 0)⟩,
  ⟨[0, 1, 0, 0, -1, 0, 0, 0, 0], (63, 12672, 0, -40), (6422, -26, -16, 0)⟩,
  ⟨[0, 2, 0, 0, 0, 0, 0, 0, 0], (-10, 16693, 0, -83), (133, 11, -1, 0)⟩,
  ⟨[-1, 0, 2, 2, 1, 0, 0, 0, 0], (24, -10200, 0, -9), (5219, 16, 0, 0)⟩,
  ⟨[1, 0, 2, 2, 2, 0, 0, 0, 0], (45, -7669, 0, 0), (3258, 20, -1, 0)⟩,
  ⟨[0, 1, 2, 0, 2, 0, 0, 0, 0], (-11, 7565, 0, -17), (-3251, -5, 9, 0)⟩,
  ⟨[-2, 0, 2, 0, 0, 0, 0, 0, 0], (-14, -10973, 0, -5), (101, 3, 0, 0)⟩,
  ⟨[0, 0, 2, 2, 1, 0, 0, 0, 0], (26, -6630, 0, -6), (3345, 16, 0, 0)⟩,
  ⟨[0, -1, 2, 0, 2, 0, 0, 0, 0], (8, -7141, 0, 16), (3071, 4, -9, 0)⟩,
  ⟨[0, 0, 0, 2, 1, 0, 0, 0, 0], (4, -6299, 0, -6), (3272, 5, 0, 0)⟩]

/-- src/nutc.cc: rows 40 to 59 of the three tables. -/
def nutTerms2 : List NutTerm := [
  ⟨[1, 0, 2, -2, 1, 0, 0, 0, 0], (3, 5804, 0, 6), (-3046, -1, 0, 0)⟩,
  ⟨[2, 0, 0, -2, -1, 0, 0, 0, 0], (-16, 5773, 0, 5), (3040, 6, 0, 0)⟩,
  ⟨[2, 0, 2, -2, 2, 0, 0, 0, 0], (-9, 6444, 0, 0), (-2768, -5, 1, 0)⟩,
  ⟨[2, 0, 2, 0, 1, 0, 0, 0, 0], (22, -5340, 0, -5), (2689, 13, 0, 0)⟩,
  ⟨[0, 0, 0, 2, -1, 0, 0, 0, 0], (-25, 4933, 0, 5), (2718, 11, 0, 0)⟩,
  ⟨[0, -1, 2, -2, 1, 0, 0, 0, 0], (-1, -4773, 0, -24), (2715, -4, -8, 0)⟩,
  ⟨[-1, -1, 0, 2, 0, 0, 0, 0, 0], (-9, 7350, 0, -17), (-52, 5, 0, 0)⟩,
  ⟨[2, 0, 0, -2, 1, 0, 0, 0, 0], (7, 4062, 0, 4), (-2205, 1, 0, 0)⟩,
  ⟨[1, 0, 0, 2, 0, 0, 0, 0, 0], (-28, 6569, 0, 0), (-201, 3, 0, 0)⟩,
  ⟨[0, 1, 2, -2, 1, 0, 0, 0, 0], (6, 3580, 0, 20), (-1910, 1, 5, 0)⟩,
  ⟨[1, -1, 0, 0, 0, 0, 0, 0, 0], (-7, 4725, 0, -11), (-41, 3, 0, 0)⟩,
  ⟨[-2, 0, 2, 0, 2, 0, 0, 0, 0], (-1, -3005, 0, 0), (1306, -1, 0, 0)⟩,
  ⟨[0, -1, 0, 2, 0, 0, 0, 0, 0], (-12, 4351, 0, -10), (30, 3, 0, 0)⟩,
  ⟨[3, 0, 2, 0, 2, 0, 0, 0, 0], (18, -2894, 0, 0), (1229, 8, 0, 0)⟩,
  ⟨[0, 0, 0, 1, 0, 0, 0, 0, 0], (6, -4226, 0, 0), (37, -3, 0, 0)⟩,
  ⟨[1, -1, 2, 0, 2, 0, 0, 0, 0], (8, -2876, 0, 6), (1231, 4, -3, 0)⟩,
  ⟨[1, 0, 0, -1, 0, 0, 0, 0, 0], (-386, -3923, 0, 0), (-527, 153, 0, 0)⟩,
  ⟨[-1, -1, 2, 2, 2, 0, 0, 0, 0], (7, -2818, 0, 6), (1207, 3, -3, 0)⟩,
  ⟨[-1, 0, 2, 0, 0, 0, 0, 0, 0], (6, -4057, 0, 0), (40, -3, 0, 0)⟩,
  ⟨[2, 0, 0, 0, -1, 0, 0, 0, 0], (-12, 2290, 0, 2), (1265, 5, 0, 0)⟩]

/-- src/nutc.cc: rows 60 to 79 of the three tables. -/
def nutTerms3 : List NutTerm := [
  ⟨[0, -1, 2, 2, 2, 0, 0, 0, 0], (11, -2643, 0, 5), (1127, 5, -3, 0)⟩,
  ⟨[1, 1, 2, 0, 2, 0, 0, 0, 0], (-7, 2479, 0, -5), (-1061, -3, 3, 0)⟩,
  ⟨[2, 0, 0, 0, 1, 0, 0, 0, 0], (-2, 2180, 0, 2), (-1129, -2, 0, 0)⟩,
  ⟨[1, 1, 0, 0, 0, 0, 0, 0, 0], (6, -3390, 0, 8), (36, -2, 0, 0)⟩,
  ⟨[1, 0, -2, 2, -1, 0, 0, 0, 0], (-7, 1987, 0, 2), (1074, 3, 0, 0)⟩,
  ⟨[1, 0, 2, 0, 0, 0, 0, 0, 0], (-15, 3340, 0, 0), (-109, 2, 0, 0)⟩,
  ⟨[-1, 1, 0, 1, 0, 0, 0, 0, 0], (1, 3340, 0, 0), (-9, 0, 0, 0)⟩,
  ⟨[1, 0, 0, 0, 2, 0, 0, 0, 0], (-1, -1981, 0, 0), (854, 0, 0, 0)⟩,
  ⟨[-1, 0, 1, 0, 1, 0, 0, 0, 0], (-1066, 0, 0, 0), (0, -888, 0, 0)⟩,
  ⟨[0, 0, 2, 1, 2, 0, 0, 0, 0], (-5, 1658, 0, 0), (-710, -2, 0, 0)⟩,
  ⟨[-1, 1, 0, 1, 1, 0, 0, 0, 0], (0, 1348, 0, 0), (-703, 0, 0, 0)⟩,
  ⟨[-1, 0, 2, 4, 2, 0, 0, 0, 0], (9, -1516, 0, 0), (645, 4, 0, 0)⟩,
  ⟨[0, -2, 2, -2, 1, 0, 0, 0, 0], (0, -1297, 0, 0), (698, 0, 0, 0)⟩,
  ⟨[1, 0, 2, 2, 1, 0, 0, 0, 0], (8, -1328, 0, -1), (661, 4, 0, 0)⟩,
  ⟨[1, 0, 0, 0, -2, 0, 0, 0, 0], (5, -1407, 0, 0), (-610, -2, 0, 0)⟩,
  ⟨[-2, 0, 2, 2, 2, 0, 0, 0, 0], (-1, 1384, 0, 0), (-595, -1, 0, 0)⟩,
  ⟨[1, 1, 2, -2, 2, 0, 0, 0, 0], (0, 1290, 0, -3), (-556, 0, 2, 0)⟩,
  ⟨[-2, 0, 2, 4, 2, 0, 0, 0, 0], (5, -1212, 0, 0), (517, 2, 0, 0)⟩,
  ⟨[-1, 0, 4, 0, 2, 0, 0, 0, 0], (-3, 1145, 0, 0), (-490, -1, 0, 0)⟩,
  ⟨[2, 0, 2, -2, 1, 0, 0, 0, 0], (-1, 1018, 0, 0), (-527, -1, 0, 0)⟩]

/-- src/nutc.cc: rows 80 to 99 of the three tables. -/
def nutTerms4 : List NutTerm := [
  ⟨[1, 0, 0, -1, -1, 0, 0, 0, 0], (-36, -1019, 0, 0), (-496, 14, 0, 0)⟩,
  ⟨[2, 0, 2, 2, 2, 0, 0, 0, 0], (8, -1094, 0, 0), (463, 4, 0, 0)⟩,
  ⟨[1, 0, 0, 2, 1, 0, 0, 0, 0], (2, -970, 0, 0), (496, 1, 0, 0)⟩,
  ⟨[3, 0, 0, 0, 0, 0, 0, 0, 0], (-7, 1573, 0, 0), (-51, 1, 0, 0)⟩,
  ⟨[0, 0, 2, -2, -1, 0, 0, 0, 0], (2, -833, 0, 0), (-440, -1, 0, 0)⟩,
  ⟨[3, 0, 2, -2, 2, 0, 0, 0, 0], (-3, 933, 0, 0), (-399, -1, 0, 0)⟩,
  ⟨[0, 0, 4, -2, 2, 0, 0, 0, 0], (-1, 921, 0, 0), (-395, -1, 0, 0)⟩,
  ⟨[-1, 0, 0, 4, 0, 0, 0, 0, 0], (-5, 1336, 0, 0), (-39, 1, 0, 0)⟩,
  ⟨[0, 1, 2, 0, 1, 0, 0, 0, 0], (-1, 815, 0, 0), (-421, -1, 0, 0)⟩,
  ⟨[0, 0, 2, -2, 3, 0, 0, 0, 0], (0, 1239, 0, 0), (-172, 1, 0, 0)⟩,
  ⟨[-2, 0, 0, 4, 0, 0, 0, 0, 0], (-3, 1281, 0, 0), (-23, 1, 0, 0)⟩,
  ⟨[-1, -1, 0, 2, 1, 0, 0, 0, 0], (1, 741, 0, -3), (-392, 0, 0, 0)⟩,
  ⟨[-2, 0, 2, 0, -1, 0, 0, 0, 0], (-2, -703, 0, 0), (-384, 1, 0, 0)⟩,
  ⟨[0, 0, 2, 0, -1, 0, 0, 0, 0], (-4, 666, 0, 0), (368, 2, 0, 0)⟩,
  ⟨[0, -1, 2, 0, 1, 0, 0, 0, 0], (1, -667, 0, 0), (346, 1, 0, 0)⟩,
  ⟨[0, 1, 0, 0, 2, 0, 0, 0, 0], (-7, 693, 0, -3), (-327, 3, 0, 0)⟩,
  ⟨[0, 0, 2, -1, 2, 0, 0, 0, 0], (0, -704, 0, 0), (304, 0, 0, 0)⟩,
  ⟨[2, 1, 0, -2, 0, 0, 0, 0, 0], (-1, 1015, 0, 0), (4, 1, 0, 0)⟩,
  ⟨[0, 0, 2, 4, 2, 0, 0, 0, 0], (5, -691, 0, 0), (293, 2, 0, 0)⟩,
  ⟨[-1, -1, 0, 2, -1, 0, 0, 0, 0], (-2, 585, 0, 2), (316, 1, 0, 0)⟩]

/-- src/nutc.cc: rows 100 to 119 of the three tables. -/
def nutTerms5 : List NutTerm := [
  ⟨[-1, 1, 0, 2, 0, 0, 0, 0, 0], (1, -949, 0, 2), (8, -1, 0, 0)⟩,
  ⟨[1, -1, 0, 0, 1, 0, 0, 0, 0], (0, 529, 0, -2), (-279, 0, 0, 0)⟩,
  ⟨[0, -1, 2, -2, 0, 0, 0, 0, 0], (1, 867, 0, -2), (29, 0, 0, 0)⟩,
  ⟨[0, 1, 0, 0, -2, 0, 0, 0, 0], (-1, -592, 0, 2), (-253, 0, 0, 0)⟩,
  ⟨[1, -1, 2, 2, 2, 0, 0, 0, 0], (3, -588, 0, 1), (250, 1, 0, 0)⟩,
  ⟨[1, 0, 0, 2, -1, 0, 0, 0, 0], (-3, 490, 0, 0), (275, 1, 0, 0)⟩,
  ⟨[-1, 1, 2, 2, 2, 0, 0, 0, 0], (-2, 569, 0, -1), (-244, -1, 0, 0)⟩,
  ⟨[3, 0, 2, 0, 1, 0, 0, 0, 0], (3, -502, 0, 0), (249, 2, 0, 0)⟩,
  ⟨[0, 1, 2, 2, 2, 0, 0, 0, 0], (-2, 534, 0, -1), (-228, -1, 0, 0)⟩,
  ⟨[1, 0, 2, -2, 0, 0, 0, 0, 0], (1, -765, 0, 0), (9, -1, 0, 0)⟩,
  ⟨[-1, 0, -2, 4, -1, 0, 0, 0, 0], (-2, 453, 0, 0), (244, 1, 0, 0)⟩,
  ⟨[-1, -1, 2, 2, 1, 0, 0, 0, 0], (1, -468, 0, 0), (239, 1, 0, 0)⟩,
  ⟨[0, -1, 2, 2, 1, 0, 0, 0, 0], (2, -446, 0, 0), (225, 1, 0, 0)⟩,
  ⟨[2, -1, 2, 0, 2, 0, 0, 0, 0], (2, -487, 0, 0), (208, 1, 0, 0)⟩,
  ⟨[0, 0, 0, 2, 2, 0, 0, 0, 0], (1, -468, 0, 0), (201, 0, 0, 0)⟩,
  ⟨[1, -1, 2, 0, 1, 0, 0, 0, 0], (1, -420, 0, 0), (215, 1, 0, 0)⟩,
  ⟨[-1, 1, 2, 0, 2, 0, 0, 0, 0], (0, 464, 0, -1), (-200, 0, 0, 0)⟩,
  ⟨[0, 1, 0, 2, 0, 0, 0, 0, 0], (2, -673, 0, 1), (14, 0, 0, 0)⟩,
  ⟨[0, 1, 2, -2, 0, 0, 0, 0, 0], (0, -658, 0, 2), (-2, -1, 0, 0)⟩,
  ⟨[0, 3, 2, -2, 2, 0, 0, 0, 0], (-1, -439, 0, 3), (190, 0, -1, 0)⟩]

/-- src/nutc.cc: rows 120 to 139 of the three tables. -/
def nutTerms6 : List NutTerm := [
  ⟨[0, 0, 0, 1, 1, 0, 0, 0, 0], (0, -389, 0, 0), (205, 0, 0, 0)⟩,
  ⟨[-1, 0, 2, 2, 0, 0, 0, 0, 0], (-3, 639, 0, 0), (-20, 0, 0, 0)⟩,
  ⟨[2, 1, 2, 0, 2, 0, 0, 0, 0], (-2, 412, 0, 0), (-176, -1, 0, 0)⟩,
  ⟨[1, 1, 0, 0, 1, 0, 0, 0, 0], (0, -361, 0, 2), (190, 0, 0, 0)⟩,
  ⟨[2, 0, 0, 2, 0, 0, 0, 0, 0], (-3, 585, 0, 0), (-24, 0, 0, 0)⟩,
  ⟨[1, 1, 2, 0, 1, 0, 0, 0, 0], (-1, 361, 0, 0), (-184, -1, 0, 0)⟩,
  ⟨[-1, 0, 0, 2, 2, 0, 0, 0, 0], (0, -397, 0, 0), (171, 0, 0, 0)⟩,
  ⟨[1, 0, -2, 2, 0, 0, 0, 0, 0], (1, -577, 0, 0), (4, 0, 0, 0)⟩,
  ⟨[0, -1, 0, 2, -1, 0, 0, 0, 0], (-2, 334, 0, 0), (184, 1, 0, 0)⟩,
  ⟨[-1, 0, 1, 0, 2, 0, 0, 0, 0], (364, 0, 0, 0), (0, 174, 0, 0)⟩,
  ⟨[0, 1, 0, 1, 0, 0, 0, 0, 0], (-1, 557, 0, -1), (-6, 0, 0, 0)⟩,
  ⟨[1, 0, -2, 2, -2, 0, 0, 0, 0], (1, -354, 0, 0), (-154, 0, 0, 0)⟩,
  ⟨[0, 0, 0, 1, -1, 0, 0, 0, 0], (1, -310, 0, 0), (-168, -1, 0, 0)⟩,
  ⟨[1, -1, 0, 0, -1, 0, 0, 0, 0], (-1, 301, 0, 0), (163, 0, 0, 0)⟩,
  ⟨[0, 0, 0, 4, 0, 0, 0, 0, 0], (-3, 492, 0, 0), (-20, 0, 0, 0)⟩,
  ⟨[1, -1, 0, 2, 0, 0, 0, 0, 0], (-2, 491, 0, 0), (-15, 0, 0, 0)⟩,
  ⟨[1, 0, 2, 1, 2, 0, 0, 0, 0], (-1, 336, 0, 0), (-143, -1, 0, 0)⟩,
  ⟨[1, 0, 2, -1, 2, 0, 0, 0, 0], (1, -335, 0, 0), (144, 0, 0, 0)⟩,
  ⟨[-1, 0, 0, 2, -2, 0, 0, 0, 0], (1, -310, 0, 0), (-134, 0, 0, 0)⟩,
  ⟨[0, 0, 2, 1, 1, 0, 0, 0, 0], (-1, 280, 0, 0), (-143, -1, 0, 0)⟩]

/-- src/nutc.cc: rows 140 to 159 of the three tables. -/
def nutTerms7 : List NutTerm := [
  ⟨[-1, 0, 2, 0, -1, 0, 0, 0, 0], (1, -252, 0, 0), (-137, 0, 0, 0)⟩,
  ⟨[-1, 0, 2, 4, 1, 0, 0, 0, 0], (1, -262, 0, 0), (131, 1, 0, 0)⟩,
  ⟨[0, 0, 2, 2, 0, 0, 0, 0, 0], (-2, 415, 0, 0), (-17, 0, 0, 0)⟩,
  ⟨[1, 1, 2, -2, 1, 0, 0, 0, 0], (0, 245, 0, 1), (-128, 0, 0, 0)⟩,
  ⟨[0, 0, 1, 0, 1, 0, 0, 0, 0], (-162, 0, 0, 0), (0, -144, 0, 0)⟩,
  ⟨[-1, 0, 2, -1, 1, 0, 0, 0, 0], (0, -223, 0, 0), (124, 0, 0, 0)⟩,
  ⟨[-2, 0, 2, 2, 1, 0, 0, 0, 0], (0, 231, 0, 0), (-120, 0, 0, 0)⟩,
  ⟨[2, -1, 0, 0, 0, 0, 0, 0, 0], (-1, 375, 0, 0), (-8, 0, 0, 0)⟩,
  ⟨[4, 0, 2, 0, 2, 0, 0, 0, 0], (2, -257, 0, 0), (109, 1, 0, 0)⟩,
  ⟨[2, 1, 2, -2, 2, 0, 0, 0, 0], (0, 252, 0, 0), (-108, 0, 0, 0)⟩,
  ⟨[0, 1, 2, 1, 2, 0, 0, 0, 0], (1, -245, 0, 0), (105, 0, 0, 0)⟩,
  ⟨[1, 0, 4, -2, 2, 0, 0, 0, 0], (-1, 243, 0, 0), (-104, 0, 0, 0)⟩,
  ⟨[1, 1, 0, 0, -1, 0, 0, 0, 0], (1, -207, 0, 0), (-112, 0, 0, 0)⟩,
  ⟨[-2, 0, 2, 4, 1, 0, 0, 0, 0], (1, -208, 0, 0), (105, 1, 0, 0)⟩,
  ⟨[2, 0, 2, 0, 0, 0, 0, 0, 0], (-2, 334, 0, 0), (-14, 0, 0, 0)⟩,
  ⟨[-1, 0, 1, 0, 0, 0, 0, 0, 0], (329, 0, 0, 0), (0, 1, 0, 0)⟩,
  ⟨[1, 0, 0, 1, 0, 0, 0, 0, 0], (1, -326, 0, 0), (7, 0, 0, 0)⟩,
  ⟨[0, 1, 0, 2, 1, 0, 0, 0, 0], (0, 199, 0, 0), (-103, 0, 0, 0)⟩,
  ⟨[-1, 0, 4, 0, 1, 0, 0, 0, 0], (-1, 196, 0, 0), (-100, 0, 0, 0)⟩,
  ⟨[-1, 0, 0, 4, 1, 0, 0, 0, 0], (0, -187, 0, 0), (96, 0, 0, 0)⟩]

/-- src/nutc.cc: rows 160 to 179 of the three tables. -/
def nutTerms8 : List NutTerm := [
  ⟨[2, 0, 2, 2, 1, 0, 0, 0, 0], (1, -190, 0, 0), (94, 1, 0, 0)⟩,
  ⟨[2, 1, 0, 0, 0, 0, 0, 0, 0], (1, -286, 0, 0), (6, 0, 0, 0)⟩,
  ⟨[0, 0, 5, -5, 5, -3, 0, 0, 0], (40, 1788, -118, 3), (-877, 44, -4, -63)⟩,
  ⟨[0, 0, 0, 0, 0, 0, 0, 2, 0], (398, -1073, -56, -10), (463, 224, 5, -24)⟩,
  ⟨[0, 0, 1, -1, 1, 0, 0, -1, 0], (99, 1640, -41, 1), (156, -34, 1, 4)⟩,
  ⟨[0, 0, -1, 1, -1, 1, 0, 0, 0], (-48, -1353, -34, -1), (52, 58, 2, -1)⟩,
  ⟨[0, 0, -1, 1, 0, 0, 2, 0, 0], (505, 750, 14, -12), (-301, 269, 7, 0)⟩,
  ⟨[0, 0, 3, -3, 3, 0, 0, -1, 0], (-11, -535, 13, 0), (232, -5, 0, 6)⟩,
  ⟨[0, 0, -8, 8, -7, 5, 0, 0, 0], (-450, -24, -4, 66), (10, 232, 34, 0)⟩,
  ⟨[0, 0, -1, 1, -1, 0, 2, 0, 0], (-115, -610, -9, 4), (-122, -43, 0, 0)⟩,
  ⟨[0, 0, -2, 2, -2, 2, 0, 0, 0], (44, -684, -34, 0), (-21, -37, -2, 1)⟩,
  ⟨[0, 0, -6, 6, -6, 4, 0, 0, 0], (77, -471, -47, -10), (-186, -38, -4, 18)⟩,
  ⟨[0, 0, -2, 2, -2, 0, 8, -3, 0], (-429, -126, -12, 42), (55, -187, -18, -5)⟩,
  ⟨[0, 0, 6, -6, 6, 0, -8, 3, 0], (-428, 127, -12, -42), (-55, -187, 18, -5)⟩,
  ⟨[0, 0, 4, -4, 4, -2, 0, 0, 0], (-76, -441, 21, -5), (184, -36, 3, 9)⟩,
  ⟨[0, 0, -3, 3, -3, 2, 0, 0, 0], (-641, 17, 2, 45), (-6, 13, 0, 0)⟩,
  ⟨[0, 0, 4, -4, 3, 0, -8, 3, 0], (364, -104, 10, 35), (-56, -195, 19, 0)⟩,
  ⟨[0, 0, -4, 4, -5, 0, 8, -3, 0], (356, 102, 10, -35), (55, -191, -19, 0)⟩,
  ⟨[0, 0, 0, 0, 0, 2, 0, 0, 0], (-17, 395, 20, 0), (-173, -8, 0, 9)⟩,
  ⟨[0, 0, -4, 4, -4, 3, 0, 0, 0], (509, -82, -8, -50), (-32, -83, -8, 3)⟩]

/-- src/nutc.cc: rows 180 to 193 of the three tables. -/
def nutTerms9 : List NutTerm := [
  ⟨[0, 1, -1, 1, -1, 0, 0, 1, 0], (0, 523, 12, 0), (-1, 0, 0, 0)⟩,
  ⟨[0, 0, 0, 0, 0, 0, 0, 1, 0], (-429, -178, 4, 0), (-54, 78, -3, 0)⟩,
  ⟨[0, 0, 1, -1, 1, 1, 0, 0, 0], (26, 343, 8, 0), (-148, 14, 0, 3)⟩,
  ⟨[0, 0, 2, -2, 2, 0, -2, 0, 0], (-8, -486, 24, -1), (-38, 4, 0, -2)⟩,
  ⟨[0, -1, -7, 7, -7, 5, 0, 0, 0], (-49, 305, 37, 7), (126, 32, 5, -15)⟩,
  ⟨[-2, 0, 2, 0, 2, 0, 0, -2, 0], (0, -436, 21, 0), (1, 0, 0, 0)⟩,
  ⟨[-2, 0, 2, 0, 1, 0, 0, -3, 0], (0, -254, 12, 0), (-136, 24, -1, 0)⟩,
  ⟨[0, 0, 2, -2, 2, 0, 0, -2, 0], (20, 409, -20, 0), (9, 12, 0, 0)⟩,
  ⟨[0, 0, 1, -1, 1, 0, 0, 1, 0], (-21, 261, 6, 0), (-119, -5, 0, 3)⟩,
  ⟨[0, 0, 0, 0, 0, 0, 0, 0, 2], (226, -32, -5, -5), (4, 120, 3, -2)⟩,
  ⟨[0, 0, 0, 0, 0, 0, 0, 0, 1], (-76, 249, -4, -2), (83, 61, -1, 1)⟩,
  ⟨[2, 0, -2, 0, -2, 0, 0, 3, 0], (-62, 349, 17, 3), (0, 0, 0, 0)⟩,
  ⟨[0, 0, 1, -1, 1, 0, 0, -2, 0], (20, 174, -4, 1), (4, -108, 3, 0)⟩,
  ⟨[0, 0, -7, 7, -7, 5, 0, 0, 0], (-39, 205, 24, 6), (96, 22, 3, -12)⟩]

/-- The 194 terms of the series (src/nutc.cc:60-656). -/
def nutTerms : List NutTerm :=
  nutTerms0 ++ nutTerms1 ++ nutTerms2 ++ nutTerms3 ++ nutTerms4 ++ nutTerms5 ++ nutTerms6 ++ nutTerms7 ++ nutTerms8 ++ nutTerms9

end Sla
