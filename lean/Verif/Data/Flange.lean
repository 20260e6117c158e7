/-
The flange rating tables pypbomb/lookup_data/ASME_B16_5_flange_ratings_group_*.csv.
Generated by tools/gen_tables.py.
-/

namespace Pypbomb.Data

/-- ASME_B16_5_flange_ratings_group_2_1.csv:1, columns after "Temperature". -/
def group21Cols : List String :=
  ["150", "300", "400", "600", "900", "1500", "2500"]

/-- ASME_B16_5_flange_ratings_group_2_1.csv:2-30: (temperature in degC, ratings in 0.1 bar; `none` = empty cell). -/
def group21Rows : List (Int × List (Option Nat)) := [
  (-29, [some 190, some 496, some 662, some 993, some 1489, some 2482, some 4137]),
  (38, [some 190, some 496, some 662, some 993, some 1489, some 2482, some 4137]),
  (50, [some 183, some 478, some 638, some 956, some 1435, some 2391, some 3985]),
  (100, [some 157, some 409, some 545, some 817, some 1226, some 2043, some 3404]),
  (150, [some 142, some 370, some 493, some 740, some 1110, some 1850, some 3084]),
  (200, [some 132, some 345, some 460, some 690, some 1034, some 1724, some 2873]),
  (250, [some 121, some 325, some 433, some 650, some 975, some 1624, some 2707]),
  (300, [some 102, some 309, some 412, some 618, some 927, some 1546, some 2576]),
  (325, [some 93, some 302, some 403, some 604, some 907, some 1511, some 2519]),
  (350, [some 84, some 296, some 395, some 593, some 889, some 1481, some 2469]),
  (375, [some 74, some 290, some 387, some 581, some 871, some 1452, some 2419]),
  (400, [some 65, some 284, some 379, some 569, some 853, some 1422, some 2370]),
  (425, [some 55, some 280, some 373, some 560, some 840, some 1400, some 2333]),
  (450, [some 46, some 274, some 365, some 548, some 822, some 1370, some 2284]),
  (475, [some 37, some 269, some 359, some 539, some 808, some 1347, some 2245]),
  (500, [some 28, some 265, some 353, some 530, some 795, some 1324, some 2207]),
  (538, [some 14, some 244, some 326, some 489, some 733, some 1221, some 2036]),
  (550, [none, some 236, some 314, some 471, some 707, some 1178, some 1963]),
  (575, [none, some 208, some 278, some 417, some 625, some 1042, some 1737]),
  (600, [none, some 169, some 225, some 338, some 506, some 844, some 1407]),
  (625, [none, some 138, some 184, some 276, some 414, some 689, some 1149]),
  (650, [none, some 113, some 150, some 225, some 338, some 563, some 938]),
  (675, [none, some 93, some 125, some 187, some 280, some 467, some 779]),
  (700, [none, some 80, some 107, some 161, some 241, some 401, some 669]),
  (725, [none, some 68, some 90, some 135, some 203, some 338, some 563]),
  (750, [none, some 58, some 77, some 116, some 173, some 289, some 481]),
  (775, [none, some 46, some 62, some 90, some 137, some 228, some 380]),
  (800, [none, some 35, some 48, some 70, some 105, some 174, some 292]),
  (816, [none, some 28, some 38, some 59, some 86, some 141, some 238])]

/-- ASME_B16_5_flange_ratings_group_2_2.csv:1, columns after "Temperature". -/
def group22Cols : List String :=
  ["150", "300", "400", "600", "900", "1500", "2500"]

/-- ASME_B16_5_flange_ratings_group_2_2.csv:2-30: (temperature in degC, ratings in 0.1 bar; `none` = empty cell). -/
def group22Rows : List (Int × List (Option Nat)) := [
  (-29, [some 190, some 496, some 662, some 993, some 1489, some 2482, some 4137]),
  (38, [some 190, some 496, some 662, some 993, some 1489, some 2482, some 4137]),
  (50, [some 184, some 481, some 642, some 962, some 1443, some 2406, some 4009]),
  (100, [some 162, some 422, some 563, some 844, some 1266, some 2110, some 3516]),
  (150, [some 148, some 385, some 513, some 770, some 1155, some 1925, some 3208]),
  (200, [some 137, some 357, some 476, some 713, some 1070, some 1783, some 2972]),
  (250, [some 121, some 334, some 445, some 668, some 1001, some 1669, some 2781]),
  (300, [some 102, some 316, some 422, some 632, some 949, some 1581, some 2635]),
  (325, [some 93, some 309, some 412, some 618, some 927, some 1544, some 2574]),
  (350, [some 84, some 303, some 404, some 607, some 910, some 1516, some 2527]),
  (375, [some 74, some 299, some 398, some 598, some 896, some 1494, some 2490]),
  (400, [some 65, some 294, some 393, some 589, some 883, some 1472, some 2453]),
  (425, [some 55, some 291, some 389, some 583, some 874, some 1457, some 2429]),
  (450, [some 46, some 288, some 385, some 577, some 865, some 1442, some 2404]),
  (475, [some 37, some 287, some 382, some 573, some 860, some 1434, some 2389]),
  (500, [some 28, some 282, some 376, some 565, some 847, some 1409, some 2350]),
  (538, [some 14, some 252, some 334, some 500, some 752, some 1255, some 2089]),
  (550, [none, some 250, some 333, some 498, some 748, some 1249, some 2080]),
  (575, [none, some 240, some 319, some 479, some 718, some 1197, some 1995]),
  (600, [none, some 199, some 265, some 398, some 597, some 995, some 1659]),
  (625, [none, some 158, some 211, some 316, some 474, some 791, some 1318]),
  (650, [none, some 127, some 169, some 253, some 380, some 633, some 1055]),
  (675, [none, some 103, some 138, some 206, some 310, some 516, some 860]),
  (700, [none, some 84, some 112, some 168, some 251, some 419, some 698]),
  (725, [none, some 70, some 93, some 140, some 210, some 349, some 582]),
  (750, [none, some 59, some 78, some 117, some 176, some 293, some 489]),
  (775, [none, some 46, some 62, some 90, some 137, some 228, some 380]),
  (800, [none, some 35, some 48, some 70, some 105, some 174, some 292]),
  (816, [none, some 28, some 38, some 59, some 86, some 141, some 238])]

/-- ASME_B16_5_flange_ratings_group_2_3.csv:1, columns after "Temperature". -/
def group23Cols : List String :=
  ["150", "300", "400", "600", "900", "1500", "2500"]

/-- ASME_B16_5_flange_ratings_group_2_3.csv:2-15: (temperature in degC, ratings in 0.1 bar; `none` = empty cell). -/
def group23Rows : List (Int × List (Option Nat)) := [
  (-29, [some 159, some 414, some 552, some 827, some 1241, some 2068, some 3447]),
  (38, [some 159, some 414, some 552, some 827, some 1241, some 2068, some 3447]),
  (50, [some 153, some 400, some 534, some 800, some 1201, some 2001, some 3335]),
  (100, [some 133, some 348, some 464, some 696, some 1044, some 1739, some 2899]),
  (150, [some 120, some 314, some 419, some 628, some 942, some 1570, some 2616]),
  (200, [some 112, some 292, some 389, some 583, some 875, some 1458, some 2430]),
  (250, [some 105, some 275, some 366, some 549, some 824, some 1373, some 2289]),
  (300, [some 100, some 261, some 348, some 521, some 782, some 1303, some 2172]),
  (325, [some 93, some 255, some 340, some 510, some 764, some 1274, some 2123]),
  (350, [some 84, some 251, some 334, some 501, some 752, some 1254, some 2089]),
  (375, [some 74, some 248, some 330, some 495, some 743, some 1238, some 2063]),
  (400, [some 65, some 243, some 324, some 486, some 729, some 1215, some 2025]),
  (425, [some 55, some 239, some 318, some 477, some 716, some 1193, some 1988]),
  (450, [some 46, some 234, some 312, some 468, some 702, some 1171, some 1951])]


end Pypbomb.Data
