/-
The thread tables pypbomb/lookup_data/ANSI_inch_{external,internal}_thread.csv.
Generated by tools/gen_tables.py.
-/

namespace Pypbomb.Data

/-- ANSI_inch_external_thread.csv:1, value columns. -/
def externalCols : List String :=
  ["basic diameter", "major diameter min", "major diameter max", "pitch diameter max", "pitch diameter min", "minor diameter"]

/-- ANSI_inch_external_thread.csv:2-95: (size, class, values in 0.0001 inch). -/
def externalRows : List (String × String × List Nat) := [
  ("0-80", "2A", [600, 595, 563, 514, 496, 442]),
  ("0-80", "3A", [600, 600, 568, 519, 506, 447]),
  ("1-64", "2A", [730, 724, 686, 623, 603, 532]),
  ("1-64", "3A", [730, 730, 692, 629, 614, 538]),
  ("1-72", "2A", [730, 724, 689, 634, 615, 554]),
  ("1-72", "3A", [730, 730, 695, 640, 626, 560]),
  ("2-56", "2A", [860, 854, 813, 738, 717, 635]),
  ("2-56", "3A", [860, 860, 819, 744, 728, 641]),
  ("2-64", "2A", [860, 854, 816, 753, 733, 662]),
  ("2-64", "3A", [860, 860, 822, 759, 744, 668]),
  ("3-48", "2A", [990, 983, 938, 848, 825, 727]),
  ("3-48", "3A", [990, 990, 945, 855, 838, 734]),
  ("3-56", "2A", [990, 983, 942, 867, 845, 764]),
  ("3-56", "3A", [990, 990, 949, 874, 858, 771]),
  ("4-40", "2A", [1120, 1112, 1061, 950, 925, 805]),
  ("4-40", "3A", [1120, 1120, 1069, 958, 939, 813]),
  ("4-48", "2A", [1120, 1113, 1068, 978, 954, 857]),
  ("4-48", "3A", [1120, 1120, 1075, 985, 967, 864]),
  ("5-40", "2A", [1250, 1242, 1191, 1080, 1054, 935]),
  ("5-40", "3A", [1250, 1250, 1199, 1088, 1069, 943]),
  ("5-44", "2A", [1250, 1243, 1195, 1095, 1070, 964]),
  ("5-44", "3A", [1250, 1250, 1202, 1102, 1083, 971]),
  ("6-32", "2A", [1380, 1372, 1312, 1169, 1141, 989]),
  ("6-32", "3A", [1380, 1380, 1320, 1177, 1156, 997]),
  ("6-40", "2A", [1380, 1372, 1321, 1210, 1184, 1065]),
  ("6-40", "3A", [1380, 1380, 1329, 1218, 1198, 1073]),
  ("8-32", "2A", [1640, 1631, 1571, 1428, 1399, 1248]),
  ("8-32", "3A", [1640, 1640, 1580, 1437, 1415, 1257]),
  ("8-36", "2A", [1640, 1632, 1577, 1452, 1424, 1291]),
  ("8-36", "3A", [1640, 1640, 1585, 1460, 1439, 1299]),
  ("10-24", "2A", [1900, 1890, 1818, 1619, 1586, 1379]),
  ("10-24", "3A", [1900, 1900, 1828, 1629, 1604, 1389]),
  ("10-32", "2A", [1900, 1891, 1831, 1688, 1658, 1508]),
  ("10-32", "3A", [1900, 1900, 1840, 1697, 1674, 1517]),
  ("1/4-20", "2A", [2500, 2489, 2408, 2164, 2127, 1876]),
  ("1/4-20", "3A", [2500, 2500, 2419, 2175, 2147, 1887]),
  ("1/4-28", "2A", [2500, 2490, 2425, 2258, 2225, 2052]),
  ("1/4-28", "3A", [2500, 2500, 2435, 2268, 2243, 2062]),
  ("5/16-18", "2A", [3125, 3113, 3026, 2752, 2712, 2431]),
  ("5/16-18", "3A", [3125, 3125, 3038, 2764, 2734, 2443]),
  ("5/16-24", "2A", [3125, 3114, 3042, 2843, 2806, 2603]),
  ("5/16-24", "3A", [3125, 3125, 3053, 2854, 2827, 2614]),
  ("3/8-16", "2A", [3750, 3737, 3643, 3331, 3287, 2970]),
  ("3/8-16", "3A", [3750, 3750, 3656, 3344, 3311, 2983]),
  ("3/8-24", "2A", [3750, 3739, 3667, 3468, 3430, 3228]),
  ("3/8-24", "3A", [3750, 3750, 3678, 3479, 3450, 3239]),
  ("7/16-14", "2A", [4375, 4361, 4258, 3897, 3850, 3485]),
  ("7/16-14", "3A", [4375, 4375, 4272, 3911, 3876, 3499]),
  ("7/16-20", "2A", [4375, 4362, 4281, 4037, 3995, 3749]),
  ("7/16-20", "3A", [4375, 4375, 4294, 4050, 4019, 3762]),
  ("1/2-13", "2A", [5000, 4985, 4876, 4485, 4435, 4041]),
  ("1/2-13", "3A", [5000, 5000, 4891, 4500, 4463, 4056]),
  ("1/2-20", "2A", [5000, 4987, 4906, 4662, 4619, 4374]),
  ("1/2-20", "3A", [5000, 5000, 4919, 4675, 4643, 4387]),
  ("9/16-12", "2A", [5625, 5609, 5495, 5068, 5016, 4617]),
  ("9/16-12", "3A", [5625, 5609, 5495, 5068, 5016, 4617]),
  ("9/16-14", "2A", [5625, 5510, 5507, 5146, 5096, 4760]),
  ("9/16-16", "2A", [5625, 5611, 5517, 5205, 5158, 4866]),
  ("9/16-16", "3A", [5625, 5625, 5531, 5219, 5184, 4880]),
  ("9/16-18", "2A", [5625, 5611, 5524, 5250, 5205, 4950]),
  ("9/16-18", "3A", [5625, 5625, 5538, 5264, 5230, 4964]),
  ("9/16-20", "2A", [5625, 5612, 5531, 5287, 5245, 5017]),
  ("9/16-20", "3A", [5625, 5625, 5544, 5300, 5268, 5030]),
  ("9/16-24", "2A", [5625, 5613, 5541, 5342, 5303, 5117]),
  ("9/16-24", "3A", [5625, 5625, 5553, 5354, 5325, 5129]),
  ("9/16-32", "2A", [5625, 5615, 5555, 5412, 5377, 5243]),
  ("9/16-32", "3A", [5625, 5625, 5565, 5422, 5396, 5253]),
  ("5/8-11", "2A", [6250, 6234, 6113, 5644, 5589, 5119]),
  ("5/8-11", "3A", [6250, 6250, 6129, 5660, 5619, 5135]),
  ("5/8-18", "2A", [6250, 6236, 6149, 5875, 5828, 5554]),
  ("5/8-18", "3A", [6250, 6250, 6163, 5889, 5854, 5568]),
  ("3/4-10", "2A", [7500, 7482, 7353, 6832, 6773, 6255]),
  ("3/4-10", "3A", [7500, 7500, 7371, 6850, 6806, 6273]),
  ("3/4-16", "2A", [7500, 7485, 7391, 7079, 7029, 6718]),
  ("3/4-16", "3A", [7500, 7500, 7406, 7094, 7056, 6733]),
  ("7/8-9", "2A", [8750, 8731, 8592, 8009, 7946, 7368]),
  ("7/8-9", "3A", [8750, 8750, 8611, 8028, 7981, 7387]),
  ("7/8-14", "2A", [8750, 8734, 8631, 8270, 8216, 7858]),
  ("7/8-14", "3A", [8750, 8750, 8647, 8286, 8245, 7874]),
  ("1-8", "2A", [10000, 9980, 9830, 9168, 9100, 8446]),
  ("1-8", "3A", [10000, 10000, 9850, 9188, 9137, 8466]),
  ("1-12", "2A", [10000, 9982, 9868, 9441, 9382, 8960]),
  ("1-12", "3A", [10000, 10000, 9886, 9459, 9415, 8978]),
  ("1-1/8-7", "2A", [11250, 11228, 11064, 10300, 10228, 9475]),
  ("1-1/8-12", "2A", [11250, 11232, 11118, 10691, 10631, 10210]),
  ("1-1/4-7", "2A", [12500, 12478, 12314, 11550, 11476, 10725]),
  ("1-1/4-12", "2A", [12500, 12482, 12368, 11941, 11879, 11460]),
  ("1-3/8-6", "2A", [13750, 13726, 13544, 12643, 12563, 11681]),
  ("1-3/8-12", "2A", [13750, 13731, 13617, 13190, 13127, 12709]),
  ("1-1/2-6", "2A", [15000, 14976, 14794, 13893, 13812, 12931]),
  ("1-1/2-12", "2A", [15000, 14981, 14867, 14440, 14376, 13959]),
  ("1-3/4-5", "2A", [17500, 17473, 17268, 16174, 16085, 15019]),
  ("2-6", "2A", [20000, 19971, 19751, 18528, 18433, 17245]),
  ("2-6", "2A", [20000, 19971, 19751, 18528, 18433, 17245])]

/-- ANSI_inch_internal_thread.csv:1, value columns. -/
def internalCols : List String :=
  ["basic diameter", "minor diameter min", "minor diameter max", "pitch diameter min", "pitch diameter max", "major diameter min"]

/-- ANSI_inch_internal_thread.csv:2-94: (size, class, values in 0.0001 inch). -/
def internalRows : List (String × String × List Nat) := [
  ("0-80", "2B", [600, 465, 514, 519, 542, 600]),
  ("0-80", "3B", [600, 465, 514, 519, 536, 600]),
  ("1-64", "2B", [730, 561, 623, 629, 655, 730]),
  ("1-64", "3B", [730, 561, 623, 629, 648, 730]),
  ("1-72", "2B", [730, 580, 635, 640, 665, 730]),
  ("1-72", "3B", [730, 580, 635, 640, 659, 730]),
  ("2-56", "2B", [860, 667, 737, 744, 772, 860]),
  ("2-56", "3B", [860, 667, 737, 744, 765, 860]),
  ("2-64", "2B", [860, 691, 753, 759, 786, 860]),
  ("2-64", "3B", [860, 691, 753, 759, 779, 860]),
  ("3-48", "2B", [990, 764, 845, 855, 885, 990]),
  ("3-48", "3B", [990, 764, 845, 855, 877, 990]),
  ("3-56", "2B", [990, 797, 865, 874, 902, 990]),
  ("3-56", "3B", [990, 797, 865, 874, 895, 990]),
  ("4-40", "2B", [1120, 849, 939, 958, 991, 1120]),
  ("4-40", "3B", [1120, 849, 939, 958, 982, 1120]),
  ("4-48", "2B", [1120, 894, 968, 985, 1016, 1120]),
  ("4-48", "3B", [1120, 894, 968, 985, 1008, 1120]),
  ("5-40", "2B", [1250, 979, 1062, 1088, 1121, 1250]),
  ("5-40", "3B", [1250, 979, 1062, 1088, 1113, 1250]),
  ("5-44", "2B", [1250, 1004, 1079, 1102, 1134, 1250]),
  ("5-44", "3B", [1250, 1004, 1079, 1102, 1126, 1250]),
  ("6-32", "2B", [1380, 1040, 1140, 1177, 1214, 1380]),
  ("6-32", "3B", [1380, 1040, 1140, 1177, 1204, 1380]),
  ("6-40", "2B", [1380, 1110, 1190, 1218, 1252, 1380]),
  ("6-40", "3B", [1380, 1110, 1186, 1218, 1243, 1380]),
  ("8-32", "2B", [1640, 1300, 1390, 1437, 1475, 1640]),
  ("8-32", "3B", [1640, 1300, 1389, 1437, 1465, 1640]),
  ("8-36", "2B", [1640, 1340, 1420, 1460, 1496, 1640]),
  ("8-36", "3B", [1640, 1340, 1416, 1460, 1487, 1640]),
  ("10-24", "2B", [1900, 1450, 1560, 1629, 1672, 1900]),
  ("10-24", "3B", [1900, 1450, 1555, 1629, 1661, 1900]),
  ("10-32", "2B", [1900, 1560, 1640, 1697, 1736, 1900]),
  ("10-32", "3B", [1900, 1560, 1641, 1697, 1726, 1900]),
  ("1/4-20", "2B", [2500, 1960, 2070, 2175, 2248, 2500]),
  ("1/4-20", "3B", [2500, 1960, 2070, 2175, 2200, 2500]),
  ("1/4-28", "2B", [2500, 2110, 2200, 2268, 2311, 2500]),
  ("1/4-28", "3B", [2500, 2110, 2190, 2268, 2300, 2500]),
  ("5/16-18", "2B", [3125, 2520, 2650, 2764, 2817, 3125]),
  ("5/16-18", "3B", [3125, 2520, 2630, 2764, 2803, 3125]),
  ("5/16-24", "2B", [3125, 2670, 2770, 2854, 2902, 3125]),
  ("5/16-24", "3B", [3125, 2670, 2754, 2854, 2890, 3125]),
  ("3/8-16", "2B", [3750, 3070, 3210, 3344, 3401, 3750]),
  ("3/8-16", "3B", [3750, 3070, 3182, 3344, 3387, 3750]),
  ("3/8-24", "2B", [3750, 3300, 3400, 3479, 3528, 3750]),
  ("3/8-24", "3B", [3750, 3300, 3372, 3479, 3516, 3750]),
  ("7/16-14", "2B", [4375, 3600, 3760, 3911, 3972, 4375]),
  ("7/16-14", "3B", [4375, 3600, 3717, 3911, 3957, 4375]),
  ("7/16-20", "2B", [4375, 3830, 3950, 4050, 4104, 4375]),
  ("7/16-20", "3B", [4375, 3830, 3916, 4050, 4091, 4375]),
  ("1/2-13", "2B", [5000, 4170, 4340, 4500, 4565, 5000]),
  ("1/2-13", "3B", [5000, 4170, 4284, 4500, 4548, 5000]),
  ("1/2-20", "2B", [5000, 4460, 4570, 4675, 4731, 5000]),
  ("1/2-20", "3B", [5000, 4460, 4537, 4675, 4717, 5000]),
  ("9/16-12", "2B", [5625, 4720, 4900, 5084, 5152, 5625]),
  ("9/16-12", "3B", [5625, 4720, 4843, 5084, 5135, 5625]),
  ("9/16-14", "2B", [5625, 4850, 5010, 5161, 5226, 5625]),
  ("9/16-16", "2B", [5625, 4950, 5090, 5219, 5280, 5625]),
  ("9/16-16", "3B", [5625, 4950, 5040, 5219, 5265, 5625]),
  ("9/16-18", "2B", [5625, 5020, 5150, 5264, 5323, 5625]),
  ("9/16-18", "3B", [5625, 5020, 5106, 5264, 5308, 5625]),
  ("9/16-20", "2B", [5625, 5080, 5200, 5300, 5355, 5625]),
  ("9/16-20", "3B", [5625, 5080, 5162, 5300, 5341, 5625]),
  ("9/16-24", "2B", [5625, 5170, 5270, 5354, 5404, 5625]),
  ("9/16-24", "3B", [5625, 5170, 5244, 5354, 5392, 5625]),
  ("9/16-32", "2B", [5625, 5290, 5360, 5422, 5467, 5625]),
  ("9/16-32", "3B", [5625, 5290, 5344, 5422, 5456, 5625]),
  ("5/8-11", "2B", [6250, 5270, 5460, 5660, 5732, 6250]),
  ("5/8-11", "3B", [6250, 5270, 5391, 5660, 5714, 6250]),
  ("5/8-18", "2B", [6250, 5650, 5780, 5889, 5949, 6250]),
  ("5/8-18", "3B", [6250, 5650, 5730, 5889, 5934, 6250]),
  ("3/4-10", "2B", [7500, 6420, 6630, 6850, 6927, 7500]),
  ("3/4-10", "3B", [7500, 6420, 6545, 6850, 6907, 7500]),
  ("3/4-16", "2B", [7500, 6820, 6960, 7094, 7159, 7500]),
  ("3/4-16", "3B", [7500, 6820, 6908, 7094, 7143, 7500]),
  ("7/8-9", "2B", [8750, 7550, 7780, 8028, 8110, 8750]),
  ("7/8-9", "3B", [8750, 7550, 7681, 8028, 8089, 8750]),
  ("7/8-14", "2B", [8750, 7980, 8140, 8286, 8356, 8750]),
  ("7/8-14", "3B", [8750, 7980, 8068, 8286, 8339, 8750]),
  ("1-8", "2B", [10000, 8650, 8900, 9188, 9276, 10000]),
  ("1-8", "3B", [10000, 8650, 8797, 9188, 9254, 10000]),
  ("1-12", "2B", [10000, 9100, 9280, 9459, 9535, 10000]),
  ("1-12", "3B", [10000, 9100, 9198, 9459, 9516, 10000]),
  ("1 1/8-7", "2B", [11250, 9700, 9980, 10322, 10416, 11250]),
  ("1 1/8-12", "2B", [11250, 10350, 10530, 10709, 10787, 11250]),
  ("1 1/4-7", "2B", [12500, 10950, 11230, 11572, 11668, 12500]),
  ("1 1/4-12", "2B", [12500, 11600, 11780, 11959, 12039, 12500]),
  ("1 3/8-6", "2B", [13750, 11950, 12250, 12667, 12771, 13750]),
  ("1 3/8-12", "2B", [13750, 12850, 13030, 13209, 13291, 13750]),
  ("1 1/2-6", "2B", [15000, 13200, 13500, 13917, 14022, 15000]),
  ("1 1/2-12", "2B", [15000, 14100, 14280, 14459, 14542, 15000]),
  ("1 3/4-5", "2B", [17500, 15340, 15680, 16201, 16317, 17500]),
  ("2-6", "2B", [20000, 18200, 18500, 18917, 19028, 20000])]


end Pypbomb.Data
