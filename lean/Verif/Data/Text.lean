/-
The files in pypbomb/lookup_data as text, one line per entry.
Generated by tools/gen_tables.py.
-/
import Verif.Data.Chars

namespace Pypbomb.Data

/-- ANSI_inch_external_thread.csv, verbatim. -/
def externalText : List (List Char) := [
  chars!"thread size,thread class,basic diameter,major diameter min,major diameter max,pitch diameter max,pitch diameter min,minor diameter",
  chars!"0-80,2A,0.0600,0.0595,0.0563,0.0514,0.0496,0.0442",
  chars!"0-80,3A,0.0600,0.0600,0.0568,0.0519,0.0506,0.0447",
  chars!"1-64,2A,0.0730,0.0724,0.0686,0.0623,0.0603,0.0532",
  chars!"1-64,3A,0.0730,0.0730,0.0692,0.0629,0.0614,0.0538",
  chars!"1-72,2A,0.0730,0.0724,0.0689,0.0634,0.0615,0.0554",
  chars!"1-72,3A,0.0730,0.0730,0.0695,0.0640,0.0626,0.0560",
  chars!"2-56,2A,0.0860,0.0854,0.0813,0.0738,0.0717,0.0635",
  chars!"2-56,3A,0.0860,0.0860,0.0819,0.0744,0.0728,0.0641",
  chars!"2-64,2A,0.0860,0.0854,0.0816,0.0753,0.0733,0.0662",
  chars!"2-64,3A,0.0860,0.0860,0.0822,0.0759,0.0744,0.0668",
  chars!"3-48,2A,0.0990,0.0983,0.0938,0.0848,0.0825,0.0727",
  chars!"3-48,3A,0.0990,0.0990,0.0945,0.0855,0.0838,0.0734",
  chars!"3-56,2A,0.0990,0.0983,0.0942,0.0867,0.0845,0.0764",
  chars!"3-56,3A,0.0990,0.0990,0.0949,0.0874,0.0858,0.0771",
  chars!"4-40,2A,0.1120,0.1112,0.1061,0.0950,0.0925,0.0805",
  chars!"4-40,3A,0.1120,0.1120,0.1069,0.0958,0.0939,0.0813",
  chars!"4-48,2A,0.1120,0.1113,0.1068,0.0978,0.0954,0.0857",
  chars!"4-48,3A,0.1120,0.1120,0.1075,0.0985,0.0967,0.0864",
  chars!"5-40,2A,0.1250,0.1242,0.1191,0.1080,0.1054,0.0935",
  chars!"5-40,3A,0.1250,0.1250,0.1199,0.1088,0.1069,0.0943",
  chars!"5-44,2A,0.1250,0.1243,0.1195,0.1095,0.1070,0.0964",
  chars!"5-44,3A,0.1250,0.1250,0.1202,0.1102,0.1083,0.0971",
  chars!"6-32,2A,0.1380,0.1372,0.1312,0.1169,0.1141,0.0989",
  chars!"6-32,3A,0.1380,0.1380,0.1320,0.1177,0.1156,0.0997",
  chars!"6-40,2A,0.1380,0.1372,0.1321,0.1210,0.1184,0.1065",
  chars!"6-40,3A,0.1380,0.1380,0.1329,0.1218,0.1198,0.1073",
  chars!"8-32,2A,0.1640,0.1631,0.1571,0.1428,0.1399,0.1248",
  chars!"8-32,3A,0.1640,0.1640,0.1580,0.1437,0.1415,0.1257",
  chars!"8-36,2A,0.1640,0.1632,0.1577,0.1452,0.1424,0.1291",
  chars!"8-36,3A,0.1640,0.1640,0.1585,0.1460,0.1439,0.1299",
  chars!"10-24,2A,0.1900,0.1890,0.1818,0.1619,0.1586,0.1379",
  chars!"10-24,3A,0.1900,0.1900,0.1828,0.1629,0.1604,0.1389",
  chars!"10-32,2A,0.1900,0.1891,0.1831,0.1688,0.1658,0.1508",
  chars!"10-32,3A,0.1900,0.1900,0.1840,0.1697,0.1674,0.1517",
  chars!"1/4-20,2A,0.2500,0.2489,0.2408,0.2164,0.2127,0.1876",
  chars!"1/4-20,3A,0.2500,0.2500,0.2419,0.2175,0.2147,0.1887",
  chars!"1/4-28,2A,0.2500,0.2490,0.2425,0.2258,0.2225,0.2052",
  chars!"1/4-28,3A,0.2500,0.2500,0.2435,0.2268,0.2243,0.2062",
  chars!"5/16-18,2A,0.3125,0.3113,0.3026,0.2752,0.2712,0.2431",
  chars!"5/16-18,3A,0.3125,0.3125,0.3038,0.2764,0.2734,0.2443",
  chars!"5/16-24,2A,0.3125,0.3114,0.3042,0.2843,0.2806,0.2603",
  chars!"5/16-24,3A,0.3125,0.3125,0.3053,0.2854,0.2827,0.2614",
  chars!"3/8-16,2A,0.3750,0.3737,0.3643,0.3331,0.3287,0.2970",
  chars!"3/8-16,3A,0.3750,0.3750,0.3656,0.3344,0.3311,0.2983",
  chars!"3/8-24,2A,0.3750,0.3739,0.3667,0.3468,0.3430,0.3228",
  chars!"3/8-24,3A,0.3750,0.3750,0.3678,0.3479,0.3450,0.3239",
  chars!"7/16-14,2A,0.4375,0.4361,0.4258,0.3897,0.3850,0.3485",
  chars!"7/16-14,3A,0.4375,0.4375,0.4272,0.3911,0.3876,0.3499",
  chars!"7/16-20,2A,0.4375,0.4362,0.4281,0.4037,0.3995,0.3749",
  chars!"7/16-20,3A,0.4375,0.4375,0.4294,0.4050,0.4019,0.3762",
  chars!"1/2-13,2A,0.5000,0.4985,0.4876,0.4485,0.4435,0.4041",
  chars!"1/2-13,3A,0.5000,0.5000,0.4891,0.4500,0.4463,0.4056",
  chars!"1/2-20,2A,0.5000,0.4987,0.4906,0.4662,0.4619,0.4374",
  chars!"1/2-20,3A,0.5000,0.5000,0.4919,0.4675,0.4643,0.4387",
  chars!"9/16-12,2A,0.5625,0.5609,0.5495,0.5068,0.5016,0.4617",
  chars!"9/16-12,3A,0.5625,0.5609,0.5495,0.5068,0.5016,0.4617",
  chars!"9/16-14,2A,0.5625,0.5510,0.5507,0.5146,0.5096,0.4760",
  chars!"9/16-16,2A,0.5625,0.5611,0.5517,0.5205,0.5158,0.4866",
  chars!"9/16-16,3A,0.5625,0.5625,0.5531,0.5219,0.5184,0.4880",
  chars!"9/16-18,2A,0.5625,0.5611,0.5524,0.5250,0.5205,0.4950",
  chars!"9/16-18,3A,0.5625,0.5625,0.5538,0.5264,0.5230,0.4964",
  chars!"9/16-20,2A,0.5625,0.5612,0.5531,0.5287,0.5245,0.5017",
  chars!"9/16-20,3A,0.5625,0.5625,0.5544,0.5300,0.5268,0.5030",
  chars!"9/16-24,2A,0.5625,0.5613,0.5541,0.5342,0.5303,0.5117",
  chars!"9/16-24,3A,0.5625,0.5625,0.5553,0.5354,0.5325,0.5129",
  chars!"9/16-32,2A,0.5625,0.5615,0.5555,0.5412,0.5377,0.5243",
  chars!"9/16-32,3A,0.5625,0.5625,0.5565,0.5422,0.5396,0.5253",
  chars!"5/8-11,2A,0.6250,0.6234,0.6113,0.5644,0.5589,0.5119",
  chars!"5/8-11,3A,0.6250,0.6250,0.6129,0.5660,0.5619,0.5135",
  chars!"5/8-18,2A,0.6250,0.6236,0.6149,0.5875,0.5828,0.5554",
  chars!"5/8-18,3A,0.6250,0.6250,0.6163,0.5889,0.5854,0.5568",
  chars!"3/4-10,2A,0.7500,0.7482,0.7353,0.6832,0.6773,0.6255",
  chars!"3/4-10,3A,0.7500,0.7500,0.7371,0.6850,0.6806,0.6273",
  chars!"3/4-16,2A,0.7500,0.7485,0.7391,0.7079,0.7029,0.6718",
  chars!"3/4-16,3A,0.7500,0.7500,0.7406,0.7094,0.7056,0.6733",
  chars!"7/8-9,2A,0.8750,0.8731,0.8592,0.8009,0.7946,0.7368",
  chars!"7/8-9,3A,0.8750,0.8750,0.8611,0.8028,0.7981,0.7387",
  chars!"7/8-14,2A,0.8750,0.8734,0.8631,0.8270,0.8216,0.7858",
  chars!"7/8-14,3A,0.8750,0.8750,0.8647,0.8286,0.8245,0.7874",
  chars!"1-8,2A,1.0000,0.9980,0.9830,0.9168,0.9100,0.8446",
  chars!"1-8,3A,1.0000,1.0000,0.9850,0.9188,0.9137,0.8466",
  chars!"1-12,2A,1.0000,0.9982,0.9868,0.9441,0.9382,0.8960",
  chars!"1-12,3A,1.0000,1.0000,0.9886,0.9459,0.9415,0.8978",
  chars!"1-1/8-7,2A,1.1250,1.1228,1.1064,1.0300,1.0228,0.9475",
  chars!"1-1/8-12,2A,1.1250,1.1232,1.1118,1.0691,1.0631,1.0210",
  chars!"1-1/4-7,2A,1.2500,1.2478,1.2314,1.1550,1.1476,1.0725",
  chars!"1-1/4-12,2A,1.2500,1.2482,1.2368,1.1941,1.1879,1.1460",
  chars!"1-3/8-6,2A,1.3750,1.3726,1.3544,1.2643,1.2563,1.1681",
  chars!"1-3/8-12,2A,1.3750,1.3731,1.3617,1.3190,1.3127,1.2709",
  chars!"1-1/2-6,2A,1.5000,1.4976,1.4794,1.3893,1.3812,1.2931",
  chars!"1-1/2-12,2A,1.5000,1.4981,1.4867,1.4440,1.4376,1.3959",
  chars!"1-3/4-5,2A,1.7500,1.7473,1.7268,1.6174,1.6085,1.5019",
  chars!"2-6,2A,2.0000,1.9971,1.9751,1.8528,1.8433,1.7245",
  chars!"2-6,2A,2.0000,1.9971,1.9751,1.8528,1.8433,1.7245"]

/-- ANSI_inch_internal_thread.csv, verbatim. -/
def internalText : List (List Char) := [
  chars!"thread size,thread class,basic diameter,minor diameter min,minor diameter max,pitch diameter min,pitch diameter max,major diameter min",
  chars!"0-80,2B,0.0600,0.0465,0.0514,0.0519,0.0542,0.0600",
  chars!"0-80,3B,0.0600,0.0465,0.0514,0.0519,0.0536,0.0600",
  chars!"1-64,2B,0.0730,0.0561,0.0623,0.0629,0.0655,0.0730",
  chars!"1-64,3B,0.0730,0.0561,0.0623,0.0629,0.0648,0.0730",
  chars!"1-72,2B,0.0730,0.0580,0.0635,0.0640,0.0665,0.0730",
  chars!"1-72,3B,0.0730,0.0580,0.0635,0.0640,0.0659,0.0730",
  chars!"2-56,2B,0.0860,0.0667,0.0737,0.0744,0.0772,0.0860",
  chars!"2-56,3B,0.0860,0.0667,0.0737,0.0744,0.0765,0.0860",
  chars!"2-64,2B,0.0860,0.0691,0.0753,0.0759,0.0786,0.0860",
  chars!"2-64,3B,0.0860,0.0691,0.0753,0.0759,0.0779,0.0860",
  chars!"3-48,2B,0.0990,0.0764,0.0845,0.0855,0.0885,0.0990",
  chars!"3-48,3B,0.0990,0.0764,0.0845,0.0855,0.0877,0.0990",
  chars!"3-56,2B,0.0990,0.0797,0.0865,0.0874,0.0902,0.0990",
  chars!"3-56,3B,0.0990,0.0797,0.0865,0.0874,0.0895,0.0990",
  chars!"4-40,2B,0.1120,0.0849,0.0939,0.0958,0.0991,0.1120",
  chars!"4-40,3B,0.1120,0.0849,0.0939,0.0958,0.0982,0.1120",
  chars!"4-48,2B,0.1120,0.0894,0.0968,0.0985,0.1016,0.1120",
  chars!"4-48,3B,0.1120,0.0894,0.0968,0.0985,0.1008,0.1120",
  chars!"5-40,2B,0.1250,0.0979,0.1062,0.1088,0.1121,0.1250",
  chars!"5-40,3B,0.1250,0.0979,0.1062,0.1088,0.1113,0.1250",
  chars!"5-44,2B,0.1250,0.1004,0.1079,0.1102,0.1134,0.1250",
  chars!"5-44,3B,0.1250,0.1004,0.1079,0.1102,0.1126,0.1250",
  chars!"6-32,2B,0.1380,0.1040,0.1140,0.1177,0.1214,0.1380",
  chars!"6-32,3B,0.1380,0.1040,0.1140,0.1177,0.1204,0.1380",
  chars!"6-40,2B,0.1380,0.1110,0.119,0.1218,0.1252,0.1380",
  chars!"6-40,3B,0.1380,0.1110,0.1186,0.1218,0.1243,0.1380",
  chars!"8-32,2B,0.1640,0.1300,0.139,0.1437,0.1475,0.1640",
  chars!"8-32,3B,0.1640,0.1300,0.1389,0.1437,0.1465,0.1640",
  chars!"8-36,2B,0.1640,0.1340,0.142,0.1460,0.1496,0.1640",
  chars!"8-36,3B,0.1640,0.1340,0.1416,0.1460,0.1487,0.1640",
  chars!"10-24,2B,0.1900,0.1450,0.1560,0.1629,0.1672,0.1900",
  chars!"10-24,3B,0.1900,0.1450,0.1555,0.1629,0.1661,0.1900",
  chars!"10-32,2B,0.1900,0.1560,0.1640,0.1697,0.1736,0.1900",
  chars!"10-32,3B,0.1900,0.1560,0.1641,0.1697,0.1726,0.1900",
  chars!"1/4-20,2B,0.2500,0.1960,0.2070,0.2175,0.2248,0.2500",
  chars!"1/4-20,3B,0.2500,0.1960,0.2070,0.2175,0.220,0.2500",
  chars!"1/4-28,2B,0.2500,0.2110,0.220,0.2268,0.2311,0.2500",
  chars!"1/4-28,3B,0.2500,0.2110,0.2190,0.2268,0.2300,0.2500",
  chars!"5/16-18,2B,0.3125,0.2520,0.265,0.2764,0.2817,0.3125",
  chars!"5/16-18,3B,0.3125,0.2520,0.2630,0.2764,0.2803,0.3125",
  chars!"5/16-24,2B,0.3125,0.2670,0.277,0.2854,0.2902,0.3125",
  chars!"5/16-24,3B,0.3125,0.2670,0.2754,0.2854,0.2890,0.3125",
  chars!"3/8-16,2B,0.3750,0.3070,0.321,0.3344,0.3401,0.3750",
  chars!"3/8-16,3B,0.3750,0.3070,0.3182,0.3344,0.3387,0.3750",
  chars!"3/8-24,2B,0.3750,0.3300,0.340,0.3479,0.3528,0.3750",
  chars!"3/8-24,3B,0.3750,0.3300,0.3372,0.3479,0.3516,0.3750",
  chars!"7/16-14,2B,0.4375,0.3600,0.376,0.3911,0.3972,0.4375",
  chars!"7/16-14,3B,0.4375,0.3600,0.3717,0.3911,0.3957,0.4375",
  chars!"7/16-20,2B,0.4375,0.3830,0.395,0.4050,0.4104,0.4375",
  chars!"7/16-20,3B,0.4375,0.3830,0.3916,0.4050,0.4091,0.4375",
  chars!"1/2-13,2B,0.5000,0.4170,0.434,0.4500,0.4565,0.5000",
  chars!"1/2-13,3B,0.5000,0.4170,0.4284,0.4500,0.4548,0.5000",
  chars!"1/2-20,2B,0.5000,0.4460,0.457,0.4675,0.4731,0.5000",
  chars!"1/2-20,3B,0.5000,0.4460,0.4537,0.4675,0.4717,0.5000",
  chars!"9/16-12,2B,0.5625,0.4720,0.4900,0.5084,0.5152,0.5625",
  chars!"9/16-12,3B,0.5625,0.4720,0.4843,0.5084,0.5135,0.5625",
  chars!"9/16-14,2B,0.5625,0.4850,0.5010,0.5161,0.5226,0.5625",
  chars!"9/16-16,2B,0.5625,0.4950,0.5090,0.5219,0.5280,0.5625",
  chars!"9/16-16,3B,0.5625,0.4950,0.5040,0.5219,0.5265,0.5625",
  chars!"9/16-18,2B,0.5625,0.5020,0.5150,0.5264,0.5323,0.5625",
  chars!"9/16-18,3B,0.5625,0.5020,0.5106,0.5264,0.5308,0.5625",
  chars!"9/16-20,2B,0.5625,0.5080,0.5200,0.5300,0.5355,0.5625",
  chars!"9/16-20,3B,0.5625,0.5080,0.5162,0.5300,0.5341,0.5625",
  chars!"9/16-24,2B,0.5625,0.5170,0.5270,0.5354,0.5404,0.5625",
  chars!"9/16-24,3B,0.5625,0.5170,0.5244,0.5354,0.5392,0.5625",
  chars!"9/16-32,2B,0.5625,0.5290,0.5360,0.5422,0.5467,0.5625",
  chars!"9/16-32,3B,0.5625,0.5290,0.5344,0.5422,0.5456,0.5625",
  chars!"5/8-11,2B,0.6250,0.5270,0.546,0.5660,0.5732,0.6250",
  chars!"5/8-11,3B,0.6250,0.5270,0.5391,0.5660,0.5714,0.6250",
  chars!"5/8-18,2B,0.6250,0.5650,0.578,0.5889,0.5949,0.6250",
  chars!"5/8-18,3B,0.6250,0.5650,0.5730,0.5889,0.5934,0.6250",
  chars!"3/4-10,2B,0.7500,0.6420,0.663,0.6850,0.6927,0.7500",
  chars!"3/4-10,3B,0.7500,0.6420,0.6545,0.6850,0.6907,0.7500",
  chars!"3/4-16,2B,0.7500,0.6820,0.696,0.7094,0.7159,0.7500",
  chars!"3/4-16,3B,0.7500,0.6820,0.6908,0.7094,0.7143,0.7500",
  chars!"7/8-9,2B,0.8750,0.7550,0.778,0.8028,0.8110,0.8750",
  chars!"7/8-9,3B,0.8750,0.7550,0.7681,0.8028,0.8089,0.8750",
  chars!"7/8-14,2B,0.8750,0.7980,0.814,0.8286,0.8356,0.8750",
  chars!"7/8-14,3B,0.8750,0.7980,0.8068,0.8286,0.8339,0.8750",
  chars!"1-8,2B,1.0000,0.8650,0.890,0.9188,0.9276,1.0000",
  chars!"1-8,3B,1.0000,0.8650,0.8797,0.9188,0.9254,1.0000",
  chars!"1-12,2B,1.0000,0.9100,0.928,0.9459,0.9535,1.0000",
  chars!"1-12,3B,1.0000,0.9100,0.9198,0.9459,0.9516,1.0000",
  chars!"1 1/8-7,2B,1.1250,0.9700,0.998,1.0322,1.0416,1.1250",
  chars!"1 1/8-12,2B,1.1250,1.0350,1.053,1.0709,1.0787,1.1250",
  chars!"1 1/4-7,2B,1.2500,1.0950,1.123,1.1572,1.1668,1.2500",
  chars!"1 1/4-12,2B,1.2500,1.1600,1.178,1.1959,1.2039,1.2500",
  chars!"1 3/8-6,2B,1.3750,1.1950,1.225,1.2667,1.2771,1.3750",
  chars!"1 3/8-12,2B,1.3750,1.2850,1.303,1.3209,1.3291,1.3750",
  chars!"1 1/2-6,2B,1.5000,1.3200,1.350,1.3917,1.4022,1.5000",
  chars!"1 1/2-12,2B,1.5000,1.4100,1.428,1.4459,1.4542,1.5000",
  chars!"1 3/4-5,2B,1.7500,1.5340,1.568,1.6201,1.6317,1.7500",
  chars!"2-6,2B,2.0000,1.820,1.850,1.8917,1.9028,2.0000"]

/-- ASME_B16_5_flange_ratings_group_2_1.csv, verbatim. -/
def group21Text : List (List Char) := [
  chars!"Temperature,150,300,400,600,900,1500,2500",
  chars!"-29,19,49.6,66.2,99.3,148.9,248.2,413.7",
  chars!"38,19,49.6,66.2,99.3,148.9,248.2,413.7",
  chars!"50,18.3,47.8,63.8,95.6,143.5,239.1,398.5",
  chars!"100,15.7,40.9,54.5,81.7,122.6,204.3,340.4",
  chars!"150,14.2,37,49.3,74,111,185,308.4",
  chars!"200,13.2,34.5,46,69,103.4,172.4,287.3",
  chars!"250,12.1,32.5,43.3,65,97.5,162.4,270.7",
  chars!"300,10.2,30.9,41.2,61.8,92.7,154.6,257.6",
  chars!"325,9.3,30.2,40.3,60.4,90.7,151.1,251.9",
  chars!"350,8.4,29.6,39.5,59.3,88.9,148.1,246.9",
  chars!"375,7.4,29,38.7,58.1,87.1,145.2,241.9",
  chars!"400,6.5,28.4,37.9,56.9,85.3,142.2,237",
  chars!"425,5.5,28,37.3,56,84,140,233.3",
  chars!"450,4.6,27.4,36.5,54.8,82.2,137,228.4",
  chars!"475,3.7,26.9,35.9,53.9,80.8,134.7,224.5",
  chars!"500,2.8,26.5,35.3,53,79.5,132.4,220.7",
  chars!"538,1.4,24.4,32.6,48.9,73.3,122.1,203.6",
  chars!"550,,23.6,31.4,47.1,70.7,117.8,196.3",
  chars!"575,,20.8,27.8,41.7,62.5,104.2,173.7",
  chars!"600,,16.9,22.5,33.8,50.6,84.4,140.7",
  chars!"625,,13.8,18.4,27.6,41.4,68.9,114.9",
  chars!"650,,11.3,15,22.5,33.8,56.3,93.8",
  chars!"675,,9.3,12.5,18.7,28,46.7,77.9",
  chars!"700,,8,10.7,16.1,24.1,40.1,66.9",
  chars!"725,,6.8,9,13.5,20.3,33.8,56.3",
  chars!"750,,5.8,7.7,11.6,17.3,28.9,48.1",
  chars!"775,,4.6,6.2,9,13.7,22.8,38",
  chars!"800,,3.5,4.8,7,10.5,17.4,29.2",
  chars!"816,,2.8,3.8,5.9,8.6,14.1,23.8"]

/-- ASME_B16_5_flange_ratings_group_2_2.csv, verbatim. -/
def group22Text : List (List Char) := [
  chars!"Temperature,150,300,400,600,900,1500,2500",
  chars!"-29,19,49.6,66.2,99.3,148.9,248.2,413.7",
  chars!"38,19,49.6,66.2,99.3,148.9,248.2,413.7",
  chars!"50,18.4,48.1,64.2,96.2,144.3,240.6,400.9",
  chars!"100,16.2,42.2,56.3,84.4,126.6,211,351.6",
  chars!"150,14.8,38.5,51.3,77,115.5,192.5,320.8",
  chars!"200,13.7,35.7,47.6,71.3,107,178.3,297.2",
  chars!"250,12.1,33.4,44.5,66.8,100.1,166.9,278.1",
  chars!"300,10.2,31.6,42.2,63.2,94.9,158.1,263.5",
  chars!"325,9.3,30.9,41.2,61.8,92.7,154.4,257.4",
  chars!"350,8.4,30.3,40.4,60.7,91,151.6,252.7",
  chars!"375,7.4,29.9,39.8,59.8,89.6,149.4,249",
  chars!"400,6.5,29.4,39.3,58.9,88.3,147.2,245.3",
  chars!"425,5.5,29.1,38.9,58.3,87.4,145.7,242.9",
  chars!"450,4.6,28.8,38.5,57.7,86.5,144.2,240.4",
  chars!"475,3.7,28.7,38.2,57.3,86,143.4,238.9",
  chars!"500,2.8,28.2,37.6,56.5,84.7,140.9,235",
  chars!"538,1.4,25.2,33.4,50,75.2,125.5,208.9",
  chars!"550,,25,33.3,49.8,74.8,124.9,208",
  chars!"575,,24,31.9,47.9,71.8,119.7,199.5",
  chars!"600,,19.9,26.5,39.8,59.7,99.5,165.9",
  chars!"625,,15.8,21.1,31.6,47.4,79.1,131.8",
  chars!"650,,12.7,16.9,25.3,38,63.3,105.5",
  chars!"675,,10.3,13.8,20.6,31,51.6,86",
  chars!"700,,8.4,11.2,16.8,25.1,41.9,69.8",
  chars!"725,,7,9.3,14,21,34.9,58.2",
  chars!"750,,5.9,7.8,11.7,17.6,29.3,48.9",
  chars!"775,,4.6,6.2,9,13.7,22.8,38",
  chars!"800,,3.5,4.8,7,10.5,17.4,29.2",
  chars!"816,,2.8,3.8,5.9,8.6,14.1,23.8"]

/-- ASME_B16_5_flange_ratings_group_2_3.csv, verbatim. -/
def group23Text : List (List Char) := [
  chars!"Temperature,150,300,400,600,900,1500,2500",
  chars!"-29,15.9,41.4,55.2,82.7,124.1,206.8,344.7",
  chars!"38,15.9,41.4,55.2,82.7,124.1,206.8,344.7",
  chars!"50,15.3,40,53.4,80,120.1,200.1,333.5",
  chars!"100,13.3,34.8,46.4,69.6,104.4,173.9,289.9",
  chars!"150,12,31.4,41.9,62.8,94.2,157,261.6",
  chars!"200,11.2,29.2,38.9,58.3,87.5,145.8,243",
  chars!"250,10.5,27.5,36.6,54.9,82.4,137.3,228.9",
  chars!"300,10,26.1,34.8,52.1,78.2,130.3,217.2",
  chars!"325,9.3,25.5,34,51,76.4,127.4,212.3",
  chars!"350,8.4,25.1,33.4,50.1,75.2,125.4,208.9",
  chars!"375,7.4,24.8,33,49.5,74.3,123.8,206.3",
  chars!"400,6.5,24.3,32.4,48.6,72.9,121.5,202.5",
  chars!"425,5.5,23.9,31.8,47.7,71.6,119.3,198.8",
  chars!"450,4.6,23.4,31.2,46.8,70.2,117.1,195.1"]

/-- ASME_B31_1_stress_limits_seamless.csv, verbatim. -/
def seamlessText : List (List Char) := [
  chars!"Temp,304,304H,316,316H,317,304L,316L",
  chars!"-20,18.8,18.8,18.8,18.8,18.8,15.7,15.7",
  chars!"100,18.8,18.8,18.8,18.8,18.8,15.7,15.7",
  chars!"200,15.7,15.7,16.2,16.2,16.2,13.4,13.3",
  chars!"300,14.1,14.1,14.6,14.6,14.6,12.0,11.9",
  chars!"400,13.0,13.0,13.4,13.4,13.4,11.0,10.8",
  chars!"500,12.2,12.2,12.5,12.5,12.5,10.3,10.0",
  chars!"600,11.4,11.4,11.8,11.8,11.8,9.7,9.4",
  chars!"650,11.3,11.3,11.6,11.6,11.6,9.5,9.2",
  chars!"700,11.1,11.1,11.3,11.3,11.3,9.4,9.0",
  chars!"750,10.8,10.8,11.2,11.2,11.2,9.2,8.8",
  chars!"800,10.6,10.6,11.0,11.0,11.0,9.1,8.6",
  chars!"850,10.4,10.4,10.9,10.9,10.9,0.0,8.4",
  chars!"900,10.2,10.2,10.8,10.8,10.8,0.0,0.0",
  chars!"950,10.0,10.0,10.7,10.7,10.7,0.0,0.0",
  chars!"1000,9.8,9.8,10.6,10.6,10.6,0.0,0.0",
  chars!"1050,9.5,9.5,10.5,10.5,10.5,0.0,0.0",
  chars!"1100,8.9,8.9,10.3,10.3,10.3,0.0,0.0",
  chars!"1150,7.7,7.7,9.3,9.3,9.3,0.0,0.0",
  chars!"1200,6.1,6.1,7.4,7.4,7.4,0.0,0.0"]

/-- ASME_B31_1_stress_limits_welded.csv, verbatim. -/
def weldedText : List (List Char) := [
  chars!"Temp,304,304H,316,316H,317,304L,316L",
  chars!"-20,16.0,16.0,16.0,16.0,16.0,13.3,13.3",
  chars!"100,16.0,16.0,16.0,16.0,16.0,13.3,13.3",
  chars!"200,13.3,13.3,13.8,13.8,13.8,11.4,11.3",
  chars!"300,12.0,12.0,12.4,12.4,12.4,10.2,10.1",
  chars!"400,11.0,11.0,11.4,11.4,11.4,9.3,9.2",
  chars!"500,10.5,10.5,10.6,10.6,10.6,8.7,8.5",
  chars!"600,9.7,9.7,10.1,10.1,10.1,8.3,8.0",
  chars!"650,9.5,9.5,9.8,9.8,9.8,8.1,7.8",
  chars!"700,9.4,9.4,9.6,9.6,9.6,8.0,7.6",
  chars!"750,9.2,9.2,9.5,9.5,9.5,7.8,7.5",
  chars!"800,9.0,9.0,9.4,9.4,9.4,7.7,7.5",
  chars!"850,8.8,8.8,9.3,9.3,9.3,0.0,7.2",
  chars!"900,8.7,8.7,9.2,9.2,9.2,0.0,0.0",
  chars!"950,8.5,8.5,9.1,9.1,9.1,0.0,0.0",
  chars!"1000,8.3,8.3,9.0,9.0,9.0,0.0,0.0",
  chars!"1050,8.1,8.1,8.9,8.9,8.9,0.0,0.0",
  chars!"1100,7.6,7.6,8.8,8.8,8.8,0.0,0.0",
  chars!"1150,6.5,6.5,7.9,7.9,7.9,0.0,0.0",
  chars!"1200,5.4,5.4,6.3,6.3,6.3,0.0,0.0"]

/-- materials_list.csv, verbatim. -/
def materialsText : List (List Char) := [
  chars!"Grade,Group,ElasticModulus,Density,Poisson",
  chars!"304,2.1,200,7.8,0.28",
  chars!"304H,2.1,200,7.8,0.28",
  chars!"316,2.2,200,7.9,0.28",
  chars!"316H,2.2,200,7.9,0.28",
  chars!"317,2.2,200,7.9,0.28",
  chars!"304L,2.3,200,7.8,0.28",
  chars!"316L,2.3,200,7.9,0.28"]

/-- pipe_schedules.csv, verbatim. -/
def pipeText : List (List Char) := [
  chars!"Size,OD,5s,5,10s,10,20,30,40s,40,60,80s,80,100,120,140,160,XXH",
  chars!"1/8,0.405,,0.035,0.049,0.049,,,0.068,0.068,,0.095,0.095,,,,,",
  chars!"1/4,0.54,,0.049,0.065,0.065,,,0.088,0.088,,0.119,0.119,,,,,",
  chars!"3/8,0.675,,0.049,0.065,0.065,,,0.091,0.091,,0.126,0.126,,,,,",
  chars!"1/2,0.84,0.065,0.065,0.083,0.083,,,0.109,0.109,,0.147,0.147,,,,0.187,0.294",
  chars!"3/4,1.05,0.065,0.065,0.083,0.083,,,0.113,0.113,,0.154,0.154,,,,0.218,0.308",
  chars!"1,1.315,0.065,0.065,0.109,0.109,,,0.133,0.133,,0.179,0.179,,,,0.25,0.358",
  chars!"1 1/4,1.66,0.065,0.065,0.109,0.109,,,0.14,0.14,,0.191,0.191,,,,0.25,0.382",
  chars!"1 1/2,1.9,0.065,0.065,0.109,0.109,,,0.145,0.145,,0.2,0.2,,,,0.281,0.4",
  chars!"2,2.375,0.065,0.065,0.109,0.109,,,0.154,0.154,,0.218,0.218,,,,0.343,0.436",
  chars!"2 1/2,2.875,0.083,0.083,0.12,0.12,,,0.203,0.203,,0.276,0.276,,,,0.375,0.552",
  chars!"3,3.5,0.083,0.083,0.12,0.12,,,0.216,0.216,,0.3,0.3,,,,0.437,0.6",
  chars!"3 1/2,4,0.083,0.083,0.12,0.12,,,0.226,0.226,,0.318,0.318,,,,,0.636",
  chars!"4,4.5,0.083,0.083,0.12,0.12,,,0.237,0.237,0.281,0.337,0.337,,0.437,,0.531,0.674",
  chars!"4 1/2,5,,,,,,,0.247,,,0.355,,,,,,0.71",
  chars!"5,5.563,0.109,0.109,0.134,0.134,,,0.258,0.258,,0.375,0.375,,0.5,,0.625,0.75",
  chars!"6,6.625,0.109,0.109,0.134,0.134,,,0.28,0.28,,0.432,0.432,,0.562,,0.718,0.864",
  chars!"7,7.625,,,,,,,0.301,,,0.5,,,,,,0.875",
  chars!"8,8.625,0.109,0.109,0.148,0.148,0.25,0.277,0.322,0.322,0.406,0.5,0.5,0.593,0.718,0.812,0.906,0.875",
  chars!"9,9.625,,,,,,,0.342,,,0.5,,,,,,",
  chars!"10,10.75,0.134,0.134,0.165,0.165,0.25,0.307,0.365,0.365,0.5,0.5,0.593,0.718,0.843,1,1.125,",
  chars!"11,11.75,,,,,,,0.375,,,0.5,,,,,,",
  chars!"12,12.75,0.156,0.165,0.18,0.18,0.25,0.33,0.375,0.406,0.562,0.5,0.687,0.843,1,1.125,1.312,",
  chars!"14,14,0.156,,0.188,0.25,0.312,0.375,0.375,0.437,0.593,0.5,0.75,0.937,1.093,1.25,1.406,",
  chars!"16,16,0.165,,0.188,0.25,0.312,0.375,0.375,0.5,0.656,0.5,0.843,1.031,1.218,1.437,1.593,",
  chars!"18,18,0.165,,0.188,0.25,0.312,0.437,0.375,0.562,0.75,0.5,0.937,1.156,1.375,1.562,1.781,",
  chars!"20,20,0.188,,0.218,0.25,0.375,0.5,0.375,0.593,0.812,0.5,1.031,1.28,1.5,1.75,1.968,",
  chars!"24,24,0.218,,0.25,0.25,0.375,0.562,0.375,0.687,0.968,0.5,1.218,1.531,1.812,2.062,2.343,",
  chars!"26,26,,,,0.312,0.5,,0.375,,,0.5,,,,,,",
  chars!"28,28,,,,312,0.5,0.625,0.375,,,,,,,,,",
  chars!"30,30,0.25,,0.312,0.312,0.5,0.625,0.375,,,0.5,,,,,,",
  chars!"32,32,,,,0.312,0.5,0.625,0.375,0.688,,0.5,,,,,,",
  chars!"34,34,,,,0.312,0.5,0.625,0.375,0.688,,,,,,,,",
  chars!"36,36,,,,0.312,,0.625,0.375,0.75,,0.5,,,,,,",
  chars!"42,42,,,,,,,0.375,,,0.5,,,,,,",
  chars!"48,48,,,,,,,0.375,,,0.5,,,,,,"]


end Pypbomb.Data
