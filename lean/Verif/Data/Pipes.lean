/-
The pipe table pypbomb/lookup_data/pipe_schedules.csv.
Generated by tools/gen_tables.py.
-/

namespace Pypbomb.Data

/-- pipe_schedules.csv:1, columns after "Size". -/
def pipeCols : List String :=
  ["OD", "5s", "5", "10s", "10", "20", "30", "40s", "40", "60", "80s", "80", "100", "120", "140", "160", "XXH"]

/-- pipe_schedules.csv:2-36: (size, values in 0.001 inch; `none` = empty cell). -/
def pipeRows : List (String × List (Option Nat)) := [
  ("1/8", [some 405, none, some 35, some 49, some 49, none, none, some 68, some 68, none, some 95, some 95, none, none, none, none, none]),
  ("1/4", [some 540, none, some 49, some 65, some 65, none, none, some 88, some 88, none, some 119, some 119, none, none, none, none, none]),
  ("3/8", [some 675, none, some 49, some 65, some 65, none, none, some 91, some 91, none, some 126, some 126, none, none, none, none, none]),
  ("1/2", [some 840, some 65, some 65, some 83, some 83, none, none, some 109, some 109, none, some 147, some 147, none, none, none, some 187, some 294]),
  ("3/4", [some 1050, some 65, some 65, some 83, some 83, none, none, some 113, some 113, none, some 154, some 154, none, none, none, some 218, some 308]),
  ("1", [some 1315, some 65, some 65, some 109, some 109, none, none, some 133, some 133, none, some 179, some 179, none, none, none, some 250, some 358]),
  ("1 1/4", [some 1660, some 65, some 65, some 109, some 109, none, none, some 140, some 140, none, some 191, some 191, none, none, none, some 250, some 382]),
  ("1 1/2", [some 1900, some 65, some 65, some 109, some 109, none, none, some 145, some 145, none, some 200, some 200, none, none, none, some 281, some 400]),
  ("2", [some 2375, some 65, some 65, some 109, some 109, none, none, some 154, some 154, none, some 218, some 218, none, none, none, some 343, some 436]),
  ("2 1/2", [some 2875, some 83, some 83, some 120, some 120, none, none, some 203, some 203, none, some 276, some 276, none, none, none, some 375, some 552]),
  ("3", [some 3500, some 83, some 83, some 120, some 120, none, none, some 216, some 216, none, some 300, some 300, none, none, none, some 437, some 600]),
  ("3 1/2", [some 4000, some 83, some 83, some 120, some 120, none, none, some 226, some 226, none, some 318, some 318, none, none, none, none, some 636]),
  ("4", [some 4500, some 83, some 83, some 120, some 120, none, none, some 237, some 237, some 281, some 337, some 337, none, some 437, none, some 531, some 674]),
  ("4 1/2", [some 5000, none, none, none, none, none, none, some 247, none, none, some 355, none, none, none, none, none, some 710]),
  ("5", [some 5563, some 109, some 109, some 134, some 134, none, none, some 258, some 258, none, some 375, some 375, none, some 500, none, some 625, some 750]),
  ("6", [some 6625, some 109, some 109, some 134, some 134, none, none, some 280, some 280, none, some 432, some 432, none, some 562, none, some 718, some 864]),
  ("7", [some 7625, none, none, none, none, none, none, some 301, none, none, some 500, none, none, none, none, none, some 875]),
  ("8", [some 8625, some 109, some 109, some 148, some 148, some 250, some 277, some 322, some 322, some 406, some 500, some 500, some 593, some 718, some 812, some 906, some 875]),
  ("9", [some 9625, none, none, none, none, none, none, some 342, none, none, some 500, none, none, none, none, none, none]),
  ("10", [some 10750, some 134, some 134, some 165, some 165, some 250, some 307, some 365, some 365, some 500, some 500, some 593, some 718, some 843, some 1000, some 1125, none]),
  ("11", [some 11750, none, none, none, none, none, none, some 375, none, none, some 500, none, none, none, none, none, none]),
  ("12", [some 12750, some 156, some 165, some 180, some 180, some 250, some 330, some 375, some 406, some 562, some 500, some 687, some 843, some 1000, some 1125, some 1312, none]),
  ("14", [some 14000, some 156, none, some 188, some 250, some 312, some 375, some 375, some 437, some 593, some 500, some 750, some 937, some 1093, some 1250, some 1406, none]),
  ("16", [some 16000, some 165, none, some 188, some 250, some 312, some 375, some 375, some 500, some 656, some 500, some 843, some 1031, some 1218, some 1437, some 1593, none]),
  ("18", [some 18000, some 165, none, some 188, some 250, some 312, some 437, some 375, some 562, some 750, some 500, some 937, some 1156, some 1375, some 1562, some 1781, none]),
  ("20", [some 20000, some 188, none, some 218, some 250, some 375, some 500, some 375, some 593, some 812, some 500, some 1031, some 1280, some 1500, some 1750, some 1968, none]),
  ("24", [some 24000, some 218, none, some 250, some 250, some 375, some 562, some 375, some 687, some 968, some 500, some 1218, some 1531, some 1812, some 2062, some 2343, none]),
  ("26", [some 26000, none, none, none, some 312, some 500, none, some 375, none, none, some 500, none, none, none, none, none, none]),
  ("28", [some 28000, none, none, none, some 312000, some 500, some 625, some 375, none, none, none, none, none, none, none, none, none]),
  ("30", [some 30000, some 250, none, some 312, some 312, some 500, some 625, some 375, none, none, some 500, none, none, none, none, none, none]),
  ("32", [some 32000, none, none, none, some 312, some 500, some 625, some 375, some 688, none, some 500, none, none, none, none, none, none]),
  ("34", [some 34000, none, none, none, some 312, some 500, some 625, some 375, some 688, none, none, none, none, none, none, none, none]),
  ("36", [some 36000, none, none, none, some 312, none, some 625, some 375, some 750, none, some 500, none, none, none, none, none, none]),
  ("42", [some 42000, none, none, none, none, none, none, some 375, none, none, some 500, none, none, none, none, none, none]),
  ("48", [some 48000, none, none, none, none, none, none, some 375, none, none, some 500, none, none, none, none, none, none])]


end Pypbomb.Data
