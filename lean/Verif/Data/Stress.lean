/-
The allowable-stress tables pypbomb/lookup_data/ASME_B31_1_stress_limits_*.csv.
Generated by tools/gen_tables.py.
-/

namespace Pypbomb.Data

/-- ASME_B31_1_stress_limits_welded.csv:1, columns after "Temp". -/
def weldedCols : List String :=
  ["304", "304H", "316", "316H", "317", "304L", "316L"]

/-- ASME_B31_1_stress_limits_welded.csv:2-20: (temperature in degF, stresses in 0.1 ksi). -/
def weldedRows : List (Int × List Nat) := [
  (-20, [160, 160, 160, 160, 160, 133, 133]),
  (100, [160, 160, 160, 160, 160, 133, 133]),
  (200, [133, 133, 138, 138, 138, 114, 113]),
  (300, [120, 120, 124, 124, 124, 102, 101]),
  (400, [110, 110, 114, 114, 114, 93, 92]),
  (500, [105, 105, 106, 106, 106, 87, 85]),
  (600, [97, 97, 101, 101, 101, 83, 80]),
  (650, [95, 95, 98, 98, 98, 81, 78]),
  (700, [94, 94, 96, 96, 96, 80, 76]),
  (750, [92, 92, 95, 95, 95, 78, 75]),
  (800, [90, 90, 94, 94, 94, 77, 75]),
  (850, [88, 88, 93, 93, 93, 0, 72]),
  (900, [87, 87, 92, 92, 92, 0, 0]),
  (950, [85, 85, 91, 91, 91, 0, 0]),
  (1000, [83, 83, 90, 90, 90, 0, 0]),
  (1050, [81, 81, 89, 89, 89, 0, 0]),
  (1100, [76, 76, 88, 88, 88, 0, 0]),
  (1150, [65, 65, 79, 79, 79, 0, 0]),
  (1200, [54, 54, 63, 63, 63, 0, 0])]

/-- ASME_B31_1_stress_limits_seamless.csv:1, columns after "Temp". -/
def seamlessCols : List String :=
  ["304", "304H", "316", "316H", "317", "304L", "316L"]

/-- ASME_B31_1_stress_limits_seamless.csv:2-20: (temperature in degF, stresses in 0.1 ksi). -/
def seamlessRows : List (Int × List Nat) := [
  (-20, [188, 188, 188, 188, 188, 157, 157]),
  (100, [188, 188, 188, 188, 188, 157, 157]),
  (200, [157, 157, 162, 162, 162, 134, 133]),
  (300, [141, 141, 146, 146, 146, 120, 119]),
  (400, [130, 130, 134, 134, 134, 110, 108]),
  (500, [122, 122, 125, 125, 125, 103, 100]),
  (600, [114, 114, 118, 118, 118, 97, 94]),
  (650, [113, 113, 116, 116, 116, 95, 92]),
  (700, [111, 111, 113, 113, 113, 94, 90]),
  (750, [108, 108, 112, 112, 112, 92, 88]),
  (800, [106, 106, 110, 110, 110, 91, 86]),
  (850, [104, 104, 109, 109, 109, 0, 84]),
  (900, [102, 102, 108, 108, 108, 0, 0]),
  (950, [100, 100, 107, 107, 107, 0, 0]),
  (1000, [98, 98, 106, 106, 106, 0, 0]),
  (1050, [95, 95, 105, 105, 105, 0, 0]),
  (1100, [89, 89, 103, 103, 103, 0, 0]),
  (1150, [77, 77, 93, 93, 93, 0, 0]),
  (1200, [61, 61, 74, 74, 74, 0, 0])]


end Pypbomb.Data
