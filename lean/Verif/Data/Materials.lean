/-
The material table pypbomb/lookup_data/materials_list.csv.
Generated by tools/gen_tables.py.
-/

namespace Pypbomb.Data

/-- materials_list.csv:2-8: (grade, group, elastic modulus in GPa, density in 0.1 g/cm^3, Poisson
ratio in 0.01). -/
def materialRows : List (String × String × Nat × Nat × Nat) := [
  ("304", "2.1", 200, 78, 28),
  ("304H", "2.1", 200, 78, 28),
  ("316", "2.2", 200, 79, 28),
  ("316H", "2.2", 200, 79, 28),
  ("317", "2.2", 200, 79, 28),
  ("304L", "2.3", 200, 78, 28),
  ("316L", "2.3", 200, 79, 28)]


end Pypbomb.Data
