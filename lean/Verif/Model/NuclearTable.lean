import Verif.Model.NuclearData

/-!
# The shipped data file `data/Nuclear_Data.txt`

Generated from the file, one entry per row: element name, Z, A, abundance in units of 10⁻⁸, twice the spin, `<S_p>` and `<S_n>` in units of 10⁻⁴.
-/

namespace Obscura

/-- A row of the file in integer units. Read by `src/Target_Nucleus.cpp:150`. -/
structure RawRow where
  name : String
  Z : ℕ
  A : ℕ
  abundance : ℕ
  twoSpin : ℕ
  sp : ℤ
  sn : ℤ

/-- The row as `Import_Nuclear_Data` reads it, `src/Target_Nucleus.cpp:150`. -/
noncomputable def RawRow.toRow (r : RawRow) : NuclearRow :=
  { name := r.name, Z := r.Z, A := r.A, abundance := r.abundance / 10 ^ 8, spin := r.twoSpin / 2, sp := r.sp / 10 ^ 4, sn := r.sn / 10 ^ 4 }

/-- The rows of `data/Nuclear_Data.txt`. Read by `src/Target_Nucleus.cpp:139-150`. -/
def shippedRows : List RawRow := [
  ⟨"H", 1, 1, 99985000, 1, 5000, 0⟩,
  ⟨"H", 1, 2, 15000, 2, 0, 0⟩,
  ⟨"He", 2, 3, 137, 1, -810, 5520⟩,
  ⟨"He", 2, 4, 99999863, 0, 0, 0⟩,
  ⟨"Li", 3, 6, 7590000, 2, 0, 0⟩,
  ⟨"Li", 3, 7, 92410000, 3, 4970, 40⟩,
  ⟨"Be", 4, 9, 100000000, 3, 70, 4150⟩,
  ⟨"B", 5, 10, 19800000, 6, 0, 0⟩,
  ⟨"B", 5, 11, 80200000, 3, 2920, 80⟩,
  ⟨"C", 6, 12, 98890000, 0, 0, 0⟩,
  ⟨"C", 6, 13, 1110000, 1, -90, -1720⟩,
  ⟨"N", 7, 14, 99634000, 2, 0, 0⟩,
  ⟨"N", 7, 15, 366000, 1, -1450, 370⟩,
  ⟨"O", 8, 16, 99762000, 0, 0, 0⟩,
  ⟨"O", 8, 17, 38000, 5, -360, 5080⟩,
  ⟨"O", 8, 18, 200000, 0, 0, 0⟩,
  ⟨"F", 9, 19, 100000000, 1, 4780, -20⟩,
  ⟨"Ne", 10, 20, 90480000, 0, 0, 0⟩,
  ⟨"Ne", 10, 21, 270000, 3, 200, 2940⟩,
  ⟨"Ne", 10, 22, 9250000, 0, 0, 0⟩,
  ⟨"Na", 11, 23, 100000000, 3, 2240, 240⟩,
  ⟨"Mg", 12, 24, 78990000, 0, 0, 0⟩,
  ⟨"Mg", 12, 25, 10000000, 5, 400, 3760⟩,
  ⟨"Mg", 12, 26, 11010000, 0, 0, 0⟩,
  ⟨"Al", 13, 27, 100000000, 5, 3260, 380⟩,
  ⟨"Si", 14, 28, 92230000, 0, 0, 0⟩,
  ⟨"Si", 14, 29, 4683000, 1, 160, 1560⟩,
  ⟨"Si", 14, 30, 3087000, 0, 0, 0⟩,
  ⟨"P", 15, 31, 100000000, 1, 1810, 320⟩,
  ⟨"S", 16, 32, 95020000, 0, 0, 0⟩,
  ⟨"S", 16, 33, 750000, 3, 0, 0⟩,
  ⟨"S", 16, 34, 4210000, 0, 0, 0⟩,
  ⟨"S", 16, 36, 20000, 0, 0, 0⟩,
  ⟨"Cl", 17, 35, 75770000, 3, -510, -88⟩,
  ⟨"Cl", 17, 37, 24230000, 3, 0, 0⟩,
  ⟨"Ar", 18, 36, 336500, 0, 0, 0⟩,
  ⟨"Ar", 18, 38, 63200, 0, 0, 0⟩,
  ⟨"Ar", 18, 40, 99600300, 0, 0, 0⟩,
  ⟨"K", 19, 39, 93258100, 3, -1970, 510⟩,
  ⟨"K", 19, 40, 11700, 8, 0, 0⟩,
  ⟨"K", 19, 41, 6730200, 3, 0, 0⟩,
  ⟨"Ca", 20, 40, 96940000, 0, 0, 0⟩,
  ⟨"Ca", 20, 42, 647000, 0, 0, 0⟩,
  ⟨"Ca", 20, 43, 135000, 7, 0, 0⟩,
  ⟨"Ca", 20, 44, 2090000, 0, 0, 0⟩,
  ⟨"Ca", 20, 46, 4000, 0, 0, 0⟩,
  ⟨"Ca", 20, 48, 187000, 0, 0, 0⟩,
  ⟨"Sc", 21, 45, 100000000, 7, 0, 0⟩,
  ⟨"Ti", 22, 46, 8250000, 0, 0, 0⟩,
  ⟨"Ti", 22, 47, 7440000, 5, 0, 2100⟩,
  ⟨"Ti", 22, 48, 73720000, 0, 0, 0⟩,
  ⟨"Ti", 22, 49, 5410000, 7, 0, 2900⟩,
  ⟨"Ti", 22, 50, 5180000, 0, 0, 0⟩,
  ⟨"V", 23, 50, 250000, 12, 0, 0⟩,
  ⟨"V", 23, 51, 99750000, 7, 3600, 0⟩,
  ⟨"Cr", 24, 50, 4345000, 0, 0, 0⟩,
  ⟨"Cr", 24, 52, 83789000, 0, 0, 0⟩,
  ⟨"Cr", 24, 53, 9501000, 3, 0, 0⟩,
  ⟨"Cr", 24, 54, 2365000, 0, 0, 0⟩,
  ⟨"Mn", 25, 55, 100000000, 5, 2640, 0⟩,
  ⟨"Fe", 26, 54, 5845000, 0, 0, 0⟩,
  ⟨"Fe", 26, 56, 91754000, 0, 0, 0⟩,
  ⟨"Fe", 26, 57, 2119000, 1, 0, 0⟩,
  ⟨"Fe", 26, 58, 282000, 0, 0, 0⟩,
  ⟨"Co", 27, 59, 100000000, 7, 2500, 0⟩,
  ⟨"Ni", 28, 58, 68077000, 0, 0, 0⟩,
  ⟨"Ni", 28, 60, 26223000, 0, 0, 0⟩,
  ⟨"Ni", 28, 61, 1140000, 3, 0, 0⟩,
  ⟨"Ni", 28, 62, 3634000, 0, 0, 0⟩,
  ⟨"Ni", 28, 64, 926000, 0, 0, 0⟩,
  ⟨"Cu", 29, 63, 69170000, 3, 0, 0⟩,
  ⟨"Cu", 29, 65, 30830000, 3, 0, 0⟩,
  ⟨"Zn", 30, 64, 48630000, 0, 0, 0⟩,
  ⟨"Zn", 30, 66, 27900000, 0, 0, 0⟩,
  ⟨"Zn", 30, 67, 4100000, 5, 0, -2300⟩,
  ⟨"Zn", 30, 68, 18750000, 0, 0, 0⟩,
  ⟨"Zn", 30, 70, 620000, 0, 0, 0⟩,
  ⟨"Ga", 31, 69, 60108000, 3, 1100, 0⟩,
  ⟨"Ga", 31, 71, 39892000, 3, 2300, 0⟩,
  ⟨"Ge", 32, 70, 20370000, 0, 0, 0⟩,
  ⟨"Ge", 32, 72, 27310000, 0, 0, 0⟩,
  ⟨"Ge", 32, 73, 7760000, 9, 310, 4390⟩,
  ⟨"Ge", 32, 74, 36730000, 0, 0, 0⟩,
  ⟨"Ge", 32, 76, 7830000, 0, 0, 0⟩,
  ⟨"As", 33, 75, 100000000, 3, -100, 0⟩,
  ⟨"Se", 34, 74, 890000, 0, 0, 0⟩,
  ⟨"Se", 34, 76, 9370000, 0, 0, 0⟩,
  ⟨"Se", 34, 77, 7630000, 1, 0, 0⟩,
  ⟨"Se", 34, 78, 23770000, 0, 0, 0⟩,
  ⟨"Se", 34, 80, 49610000, 0, 0, 0⟩,
  ⟨"Se", 34, 82, 8730000, 0, 0, 0⟩,
  ⟨"Br", 35, 79, 50690000, 3, 1300, 0⟩,
  ⟨"Br", 35, 81, 49310000, 3, 1700, 0⟩,
  ⟨"Kr", 36, 78, 350000, 0, 0, 0⟩,
  ⟨"Kr", 36, 80, 2280000, 0, 0, 0⟩,
  ⟨"Kr", 36, 82, 11580000, 0, 0, 0⟩,
  ⟨"Kr", 36, 83, 11490000, 9, 0, 0⟩,
  ⟨"Kr", 36, 84, 57000000, 0, 0, 0⟩,
  ⟨"Kr", 36, 86, 17300000, 0, 0, 0⟩,
  ⟨"Rb", 37, 85, 72170000, 5, 0, 0⟩,
  ⟨"Rb", 37, 87, 27830000, 3, 0, 0⟩,
  ⟨"Sr", 38, 84, 560000, 0, 0, 0⟩,
  ⟨"Sr", 38, 86, 9860000, 0, 0, 0⟩,
  ⟨"Sr", 38, 87, 7000000, 9, 0, 0⟩,
  ⟨"Sr", 38, 88, 82580000, 0, 0, 0⟩,
  ⟨"Y", 39, 89, 100000000, 1, 0, 0⟩,
  ⟨"Zr", 40, 90, 51450000, 0, 0, 0⟩,
  ⟨"Zr", 40, 91, 11220000, 5, 0, 3400⟩,
  ⟨"Zr", 40, 92, 17150000, 0, 0, 0⟩,
  ⟨"Zr", 40, 94, 17380000, 0, 0, 0⟩,
  ⟨"Zr", 40, 96, 2800000, 0, 0, 0⟩,
  ⟨"Nb", 41, 93, 100000000, 9, 4800, 400⟩,
  ⟨"Mo", 42, 100, 9630000, 0, 0, 0⟩,
  ⟨"Mo", 42, 92, 14840000, 0, 0, 0⟩,
  ⟨"Mo", 42, 94, 9250000, 0, 0, 0⟩,
  ⟨"Mo", 42, 95, 15920000, 5, 0, 0⟩,
  ⟨"Mo", 42, 96, 16680000, 0, 0, 0⟩,
  ⟨"Mo", 42, 97, 9550000, 5, 0, 0⟩,
  ⟨"Mo", 42, 98, 24130000, 0, 0, 0⟩,
  ⟨"Tc", 43, 99, 0, 0, 0, 0⟩,
  ⟨"Ru", 44, 100, 12600000, 0, 0, 0⟩,
  ⟨"Ru", 44, 101, 17060000, 5, 0, 1900⟩,
  ⟨"Ru", 44, 102, 31550000, 0, 0, 0⟩,
  ⟨"Ru", 44, 104, 18620000, 0, 0, 0⟩,
  ⟨"Ru", 44, 96, 5540000, 0, 0, 0⟩,
  ⟨"Ru", 44, 98, 1870000, 0, 0, 0⟩,
  ⟨"Ru", 44, 99, 12760000, 5, 0, 1700⟩,
  ⟨"Rh", 45, 103, 100000000, 1, 0, 0⟩,
  ⟨"Pd", 46, 102, 1020000, 0, 0, 0⟩,
  ⟨"Pd", 46, 104, 11140000, 0, 0, 0⟩,
  ⟨"Pd", 46, 105, 22330000, 5, 0, 0⟩,
  ⟨"Pd", 46, 106, 27330000, 0, 0, 0⟩,
  ⟨"Pd", 46, 108, 26460000, 0, 0, 0⟩,
  ⟨"Pd", 46, 110, 11720000, 0, 0, 0⟩,
  ⟨"Ag", 47, 107, 51839000, 1, -1300, 0⟩,
  ⟨"Ag", 47, 109, 48161000, 1, -1400, 0⟩,
  ⟨"Cd", 48, 106, 1250000, 0, 0, 0⟩,
  ⟨"Cd", 48, 108, 890000, 0, 0, 0⟩,
  ⟨"Cd", 48, 110, 12490000, 0, 0, 0⟩,
  ⟨"Cd", 48, 111, 12800000, 1, 0, 1600⟩,
  ⟨"Cd", 48, 112, 24130000, 0, 0, 0⟩,
  ⟨"Cd", 48, 113, 12220000, 1, -10, 4880⟩,
  ⟨"Cd", 48, 114, 28730000, 0, 0, 0⟩,
  ⟨"Cd", 48, 116, 7490000, 0, 0, 0⟩,
  ⟨"In", 49, 113, 4290000, 9, 0, 0⟩,
  ⟨"In", 49, 115, 95710000, 9, -10, 4880⟩,
  ⟨"Sn", 50, 112, 970000, 0, 0, 0⟩,
  ⟨"Sn", 50, 114, 660000, 0, 0, 0⟩,
  ⟨"Sn", 50, 115, 340000, 1, 0, 2400⟩,
  ⟨"Sn", 50, 116, 14540000, 0, 0, 0⟩,
  ⟨"Sn", 50, 117, 7680000, 1, 0, 1260⟩,
  ⟨"Sn", 50, 118, 24220000, 0, 0, 0⟩,
  ⟨"Sn", 50, 119, 8590000, 1, 0, 0⟩,
  ⟨"Sn", 50, 120, 32580000, 0, 0, 0⟩,
  ⟨"Sn", 50, 122, 4630000, 0, 0, 0⟩,
  ⟨"Sn", 50, 124, 5790000, 0, 0, 0⟩,
  ⟨"Sb", 51, 121, 57210000, 5, 1880, 0⟩,
  ⟨"Sb", 51, 123, 42790000, 7, -2070, 0⟩,
  ⟨"Te", 52, 120, 90000, 0, 0, 0⟩,
  ⟨"Te", 52, 122, 2550000, 0, 0, 0⟩,
  ⟨"Te", 52, 123, 890000, 1, 0, 4910⟩,
  ⟨"Te", 52, 124, 4740000, 0, 0, 0⟩,
  ⟨"Te", 52, 125, 7070000, 1, -8, 4990⟩,
  ⟨"Te", 52, 126, 18840000, 0, 0, 0⟩,
  ⟨"Te", 52, 128, 31740000, 0, 0, 0⟩,
  ⟨"Te", 52, 130, 34080000, 0, 0, 0⟩,
  ⟨"I", 53, 127, 100000000, 5, 3420, 310⟩,
  ⟨"Xe", 54, 124, 95000, 0, 0, 0⟩,
  ⟨"Xe", 54, 126, 89000, 0, 0, 0⟩,
  ⟨"Xe", 54, 128, 1910000, 0, 0, 0⟩,
  ⟨"Xe", 54, 129, 26400000, 1, 100, 3290⟩,
  ⟨"Xe", 54, 130, 4071000, 0, 0, 0⟩,
  ⟨"Xe", 54, 131, 21232000, 3, -90, -2720⟩,
  ⟨"Xe", 54, 132, 26909000, 0, 0, 0⟩,
  ⟨"Xe", 54, 134, 10436000, 0, 0, 0⟩,
  ⟨"Xe", 54, 136, 8857000, 0, 0, 0⟩,
  ⟨"Cs", 55, 133, 100000000, 7, -2250, 20⟩,
  ⟨"Ba", 56, 130, 106000, 0, 0, 0⟩,
  ⟨"Ba", 56, 132, 101000, 0, 0, 0⟩,
  ⟨"Ba", 56, 134, 2417000, 0, 0, 0⟩,
  ⟨"Ba", 56, 135, 6592000, 3, -40, -1450⟩,
  ⟨"Ba", 56, 136, 7854000, 0, 0, 0⟩,
  ⟨"Ba", 56, 137, 11232000, 3, 0, 0⟩,
  ⟨"Ba", 56, 138, 71698000, 0, 0, 0⟩,
  ⟨"La", 57, 138, 90000, 10, 0, 0⟩,
  ⟨"La", 57, 139, 99910000, 7, -1600, 0⟩,
  ⟨"Ce", 58, 136, 185000, 0, 0, 0⟩,
  ⟨"Ce", 58, 138, 251000, 0, 0, 0⟩,
  ⟨"Ce", 58, 140, 88450000, 0, 0, 0⟩,
  ⟨"Ce", 58, 142, 11114000, 0, 0, 0⟩,
  ⟨"Pr", 59, 141, 100000000, 5, 0, 0⟩,
  ⟨"Nd", 60, 142, 27200000, 0, 0, 0⟩,
  ⟨"Nd", 60, 143, 12200000, 7, 0, 0⟩,
  ⟨"Nd", 60, 144, 23800000, 0, 0, 0⟩,
  ⟨"Nd", 60, 145, 8300000, 7, 0, 0⟩,
  ⟨"Nd", 60, 146, 17200000, 0, 0, 0⟩,
  ⟨"Nd", 60, 148, 5700000, 0, 0, 0⟩,
  ⟨"Nd", 60, 150, 5600000, 0, 0, 0⟩,
  ⟨"Pm", 61, 145, 0, 0, 0, 0⟩,
  ⟨"Sm", 62, 144, 3070000, 0, 0, 0⟩,
  ⟨"Sm", 62, 147, 14990000, 7, 0, 0⟩,
  ⟨"Sm", 62, 148, 11240000, 0, 0, 0⟩,
  ⟨"Sm", 62, 149, 13820000, 7, 0, 0⟩,
  ⟨"Sm", 62, 150, 7380000, 0, 0, 0⟩,
  ⟨"Sm", 62, 152, 26750000, 0, 0, 0⟩,
  ⟨"Sm", 62, 154, 22750000, 0, 0, 0⟩,
  ⟨"Eu", 63, 151, 47810000, 5, 0, 0⟩,
  ⟨"Eu", 63, 153, 52190000, 5, 0, 0⟩,
  ⟨"Gd", 64, 152, 200000, 0, 0, 0⟩,
  ⟨"Gd", 64, 154, 2180000, 0, 0, 0⟩,
  ⟨"Gd", 64, 155, 14800000, 3, 0, 700⟩,
  ⟨"Gd", 64, 156, 20470000, 0, 0, 0⟩,
  ⟨"Gd", 64, 157, 15650000, 3, 0, 900⟩,
  ⟨"Gd", 64, 158, 24840000, 0, 0, 0⟩,
  ⟨"Gd", 64, 160, 21860000, 0, 0, 0⟩,
  ⟨"Tb", 65, 159, 100000000, 3, 0, 0⟩,
  ⟨"Dy", 66, 156, 60000, 0, 0, 0⟩,
  ⟨"Dy", 66, 158, 100000, 0, 0, 0⟩,
  ⟨"Dy", 66, 160, 2340000, 0, 0, 0⟩,
  ⟨"Dy", 66, 161, 18910000, 5, 0, 0⟩,
  ⟨"Dy", 66, 162, 25510000, 0, 0, 0⟩,
  ⟨"Dy", 66, 163, 24900000, 5, 0, 0⟩,
  ⟨"Dy", 66, 164, 28180000, 0, 0, 0⟩,
  ⟨"Ho", 67, 165, 100000000, 7, 0, 0⟩,
  ⟨"Er", 68, 162, 139000, 0, 0, 0⟩,
  ⟨"Er", 68, 164, 1601000, 0, 0, 0⟩,
  ⟨"Er", 68, 166, 33503000, 0, 0, 0⟩,
  ⟨"Er", 68, 167, 22869000, 7, 0, 0⟩,
  ⟨"Er", 68, 168, 26978000, 0, 0, 0⟩,
  ⟨"Er", 68, 170, 14910000, 0, 0, 0⟩,
  ⟨"Tm", 69, 169, 100000000, 1, 0, 0⟩,
  ⟨"Yb", 70, 168, 130000, 0, 0, 0⟩,
  ⟨"Yb", 70, 170, 3040000, 0, 0, 0⟩,
  ⟨"Yb", 70, 171, 14280000, 1, 0, 0⟩,
  ⟨"Yb", 70, 172, 21830000, 0, 0, 0⟩,
  ⟨"Yb", 70, 173, 16130000, 5, 0, 0⟩,
  ⟨"Yb", 70, 174, 31830000, 0, 0, 0⟩,
  ⟨"Yb", 70, 176, 12760000, 0, 0, 0⟩,
  ⟨"Lu", 71, 175, 97410000, 7, 0, 0⟩,
  ⟨"Lu", 71, 176, 2590000, 14, 0, 0⟩,
  ⟨"Hf", 72, 174, 160000, 0, 0, 0⟩,
  ⟨"Hf", 72, 176, 5260000, 0, 0, 0⟩,
  ⟨"Hf", 72, 177, 18600000, 7, 0, 0⟩,
  ⟨"Hf", 72, 178, 27280000, 0, 0, 0⟩,
  ⟨"Hf", 72, 179, 13620000, 9, 0, 0⟩,
  ⟨"Hf", 72, 180, 35080000, 0, 0, 0⟩,
  ⟨"Ta", 73, 181, 99988000, 7, 0, 0⟩,
  ⟨"W", 74, 180, 120000, 0, 0, 0⟩,
  ⟨"W", 74, 182, 26500000, 0, 0, 0⟩,
  ⟨"W", 74, 183, 14310000, 1, 0, -300⟩,
  ⟨"W", 74, 184, 30640000, 0, 0, 0⟩,
  ⟨"W", 74, 186, 28430000, 0, 0, 0⟩,
  ⟨"Re", 75, 185, 37400000, 5, 0, 0⟩,
  ⟨"Re", 75, 187, 62600000, 5, 0, 0⟩,
  ⟨"Os", 76, 184, 20000, 0, 0, 0⟩,
  ⟨"Os", 76, 186, 1590000, 0, 0, 0⟩,
  ⟨"Os", 76, 187, 1600000, 1, 0, 0⟩,
  ⟨"Os", 76, 188, 13290000, 0, 0, 0⟩,
  ⟨"Os", 76, 189, 16210000, 3, 0, 0⟩,
  ⟨"Os", 76, 190, 26360000, 0, 0, 0⟩,
  ⟨"Os", 76, 192, 40930000, 0, 0, 0⟩,
  ⟨"Ir", 77, 191, 37300000, 3, -2950, 0⟩,
  ⟨"Ir", 77, 193, 62700000, 3, -2920, 0⟩,
  ⟨"Pt", 78, 190, 14000, 0, 0, 0⟩,
  ⟨"Pt", 78, 192, 782000, 0, 0, 0⟩,
  ⟨"Pt", 78, 194, 32967000, 0, 0, 0⟩,
  ⟨"Pt", 78, 195, 33832000, 1, 0, 0⟩,
  ⟨"Pt", 78, 196, 25242000, 0, 0, 0⟩,
  ⟨"Pt", 78, 198, 7163000, 0, 0, 0⟩,
  ⟨"Au", 79, 197, 100000000, 3, 0, 0⟩,
  ⟨"Hg", 80, 196, 150000, 0, 0, 0⟩,
  ⟨"Hg", 80, 198, 9970000, 0, 0, 0⟩,
  ⟨"Hg", 80, 199, 16870000, 1, 0, -1300⟩,
  ⟨"Hg", 80, 200, 23100000, 0, 0, 0⟩,
  ⟨"Hg", 80, 201, 13180000, 3, 0, 1460⟩,
  ⟨"Hg", 80, 202, 29860000, 0, 0, 0⟩,
  ⟨"Hg", 80, 204, 6860000, 0, 0, 0⟩,
  ⟨"Tl", 81, 203, 29524000, 1, 2400, 0⟩,
  ⟨"Tl", 81, 205, 70476000, 1, 2500, 0⟩,
  ⟨"Pb", 82, 204, 1400000, 0, 0, 0⟩,
  ⟨"Pb", 82, 206, 24100000, 0, 0, 0⟩,
  ⟨"Pb", 82, 207, 22100000, 1, -100, -1490⟩,
  ⟨"Pb", 82, 208, 52400000, 0, 0, 0⟩,
  ⟨"Bi", 83, 209, 100000000, 9, -850, 0⟩,
  ⟨"Po", 84, 210, 100000000, 0, 0, 0⟩,
  ⟨"At", 85, 210, 100000000, 0, 0, 0⟩,
  ⟨"Rn", 86, 222, 100000000, 0, 0, 0⟩,
  ⟨"Fr", 87, 223, 100000000, 0, 0, 0⟩,
  ⟨"Ra", 88, 226, 100000000, 0, 0, 0⟩,
  ⟨"Ac", 89, 227, 100000000, 0, 0, 0⟩,
  ⟨"Th", 90, 232, 100000000, 0, 0, 0⟩,
  ⟨"Pa", 91, 231, 100000000, 0, 0, 0⟩,
  ⟨"U", 92, 234, 5400, 0, 0, 0⟩,
  ⟨"U", 92, 235, 720400, 7, 0, 0⟩,
  ⟨"U", 92, 238, 99274200, 0, 0, 0⟩]

/-- The shipped data file. Read by `src/Target_Nucleus.cpp:139-150`. -/
noncomputable def shippedTable : List NuclearRow := shippedRows.map RawRow.toRow

end Obscura
