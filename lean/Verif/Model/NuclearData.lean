import Verif.Model.Nucleus

/-!
# Nuclei and the nuclear data table — `src/Target_Nucleus.cpp:26-28,66-192`
-/

namespace Obscura

/-- `Nucleus_Names`, `src/Target_Nucleus.cpp:28`. -/
def nucleusNames : List String :=
  ["H", "He", "Li", "Be", "B", "C", "N", "O", "F", "Ne", "Na", "Mg", "Al", "Si", "P", "S", "Cl", "Ar", "K", "Ca", "Sc", "Ti", "V",
   "Cr", "Mn", "Fe", "Co", "Ni", "Cu", "Zn", "Ga", "Ge", "As", "Se", "Br", "Kr", "Rb", "Sr", "Y", "Zr", "Nb", "Mo", "Tc", "Ru",
   "Rh", "Pd", "Ag", "Cd", "In", "Sn", "Sb", "Te", "I", "Xe", "Cs", "Ba", "La", "Ce", "Pr", "Nd", "Pm", "Sm", "Eu", "Gd", "Tb",
   "Dy", "Ho", "Er", "Tm", "Yb", "Lu", "Hf", "Ta", "W", "Re", "Os", "Ir", "Pt", "Au", "Hg", "Tl", "Pb", "Bi", "Po", "At", "Rn",
   "Fr", "Ra", "Ac", "Th", "Pa", "U", "Np", "Pu", "Am", "Cm", "Bk", "Cf", "Es", "Fm", "Md", "No", "Lr", "Rf", "Db", "Sg", "Bh",
   "Hs", "Mt", "Ds", "Rg", "Cn", "Nh", "Fl", "Mc", "Lv", "Ts", "Og"]

/-- `struct Nucleus`, `include/obscura/Target_Nucleus.hpp:41-65`. `Z` is `none` when the member is not initialised. -/
structure Nucleus where
  Z : Option ℕ
  isotopes : List Isotope
  name : String

namespace Nucleus

/-- `Nucleus(const std::vector<Isotope>&)`, `src/Target_Nucleus.cpp:73-77`: `iso[0]` of an empty vector and a `Z` without a name
are out of bounds. -/
def ofIsotopes (isos : List Isotope) : Outcome Nucleus := do
  let iso ← vecGet isos 0
  if iso.Z = 0 then .ub
  else do
    let name ← vecGet nucleusNames (iso.Z - 1)
    .ok { Z := some iso.Z, isotopes := isos, name := name }

/-- `Nucleus(const Isotope&)`, `src/Target_Nucleus.cpp:79-83`: leaves `Z` uninitialised. -/
def ofIsotope (iso : Isotope) : Outcome Nucleus :=
  if iso.Z = 0 then .ub
  else do
    let name ← vecGet nucleusNames (iso.Z - 1)
    .ok { Z := none, isotopes := [iso], name := name }

/-- `Average_Nuclear_Mass`, `src/Target_Nucleus.cpp:95-101`. -/
noncomputable def averageMass (n : Nucleus) : ℝ := n.isotopes.foldl (fun (s : ℝ) iso => s + iso.mass * iso.abundance) 0

/-- `Nucleus::Get_Isotope`, `src/Target_Nucleus.cpp:122-129`. -/
def getIsotope (n : Nucleus) (A : ℕ) : Outcome Isotope :=
  match n.isotopes.find? (fun iso => decide (iso.A = A)) with
  | some iso => .ok iso
  | none => .exit

end Nucleus

/-- One row of the data file, `src/Target_Nucleus.cpp:147-150` (the name in the file is read and not used; `Z`, `A` are taken to
be non-negative). -/
structure NuclearRow where
  name : String
  Z : ℕ
  A : ℕ
  abundance : ℝ
  spin : ℝ
  sp : ℝ
  sn : ℝ

/-- The isotope built from a row, `src/Target_Nucleus.cpp:158`. -/
noncomputable def NuclearRow.isotope (U : Units) (r : NuclearRow) : Outcome Isotope :=
  Isotope.make U r.Z r.A r.abundance r.spin r.sp r.sn

/-- The loop of `Import_Nuclear_Data`, `src/Target_Nucleus.cpp:150-160`, with its local variables `Zold`, `isotopes`, `nuclei`. -/
noncomputable def importLoop (U : Units) : List NuclearRow → ℕ → List Isotope → List Nucleus → Outcome (List Nucleus)
  | [], _, isos, nuclei => do
    let n ← Nucleus.ofIsotopes isos
    .ok (nuclei ++ [n])
  | r :: rows, zOld, isos, nuclei =>
    if zOld < r.Z then do
      let n ← Nucleus.ofIsotopes isos
      let iso ← r.isotope U
      importLoop U rows r.Z [iso] (nuclei ++ [n])
    else do
      let iso ← r.isotope U
      importLoop U rows zOld (isos ++ [iso]) nuclei

/-- `Import_Nuclear_Data`, `src/Target_Nucleus.cpp:134-163`; `none` is a missing file. -/
noncomputable def importNuclearData (U : Units) (file : Option (List NuclearRow)) : Outcome (List Nucleus) :=
  match file with
  | none => .exit
  | some rows => importLoop U rows 1 [] []

/-- `Get_Nucleus(Z)`, `src/Target_Nucleus.cpp:170-181`, with the global variable `all_nuclei` before and after the call. -/
noncomputable def getNucleus (U : Units) (file : Option (List NuclearRow)) (cache : List Nucleus) (Z : ℕ) :
    Outcome (List Nucleus × Nucleus) :=
  if Z < 1 ∨ 92 < Z then .exit
  else do
    let cache ← if cache.length = 0 then importNuclearData U file else .ok cache
    let n ← vecGet cache (Z - 1)
    .ok (cache, n)

/-- The loop of `Get_Nucleus(name)`, `src/Target_Nucleus.cpp:185-189`. -/
noncomputable def findNucleus (U : Units) (file : Option (List NuclearRow)) (name : String) :
    List ℕ → List Nucleus → Outcome (List Nucleus × Nucleus)
  | [], _ => .exit
  | Z :: Zs, cache => do
    let (cache, n) ← getNucleus U file cache Z
    if n.name = name then getNucleus U file cache Z else findNucleus U file name Zs cache

/-- `Get_Nucleus(name)`, `src/Target_Nucleus.cpp:183-192`. -/
noncomputable def getNucleusByName (U : Units) (file : Option (List NuclearRow)) (cache : List Nucleus) (name : String) :
    Outcome (List Nucleus × Nucleus) :=
  findNucleus U file name (List.range' 1 92) cache

/-- `Get_Isotope(Z, A)`, `src/Target_Nucleus.cpp:165-168`. -/
noncomputable def getIsotope (U : Units) (file : Option (List NuclearRow)) (cache : List Nucleus) (Z A : ℕ) :
    Outcome (List Nucleus × Isotope) := do
  let (cache, n) ← getNucleus U file cache Z
  let iso ← n.getIsotope A
  .ok (cache, iso)

end Obscura
