import Verif.Model.Crystal
import Verif.Model.Ionization
import Verif.Model.NuclearData

/-!
# Predefined experiments — `src/Experiments.cpp`

The files read by the experiments are parameters (`DataFiles`); a missing file ends the program.
The functions for electron recoils and for the Migdal effect have the same text apart from the class of the detector
(`src/Experiments.cpp:111-236` and `:341-467`); they are modelled by one function with an argument for the target type, which is
what the constructors of the two classes pass on ("Electrons" `src/Direct_Detection_ER.cpp:62-65`, "Nuclei"
`src/Direct_Detection_Migdal.cpp:68-71`).
-/

namespace Obscura

/-- Units of mass and long times, defined in libphysica (`Natural_Units.hpp`). -/
structure MacroUnits where
  gram : ℝ
  year : ℝ
  gram_pos : 0 < gram
  year_pos : 0 < year

/-- The contents of the data files. `numbers` is the list in a text file, `efficiency` the interpolated table of an efficiency file
(as a function of the number in its first column), `crystal` the numbers in `data/Semiconductors/C.<target>137.dat`.
Read in `src/Experiments.cpp:56-62,79-86,100-106` and by the classes. -/
structure DataFiles where
  nuclear : Option (List NuclearRow)
  response : ResponseTables
  crystal : String → Option (List ℝ)
  numbers : String → Option (List ℝ)
  efficiency : String → Option (ℝ → ℝ)

/-- Everything a predefined experiment depends on. `src/Experiments.cpp:11-467`. -/
structure Setup where
  U : Units
  M : MacroUnits
  P : Interpolator2D
  files : DataFiles

namespace Setup

variable (S : Setup)

/-- `kg` of libphysica, used in `src/Experiments.cpp:14`. -/
noncomputable def kg : ℝ := 1000 * S.M.gram
/-- `tonne` of libphysica, used in `src/Experiments.cpp:208`. -/
noncomputable def tonne : ℝ := 1000 * S.kg
/-- `minute` of libphysica. -/
noncomputable def minute : ℝ := 60 * S.U.sec
/-- `day` of libphysica, used in `src/Experiments.cpp:14`. -/
noncomputable def day : ℝ := 24 * (60 * S.minute)

/-- `libphysica::Import_List(filename, dim)`. -/
noncomputable def importList (name : String) (dim : ℝ) : Outcome (List ℝ) :=
  match S.files.numbers name with
  | none => .exit
  | some l => .ok (l.map fun x => x * dim)

/-- The table which `Import_Efficiency(filename, dim)` appends, `src/Direct_Detection_Nucleus.cpp:115-116`: energies are in units of `dim`. -/
noncomputable def efficiencyTable (dim : ℝ) (name : String) : Outcome (ℝ → ℝ) :=
  match S.files.efficiency name with
  | none => .exit
  | some f => .ok fun E => f (E / dim)

/-- `Get_Nucleus` for several elements, one after the other, as in the initialiser lists of `src/Experiments.cpp:49,71,95`. -/
noncomputable def getNuclei : List ℕ → List Nucleus → Outcome (List Nucleus × List Nucleus)
  | [], cache => .ok (cache, [])
  | Z :: Zs, cache => do
    let (cache, n) ← getNucleus S.U S.files.nuclear cache Z
    let (cache, ns) ← getNuclei Zs cache
    .ok (cache, n :: ns)

/-- The constructor of `DM_Detector_Crystal`, with the import of the table, `src/Direct_Detection_Crystal.cpp:105-108`,
`src/Target_Crystal.cpp:46`. -/
noncomputable def makeCrystal (label : String) (expo : ℝ) (target : String) : Outcome (Detector × CrystalDetector) :=
  match S.files.crystal target with
  | none => .exit
  | some l => CrystalDetector.make S.U S.P (fun _ => l) label expo target

/-! ## Nuclear recoils -/

/-- `DAMIC_N_2011`, `src/Experiments.cpp:11-25`. -/
noncomputable def damicN2011 (cache : List Nucleus) : Outcome (List Nucleus × Detector × NuclearDetector) := do
  let (cache, targets) ← S.getNuclei [14] cache
  let (d, x) ← NuclearDetector.make "DAMIC_N_2011" (0.107 * S.kg * S.day) targets []
  let d ← d.useEnergyThreshold (0.55 * S.U.keV) (7 * S.U.keV)
  let d ← d.setObserved 106
  .ok (cache, d, x)

/-- `XENON1T_N_2017`, `src/Experiments.cpp:27-43`. -/
noncomputable def xenon1TN2017 (cache : List Nucleus) : Outcome (List Nucleus × Detector × NuclearDetector) := do
  let (cache, targets) ← S.getNuclei [54] cache
  let (d, x) ← NuclearDetector.make "XENON1T_N_2017" (34.2 * S.day * 1042 * S.kg) targets []
  let d := d.setFlatEfficiency 0.82
  let d ← d.useEnergyThreshold (5 * S.U.keV) (40 * S.U.keV)
  let d ← d.setObserved 0
  .ok (cache, d, x)

/-- `CRESST_II`, `src/Experiments.cpp:45-65`. -/
noncomputable def cresstII (cache : List Nucleus) : Outcome (List Nucleus × Detector × NuclearDetector) := do
  let (cache, targets) ← S.getNuclei [8, 20, 74] cache
  let threshold := 307 * S.U.eV
  let (d, x) ← NuclearDetector.make "CRESST-II" (52.15 * S.kg * S.day) targets [4, 1, 1]
  let events ← S.importList "data/CRESST-II/Lise_AR.dat" S.U.keV
  let d ← d.useMaximumGap (events ++ [threshold] ++ [40 * S.U.keV])
  let x := x.setResolution (threshold / 5)
  let tables ← collect (S.efficiencyTable S.U.keV) ["data/CRESST-II/Lise_eff_AR_O.dat", "data/CRESST-II/Lise_eff_AR_Ca.dat",
    "data/CRESST-II/Lise_eff_AR_W.dat"]
  .ok (cache, d, x.importEfficiencies tables)

/-- `CRESST_III`, `src/Experiments.cpp:67-89`. -/
noncomputable def cresstIII (cache : List Nucleus) : Outcome (List Nucleus × Detector × NuclearDetector) := do
  let (cache, targets) ← S.getNuclei [8, 20, 74] cache
  let (d, x) ← NuclearDetector.make "CRESST-III" (5.594 * S.kg * S.day) targets [4, 1, 1]
  let d := d.setFlatEfficiency 0.5
  let events ← S.importList "data/CRESST-III/C3P1_DetA_AR.dat" S.U.keV
  let d ← d.useMaximumGap (events ++ [30.1 * S.U.eV] ++ [16 * S.U.keV])
  let x := x.setResolution (4.6 * S.U.eV)
  let tables ← collect (S.efficiencyTable S.U.keV) ["data/CRESST-III/C3P1_DetA_eff_AR_O.dat", "data/CRESST-III/C3P1_DetA_eff_AR_Ca.dat",
    "data/CRESST-III/C3P1_DetA_eff_AR_W.dat"]
  .ok (cache, d, x.importEfficiencies tables)

/-- `CRESST_surface`, `src/Experiments.cpp:91-109`. -/
noncomputable def cresstSurface (cache : List Nucleus) : Outcome (List Nucleus × Detector × NuclearDetector) := do
  let (cache, targets) ← S.getNuclei [8, 13] cache
  let (d, x) ← NuclearDetector.make "CRESST-surface" (0.046 * S.M.gram * S.day) targets [3, 2]
  let events ← S.importList "data/CRESST-surface/data.txt" S.U.keV
  let d ← d.useMaximumGap (events ++ [19.7 * S.U.eV] ++ [600 * S.U.eV])
  let x := x.setResolution (3.74 * S.U.eV)
  .ok (cache, d, x)

/-! ## Ionization: electron recoils and Migdal effect -/

/-- The constructor `DM_Detector_Ionization_ER(label, expo, atom)` or `DM_Detector_Ionization_Migdal(label, expo, atom)`.
`src/Direct_Detection_ER.cpp:64-65` and `src/Direct_Detection_Migdal.cpp:70-71`. -/
noncomputable def makeIonization (cache : List Nucleus) (label : String) (expo : ℝ) (target atom : String) :
    Outcome (List Nucleus × Detector × IonizationDetector) :=
  IonizationDetector.makeOne S.U S.P S.files.response S.files.nuclear cache label expo target atom

/-- `XENON10_S2_ER`, `src/Experiments.cpp:112-131`; `XENON10_S2_Migdal`, 342-361. -/
noncomputable def xenon10S2 (target : String) (cache : List Nucleus) : Outcome (List Nucleus × Detector × IonizationDetector) := do
  let (cache, d, x) ← S.makeIonization cache "XENON10_S2" (15 * S.kg * S.day) target "Xe"
  let d := d.setFlatEfficiency 0.92
  let (d, x) ← IonizationDetector.usePEBins d x 27 6.7 [14, 41, 68, 95, 122, 149, 176, 203]
  let d ← d.setObservedBins [126, 60, 12, 3, 2, 0, 2]
  let trigger ← S.importList "data/XENON10e/PE_Trigger_Efficiency.txt" 1
  let x ← x.importTrigger trigger
  .ok (cache, d, x)

/-- `XENON100_S2_ER`, `src/Experiments.cpp:133-152`; `XENON100_S2_Migdal`, 363-382. -/
noncomputable def xenon100S2 (target : String) (cache : List Nucleus) : Outcome (List Nucleus × Detector × IonizationDetector) := do
  let (cache, d, x) ← S.makeIonization cache "XENON100_S2" (30 * S.kg * S.M.year) target "Xe"
  let (d, x) ← IonizationDetector.usePEBins d x 19.7 6.2 [80, 90, 110, 130, 150, 170, 190, 210, 230, 250, 270]
  let d ← d.setObservedBins [794, 1218, 924, 776, 669, 630, 528, 488, 433, 387]
  let trigger ← S.importList "data/XENON100e/PE_Trigger_Efficiency.txt" 1
  let x ← x.importTrigger trigger
  let acceptance ← S.importList "data/XENON100e/PE_Acceptance_Efficiency.txt" 1
  let x ← x.importAcceptance acceptance
  .ok (cache, d, x)

/-- `XENON1T_S2_ER`, `src/Experiments.cpp:154-169`; `XENON1T_S2_Migdal`, 384-399. -/
noncomputable def xenon1TS2 (target : String) (cache : List Nucleus) : Outcome (List Nucleus × Detector × IonizationDetector) := do
  let (cache, d, x) ← S.makeIonization cache "XENON1T_S2" (0.7 * 21900 * S.kg * S.day) target "Xe"
  let (d, x) ← IonizationDetector.useElectronBins d x 5 6
  let d ← d.setObservedBins [5, 5, 4, 2, 1, 0]
  let d ← d.setBinEfficiencies [0, 2.59712 / 21.9, 9.76999 / 21.9, 13.5103 / 21.9, 15.5974 / 21.9, 16.9158 / 21.9]
  .ok (cache, d, x)

/-- `DarkSide50_S2_ER`, `src/Experiments.cpp:171-184`; `DarkSide50_S2_Migdal`, 401-414. -/
noncomputable def darkSide50S2 (target : String) (cache : List Nucleus) : Outcome (List Nucleus × Detector × IonizationDetector) := do
  let (cache, d, x) ← S.makeIonization cache "DarkSide-50_S2" (6786 * S.kg * S.day) target "Ar"
  let (d, x) ← IonizationDetector.useElectronBins d x 3 13
  let d ← d.setObservedBins [6131, 673, 252, 227, 198, 199, 189, 247, 230, 261, 249, 329, 336]
  .ok (cache, d, x)

/-- `DarkSide50_S2_ER_2023`, `src/Experiments.cpp:186-202`; `DarkSide50_S2_Migdal_2023`, 417-433. -/
noncomputable def darkSide50S22023 (target : String) (cache : List Nucleus) :
    Outcome (List Nucleus × Detector × IonizationDetector) := do
  let (cache, d, x) ← S.makeIonization cache "DarkSide-50_S2_2023" (12306 * S.kg * S.day) target "Ar"
  let (d, x) ← IonizationDetector.useElectronBins d x 4 6
  let d ← d.setObservedBins [284, 324, 292, 285, 287, 360]
  let d ← d.setBackgroundBins [271.314, 284.115, 301.652, 318.913, 342.763, 369.199]
  .ok (cache, d, x)

/-- `PandaX_4T_S2_ER`, `src/Experiments.cpp:204-220`; `PandaX_4T_S2_Migdal`, 435-451. -/
noncomputable def pandaX4TS2 (target : String) (cache : List Nucleus) : Outcome (List Nucleus × Detector × IonizationDetector) := do
  let (cache, d, x) ← S.makeIonization cache "PandaX-4T_S2" (0.55 * S.tonne * S.M.year) target "Xe"
  let (d, x) ← IonizationDetector.useElectronBins d x 4 7
  let d := d.setFlatEfficiency 0.14
  let d ← d.setObservedBins [34, 14, 13, 7, 11, 12, 14]
  .ok (cache, d, x)

/-- `LZ_S2_ER`, `src/Experiments.cpp:222-236`; `LZ_S2_Migdal`, 453-467: the program ends after the detector was constructed. -/
noncomputable def lzS2 (target : String) (cache : List Nucleus) : Outcome (List Nucleus × Detector × IonizationDetector) := do
  let _ ← S.makeIonization cache "LZ_S2" (550 * S.kg * S.day) target "Ar"
  .exit

/-! ## Semiconductors -/

/-- `protoSENSEI_at_Surface`, `src/Experiments.cpp:239-254`. -/
noncomputable def protoSENSEISurface : Outcome (Detector × CrystalDetector) := do
  let (d, x) ← S.makeCrystal "protoSENSEI@surface" (0.07 * S.M.gram * 456 * S.minute) "Si"
  let (d, x) ← CrystalDetector.useQBins d x 1 5
  let d ← d.setObservedBins [140302, 4676, 131, 1, 0]
  let d ← d.setBinEfficiencies [0.668, 0.41, 0.32, 0.27, 0.24]
  .ok (d, x)

/-- `protoSENSEI_at_MINOS`, `src/Experiments.cpp:256-271`. -/
noncomputable def protoSENSEIMINOS : Outcome (Detector × CrystalDetector) := do
  let (d, x) ← S.makeCrystal "protoSENSEI@MINOS" (0.246 * S.M.gram * S.day) "Si"
  let (d, x) ← CrystalDetector.useQBins d x 1 3
  let d ← d.setObservedBins [8516, 87, 0]
  let d ← d.setBinEfficiencies [1, 0.62, 0.48]
  .ok (d, x)

/-- `SENSEI_at_MINOS`, `src/Experiments.cpp:273-288`. -/
noncomputable def senseiMINOS : Outcome (Detector × CrystalDetector) := do
  let (d, x) ← S.makeCrystal "SENSEI@MINOS" (9.1 * S.M.gram * S.day) "Si"
  let (d, x) ← CrystalDetector.useQBins d x 1 4
  let d ← d.setObservedBins [578, 5, 0, 0]
  let d ← d.setBinEfficiencies [1.38 / 9.1, 2.09 / 9.1, 9.03 / 9.1, 1]
  .ok (d, x)

/-- `CDMS_HVeV_2018`, `src/Experiments.cpp:290-307`. -/
noncomputable def cdmsHVeV2018 : Outcome (Detector × CrystalDetector) := do
  let (d, x) ← S.makeCrystal "CDMS-HVeV_2018" (0.487 * S.M.gram * S.day) "Si"
  let d := d.setFlatEfficiency 0.9545
  let (d, x) ← CrystalDetector.useQBins d x 1 6
  let d ← d.setObservedBins [53000, 400, 74, 18, 7, 14]
  let d ← d.setBinEfficiencies [0.88, 0.91, 0.91, 0.91, 0.91, 0.91]
  .ok (d, x)

/-- `CDMS_HVeV_2020`, `src/Experiments.cpp:309-322`. -/
noncomputable def cdmsHVeV2020 : Outcome (Detector × CrystalDetector) := do
  let (d, x) ← S.makeCrystal "CDMS-HVeV_2020" (1.2 * S.M.gram * S.day) "Si"
  let (d, x) ← CrystalDetector.useQBins d x 1 6
  let d ← d.setObservedBins [178800, 1320, 248, 64, 19, 6]
  .ok (d, x)

/-- `DAMIC_M_2023`, `src/Experiments.cpp:324-338`. -/
noncomputable def damicM2023 : Outcome (Detector × CrystalDetector) := do
  let (d, x) ← S.makeCrystal "DAMIC-M_2023" (0.4 * 85.23 * S.M.gram * S.day) "Si"
  let (d, x) ← CrystalDetector.useQBins d x 1 3
  let d ← d.setObservedBins [4216354, 11345, 19]
  .ok (d, x)

end Setup

end Obscura
