import Verif.Model.Configuration

/-!
# Default constructors of the detectors
-/

namespace Obscura.Setup

variable (S : Setup)

/-- `DM_Detector_Nucleus::DM_Detector_Nucleus()`, `src/Direct_Detection_Nucleus.cpp:49-52`. -/
noncomputable def defaultNuclear (cache : List Nucleus) : Outcome (List Nucleus × AnyDetector) := do
  let (cache, n) ← getNucleus S.U S.files.nuclear cache 54
  .ok (cache, .nuclear (Detector.make "Nuclear recoil experiment" (S.kg * S.day) "Nuclei")
    { nuclei := [n], fractions := [1], resolution := 0, usingTables := false, efficiencies := [] })

/-- `DM_Detector_Ionization_ER::DM_Detector_Ionization_ER()`, `src/Direct_Detection_ER.cpp:62-63`. -/
noncomputable def defaultElectronRecoil (cache : List Nucleus) : Outcome (List Nucleus × AnyDetector) := do
  let (cache, d, x) ← S.makeIonization cache "Electron recoil experiment" (S.kg * S.day) "Electrons" "Xe"
  .ok (cache, .electronRecoil d x)

/-- `DM_Detector_Ionization_Migdal::DM_Detector_Ionization_Migdal()`, `src/Direct_Detection_Migdal.cpp:68-69`. -/
noncomputable def defaultMigdal (cache : List Nucleus) : Outcome (List Nucleus × AnyDetector) := do
  let (cache, d, x) ← S.makeIonization cache "Migdal scattering experiment" (S.kg * S.day) "Nuclei" "Xe"
  .ok (cache, .migdal d x)

/-- `DM_Detector_Crystal::DM_Detector_Crystal()`, `src/Direct_Detection_Crystal.cpp:100-103`. -/
noncomputable def defaultCrystal : Outcome AnyDetector := do
  let (d, x) ← S.makeCrystal "Crystal experiment" (S.M.gram * S.M.year) "Si"
  .ok (.crystal d x)

/-- `DM_Detector_Ionization_ER(label, expo, atoms, mass_fractions)`, `src/Direct_Detection_ER.cpp:66-69`. -/
noncomputable def electronRecoilMixture (cache : List Nucleus) (label : String) (expo : ℝ) (atoms : List String) (given : List ℝ) :
    Outcome (List Nucleus × AnyDetector) := do
  let (cache, d, x) ← IonizationDetector.make S.U S.P S.files.response S.files.nuclear cache label expo "Electrons" atoms given
  .ok (cache, .electronRecoil d x)

/-- `DM_Detector_Ionization_Migdal(label, expo, atoms, mass_fractions)`, `src/Direct_Detection_Migdal.cpp:72-73`. -/
noncomputable def migdalMixture (cache : List Nucleus) (label : String) (expo : ℝ) (atoms : List String) (given : List ℝ) :
    Outcome (List Nucleus × AnyDetector) := do
  let (cache, d, x) ← IonizationDetector.make S.U S.P S.files.response S.files.nuclear cache label expo "Nuclei" atoms given
  .ok (cache, .migdal d x)

end Obscura.Setup
