import Verif.Model.Experiments

/-!
# Configuration files — `src/Configuration.cpp`

The library libconfig is outside `/repo`. What is modelled of it: a parsed file assigns to some names a setting with a type; looking
up a missing name throws `SettingNotFoundException`, which the code turns into an exit; reading a setting as another type throws
`SettingTypeException`, which nothing catches, so that the program ends too; an index out of range is a missing setting; a negative
integer read as `unsigned int` gives 0. All these failures are the outcome `exit`.
`Print_Summary_Base` is in `Model/Summary`. The constructor without arguments (`src/Configuration.cpp:25-28`), which the
program does not use, is in `Model/ManualConfiguration`.
-/

namespace Obscura

/-- A libconfig setting (groups are not used by the code). Read in `src/Configuration.cpp:56-816`. -/
inductive Setting where
  | int (n : ℤ)
  | float (x : ℝ)
  | bool (b : Bool)
  | string (s : String)
  | list (l : List Setting)

namespace Setting

/-- Conversion to `double`. As in `src/Configuration.cpp:157`. -/
def toDouble : Setting → Outcome ℝ
  | .float x => .ok x
  | _ => .exit

/-- Conversion to `int`. As in `src/Configuration.cpp:547`. -/
def toInt : Setting → Outcome ℤ
  | .int n => .ok n
  | _ => .exit

/-- Conversion to `unsigned int`. As in `src/Configuration.cpp:601`. -/
def toUInt : Setting → Outcome ℕ
  | .int n => .ok n.toNat
  | _ => .exit

/-- Conversion to `bool`. As in `src/Configuration.cpp:185`. -/
def toBool : Setting → Outcome Bool
  | .bool b => .ok b
  | _ => .exit

/-- `c_str()`. As in `src/Configuration.cpp:56`. -/
def toStr : Setting → Outcome String
  | .string s => .ok s
  | _ => .exit

/-- `getLength()`. As in `src/Configuration.cpp:376,543`. -/
def length : Setting → ℕ
  | .list l => l.length
  | _ => 0

/-- `setting[i]`. As in `src/Configuration.cpp:288-289,383,546-547`. -/
def index (s : Setting) (i : ℕ) : Outcome Setting :=
  match s with
  | .list l => match l[i]? with
    | some x => .ok x
    | none => .exit
  | _ => .exit

end Setting

/-- The parsed configuration file. The member `config`, `include/obscura/Configuration.hpp:17`. -/
abbrev Config := String → Option Setting

namespace Config

/-- `config.lookup(name)`. As in `src/Configuration.cpp:56`. -/
def lookup (c : Config) (name : String) : Outcome Setting :=
  match c name with
  | some s => .ok s
  | none => .exit

/-- A lookup followed by the conversion to `double`. As in `src/Configuration.cpp:157`. -/
def getDouble (c : Config) (name : String) : Outcome ℝ := do
  let s ← c.lookup name
  s.toDouble

/-- A lookup followed by the conversion to `unsigned int`. As in `src/Configuration.cpp:601`. -/
def getUInt (c : Config) (name : String) : Outcome ℕ := do
  let s ← c.lookup name
  s.toUInt

/-- A lookup followed by the conversion to `bool`. As in `src/Configuration.cpp:185`. -/
def getBool (c : Config) (name : String) : Outcome Bool := do
  let s ← c.lookup name
  s.toBool

/-- A lookup followed by `c_str()`. As in `src/Configuration.cpp:197`. -/
def getString (c : Config) (name : String) : Outcome String := do
  let s ← c.lookup name
  s.toStr

/-- `config.lookup(name)[i]` read as `double`. As in `src/Configuration.cpp:288-289`. -/
def getEntry (c : Config) (name : String) (i : ℕ) : Outcome ℝ := do
  let s ← c.lookup name
  let e ← s.index i
  e.toDouble

/-! ## The particle -/

variable (U : Units)

/-- The SI part of `Construct_DM_Particle_Standard`, `src/Configuration.cpp:225-258`. -/
noncomputable def particleSI (c : Config) : Outcome DMParticle := do
  let p ← DMParticle.makeSI1 U (10 * U.GeV)
  let ff ← c.getString "DM_form_factor"
  let mMed ← if ff = "General" then do
      let m ← c.getDouble "DM_mediator_mass"
      if m * U.MeV < 1 / 10 ^ 60 then .exit else .ok (m * U.MeV)
    else .ok (-1)
  p.setFormFactorDM ff mMed

/-- The relative couplings, `src/Configuration.cpp:268-296`. -/
noncomputable def relativeCouplings (c : Config) : Outcome (ℝ × ℝ) := do
  let conserved ← c.getBool "DM_isospin_conserved"
  if conserved = true then .ok (1, 1)
  else do
    let a ← c.getEntry "DM_relative_couplings" 0
    let b ← c.getEntry "DM_relative_couplings" 1
    .ok (a, b)

/-- `Construct_DM_Particle_Standard`, `src/Configuration.cpp:220-324`, for "SI" and "SD". -/
noncomputable def particleStandard (c : Config) (interaction : String) : Outcome DMParticle := do
  let p ← if interaction = "SI" then c.particleSI U else DMParticle.makeSD1 U (10 * U.GeV)
  let (a, b) ← c.relativeCouplings
  let p ← p.fixCouplingRatio a b
  let s ← c.getDouble "DM_cross_section_nucleon"
  let p ← p.setInteractionParameter U (s * (U.cm * U.cm)) "Nuclei"
  let se ← c.getDouble "DM_cross_section_electron"
  .ok (p.setSigmaElectron (se * (U.cm * U.cm)))

/-- `Construct_DM_Particle`, `src/Configuration.cpp:150-218`. -/
noncomputable def particle (c : Config) : Outcome DMParticle := do
  let m ← c.getDouble "DM_mass"
  let spin ← c.getDouble "DM_spin"
  let fraction ← c.getDouble "DM_fraction"
  let light ← c.getBool "DM_light"
  let interaction ← c.getString "DM_interaction"
  let p ← if interaction = "SI" ∨ interaction = "SD" then c.particleStandard U interaction else .exit
  let p ← p.setMass U (m * U.GeV)
  .ok (((p.setSpin spin).setFractionalDensity fraction).setLowMassMode light)

/-! ## The DM distribution -/

/-- The observer's velocity, `src/Configuration.cpp:374-384`. -/
noncomputable def observerVelocity (c : Config) : Outcome Vec := do
  let s ← c.lookup "SHM_vObserver"
  if s.length ≠ 3 then .exit
  else do
    let x ← c.getEntry "SHM_vObserver" 0
    let y ← c.getEntry "SHM_vObserver" 1
    let z ← c.getEntry "SHM_vObserver" 2
    .ok ![x * U.km / U.sec, y * U.km / U.sec, z * U.km / U.sec]

/-- `Construct_DM_Halo_Model`, `src/Configuration.cpp:350-426`. -/
noncomputable def haloModel (N : Numerics) (c : Config) (label : String) : Outcome Distribution := do
  let rho ← c.getDouble "DM_local_density"
  let v0 ← c.getDouble "SHM_v0"
  let vel ← c.observerVelocity U
  let vesc ← c.getDouble "SHM_vEscape"
  if label = "SHM" then
    .ok (Distribution.ofSHM (SHM.makeVel (rho * (U.GeV / U.cm / U.cm / U.cm)) (v0 * (U.km / U.sec)) vel (vesc * (U.km / U.sec))))
  else do
    let eta ← c.getDouble "SHMpp_eta"
    let beta ← c.getDouble "SHMpp_beta"
    .ok (Distribution.ofSHMpp N
      (SHMpp.makeVel N (rho * (U.GeV / U.cm / U.cm / U.cm)) (v0 * (U.km / U.sec)) vel (vesc * (U.km / U.sec)) eta beta))

/-- `Construct_Imported_Distribution`, `src/Configuration.cpp:428-452`. `speeds` gives the tabulated distribution in a file, in
natural units. -/
noncomputable def importedDistribution (N : Numerics) (speeds : String → Option (List ℝ × List ℝ)) (c : Config) :
    Outcome Distribution := do
  let rho ← c.getDouble "DM_local_density"
  let path ← c.getString "file_path"
  match speeds path with
  | none => .exit
  | some (xs, ys) => Distribution.imported N.integrate N.interpolate true (rho * (U.GeV / U.cm / U.cm / U.cm)) xs ys

/-- `Construct_DM_Distribution`, `src/Configuration.cpp:326-348`. -/
noncomputable def distribution (N : Numerics) (speeds : String → Option (List ℝ × List ℝ)) (c : Config) : Outcome Distribution := do
  let kind ← c.getString "DM_distribution"
  if kind = "SHM" ∨ kind = "SHM++" then c.haloModel U N kind
  else if kind = "File" then c.importedDistribution U N speeds
  else .exit

end Config

/-! ## The detector -/

/-- A `DM_Detector*`: the concrete class, its base class members and its own members.
The member `DM_detector`, `include/obscura/Configuration.hpp:54`. -/
inductive AnyDetector where
  | nuclear (d : Detector) (x : NuclearDetector)
  | electronRecoil (d : Detector) (x : IonizationDetector)
  | migdal (d : Detector) (x : IonizationDetector)
  | crystal (d : Detector) (x : CrystalDetector)

namespace AnyDetector

/-- The members of the base class. `include/obscura/Direct_Detection.hpp:14-60`. -/
def base : AnyDetector → Detector
  | .nuclear d _ => d
  | .electronRecoil d _ => d
  | .migdal d _ => d
  | .crystal d _ => d

/-- The virtual functions of the object. `include/obscura/Direct_Detection.hpp:71-77`. -/
noncomputable def toClass (U : Units) (T : Tools) (h : Distribution) : AnyDetector → DetectorClass
  | .nuclear _ x => x.toClass U T h
  | .electronRecoil _ x => x.toClass U (shellRateER U T.integrate h) T h
  | .migdal _ x => x.toClass U (shellRateMigdal U T.integrate h) T h
  | .crystal _ x => x.toClass U T h

end AnyDetector

namespace Config

variable (S : Setup)

/-- The loop over the targets of a user-defined nuclear detector, `src/Configuration.cpp:543-550`: abundances and nuclei of the
entries `j, j+1, …`, `n` of them. -/
noncomputable def targets (c : Config) : ℕ → ℕ → List Nucleus → Outcome (List Nucleus × List ℝ × List Nucleus)
  | _, 0, cache => .ok (cache, [], [])
  | j, n + 1, cache => do
    let s ← c.lookup "DD_targets_nuclear"
    let entry ← s.index j
    let first ← entry.index 0
    let abund ← first.toDouble
    let second ← entry.index 1
    let Z ← second.toInt
    let (cache, nucleus) ← getNucleus S.U S.files.nuclear cache (toUInt32 Z)
    let (cache, abunds, nuclei) ← targets c (j + 1) n cache
    .ok (cache, abund :: abunds, nucleus :: nuclei)

/-- The resolution is set if it is positive, `src/Configuration.cpp:632-633`. -/
noncomputable def configuredResolution (x : NuclearDetector) (res : ℝ) : NuclearDetector :=
  open Classical in
  if 0 < res then x.setResolution res else x

/-- `Construct_DM_Detector_Nuclear`, `src/Configuration.cpp:537-634`. -/
noncomputable def nuclearDetector (c : Config) (cache : List Nucleus) : Outcome (List Nucleus × AnyDetector) := do
  let l ← c.lookup "DD_targets_nuclear"
  let (cache, abunds, nuclei) ← c.targets S 0 l.length cache
  let thr ← c.getDouble "DD_threshold_nuclear"
  let emax ← c.getDouble "DD_Emax_nuclear"
  let expo ← c.getDouble "DD_exposure"
  let eff ← c.getDouble "DD_efficiency"
  let obs ← c.getUInt "DD_observed_events"
  let bkg ← c.getDouble "DD_expected_background"
  let res ← c.getDouble "DD_energy_resolution"
  let (d, x) ← NuclearDetector.make "Nuclear recoil" (expo * (S.kg * S.M.year)) nuclei abunds
  let d := d.setFlatEfficiency eff
  let d ← d.useEnergyThreshold (thr * S.U.keV) (emax * S.U.keV)
  let d ← d.setObserved obs
  let d ← d.setBackground bkg
  .ok (cache, .nuclear d (configuredResolution x (res * S.U.keV)))

/-- `Construct_DM_Detector_Ionization`, `src/Configuration.cpp:636-705`, for "Electron recoil" and "Migdal". -/
noncomputable def ionizationDetector (c : Config) (kind : String) (cache : List Nucleus) : Outcome (List Nucleus × AnyDetector) := do
  let atom ← c.getString "DD_target_electron"
  let thr ← c.getUInt "DD_threshold_electron"
  let expo ← c.getDouble "DD_exposure"
  let eff ← c.getDouble "DD_efficiency"
  let obs ← c.getUInt "DD_observed_events"
  let bkg ← c.getDouble "DD_expected_background"
  let (cache, d, x) ← S.makeIonization cache kind (expo * (S.kg * S.M.year))
    (if kind = "Electron recoil" then "Electrons" else "Nuclei") atom
  let d := d.setFlatEfficiency eff
  let (d, x) ← IonizationDetector.useElectronThreshold d x thr 0
  let d ← d.setObserved obs
  let d ← d.setBackground bkg
  .ok (cache, if kind = "Electron recoil" then .electronRecoil d x else .migdal d x)

/-- `Construct_DM_Detector_Crystal`, `src/Configuration.cpp:707-773`. -/
noncomputable def crystalDetector (c : Config) : Outcome AnyDetector := do
  let target ← c.getString "DD_target_electron"
  let thr ← c.getUInt "DD_threshold_electron"
  let expo ← c.getDouble "DD_exposure"
  let eff ← c.getDouble "DD_efficiency"
  let obs ← c.getUInt "DD_observed_events"
  let bkg ← c.getDouble "DD_expected_background"
  let (d, x) ← S.makeCrystal "Semiconductor" (expo * (S.kg * S.M.year)) target
  let d := d.setFlatEfficiency eff
  let (d, x) := CrystalDetector.useQThreshold d x thr
  let d ← d.setObserved obs
  let d ← d.setBackground bkg
  .ok (.crystal d x)

/-- A predefined nuclear recoil experiment. `src/Configuration.cpp:476-485`. -/
def asNuclear (r : Outcome (List Nucleus × Detector × NuclearDetector)) : Outcome (List Nucleus × AnyDetector) := do
  let (cache, d, x) ← r
  .ok (cache, .nuclear d x)

/-- A predefined electron recoil experiment. `src/Configuration.cpp:487-500`. -/
def asER (r : Outcome (List Nucleus × Detector × IonizationDetector)) : Outcome (List Nucleus × AnyDetector) := do
  let (cache, d, x) ← r
  .ok (cache, .electronRecoil d x)

/-- A predefined Migdal experiment. `src/Configuration.cpp:502-515`. -/
def asMigdal (r : Outcome (List Nucleus × Detector × IonizationDetector)) : Outcome (List Nucleus × AnyDetector) := do
  let (cache, d, x) ← r
  .ok (cache, .migdal d x)

/-- A predefined semiconductor experiment. `src/Configuration.cpp:517-528`. -/
def asCrystal (cache : List Nucleus) (r : Outcome (Detector × CrystalDetector)) : Outcome (List Nucleus × AnyDetector) := do
  let (d, x) ← r
  .ok (cache, .crystal d x)

/-- The dispatch of `Construct_DM_Detector`, `src/Configuration.cpp:467-534`. -/
noncomputable def selectDetector (c : Config) (cache : List Nucleus) (name : String) : Outcome (List Nucleus × AnyDetector) :=
  if name = "Nuclear recoil" then c.nuclearDetector S cache
  else if name = "Electron recoil" ∨ name = "Migdal" then c.ionizationDetector S name cache
  else if name = "Semiconductor" then do
    let d ← c.crystalDetector S
    .ok (cache, d)
  else if name = "DAMIC_N_2011" then asNuclear (S.damicN2011 cache)
  else if name = "XENON1T_N_2017" then asNuclear (S.xenon1TN2017 cache)
  else if name = "CRESST-II" then asNuclear (S.cresstII cache)
  else if name = "CRESST-surface" then asNuclear (S.cresstSurface cache)
  else if name = "CRESST-III" then asNuclear (S.cresstIII cache)
  else if name = "XENON10_S2" then asER (S.xenon10S2 "Electrons" cache)
  else if name = "XENON100_S2" then asER (S.xenon100S2 "Electrons" cache)
  else if name = "XENON1T_S2" then asER (S.xenon1TS2 "Electrons" cache)
  else if name = "DarkSide-50_S2" then asER (S.darkSide50S2 "Electrons" cache)
  else if name = "DarkSide-50_S2_2023" then asER (S.darkSide50S22023 "Electrons" cache)
  else if name = "PandaX-4T_S2" then asER (S.pandaX4TS2 "Electrons" cache)
  else if name = "LZ_S2" then asER (S.lzS2 "Electrons" cache)
  else if name = "XENON10_S2_Migdal" then asMigdal (S.xenon10S2 "Nuclei" cache)
  else if name = "XENON100_S2_Migdal" then asMigdal (S.xenon100S2 "Nuclei" cache)
  else if name = "XENON1T_S2_Migdal" then asMigdal (S.xenon1TS2 "Nuclei" cache)
  else if name = "DarkSide-50_S2_Migdal" then asMigdal (S.darkSide50S2 "Nuclei" cache)
  else if name = "DarkSide-50_S2_Migdal_2023" then asMigdal (S.darkSide50S22023 "Nuclei" cache)
  else if name = "PandaX-4T_S2_Migdal" then asMigdal (S.pandaX4TS2 "Nuclei" cache)
  else if name = "LZ_S2_Migdal" then asMigdal (S.lzS2 "Nuclei" cache)
  else if name = "protoSENSEI@surface" then asCrystal cache S.protoSENSEISurface
  else if name = "protoSENSEI@MINOS" then asCrystal cache S.protoSENSEIMINOS
  else if name = "SENSEI@MINOS" then asCrystal cache S.senseiMINOS
  else if name = "CDMS-HVeV_2018" then asCrystal cache S.cdmsHVeV2018
  else if name = "CDMS-HVeV_2020" then asCrystal cache S.cdmsHVeV2020
  else if name = "DAMIC-M_2023" then asCrystal cache S.damicM2023
  else .exit

/-- `Construct_DM_Detector`, `src/Configuration.cpp:454-535`, with the global table of nuclei before and after. -/
noncomputable def detector (c : Config) (cache : List Nucleus) : Outcome (List Nucleus × AnyDetector) := do
  let name ← c.getString "DD_experiment"
  c.selectDetector S cache name

end Config

/-! ## Files -/

/-- A name in a directory, or a path as it is written, as characters. As in `src/Configuration.cpp:63`. -/
abbrev Name := List Char

/-- A file or a directory. As used in `src/Configuration.cpp:68-109`. -/
inductive Node where
  | dir
  | file (content : List Char)
deriving DecidableEq

/-- The file system: what there is at a place, given by the names from the place up to the root. There are no links and no access
rights. As used in `src/Configuration.cpp:68-109`. -/
abbrev FileSystem := List Name → Option Node

namespace FileSystem

/-- Is there a directory? The root always is one. As used in `src/Configuration.cpp:79,87,102-103`. -/
def isDir (fs : FileSystem) (place : List Name) : Bool := place == [] || fs place == some .dir

/-- Follow the components of a path through directories. As used in `src/Configuration.cpp:79,87,102-103`. -/
def walk (fs : FileSystem) : List Name → List Name → Option (List Name)
  | at_, [] => some at_
  | at_, c :: cs =>
    if c = [] ∨ c = ['.'] then walk fs at_ cs
    else if c = ['.', '.'] then walk fs at_.tail cs
    else if fs.isDir (c :: at_) then walk fs (c :: at_) cs
    else none

/-- Where a path starts: at the root, or in the working directory. As used in `src/Configuration.cpp:79,87,102-103`. -/
def start (cwd : List Name) (path : Name) : List Name := if path.head? = some '/' then [] else cwd

/-- The place of a file or directory that a path denotes, whether it exists or not, provided that its directory exists; trailing
slashes are dropped first. As used in `src/Configuration.cpp:79,87,102-103`. -/
def locate (fs : FileSystem) (cwd : List Name) (path : Name) : Option (List Name) :=
  let comps := ((path.splitOn '/').reverse.dropWhile (· == [])).reverse
  match comps.getLast? with
  | none => none
  | some c => if c = ['.'] ∨ c = ['.', '.'] then none
    else (fs.walk (start cwd path) comps.dropLast).map fun parent => c :: parent

/-- `mkdir(path)`: nothing happens if there is something already or if the parent does not exist. Called in `src/Configuration.cpp:79,87`. -/
def mkdir (fs : FileSystem) (cwd : List Name) (path : Name) : FileSystem :=
  match fs.locate cwd path with
  | none => fs
  | some place => if fs place = none then Function.update fs place (some .dir) else fs

/-- The content seen by `std::ifstream(path)`; nothing if the file cannot be opened. As in `src/Configuration.cpp:102,105`. -/
def read (fs : FileSystem) (cwd : List Name) (path : Name) : Option (List Char) :=
  match fs.locate cwd path with
  | none => none
  | some place => match fs place with
    | some (.file t) => some t
    | _ => none

/-- `std::ofstream(path)` and writing a text: the file is replaced; nothing happens if it cannot be opened.
As in `src/Configuration.cpp:103-107`. -/
def write (fs : FileSystem) (cwd : List Name) (path : Name) (t : List Char) : FileSystem :=
  match fs.locate cwd path with
  | none => fs
  | some place => if fs place = some .dir then fs else Function.update fs place (some (.file t))

end FileSystem

/-- Where and how the program runs: the working directory, the directory `TOP_LEVEL_DIR` as written (with its final slash), the
header line written into copies. -/
structure Installation where
  cwd : List Name
  top : Name
  header : List Char

namespace Configuration

variable (R : Installation)

/-- `Create_Result_Folder`, `src/Configuration.cpp:68-95`. -/
def createResultFolder (fs : FileSystem) (ID : Name) (rank : ℤ) : FileSystem :=
  if rank = 0 then
    let fs := fs.mkdir R.cwd (R.top ++ "results".toList)
    fs.mkdir R.cwd (R.top ++ "results/".toList ++ ID ++ "/".toList)
  else fs

/-- `Copy_Config_File`, `src/Configuration.cpp:96-109`. The output file is opened, which empties it, and the header is written and
flushed, before the input is read. -/
def copyConfigFile (fs : FileSystem) (cfgFile ID : Name) (rank : ℤ) : FileSystem :=
  if rank = 0 then
    let out := R.top ++ "results/".toList ++ ID ++ "/".toList ++ ID ++ ".cfg".toList
    let fs := fs.write R.cwd out R.header
    match fs.read R.cwd cfgFile with
    | none => fs
    | some t => fs.write R.cwd out (R.header ++ t)
  else fs

/-- `Initialize_Result_Folder`, `src/Configuration.cpp:52-66`: the file system afterwards, and the ID. -/
def initializeResultFolder (fs : FileSystem) (c : Config) (cfgFile : Name) (rank : ℤ) : FileSystem × Outcome Name :=
  match c.getString "ID" with
  | .ok ID => (copyConfigFile R (createResultFolder R fs ID.toList rank) cfgFile ID.toList rank, .ok ID.toList)
  | .exit => (fs, .exit)
  | .ub => (fs, .ub)
  | .nonfinite => (fs, .nonfinite)

end Configuration

/-- The members of `Configuration`, `include/obscura/Configuration.hpp:14-54`. -/
structure Configuration where
  cfgFile : Name
  ID : Name
  resultsPath : Name
  particle : DMParticle
  distribution : Distribution
  detector : AnyDetector
  certainty : ℝ
  massMin : ℝ
  massMax : ℝ
  masses : ℕ

namespace Configuration

/-- `Initialize_Parameters`, `src/Configuration.cpp:775-816`. -/
def parameters (c : Config) : Outcome (ℝ × ℝ × ℝ × ℕ) := do
  let certainty ← c.getDouble "constraints_certainty"
  let massMin ← c.getDouble "constraints_mass_min"
  let massMax ← c.getDouble "constraints_mass_max"
  let masses ← c.getUInt "constraints_masses"
  .ok (certainty, massMin, massMax, masses)

/-- Steps 3 to 6 of the constructor, `src/Configuration.cpp:39-49`: they change no files. -/
noncomputable def build (R : Installation) (S : Setup) (N : Numerics) (speeds : String → Option (List ℝ × List ℝ)) (c : Config)
    (cache : List Nucleus) (cfgFile ID : Name) : Outcome (List Nucleus × Configuration) := do
  let p ← c.particle S.U
  let h ← c.distribution S.U N speeds
  let (cache, d) ← c.detector S cache
  let (certainty, massMin, massMax, masses) ← parameters c
  .ok (cache, { cfgFile := cfgFile, ID := ID, resultsPath := R.top ++ "results/".toList ++ ID ++ "/".toList, particle := p,
                distribution := h, detector := d, certainty := certainty, massMin := massMin, massMax := massMax, masses := masses })

/-- `Configuration(cfg_filename, MPI_rank)`, `src/Configuration.cpp:30-50`: the file system afterwards (also when the program ends),
the global table of nuclei and the object. `parse` is libconfig's parser (`none`: a syntax error);
both failures of `Read_Config_File` (132-148) end the program. -/
noncomputable def make (R : Installation) (S : Setup) (N : Numerics) (speeds : String → Option (List ℝ × List ℝ))
    (parse : List Char → Option Config) (fs : FileSystem) (cache : List Nucleus) (cfgFile : Name) (rank : ℤ) :
    FileSystem × Outcome (List Nucleus × Configuration) :=
  match (fs.read R.cwd cfgFile).bind parse with
  | none => (fs, .exit)
  | some c =>
    match initializeResultFolder R fs c cfgFile rank with
    | (fs, .ok ID) => (fs, build R S N speeds c cache cfgFile ID)
    | (fs, .exit) => (fs, .exit)
    | (fs, .ub) => (fs, .ub)
    | (fs, .nonfinite) => (fs, .nonfinite)

end Configuration

end Obscura
