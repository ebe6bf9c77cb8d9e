import Verif.Model.AverageVelocity
import Verif.Model.Configuration

/-!
# Summaries on the terminal — the functions `Print_Summary`

Each `<<` to the standard output is one entry of a list; `std::endl` is the text `"\n"`. The number format of the standard library is
not modelled, and neither is `libphysica::Round` (outside `/repo`), which rounds to three significant digits: `Printed.rounded x` is
the rounded value of `x`. `In_Units(x, u)` (outside `/repo`) is `x / u`.
-/

namespace Obscura

/-- One thing written to the standard output. As in `src/Configuration.cpp:115-128`. -/
inductive Printed where
  | text (s : String)
  | real (x : ℝ)
  | rounded (x : ℝ)
  | nat (n : ℕ)
  | vector (v : Vec)
  /-- a value that is not a finite number -/
  | nan

/-- A check box, as in `src/DM_Particle.cpp:96`. -/
def checkbox (b : Bool) : Printed := .text (if b then "[x]" else "[ ]")

/-- The line between summaries, as in `src/DM_Particle.cpp:89`. -/
def ruler : String := "----------------------------------------"

/-- `SEPARATOR`, `include/version.hpp.in:5`. -/
def separator : String := "\n##############################################################\n"

/-! ## Particles -/

/-- The unit in which a mass is printed and its name, `src/DM_Particle.cpp:92-93` and `src/DM_Particle_Standard.cpp:493-494`. -/
noncomputable def massUnit (U : Units) (m : ℝ) : ℝ × String :=
  open Classical in
  if m < U.keV then (U.eV, "eV")
  else if m < U.MeV then (U.keV, "keV")
  else if m < U.GeV then (U.MeV, "MeV")
  else (U.GeV, "GeV")

namespace DMParticle

variable (U : Units)

/-- `DM_Particle::Print_Summary_Base`, `src/DM_Particle.cpp:84-98`; the virtual `DM_Particle::Print_Summary` (122-125) only calls it. -/
noncomputable def printBase (p : DMParticle) (rank : ℤ) : List Printed :=
  if rank = 0 then
    [.text "\n", .text ruler, .text "\n", .text "DM particle summary:", .text "\n",
     .text "\tMass:\t\t\t", .real (p.mass / (massUnit U p.mass).1), .text " ", .text (massUnit U p.mass).2, .text "\n",
     .text "\tSpin:\t\t\t", .real p.spin, .text "\n",
     .text "\tLow mass:\t\t", checkbox p.lowMass, .text "\n"]
  else []

/-- The name and the value of the printed ratio of couplings, `src/DM_Particle_Standard.cpp:222`; `0/0` is not a number. -/
noncomputable def printedRatio (p : DMParticle) : List Printed :=
  open Classical in
  if p.fp ≠ 0 then [.text "fn/fp = ", .rounded (p.fn / p.fp)]
  else if p.fn ≠ 0 then [.text "fp/fn = ", .rounded (p.fp / p.fn)]
  else [.text "fp/fn = ", .nan]

/-- `DM_Particle_Standard::Print_Summary_Standard`, `src/DM_Particle_Standard.cpp:214-230`. -/
noncomputable def printStandard (p : DMParticle) (rank : ℤ) : List Printed :=
  open Classical in
  if rank = 0 then
    [.text "\tCoupling ratio fixed:\t", checkbox p.fixedRelation, .text "\n",
     .text "\tIsospin conservation:\t", checkbox (decide (p.fn = p.fp)), .text "\n"] ++
    (if p.fixedRelation then [.text "\tCoupling ratio:\t\t"] ++ p.printedRatio ++ [.text "\n", .text "\n"] else []) ++
    [.text "\tSigma_P[cm^2]:\t\t", .rounded (p.sigmaProton U / (U.cm * U.cm)), .text "\n",
     .text "\tSigma_N[cm^2]:\t\t", .rounded (p.sigmaNeutron U / (U.cm * U.cm)), .text "\n",
     .text "\tSigma_E[cm^2]:\t\t", .rounded (p.sigmaElectron / (U.cm * U.cm)), .text "\n", .text "\n"]
  else []

/-- The name of a form factor, the values of `FF_DM`, `src/DM_Particle_Standard.cpp:257`. -/
def formFactorName : FormFactor → String
  | .contact => "Contact"
  | .electricDipole => "Electric-Dipole"
  | .longRange => "Long-Range"
  | .general => "General"

/-- `DM_Particle_SI::Print_Summary`, `src/DM_Particle_Standard.cpp:481-499`. -/
noncomputable def printSI (p : DMParticle) (ff : FormFactor) (mMediator : ℝ) (rank : ℤ) : List Printed :=
  if rank = 0 then
    p.printBase U 0 ++ [.text "\n", .text "\tInteraction:\t\tSpin-Independent (SI)", .text "\n", .text "\n"] ++ p.printStandard U 0 ++
    [.text "\tInteraction type:\t", .text (formFactorName ff), .text "\n"] ++
    (if ff = .general then [.text "\t\tMediator mass:\t", .real (mMediator / (massUnit U mMediator).1), .text " ",
        .text (massUnit U mMediator).2, .text "\n"] else []) ++
    [.text ruler, .text "\n"]
  else []

/-- `DM_Particle_SD::Print_Summary`, `src/DM_Particle_Standard.cpp:589-600`. -/
noncomputable def printSD (p : DMParticle) (rank : ℤ) : List Printed :=
  if rank = 0 then
    p.printBase U rank ++ [.text "Interaction:\t\tSpin-Dependent (SD)", .text "\n", .text "\n"] ++ p.printStandard U 0 ++
    [.text ruler, .text "\n", .text "\n"]
  else []

/-- `Print_Summary` of a particle, by its class. `src/DM_Particle_Standard.cpp:481-499,589-600`. -/
noncomputable def printSummary (p : DMParticle) (rank : ℤ) : List Printed :=
  match p.interaction with
  | .SI ff _ mMediator => p.printSI U ff mMediator rank
  | .SD => p.printSD U rank

end DMParticle

/-! ## Distributions -/

/-- `DM_Distribution::Print_Summary_Base`, `src/DM_Distribution.cpp:146-156` (the virtual `Print_Summary`, 158-162, calls it on rank 0), for a distribution with the given name and mean velocity.
`Average_Speed()` has the default argument `-1` (`include/obscura/DM_Distribution.hpp:44`). -/
noncomputable def Distribution.printBase (U : Units) (I : Integrator) (d : Distribution) (name : String) (mean : Vec) : Outcome (List Printed) := do
  let speed ← d.averageSpeed I (-1)
  .ok [.text "Dark matter distribution - Summary", .text "\n", .text "\t", .text name, .text "\n", .text "\n",
    .text "\tLocal DM density[GeV/cm^3]:\t", .real (d.density / (U.GeV / U.cm / U.cm / U.cm)), .text "\n",
    .text "\tSpeed domain [km/sec]:\t\t[", .rounded (d.vMin / (U.km / U.sec)), .text ",", .rounded (d.vMax / (U.km / U.sec)), .text "]", .text "\n",
    .text "\tAverage DM velocity [km/sec]:\t", .vector ((1 / (U.km / U.sec)) • mean), .text "\n",
    .text "\tAverage DM speed [km/sec]:\t", .rounded (speed / (U.km / U.sec)), .text "\n", .text "\n"]

/-- `Imported_DM_Distribution::Print_Summary`, `src/DM_Distribution.cpp:241-249`, for an object with this name and path. -/
noncomputable def Distribution.printImported (U : Units) (I : Integrator) (I3 : Integrator3) (d : Distribution) (name path : String) (rank : ℤ) :
    Outcome (List Printed) :=
  if rank = 0 then do
    let base ← d.printBase U I name (d.averageVelocity I3)
    .ok (base ++ [.text "\tFile path:\t", .text path, .text "\n", .text "\n"])
  else .ok []

/-- `Standard_Halo_Model::Print_Summary_SHM`, `src/DM_Halo_Models.cpp:158-165`. -/
noncomputable def SHM.printSHM (U : Units) (s : SHM) : List Printed :=
  [.text "\tSpeed dispersion v_0[km/sec]:\t", .real (s.v0 / (U.km / U.sec)), .text "\n",
   .text "\tGal. escape velocity [km/sec]:\t", .real (s.vEsc / (U.km / U.sec)), .text "\n",
   .text "\tObserver's velocity [km/sec]:\t", .vector ((1 / (U.km / U.sec)) • s.velObs), .text "\n",
   .text "\tObserver's speed [km/sec]:\t", .rounded (s.vObs / (U.km / U.sec)), .text "\n", .text "\n"]

/-- `Standard_Halo_Model::Print_Summary`, `src/DM_Halo_Models.cpp:167-174`. -/
noncomputable def SHM.printSummary (U : Units) (I : Integrator) (I3 : Integrator3) (s : SHM) (name : String) (rank : ℤ) :
    Outcome (List Printed) :=
  if rank = 0 then do
    let base ← (Distribution.ofSHM s).printBase U I name (s.averageVelocity I3)
    .ok (base ++ s.printSHM U)
  else .ok []

/-- `SHM_Plus_Plus::Print_Summary`, `src/DM_Halo_Models.cpp:252-257,333-341`. -/
noncomputable def SHMpp.printSummary (U : Units) (N : Numerics) (I3 : Integrator3) (s : SHMpp) (rank : ℤ) : Outcome (List Printed) :=
  if rank = 0 then do
    let base ← (Distribution.ofSHMpp N s).printBase U N.integrate "Refined Standard Halo Model (SHM++)" (s.averageVelocity I3)
    .ok (base ++ s.toSHM.printSHM U ++
      [.text "\tEta parameter:\t", .real s.etaS, .text "\n", .text "\tBeta parameter:\t", .real s.beta, .text "\n", .text "\n"])
  else .ok []

/-- `Imported_DM_Distribution::Check_Normalization`, `src/DM_Distribution.cpp:183-189`: is a warning printed? `norm` is the integral of
the interpolated table over its domain. `libphysica::Relative_Difference(a, b)` (outside `/repo`) is `|a - b| / max(|a|, |b|)`. -/
noncomputable def warnsNormalization (norm : ℝ) : Bool :=
  open Classical in
  decide (1 / 1000 < |norm - 1| / max |norm| |1|)

/-! ## Nuclei and atoms -/

/-- `Isotope::Print_Summary`, `src/Target_Nucleus.cpp:61-65`; the name is made in the constructor (40). -/
noncomputable def Isotope.printSummary (iso : Isotope) (rank : ℕ) : List Printed :=
  if rank = 0 then
    [.text (nucleusNames.getD (iso.Z - 1) "" ++ "-" ++ toString iso.A), .text "\t", .nat iso.Z, .text "\t", .nat iso.A, .text "\t",
     .rounded (100 * iso.abundance), .text "\t\t", .real iso.spin, .text "\t", .real iso.sp, .text "\t", .real iso.sn, .text "\n"]
  else []

/-- `Nucleus::Print_Summary`, `src/Target_Nucleus.cpp:103-120`. -/
noncomputable def Nucleus.printSummary (U : Units) (n : Nucleus) (rank : ℕ) : List Printed :=
  if rank = 0 then
    [.text "\n", .text n.name, .text "\n", .text "Isotope\tZ\tA\tAbund.[%]\tSpin\t<sp>\t<sn>", .text "\n",
     .text "------------------------------------------------------------", .text "\n"] ++
    n.isotopes.flatMap (fun iso => iso.printSummary rank) ++
    [.text "Total:\t\t", .rounded (n.averageMass / U.mNucleon), .text "\t",
     .real (n.isotopes.foldl (fun (t : ℝ) iso => t + 100 * iso.abundance) 0), .text "\n", .text "\n"]
  else []

/-- `Atomic_Electron::Print_Summary`, `src/Target_Atom.cpp:99-103`. -/
noncomputable def AtomicElectron.printSummary (U : Units) (e : AtomicElectron) (rank : ℕ) : List Printed :=
  if rank = 0 then [.text e.name, .text "\t", .real (e.binding / U.eV), .text "\t\t", .nat e.secondaries, .text "\n"] else []

/-- `Atom::Print_Summary`, `src/Target_Atom.cpp:178-194`. The atomic number may be uninitialised. -/
noncomputable def Atom.printSummary (U : Units) (a : Atom) (rank : ℕ) : Outcome (List Printed) :=
  if rank = 0 then do
    let Z ← readMember a.nucleus.Z
    .ok ([.text "Atom:\t\t", .text a.nucleus.name, .text "\n", .text "Z:\t\t", .nat Z, .text "\n",
      .text "Mass [GeV]:\t", .real a.nucleus.averageMass, .text "\n", .text "W [eV]:\t\t", .real (a.W / U.eV), .text "\n",
      .text "Electron orbitals:", .text "\n", .text "\tOrbital\tE_Binding [eV]\tSecondary electrons", .text "\n"] ++
      a.electrons.flatMap (fun e => .text "\t" :: e.printSummary U 0))
  else .ok []

/-! ## Detectors -/

/-- The text of `statistical_analysis`, `src/Direct_Detection.cpp:133,174,241`. -/
def Analysis.label : Analysis → String
  | .poisson => "Poisson"
  | .binnedPoisson => "Binned Poisson"
  | .maximumGap => "Maximum Gap"

namespace Detector

variable (S : Setup)

/-- One row of the table of bins, `src/Direct_Detection.cpp:488`. -/
noncomputable def printBin (d : Detector) (i : ℕ) : Outcome (List Printed) := do
  let eff ← vecGet d.binEfficiencies i
  let n ← vecGet d.binObserved i
  let b ← vecGet d.binBackground i
  .ok [.text "\t\t", .nat (i + 1), .text "\t", .real (100 * eff), .text "\t\t", .nat n, .text "\t\t", .real b, .text "\n"]

/-- One row of the table of energy bins, `src/Direct_Detection.cpp:498`. -/
noncomputable def printEnergyBin (U : Units) (d : Detector) (i : ℕ) : Outcome (List Printed) := do
  let lo ← vecGet d.binEnergies i
  let hi ← vecGet d.binEnergies (i + 1)
  .ok [.text "\t\t", .nat (i + 1), .text "\t[", .rounded (lo / U.keV), .text ",", .rounded (hi / U.keV), .text ")", .text "\n"]

/-- The part about the bins, `src/Direct_Detection.cpp:481-491`. -/
noncomputable def printBins (d : Detector) : Outcome (List Printed) :=
  if d.analysis = .binnedPoisson then
    if d.binObserved = [] then .ok [.text "\t\tNumber of bins:\t", .nat d.bins, .text "\n"]
    else do
      let rows ← collect d.printBin (List.range d.binObserved.length)
      .ok ([.text "\t\tNumber of bins:\t", .nat d.bins, .text "\n",
        .text "\t\tBin\tEfficiency[%]\tObserved events\tExpected background", .text "\n"] ++ rows.flatten)
  else .ok []

/-- The part about the energy bins, `src/Direct_Detection.cpp:493-500`. -/
noncomputable def printEnergyBins (U : Units) (d : Detector) : Outcome (List Printed) :=
  if d.usingEnergyBins then do
    let rows ← collect (d.printEnergyBin U) (List.range d.bins)
    .ok ([.text "\n\t\tBin\tBin range [keV]", .text "\n"] ++ rows.flatten)
  else .ok []

/-- `DM_Detector::Print_Summary_Base`, `src/Direct_Detection.cpp:468-503`. -/
noncomputable def printBase (d : Detector) (rank : ℤ) : Outcome (List Printed) :=
  if rank = 0 then do
    let bins ← d.printBins
    let energyBins ← d.printEnergyBins S.U
    .ok ([.text "\n", .text ruler, .text "\n", .text "Experiment summary:\t", .text d.name, .text "\n",
      .text "\tTarget particles:\t", .text d.targets, .text "\n",
      .text "\tExposure [kg year]:\t", .rounded (d.exposure / (S.kg * S.M.year)), .text "\n",
      .text "\tFlat efficiency [%]:\t", .rounded (100 * d.flatEfficiency), .text "\n",
      .text "\tObserved events:\t", .nat d.observed, .text "\n",
      .text "\tExpected background:\t", .real d.background, .text "\n",
      .text "\tStatistical analysis:\t", .text d.analysis.label, .text "\n"] ++ bins ++
      (if d.usingEnergyThreshold || d.usingEnergyBins || decide (d.analysis = .maximumGap) then
        [.text "\tRecoil energies [keV]:\t[", .rounded (d.energyThreshold / S.U.keV), .text ",", .rounded (d.energyMax / S.U.keV),
         .text "]", .text "\n"] else []) ++ energyBins ++ [.text "\n"])
  else .ok []

end Detector

/-- `DM_Detector_Nucleus::Print_Summary`, `src/Direct_Detection_Nucleus.cpp:191-211`. -/
noncomputable def NuclearDetector.printSummary (S : Setup) (d : Detector) (x : NuclearDetector) (rank : ℤ) : Outcome (List Printed) :=
  if rank = 0 then do
    let base ← d.printBase S rank
    let rows ← collect (fun i => do
      let n ← vecGet x.nuclei i
      let f ← vecGet x.fractions i
      .ok [.text "\t\t", .text n.name, .text "\t", .rounded (100 * f), .text "%", .text "\n"]) (List.range x.nuclei.length)
    .ok (base ++ [.text "\n", .text "\tNuclear recoil experiment.", .text "\n", .text "\tNuclear targets:", .text "\n",
      .text "\t\tNucl.\tabund.", .text "\n"] ++ rows.flatten ++
      [.text "\tThreshold [keV]:\t", .real (d.energyThreshold / S.U.keV), .text "\n",
       .text "\tER_max [keV]:\t\t", .real (d.energyMax / S.U.keV), .text "\n",
       .text "\tER resolution [keV]:\t", .real (x.resolution / S.U.keV), .text "\n", .text ruler, .text "\n", .text "\n"])
  else .ok []

namespace IonizationDetector

/-- One row of the table of photoelectron bins, `src/Direct_Detection_Ionization.cpp:408`. -/
noncomputable def printS2Bin (x : IonizationDetector) (i : ℕ) : Outcome (List Printed) := do
  let lo ← vecGet x.s2Bins i
  let hi ← vecGet x.s2Bins (i + 1)
  .ok [.text "\t\t", .nat (i + 1), .text "\t[", .nat lo, .text ",", .nat hi, .text ")", .text "\n"]

/-- The part about electrons and photoelectrons, `src/Direct_Detection_Ionization.cpp:397-416`. -/
noncomputable def printAnalysis (d : Detector) (x : IonizationDetector) : Outcome (List Printed) :=
  if x.usingS2Bins || x.usingS2Threshold then do
    let rows ← if x.usingS2Bins then collect x.printS2Bin (List.range d.bins) else .ok []
    .ok ([.text "\tmu_PE:\t\t", .real x.s2Mu, .text "\n", .text "\tsigma_PE:\t", .real x.s2Sigma, .text "\n",
      .text "\tImported trigger efficiencies:\t", checkbox (!x.trigger.isEmpty), .text "\n",
      .text "\tImported acc. efficiencies:\t", checkbox (!x.acceptance.isEmpty), .text "\n"] ++
      (if x.usingS2Bins then [.text "\n\t\tBin\tBin range [S2]", .text "\n"] else []) ++ rows.flatten)
  else if x.usingElectronBins || x.usingElectronThreshold then
    .ok [.text "\t\tNe threshold:\t", .nat x.neThreshold, .text "\n", .text "\t\tNe max:\t\t", .nat x.neMax, .text "\n"]
  else .ok []

/-- `DM_Detector_Ionization::Print_Summary`, `src/Direct_Detection_Ionization.cpp:387-419`: the rank is not used, and the base class
is asked with the default argument 0. -/
noncomputable def printSummary (S : Setup) (d : Detector) (x : IonizationDetector) (_rank : ℤ) : Outcome (List Printed) := do
  let base ← d.printBase S 0
  let rows ← collect (fun i => do
    let a ← vecGet x.atoms i
    let f ← vecGet x.fractions i
    .ok [.text "\t\t\t", .text a.nucleus.name, .text "\t(", .rounded (100 * f), .text "%)", .text "\n"]) (List.range x.atoms.length)
  let analysis ← x.printAnalysis d
  .ok (base ++ [.text "\n", .text "\tElectron recoil experiment (ionization).", .text "\n", .text "\tTarget(s):\t\t\t", .text "\n"] ++
    rows.flatten ++ [.text "\tElectron bins:\t\t", checkbox x.usingElectronBins, .text "\n",
    .text "\tPE (S2) bins:\t\t", checkbox x.usingS2Bins, .text "\n"] ++ analysis ++ [.text ruler, .text "\n", .text "\n"])

end IonizationDetector

/-- `using_Q_threshold || using_Q_bins` and the threshold, `src/Direct_Detection_Crystal.cpp:221-224`; the members may be
uninitialised. -/
noncomputable def CrystalDetector.printThreshold (x : CrystalDetector) : Outcome (List Printed) := do
  let threshold ← readMember x.usingQThreshold
  let using_ ← if threshold = true then .ok true else readMember x.usingQBins
  if using_ = true then do
    let Q ← readMember x.qThreshold
    .ok [.text "\teh pair threshold:\t", .nat Q, .text "\n", .text ruler, .text "\n", .text "\n"]
  else .ok []

/-- `DM_Detector_Crystal::Print_Summary`, `src/Direct_Detection_Crystal.cpp:215-225`: the rank is not used, and the base class is
asked with the default argument 0. -/
noncomputable def CrystalDetector.printSummary (S : Setup) (d : Detector) (x : CrystalDetector) (_rank : ℤ) : Outcome (List Printed) := do
  let base ← d.printBase S 0
  let threshold ← x.printThreshold
  .ok (base ++ [.text "\n", .text "\tElectron recoil experiment (semiconductor).", .text "\n",
    .text "\tTarget:\t\t\t", .text x.crystal.name, .text " semiconductor", .text "\n"] ++ threshold)

/-- `Print_Summary` of a detector, by its class. `src/Configuration.cpp:122`. -/
noncomputable def AnyDetector.printSummary (S : Setup) (rank : ℤ) : AnyDetector → Outcome (List Printed)
  | .nuclear d x => x.printSummary S d rank
  | .electronRecoil d x => x.printSummary S d rank
  | .migdal d x => x.printSummary S d rank
  | .crystal d x => x.printSummary S d rank

/-! ## Configurations -/

/-- `Configuration::Print_Summary_Base`, `src/Configuration.cpp:111-130`; `halo` is what the distribution prints. -/
noncomputable def Configuration.printSummary (S : Setup) (o : Configuration) (halo : List Printed) (rank : ℤ) : Outcome (List Printed) :=
  if rank = 0 then do
    let detector ← o.detector.printSummary S rank
    .ok ([.text separator, .text "Summary of obscura configuration", .text "\n", .text "\n",
      .text "Config file:\t", .text (String.ofList o.cfgFile), .text "\n", .text "ID:\t\t", .text (String.ofList o.ID), .text "\n"] ++
      o.particle.printSummary S.U rank ++ halo ++ detector ++
      [.text "Direct detection constraints", .text "\n",
       .text "\tCertainty level [%]:\t", .real (100 * o.certainty), .text "\n",
       .text "\tMass range [GeV]:\t[", .real o.massMin, .text ",", .real o.massMax, .text "]", .text "\n",
       .text "\tMass steps:\t\t", .nat o.masses, .text separator, .text "\n"])
  else .ok []

end Obscura
