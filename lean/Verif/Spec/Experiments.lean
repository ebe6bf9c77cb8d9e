import Verif.Model.Configuration
import Verif.Spec.Crystal
import Verif.Spec.Ionization
import Verif.Spec.NuclearData

/-!
# What is published about the predefined experiments

Tables of the published analyses, with the numbers as they are quoted (energies in keV or eV, exposures in kg days, gram days, …), and
what it means that a detector represents such an analysis. Nothing here refers to how the detectors are put together.
-/

namespace Obscura.Spec

open Obscura

/-! ## Nuclear recoils -/

/-- The data of a nuclear recoil search: a number of events, or a list of energies (in keV) in a file. -/
inductive RecoilData where
  | counted (n : ℕ)
  | listed (file : String)

/-- A nuclear recoil search. The composition lists the elements with the numbers of atoms in the chemical formula; energies are in
eV. -/
structure RecoilSearch where
  name : String
  exposure : Setup → ℝ
  composition : List (ℕ × ℝ)
  lowest : ℝ
  highest : ℝ
  efficiency : ℝ
  resolution : ℝ
  tables : List String
  data : RecoilData

/-- The nuclear recoil searches: DAMIC (silicon), XENON1T, CRESST-II and CRESST-III (CaWO₄), CRESST-surface (Al₂O₃). -/
noncomputable def recoilSearches : List RecoilSearch :=
  [{ name := "DAMIC_N_2011", exposure := fun S => 0.107 * (S.kg * S.day), composition := [(14, 1)], lowest := 550, highest := 7000,
     efficiency := 1, resolution := 0, tables := [], data := .counted 106 },
   { name := "XENON1T_N_2017", exposure := fun S => 34.2 * S.day * (1042 * S.kg), composition := [(54, 1)], lowest := 5000,
     highest := 40000, efficiency := 0.82, resolution := 0, tables := [], data := .counted 0 },
   { name := "CRESST-II", exposure := fun S => 52.15 * (S.kg * S.day), composition := [(8, 4), (20, 1), (74, 1)], lowest := 307,
     highest := 40000, efficiency := 1, resolution := 61.4,
     tables := ["data/CRESST-II/Lise_eff_AR_O.dat", "data/CRESST-II/Lise_eff_AR_Ca.dat", "data/CRESST-II/Lise_eff_AR_W.dat"],
     data := .listed "data/CRESST-II/Lise_AR.dat" },
   { name := "CRESST-III", exposure := fun S => 5.594 * (S.kg * S.day), composition := [(8, 4), (20, 1), (74, 1)], lowest := 30.1,
     highest := 16000, efficiency := 0.5, resolution := 4.6,
     tables := ["data/CRESST-III/C3P1_DetA_eff_AR_O.dat", "data/CRESST-III/C3P1_DetA_eff_AR_Ca.dat",
       "data/CRESST-III/C3P1_DetA_eff_AR_W.dat"],
     data := .listed "data/CRESST-III/C3P1_DetA_AR.dat" },
   { name := "CRESST-surface", exposure := fun S => 0.046 * (S.M.gram * S.day), composition := [(8, 3), (13, 2)], lowest := 19.7,
     highest := 600, efficiency := 1, resolution := 3.74, tables := [], data := .listed "data/CRESST-surface/data.txt" }]

/-- The share of every element in the mass of a compound. -/
noncomputable def massShares (U : Units) (rows : List NuclearRow) (composition : List (ℕ × ℝ)) : List ℝ :=
  composition.map fun e => e.2 * (element U rows e.1).averageMass /
    (composition.map fun e => e.2 * (element U rows e.1).averageMass).sum

/-- The detector represents the nuclear recoil search. -/
structure RepresentsRecoils (S : Setup) (rows : List NuclearRow) (e : RecoilSearch) (d : Detector) (x : NuclearDetector) : Prop where
  name : d.name = e.name
  targets : d.targets = "Nuclei"
  exposure : d.exposure = e.exposure S
  efficiency : d.flatEfficiency = e.efficiency
  lowest : d.energyThreshold = e.lowest * S.U.eV
  highest : d.energyMax = e.highest * S.U.eV
  nuclei : x.nuclei = e.composition.map fun c => element S.U rows c.1
  fractions : x.fractions = massShares S.U rows e.composition
  resolution : x.resolution = e.resolution * S.U.eV
  tables : x.efficiencies.map some = e.tables.map (fun file => (S.files.efficiency file).map fun f E => f (E / S.U.keV)) ∧ (x.usingTables = true ↔ e.tables ≠ [])
  background : d.background = 0
  fresh : d.usingFiducial = false
  counted : ∀ n, e.data = .counted n → d.analysis = .poisson ∧ d.usingEnergyThreshold = true ∧ d.observed = n
  listed : ∀ file, e.data = .listed file → d.analysis = .maximumGap ∧ d.gapData.Pairwise (· ≤ ·) ∧
    ∃ events, S.files.numbers file = some events ∧
      d.gapData.Perm (e.lowest * S.U.eV :: e.highest * S.U.eV :: events.map fun E => E * S.U.keV)

/-! ## Ionization of xenon and argon -/

/-- What is counted: numbers of electrons from a smallest one on, one bin each, or photo-electrons in bins with given edges (with
the mean and the spread of the signal of one electron, and the files with the efficiencies). -/
inductive IonizationBins where
  | electrons (first : ℕ)
  | photoElectrons (mean spread : ℝ) (edges : List ℕ) (trigger : String) (acceptance : Option String)

/-- A search for the ionization of atoms. -/
structure IonizationSearch where
  name : String
  /-- the name under which the search for the Migdal effect is configured -/
  migdal : String
  exposure : Setup → ℝ
  atom : String
  bins : IonizationBins
  observed : List ℕ
  efficiency : ℝ
  binEfficiencies : List ℝ
  binBackground : List ℝ

/-- The ionization searches with complete definitions. -/
noncomputable def ionizationSearches : List IonizationSearch :=
  [{ name := "XENON10_S2", migdal := "XENON10_S2_Migdal", exposure := fun S => 15 * (S.kg * S.day), atom := "Xe",
     bins := .photoElectrons 27 6.7 [14, 41, 68, 95, 122, 149, 176, 203] "data/XENON10e/PE_Trigger_Efficiency.txt" none,
     observed := [126, 60, 12, 3, 2, 0, 2], efficiency := 0.92, binEfficiencies := [1, 1, 1, 1, 1, 1, 1],
     binBackground := [0, 0, 0, 0, 0, 0, 0] },
   { name := "XENON100_S2", migdal := "XENON100_S2_Migdal", exposure := fun S => 30 * (S.kg * S.M.year), atom := "Xe",
     bins := .photoElectrons 19.7 6.2 [80, 90, 110, 130, 150, 170, 190, 210, 230, 250, 270]
       "data/XENON100e/PE_Trigger_Efficiency.txt" (some "data/XENON100e/PE_Acceptance_Efficiency.txt"),
     observed := [794, 1218, 924, 776, 669, 630, 528, 488, 433, 387], efficiency := 1,
     binEfficiencies := [1, 1, 1, 1, 1, 1, 1, 1, 1, 1], binBackground := [0, 0, 0, 0, 0, 0, 0, 0, 0, 0] },
   { name := "XENON1T_S2", migdal := "XENON1T_S2_Migdal", exposure := fun S => 15330 * (S.kg * S.day), atom := "Xe",
     bins := .electrons 5, observed := [5, 5, 4, 2, 1, 0], efficiency := 1,
     binEfficiencies := [0, 2.59712 / 21.9, 9.76999 / 21.9, 13.5103 / 21.9, 15.5974 / 21.9, 16.9158 / 21.9],
     binBackground := [0, 0, 0, 0, 0, 0] },
   { name := "DarkSide-50_S2", migdal := "DarkSide-50_S2_Migdal", exposure := fun S => 6786 * (S.kg * S.day), atom := "Ar",
     bins := .electrons 3, observed := [6131, 673, 252, 227, 198, 199, 189, 247, 230, 261, 249, 329, 336], efficiency := 1,
     binEfficiencies := [1, 1, 1, 1, 1, 1, 1, 1, 1, 1, 1, 1, 1], binBackground := [0, 0, 0, 0, 0, 0, 0, 0, 0, 0, 0, 0, 0] },
   { name := "DarkSide-50_S2_2023", migdal := "DarkSide-50_S2_Migdal_2023", exposure := fun S => 12306 * (S.kg * S.day), atom := "Ar",
     bins := .electrons 4, observed := [284, 324, 292, 285, 287, 360], efficiency := 1, binEfficiencies := [1, 1, 1, 1, 1, 1],
     binBackground := [271.314, 284.115, 301.652, 318.913, 342.763, 369.199] },
   { name := "PandaX-4T_S2", migdal := "PandaX-4T_S2_Migdal", exposure := fun S => 0.55 * (S.tonne * S.M.year), atom := "Xe",
     bins := .electrons 4, observed := [34, 14, 13, 7, 11, 12, 14], efficiency := 0.14, binEfficiencies := [1, 1, 1, 1, 1, 1, 1],
     binBackground := [0, 0, 0, 0, 0, 0, 0] }]

/-- The number of protons, the work function (in eV) and the shells of an atom with the given symbol. -/
noncomputable def atomData (symbol : String) : ℕ × ℝ × List (String × ℝ × ℕ) :=
  if symbol = "Xe" then (54, 13.8, xenon) else (18, 19.6, argon)

/-- The detector represents the ionization search, with the given kind of target particles. -/
structure RepresentsIonization (S : Setup) (rows : List NuclearRow) (e : IonizationSearch) (targets : String) (d : Detector)
    (x : IonizationDetector) : Prop where
  name : d.name = e.name
  targets : d.targets = targets
  exposure : d.exposure = e.exposure S
  efficiency : d.flatEfficiency = e.efficiency
  atom : ∃ a, x.atoms = [a] ∧ x.fractions = [1] ∧ BuiltAtom S.U a ∧ a.nucleus = element S.U rows (atomData e.atom).1 ∧
    a.W = (atomData e.atom).2.1 * S.U.eV ∧
    a.electrons.map (fun s => (s.name, s.binding, s.secondaries)) =
      (atomData e.atom).2.2.map fun s => (s.1, s.2.1 * S.U.eV, s.2.2)
  analysis : d.analysis = .binnedPoisson
  observed : d.binObserved = e.observed ∧ d.observed = e.observed.sum
  bins : d.bins = e.observed.length
  binEfficiencies : d.binEfficiencies = e.binEfficiencies
  background : d.binBackground = e.binBackground ∧ d.background = e.binBackground.sum
  noEnergyBins : d.usingEnergyBins = false ∧ d.usingEnergyThreshold = false
  fresh : d.usingFiducial = false
  electrons : ∀ n, e.bins = .electrons n → x.usingElectronBins = true ∧ x.usingS2Bins = false ∧ x.neThreshold = n ∧
    x.neMax + 1 = n + e.observed.length
  photoElectrons : ∀ mean spread edges trigger acceptance, e.bins = .photoElectrons mean spread edges trigger acceptance →
    x.usingS2Bins = true ∧ x.usingElectronBins = false ∧ x.s2Mu = mean ∧ x.s2Sigma = spread ∧ x.s2Bins = edges ∧
    edges.length = e.observed.length + 1 ∧ S.files.numbers trigger = some x.trigger ∧
    match acceptance with
    | none => x.acceptance = []
    | some file => S.files.numbers file = some x.acceptance

/-! ## Semiconductors -/

/-- A search for electron-hole pairs in silicon: events with 1, 2, … pairs. -/
structure PairSearch where
  name : String
  exposure : Setup → ℝ
  observed : List ℕ
  efficiency : ℝ
  binEfficiencies : List ℝ

/-- The searches with silicon. -/
noncomputable def pairSearches : List PairSearch :=
  [{ name := "protoSENSEI@surface", exposure := fun S => 0.07 * S.M.gram * (456 * S.minute), observed := [140302, 4676, 131, 1, 0],
     efficiency := 1, binEfficiencies := [0.668, 0.41, 0.32, 0.27, 0.24] },
   { name := "protoSENSEI@MINOS", exposure := fun S => 0.246 * (S.M.gram * S.day), observed := [8516, 87, 0], efficiency := 1,
     binEfficiencies := [1, 0.62, 0.48] },
   { name := "SENSEI@MINOS", exposure := fun S => 9.1 * (S.M.gram * S.day), observed := [578, 5, 0, 0], efficiency := 1,
     binEfficiencies := [1.38 / 9.1, 2.09 / 9.1, 9.03 / 9.1, 1] },
   { name := "CDMS-HVeV_2018", exposure := fun S => 0.487 * (S.M.gram * S.day), observed := [53000, 400, 74, 18, 7, 14],
     efficiency := 0.9545, binEfficiencies := [0.88, 0.91, 0.91, 0.91, 0.91, 0.91] },
   { name := "CDMS-HVeV_2020", exposure := fun S => 1.2 * (S.M.gram * S.day), observed := [178800, 1320, 248, 64, 19, 6],
     efficiency := 1, binEfficiencies := [1, 1, 1, 1, 1, 1] },
   { name := "DAMIC-M_2023", exposure := fun S => 0.4 * (85.23 * (S.M.gram * S.day)), observed := [4216354, 11345, 19],
     efficiency := 1, binEfficiencies := [1, 1, 1] }]

/-- The detector represents the search with silicon. -/
structure RepresentsPairs (S : Setup) (e : PairSearch) (d : Detector) (x : CrystalDetector) : Prop where
  name : d.name = e.name
  targets : d.targets = "Electrons"
  exposure : d.exposure = e.exposure S
  efficiency : d.flatEfficiency = e.efficiency
  crystal : x.crystal.name = "Si" ∧ BuiltCrystal S.U x.crystal
  analysis : d.analysis = .binnedPoisson
  observed : d.binObserved = e.observed ∧ d.observed = e.observed.sum
  bins : d.bins = e.observed.length
  binEfficiencies : d.binEfficiencies = e.binEfficiencies
  background : d.binBackground = e.observed.map (fun _ => 0) ∧ d.background = 0
  noEnergyBins : d.usingEnergyBins = false ∧ d.usingEnergyThreshold = false
  fresh : d.usingFiducial = false
  pairs : x.usingQBins = some true ∧ x.qThreshold = some 1
  lowest : d.energyThreshold = x.crystal.gap
  highest : d.energyMax = x.crystal.gap + ((e.observed.length : ℝ) - 1) * x.crystal.epsilon

/-! ## The installation -/

/-- The data files are installed: nuclear data, with natural isotopes for the elements used, tables for all shells of xenon and
argon, the silicon table, the event lists (with all events inside the analysed energy range) and the efficiency lists. -/
structure Installed (S : Setup) (rows : List NuclearRow) : Prop where
  nuclear : S.files.nuclear = some rows
  complete : WellFormed rows
  masses : ∀ Z ∈ [8, 13, 14, 20, 54, 74], 0 < (element S.U rows Z).averageMass
  xenon : ∀ s ∈ xenon, HasTables S.files.response s.1
  argon : ∀ s ∈ argon, HasTables S.files.response s.1
  silicon : ∃ l, S.files.crystal "Si" = some l ∧ 500 * 900 ≤ l.length
  events : ∀ e ∈ recoilSearches, ∀ file, e.data = .listed file → ∃ events, S.files.numbers file = some events ∧
    ∀ E ∈ events, e.lowest ≤ 1000 * E ∧ 1000 * E ≤ e.highest
  efficiencies : ∀ file ∈ ["data/XENON10e/PE_Trigger_Efficiency.txt", "data/XENON100e/PE_Trigger_Efficiency.txt",
    "data/XENON100e/PE_Acceptance_Efficiency.txt"], ∃ l, S.files.numbers file = some l
  tables : ∀ e ∈ recoilSearches, ∀ file ∈ e.tables, ∃ f, S.files.efficiency file = some f

/-- The data members of a detector fit together: an exposure, an efficiency, and depending on the analysis an energy window, bins with
as many observed events, efficiencies and backgrounds, or events between the bounds of the window. -/
structure Consistent (d : Detector) : Prop where
  exposure : 0 < d.exposure
  efficiency : 0 < d.flatEfficiency ∧ d.flatEfficiency ≤ 1
  window : d.analysis = .poisson → 0 < d.energyThreshold ∧ d.energyThreshold < d.energyMax
  bins : d.analysis = .binnedPoisson → 1 ≤ d.bins ∧ d.binObserved.length = d.bins ∧ d.binEfficiencies.length = d.bins ∧
    d.binBackground.length = d.bins ∧ d.observed = d.binObserved.sum ∧ d.background = d.binBackground.sum ∧
    (∀ f ∈ d.binEfficiencies, 0 ≤ f ∧ f ≤ 1) ∧ ∀ b ∈ d.binBackground, 0 ≤ b
  gaps : d.analysis = .maximumGap → 0 < d.energyThreshold ∧ d.energyThreshold < d.energyMax ∧ d.gapData.Pairwise (· ≤ ·) ∧
    d.energyThreshold ∈ d.gapData ∧ d.energyMax ∈ d.gapData ∧ ∀ E ∈ d.gapData, d.energyThreshold ≤ E ∧ E ≤ d.energyMax

/-- No evaluation of signals, likelihoods or p-values has undefined behaviour. -/
structure WellBehaved (U : Units) (T : Tools) (C : DetectorClass) (d : Detector) (p : DMParticle) : Prop where
  binned : C.signalsBinned d p ≠ .ub
  total : C.signalsTotal d p ≠ .ub
  rate : d.signalRateTotal C p ≠ .ub
  logLikelihood : d.logLikelihood T C p ≠ .ub
  likelihood : d.likelihood T C p ≠ .ub
  pValue : d.pValue U T C p ≠ .ub

/-- The interpolation of a table without negative values has no negative integrals. -/
def PositiveInterpolation (T : Tools) : Prop :=
  ∀ (xs ys : List ℝ) (a b : ℝ), xs.Pairwise (· < ·) → (∀ y ∈ ys, 0 ≤ y) → a ≤ b → 0 ≤ T.interpolationIntegral xs ys a b

/-- The strings for user-defined detectors. -/
def userDefined : List String := ["Nuclear recoil", "Electron recoil", "Migdal", "Semiconductor"]

/-- All strings of predefined experiments that are advertised, with those of LZ. -/
noncomputable def predefined : List String :=
  recoilSearches.map RecoilSearch.name ++ ionizationSearches.map IonizationSearch.name ++
    ionizationSearches.map IonizationSearch.migdal ++ pairSearches.map PairSearch.name ++ ["LZ_S2", "LZ_S2_Migdal"]

end Obscura.Spec
