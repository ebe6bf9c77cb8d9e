import Verif.Model.Summary
import Verif.Spec.Ionization
import Verif.Spec.Crystal

/-!
# What is expected of the summaries
-/

namespace Obscura.Spec

/-- These entries are printed one after the other. -/
def Shows (out entries : List Printed) : Prop := ∃ before after, out = before ++ entries ++ after

/-- What the bins of an analysis are bins of. -/
inductive BinKind where
  | energy
  | electrons
  | photoelectrons
  | pairs
deriving DecidableEq

/-- The bins introduced by a call of the base class. -/
def binsOf : Detector.Op → Option BinKind
  | .useEnergyBins _ _ _ => some .energy
  | _ => none

/-- The bins introduced by a call of an ionization detector. -/
def ionizationBinsOf : IonizationDetector.Op → Option BinKind
  | .base op => binsOf op
  | .useElectronBins _ _ => some .electrons
  | .usePEBins _ _ _ => some .photoelectrons
  | _ => none

/-- The bins introduced by a call of a crystal detector. -/
def crystalBinsOf : CrystalDetector.Op → Option BinKind
  | .base op => binsOf op
  | .useQBins _ _ => some .pairs
  | _ => none

/-- Energy bins have a positive width, and there are some. -/
def SensibleCall : Detector.Op → Prop
  | .useEnergyBins Emin Emax n => Emin < Emax ∧ 0 < n ∧ n < 2 ^ 31
  | _ => True

/-- The ranges of photoelectron bins have a beginning, and there are not more than `unsigned int` can count. -/
def SensibleIonizationCall : IonizationDetector.Op → Prop
  | .base op => SensibleCall op
  | .usePEBins _ _ ranges => ranges ≠ [] ∧ ranges.length ≤ 2 ^ 32
  | _ => True

/-- The calls of a crystal detector. -/
def SensibleCrystalCall : CrystalDetector.Op → Prop
  | .base op => SensibleCall op
  | _ => True

/-- The predefined semiconductor experiments. -/
def semiconductorExperiments : List String :=
  ["protoSENSEI@surface", "protoSENSEI@MINOS", "SENSEI@MINOS", "CDMS-HVeV_2018", "CDMS-HVeV_2020", "DAMIC-M_2023"]

/-- The number `v` with the name `u` of a unit stands for the mass `m`, in one of the customary units, with one to three digits before
the decimal point if possible. -/
def StandsForMass (U : Units) (m v : ℝ) (u : String) : Prop :=
  (∃ unit, (u, unit) ∈ [("eV", U.eV), ("keV", 10 ^ 3 * U.eV), ("MeV", 10 ^ 6 * U.eV), ("GeV", 10 ^ 9 * U.eV)] ∧ v * unit = m) ∧
  (U.eV ≤ m → m < 10 ^ 12 * U.eV → 1 ≤ v ∧ v < 1000)

/-- A ticked or an empty box. -/
noncomputable def box (p : Prop) : Printed :=
  open Classical in .text (if p then "[x]" else "[ ]")

/-- These lines describe a detector. -/
def DetectorShown (S : Setup) (d : Detector) (out : List Printed) : Prop :=
  Shows out [.text "Experiment summary:\t", .text d.name, .text "\n"] ∧
  Shows out [.text "\tTarget particles:\t", .text d.targets, .text "\n"] ∧
  Shows out [.text "\tExposure [kg year]:\t", .rounded (d.exposure / (S.kg * S.M.year)), .text "\n"] ∧
  Shows out [.text "\tFlat efficiency [%]:\t", .rounded (100 * d.flatEfficiency), .text "\n"] ∧
  Shows out [.text "\tObserved events:\t", .nat d.observed, .text "\n"] ∧
  Shows out [.text "\tExpected background:\t", .real d.background, .text "\n"] ∧
  (∃ label, Shows out [.text "\tStatistical analysis:\t", .text label, .text "\n"] ∧
    (label, d.analysis) ∈ [("Poisson", Analysis.poisson), ("Binned Poisson", .binnedPoisson), ("Maximum Gap", .maximumGap)]) ∧
  -- the table of the bins
  (d.analysis = .binnedPoisson → Shows out [.text "\t\tNumber of bins:\t", .nat d.bins, .text "\n"] ∧
    ∀ i x n y, d.binEfficiencies[i]? = some x → d.binObserved[i]? = some n → d.binBackground[i]? = some y →
      Shows out [.text "\t\t", .nat (i + 1), .text "\t", .real (100 * x), .text "\t\t", .nat n, .text "\t\t", .real y, .text "\n"]) ∧
  -- the window of energies
  (d.usingEnergyThreshold = true ∨ d.usingEnergyBins = true ∨ d.analysis = .maximumGap →
    Shows out [.text "\tRecoil energies [keV]:\t[", .rounded (d.energyThreshold / S.U.keV), .text ",", .rounded (d.energyMax / S.U.keV),
      .text "]", .text "\n"]) ∧
  -- the ranges of the energy bins
  (d.usingEnergyBins = true → ∀ i x y, i < d.bins → d.binEnergies[i]? = some x → d.binEnergies[i + 1]? = some y →
    Shows out [.text "\t\t", .nat (i + 1), .text "\t[", .rounded (x / S.U.keV), .text ",", .rounded (y / S.U.keV), .text ")", .text "\n"])

end Obscura.Spec
