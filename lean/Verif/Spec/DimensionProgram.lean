import Verif.Spec.Dimension
import Verif.Model.Main

/-!
# Experiments and configurations in another unit of energy

The data files are the same: they contain numbers in fixed units (keV, eV, GeV, cm², …) or pure numbers.
-/

namespace Obscura

/-- The gram is an energy, the year a time. -/
noncomputable def MacroUnits.inUnit (M : MacroUnits) (k : ℝ) (hk : 0 < k) : MacroUnits where
  gram := k * M.gram
  year := M.year / k
  gram_pos := mul_pos hk M.gram_pos
  year_pos := div_pos M.year_pos hk

/-- The same constants, files and interpolation. -/
noncomputable def Setup.inUnit (S : Setup) (k : ℝ) (hk : 0 < k) : Setup where
  U := S.U.inUnit k hk
  M := S.M.inUnit k hk
  P := S.P
  files := S.files

/-- An SHM++ in the other unit. -/
noncomputable def SHMpp.inUnit (k : ℝ) (s : SHMpp) : SHMpp := { s with density := k ^ 4 * s.density }

/-- A call of the SHM++ with its arguments in the other unit. -/
noncomputable def SHMpp.Op.inUnit (k : ℝ) : SHMpp.Op → SHMpp.Op
  | .base op => .base (op.inUnit k)
  | op => op

/-- The global table of nuclei and a nuclear recoil experiment in the other unit. -/
noncomputable def nuclearInUnit (k : ℝ) (r : List Nucleus × Detector × NuclearDetector) : List Nucleus × Detector × NuclearDetector :=
  (r.1.map (Nucleus.inUnit k), r.2.1.inUnit k, r.2.2.inUnit k)

/-- The global table of nuclei and an ionization experiment in the other unit. -/
noncomputable def ionizationInUnit (k : ℝ) (r : List Nucleus × Detector × IonizationDetector) : List Nucleus × Detector × IonizationDetector :=
  (r.1.map (Nucleus.inUnit k), r.2.1.inUnit k, r.2.2.inUnit k)

/-- A semiconductor experiment in the other unit. -/
noncomputable def crystalInUnit (k : ℝ) (r : Detector × CrystalDetector) : Detector × CrystalDetector := (r.1.inUnit k, r.2.inUnit k)

/-- The global table of nuclei and a detector of any class in the other unit. -/
noncomputable def anyInUnit (k : ℝ) (r : List Nucleus × AnyDetector) : List Nucleus × AnyDetector :=
  (r.1.map (Nucleus.inUnit k), r.2.inUnit k)

/-- A configuration in the other unit: the masses of the constraints are numbers of GeV. -/
noncomputable def Configuration.inUnit (k : ℝ) (c : Configuration) : Configuration :=
  { c with particle := c.particle.inUnit k, distribution := c.distribution.inUnit k, detector := c.detector.inUnit k }

namespace Spec

/-- The mediator mass of the file, if there is one, is in both units above the pure number 10⁻⁶⁰, or in both below. -/
def MediatorClear (U : Units) (k : ℝ) (c : Config) : Prop :=
  ∀ m, c.getDouble "DM_mediator_mass" = .ok m → (m * U.MeV < 1 / 10 ^ 60 ↔ k * (m * U.MeV) < 1 / 10 ^ 60)

end Spec
end Obscura
