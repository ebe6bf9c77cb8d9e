import Verif.Spec.Configuration
import Verif.Spec.Experiments
import Verif.Spec.Halo
import Mathlib.MeasureTheory.Integral.IntervalIntegral.Basic

/-!
# What a configuration file says about the distribution, the detector and the exclusion limits

The keys are those documented in `bin/config.cfg`; nothing here refers to how the file is processed.
-/

namespace Obscura.Spec

/-! ## The distribution -/

/-- The values of the settings of the section "Dark matter distribution" for halo models (GeV/cm³ and km/sec). -/
structure HaloSettings where
  density : ℝ
  v0 : ℝ
  vx : ℝ
  vy : ℝ
  vz : ℝ
  vesc : ℝ

/-- The file contains these values. -/
structure DescribesHalo (c : Config) (s : HaloSettings) : Prop where
  density : c "DM_local_density" = some (.float s.density)
  v0 : c "SHM_v0" = some (.float s.v0)
  observer : c "SHM_vObserver" = some (.list [.float s.vx, .float s.vy, .float s.vz])
  vesc : c "SHM_vEscape" = some (.float s.vesc)

/-- The parameters in natural units. -/
noncomputable def HaloSettings.params (U : Units) (s : HaloSettings) : HaloParams where
  rho := s.density * (U.GeV / U.cm / U.cm / U.cm)
  v0 := s.v0 * (U.km / U.sec)
  vel := ![s.vx * U.km / U.sec, s.vy * U.km / U.sec, s.vz * U.km / U.sec]
  vesc := s.vesc * (U.km / U.sec)

/-- The Maxwell-Boltzmann distribution with dispersion `v0`, cut at the escape velocity, as a function of the velocity in the frame of
an observer who moves with velocity `vel` through the galaxy (not normalised). -/
noncomputable def truncatedMaxwell (v0 vesc : ℝ) (vel u : Vec) : ℝ :=
  open Classical in
  if (u 0 + vel 0) ^ 2 + (u 1 + vel 1) ^ 2 + (u 2 + vel 2) ^ 2 ≤ vesc ^ 2 then
    Real.exp (-((u 0 + vel 0) ^ 2 + (u 1 + vel 1) ^ 2 + (u 2 + vel 2) ^ 2) / v0 ^ 2)
  else 0

/-- The distribution of speeds that belongs to a (not normalised) distribution of velocities. -/
noncomputable def speedShare (f : Vec → ℝ) (v : ℝ) : ℝ :=
  ∫ c in (-1 : ℝ)..1, ∫ φ in (0 : ℝ)..(2 * Real.pi), v ^ 2 * f (sphericalCoordinates v (Real.arccos c) φ)

/-! ## The detector -/

/-- The values of the settings that all user-defined detectors have (kg years). -/
structure DetectorSettings where
  exposure : ℝ
  efficiency : ℝ
  observed : ℤ
  background : ℝ

/-- The file contains these values. -/
structure DescribesDetector (c : Config) (s : DetectorSettings) : Prop where
  exposure : c "DD_exposure" = some (.float s.exposure)
  efficiency : c "DD_efficiency" = some (.float s.efficiency)
  observed : c "DD_observed_events" = some (.int s.observed)
  background : c "DD_expected_background" = some (.float s.background)

/-- A detector with these settings that counts all events in one bin. A negative number of events counts as none. -/
structure CountsEvents (S : Setup) (s : DetectorSettings) (name targets : String) (d : Detector) : Prop where
  name : d.name = name
  targets : d.targets = targets
  exposure : d.exposure = s.exposure * S.kg * S.M.year
  efficiency : d.flatEfficiency = s.efficiency
  analysis : d.analysis = .poisson
  observed : (d.observed : ℤ) = max s.observed 0
  background : d.background = s.background
  noBins : d.usingEnergyBins = false
  fresh : d.usingFiducial = false

/-- The values of the additional settings of a nuclear recoil detector: the elements with their ratios, and energies in keV. -/
structure RecoilSettings where
  composition : List (ℕ × ℝ)
  threshold : ℝ
  highest : ℝ
  resolution : ℝ

/-- The file contains these values. -/
structure DescribesRecoils (c : Config) (s : RecoilSettings) : Prop where
  composition : c "DD_targets_nuclear" = some (.list (s.composition.map fun e => .list [.float e.2, .int e.1]))
  threshold : c "DD_threshold_nuclear" = some (.float s.threshold)
  highest : c "DD_Emax_nuclear" = some (.float s.highest)
  resolution : c "DD_energy_resolution" = some (.float s.resolution)

/-- The file contains this target and this smallest number of electrons or electron hole pairs. -/
structure DescribesElectrons (c : Config) (target : String) (threshold : ℤ) : Prop where
  target : c "DD_target_electron" = some (.string target)
  threshold : c "DD_threshold_electron" = some (.int threshold)

/-- The names of the settings that the user-defined detectors need. -/
def detectorKeys : List String := ["DD_exposure", "DD_efficiency", "DD_observed_events", "DD_expected_background"]
def recoilKeys : List String := detectorKeys ++ ["DD_targets_nuclear", "DD_threshold_nuclear", "DD_Emax_nuclear", "DD_energy_resolution"]
def electronKeys : List String := detectorKeys ++ ["DD_target_electron", "DD_threshold_electron"]

/-! ## The exclusion limits -/

/-- The file contains these parameters of exclusion limits. -/
structure DescribesLimits (c : Config) (certainty lowest highest : ℝ) (masses : ℤ) : Prop where
  certainty : c "constraints_certainty" = some (.float certainty)
  lowest : c "constraints_mass_min" = some (.float lowest)
  highest : c "constraints_mass_max" = some (.float highest)
  masses : c "constraints_masses" = some (.int masses)

/-- The names of these settings. -/
def limitKeys : List String := ["constraints_certainty", "constraints_mass_min", "constraints_mass_max", "constraints_masses"]

end Obscura.Spec
