import Verif.Model.Ionization
import Verif.Spec.Particle

/-!
# Specification vocabulary for detectors
-/

namespace Obscura.Spec

open Obscura

/-- A freshly constructed `DM_Detector`. -/
def BuiltDetector (d : Detector) : Prop := ∃ label expo target, d = Detector.make label expo target

/-- `d` results from construction and some finite history of configuration calls of the base class none of which failed. -/
def BaseReachable (d : Detector) : Prop :=
  ∃ d₀ ops, BuiltDetector d₀ ∧ Detector.run d₀ ops = .ok d

/-- `d` are the members of the base class of a detector of any class, after construction and some finite history of configuration calls
none of which failed; these are the calls of the base class (all that a nuclear recoil detector has, apart from calls that only change
its own members), of an ionization detector, or of a crystal detector. -/
def ReachableDetector (d : Detector) : Prop :=
  BaseReachable d ∨ (∃ d₀ x₀ x ops, BuiltDetector d₀ ∧ IonizationDetector.run (d₀, x₀) ops = .ok (d, x)) ∨
    ∃ d₀ x₀ x ops, BuiltDetector d₀ ∧ CrystalDetector.run (d₀, x₀) ops = .ok (d, x)

/-- In binned mode there is exactly one observed count, background and efficiency per bin. -/
def OneEntryPerBin (d : Detector) : Prop :=
  d.analysis = .binnedPoisson →
    d.binObserved.length = d.bins ∧ d.binBackground.length = d.bins ∧ d.binEfficiencies.length = d.bins

/-- The particle `p'` is `p` with all cross sections on the target multiplied by `k`: nothing else a rate can depend on
differs. -/
structure ScaledBy (U : Units) (target : String) (k : ℝ) (p p' : DMParticle) : Prop where
  mass : p'.mass = p.mass
  spin : p'.spin = p.spin
  fraction : p'.fractionalDensity = p.fractionalDensity
  lowMass : p'.lowMass = p.lowMass
  useEta : p'.useEtaFunction = p.useEtaFunction
  interaction : p'.interaction = p.interaction
  nuclei : ∀ q iso v, p'.dSigmadq2Nucleus U q iso v = (if target = "Nuclei" then k else 1) * p.dSigmadq2Nucleus U q iso v
  electrons : ∀ q v, p'.dSigmadq2Electron U q v = (if target = "Electrons" then k else 1) * p.dSigmadq2Electron U q v

/-- The contract of a concrete detector class with targets of type `t`: predicted signals are proportional to the cross section
on the target. -/
structure LinearClass (U : Units) (C : DetectorClass) (t : String) : Prop where
  rate : ∀ (d : Detector) E k p p', d.targets = t → 0 ≤ k → ScaledBy U t k p p' → C.dRdE d E p' = k * C.dRdE d E p
  total : ∀ (d : Detector) k p p', d.targets = t → 0 ≤ k → ScaledBy U t k p p' →
    C.signalsTotal d p' = C.signalsTotal d p >>= fun s => .ok (k * s)
  binned : ∀ (d : Detector) k p p', d.targets = t → 0 ≤ k → ScaledBy U t k p p' →
    C.signalsBinned d p' = C.signalsBinned d p >>= fun ss => .ok (ss.map fun s => k * s)
  /-- the signals depend on the detector only through its configuration, not through the values saved during a limit search -/
  config : ∀ (d : Detector) p u c s ss,
    C.signalsTotal { d with usingFiducial := u, fiducialCoupling := c, fiducialSignals := s, fiducialSpectrum := ss } p
        = C.signalsTotal d p ∧
    C.signalsBinned { d with usingFiducial := u, fiducialCoupling := c, fiducialSignals := s, fiducialSpectrum := ss } p
        = C.signalsBinned d p ∧
    ∀ E, C.dRdE { d with usingFiducial := u, fiducialCoupling := c, fiducialSignals := s, fiducialSpectrum := ss } E p
        = C.dRdE d E p

/-- A particle that was configured without running into the defects recorded under C02, C03 and C05: either its coupling ratio is
fixed, by a history in which ratios were only fixed while the proton cross section was not zero, or its couplings are
independent and not negative. -/
def Regular (U : Units) (p : DMParticle) : Prop :=
  ((∃ r, CleanReachable U p r) ∧ p.fixedRelation = true) ∨
  (Reachable U p ∧ p.fixedRelation = false ∧ 0 ≤ p.fp ∧ 0 ≤ p.fn)

variable (U : Units) (T : Tools) (C : DetectorClass)

/-- The p-value when the particle is set to the coupling (interaction parameter) `c`. -/
noncomputable def pValueAt (d : Detector) (p : DMParticle) (c : ℝ) : Outcome ℝ := do
  let p' ← p.setInteractionParameter U c d.targets
  d.pValue U T C p'

/-- The upper limit for the same particle at mass `m`. -/
noncomputable def upperLimitAt (d : Detector) (p : DMParticle) (certainty m : ℝ) : Outcome ℝ := do
  let p' ← p.setMass U m
  let r ← d.upperLimit U T C p' certainty
  .ok r.2.2

/-- The log-likelihood for the same particle at mass `m` and coupling `c`. -/
noncomputable def logLikelihoodAt (d : Detector) (p : DMParticle) (m c : ℝ) : Outcome ℝ := do
  let p' ← p.setMass U m
  let p'' ← p'.setInteractionParameter U c d.targets
  d.logLikelihood T C p''

end Obscura.Spec
