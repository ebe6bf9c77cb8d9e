import Verif.Model.NuclearDetector
import Verif.Model.Ionization
import Mathlib.MeasureTheory.Integral.IntervalIntegral.Basic

/-!
# Specification of mixtures (C92)
-/

namespace Obscura.Spec

/-- `c` is the detector with the element `n` alone, as the constructor gives it. -/
def Alone (n : Nucleus) (c : NuclearDetector) : Prop := ∃ label expo d, NuclearDetector.make label expo [n] [] = .ok (d, c)

/-- The detector after a resolution was set and, possibly, a table of efficiencies was imported. -/
def equipped (nd : NuclearDetector) (res : ℝ) : Option (ℝ → ℝ) → NuclearDetector
  | none => nd.setResolution res
  | some f => (nd.setResolution res).importEfficiency f

/-- The mean of the values of the elements, weighted with the mass fractions of a detector. -/
def weighted (nd : NuclearDetector) (r : Nucleus → ℝ) : ℝ := (List.zipWith (fun w n => w * r n) nd.fractions nd.nuclei).sum

/-- The spectrum of a detector is defined at all positive energies and can be integrated. -/
def SpectrumDefined (U : Units) (I : Integrator) (d : Detector) (p : DMParticle) (h : Distribution) (c : NuclearDetector) : Prop :=
  ∃ f : ℝ → ℝ, (∀ E, 0 < E → c.dRdE U I d E p h = .ok (f E)) ∧ ∀ a b, 0 < a → 0 < b → IntervalIntegrable f MeasureTheory.volume a b

/-- The interpolation of the spectrum between the threshold and the largest energy is exact. -/
def InterpolatedExactly (U : Units) (T : Tools) (d : Detector) (p : DMParticle) (h : Distribution) (c : NuclearDetector) : Prop :=
  T.interpolationIntegral (logSpace d.energyThreshold d.energyMax 200)
      ((logSpace d.energyThreshold d.energyMax 200).map fun E => (c.toClass U T h).dRdE d E p) d.energyThreshold d.energyMax =
    ∫ E in d.energyThreshold..d.energyMax, (c.toClass U T h).dRdE d E p

/-- An ionization detector with the same settings and the atom `a` alone. -/
def onlyAtom (x : IonizationDetector) (a : Atom) : IonizationDetector := { x with atoms := [a], fractions := [1] }

/-- The mean of the values of the atoms, weighted with the mass fractions of an ionization detector. -/
def weightedAtoms (x : IonizationDetector) (s : Atom → ℝ) : ℝ := (List.zipWith (fun w a => w * s a) x.fractions x.atoms).sum

end Obscura.Spec
