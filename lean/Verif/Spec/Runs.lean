import Verif.Spec.Main
import Verif.Spec.Signals
import Verif.Spec.Configuration
import Verif.Props.Limits

/-!
# What a run of the program is to achieve
-/

namespace Obscura.Spec

/-- The numerical routines are exact, where it matters for the limits. -/
structure ExactTools (T : Tools) : Prop where
  integral : T.integrate.Exact
  linear : ∀ k xs (ys : List ℝ) x y, T.interpolationIntegral xs (ys.map fun z => k * z) x y = k * T.interpolationIntegral xs ys x y
  root : T.findRoot.Exact

/-- The particle of the file makes sense: a known interaction, a positive mass, positive cross sections, a share in the density that is
not negative, and relative couplings that do not cancel. -/
structure SensibleParticle (U : Units) (s : ParticleSettings) : Prop where
  interaction : AdmissibleInteraction U s
  mass : 0 < s.mass
  nucleon : 0 < s.sigmaNucleon
  electron : 0 < s.sigmaElectron
  fraction : 0 ≤ s.fraction
  couplings : s.fp + s.fn ≠ 0

/-- The limits asked for make sense: at least two positive masses and a certainty between 0 and 1. -/
structure SensibleLimits (cert lo hi : ℝ) (n : ℤ) : Prop where
  lowest : 0 < lo
  highest : 0 < hi
  masses : 2 ≤ n
  certainty : 0 ≤ cert ∧ cert ≤ 1

/-- The rows (mass in GeV, limit in cm²) are the exclusion limits of the detector for the particle `p` and the distribution `h`. All
masses of the geometric grid from `lo` to `hi` appear which are not below the smallest mass the detector is sensitive to and for which
there is a limit. Couplings below the limit have a p-value above `1 - CL`, couplings above it a p-value below `1 - CL`. -/
def ExclusionLimits (U : Units) (T : Tools) (D : AnyDetector) (p : DMParticle) (h : Distribution) (cert lo hi : ℝ) (n : ℕ)
    (rows : List (ℝ × ℝ)) : Prop :=
  ∃ (ms : List ℝ) (lowest : ℝ) (lim : ℝ → ℝ), GeometricGrid ms lo hi n ∧ (D.toClass U T h).minimumDMMass D.base p = .ok lowest ∧
    rows = (ms.filterMap fun m => if lowest ≤ m ∧ 0 < lim m then some (m / U.GeV, lim m / U.cm ^ 2) else none) ∧
    ∀ m ∈ ms, lowest ≤ m → ∃ p', p.setMass U m = .ok p' ∧ p'.mass = m ∧ CorrectLimit U T (D.toClass U T h) D.base p' cert (lim m)

end Obscura.Spec
