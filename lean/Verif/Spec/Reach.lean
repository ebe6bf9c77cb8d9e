import Verif.Model.NuclearDetector

/-!
# What faster halos and heavier particles reach
-/

namespace Obscura.Spec

/-- The particle scatters on the isotope at speed `v`: the total cross section is positive. -/
def Scatters (U : Units) (I : Integrator) (p : DMParticle) (v : ℝ) (iso : Isotope) : Prop :=
  ∃ s, p.sigmaTotalNucleus U I iso v = .ok s ∧ 0 < s

/-- Every isotope of the target the first particle scatters on in the first halo is one the second particle scatters on in the second. -/
def ScattersOnTheSame (U : Units) (I : Integrator) (nd : NuclearDetector) (p : DMParticle) (h : Distribution) (p' : DMParticle)
    (h' : Distribution) : Prop :=
  ∀ iso ∈ nd.isotopes, Scatters U I p h.vMax iso → Scatters U I p' h'.vMax iso

end Obscura.Spec
