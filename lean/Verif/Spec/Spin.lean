import Verif.Model.NuclearDetector

/-!
# Isotopes with spin
-/

namespace Obscura.Spec

/-- A spin-dependent interaction can tell the isotope from vacuum: it has a spin, and protons or neutrons with a share in it. -/
def SpinActive (iso : Isotope) : Prop := iso.spin ≠ 0 ∧ (iso.sp ≠ 0 ∨ iso.sn ≠ 0)

/-- The element with all other isotopes taken out. Their places stay empty: abundances are not renormalised. -/
noncomputable def activeOnly (n : Nucleus) : Nucleus :=
  open Classical in { n with isotopes := n.isotopes.filter fun iso => SpinActive iso }

/-- The target with all other isotopes taken out, with the same mass fractions and efficiencies. -/
noncomputable def activeTarget (nd : NuclearDetector) : NuclearDetector := { nd with nuclei := nd.nuclei.map activeOnly }

end Obscura.Spec
