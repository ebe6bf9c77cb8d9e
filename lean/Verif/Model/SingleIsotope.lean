import Verif.Model.NuclearDetector
import Verif.Model.Summary

/-!
# Isotopes as targets — the rest of `src/Target_Nucleus.cpp`
-/

namespace Obscura

/-- `Isotope::Thomas_Fermi_Radius`, `src/Target_Nucleus.cpp:44-47`; `bohr` is `Bohr_Radius` of `libphysica/Natural_Units.hpp`. -/
noncomputable def Isotope.thomasFermiRadius (bohr : ℝ) (iso : Isotope) : Outcome ℝ := do
  let x ← fdiv (9 * Real.pi * Real.pi / 2) iso.Z
  .ok (x ^ (1 / 3 : ℝ) / 4 * bohr)

/-- `Nucleus::Nucleus()`, `src/Target_Nucleus.cpp:68-71`: leaves `Z` uninitialised. -/
def Nucleus.empty : Nucleus := { Z := none, isotopes := [], name := "" }

/-- `Nucleus::Number_of_Isotopes`, `src/Target_Nucleus.cpp:85-88`: the length of the vector as `unsigned int`. -/
def Nucleus.numberOfIsotopes (n : Nucleus) : ℕ := n.isotopes.length % 2 ^ 32

end Obscura
