import Verif.Model.SingleIsotope

/-!
# What is expected of mixtures of isotopes
-/

namespace Obscura.Spec

/-- The mean mass of the atoms of a mixture; abundances are shares of the number of atoms. -/
noncomputable def meanMass (isos : List Isotope) : ℝ := (isos.map fun iso => iso.abundance * iso.mass).sum

/-- The rate per unit mass of a mixture of isotopes, if `R iso` is the rate per unit mass of the pure isotope: one atom of the mixture has
the mean mass, and the isotope contributes its share of atoms, each with the rate `iso.mass * R iso`. -/
noncomputable def mixtureRate (isos : List Isotope) (R : Isotope → ℝ) : ℝ :=
  (isos.map fun iso => iso.abundance * (iso.mass * R iso)).sum / meanMass isos

end Obscura.Spec
