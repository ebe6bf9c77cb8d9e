import Verif.Model.Libphysica

/-!
# Limits at different masses
-/

namespace Obscura.Spec

/-- The mass times the square of the reduced mass with a proton: heavy particles are rare, and at a given cross section with protons they couple more weakly. -/
noncomputable def massFactor (U : Units) (m : ℝ) : ℝ := m * (m * U.mProton / (m + U.mProton)) ^ 2

/-- The same with the reduced mass with an electron. -/
noncomputable def massFactorElectron (U : Units) (m : ℝ) : ℝ := m * (m * U.mElectron / (m + U.mElectron)) ^ 2

end Obscura.Spec
