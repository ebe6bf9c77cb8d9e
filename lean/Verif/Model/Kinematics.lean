import Verif.Model.Nucleus

/-!
# Kinematics of electron and Migdal scatterings — `src/Target_Atom.cpp:14-17`,
`src/Direct_Detection_ER.cpp:13-26`, `src/Direct_Detection_Migdal.cpp:12-48`
-/

namespace Obscura

/-- `vMinimal_Electrons`, `src/Target_Atom.cpp:14-17`. -/
noncomputable def vMinimalElectrons (q deltaE mDM : ℝ) : ℝ := deltaE / q + q / 2 / mDM

/-- The lower momentum bound of `dRdEe_Ionization_ER`, `src/Direct_Detection_ER.cpp:21`. -/
noncomputable def qMinER (mDM vMax eBinding : ℝ) : ℝ :=
  mDM * vMax - Real.sqrt (mDM * mDM * vMax * vMax - 2 * mDM * eBinding)

/-- The upper momentum bound of `dRdEe_Ionization_ER`, `src/Direct_Detection_ER.cpp:22` (before it is cut at the end of
the tabulated range, lines 22-25). -/
noncomputable def qMaxER (mDM vMax eBinding : ℝ) : ℝ :=
  mDM * vMax + Real.sqrt (mDM * mDM * vMax * vMax - 2 * mDM * eBinding)

/-- `E_DM_max < shell.binding_energy`, `src/Direct_Detection_ER.cpp:16-18`: the shell is skipped. -/
def energeticallyClosed (mDM vMax eBinding : ℝ) : Prop := mDM / 2 * vMax * vMax < eBinding

/-- `vMinimal_Migdal`, `src/Direct_Detection_Migdal.cpp:12-17`. -/
noncomputable def vMinimalMigdal (ER Ee mDM mN eBinding : ℝ) : ℝ :=
  Real.sqrt (mN * ER / 2 / reducedMass mDM mN / reducedMass mDM mN) + (Ee + eBinding) / Real.sqrt (2 * mN * ER)

/-- The lower recoil-energy bound of `dRdEe_Ionization_Migdal`, `src/Direct_Detection_Migdal.cpp:44,46`. -/
noncomputable def erMinMigdal (vMax mN eBinding : ℝ) : ℝ := eBinding / vMax * (eBinding / vMax) / 2 / mN

/-- The upper recoil-energy bound of `dRdEe_Ionization_Migdal`, `src/Direct_Detection_Migdal.cpp:45,47`. -/
noncomputable def erMaxMigdal (vMax mDM mN : ℝ) : ℝ :=
  2 * reducedMass mDM mN * vMax * (2 * reducedMass mDM mN * vMax) / 2 / mN

end Obscura
