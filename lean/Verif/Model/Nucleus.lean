import Verif.Model.Libphysica
import Mathlib.Analysis.SpecialFunctions.Trigonometric.Basic

/-!
# Nuclear targets — model of `src/Target_Nucleus.cpp` (kinematics, isotopes)
-/

namespace Obscura

/-- `vMinimal_Nucleus`, `src/Target_Nucleus.cpp:17-20`. -/
noncomputable def vMinimalNucleus (ER mDM mNucleus : ℝ) : ℝ :=
  Real.sqrt (mNucleus * ER / 2 / reducedMass mDM mNucleus ^ 2)

/-- `Maximum_Nuclear_Recoil_Energy`, `src/Target_Nucleus.cpp:21-24`. -/
noncomputable def maximumNuclearRecoilEnergy (vDM mDM mNucleus : ℝ) : ℝ :=
  2 * vDM * vDM * reducedMass mDM mNucleus ^ 2 / mNucleus

/-- `struct Isotope`, `include/obscura/Target_Nucleus.hpp:17-39`. `Z`, `A` are `unsigned int`
(modelled by naturals). The display name is modelled separately. -/
structure Isotope where
  Z : ℕ
  A : ℕ
  abundance : ℝ
  spin : ℝ
  sp : ℝ
  sn : ℝ
  mass : ℝ

/-- `Isotope::Isotope()`, `src/Target_Nucleus.cpp:30-35` (the string `name` is not modelled here). -/
noncomputable def Isotope.default (U : Units) : Isotope :=
  { Z := 1, A := 1, abundance := 1, spin := 1 / 2, sp := 1 / 2, sn := 0, mass := U.mProton }

/-- `Isotope::Isotope(z, a, abund, Spin, Sp, Sn)`, `src/Target_Nucleus.cpp:37-42`. `Nucleus_Names` has 118
entries; `Nucleus_Names[Z-1]` is out of bounds for `Z = 0` and `Z > 118`. -/
noncomputable def Isotope.make (U : Units) (z a : ℕ) (abund spin sp sn : ℝ) : Outcome Isotope :=
  if 1 ≤ z ∧ z ≤ 118 then
    .ok { Z := z, A := a, abundance := abund, spin := spin, sp := sp, sn := sn,
          mass := if a = 1 then U.mProton else a * U.mNucleon }
  else .ub

/-- The nuclear radius `rn` of `Isotope::Helm_Form_Factor`, `src/Target_Nucleus.cpp:53-56`. -/
noncomputable def Isotope.helmRadius (U : Units) (iso : Isotope) : ℝ :=
  let a := 0.52 * U.fm
  let c := (1.23 * (iso.A : ℝ) ^ (1 / 3 : ℝ) - 0.6) * U.fm
  let s := 0.9 * U.fm
  Real.sqrt (c * c + 7 / 3 * (Real.pi * a) ^ 2 - 5 * s * s)

/-- `Isotope::Helm_Form_Factor`, `src/Target_Nucleus.cpp:49-59`. -/
noncomputable def Isotope.helmFormFactor (U : Units) (iso : Isotope) (q : ℝ) : ℝ :=
  if q < 1 / 10 ^ 6 * U.MeV then 1
  else
    let s := 0.9 * U.fm
    let qr := q * iso.helmRadius U
    3 * (Real.sin qr / qr ^ 3 - Real.cos qr / qr ^ 2) * Real.exp (-q * q * s * s / 2)

/-- The factor `target.A - target.Z` (`unsigned int` arithmetic) of
`src/DM_Particle_Standard.cpp:297,337`. -/
def Isotope.neutrons (iso : Isotope) : ℕ := usub32 iso.A iso.Z

end Obscura
