import Verif.Model.Libphysica
import Verif.Model.Astronomy
import Mathlib.Analysis.SpecialFunctions.Trigonometric.Inverse

/-!
# Halo models — `src/DM_Halo_Models.cpp`

Divisions are total here; the theorems assume `0 < v_0` and, where needed, `0 < v_observer`, which covers every division
in the formulas except by `N_esc`, which is proved positive.
-/

namespace Obscura

/-- The state of a `Standard_Halo_Model`, `include/obscura/DM_Distribution.hpp:16-27`,
`include/obscura/DM_Halo_Models.hpp:13-18` (the name is omitted). `vMin`, `vMax` are `v_domain[0]`, `v_domain[1]`. -/
structure SHM where
  density : ℝ
  vMin : ℝ
  vMax : ℝ
  useEta : Bool
  v0 : ℝ
  vEsc : ℝ
  vObs : ℝ
  velObs : Vec
  nEsc : ℝ

namespace SHM

/-- The value assigned to `N_esc` by `Standard_Halo_Model::Normalize_PDF`, `src/DM_Halo_Models.cpp:78-81`. -/
noncomputable def nEscOf (v0 vEsc : ℝ) : ℝ :=
  erf (vEsc / v0) - 2 * vEsc / v0 / Real.sqrt Real.pi * Real.exp (-vEsc * vEsc / v0 / v0)

/-- `Standard_Halo_Model::Normalize_PDF`, `src/DM_Halo_Models.cpp:78-81`. -/
noncomputable def normalize (s : SHM) : SHM := { s with nEsc := nEscOf s.v0 s.vEsc }

/-- The default constructor, `src/DM_Halo_Models.cpp:18-25`. -/
noncomputable def default (U : Units) : SHM :=
  let vel : Vec := ![0, 220 * U.km / U.sec, 0] + ![11.1 * U.km / U.sec, 12.2 * U.km / U.sec, 7.3 * U.km / U.sec]
  normalize
    { density := 0.4 * U.GeV / U.cm / U.cm / U.cm, vMin := 0, vMax := (544 + 232.58) * U.km / U.sec, useEta := true,
      v0 := 220 * U.km / U.sec, vEsc := 544 * U.km / U.sec, vObs := vnorm vel, velObs := vel, nEsc := 0 }

/-- `Standard_Halo_Model(rho, v0, vobs, vesc)` with the observer's speed, `src/DM_Halo_Models.cpp:27-33`. -/
noncomputable def makeSpeed (rho v0 vobs vesc : ℝ) : SHM :=
  normalize
    { density := rho, vMin := 0, vMax := vesc + vobs, useEta := true, v0 := v0, vEsc := vesc, vObs := vobs,
      velObs := ![0, vobs, 0], nEsc := 0 }

/-- `Standard_Halo_Model(rho, v0, vel_obs, vesc)` with the observer's velocity, `src/DM_Halo_Models.cpp:35-41`. -/
noncomputable def makeVel (rho v0 : ℝ) (vel : Vec) (vesc : ℝ) : SHM :=
  normalize
    { density := rho, vMin := 0, vMax := vesc + vnorm vel, useEta := true, v0 := v0, vEsc := vesc, vObs := vnorm vel,
      velObs := vel, nEsc := 0 }

/-- `Set_Speed_Dispersion`, `src/DM_Halo_Models.cpp:44-48`. -/
noncomputable def setSpeedDispersion (s : SHM) (v0 : ℝ) : SHM := normalize { s with v0 := v0 }

/-- `Set_Escape_Velocity`, `src/DM_Halo_Models.cpp:49-55`. -/
noncomputable def setEscapeVelocity (s : SHM) (vesc : ℝ) : SHM :=
  normalize { s with vEsc := vesc, vMax := vesc + s.vObs }

/-- `Set_Observer_Velocity(vel_obs)`, `src/DM_Halo_Models.cpp:56-62`. -/
noncomputable def setObserverVelocity (s : SHM) (vel : Vec) : SHM :=
  { s with velObs := vel, vObs := vnorm vel, vMax := s.vEsc + vnorm vel }

/-- `Set_Observer_Velocity(day, month, year, hour, minute)`, `src/DM_Halo_Models.cpp:63-70`. -/
noncomputable def setObserverDate (U : Units) (s : SHM) (day month year hour minute : ℤ) : SHM :=
  let vel := earthVelocity U (fractionalDaysSinceJ2000 day month year hour minute 0)
  { s with velObs := vel, vObs := vnorm vel, vMax := s.vEsc + vnorm vel }

/-- `PDF_Velocity_SHM`, `src/DM_Halo_Models.cpp:84-91`. -/
noncomputable def pdfVelocitySHM (s : SHM) (vel : Vec) : ℝ :=
  open Classical in
  if s.vEsc < vnorm vel ∨ vnorm vel ≤ s.vMin then 0
  else 1 / s.nEsc * ((s.v0 * Real.sqrt Real.pi) ^ 3)⁻¹ * Real.exp (-1 * dot vel vel / s.v0 / s.v0)

/-- `PDF_Speed_SHM`, `src/DM_Halo_Models.cpp:93-101`. -/
noncomputable def pdfSpeedSHM (s : SHM) (v : ℝ) : ℝ :=
  open Real Classical in
  if v < s.vMin ∨ s.vMax < v then 0
  else if 0 < s.vObs then
    v / s.nEsc / s.v0 / √π / s.vObs *
      (2 * exp (-(v * v + s.vObs * s.vObs) / s.v0 / s.v0) * sinh (2 * v * s.vObs / s.v0 / s.v0) +
        (exp (-(v + s.vObs) ^ 2 / s.v0 / s.v0) - exp (-s.vEsc * s.vEsc / s.v0 / s.v0)) *
          stepFunction (|v + s.vObs| - s.vEsc))
  else 4 * v * v / s.nEsc / √π / s.v0 / s.v0 / s.v0 * exp (-v * v / s.v0 / s.v0) * stepFunction (s.vMax - v)

/-- `CDF_Speed_SHM`, `src/DM_Halo_Models.cpp:103-118`. -/
noncomputable def cdfSpeedSHM (s : SHM) (v : ℝ) : ℝ :=
  open Real Classical in
  if v ≤ s.vMin then 0
  else if s.vMax ≤ v then 1
  else if 0 < s.vObs then
    let cdf := 1 / 2 / s.nEsc * (erf ((v - s.vObs) / s.v0) + erf ((v + s.vObs) / s.v0) -
      s.v0 / s.vObs / √π * (exp (-(v - s.vObs) * (v - s.vObs) / s.v0 / s.v0) -
        exp (-(v + s.vObs) * (v + s.vObs) / s.v0 / s.v0)))
    if s.vEsc - s.vObs < v then
      cdf + 1 / 2 / s.nEsc * (erf (s.vEsc / s.v0) - erf ((v + s.vObs) / s.v0) -
        s.v0 / s.vObs / √π * exp (-(v + s.vObs) * (v + s.vObs) / s.v0 / s.v0) +
        (s.v0 * s.v0 - v * v + (s.vEsc - s.vObs) * (s.vEsc - s.vObs)) / s.vObs / s.v0 / √π *
          exp (-s.vEsc * s.vEsc / s.v0 / s.v0))
    else cdf
  else 1 / s.nEsc * (erf (v / s.v0) - 2 * v / √π / s.v0 * exp (-v * v / s.v0 / s.v0))

/-- `PDF_Velocity`, `src/DM_Halo_Models.cpp:120-123`. -/
noncomputable def pdfVelocity (s : SHM) (vel : Vec) : ℝ := s.pdfVelocitySHM (vel + s.velObs)

/-- `PDF_Speed`, `src/DM_Halo_Models.cpp:124-127`. -/
noncomputable def pdfSpeed (s : SHM) (v : ℝ) : ℝ := s.pdfSpeedSHM v

/-- `CDF_Speed`, `src/DM_Halo_Models.cpp:128-131`. -/
noncomputable def cdfSpeed (s : SHM) (v : ℝ) : ℝ := s.cdfSpeedSHM v

/-- `Eta_Function_SHM`, `src/DM_Halo_Models.cpp:134-151`. -/
noncomputable def etaSHM (s : SHM) (vMin : ℝ) : ℝ :=
  open Real Classical in
  let xMin := vMin / s.v0
  let xEsc := s.vEsc / s.v0
  let xE := s.vObs / s.v0
  if xE + xEsc < xMin then 0
  else if |xMin - xE - xEsc| < 1e-8 then 0
  else if xE < 1e-8 then 2 / s.nEsc / √π / s.v0 * (exp (-xMin * xMin) - exp (-xEsc * xEsc))
  else if |xE - xEsc| < xMin then
    1 / s.v0 / 2 / s.nEsc / xE * (erf xEsc - erf (xMin - xE) - 2 / √π * (xE + xEsc - xMin) * exp (-xEsc * xEsc))
  else if xE < xEsc then
    1 / s.v0 / 2 / s.nEsc / xE * (erf (xMin + xE) - erf (xMin - xE) - 4 / √π * xE * exp (-xEsc * xEsc))
  else 1 / s.v0 / xE

/-- `Eta_Function`, `src/DM_Halo_Models.cpp:153-156`. -/
noncomputable def eta (s : SHM) (vMin : ℝ) : ℝ := s.etaSHM vMin

/-- `Get_Observer_Velocity`, `src/DM_Halo_Models.cpp:72-75`. -/
def observerVelocity (s : SHM) : Vec := s.velObs

/-- The public mutators of `Standard_Halo_Model`. `density` and `useEta` are public fields of the base class
(`include/obscura/DM_Distribution.hpp:24-25`). -/
inductive Op where
  | setSpeedDispersion (v0 : ℝ)
  | setEscapeVelocity (vesc : ℝ)
  | setObserverVelocity (vel : Vec)
  | setObserverDate (day month year hour minute : ℤ)
  | setDensity (rho : ℝ)

/-- One call. `include/obscura/DM_Halo_Models.hpp:34-37`. -/
noncomputable def step (U : Units) (s : SHM) : Op → SHM
  | .setSpeedDispersion v0 => s.setSpeedDispersion v0
  | .setEscapeVelocity vesc => s.setEscapeVelocity vesc
  | .setObserverVelocity vel => s.setObserverVelocity vel
  | .setObserverDate d m y h mi => s.setObserverDate U d m y h mi
  | .setDensity rho => { s with density := rho }

/-- A history of calls. `include/obscura/DM_Halo_Models.hpp:34-37`. -/
noncomputable def run (U : Units) (s : SHM) (ops : List Op) : SHM := ops.foldl (step U) s

end SHM

end Obscura
