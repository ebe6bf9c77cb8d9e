import Verif.Model.Halo

/-!
# SHM++ — `src/DM_Halo_Models.cpp:176-331`

Divisions and roots are total here; the theorems assume `0 < v_0`, `0 < beta < 1`, so that no divisor is zero
(`beta = 0` makes the code evaluate `sqrt(1/0)`, see `Compute_Sigmas`/`Normalize_PDF`).
-/

namespace Obscura

/-- The numerical routines of libphysica used by the halo models. -/
structure Numerics where
  integrate : Integrator
  integrate2 : Integrator2
  interpolate : Interpolator

/-- The state of an `SHM_Plus_Plus`, `include/obscura/DM_Halo_Models.hpp:52-74`. `table` is the interpolation object
`eta_interpolation_s`. -/
structure SHMpp extends SHM where
  etaS : ℝ
  beta : ℝ
  sigmaR : ℝ
  sigmaTheta : ℝ
  sigmaPhi : ℝ
  nEscS : ℝ
  table : ℝ → ℝ

namespace SHMpp

/-- `Compute_Sigmas`, `src/DM_Halo_Models.cpp:177-182`. -/
noncomputable def computeSigmas (s : SHMpp) (beta : ℝ) : SHMpp :=
  let sr := Real.sqrt (3 * s.v0 * s.v0 / 2 / (3 - 2 * beta))
  let st := Real.sqrt (3 * s.v0 * s.v0 * (1 - beta) / 2 / (3 - 2 * beta))
  { s with sigmaR := sr, sigmaTheta := st, sigmaPhi := st }

/-- `SHM_Plus_Plus::Normalize_PDF` (virtual, also called by the inherited setters), `src/DM_Halo_Models.cpp:184-188`. -/
noncomputable def normalize (s : SHMpp) : SHMpp :=
  { s with nEsc := SHM.nEscOf s.v0 s.vEsc, nEscS := erf (s.vEsc / Real.sqrt 2 / s.sigmaR) - Real.sqrt ((1 - s.beta) / s.beta) * Real.exp (-s.vEsc * s.vEsc / 2 / s.sigmaTheta / s.sigmaTheta) * erfi (s.vEsc / Real.sqrt 2 / s.sigmaR * Real.sqrt (s.beta / (1 - s.beta))) }

/-- `PDF_Velocity_S`, `src/DM_Halo_Models.cpp:190-202`. -/
noncomputable def pdfVelocityS (s : SHMpp) (vel : Vec) : ℝ :=
  open Classical in
  if s.vEsc < vnorm vel then 0
  else
    1 / s.nEscS / (2 * Real.pi) ^ (1.5 : ℝ) / s.sigmaR / s.sigmaTheta / s.sigmaPhi *
      Real.exp (-vel 0 * vel 0 / 2 / s.sigmaR / s.sigmaR - vel 2 * vel 2 / 2 / s.sigmaTheta / s.sigmaTheta -
        vel 1 * vel 1 / 2 / s.sigmaPhi / s.sigmaPhi)

/-- `PDF_Speed_S`, `src/DM_Halo_Models.cpp:204-213`. -/
noncomputable def pdfSpeedS (N : Numerics) (s : SHMpp) (v : ℝ) : ℝ :=
  open Classical in
  if v ≤ s.vMin ∨ s.vMax ≤ v then 0
  else
    N.integrate2 (fun c phi => v * v * s.pdfVelocityS (sphericalCoordinates v (Real.arccos c) phi + s.velObs)) (-1) 1 0
      (2 * Real.pi)

/-- `CDF_Speed_S`, `src/DM_Halo_Models.cpp:215-228`. -/
noncomputable def cdfSpeedS (N : Numerics) (s : SHMpp) (v : ℝ) : ℝ :=
  open Classical in
  if v ≤ s.vMin then 0 else if s.vMax ≤ v then 1 else N.integrate (s.pdfSpeedS N) s.vMin v

/-- `Eta_Function_S`, `src/DM_Halo_Models.cpp:230-241`. -/
noncomputable def etaFunctionS (N : Numerics) (s : SHMpp) (vMin : ℝ) : ℝ :=
  open Classical in
  if vMin < s.vMin ∨ s.vMax ≤ vMin then 0 else N.integrate (fun v => s.pdfSpeedS N v / v) vMin s.vMax

/-- `Interpolate_Eta_Function_S` with the default 100 points, `src/DM_Halo_Models.cpp:243-250`,
`include/obscura/DM_Halo_Models.hpp:71`. -/
noncomputable def interpolateEta (N : Numerics) (s : SHMpp) : SHMpp :=
  let vs := linearSpace s.vMin s.vMax 100
  { s with table := N.interpolate vs (vs.map (s.etaFunctionS N)) }

/-- The common part of the three constructors, `src/DM_Halo_Models.cpp:259-284`. -/
noncomputable def ofSHM (N : Numerics) (h : SHM) (e b : ℝ) : SHMpp :=
  let s0 : SHMpp := { h with etaS := e, beta := b, sigmaR := 0, sigmaTheta := 0, sigmaPhi := 0, nEscS := 0, table := fun _ => 0 }
  (normalize (computeSigmas s0 b)).interpolateEta N

/-- `SHM_Plus_Plus(e, b)`, `src/DM_Halo_Models.cpp:259-266`. -/
noncomputable def default (U : Units) (N : Numerics) (e b : ℝ) : SHMpp :=
  ofSHM N (SHM.makeSpeed (0.55 * U.GeV / U.cm / U.cm / U.cm) (233 * U.km / U.sec) (240 * U.km / U.sec) (528 * U.km / U.sec)) e b

/-- `SHM_Plus_Plus(rho, v0, vobs, vesc, e, b)`, `src/DM_Halo_Models.cpp:268-275`. -/
noncomputable def makeSpeed (N : Numerics) (rho v0 vobs vesc e b : ℝ) : SHMpp := ofSHM N (SHM.makeSpeed rho v0 vobs vesc) e b

/-- `SHM_Plus_Plus(rho, v0, vel_obs, vesc, e, b)`, `src/DM_Halo_Models.cpp:277-284`. -/
noncomputable def makeVel (N : Numerics) (rho v0 : ℝ) (vel : Vec) (vesc e b : ℝ) : SHMpp :=
  ofSHM N (SHM.makeVel rho v0 vel vesc) e b

/-- `Set_Speed_Dispersion` (overridden), `src/DM_Halo_Models.cpp:286-291`. -/
noncomputable def setSpeedDispersion (s : SHMpp) (v0 : ℝ) : SHMpp :=
  let s1 : SHMpp := { s with v0 := v0 }
  normalize (computeSigmas s1 s1.beta)

/-- `Set_Eta`, `src/DM_Halo_Models.cpp:293-296`. -/
def setEta (s : SHMpp) (e : ℝ) : SHMpp := { s with etaS := e }

/-- `Set_Beta`, `src/DM_Halo_Models.cpp:298-303`. -/
noncomputable def setBeta (s : SHMpp) (b : ℝ) : SHMpp :=
  let s1 : SHMpp := { s with beta := b }
  normalize (computeSigmas s1 s1.beta)

/-- `Set_Escape_Velocity` (inherited; `Normalize_PDF` is virtual), `src/DM_Halo_Models.cpp:49-55`. -/
noncomputable def setEscapeVelocity (s : SHMpp) (vesc : ℝ) : SHMpp :=
  let s1 : SHMpp := { s with vEsc := vesc, vMax := vesc + s.vObs }
  normalize s1

/-- `Set_Observer_Velocity(vel_obs)` (inherited), `src/DM_Halo_Models.cpp:56-62`. -/
noncomputable def setObserverVelocity (s : SHMpp) (vel : Vec) : SHMpp :=
  { s with velObs := vel, vObs := vnorm vel, vMax := s.vEsc + vnorm vel }

/-- `Set_Observer_Velocity(day, …)` (inherited), `src/DM_Halo_Models.cpp:63-70`. -/
noncomputable def setObserverDate (U : Units) (s : SHMpp) (day month year hour minute : ℤ) : SHMpp :=
  s.setObserverVelocity (earthVelocity U (fractionalDaysSinceJ2000 day month year hour minute 0))

/-- `PDF_Velocity`, `src/DM_Halo_Models.cpp:305-308`. -/
noncomputable def pdfVelocity (s : SHMpp) (vel : Vec) : ℝ :=
  (1 - s.etaS) * s.toSHM.pdfVelocitySHM (vel + s.velObs) + s.etaS * s.pdfVelocityS (vel + s.velObs)

/-- `PDF_Speed`, `src/DM_Halo_Models.cpp:310-313`. -/
noncomputable def pdfSpeed (N : Numerics) (s : SHMpp) (v : ℝ) : ℝ :=
  (1 - s.etaS) * s.toSHM.pdfSpeedSHM v + s.etaS * s.pdfSpeedS N v

/-- `CDF_Speed`, `src/DM_Halo_Models.cpp:315-318`. -/
noncomputable def cdfSpeed (N : Numerics) (s : SHMpp) (v : ℝ) : ℝ :=
  (1 - s.etaS) * s.toSHM.cdfSpeedSHM v + s.etaS * s.cdfSpeedS N v

/-- `Eta_Function`, `src/DM_Halo_Models.cpp:320-331`. -/
noncomputable def eta (s : SHMpp) (vMin : ℝ) : Outcome ℝ :=
  open Classical in
  if vMin < s.vMin then .exit
  else if s.vMax < vMin then .ok 0
  else .ok ((1 - s.etaS) * s.toSHM.etaSHM vMin + s.etaS * s.table vMin)

/-- The public mutators of `SHM_Plus_Plus`. `include/obscura/DM_Halo_Models.hpp:34-37,83-86`. -/
inductive Op where
  | base (op : SHM.Op)
  | setEta (e : ℝ)
  | setBeta (b : ℝ)

/-- One call. `include/obscura/DM_Halo_Models.hpp:34-37,83-86`. -/
noncomputable def step (U : Units) (s : SHMpp) : Op → SHMpp
  | .base (.setSpeedDispersion v0) => s.setSpeedDispersion v0
  | .base (.setEscapeVelocity vesc) => s.setEscapeVelocity vesc
  | .base (.setObserverVelocity vel) => s.setObserverVelocity vel
  | .base (.setObserverDate d m y h mi) => s.setObserverDate U d m y h mi
  | .base (.setDensity rho) => { s with density := rho }
  | .setEta e => s.setEta e
  | .setBeta b => s.setBeta b

/-- A history of calls. `include/obscura/DM_Halo_Models.hpp:34-37,83-86`. -/
noncomputable def run (U : Units) (s : SHMpp) (ops : List Op) : SHMpp := ops.foldl (step U) s

end SHMpp

end Obscura
