import Verif.Model.Halo

/-!
# Specification: halo models

What a user who calls constructors and setters thinks the current parameters are.
-/

namespace Obscura

/-- The parameters of a standard halo model. -/
structure HaloParams where
  rho : ℝ
  v0 : ℝ
  vel : Vec
  vesc : ℝ

/-- The parameters after one setter call: each setter replaces its own parameter and nothing else. -/
noncomputable def HaloParams.after (U : Units) (p : HaloParams) : SHM.Op → HaloParams
  | .setSpeedDispersion v0 => { p with v0 := v0 }
  | .setEscapeVelocity vesc => { p with vesc := vesc }
  | .setObserverVelocity vel => { p with vel := vel }
  | .setObserverDate d m y h mi =>
      { p with vel := earthVelocity U (fractionalDaysSinceJ2000 d m y h mi 0) }
  | .setDensity rho => { p with rho := rho }

/-- Constructed with explicit parameters (speed or velocity of the observer). -/
inductive SHM.Built : SHM → Prop
  | speed (rho v0 vobs vesc : ℝ) (h : 0 ≤ vobs) : SHM.Built (SHM.makeSpeed rho v0 vobs vesc)
  | vel (rho v0 : ℝ) (vel : Vec) (vesc : ℝ) : SHM.Built (SHM.makeVel rho v0 vel vesc)

/-- Reached from a constructor with explicit parameters by any history of setter calls. -/
def SHM.Reachable (U : Units) (s : SHM) : Prop := ∃ s0 ops, SHM.Built s0 ∧ s = SHM.run U s0 ops

/-- The current parameters make physical sense: positive dispersion and escape speed. -/
def SHM.Physical (s : SHM) : Prop := 0 < s.v0 ∧ 0 < s.vEsc

end Obscura
