import Verif.Props.HaloPP

/-!
# C19, C20, C59 — the constructors of the SHM++

The theorems about the SHM++ speak about `HaloPPParams.fresh`, built from the velocity of the observer. Here the other two constructors are reduced to it.
-/

namespace Obscura

/-- The parameters an SHM++ shows to its user. -/
theorem HaloPPParams.fresh_fields (N : Numerics) (p : HaloPPParams) :
    (p.fresh N).density = p.rho ∧ (p.fresh N).v0 = p.v0 ∧ (p.fresh N).velObs = p.vel ∧ (p.fresh N).vEsc = p.vesc ∧ (p.fresh N).etaS = p.e ∧
      (p.fresh N).beta = p.b ∧ (p.fresh N).vMin = 0 ∧ (p.fresh N).vMax = p.vesc + vnorm p.vel := by
  simp [HaloPPParams.fresh, SHMpp.makeVel, SHMpp.ofSHM, SHMpp.interpolateEta, SHMpp.normalize, SHMpp.computeSigmas, SHM.makeVel, SHM.normalize]

/-- C19 (constructors). The SHM++ built from the speed of the observer is the one whose observer moves with this speed along the second axis; the one
built from the two parameters of the anisotropic component alone has 0.55 GeV/cm³, 233 km/s, an observer with 240 km/s and an escape speed of 528 km/s.
All of them start with the parameters given. -/
theorem C19_constructors (U : Units) (N : Numerics) :
    (∀ rho v0 vobs vesc e b, 0 ≤ vobs → ∃ p : HaloPPParams, SHMpp.makeSpeed N rho v0 vobs vesc e b = p.fresh N ∧
      p.rho = rho ∧ p.v0 = v0 ∧ p.vel = ![0, vobs, 0] ∧ p.vesc = vesc ∧ p.e = e ∧ p.b = b) ∧
    (∀ e b, ∃ p : HaloPPParams, SHMpp.default U N e b = p.fresh N ∧
      p.rho = 0.55 * U.GeV / U.cm ^ 3 ∧ p.v0 = 233 * (U.km / U.sec) ∧ p.vel = ![0, 240 * (U.km / U.sec), 0] ∧ p.vesc = 528 * (U.km / U.sec) ∧ p.e = e ∧
      p.b = b) ∧
    ∀ p : HaloPPParams, (p.fresh N).density = p.rho ∧ (p.fresh N).v0 = p.v0 ∧ (p.fresh N).velObs = p.vel ∧ (p.fresh N).vEsc = p.vesc ∧
      (p.fresh N).etaS = p.e ∧ (p.fresh N).beta = p.b ∧ (p.fresh N).vMin = 0 ∧ (p.fresh N).vMax = p.vesc + vnorm p.vel := by
  have key : ∀ rho v0 vobs vesc e b, 0 ≤ vobs → SHMpp.makeSpeed N rho v0 vobs vesc e b = (⟨⟨rho, v0, ![0, vobs, 0], vesc⟩, e, b⟩ : HaloPPParams).fresh N := by
    intro rho v0 vobs vesc e b h
    rw [SHMpp.makeSpeed, makeSpeed_eq h]
    rfl
  refine ⟨fun rho v0 vobs vesc e b h => ⟨_, key rho v0 vobs vesc e b h, rfl, rfl, rfl, rfl, rfl, rfl⟩, fun e b => ?_, fun p => p.fresh_fields N⟩
  have h : 0 ≤ 240 * U.km / U.sec := by
    have := U.km_pos
    have := U.sec_pos
    positivity
  refine ⟨_, key (0.55 * U.GeV / U.cm / U.cm / U.cm) (233 * U.km / U.sec) (240 * U.km / U.sec) (528 * U.km / U.sec) e b h, ?_, ?_, ?_, ?_, rfl, rfl⟩
  · simp only []
    rw [div_div, div_div]
    ring
  · simp only []
    ring
  · simp only [mul_div_assoc]
  · simp only []
    ring

/-- A non-trivial observer. -/
example (N : Numerics) : ∃ p : HaloPPParams, SHMpp.makeSpeed N 1 2 3 7 0.2 0.9 = p.fresh N ∧ p.vel = ![0, 3, 0] :=
  let ⟨p, h, _, _, hv, _⟩ := (C19_constructors Units.sample N).1 1 2 3 7 0.2 0.9 (by norm_num)
  ⟨p, h, hv⟩

end Obscura
