import Verif.Spec.Isotropy
import Verif.Props.Halo
import Verif.Props.HaloPP
import Verif.Lemmas.Turn
import Verif.Model.Configuration

/-!
# C99: only the speed of the observer matters in an isotropic halo
-/

namespace Obscura

open Spec

variable {U : Units} {s s' : SHM}

/-- C99 (speeds). Two standard halo models with the same density, dispersion and escape velocity, whatever calls led to them, and observers of the same
speed but any directions: speed PDF, CDF, `Eta_Function` and the domain of speeds are the same. -/
theorem C99_speeds (h : SHM.Reachable U s) (h' : SHM.Reachable U s') (hr : s'.density = s.density) (h0 : s'.v0 = s.v0) (he : s'.vEsc = s.vEsc)
    (ho : vnorm s'.observerVelocity = vnorm s.observerVelocity) : Distribution.ofSHM s' = Distribution.ofSHM s := by
  have e := reachable_eq h
  have e' := reachable_eq h'
  have ho : vnorm s'.velObs = vnorm s.velObs := ho
  rw [e, e', hr, h0, he]
  simp only [Distribution.ofSHM, SHM.makeVel, SHM.normalize, ho]
  rfl

/-- C99 (detectors). So every detector, whatever its class and its state, has the same spectra, expected events, p-values and limits. -/
theorem C99_detectors (h : SHM.Reachable U s) (h' : SHM.Reachable U s') (hr : s'.density = s.density) (h0 : s'.v0 = s.v0) (he : s'.vEsc = s.vEsc)
    (ho : vnorm s'.observerVelocity = vnorm s.observerVelocity) (T : Tools) (D : AnyDetector) (p : DMParticle) (cert : ℝ) (masses : List ℝ) :
    (∀ E, (D.toClass U T (.ofSHM s')).dRdE D.base E p = (D.toClass U T (.ofSHM s)).dRdE D.base E p) ∧
    (D.toClass U T (.ofSHM s')).signalsTotal D.base p = (D.toClass U T (.ofSHM s)).signalsTotal D.base p ∧
    (D.toClass U T (.ofSHM s')).signalsBinned D.base p = (D.toClass U T (.ofSHM s)).signalsBinned D.base p ∧
    D.base.pValue U T (D.toClass U T (.ofSHM s')) p = D.base.pValue U T (D.toClass U T (.ofSHM s)) p ∧
    D.base.upperLimitCurve U T (D.toClass U T (.ofSHM s')) p masses cert = D.base.upperLimitCurve U T (D.toClass U T (.ofSHM s)) p masses cert := by
  rw [C99_speeds h h' hr h0 he ho]
  exact ⟨fun _ => rfl, rfl, rfl, rfl, rfl⟩

/-- C99 (velocities). Turning the observer turns the velocity distribution. -/
theorem C99_velocities (h : SHM.Reachable U s) (h' : SHM.Reachable U s') (h0 : s'.v0 = s.v0) (he : s'.vEsc = s.vEsc) {R : Vec →ₗ[ℝ] Vec} (hR : Turn R)
    (ho : s'.observerVelocity = R s.observerVelocity) (v : Vec) : s'.pdfVelocity (R v) = s.pdfVelocity v := by
  have ho : s'.velObs = R s.velObs := ho
  have e := reachable_eq h
  have e' := reachable_eq h'
  have hn : s'.nEsc = s.nEsc := by
    rw [e, e', h0, he]
    rfl
  have hm : s'.vMin = s.vMin := by
    rw [e, e']
    rfl
  unfold SHM.pdfVelocity SHM.pdfVelocitySHM
  rw [ho, ← map_add, hR.norm, hR, h0, he, hn, hm]

/-- The observer of an SHM++ turned. -/
noncomputable def HaloPPParams.turned (p : HaloPPParams) (R : Vec →ₗ[ℝ] Vec) : HaloPPParams := { p with vel := R p.vel }

theorem sausage_turn (p : HaloPPParams) {R : Vec →ₗ[ℝ] Vec} (hR : Turn R) (h0 : KeepsRadial R) (u : Vec) :
    sausage p.sr p.st p.amp p.vesc (R u 0) (R u 1) (R u 2) = sausage p.sr p.st p.amp p.vesc (u 0) (u 1) (u 2) := by
  have hs := hR u u
  have hx := h0 u
  unfold dot at hs
  rw [hx] at hs
  unfold sausage
  rw [hx, hs]
  have h12 : R u 1 * R u 1 + R u 2 * R u 2 = u 1 * u 1 + u 2 * u 2 := by linarith
  split_ifs with hc
  · rfl
  · congr 2
    have e : ∀ a b : ℝ, (a * a + b * b) * (1 / 2 / p.st / p.st) = b * b / 2 / p.st / p.st + a * a / 2 / p.st / p.st := by
      intro a b
      ring
    have := congrArg (fun t => t * (1 / 2 / p.st / p.st)) h12
    rw [e, e] at this
    linarith

/-- C99 (SHM++). The velocity distribution of an SHM++ turns with the observer, if the radial direction is kept. -/
theorem C99_plus_plus (N : Numerics) (p : HaloPPParams) (hp : p.Physical) {R : Vec →ₗ[ℝ] Vec} (hR : Turn R) (h0 : KeepsRadial R) (v : Vec) :
    (SHMpp.makeVel N p.rho p.v0 (R p.vel) p.vesc p.e p.b).pdfVelocity (R v) = (SHMpp.makeVel N p.rho p.v0 p.vel p.vesc p.e p.b).pdfVelocity v := by
  have hq : (p.turned R).Physical := hp
  have hS := sausage_turn p hR h0 (v + p.vel)
  have e1 := fresh_pdfVelocityS N (p.turned R) hq (R v + R p.vel)
  have e2 := fresh_pdfVelocityS N p hp (v + p.vel)
  rw [← map_add] at e1
  have e3 : ((p.turned R).fresh N).pdfVelocityS (R (v + p.vel)) = (p.fresh N).pdfVelocityS (v + p.vel) := by
    rw [e1, e2]
    exact hS
  have e4 : ((p.turned R).fresh N).toSHM.pdfVelocitySHM (R (v + p.vel)) = (p.fresh N).toSHM.pdfVelocitySHM (v + p.vel) := by
    unfold SHM.pdfVelocitySHM
    rw [hR.norm, hR]
    rfl
  show ((p.turned R).fresh N).pdfVelocity (R v) = (p.fresh N).pdfVelocity v
  unfold SHMpp.pdfVelocity
  rw [show ((p.turned R).fresh N).velObs = R p.vel from rfl, ← map_add, e3, e4]
  rfl

theorem pdfSpeedS_turn (N : Numerics) (hI : N.integrate2.Exact) (p : HaloPPParams) (hp : p.Physical) {R : Vec →ₗ[ℝ] Vec} (hR : Turn R)
    (h0 : KeepsRadial R) : ((p.turned R).fresh N).pdfSpeedS N = (p.fresh N).pdfSpeedS N := by
  funext v
  have hq : (p.turned R).Physical := hp
  rw [fresh_pdfSpeedS N hI _ hq, fresh_pdfSpeedS N hI _ hp]
  rw [show vnorm (p.turned R).vel = vnorm p.vel from hR.norm _]
  refine if_congr Iff.rfl rfl ?_
  congr 2
  let f : Vec → ENNReal := fun u => ENNReal.ofReal (sausage p.sr p.st p.amp p.vesc (u 0 + R p.vel 0) (u 1 + R p.vel 1) (u 2 + R p.vel 2))
  have hf : Measurable f :=
    ((measurable_sausage p.sr p.st p.amp p.vesc).comp
      (by fun_prop : Measurable fun u : Vec => (u 0 + R p.vel 0, u 1 + R p.vel 1, u 2 + R p.vel 2))).ennreal_ofReal
  have := dirs_turn hf hR v
  refine Eq.trans (Eq.trans ?_ this.symm) ?_
  · rfl
  · congr 1
    funext x y z
    simp only [f]
    congr 1
    have e := sausage_turn p hR h0 (![x, y, z] + p.vel)
    rw [map_add] at e
    exact e

/-- C99 (SHM++, speeds). Turning the observer about the direction to the galactic centre changes no speed PDF, CDF or `Eta_Function`. -/
theorem C99_plus_plus_speeds (N : Numerics) (hI : N.integrate2.Exact) (p : HaloPPParams) (hp : p.Physical) {R : Vec →ₗ[ℝ] Vec} (hR : Turn R)
    (h0 : KeepsRadial R) (v : ℝ) :
    (SHMpp.makeVel N p.rho p.v0 (R p.vel) p.vesc p.e p.b).pdfSpeed N v = (SHMpp.makeVel N p.rho p.v0 p.vel p.vesc p.e p.b).pdfSpeed N v ∧
    (SHMpp.makeVel N p.rho p.v0 (R p.vel) p.vesc p.e p.b).cdfSpeed N v = (SHMpp.makeVel N p.rho p.v0 p.vel p.vesc p.e p.b).cdfSpeed N v ∧
    (SHMpp.makeVel N p.rho p.v0 (R p.vel) p.vesc p.e p.b).eta v = (SHMpp.makeVel N p.rho p.v0 p.vel p.vesc p.e p.b).eta v := by
  have hS := pdfSpeedS_turn N hI p hp hR h0
  have hmax : ((p.turned R).fresh N).vMax = (p.fresh N).vMax := by
    show p.vesc + vnorm (R p.vel) = p.vesc + vnorm p.vel
    rw [hR.norm]
  have hobs : ((p.turned R).fresh N).vObs = (p.fresh N).vObs := hR.norm _
  have hmin : ((p.turned R).fresh N).vMin = (p.fresh N).vMin := rfl
  have hE : ((p.turned R).fresh N).etaFunctionS N = (p.fresh N).etaFunctionS N := by
    funext w
    unfold SHMpp.etaFunctionS
    rw [hS, hmax, hmin]
  have hT : ((p.turned R).fresh N).table = (p.fresh N).table := by
    have t1 : ∀ q : HaloPPParams, (q.fresh N).table =
        N.interpolate (linearSpace (q.fresh N).vMin (q.fresh N).vMax 100) ((linearSpace (q.fresh N).vMin (q.fresh N).vMax 100).map ((q.fresh N).etaFunctionS N)) :=
      fun _ => rfl
    rw [t1, t1, hE, hmax, hmin]
  refine ⟨?_, ?_, ?_⟩
  · show ((p.turned R).fresh N).pdfSpeed N v = (p.fresh N).pdfSpeed N v
    unfold SHMpp.pdfSpeed SHM.pdfSpeedSHM
    rw [hS, hmax, hobs]
    rfl
  · show ((p.turned R).fresh N).cdfSpeed N v = (p.fresh N).cdfSpeed N v
    unfold SHMpp.cdfSpeed SHM.cdfSpeedSHM SHMpp.cdfSpeedS
    rw [hS, hmax, hobs]
    rfl
  · show ((p.turned R).fresh N).eta v = (p.fresh N).eta v
    unfold SHMpp.eta SHM.etaSHM
    rw [hT, hmax, hobs]
    rfl

/-- A quarter turn about the direction to the galactic centre. -/
noncomputable def quarterTurn : Vec →ₗ[ℝ] Vec where
  toFun v := ![v 0, -v 2, v 1]
  map_add' v w := by
    funext i
    fin_cases i <;> simp [add_comm]
  map_smul' a v := by
    funext i
    fin_cases i <;> simp

/-- The hypotheses are met: a quarter turn moves an observer to another direction and keeps the radial one; with exact quadratures (which exist). -/
example : Turn quarterTurn ∧ KeepsRadial quarterTurn ∧ quarterTurn ![11, 232, 7] ≠ ![11, 232, 7] := by
  refine ⟨fun v w => ?_, fun v => rfl, fun h => ?_⟩
  · simp [quarterTurn, dot]
    ring
  · have := congrFun h 1
    simp [quarterTurn] at this
    norm_num at this

end Obscura
