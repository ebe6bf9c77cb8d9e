import Verif.Lemmas.Density
import Verif.Props.LimitComparison

/-!
# C93: the local density of dark matter
-/

namespace Obscura
open Spec DMParticle Detector IonizationDetector

variable {U : Units} {T : Tools} {h : Distribution} {p : DMParticle} {D : AnyDetector} {k c0 s cert : ℝ} {ss : List ℝ}

/-- C93 (event numbers). For detectors of all classes, in every state: with `k` times the local density the spectrum, the total signals and the
signals in every bin are multiplied by `k`. A call that ends in an error still does. -/
theorem C93_proportional (D : AnyDetector) (hI : T.integrate.Homogeneous)
    (hP : ∀ k xs (ys : List ℝ) x y, T.interpolationIntegral xs (ys.map fun z => k * z) x y = k * T.interpolationIntegral xs ys x y) :
    (∀ E, (D.toClass U T (denser k h)).dRdE D.base E p = k * (D.toClass U T h).dRdE D.base E p) ∧
    (D.toClass U T (denser k h)).signalsTotal D.base p = (D.toClass U T h).signalsTotal D.base p >>= (fun s => .ok (k * s)) ∧
    (D.toClass U T (denser k h)).signalsBinned D.base p =
      (D.toClass U T h).signalsBinned D.base p >>= fun ss => .ok (ss.map fun s => k * s) := by
  cases D with
  | nuclear d x =>
    have hr : ∀ E, (x.dRdE U T.integrate d E p (denser k h)).valueOr0 = k * (x.dRdE U T.integrate d E p h).valueOr0 :=
      fun E => by rw [denser_nuclear hI, Outcome.scale_valueOr0]
    have := base_of_rates (T := T) (d := d) (p := p) (k := k)
      (A := (x.toClass U T h).maximumEnergyDeposit) (B := (x.toClass U T h).minimumDMMass)
      (A' := (x.toClass U T (denser k h)).maximumEnergyDeposit) (B' := (x.toClass U T (denser k h)).minimumDMMass)
      (r := fun d E p => (x.dRdE U T.integrate d E p h).valueOr0)
      (r' := fun d E p => (x.dRdE U T.integrate d E p (denser k h)).valueOr0) hI hP hr
    exact ⟨hr, this.1, this.2⟩
  | electronRecoil d x =>
    refine ⟨fun E => ?_, signalsTotal_of_rates hI (denser_electrons hI), signalsBinned_of_rates hI (denser_electrons hI)⟩
    change (x.dRdE _ d E p).valueOr0 = k * (x.dRdE _ d E p).valueOr0
    rw [dRdE_of_rates (denser_electrons hI), Outcome.scale_valueOr0]
  | migdal d x =>
    refine ⟨fun E => ?_, signalsTotal_of_rates hI (denser_migdal hI), signalsBinned_of_rates hI (denser_migdal hI)⟩
    change (x.dRdE _ d E p).valueOr0 = k * (x.dRdE _ d E p).valueOr0
    rw [dRdE_of_rates (denser_migdal hI), Outcome.scale_valueOr0]
  | crystal d x =>
    refine ⟨fun E => ?_, denser_crystal_total hI, denser_crystal_binned hI⟩
    change (x.dRdE U T.integrate d E p (denser k h)).valueOr0 = k * (x.dRdE U T.integrate d E p h).valueOr0
    unfold CrystalDetector.dRdE
    rw [denser_crystal hI]
    cases dRdEeCrystal U T.integrate E p h x.crystal <;> simp [Outcome.scale, Outcome.valueOr0]
    ring

/-- C93 (what can be seen). The largest energy deposit and the smallest detectable mass do not depend on the density. -/
theorem C93_kinematics (D : AnyDetector) :
    (D.toClass U T (denser k h)).maximumEnergyDeposit p = (D.toClass U T h).maximumEnergyDeposit p ∧
    (D.toClass U T (denser k h)).minimumDMMass D.base p = (D.toClass U T h).minimumDMMass D.base p := by
  cases D <;> exact ⟨rfl, rfl⟩

/-- C93 (constructors). Halo models constructed with `k` times the density differ in nothing else. -/
theorem C93_halos (N : Numerics) (P : Interpolator) (file : Bool) (xs ys : List ℝ) (rho v0 : ℝ) (vel : Vec) (vobs vesc e b : ℝ) :
    Distribution.ofSHM (SHM.makeVel (k * rho) v0 vel vesc) = denser k (Distribution.ofSHM (SHM.makeVel rho v0 vel vesc)) ∧
    Distribution.ofSHM (SHM.makeSpeed (k * rho) v0 vobs vesc) = denser k (Distribution.ofSHM (SHM.makeSpeed rho v0 vobs vesc)) ∧
    Distribution.ofSHMpp N (SHMpp.makeVel N (k * rho) v0 vel vesc e b) = denser k (Distribution.ofSHMpp N (SHMpp.makeVel N rho v0 vel vesc e b)) ∧
    Distribution.ofSHMpp N (SHMpp.makeSpeed N (k * rho) v0 vobs vesc e b) =
      denser k (Distribution.ofSHMpp N (SHMpp.makeSpeed N rho v0 vobs vesc e b)) ∧
    Distribution.imported N.integrate P file (k * rho) xs ys =
      Distribution.imported N.integrate P file rho xs ys >>= fun h => .ok (denser k h) := by
  refine ⟨rfl, rfl, rfl, rfl, ?_⟩
  unfold Distribution.imported
  cases xs.head? <;> cases xs.getLast? <;> rfl

/-- C93 (upper limits of counting experiments). In a halo with `k` times the density the limit is `k` times stronger, exactly. -/
theorem C93_limit (hS : Sees U T h D p c0 s) (hR : T.findRoot.Exact) (hI : T.integrate.Homogeneous)
    (hP : ∀ k xs (ys : List ℝ) x y, T.interpolationIntegral xs (ys.map fun z => k * z) x y = k * T.interpolationIntegral xs ys x y)
    (hk : 0 < k) {r r' : Detector × DMParticle × ℝ} (h1 : D.base.upperLimit U T (D.toClass U T h) p cert = .ok r)
    (h2 : D.base.upperLimit U T (D.toClass U T (denser k h)) p cert = .ok r') (hx : 0 < r.2.2) (hx' : 0 < r'.2.2) :
    r.2.2 = k * r'.2.2 := by
  have hs' := (C93_proportional (U := U) (T := T) (h := h) (p := p) (k := k) D hI hP).2.1
  rw [hS.signal, Outcome.bind_ok] at hs'
  have hs0 := hS.visible
  have hpos := hS.positive
  have hS' : Sees U T (denser k h) D p c0 (k * s) :=
    ⟨hS.detector, hS.counting, hS.background, hS.particle, hS.parameter, hpos, hs', mul_pos hk hs0⟩
  have key := C87_comparison hS hS' hR hR rfl rfl h1 h2 hx hx'
  field_simp at key
  linarith

/-- C93 (upper limits of binned experiments). The same holds for binned analyses. -/
theorem C93_limit_binned (hS : SeesInBins U T h D p c0 ss) (hR : T.findRoot.Exact) (hI : T.integrate.Homogeneous)
    (hP : ∀ k xs (ys : List ℝ) x y, T.interpolationIntegral xs (ys.map fun z => k * z) x y = k * T.interpolationIntegral xs ys x y)
    (hk : 0 < k) {r r' : Detector × DMParticle × ℝ} (h1 : D.base.upperLimit U T (D.toClass U T h) p cert = .ok r)
    (h2 : D.base.upperLimit U T (D.toClass U T (denser k h)) p cert = .ok r') (hx : 0 < r.2.2) (hx' : 0 < r'.2.2) :
    r.2.2 = k * r'.2.2 := by
  have hs' := (C93_proportional (U := U) (T := T) (h := h) (p := p) (k := k) D hI hP).2.2
  rw [hS.signal, Outcome.bind_ok] at hs'
  have hpos := hS.positive
  have hget : ∀ i, (ss.map fun s => k * s).getD i 0 = k * ss.getD i 0 := getD_map_mul ss k
  have hS' : SeesInBins U T (denser k h) D p c0 (ss.map fun s => k * s) :=
    ⟨hS.detector, hS.binned, hS.bins, hS.background, hS.particle, hS.parameter, hpos, hs',
      by rw [List.length_map]; exact hS.complete, fun i hi => by rw [hget]; exact mul_pos hk (hS.visible i hi)⟩
  have a1 := C87_comparison_binned hS hS' hR hR rfl (fun _ _ => rfl) (fun _ _ => rfl) (k := k)
    (fun i _ => by rw [hget, mul_div_assoc]) h1 h2 hx hx'
  have a2 := C87_comparison_binned hS' hS hR hR rfl (fun _ _ => rfl) (fun _ _ => rfl) (k := k⁻¹)
    (fun i _ => by rw [hget, mul_div_assoc, inv_mul_cancel_left₀ hk.ne']) h2 h1 hx' hx
  refine le_antisymm a1 ?_
  calc k * r'.2.2 ≤ k * (k⁻¹ * r.2.2) := mul_le_mul_of_nonneg_left a2 hk.le
    _ = r.2.2 := mul_inv_cancel_left₀ hk.ne' _

/-- Non-vacuity: an experiment whose limit is 2 in one halo and 1 in the halo of twice the density. -/
example (U : Units) : ∃ (T : Tools) (v : ℝ) (p : DMParticle) (s cert : ℝ) (p₁ p₂ : DMParticle),
    T.findRoot.Exact ∧ T.integrate.Homogeneous ∧ Sees U T (flatHalo v) (hydrogenDetector U) p 1 s ∧
    (∀ k xs (ys : List ℝ) x y, T.interpolationIntegral xs (ys.map fun z => k * z) x y = k * T.interpolationIntegral xs ys x y) ∧
    (hydrogenDetector U).base.upperLimit U T ((hydrogenDetector U).toClass U T (flatHalo v)) p cert = .ok ((hydrogenDetector U).base, p₁, 2) ∧
    (hydrogenDetector U).base.upperLimit U T ((hydrogenDetector U).toClass U T (denser 2 (flatHalo v))) p cert =
      .ok ((hydrogenDetector U).base, p₂, 1) := by
  obtain ⟨T, hI, hR, hT, hP⟩ := exists_tools
  obtain ⟨v, p, s, -, -, -, hS⟩ := sees_example U hT
  have hs := hS.visible
  have hs' := (C93_proportional (U := U) (T := T) (h := flatHalo v) (p := p) (k := 2) (hydrogenDetector U) hI hP).2.1
  rw [hS.signal, Outcome.bind_ok] at hs'
  have hS' : Sees U T (denser 2 (flatHalo v)) (hydrogenDetector U) p 1 (2 * s) :=
    ⟨hS.detector, hS.counting, hS.background, hS.particle, hS.parameter, hS.positive, hs', by linarith⟩
  obtain ⟨p₁, x₁, g1, k1⟩ := C87_value hS hR (1 - probAtMost (2 / 1 * s + 1) 3)
  have e1 := LimitOf.eq (c := 2) (n := 3) (b := 1) one_pos hs zero_le_one (inRange_of (by norm_num) (by norm_num)) rfl k1
  obtain ⟨p₂, x₂, g2, k2⟩ := C87_value hS' hR (1 - probAtMost (2 / 1 * s + 1) 3)
  have e2 := LimitOf.eq (c := 1) (n := 3) (b := 1) one_pos hS'.visible zero_le_one (inRange_of (by norm_num) (by norm_num))
    (by rw [show (1 : ℝ) / 1 * (2 * s) + 1 = 2 / 1 * s + 1 by ring]) k2
  subst e1 e2
  exact ⟨T, v, p, s, _, p₁, p₂, hR, hI, hS, hP, g1, g2⟩

end Obscura
