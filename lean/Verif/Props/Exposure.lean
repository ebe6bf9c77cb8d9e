import Verif.Lemmas.Exposure
import Verif.Props.MaximumGap

/-!
# Property C80: predicted events are proportional to exposure and efficiency
-/

namespace Obscura
open Spec IonizationDetector

variable {U : Units} {T : Tools} {h : Distribution} {p : DMParticle} {a f : ℝ}

/-- C80 (proportional). For detectors of all classes, in every state: with `a` times the exposure and `f` times the flat efficiency, the spectrum
is multiplied by `f`, and the total signals and the signals in every bin are multiplied by `a f`. A call that ends in an error still does. -/
theorem C80_proportional (D : AnyDetector) (hI : T.integrate.Homogeneous)
    (hP : ∀ k xs (ys : List ℝ) x y, T.interpolationIntegral xs (ys.map fun z => k * z) x y = k * T.interpolationIntegral xs ys x y) :
    (∀ E, (D.toClass U T h).dRdE (rescaled D.base a f) E p = f * (D.toClass U T h).dRdE D.base E p) ∧
    (D.toClass U T h).signalsTotal (rescaled D.base a f) p =
      (D.toClass U T h).signalsTotal D.base p >>= (fun s => .ok (a * f * s)) ∧
    (D.toClass U T h).signalsBinned (rescaled D.base a f) p =
      (D.toClass U T h).signalsBinned D.base p >>= fun ss => .ok (ss.map fun s => a * f * s) := by
  have hER : ∀ (d : Detector) E n e, shellRateER U T.integrate h (rescaled d a f) E p n e =
      (shellRateER U T.integrate h d E p n e).scale f := by
    intro d E n e
    unfold shellRateER
    cases dRdEeER U T.integrate E p h n.averageMass e <;> simp [Outcome.scale, rescaled]
    ring
  have hM : ∀ (d : Detector) E n e, shellRateMigdal U T.integrate h (rescaled d a f) E p n e =
      (shellRateMigdal U T.integrate h d E p n e).scale f := by
    intro d E n e
    simp [shellRateMigdal, Outcome.scale, rescaled]
    ring
  cases D with
  | nuclear d x =>
    have hr : ∀ E, (x.dRdE U T.integrate (rescaled d a f) E p h).valueOr0 = f * (x.dRdE U T.integrate d E p h).valueOr0 :=
      fun E => by rw [rescaled_nuclear_rate hI, Outcome.scale_valueOr0]
    have := rescaled_base (T := T) (d := d) (p := p) (a := a) (f := f)
      (A := (x.toClass U T h).maximumEnergyDeposit) (B := (x.toClass U T h).minimumDMMass)
      (rate := fun d E p => (x.dRdE U T.integrate d E p h).valueOr0) hI hP hr
    exact ⟨hr, this.1, this.2⟩
  | electronRecoil d x =>
    refine ⟨fun E => ?_, rescaled_total hI (hER d), rescaled_binned hI (hER d)⟩
    change (x.dRdE _ (rescaled d a f) E p).valueOr0 = f * (x.dRdE _ d E p).valueOr0
    rw [rescaled_rate (hER d), Outcome.scale_valueOr0]
  | migdal d x =>
    refine ⟨fun E => ?_, rescaled_total hI (hM d), rescaled_binned hI (hM d)⟩
    change (x.dRdE _ (rescaled d a f) E p).valueOr0 = f * (x.dRdE _ d E p).valueOr0
    rw [rescaled_rate (hM d), Outcome.scale_valueOr0]
  | crystal d x =>
    refine ⟨fun E => ?_, rescaled_crystal_total hI, rescaled_crystal_binned hI⟩
    change (x.dRdE U T.integrate (rescaled d a f) E p h).valueOr0 = f * (x.dRdE U T.integrate d E p h).valueOr0
    rw [rescaled_crystal_rate, Outcome.scale_valueOr0]

/-- C80 (rate). The signal rate — events per exposure — does not depend on the exposure. -/
theorem C80_rate (D : AnyDetector) (hI : T.integrate.Homogeneous)
    (hP : ∀ k xs (ys : List ℝ) x y, T.interpolationIntegral xs (ys.map fun z => k * z) x y = k * T.interpolationIntegral xs ys x y)
    (ha : a ≠ 0) :
    (rescaled D.base a 1).signalRateTotal (D.toClass U T h) p = D.base.signalRateTotal (D.toClass U T h) p := by
  unfold Detector.signalRateTotal
  rw [(C80_proportional D hI hP).2.1]
  cases (D.toClass U T h).signalsTotal D.base p <;> simp [rescaled, fdiv, ha]
  split_ifs
  · rfl
  · rw [mul_div_mul_left _ _ ha]

/-! ## Histories: two detectors built with different exposures and the same calls -/

theorem rescaled_step (d : Detector) (op : Detector.Op) :
    (rescaled d a 1).step op = d.step op >>= fun d' => .ok (rescaled d' a 1) := by
  cases op <;> simp only [Detector.step, Detector.setObserved, Detector.setBackground, Detector.setObservedBins, Detector.setBinEfficiencies,
    Detector.setBackgroundBins, Detector.useMaximumGap, Detector.setFlatEfficiency, Detector.useEnergyThreshold, Detector.useEnergyBins,
    Detector.initializeBinned, Detector.initializePoisson, rescaled, one_mul]
  all_goals repeat' split
  all_goals simp_all

/-- C80 (history). Two detectors built with the same arguments but `a` times the exposure, and configured by the same calls, accept the same
calls and stay equal up to the exposure. -/
theorem C80_history (label target : String) (expo : ℝ) (ops : List Detector.Op) :
    (Detector.make label (a * expo) target).run ops = (Detector.make label expo target).run ops >>= fun d => .ok (rescaled d a 1) := by
  have : Detector.make label (a * expo) target = rescaled (Detector.make label expo target) a 1 := by
    simp [Detector.make, rescaled]
  rw [this]
  generalize Detector.make label expo target = d
  induction ops generalizing d with
  | nil => rfl
  | cons op ops ih =>
    simp only [Detector.run, rescaled_step]
    cases d.step op <;> simp [ih]

/-- C80 (history, ionization). The same for detectors of electrons and photoelectrons. -/
theorem C80_history_ionization (d : Detector) (x : IonizationDetector) (ops : List IonizationDetector.Op) :
    IonizationDetector.run (rescaled d a 1, x) ops = IonizationDetector.run (d, x) ops >>= fun s => .ok (rescaled s.1 a 1, s.2) := by
  have hstep : ∀ (d : Detector) (x : IonizationDetector) op, IonizationDetector.step (rescaled d a 1, x) op =
      IonizationDetector.step (d, x) op >>= fun s => .ok (rescaled s.1 a 1, s.2) := by
    intro d x op
    cases op with
    | base op =>
      simp only [IonizationDetector.step, rescaled_step]
      cases d.step op <;> rfl
    | importTrigger l => simp only [IonizationDetector.step]; cases importTrigger x l <;> rfl
    | importAcceptance l => simp only [IonizationDetector.step]; cases importAcceptance x l <;> rfl
    | _ =>
      simp only [IonizationDetector.step, IonizationDetector.useElectronThreshold, IonizationDetector.useElectronBins,
        IonizationDetector.usePEThreshold, IonizationDetector.usePEBins, Detector.initializeBinned, Detector.initializePoisson, rescaled]
      repeat' split
      all_goals simp_all
      try (split_ifs <;> simp)
  induction ops generalizing d x with
  | nil => rfl
  | cons op ops ih =>
    simp only [IonizationDetector.run, hstep]
    cases IonizationDetector.step (d, x) op <;> simp [ih]

/-- C80 (history, crystals). The same for crystals. -/
theorem C80_history_crystal (d : Detector) (x : CrystalDetector) (ops : List CrystalDetector.Op) :
    CrystalDetector.run (rescaled d a 1, x) ops = CrystalDetector.run (d, x) ops >>= fun s => .ok (rescaled s.1 a 1, s.2) := by
  have hstep : ∀ (d : Detector) (x : CrystalDetector) op, CrystalDetector.step (rescaled d a 1, x) op =
      CrystalDetector.step (d, x) op >>= fun s => .ok (rescaled s.1 a 1, s.2) := by
    intro d x op
    cases op with
    | base op =>
      simp only [CrystalDetector.step, rescaled_step]
      cases d.step op <;> rfl
    | _ =>
      simp only [CrystalDetector.step, CrystalDetector.useQThreshold, CrystalDetector.useQBins, Detector.initializeBinned,
        Detector.initializePoisson, rescaled]
      repeat' split
      all_goals simp_all
  induction ops generalizing d x with
  | nil => rfl
  | cons op ops ih =>
    simp only [CrystalDetector.run, hstep]
    cases CrystalDetector.step (d, x) op <;> simp [ih]

/-- Routines as required by `C80_proportional` exist. -/
example : flatTools.integrate.Homogeneous ∧ ∀ k xs (ys : List ℝ) x y,
    flatTools.interpolationIntegral xs (ys.map fun z => k * z) x y = k * flatTools.interpolationIntegral xs ys x y :=
  ⟨exactIntegrator_exact.homogeneous, fun k xs ys x y => by cases ys <;> simp [flatTools, mul_assoc]⟩

/-- A detector to which `C80_history` applies: three energy bins and observed events. -/
example : ∃ d, (Detector.make "x" (2 * 5) "Nuclei").run [.useEnergyBins 1 4 3, .setObservedBins [1, 0, 2]] = .ok d ∧ d.exposure = 2 * 5 := by
  simp [Detector.run, Detector.step, Detector.useEnergyBins, Detector.initializeBinned, Detector.setObservedBins, Detector.make, toUInt32]

end Obscura
