import Verif.Spec.LowMass
import Verif.Props.ParticleSettings
import Verif.Props.LimitComparison
import Verif.Props.Pieces
import Verif.Props.HeavyElectrons
import Verif.Props.Spin

/-!
# C62: detectors on which the low-mass mode has no effect
-/

namespace Obscura

open Spec DMParticle

variable {U : Units} {T : Tools} {h : Distribution} {D : AnyDetector} {p : DMParticle} {b : Bool}

theorem lowMass_isotope {I : Integrator} (hi : p.interaction = .SD) (E : ℝ) (iso : Isotope) :
    dRdERIsotope U I E (p.setLowMassMode b) h iso = dRdERIsotope U I E p h iso := by
  have e : ∀ E iso v, (p.setLowMassMode b).dSigmadERNucleus U E iso v = p.dSigmadERNucleus U E iso v := fun E iso v => by
    unfold dSigmadERNucleus
    rw [((C62_low_mass (U := U) p b).2.2.2.2.2.1 hi).dsN]
  unfold dRdERIsotope
  simp only [e]
  rfl

/-- C62 (electrons). The low-mass mode changes neither rates nor signals of crystals and of electron recoils in atoms. -/
theorem C62_low_mass_electrons (hD : (∃ d x, D = .electronRecoil d x) ∨ ∃ d x, D = .crystal d x) (p : DMParticle) (b : Bool) (d : Detector) :
    (∀ E, (D.toClass U T h).dRdE d E (p.setLowMassMode b) = (D.toClass U T h).dRdE d E p) ∧
    (D.toClass U T h).signalsTotal d (p.setLowMassMode b) = (D.toClass U T h).signalsTotal d p ∧
    (D.toClass U T h).signalsBinned d (p.setLowMassMode b) = (D.toClass U T h).signalsBinned d p := by
  rcases hD with ⟨d', x, rfl⟩ | ⟨d', x, rfl⟩
  · exact ⟨fun _ => rfl, rfl, rfl⟩
  · exact ⟨fun _ => rfl, rfl, rfl⟩

/-- C62 (spin). For spin-dependent interactions the low-mass mode changes neither rates nor signals of nuclear recoils. -/
theorem C62_low_mass_spin {nd : NuclearDetector} (hi : p.interaction = .SD) (b : Bool) (d : Detector) :
    (∀ E, (nd.toClass U T h).dRdE d E (p.setLowMassMode b) = (nd.toClass U T h).dRdE d E p) ∧
    (nd.toClass U T h).signalsTotal d (p.setLowMassMode b) = (nd.toClass U T h).signalsTotal d p ∧
    (nd.toClass U T h).signalsBinned d (p.setLowMassMode b) = (nd.toClass U T h).signalsBinned d p := by
  have e1 : ∀ d E ER, nd.theoryRate U T.integrate d E ER (p.setLowMassMode b) h = nd.theoryRate U T.integrate d E ER p h := fun d E ER => by
    unfold NuclearDetector.theoryRate dRdERNucleus
    simp only [lowMass_isotope hi]
  have e2 : ∀ d E, nd.dRdE U T.integrate d E (p.setLowMassMode b) h = nd.dRdE U T.integrate d E p h := fun d E => by
    unfold NuclearDetector.dRdE
    simp only [e1]
  have e3 : (nd.toClass U T h).signalsBinned d (p.setLowMassMode b) = (nd.toClass U T h).signalsBinned d p := by
    simp only [NuclearDetector.toClass, DetectorClass.base, Detector.baseSignalsBinned, Detector.signalsEnergyBins, e2]
  refine ⟨fun E => ?_, ?_, e3⟩
  · simp only [NuclearDetector.toClass, DetectorClass.base, e2]
  · simp only [NuclearDetector.toClass, DetectorClass.base, Detector.baseSignalsTotal, Detector.baseSignalsBinned, Detector.signalsEnergyBins, e2]

theorem ionization_shells {S : ShellRate} {x : IonizationDetector} (hS : ∀ d E n s, S d E (p.setLowMassMode b) n s = S d E p n s) (d : Detector) :
    (∀ E, (x.toClass U S T h).dRdE d E (p.setLowMassMode b) = (x.toClass U S T h).dRdE d E p) ∧
    (x.toClass U S T h).signalsTotal d (p.setLowMassMode b) = (x.toClass U S T h).signalsTotal d p ∧
    (x.toClass U S T h).signalsBinned d (p.setLowMassMode b) = (x.toClass U S T h).signalsBinned d p := by
  have e1 : ∀ d E, x.dRdE S d E (p.setLowMassMode b) = x.dRdE S d E p := fun d E => by
    simp only [IonizationDetector.dRdE, IonizationDetector.dRdEAtom, hS]
  have e2 : ∀ d ne, x.rNe U S d ne (p.setLowMassMode b) = x.rNe U S d ne p := fun d ne => by
    simp only [IonizationDetector.rNe, IonizationDetector.rNeAtom, IonizationDetector.rNeShell, hS]
  have e3 : ∀ d lo hi l, x.rS2Bin U S d lo hi (p.setLowMassMode b) l = x.rS2Bin U S d lo hi p l := fun d lo hi l => by
    simp only [IonizationDetector.rS2Bin, IonizationDetector.rS2, e2]
  have e4 : x.signalsBinned U S T d (p.setLowMassMode b) h = x.signalsBinned U S T d p h := by
    simp only [IonizationDetector.signalsBinned, Detector.signalsEnergyBins, IonizationDetector.rateClass, IonizationDetector.signalsElectronBins,
      IonizationDetector.signalsPEBins, e1, e2, e3]
  refine ⟨fun E => ?_, ?_, e4⟩
  · simp only [IonizationDetector.toClass, e1]
  · simp only [IonizationDetector.toClass, IonizationDetector.signalsTotal, IonizationDetector.thresholdSignal, e2, e3, e4, hS]

/-- C62 (spin, Migdal effect). Nor of electrons that are set free when a nucleus is hit. -/
theorem C62_low_mass_migdal {x : IonizationDetector} (hi : p.interaction = .SD) (b : Bool) (d d' : Detector) :
    (∀ E, ((AnyDetector.migdal d' x).toClass U T h).dRdE d E (p.setLowMassMode b) = ((AnyDetector.migdal d' x).toClass U T h).dRdE d E p) ∧
    ((AnyDetector.migdal d' x).toClass U T h).signalsTotal d (p.setLowMassMode b) = ((AnyDetector.migdal d' x).toClass U T h).signalsTotal d p ∧
    ((AnyDetector.migdal d' x).toClass U T h).signalsBinned d (p.setLowMassMode b) = ((AnyDetector.migdal d' x).toClass U T h).signalsBinned d p := by
  have e : ∀ q iso v, (p.setLowMassMode b).dSigmadq2Nucleus U q iso v = p.dSigmadq2Nucleus U q iso v :=
    ((C62_low_mass (U := U) p b).2.2.2.2.2.1 hi).dsN
  have e1 : ∀ d E n s, shellRateMigdal U T.integrate h d E (p.setLowMassMode b) n s = shellRateMigdal U T.integrate h d E p n s := fun d E n s => by
    have e2 : ∀ E v iso ER, (p.setLowMassMode b).d2SigmaMigdal U ER E v iso s = p.d2SigmaMigdal U ER E v iso s := fun E v iso ER => by
      unfold d2SigmaMigdal dSigmadERNucleus
      simp only [e]
    have e3 : ∀ iso, migdalIntegrand U T.integrate E (p.setLowMassMode b) h iso s = migdalIntegrand U T.integrate E p h iso s := fun iso => by
      funext ER
      unfold migdalIntegrand
      simp only [e2]
      rfl
    unfold shellRateMigdal dRdEeMigdal dRdEeMigdalIsotope
    simp only [e3]
    rfl
  exact ionization_shells e1 d

theorem unaffected_signals (hD : Unaffected D p) (b : Bool) (d : Detector) :
    (D.toClass U T h).signalsTotal d (p.setLowMassMode b) = (D.toClass U T h).signalsTotal d p ∧
    (D.toClass U T h).signalsBinned d (p.setLowMassMode b) = (D.toClass U T h).signalsBinned d p := by
  rcases hD with hD | hD | hi
  · exact (C62_low_mass_electrons (.inl hD) p b d).2
  · exact (C62_low_mass_electrons (.inr hD) p b d).2
  · cases D with
    | nuclear d' x => exact (C62_low_mass_spin hi b d).2
    | migdal d' x => exact (C62_low_mass_migdal hi b d d').2
    | electronRecoil d' x => exact (C62_low_mass_electrons (.inl ⟨d', x, rfl⟩) p b d).2
    | crystal d' x => exact (C62_low_mass_electrons (.inr ⟨d', x, rfl⟩) p b d).2

/-- C62 (limits). There the low-mass mode does not change the limits of a counting analysis. -/
theorem C62_low_mass_limit {c s cert : ℝ} (hD : Unaffected D p) (hR : T.findRoot.Exact) (hS : Sees U T h D p c s) {r r' : Detector × DMParticle × ℝ}
    (g : D.base.upperLimit U T (D.toClass U T h) p cert = .ok r) (g' : D.base.upperLimit U T (D.toClass U T h) (p.setLowMassMode b) cert = .ok r')
    (hx : 0 < r.2.2) (hx' : 0 < r'.2.2) : r'.2.2 = r.2.2 := by
  have hS' : Sees U T h D (p.setLowMassMode b) c s :=
    { detector := hS.detector
      counting := hS.counting
      background := hS.background
      particle := reachable_step (op := .setLowMassMode b) hS.particle trivial rfl
      parameter := hS.parameter
      positive := hS.positive
      signal := (unaffected_signals hD b _).1.trans hS.signal
      visible := hS.visible }
  have := C87_comparison hS hS' hR hR rfl rfl g g' hx hx'
  exact (mul_right_cancel₀ (div_pos hS.visible hS.positive).ne' this).symm

/-- C62 (limits of binned analyses). The same with energy or electron bins. -/
theorem C62_low_mass_limit_binned {c cert : ℝ} {ss : List ℝ} (hD : Unaffected D p) (hR : T.findRoot.Exact) (hS : SeesInBins U T h D p c ss)
    {r r' : Detector × DMParticle × ℝ} (g : D.base.upperLimit U T (D.toClass U T h) p cert = .ok r)
    (g' : D.base.upperLimit U T (D.toClass U T h) (p.setLowMassMode b) cert = .ok r') (hx : 0 < r.2.2) (hx' : 0 < r'.2.2) : r'.2.2 = r.2.2 := by
  have hS' : SeesInBins U T h D (p.setLowMassMode b) c ss :=
    { detector := hS.detector
      binned := hS.binned
      bins := hS.bins
      background := hS.background
      particle := reachable_step (op := .setLowMassMode b) hS.particle trivial rfl
      parameter := hS.parameter
      positive := hS.positive
      signal := (unaffected_signals hD b _).2.trans hS.signal
      complete := hS.complete
      visible := hS.visible }
  have k1 := C87_comparison_binned (k := 1) hS hS' hR hR rfl (fun _ _ => rfl) (fun _ _ => rfl) (fun i _ => (one_mul _).ge) g g' hx hx'
  have k2 := C87_comparison_binned (k := 1) hS' hS hR hR rfl (fun _ _ => rfl) (fun _ _ => rfl) (fun i _ => (one_mul _).ge) g' g hx' hx
  rw [one_mul] at k1 k2
  exact le_antisymm k2 k1

/-- C62 (`Set_Spin`, signals). The spin of the particle enters no rate and no signal of any detector: it is only reported. -/
theorem C62_spin_signals (D : AnyDetector) (p : DMParticle) (s : ℝ) (d : Detector) :
    (∀ E, (D.toClass U T h).dRdE d E (p.setSpin s) = (D.toClass U T h).dRdE d E p) ∧
    (D.toClass U T h).signalsTotal d (p.setSpin s) = (D.toClass U T h).signalsTotal d p ∧
    (D.toClass U T h).signalsBinned d (p.setSpin s) = (D.toClass U T h).signalsBinned d p := by
  cases D with
  | nuclear d' x => exact ⟨fun _ => rfl, rfl, rfl⟩
  | migdal d' x => exact ⟨fun _ => rfl, rfl, rfl⟩
  | electronRecoil d' x => exact ⟨fun _ => rfl, rfl, rfl⟩
  | crystal d' x => exact ⟨fun _ => rfl, rfl, rfl⟩

/-- Non-vacuity: electron recoils in silicon. -/
example (hI : T.integrate.Exact) (hR : T.findRoot.Exact) : ∃ (v : ℝ) (D : AnyDetector) (p : DMParticle) (c s : ℝ), Unaffected D p ∧ Sees U T (flatHalo v) D p c s ∧
    ∀ cert r r', D.base.upperLimit U T (D.toClass U T (flatHalo v)) p cert = .ok r →
      D.base.upperLimit U T (D.toClass U T (flatHalo v)) (p.setLowMassMode true) cert = .ok r' → 0 < r.2.2 → 0 < r'.2.2 → r'.2.2 = r.2.2 := by
  obtain ⟨v, -, p, cd, c, s, -, -, -, -, -, hS⟩ := sees_silicon U hI
  exact ⟨v, _, p, c, s, .inr (.inl ⟨_, _, rfl⟩), hS, fun cert r r' g g' => C62_low_mass_limit (.inr (.inl ⟨_, _, rfl⟩)) hR hS g g'⟩

/-- Non-vacuity: a particle with a spin-dependent interaction, which any nuclear detector sees equally in both modes. -/
example (nd : NuclearDetector) (d : Detector) : ∃ p, Reachable U p ∧ p.interaction = .SD ∧
    (nd.toClass U T h).signalsTotal d (p.setLowMassMode true) = (nd.toClass U T h).signalsTotal d p := by
  obtain ⟨p, -, hp, hi, -⟩ := spinParticle U
  exact ⟨p, hp, hi, (C62_low_mass_spin hi true d).2.1⟩

end Obscura
