import Verif.Lemmas.DimensionElectrons
import Verif.Spec.DimensionProgram

/-!
# Experiments in another unit of energy
-/

namespace Obscura
open Spec

variable {k : ℝ} {S : Setup}

namespace Detector
variable (d : Detector)

theorem setObserved_unit (hk : 0 < k) (n : ℕ) : (d.inUnit k).setObserved n = (d.setObserved n).inUnit (inUnit k) := d.step_unit hk (.setObserved n)
theorem setBackground_unit (hk : 0 < k) (b : ℝ) : (d.inUnit k).setBackground b = (d.setBackground b).inUnit (inUnit k) :=
  d.step_unit hk (.setBackground b)
theorem setObservedBins_unit (hk : 0 < k) (l : List ℕ) : (d.inUnit k).setObservedBins l = (d.setObservedBins l).inUnit (inUnit k) :=
  d.step_unit hk (.setObservedBins l)
theorem setBinEfficiencies_unit (hk : 0 < k) (l : List ℝ) : (d.inUnit k).setBinEfficiencies l = (d.setBinEfficiencies l).inUnit (inUnit k) :=
  d.step_unit hk (.setBinEfficiencies l)
theorem setBackgroundBins_unit (hk : 0 < k) (l : List ℝ) : (d.inUnit k).setBackgroundBins l = (d.setBackgroundBins l).inUnit (inUnit k) :=
  d.step_unit hk (.setBackgroundBins l)
theorem useMaximumGap_unit (hk : 0 < k) (l : List ℝ) : (d.inUnit k).useMaximumGap (l.map (k * ·)) = (d.useMaximumGap l).inUnit (inUnit k) :=
  d.step_unit hk (.useMaximumGap l)
theorem setFlatEfficiency_unit (e : ℝ) : (d.inUnit k).setFlatEfficiency e = (d.setFlatEfficiency e).inUnit k := rfl
theorem useEnergyThreshold_unit (hk : 0 < k) (a b : ℝ) :
    (d.inUnit k).useEnergyThreshold (k * a) (k * b) = (d.useEnergyThreshold a b).inUnit (inUnit k) :=
  d.step_unit hk (.useEnergyThreshold a b)

end Detector

namespace Setup

theorem kgday_unit (hk : 0 < k) : (S.inUnit k hk).kg * (S.inUnit k hk).day = S.kg * S.day := by
  have := hk.ne'
  simp only [kg, day, minute, Setup.inUnit, MacroUnits.inUnit, Units.inUnit]
  field_simp

theorem kgyear_unit (hk : 0 < k) : (S.inUnit k hk).kg * (S.inUnit k hk).M.year = S.kg * S.M.year := by
  have := hk.ne'
  simp only [kg, Setup.inUnit, MacroUnits.inUnit]
  field_simp

theorem keV_unit (hk : 0 < k) (a : ℝ) : a * (S.inUnit k hk).U.keV = k * (a * S.U.keV) := by
  simp only [Units.keV, Setup.inUnit, Units.inUnit]; ring

theorem eV_unit (hk : 0 < k) (a : ℝ) : a * (S.inUnit k hk).U.eV = k * (a * S.U.eV) := by
  simp only [Setup.inUnit, Units.inUnit]; ring

theorem importList_unit (hk : 0 < k) (name : String) :
    (S.inUnit k hk).importList name (S.inUnit k hk).U.keV = (S.importList name S.U.keV).inUnit (List.map (k * ·)) := by
  unfold importList
  rw [show (S.inUnit k hk).files.numbers = S.files.numbers from rfl]
  cases S.files.numbers name with
  | none => rfl
  | some l =>
    simp only [Outcome.inUnit_ok, List.map_map]
    congr 1
    exact List.map_congr_left fun x _ => keV_unit hk x

theorem importPure_unit (hk : 0 < k) (name : String) : (S.inUnit k hk).importList name 1 = S.importList name 1 := rfl

theorem getNuclei_unit (hk : 0 < k) (zs : List ℕ) (cache : List Nucleus) :
    (S.inUnit k hk).getNuclei zs (cache.map (Nucleus.inUnit k)) =
      (S.getNuclei zs cache).inUnit fun r => (r.1.map (Nucleus.inUnit k), r.2.map (Nucleus.inUnit k)) := by
  induction zs generalizing cache with
  | nil => rfl
  | cons z zs ih =>
    have e : ∀ (S : Setup) (c : List Nucleus), S.getNuclei (z :: zs) c = getNucleus S.U S.files.nuclear c z >>= fun r =>
      S.getNuclei zs r.1 >>= fun t => .ok (t.1, r.2 :: t.2) := fun _ _ => rfl
    rw [e, e, show (S.inUnit k hk).U = S.U.inUnit k hk from rfl, show (S.inUnit k hk).files.nuclear = S.files.nuclear from rfl,
      getNucleus_unit hk]
    refine Outcome.inUnit_bind fun r => ?_
    dsimp only
    rw [ih]
    exact Outcome.inUnit_bind fun t => rfl

theorem makeCrystal_unit (hk : 0 < k) (hP : UnitFreeInterpolation S.P) (label : String) (expo : ℝ) (t : String) :
    (S.inUnit k hk).makeCrystal label expo t = (S.makeCrystal label expo t).inUnit (crystalInUnit k) := by
  unfold makeCrystal
  rw [show (S.inUnit k hk).files.crystal = S.files.crystal from rfl, show (S.inUnit k hk).P = S.P from rfl,
    show (S.inUnit k hk).U = S.U.inUnit k hk from rfl]
  cases S.files.crystal t with
  | none => rfl
  | some l =>
    dsimp only
    unfold CrystalDetector.make
    rw [Crystal.make_unit hk hP]
    exact Outcome.inUnit_bind fun c => by
      rw [Outcome.inUnit_ok]
      simp only [crystalInUnit, Detector.make_unit]
      rfl

theorem makeIonization_unit (hk : 0 < k) (hP : UnitFreeInterpolation S.P) (cache : List Nucleus) (label : String) (expo : ℝ) (t a : String) :
    (S.inUnit k hk).makeIonization (cache.map (Nucleus.inUnit k)) label expo t a =
      (S.makeIonization cache label expo t a).inUnit (ionizationInUnit k) := by
  unfold makeIonization IonizationDetector.makeOne
  rw [show (S.inUnit k hk).files.nuclear = S.files.nuclear from rfl, show (S.inUnit k hk).P = S.P from rfl,
    show (S.inUnit k hk).U = S.U.inUnit k hk from rfl, show (S.inUnit k hk).files.response = S.files.response from rfl,
    Atom.make_unit hk hP]
  exact Outcome.inUnit_bind fun c => by
    rw [Outcome.inUnit_ok]
    simp only [ionizationInUnit, Detector.make_unit]
    rfl

/-! ## Nuclear recoils -/

theorem setResolution_unit (x : NuclearDetector) (r : ℝ) : (x.inUnit k).setResolution (k * r) = (x.setResolution r).inUnit k := rfl

theorem importEfficiencies_unit (x : NuclearDetector) (l : List (ℝ → ℝ)) :
    (x.inUnit k).importEfficiencies (l.map fun f E => f (E / k)) = (x.importEfficiencies l).inUnit k := by
  unfold NuclearDetector.importEfficiencies
  suffices ∀ (l : List (ℝ → ℝ)) (x : NuclearDetector), (l.map fun f E => f (E / k)).foldl NuclearDetector.importEfficiency (x.inUnit k) =
      (l.foldl NuclearDetector.importEfficiency x).inUnit k from this l { x with efficiencies := [] }
  intro l
  induction l with
  | nil => intro x; rfl
  | cons f l ih =>
    intro x
    simp only [List.map_cons, List.foldl_cons]
    rw [← ih]
    congr 1
    simp [NuclearDetector.importEfficiency, NuclearDetector.inUnit]

theorem efficiencyTables_unit (hk : 0 < k) (names : List String) :
    collect ((S.inUnit k hk).efficiencyTable (S.inUnit k hk).U.keV) names =
      (collect (S.efficiencyTable S.U.keV) names).inUnit (List.map fun f E => f (E / k)) := by
  induction names with
  | nil => rfl
  | cons name names ih =>
    have e : ∀ S : Setup, collect (S.efficiencyTable S.U.keV) (name :: names) = S.efficiencyTable S.U.keV name >>= fun f =>
      collect (S.efficiencyTable S.U.keV) names >>= fun l => .ok (f :: l) := fun _ => rfl
    have h : (S.inUnit k hk).efficiencyTable (S.inUnit k hk).U.keV name = (S.efficiencyTable S.U.keV name).inUnit fun f E => f (E / k) := by
      unfold efficiencyTable
      rw [show (S.inUnit k hk).files = S.files from rfl]
      cases S.files.efficiency name with
      | none => rfl
      | some f =>
        simp only [Outcome.inUnit_ok]
        congr 1
        funext E
        congr 1
        have := keV_unit (S := S) hk 1
        rw [one_mul, one_mul] at this
        rw [this, div_div]
    rw [e, e, h, ih]
    refine Outcome.inUnit_bind fun f => ?_
    exact Outcome.inUnit_bind fun l => rfl

theorem damicN2011_unit (hk : 0 < k) (cache : List Nucleus) :
    (S.inUnit k hk).damicN2011 (cache.map (Nucleus.inUnit k)) = (S.damicN2011 cache).inUnit (nuclearInUnit k) := by
  unfold damicN2011
  rw [getNuclei_unit, mul_assoc, kgday_unit, ← mul_assoc]
  refine Outcome.inUnit_bind fun r => ?_
  dsimp only
  rw [NuclearDetector.make_unit hk]
  refine Outcome.inUnit_bind fun t => ?_
  dsimp only
  rw [keV_unit, keV_unit, Detector.useEnergyThreshold_unit _ hk]
  refine Outcome.inUnit_bind fun d => ?_
  rw [Detector.setObserved_unit _ hk]
  exact Outcome.inUnit_bind fun d => rfl

theorem xenon1TN2017_unit (hk : 0 < k) (cache : List Nucleus) :
    (S.inUnit k hk).xenon1TN2017 (cache.map (Nucleus.inUnit k)) = (S.xenon1TN2017 cache).inUnit (nuclearInUnit k) := by
  unfold xenon1TN2017
  have e : ∀ S : Setup, 34.2 * S.day * 1042 * S.kg = 34.2 * 1042 * (S.kg * S.day) := fun S => by ring
  rw [getNuclei_unit, e, e, kgday_unit]
  refine Outcome.inUnit_bind fun r => ?_
  dsimp only
  rw [NuclearDetector.make_unit hk]
  refine Outcome.inUnit_bind fun t => ?_
  dsimp only
  rw [keV_unit, keV_unit, Detector.setFlatEfficiency_unit, Detector.useEnergyThreshold_unit _ hk]
  refine Outcome.inUnit_bind fun d => ?_
  rw [Detector.setObserved_unit _ hk]
  exact Outcome.inUnit_bind fun d => rfl

theorem events_unit (l : List ℝ) (a b : ℝ) : l.map (k * ·) ++ [k * a] ++ [k * b] = (l ++ [a] ++ [b]).map (k * ·) := by simp

theorem cresstII_unit (hk : 0 < k) (cache : List Nucleus) :
    (S.inUnit k hk).cresstII (cache.map (Nucleus.inUnit k)) = (S.cresstII cache).inUnit (nuclearInUnit k) := by
  unfold cresstII
  dsimp only
  rw [getNuclei_unit, mul_assoc, kgday_unit, ← mul_assoc]
  refine Outcome.inUnit_bind fun r => ?_
  dsimp only
  rw [NuclearDetector.make_unit hk]
  refine Outcome.inUnit_bind fun t => ?_
  dsimp only
  rw [importList_unit hk]
  refine Outcome.inUnit_bind fun l => ?_
  rw [keV_unit, eV_unit, events_unit, Detector.useMaximumGap_unit _ hk]
  refine Outcome.inUnit_bind fun d => ?_
  rw [efficiencyTables_unit hk]
  refine Outcome.inUnit_bind fun tables => ?_
  rw [Outcome.inUnit_ok]
  unfold nuclearInUnit
  dsimp only
  rw [← importEfficiencies_unit, ← setResolution_unit, mul_div_assoc]

theorem cresstIII_unit (hk : 0 < k) (cache : List Nucleus) :
    (S.inUnit k hk).cresstIII (cache.map (Nucleus.inUnit k)) = (S.cresstIII cache).inUnit (nuclearInUnit k) := by
  unfold cresstIII
  rw [getNuclei_unit, mul_assoc, kgday_unit, ← mul_assoc]
  refine Outcome.inUnit_bind fun r => ?_
  dsimp only
  rw [NuclearDetector.make_unit hk]
  refine Outcome.inUnit_bind fun t => ?_
  dsimp only
  rw [importList_unit hk]
  refine Outcome.inUnit_bind fun l => ?_
  rw [keV_unit, eV_unit, events_unit, Detector.setFlatEfficiency_unit, Detector.useMaximumGap_unit _ hk]
  refine Outcome.inUnit_bind fun d => ?_
  rw [efficiencyTables_unit hk]
  refine Outcome.inUnit_bind fun tables => ?_
  rw [Outcome.inUnit_ok, eV_unit]
  unfold nuclearInUnit
  dsimp only
  rw [← importEfficiencies_unit, ← setResolution_unit]

theorem cresstSurface_unit (hk : 0 < k) (cache : List Nucleus) :
    (S.inUnit k hk).cresstSurface (cache.map (Nucleus.inUnit k)) = (S.cresstSurface cache).inUnit (nuclearInUnit k) := by
  unfold cresstSurface
  have e : 0.046 * (S.inUnit k hk).M.gram * (S.inUnit k hk).day = 0.046 * S.M.gram * S.day := by
    have := kgday_unit (S := S) hk
    unfold kg at this
    linarith
  rw [getNuclei_unit, e]
  refine Outcome.inUnit_bind fun r => ?_
  dsimp only
  rw [NuclearDetector.make_unit hk]
  refine Outcome.inUnit_bind fun t => ?_
  dsimp only
  rw [importList_unit hk]
  refine Outcome.inUnit_bind fun l => ?_
  rw [eV_unit, eV_unit, events_unit, Detector.useMaximumGap_unit _ hk]
  refine Outcome.inUnit_bind fun d => ?_
  rw [Outcome.inUnit_ok, eV_unit]
  rfl


/-! ## Ionization -/

theorem useElectronThreshold_unit (hk : 0 < k) (d : Detector) (x : IonizationDetector) (n m : ℕ) :
    IonizationDetector.useElectronThreshold (d.inUnit k) (x.inUnit k) n m =
      (IonizationDetector.useElectronThreshold d x n m).inUnit fun r => (r.1.inUnit k, r.2.inUnit k) :=
  IonizationDetector.step_unit hk (d, x) (.useElectronThreshold n m)

theorem useElectronBins_unit (hk : 0 < k) (d : Detector) (x : IonizationDetector) (n m : ℕ) :
    IonizationDetector.useElectronBins (d.inUnit k) (x.inUnit k) n m =
      (IonizationDetector.useElectronBins d x n m).inUnit fun r => (r.1.inUnit k, r.2.inUnit k) :=
  IonizationDetector.step_unit hk (d, x) (.useElectronBins n m)

theorem usePEBins_unit (hk : 0 < k) (d : Detector) (x : IonizationDetector) (mu sigma : ℝ) (l : List ℕ) :
    IonizationDetector.usePEBins (d.inUnit k) (x.inUnit k) mu sigma l =
      (IonizationDetector.usePEBins d x mu sigma l).inUnit fun r => (r.1.inUnit k, r.2.inUnit k) :=
  IonizationDetector.step_unit hk (d, x) (.usePEBins mu sigma l)

theorem importTrigger_unit (x : IonizationDetector) (l : List ℝ) :
    (x.inUnit k).importTrigger l = (x.importTrigger l).inUnit (IonizationDetector.inUnit k) := by
  unfold IonizationDetector.importTrigger
  rw [show (x.inUnit k).usingS2Bins = x.usingS2Bins from rfl, show (x.inUnit k).usingS2Threshold = x.usingS2Threshold from rfl]
  split_ifs <;> rfl

theorem importAcceptance_unit (x : IonizationDetector) (l : List ℝ) :
    (x.inUnit k).importAcceptance l = (x.importAcceptance l).inUnit (IonizationDetector.inUnit k) := by
  unfold IonizationDetector.importAcceptance
  rw [show (x.inUnit k).usingS2Bins = x.usingS2Bins from rfl, show (x.inUnit k).usingS2Threshold = x.usingS2Threshold from rfl]
  split_ifs <;> rfl

theorem xenon10S2_unit (hk : 0 < k) (hP : UnitFreeInterpolation S.P) (t : String) (cache : List Nucleus) :
    (S.inUnit k hk).xenon10S2 t (cache.map (Nucleus.inUnit k)) = (S.xenon10S2 t cache).inUnit (ionizationInUnit k) := by
  unfold xenon10S2
  rw [mul_assoc, kgday_unit, ← mul_assoc, makeIonization_unit hk hP]
  refine Outcome.inUnit_bind fun r => ?_
  unfold ionizationInUnit
  dsimp only
  rw [Detector.setFlatEfficiency_unit, usePEBins_unit hk]
  refine Outcome.inUnit_bind fun r => ?_
  dsimp only
  rw [Detector.setObservedBins_unit _ hk]
  refine Outcome.inUnit_bind fun d => ?_
  rw [importPure_unit]
  refine Outcome.inUnit_bind' fun l => ?_
  rw [importTrigger_unit]
  exact Outcome.inUnit_bind fun x => rfl

theorem xenon100S2_unit (hk : 0 < k) (hP : UnitFreeInterpolation S.P) (t : String) (cache : List Nucleus) :
    (S.inUnit k hk).xenon100S2 t (cache.map (Nucleus.inUnit k)) = (S.xenon100S2 t cache).inUnit (ionizationInUnit k) := by
  unfold xenon100S2
  rw [mul_assoc, kgyear_unit, ← mul_assoc, makeIonization_unit hk hP]
  refine Outcome.inUnit_bind fun r => ?_
  unfold ionizationInUnit
  dsimp only
  rw [usePEBins_unit hk]
  refine Outcome.inUnit_bind fun r => ?_
  dsimp only
  rw [Detector.setObservedBins_unit _ hk]
  refine Outcome.inUnit_bind fun d => ?_
  rw [importPure_unit]
  refine Outcome.inUnit_bind' fun l => ?_
  rw [importTrigger_unit]
  refine Outcome.inUnit_bind fun x => ?_
  rw [importPure_unit]
  refine Outcome.inUnit_bind' fun l => ?_
  rw [importAcceptance_unit]
  exact Outcome.inUnit_bind fun x => rfl

theorem xenon1TS2_unit (hk : 0 < k) (hP : UnitFreeInterpolation S.P) (t : String) (cache : List Nucleus) :
    (S.inUnit k hk).xenon1TS2 t (cache.map (Nucleus.inUnit k)) = (S.xenon1TS2 t cache).inUnit (ionizationInUnit k) := by
  unfold xenon1TS2
  rw [mul_assoc, kgday_unit, ← mul_assoc, makeIonization_unit hk hP]
  refine Outcome.inUnit_bind fun r => ?_
  unfold ionizationInUnit
  dsimp only
  rw [useElectronBins_unit hk]
  refine Outcome.inUnit_bind fun r => ?_
  dsimp only
  rw [Detector.setObservedBins_unit _ hk]
  refine Outcome.inUnit_bind fun d => ?_
  rw [Detector.setBinEfficiencies_unit _ hk]
  exact Outcome.inUnit_bind fun x => rfl

theorem darkSide50S2_unit (hk : 0 < k) (hP : UnitFreeInterpolation S.P) (t : String) (cache : List Nucleus) :
    (S.inUnit k hk).darkSide50S2 t (cache.map (Nucleus.inUnit k)) = (S.darkSide50S2 t cache).inUnit (ionizationInUnit k) := by
  unfold darkSide50S2
  rw [mul_assoc, kgday_unit, ← mul_assoc, makeIonization_unit hk hP]
  refine Outcome.inUnit_bind fun r => ?_
  unfold ionizationInUnit
  dsimp only
  rw [useElectronBins_unit hk]
  refine Outcome.inUnit_bind fun r => ?_
  dsimp only
  rw [Detector.setObservedBins_unit _ hk]
  exact Outcome.inUnit_bind fun x => rfl

theorem darkSide50S22023_unit (hk : 0 < k) (hP : UnitFreeInterpolation S.P) (t : String) (cache : List Nucleus) :
    (S.inUnit k hk).darkSide50S22023 t (cache.map (Nucleus.inUnit k)) = (S.darkSide50S22023 t cache).inUnit (ionizationInUnit k) := by
  unfold darkSide50S22023
  rw [mul_assoc, kgday_unit, ← mul_assoc, makeIonization_unit hk hP]
  refine Outcome.inUnit_bind fun r => ?_
  unfold ionizationInUnit
  dsimp only
  rw [useElectronBins_unit hk]
  refine Outcome.inUnit_bind fun r => ?_
  dsimp only
  rw [Detector.setObservedBins_unit _ hk]
  refine Outcome.inUnit_bind fun d => ?_
  rw [Detector.setBackgroundBins_unit _ hk]
  exact Outcome.inUnit_bind fun x => rfl

theorem pandaX4TS2_unit (hk : 0 < k) (hP : UnitFreeInterpolation S.P) (t : String) (cache : List Nucleus) :
    (S.inUnit k hk).pandaX4TS2 t (cache.map (Nucleus.inUnit k)) = (S.pandaX4TS2 t cache).inUnit (ionizationInUnit k) := by
  unfold pandaX4TS2
  have e : ∀ S : Setup, 0.55 * S.tonne * S.M.year = 550 * (S.kg * S.M.year) := fun S => by unfold tonne; ring
  rw [e, e, kgyear_unit, makeIonization_unit hk hP]
  refine Outcome.inUnit_bind fun r => ?_
  unfold ionizationInUnit
  dsimp only
  rw [useElectronBins_unit hk]
  refine Outcome.inUnit_bind fun r => ?_
  dsimp only
  rw [Detector.setFlatEfficiency_unit, Detector.setObservedBins_unit _ hk]
  exact Outcome.inUnit_bind fun x => rfl

theorem lzS2_unit (hk : 0 < k) (hP : UnitFreeInterpolation S.P) (t : String) (cache : List Nucleus) :
    (S.inUnit k hk).lzS2 t (cache.map (Nucleus.inUnit k)) = (S.lzS2 t cache).inUnit (ionizationInUnit k) := by
  unfold lzS2
  rw [mul_assoc, kgday_unit, ← mul_assoc, makeIonization_unit hk hP]
  exact Outcome.inUnit_bind fun r => rfl

/-! ## Semiconductors -/

theorem useQBins_unit (hk : 0 < k) (d : Detector) (x : CrystalDetector) (Q N : ℕ) :
    CrystalDetector.useQBins (d.inUnit k) (x.inUnit k) Q N = (CrystalDetector.useQBins d x Q N).inUnit fun r => (r.1.inUnit k, r.2.inUnit k) :=
  CrystalDetector.step_unit hk (d, x) (.useQBins Q N)

theorem useQThreshold_unit (hk : 0 < k) (d : Detector) (x : CrystalDetector) (Q : ℕ) :
    CrystalDetector.useQThreshold (d.inUnit k) (x.inUnit k) Q = crystalInUnit k (CrystalDetector.useQThreshold d x Q) := by
  have := CrystalDetector.step_unit hk (d, x) (.useQThreshold Q)
  exact Outcome.ok.inj this

theorem gramday_unit (hk : 0 < k) : (S.inUnit k hk).M.gram * (S.inUnit k hk).day = S.M.gram * S.day := by
  have := kgday_unit (S := S) hk
  unfold kg at this
  linarith

theorem protoSENSEISurface_unit (hk : 0 < k) (hP : UnitFreeInterpolation S.P) :
    (S.inUnit k hk).protoSENSEISurface = S.protoSENSEISurface.inUnit (crystalInUnit k) := by
  unfold protoSENSEISurface
  have e : 0.07 * (S.inUnit k hk).M.gram * 456 * (S.inUnit k hk).minute = 0.07 * S.M.gram * 456 * S.minute := by
    have := gramday_unit (S := S) hk
    unfold day at this
    linarith
  rw [e]
  rw [makeCrystal_unit hk hP]
  refine Outcome.inUnit_bind fun r => ?_
  unfold crystalInUnit
  dsimp only
  rw [useQBins_unit hk]
  refine Outcome.inUnit_bind fun r => ?_
  dsimp only
  rw [Detector.setObservedBins_unit _ hk]
  refine Outcome.inUnit_bind fun d => ?_
  rw [Detector.setBinEfficiencies_unit _ hk]
  exact Outcome.inUnit_bind fun x => rfl

theorem protoSENSEIMINOS_unit (hk : 0 < k) (hP : UnitFreeInterpolation S.P) :
    (S.inUnit k hk).protoSENSEIMINOS = S.protoSENSEIMINOS.inUnit (crystalInUnit k) := by
  unfold protoSENSEIMINOS
  rw [mul_assoc, gramday_unit, ← mul_assoc]
  rw [makeCrystal_unit hk hP]
  refine Outcome.inUnit_bind fun r => ?_
  unfold crystalInUnit
  dsimp only
  rw [useQBins_unit hk]
  refine Outcome.inUnit_bind fun r => ?_
  dsimp only
  rw [Detector.setObservedBins_unit _ hk]
  refine Outcome.inUnit_bind fun d => ?_
  rw [Detector.setBinEfficiencies_unit _ hk]
  exact Outcome.inUnit_bind fun x => rfl

theorem senseiMINOS_unit (hk : 0 < k) (hP : UnitFreeInterpolation S.P) :
    (S.inUnit k hk).senseiMINOS = S.senseiMINOS.inUnit (crystalInUnit k) := by
  unfold senseiMINOS
  rw [mul_assoc, gramday_unit, ← mul_assoc]
  rw [makeCrystal_unit hk hP]
  refine Outcome.inUnit_bind fun r => ?_
  unfold crystalInUnit
  dsimp only
  rw [useQBins_unit hk]
  refine Outcome.inUnit_bind fun r => ?_
  dsimp only
  rw [Detector.setObservedBins_unit _ hk]
  refine Outcome.inUnit_bind fun d => ?_
  rw [Detector.setBinEfficiencies_unit _ hk]
  exact Outcome.inUnit_bind fun x => rfl

theorem cdmsHVeV2018_unit (hk : 0 < k) (hP : UnitFreeInterpolation S.P) :
    (S.inUnit k hk).cdmsHVeV2018 = S.cdmsHVeV2018.inUnit (crystalInUnit k) := by
  unfold cdmsHVeV2018
  rw [mul_assoc, gramday_unit, ← mul_assoc]
  rw [makeCrystal_unit hk hP]
  refine Outcome.inUnit_bind fun r => ?_
  unfold crystalInUnit
  dsimp only
  rw [Detector.setFlatEfficiency_unit, useQBins_unit hk]
  refine Outcome.inUnit_bind fun r => ?_
  dsimp only
  rw [Detector.setObservedBins_unit _ hk]
  refine Outcome.inUnit_bind fun d => ?_
  rw [Detector.setBinEfficiencies_unit _ hk]
  exact Outcome.inUnit_bind fun x => rfl

theorem cdmsHVeV2020_unit (hk : 0 < k) (hP : UnitFreeInterpolation S.P) :
    (S.inUnit k hk).cdmsHVeV2020 = S.cdmsHVeV2020.inUnit (crystalInUnit k) := by
  unfold cdmsHVeV2020
  rw [mul_assoc, gramday_unit, ← mul_assoc]
  rw [makeCrystal_unit hk hP]
  refine Outcome.inUnit_bind fun r => ?_
  unfold crystalInUnit
  dsimp only
  rw [useQBins_unit hk]
  refine Outcome.inUnit_bind fun r => ?_
  dsimp only
  rw [Detector.setObservedBins_unit _ hk]
  exact Outcome.inUnit_bind fun x => rfl

theorem damicM2023_unit (hk : 0 < k) (hP : UnitFreeInterpolation S.P) :
    (S.inUnit k hk).damicM2023 = S.damicM2023.inUnit (crystalInUnit k) := by
  unfold damicM2023
  rw [mul_assoc, gramday_unit, ← mul_assoc]
  rw [makeCrystal_unit hk hP]
  refine Outcome.inUnit_bind fun r => ?_
  unfold crystalInUnit
  dsimp only
  rw [useQBins_unit hk]
  refine Outcome.inUnit_bind fun r => ?_
  dsimp only
  rw [Detector.setObservedBins_unit _ hk]
  exact Outcome.inUnit_bind fun x => rfl

end Setup
end Obscura
