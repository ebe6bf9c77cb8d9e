import Verif.Lemmas.Ionization
import Verif.Lemmas.Crystal
import Verif.Lemmas.NuclearRange
import Verif.Spec.Exposure

/-!
# Helper lemmas: signals of a rescaled detector
-/

namespace Obscura
open Spec

variable {U : Units} {T : Tools} {h : Distribution} {p : DMParticle} {d : Detector} {a f : ℝ}

/-! ## Energy bins of any class -/

theorem rescaled_energyBins {C : DetectorClass} (hI : T.integrate.Homogeneous)
    (hr : ∀ E, C.dRdE (rescaled d a f) E p = f * C.dRdE d E p) :
    (rescaled d a f).signalsEnergyBins T C p = d.signalsEnergyBins T C p >>= fun ss => .ok (ss.map fun s => a * f * s) := by
  unfold Detector.signalsEnergyBins
  have e1 : (rescaled d a f).usingEnergyBins = d.usingEnergyBins := rfl
  have e2 : (rescaled d a f).binEnergies = d.binEnergies := rfl
  have e3 : (rescaled d a f).binEfficiencies = d.binEfficiencies := rfl
  have e4 : (rescaled d a f).exposure = a * d.exposure := rfl
  have e5 : (rescaled d a f).bins = d.bins := rfl
  rw [e1, e2, e3, e4, e5]
  split_ifs
  · rfl
  · refine collect_scale (a * f) fun i _ => ?_
    cases vecGet d.binEnergies i <;> simp [Outcome.scale]
    cases vecGet d.binEnergies (i + 1) <;> simp
    cases vecGet d.binEfficiencies i <;> simp
    have : (fun E => C.dRdE (rescaled d a f) E p) = fun E => f * C.dRdE d E p := funext hr
    rw [this, hI]; ring

/-! ## Nuclear recoils -/

theorem rescaled_nuclear_rate {x : NuclearDetector} {E : ℝ} {I : Integrator} (hI : I.Homogeneous) :
    x.dRdE U I (rescaled d a f) E p h = (x.dRdE U I d E p h).scale f := by
  have ht : ∀ ER, x.theoryRate U I (rescaled d a f) E ER p h = (x.theoryRate U I d E ER p h).scale f := by
    intro ER
    refine sumOver_scale f fun i _ => ?_
    cases vecGet x.nuclei i <;> simp [Outcome.scale]
    rename_i n
    cases x.efficiency i E <;> simp
    cases vecGet x.fractions i <;> simp
    cases dRdERNucleus U I ER p h n <;> simp [rescaled]
    ring
  unfold NuclearDetector.dRdE
  have e1 : (rescaled d a f).energyThreshold = d.energyThreshold := rfl
  rw [e1]
  split_ifs
  · exact ht E
  · simp only [Outcome.scale, Outcome.bind_ok, Outcome.ok.injEq]
    rw [← hI]
    congr 1
    funext ER
    rw [ht, Outcome.scale_valueOr0]; ring

theorem rescaled_base {A : DMParticle → Outcome ℝ} {B : Detector → DMParticle → Outcome ℝ} {rate : Detector → ℝ → DMParticle → ℝ}
    (hI : T.integrate.Homogeneous)
    (hP : ∀ k xs (ys : List ℝ) x y, T.interpolationIntegral xs (ys.map fun z => k * z) x y = k * T.interpolationIntegral xs ys x y)
    (hr : ∀ E, rate (rescaled d a f) E p = f * rate d E p) :
    (DetectorClass.base T A B rate).signalsTotal (rescaled d a f) p =
      (DetectorClass.base T A B rate).signalsTotal d p >>= (fun s => .ok (a * f * s)) ∧
    (DetectorClass.base T A B rate).signalsBinned (rescaled d a f) p =
      (DetectorClass.base T A B rate).signalsBinned d p >>= fun ss => .ok (ss.map fun s => a * f * s) := by
  have hbin : ∀ C : DetectorClass, C.dRdE = rate → (rescaled d a f).baseSignalsBinned T C p =
      d.baseSignalsBinned T C p >>= fun ss => .ok (ss.map fun s => a * f * s) := by
    intro C hC
    unfold Detector.baseSignalsBinned
    have e1 : (rescaled d a f).analysis = d.analysis := rfl
    have e2 : (rescaled d a f).usingEnergyBins = d.usingEnergyBins := rfl
    rw [e1, e2]
    split_ifs
    · rfl
    · exact rescaled_energyBins hI (by rw [hC]; exact hr)
    · rfl
  refine ⟨?_, hbin _ rfl⟩
  simp only [DetectorClass.base]
  unfold Detector.baseSignalsTotal
  have e1 : (rescaled d a f).analysis = d.analysis := rfl
  have e2 : (rescaled d a f).energyThreshold = d.energyThreshold := rfl
  have e3 : (rescaled d a f).energyMax = d.energyMax := rfl
  have e4 : (rescaled d a f).exposure = a * d.exposure := rfl
  rw [e1, e2, e3, e4]
  split_ifs
  · simp only
    rw [hbin _ rfl]
    generalize Detector.baseSignalsBinned T _ d p = o
    cases o <;> simp [foldl_add_eq_sum, sum_map_mul]
  · rfl
  · simp only [Outcome.bind_ok, Outcome.ok.injEq]
    have : (fun E => rate (rescaled d a f) E p) = fun E => f * rate d E p := funext hr
    rw [this, show ∀ l : List ℝ, (l.map fun E => f * rate d E p) = (l.map fun E => rate d E p).map fun z => f * z by simp, hP]
    ring

/-! ## Crystals -/

theorem rescaled_crystal_rate {x : CrystalDetector} {E : ℝ} {I : Integrator} :
    x.dRdE U I (rescaled d a f) E p h = (x.dRdE U I d E p h).scale f := by
  unfold CrystalDetector.dRdE
  cases dRdEeCrystal U I E p h x.crystal <;> simp [Outcome.scale, rescaled]
  ring

theorem rescaled_crystal_binned {x : CrystalDetector} (hI : T.integrate.Homogeneous) :
    x.signalsBinned U T (rescaled d a f) p h = x.signalsBinned U T d p h >>= fun ss => .ok (ss.map fun s => a * f * s) := by
  unfold CrystalDetector.signalsBinned
  have e1 : (rescaled d a f).analysis = d.analysis := rfl
  have e2 : (rescaled d a f).usingEnergyBins = d.usingEnergyBins := rfl
  rw [e1, e2]
  split_ifs with h1 h2
  · rfl
  · exact rescaled_energyBins hI fun E => by
      change (x.dRdE U T.integrate (rescaled d a f) E p h).valueOr0 = f * (x.dRdE U T.integrate d E p h).valueOr0
      rw [rescaled_crystal_rate, Outcome.scale_valueOr0]
  · cases readMember x.usingQBins <;> try rfl
    rw [Outcome.bind_ok, Outcome.bind_ok]
    split_ifs
    · unfold CrystalDetector.signalsQBins
      cases readMember x.usingQBins <;> try rfl
      rw [Outcome.bind_ok, Outcome.bind_ok]
      split_ifs
      · rfl
      · cases readMember x.qThreshold <;> try rfl
        rw [Outcome.bind_ok, Outcome.bind_ok]
        have e3 : (rescaled d a f).bins = d.bins := rfl
        have e4 : (rescaled d a f).binEfficiencies = d.binEfficiencies := rfl
        rw [e3, e4]
        refine collect_scale (a * f) fun Q _ => ?_
        cases vecGet d.binEfficiencies (usub32 Q 1) <;> simp [Outcome.scale]
        cases rQCrystal U T.integrate (toInt32 Q) p h x.crystal <;> simp [rescaled]
        ring
    · rfl

theorem rescaled_crystal_total {x : CrystalDetector} (hI : T.integrate.Homogeneous) :
    x.signalsTotal U T (rescaled d a f) p h = x.signalsTotal U T d p h >>= fun s => .ok (a * f * s) := by
  unfold CrystalDetector.signalsTotal
  have e1 : (rescaled d a f).analysis = d.analysis := rfl
  have e2 : (rescaled d a f).usingEnergyThreshold = d.usingEnergyThreshold := rfl
  have e3 : (rescaled d a f).energyThreshold = d.energyThreshold := rfl
  have e4 : (rescaled d a f).energyMax = d.energyMax := rfl
  rw [e1, e2, e3, e4]
  split_ifs with h1 h2
  · rw [rescaled_crystal_binned hI]
    cases x.signalsBinned U T d p h <;> simp [foldl_add_eq_sum, sum_map_mul]
  · rw [Outcome.bind_ok, Outcome.ok.injEq]
    have : (fun E => (x.dRdE U T.integrate (rescaled d a f) E p h).valueOr0) = fun E => f * (x.dRdE U T.integrate d E p h).valueOr0 :=
      funext fun E => by rw [rescaled_crystal_rate, Outcome.scale_valueOr0]
    rw [this, hI]
    simp only [rescaled]
    ring
  · cases readMember x.usingQThreshold <;> try rfl
    rw [Outcome.bind_ok, Outcome.bind_ok]
    split_ifs
    · cases readMember x.qThreshold <;> try rfl
      rw [Outcome.bind_ok, Outcome.bind_ok]
      cases rTotalCrystal U T.integrate _ p h x.crystal <;> simp [rescaled]
      ring
    · simp

/-! ## Ionization -/

namespace IonizationDetector

variable {S : ShellRate} {x : IonizationDetector}

theorem rescaled_rate (hS : ∀ E n e, S (rescaled d a f) E p n e = (S d E p n e).scale f) (E : ℝ) :
    x.dRdE S (rescaled d a f) E p = (x.dRdE S d E p).scale f := by
  refine sumOver_scale f fun i _ => ?_
  cases vecGet x.atoms i <;> simp [Outcome.scale]
  cases vecGet x.fractions i <;> simp
  rename_i b g
  rw [show dRdEAtom S (rescaled d a f) E p b = (dRdEAtom S d E p b).scale f from sumOver_scale f fun e _ => hS E b.nucleus e]
  cases dRdEAtom S d E p b <;> simp [Outcome.scale]
  ring

theorem rescaled_rNe (hS : ∀ E n e, S (rescaled d a f) E p n e = (S d E p n e).scale f) (ne : ℕ) :
    x.rNe U S (rescaled d a f) ne p = (x.rNe U S d ne p).scale f := by
  refine sumOver_scale f fun i _ => ?_
  cases vecGet x.atoms i <;> simp [Outcome.scale]
  cases vecGet x.fractions i <;> simp
  rename_i b g
  have : rNeAtom U S (rescaled d a f) ne p b = (rNeAtom U S d ne p b).scale f := by
    refine sumOver_scale f fun e _ => sumOver_scale f fun y _ => ?_
    dsimp only
    cases pdfNe ne (y * y / 2 / U.mElectron) b.W e.secondaries <;> simp [Outcome.scale]
    rw [hS]
    cases S d (y * y / 2 / U.mElectron) p b.nucleus e <;> simp [Outcome.scale]
    ring
  rw [this]
  cases rNeAtom U S d ne p b <;> simp [Outcome.scale]
  ring

theorem rescaled_spectrum (hS : ∀ E n e, S (rescaled d a f) E p n e = (S d E p n e).scale f) (l : List ℕ) :
    collect (fun ne => x.rNe U S (rescaled d a f) ne p) l =
      collect (fun ne => x.rNe U S d ne p) l >>= fun xs => .ok (xs.map fun y => f * y) :=
  collect_scale f fun ne _ => rescaled_rNe hS ne

theorem rescaled_rS2 (hS : ∀ E n e, S (rescaled d a f) E p n e = (S d E p n e).scale f) (nPE : ℕ) (l : List ℝ) :
    x.rS2 U S (rescaled d a f) nPE p (l.map fun y => f * y) = (x.rS2 U S d nPE p l).scale f := by
  unfold rS2
  rw [rescaled_spectrum hS, List.isEmpty_map]
  cases l.isEmpty
  · simp only [Bool.false_eq_true, if_false, Outcome.bind_ok]
    exact rS2Aux_scale ..
  · simp only [if_true]
    generalize collect _ _ = o
    cases o <;> try rfl
    exact rS2Aux_scale ..

theorem rescaled_rS2Bin (hS : ∀ E n e, S (rescaled d a f) E p n e = (S d E p n e).scale f) (lo hi : ℕ) (l : List ℝ) :
    x.rS2Bin U S (rescaled d a f) lo hi p (l.map fun y => f * y) = (x.rS2Bin U S d lo hi p l).scale f := by
  have key : ∀ l : List ℝ, sumOver (fun nPE => do
      let eff ← x.peEfficiency nPE
      let r ← x.rS2 U S (rescaled d a f) nPE p (l.map fun y => f * y)
      .ok (eff * r)) (List.range' lo (hi + 1 - lo)) = (sumOver (fun nPE => do
      let eff ← x.peEfficiency nPE
      let r ← x.rS2 U S d nPE p l
      .ok (eff * r)) (List.range' lo (hi + 1 - lo))).scale f := fun l => by
    refine sumOver_scale f fun nPE _ => ?_
    cases x.peEfficiency nPE <;> simp [Outcome.scale]
    rw [rescaled_rS2 hS]
    cases x.rS2 U S d nPE p l <;> simp [Outcome.scale]
    ring
  unfold rS2Bin
  rw [rescaled_spectrum hS, List.isEmpty_map]
  cases l.isEmpty
  · simp only [Bool.false_eq_true, if_false, Outcome.bind_ok]
    exact key l
  · simp only [if_true]
    generalize collect _ _ = o
    cases o <;> try rfl
    exact key _

theorem rescaled_binned (hI : T.integrate.Homogeneous) (hS : ∀ E n e, S (rescaled d a f) E p n e = (S d E p n e).scale f) :
    x.signalsBinned U S T (rescaled d a f) p h = x.signalsBinned U S T d p h >>= fun ss => .ok (ss.map fun s => a * f * s) := by
  unfold signalsBinned
  have e1 : (rescaled d a f).analysis = d.analysis := rfl
  have e2 : (rescaled d a f).usingEnergyBins = d.usingEnergyBins := rfl
  have e3 : (rescaled d a f).bins = d.bins := rfl
  have e4 : (rescaled d a f).binEfficiencies = d.binEfficiencies := rfl
  have e5 : (rescaled d a f).exposure = a * d.exposure := rfl
  rw [e1, e2]
  by_cases h1 : d.analysis ≠ .binnedPoisson
  · rw [if_pos h1, if_pos h1]; rfl
  rw [if_neg h1, if_neg h1]
  by_cases h2 : d.usingEnergyBins = true
  · rw [if_pos h2, if_pos h2]
    exact rescaled_energyBins hI fun E => by
      change (x.dRdE S (rescaled d a f) E p).valueOr0 = f * (x.dRdE S d E p).valueOr0
      rw [rescaled_rate hS, Outcome.scale_valueOr0]
  rw [if_neg h2, if_neg h2]
  by_cases h3 : x.usingElectronBins = true
  · rw [if_pos h3, if_pos h3]
    unfold signalsElectronBins
    rw [if_neg (by simp [h3]), if_neg (by simp [h3]), e3, e4, e5]
    refine collect_scale (a * f) fun bin _ => ?_
    rw [rescaled_rNe hS]
    cases x.rNe U S d ((x.neThreshold + bin) % 2 ^ 32) p <;> simp [Outcome.scale]
    cases vecGet d.binEfficiencies bin <;> simp
    ring
  rw [if_neg h3, if_neg h3]
  by_cases h4 : x.usingS2Bins = true
  · rw [if_pos h4, if_pos h4]
    unfold signalsPEBins
    rw [if_neg (by simp [h4]), if_neg (by simp [h4]), rescaled_spectrum hS, e3, e4, e5]
    generalize collect (fun ne => x.rNe U S d ne p) _ = o
    cases o <;> try rfl
    rename_i sp
    simp only [Outcome.bind_ok]
    refine collect_scale (a * f) fun bin _ => ?_
    cases vecGet x.s2Bins bin <;> simp [Outcome.scale]
    cases vecGet x.s2Bins (bin + 1) <;> simp
    rw [rescaled_rS2Bin hS]
    rename_i lo hi
    cases x.rS2Bin U S d lo (usub32 hi 1) p sp <;> simp [Outcome.scale]
    cases vecGet d.binEfficiencies bin <;> simp
    ring
  · rw [if_neg h4, if_neg h4]; rfl

theorem rescaled_total (hI : T.integrate.Homogeneous) (hS : ∀ E n e, S (rescaled d a f) E p n e = (S d E p n e).scale f) :
    x.signalsTotal U S T (rescaled d a f) p h = x.signalsTotal U S T d p h >>= fun s => .ok (a * f * s) := by
  unfold signalsTotal
  have e1 : (rescaled d a f).analysis = d.analysis := rfl
  have e2 : (rescaled d a f).usingEnergyThreshold = d.usingEnergyThreshold := rfl
  have e5 : (rescaled d a f).exposure = a * d.exposure := rfl
  rw [e1, e2, e5]
  by_cases h1 : d.analysis = .binnedPoisson
  · rw [if_pos h1, if_pos h1, rescaled_binned hI hS]
    cases x.signalsBinned U S T d p h <;> simp [foldl_add_eq_sum, sum_map_mul]
  rw [if_neg h1, if_neg h1]
  by_cases h2 : x.usingElectronThreshold = true
  · rw [if_pos h2, if_pos h2]
    refine sumOver_scale (a * f) fun ne _ => ?_
    rw [rescaled_rNe hS]
    cases x.rNe U S d ne p <;> simp [Outcome.scale]
    ring
  rw [if_neg h2, if_neg h2]
  by_cases h3 : d.usingEnergyThreshold = true
  · rw [if_pos h3, if_pos h3]
    refine sumOver_scale (a * f) fun i _ => ?_
    cases vecGet x.atoms i <;> simp [Outcome.scale]
    rename_i b
    refine sumOver_scale (a * f) fun e he => ?_
    cases vecGet x.fractions i <;> simp [Outcome.scale]
    unfold thresholdSignal
    have e6 : (rescaled d a f).energyThreshold = d.energyThreshold := rfl
    simp only [e5, e6]
    split_ifs
    · have : (fun E => a * d.exposure * (S (rescaled d a f) E p b.nucleus e).valueOr0) =
          fun E => a * f * (d.exposure * (S d E p b.nucleus e).valueOr0) := by
        funext E
        rw [hS, Outcome.scale_valueOr0]; ring
      rw [this, hI]; ring
    · simp
  rw [if_neg h3, if_neg h3]
  by_cases h4 : x.usingS2Threshold = true
  · rw [if_pos h4, if_pos h4]
    have := rescaled_rS2Bin (U := U) (x := x) hS x.peThreshold x.peMax []
    rw [List.map_nil] at this
    rw [this]
    cases x.rS2Bin U S d x.peThreshold x.peMax p [] <;> simp [Outcome.scale]
    ring
  · rw [if_neg h4, if_neg h4]; simp

end IonizationDetector

end Obscura
