import Verif.Lemmas.DimensionNuclear

/-!
# Detectors in another unit of energy
-/

namespace Obscura

open Spec

variable {U : Units} {T : Tools} {k : ℝ} {h : Distribution}

namespace Detector

variable (d : Detector) (p : DMParticle)

theorem insertionSort_unit (hk : 0 < k) (l : List ℝ) :
    (l.map (k * ·)).insertionSort (· ≤ ·) = (l.insertionSort (· ≤ ·)).map (k * ·) := by
  rw [List.map_insertionSort (r := (· ≤ ·)) (s := (· ≤ ·))]
  intro a _ b _
  exact (mul_le_mul_iff_right₀ hk).symm

theorem step_unit (hk : 0 < k) (op : Op) : (d.inUnit k).step (op.inUnit k) = (d.step op).inUnit (inUnit k) := by
  have e1 : (d.inUnit k).analysis = d.analysis := rfl
  have e2 : (d.inUnit k).bins = d.bins := rfl
  cases op with
  | setObserved n => simp only [step, Op.inUnit, setObserved]; rw [e1]; split_ifs <;> rfl
  | setBackground B => simp only [step, Op.inUnit, setBackground]; rw [e1]; split_ifs <;> rfl
  | setObservedBins N => simp only [step, Op.inUnit, setObservedBins]; rw [e1, e2]; split_ifs <;> rfl
  | setBinEfficiencies e => simp only [step, Op.inUnit, setBinEfficiencies]; rw [e1, e2]; split_ifs <;> rfl
  | setBackgroundBins B => simp only [step, Op.inUnit, setBackgroundBins]; rw [e1, e2]; split_ifs <;> rfl
  | useMaximumGap es =>
    simp only [step, Op.inUnit, useMaximumGap, insertionSort_unit hk, List.head?_map, List.getLast?_map]
    cases (es.insertionSort (· ≤ ·)).head? <;> cases (es.insertionSort (· ≤ ·)).getLast? <;> rfl
  | setFlatEfficiency e => rfl
  | useEnergyThreshold a b =>
    simp only [step, Op.inUnit, useEnergyThreshold, mul_lt_mul_iff_right₀ hk]
    split_ifs <;> rfl
  | useEnergyBins a b n =>
    simp only [step, Op.inUnit, useEnergyBins, initializeBinned]
    rw [e1]
    by_cases h1 : d.analysis = .binnedPoisson
    · rw [if_pos h1, if_pos h1]; rfl
    · rw [if_neg h1, if_neg h1]
      simp only [Outcome.bind_ok, mul_lt_mul_iff_right₀ hk, linearSpace_unit]
      split_ifs <;> rfl

theorem run_unit (hk : 0 < k) (ops : List Op) : (d.inUnit k).run (ops.map (Op.inUnit k)) = (d.run ops).inUnit (inUnit k) := by
  induction ops generalizing d with
  | nil => rfl
  | cons op ops ih =>
    simp only [List.map_cons, run, step_unit d hk]
    exact Outcome.inUnit_bind fun x => ih x

end Detector

/-- The virtual functions of a detector in two units of energy. -/
structure ClassUnit (k : ℝ) (C C' : DetectorClass) : Prop where
  deposit : ∀ p, C'.maximumEnergyDeposit (p.inUnit k) = (C.maximumEnergyDeposit p).inUnit (k * ·)
  rate : ∀ d E p, C'.dRdE (d.inUnit k) (k * E) (p.inUnit k) = 1 / k * C.dRdE d E p
  total : ∀ d p, C'.signalsTotal (d.inUnit k) (p.inUnit k) = C.signalsTotal d p
  binned : ∀ d p, C'.signalsBinned (d.inUnit k) (p.inUnit k) = C.signalsBinned d p

namespace Detector

variable {C C' : DetectorClass} (d : Detector) (p : DMParticle)

theorem signalsEnergyBins_unit (hk : 0 < k) (hT : UnitFreeTools T)
    (rate : ∀ d E p, C'.dRdE (d.inUnit k) (k * E) (p.inUnit k) = 1 / k * C.dRdE d E p) :
    (d.inUnit k).signalsEnergyBins T C' (p.inUnit k) = d.signalsEnergyBins T C p := by
  unfold signalsEnergyBins
  have e1 : (d.inUnit k).usingEnergyBins = d.usingEnergyBins := rfl
  have e2 : (d.inUnit k).binEnergies = d.binEnergies.map (k * ·) := rfl
  have e3 : (d.inUnit k).binEfficiencies = d.binEfficiencies := rfl
  have e4 : (d.inUnit k).exposure = d.exposure := rfl
  have e5 : (d.inUnit k).bins = d.bins := rfl
  rw [e1, e2, e3, e4, e5]
  split_ifs
  · rfl
  · refine collect_same _ fun i => ?_
    rw [vecGet_unit, vecGet_unit]
    cases vecGet d.binEnergies i with
    | ok lo =>
      cases vecGet d.binEnergies (i + 1) with
      | ok hi =>
        cases vecGet d.binEfficiencies i with
        | ok eff =>
          simp only [Outcome.inUnit_ok, Outcome.bind_ok, Outcome.ok.injEq]
          rw [DMParticle.integral_unit hk hT.integral (i := 1 / k) hk (fun E => C.dRdE d E p) _ lo hi (fun E => rate d E p), mul_one_div_cancel hk.ne',
            one_mul]
        | _ => rfl
      | _ => rfl
    | _ => rfl

theorem table_unit (hk : 0 < k) (hT : UnitFreeTools T) (xs ys : List ℝ) (a b : ℝ) :
    T.interpolationIntegral (xs.map (k * ·)) (ys.map (1 / k * ·)) (k * a) (k * b) = T.interpolationIntegral xs ys a b := by
  rw [hT.dilation k _ _ _ _ hk, hT.linear, ← mul_assoc, mul_one_div_cancel hk.ne', one_mul]

theorem baseSignalsBinned_unit (hk : 0 < k) (hT : UnitFreeTools T)
    (rate : ∀ d E p, C'.dRdE (d.inUnit k) (k * E) (p.inUnit k) = 1 / k * C.dRdE d E p) :
    (d.inUnit k).baseSignalsBinned T C' (p.inUnit k) = d.baseSignalsBinned T C p := by
  unfold baseSignalsBinned
  rw [signalsEnergyBins_unit d p hk hT rate]
  rfl

theorem baseSignalsTotal_unit (hk : 0 < k) (hT : UnitFreeTools T)
    (rate : ∀ d E p, C'.dRdE (d.inUnit k) (k * E) (p.inUnit k) = 1 / k * C.dRdE d E p)
    (binned : ∀ d p, C'.signalsBinned (d.inUnit k) (p.inUnit k) = C.signalsBinned d p) :
    (d.inUnit k).baseSignalsTotal T C' (p.inUnit k) = d.baseSignalsTotal T C p := by
  unfold baseSignalsTotal
  have e1 : (d.inUnit k).analysis = d.analysis := rfl
  have e2 : (d.inUnit k).energyThreshold = k * d.energyThreshold := rfl
  have e3 : (d.inUnit k).energyMax = k * d.energyMax := rfl
  have e4 : (d.inUnit k).exposure = d.exposure := rfl
  have e5 : ∀ x, k * x ≤ 0 ↔ x ≤ 0 := fun x => ⟨fun h => by by_contra h'; push Not at h'; nlinarith, fun h => mul_nonpos_of_nonneg_of_nonpos hk.le h⟩
  simp only [e1, e2, e3, e4, e5, binned, logSpace_unit hk]
  split_ifs
  · rfl
  · rfl
  · simp only [Outcome.ok.injEq]
    congr 1
    refine Eq.trans ?_ (table_unit hk hT _ _ _ _)
    congr 1
    simp only [List.map_map, Function.comp_def, rate]

theorem gapSizes_unit (f g : ℝ → ℝ → ℝ) (hfg : ∀ a b, g (k * a) (k * b) = f a b) (data : List ℝ) :
    gapSizes g (data.map (k * ·)) = gapSizes f data := by
  cases data with
  | nil => rfl
  | cons a l =>
    simp only [gapSizes, List.map_cons, Outcome.ok.injEq]
    have : ∀ (xs ys : List ℝ), List.zipWith g (xs.map (k * ·)) (ys.map (k * ·)) = List.zipWith f xs ys := by
      intro xs ys
      rw [List.zipWith_map]
      simp only [hfg]
    exact this (a :: l) l

theorem pValueMaximumGap_unit (hk : 0 < k) (hT : UnitFreeTools T) (hC : ClassUnit k C C') :
    (d.inUnit k).pValueMaximumGap T C' (p.inUnit k) = d.pValueMaximumGap T C p := by
  unfold pValueMaximumGap
  rw [hC.deposit]
  have e2 : (d.inUnit k).energyThreshold = k * d.energyThreshold := rfl
  have e3 : (d.inUnit k).energyMax = k * d.energyMax := rfl
  have e4 : (d.inUnit k).exposure = d.exposure := rfl
  have e5 : (d.inUnit k).gapData = d.gapData.map (k * ·) := rfl
  cases C.maximumEnergyDeposit p with
  | ok Edep =>
    simp only [Outcome.inUnit_ok, Outcome.bind_ok, e2, e3, e4, e5, mul_lt_mul_iff_right₀ hk]
    have hl : (if Edep < d.energyMax then linearSpace (k * d.energyThreshold) (k * Edep) 400 ++ [k * d.energyMax]
        else linearSpace (k * d.energyThreshold) (k * d.energyMax) 400) =
        (if Edep < d.energyMax then linearSpace d.energyThreshold Edep 400 ++ [d.energyMax]
        else linearSpace d.energyThreshold d.energyMax 400).map (k * ·) := by
      split_ifs <;> simp [linearSpace_unit]
    rw [hl]
    rw [gapSizes_unit (k := k) (T.interpolationIntegral (if Edep < d.energyMax then linearSpace d.energyThreshold Edep 400 ++ [d.energyMax]
        else linearSpace d.energyThreshold d.energyMax 400) ((if Edep < d.energyMax then linearSpace d.energyThreshold Edep 400 ++ [d.energyMax]
        else linearSpace d.energyThreshold d.energyMax 400).map fun E => d.exposure * C.dRdE d E p))]
    intro a b
    refine Eq.trans ?_ (table_unit hk hT _ _ _ _)
    congr 1
    simp only [List.map_map]
    refine List.map_congr_left fun E _ => ?_
    simp only [Function.comp_def, hC.rate]
    ring
  | _ => rfl

theorem logLikelihood_unit (hk : 0 < k) (hT : UnitFreeTools T) (hC : ClassUnit k C C') :
    (d.inUnit k).logLikelihood T C' (p.inUnit k) = d.logLikelihood T C p := by
  unfold logLikelihood
  rw [hC.total, hC.binned, pValueMaximumGap_unit d p hk hT hC]
  rfl

theorem likelihood_unit (hk : 0 < k) (hT : UnitFreeTools T) (hC : ClassUnit k C C') :
    (d.inUnit k).likelihood T C' (p.inUnit k) = d.likelihood T C p := by
  unfold likelihood
  rw [logLikelihood_unit d p hk hT hC]

theorem rescaling_unit (hk : 0 < k) : (d.inUnit k).rescaling (U.inUnit k hk) (p.inUnit k) = d.rescaling U p := by
  have h0 := hk.ne'
  unfold rescaling
  have e1 : (d.inUnit k).targets = d.targets := rfl
  have e2 : (d.inUnit k).fiducialCoupling = d.fiducialCoupling / k ^ 2 := rfl
  have e3 : (p.inUnit k).usingCrossSection = p.usingCrossSection := rfl
  rw [e1, e2, e3, DMParticle.getInteractionParameter_unit]
  cases p.getInteractionParameter U d.targets with
  | ok c =>
    simp only [Outcome.inUnit_ok, Outcome.bind_ok]
    rw [show c / k ^ 2 = 1 / k ^ 2 * c by ring, show d.fiducialCoupling / k ^ 2 = 1 / k ^ 2 * d.fiducialCoupling by ring,
      fdiv_unit hk _ _ _ _ (by positivity) (by positivity), div_self (by positivity)]
    cases fdiv c d.fiducialCoupling <;> simp
  | _ => rfl

theorem pValue_unit (hk : 0 < k) (hT : UnitFreeTools T) (hC : ClassUnit k C C') :
    (d.inUnit k).pValue (U.inUnit k hk) T C' (p.inUnit k) = d.pValue U T C p := by
  unfold pValue
  rw [hC.total, hC.binned, pValueMaximumGap_unit d p hk hT hC, rescaling_unit d p hk,
    show (d.inUnit k).targets = d.targets from rfl, DMParticle.getInteractionParameter_unit]
  have e1 : (d.inUnit k).analysis = d.analysis := rfl
  have e2 : (d.inUnit k).usingFiducial = d.usingFiducial := rfl
  have e3 : (d.inUnit k).fiducialSpectrum = d.fiducialSpectrum := rfl
  have e4 : (d.inUnit k).bins = d.bins := rfl
  have e5 : (d.inUnit k).binBackground = d.binBackground := rfl
  have e6 : (d.inUnit k).binObserved = d.binObserved := rfl
  rw [e1, e2, e3, e4, e5, e6]
  cases d.analysis with
  | poisson => rfl
  | binnedPoisson => cases p.getInteractionParameter U d.targets <;> rfl
  | maximumGap => rfl

theorem signalRateTotal_unit (hC : ClassUnit k C C') : (d.inUnit k).signalRateTotal C' (p.inUnit k) = d.signalRateTotal C p := by
  unfold signalRateTotal
  rw [hC.total]
  rfl

theorem scanCouplings_unit (hk : 0 < k) (hT : UnitFreeTools T) (hC : ClassUnit k C C') (m : ℝ) (cs : List ℝ) :
    (d.inUnit k).scanCouplings (U.inUnit k hk) T C' (k * m) (cs.map (· / k ^ 2)) (p.inUnit k) =
      (d.scanCouplings U T C m cs p).inUnit fun r => (r.1.inUnit k, r.2.map fun x => (k * x.1, x.2.1 / k ^ 2, x.2.2)) := by
  induction cs generalizing p with
  | nil => rfl
  | cons c cs ih =>
    simp only [List.map_cons, scanCouplings, show (d.inUnit k).targets = d.targets from rfl]
    rw [DMParticle.setInteractionParameter_unit]
    refine Outcome.inUnit_bind fun q => ?_
    rw [logLikelihood_unit d q hk hT hC]
    refine Outcome.inUnit_bind' fun l => ?_
    rw [ih]
    exact Outcome.inUnit_bind fun r => rfl

theorem scanMasses_unit (hk : 0 < k) (hT : UnitFreeTools T) (hC : ClassUnit k C C') (ms cs : List ℝ) :
    (d.inUnit k).scanMasses (U.inUnit k hk) T C' (cs.map (· / k ^ 2)) (ms.map (k * ·)) (p.inUnit k) =
      (d.scanMasses U T C cs ms p).inUnit fun r => (r.1.inUnit k, r.2.map fun x => (k * x.1, x.2.1 / k ^ 2, x.2.2)) := by
  induction ms generalizing p with
  | nil => rfl
  | cons m ms ih =>
    simp only [List.map_cons, scanMasses]
    rw [DMParticle.setMass_unit]
    refine Outcome.inUnit_bind fun q => ?_
    rw [scanCouplings_unit d q hk hT hC]
    refine Outcome.inUnit_bind fun r => ?_
    dsimp only
    rw [ih]
    refine Outcome.inUnit_bind fun r' => ?_
    simp

theorem logLikelihoodScan_unit (hk : 0 < k) (hT : UnitFreeTools T) (hC : ClassUnit k C C') (ms cs : List ℝ) :
    (d.inUnit k).logLikelihoodScan (U.inUnit k hk) T C' (p.inUnit k) (ms.map (k * ·)) (cs.map (· / k ^ 2)) =
      (d.logLikelihoodScan U T C p ms cs).inUnit fun r => (r.1.inUnit k, r.2.map fun x => (k * x.1, x.2.1 / k ^ 2, x.2.2)) := by
  unfold logLikelihoodScan
  rw [show (d.inUnit k).targets = d.targets from rfl, DMParticle.getInteractionParameter_unit]
  refine Outcome.inUnit_bind fun c => ?_
  rw [scanMasses_unit d p hk hT hC]
  refine Outcome.inUnit_bind fun r => ?_
  dsimp only
  rw [show (p.inUnit k).mass = k * p.mass from rfl, DMParticle.setMass_unit]
  refine Outcome.inUnit_bind fun q => ?_
  rw [DMParticle.setInteractionParameter_unit]
  exact Outcome.inUnit_bind fun q => rfl

end Detector

theorem NuclearDetector.class_unit (hk : 0 < k) (hT : UnitFreeTools T) (x : NuclearDetector) :
    ClassUnit k (x.toClass U T h) ((x.inUnit k).toClass (U.inUnit k hk) T (h.inUnit k)) := by
  have rate : ∀ (d : Detector) E (p : DMParticle), ((x.inUnit k).dRdE (U.inUnit k hk) T.integrate (d.inUnit k) (k * E) (p.inUnit k) (h.inUnit k)).valueOr0 =
      1 / k * (x.dRdE U T.integrate d E p h).valueOr0 := by
    intro d E p
    rw [dRdE_unit x d p hk hT.integral, Outcome.valueOr0_unit]
  refine ⟨fun p => x.maximumEnergyDeposit_unit p hk hT.integral, rate, ?_, ?_⟩
  · intro d p
    exact d.baseSignalsTotal_unit p hk hT rate fun d p => d.baseSignalsBinned_unit p hk hT rate
  · intro d p
    exact d.baseSignalsBinned_unit p hk hT rate

end Obscura
