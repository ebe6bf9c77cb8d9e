import Verif.Lemmas.NuclearRange
import Verif.Model.Configuration
import Verif.Spec.Detector

/-!
# C77: the share of the particle in the local density
-/

namespace Obscura

open Spec DMParticle

variable {U : Units} {T : Tools} {h : Distribution} {p : DMParticle} {d : Detector} {f : ℝ}

/-! ## Nuclear recoils -/

theorem dRdERIsotope_fraction {I : Integrator} {iso : Isotope} {E : ℝ} :
    dRdERIsotope U I E (p.setFractionalDensity f) h iso = (dRdERIsotope U I E (p.setFractionalDensity 1) h iso).scale f := by
  have hd : ∀ g E v, (p.setFractionalDensity g).dSigmadERNucleus U E iso v = p.dSigmadERNucleus U E iso v := fun _ _ _ => rfl
  unfold dRdERIsotope
  simp only [hd]
  show (if h.vMax < vMinimalNucleus E p.mass iso.mass then _ else if p.useEtaFunction = true ∧ h.useEta = true then _ else _) =
    Outcome.scale f (if h.vMax < vMinimalNucleus E p.mass iso.mass then _ else if p.useEtaFunction = true ∧ h.useEta = true then _ else _)
  split_ifs with h1 h2
  · simp [Outcome.scale]
  · simp only [setFractionalDensity]
    cases h.eta _ <;> simp [Outcome.scale]
    ring
  · simp only [setFractionalDensity, Outcome.scale, Outcome.bind_ok, Outcome.ok.injEq]
    ring

theorem theoryRate_fraction {I : Integrator} {x : NuclearDetector} {E ER : ℝ} :
    x.theoryRate U I d E ER (p.setFractionalDensity f) h = (x.theoryRate U I d E ER (p.setFractionalDensity 1) h).scale f := by
  refine sumOver_scale f fun i _ => ?_
  cases vecGet x.nuclei i <;> simp [Outcome.scale]
  rename_i n
  cases x.efficiency i E <;> simp
  cases vecGet x.fractions i <;> simp
  have : dRdERNucleus U I ER (p.setFractionalDensity f) h n = (dRdERNucleus U I ER (p.setFractionalDensity 1) h n).scale f := by
    refine sumOver_scale f fun iso _ => ?_
    rw [dRdERIsotope_fraction]
    cases dRdERIsotope U I ER (p.setFractionalDensity 1) h iso <;> simp [Outcome.scale]
    ring
  rw [this]
  cases dRdERNucleus U I ER (p.setFractionalDensity 1) h n <;> simp [Outcome.scale]
  ring

theorem dRdE_fraction {I : Integrator} {x : NuclearDetector} {E : ℝ} (hI : I.Homogeneous) :
    x.dRdE U I d E (p.setFractionalDensity f) h = (x.dRdE U I d E (p.setFractionalDensity 1) h).scale f := by
  unfold NuclearDetector.dRdE
  split_ifs
  · exact theoryRate_fraction
  · simp only [Outcome.scale, Outcome.bind_ok, Outcome.ok.injEq]
    rw [← hI]
    congr 1
    funext ER
    rw [theoryRate_fraction, Outcome.scale_valueOr0]; ring

theorem base_scaled {a : DMParticle → Outcome ℝ} {b : Detector → DMParticle → Outcome ℝ}
    {rate : Detector → ℝ → DMParticle → ℝ} {k : ℝ} {p p' : DMParticle} (hI : T.integrate.Homogeneous)
    (hP : ∀ k xs (ys : List ℝ) x y, T.interpolationIntegral xs (ys.map fun z => k * z) x y = k * T.interpolationIntegral xs ys x y)
    (hr : ∀ E, rate d E p' = k * rate d E p) :
    (DetectorClass.base T a b rate).signalsTotal d p' = (DetectorClass.base T a b rate).signalsTotal d p >>= (fun s => .ok (k * s)) ∧
    (DetectorClass.base T a b rate).signalsBinned d p' =
      (DetectorClass.base T a b rate).signalsBinned d p >>= fun ss => .ok (ss.map fun s => k * s) := by
  have hbin : ∀ (C : DetectorClass), C.dRdE = rate →
      d.baseSignalsBinned T C p' = d.baseSignalsBinned T C p >>= fun ss => .ok (ss.map fun s => k * s) := by
    intro C hC
    unfold Detector.baseSignalsBinned Detector.signalsEnergyBins
    split_ifs
    · rfl
    · rfl
    · refine collect_scale k fun i _ => ?_
      cases vecGet d.binEnergies i <;> simp [Outcome.scale]
      cases vecGet d.binEnergies (i + 1) <;> simp
      cases vecGet d.binEfficiencies i <;> simp
      have : (fun E => C.dRdE d E p') = fun E => k * C.dRdE d E p := by
        funext E; rw [hC]; exact hr E
      rw [this, hI]; ring
    · rfl
  refine ⟨?_, hbin _ rfl⟩
  simp only [DetectorClass.base]
  unfold Detector.baseSignalsTotal
  split_ifs
  · simp only
    rw [hbin _ rfl]
    generalize Detector.baseSignalsBinned T _ d p = o
    cases o <;> simp [foldl_add_eq_sum, sum_map_mul]
  · rfl
  · simp only [Outcome.bind_ok, Outcome.ok.injEq]
    have : (fun E => rate d E p') = fun E => k * rate d E p := by
      funext E; exact hr E
    rw [this, show ∀ l : List ℝ, (l.map fun E => k * rate d E p) = (l.map fun E => rate d E p).map fun z => k * z by simp, hP]
    ring

/-- C77 (nuclear recoils). Rates and event numbers of every nuclear recoil detector are proportional to the share of the particle in the
local density: with the share `f` they are `f` times those of a particle that makes up all of it. -/
theorem C77_nuclear_partial (hI : T.integrate.Homogeneous)
    (hP : ∀ k xs (ys : List ℝ) x y, T.interpolationIntegral xs (ys.map fun z => k * z) x y = k * T.interpolationIntegral xs ys x y)
    (x : NuclearDetector) :
    let C := (AnyDetector.nuclear d x).toClass U T h
    (∀ E, C.dRdE d E (p.setFractionalDensity f) = f * C.dRdE d E (p.setFractionalDensity 1)) ∧
    (∀ s, C.signalsTotal d (p.setFractionalDensity 1) = .ok s → C.signalsTotal d (p.setFractionalDensity f) = .ok (f * s)) ∧
    ∀ ss, C.signalsBinned d (p.setFractionalDensity 1) = .ok ss →
      C.signalsBinned d (p.setFractionalDensity f) = .ok (ss.map fun s => f * s) := by
  have hr : ∀ E, (x.dRdE U T.integrate d E (p.setFractionalDensity f) h).valueOr0 =
      f * (x.dRdE U T.integrate d E (p.setFractionalDensity 1) h).valueOr0 := fun E => by
    rw [dRdE_fraction hI, Outcome.scale_valueOr0]
  obtain ⟨h1, h2⟩ := base_scaled (T := T) (d := d) (a := fun p => x.maximumEnergyDeposit U T.integrate p h)
    (b := fun d p => x.minimumDMMass U T.integrate d p h) (rate := fun d E p => (x.dRdE U T.integrate d E p h).valueOr0) hI hP hr
  refine ⟨hr, fun s hs => ?_, fun ss hs => ?_⟩
  · exact h1.trans (by rw [show (DetectorClass.base T _ _ _).signalsTotal d (p.setFractionalDensity 1) = .ok s from hs]; rfl)
  · exact h2.trans (by rw [show (DetectorClass.base T _ _ _).signalsBinned d (p.setFractionalDensity 1) = .ok ss from hs]; rfl)

/-! ## Electrons -/

/-- The detectors whose events are electrons. -/
def AnyDetector.countsElectrons : AnyDetector → Prop
  | .nuclear _ _ => False
  | _ => True

/-- C77 (electrons). The share of the particle in the local density plays no role for electron recoils, the Migdal effect and
semiconductors: rates and event numbers are those of a particle that makes up all of the density. -/
theorem C77_fails_electrons {D : AnyDetector} (hD : D.countsElectrons) (d : Detector) :
    let C := D.toClass U T h
    (∀ E, C.dRdE d E (p.setFractionalDensity f) = C.dRdE d E p) ∧ C.signalsTotal d (p.setFractionalDensity f) = C.signalsTotal d p ∧
    C.signalsBinned d (p.setFractionalDensity f) = C.signalsBinned d p := by
  cases D with
  | nuclear => exact hD.elim
  | electronRecoil d' x => exact ⟨fun _ => rfl, rfl, rfl⟩
  | migdal d' x => exact ⟨fun _ => rfl, rfl, rfl⟩
  | crystal d' x => exact ⟨fun _ => rfl, rfl, rfl⟩

theorem setInteractionParameter_fraction (c : ℝ) (t : String) : (p.setFractionalDensity f).setInteractionParameter U c t =
    p.setInteractionParameter U c t >>= fun q => .ok (q.setFractionalDensity f) := by
  have hp : (p.setFractionalDensity f).setSigmaProton U c = p.setSigmaProton U c >>= fun q => .ok (q.setFractionalDensity f) := by
    unfold setSigmaProton
    simp only [show (p.setFractionalDensity f).couplingOf U c = p.couplingOf U c from rfl]
    simp only [setFractionalDensity]
    by_cases h1 : p.fixedRelation = true
    · by_cases h2 : p.fpRel = 0
      · simp [h1, h2]
      · simp only [h1, h2, if_true, if_false]
        cases p.couplingOf U c <;> simp
        cases fdiv p.fnRel p.fpRel <;> simp
    · simp only [h1, if_false, Bool.false_eq_true]
      cases p.couplingOf U c <;> simp
  have hn : (p.setFractionalDensity f).setSigmaNeutron U c = p.setSigmaNeutron U c >>= fun q => .ok (q.setFractionalDensity f) := by
    unfold setSigmaNeutron
    simp only [show (p.setFractionalDensity f).couplingOf U c = p.couplingOf U c from rfl]
    simp only [setFractionalDensity]
    by_cases h1 : p.fixedRelation = true
    · by_cases h2 : p.fnRel = 0
      · simp [h1, h2]
      · simp only [h1, h2, if_true, if_false]
        cases p.couplingOf U c <;> simp
        cases fdiv p.fpRel p.fnRel <;> simp
    · simp only [h1, if_false, Bool.false_eq_true]
      cases p.couplingOf U c <;> simp
  unfold setInteractionParameter
  rw [hp, hn]
  show (if t = "Nuclei" then if 0 < p.fpRel then _ else _ else _) = _
  split_ifs <;> rfl

/-- C77 (p-values for electrons). Nor does it for p-values, and so for upper limits: the excluded cross sections of such a detector are
too small by the share of the particle. -/
theorem C77_fails_electrons_p_value {D : AnyDetector} (hD : D.countsElectrons) (d : Detector) (c : ℝ) :
    pValueAt U T (D.toClass U T h) d (p.setFractionalDensity f) c = pValueAt U T (D.toClass U T h) d p c := by
  have key : ∀ q : DMParticle, d.pValue U T (D.toClass U T h) (q.setFractionalDensity f) = d.pValue U T (D.toClass U T h) q := by
    intro q
    obtain ⟨h1, h2, h3⟩ := C77_fails_electrons (U := U) (T := T) (h := h) (p := q) (f := f) hD d
    have h4 : (D.toClass U T h).maximumEnergyDeposit (q.setFractionalDensity f) = (D.toClass U T h).maximumEnergyDeposit q := by
      cases D with
      | nuclear => exact hD.elim
      | _ => rfl
    unfold Detector.pValue Detector.pValueMaximumGap
    rw [h2, h3, h4]
    simp only [h1]
    rfl
  unfold pValueAt
  rw [setInteractionParameter_fraction]
  cases p.setInteractionParameter U c d.targets <;> simp [key]

/-- Non-vacuity: detectors of all classes. -/
example (d : Detector) (x : IonizationDetector) (y : CrystalDetector) : (AnyDetector.electronRecoil d x).countsElectrons ∧
    (AnyDetector.migdal d x).countsElectrons ∧ (AnyDetector.crystal d y).countsElectrons := ⟨trivial, trivial, trivial⟩

end Obscura
