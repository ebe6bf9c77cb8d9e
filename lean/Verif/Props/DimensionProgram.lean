import Verif.Lemmas.DimensionExperiments
import Verif.Props.Dimension
import Verif.Props.Configured

/-!
# C104: experiments, distributions and configurations do not depend on the internal unit of energy
-/

namespace Obscura
open Spec

variable {k : ℝ} {S : Setup} {U : Units} {N : Numerics}

/-! ## Experiments -/

/-- C104 (experiments). Every predefined experiment is the same experiment in another unit of energy. -/
theorem C104_experiments (hk : 0 < k) (hP : UnitFreeInterpolation S.P) (cache : List Nucleus) (t : String) :
    let S' := S.inUnit k hk
    let cache' := cache.map (Nucleus.inUnit k)
    S'.damicN2011 cache' = (S.damicN2011 cache).inUnit (nuclearInUnit k) ∧
    S'.xenon1TN2017 cache' = (S.xenon1TN2017 cache).inUnit (nuclearInUnit k) ∧
    S'.cresstII cache' = (S.cresstII cache).inUnit (nuclearInUnit k) ∧
    S'.cresstIII cache' = (S.cresstIII cache).inUnit (nuclearInUnit k) ∧
    S'.cresstSurface cache' = (S.cresstSurface cache).inUnit (nuclearInUnit k) ∧
    S'.xenon10S2 t cache' = (S.xenon10S2 t cache).inUnit (ionizationInUnit k) ∧
    S'.xenon100S2 t cache' = (S.xenon100S2 t cache).inUnit (ionizationInUnit k) ∧
    S'.xenon1TS2 t cache' = (S.xenon1TS2 t cache).inUnit (ionizationInUnit k) ∧
    S'.darkSide50S2 t cache' = (S.darkSide50S2 t cache).inUnit (ionizationInUnit k) ∧
    S'.darkSide50S22023 t cache' = (S.darkSide50S22023 t cache).inUnit (ionizationInUnit k) ∧
    S'.pandaX4TS2 t cache' = (S.pandaX4TS2 t cache).inUnit (ionizationInUnit k) ∧
    S'.lzS2 t cache' = (S.lzS2 t cache).inUnit (ionizationInUnit k) ∧
    S'.protoSENSEISurface = S.protoSENSEISurface.inUnit (crystalInUnit k) ∧
    S'.protoSENSEIMINOS = S.protoSENSEIMINOS.inUnit (crystalInUnit k) ∧
    S'.senseiMINOS = S.senseiMINOS.inUnit (crystalInUnit k) ∧
    S'.cdmsHVeV2018 = S.cdmsHVeV2018.inUnit (crystalInUnit k) ∧
    S'.cdmsHVeV2020 = S.cdmsHVeV2020.inUnit (crystalInUnit k) ∧
    S'.damicM2023 = S.damicM2023.inUnit (crystalInUnit k) :=
  ⟨Setup.damicN2011_unit hk cache, Setup.xenon1TN2017_unit hk cache, Setup.cresstII_unit hk cache, Setup.cresstIII_unit hk cache,
    Setup.cresstSurface_unit hk cache, Setup.xenon10S2_unit hk hP t cache, Setup.xenon100S2_unit hk hP t cache,
    Setup.xenon1TS2_unit hk hP t cache, Setup.darkSide50S2_unit hk hP t cache, Setup.darkSide50S22023_unit hk hP t cache,
    Setup.pandaX4TS2_unit hk hP t cache, Setup.lzS2_unit hk hP t cache, Setup.protoSENSEISurface_unit hk hP,
    Setup.protoSENSEIMINOS_unit hk hP, Setup.senseiMINOS_unit hk hP, Setup.cdmsHVeV2018_unit hk hP, Setup.cdmsHVeV2020_unit hk hP,
    Setup.damicM2023_unit hk hP⟩

/-! ## Distributions -/

theorem densityUnit_unit (hk : 0 < k) (rho : ℝ) :
    rho * ((U.inUnit k hk).GeV / (U.inUnit k hk).cm / (U.inUnit k hk).cm / (U.inUnit k hk).cm) = k ^ 4 * (rho * (U.GeV / U.cm / U.cm / U.cm)) := by
  have := U.cm_pos.ne'
  simp only [Units.GeV, Units.inUnit]
  field_simp

theorem speedUnit_unit (hk : 0 < k) (a : ℝ) : a * ((U.inUnit k hk).km / (U.inUnit k hk).sec) = a * (U.km / U.sec) := by
  rw [← mul_div_assoc, ← mul_div_assoc, speed_unit hk]

theorem SHMpp.ofSHM_unit (N : Numerics) (h : SHM) (e b : ℝ) : SHMpp.ofSHM N (h.inUnit k) e b = (SHMpp.ofSHM N h e b).inUnit k := rfl

theorem SHMpp.run_unit (hk : 0 < k) (s : SHMpp) (ops : List SHMpp.Op) :
    (s.inUnit k).run (U.inUnit k hk) (ops.map (SHMpp.Op.inUnit k)) = (s.run U ops).inUnit k := by
  induction ops generalizing s with
  | nil => rfl
  | cons op ops ih =>
    have : (s.inUnit k).step (U.inUnit k hk) (op.inUnit k) = (s.step U op).inUnit k := by
      rcases op with op | e | b
      · cases op with
        | setObserverDate a b c d e =>
          simp only [SHMpp.Op.inUnit, SHM.Op.inUnit, SHMpp.step, SHMpp.setObserverDate, earthVelocity_unit hk]; rfl
        | _ => rfl
      · rfl
      · rfl
    change ((s.inUnit k).step (U.inUnit k hk) (op.inUnit k)).run (U.inUnit k hk) (ops.map (SHMpp.Op.inUnit k)) = ((s.step U op).run U ops).inUnit k
    rw [this, ih]

/-- C104 (SHM++ and imported distributions). The constructors of the SHM++, every sequence of its calls, and distributions imported from tables of
speeds give the same halo in both units, whose speed distribution and `eta` are pure numbers. -/
theorem C104_other_halos (hk : 0 < k) (rho v0 vobs vesc e b : ℝ) (vel : Vec) (ops : List SHMpp.Op) (I : Integrator) (P : Interpolator)
    (file : Bool) (xs ys : List ℝ) (v : ℝ) :
    (SHMpp.default (U.inUnit k hk) N e b).run (U.inUnit k hk) (ops.map (SHMpp.Op.inUnit k)) = ((SHMpp.default U N e b).run U ops).inUnit k ∧
    (SHMpp.makeSpeed N (k ^ 4 * rho) v0 vobs vesc e b).run (U.inUnit k hk) (ops.map (SHMpp.Op.inUnit k)) =
      ((SHMpp.makeSpeed N rho v0 vobs vesc e b).run U ops).inUnit k ∧
    (SHMpp.makeVel N (k ^ 4 * rho) v0 vel vesc e b).run (U.inUnit k hk) (ops.map (SHMpp.Op.inUnit k)) =
      ((SHMpp.makeVel N rho v0 vel vesc e b).run U ops).inUnit k ∧
    (∀ s : SHMpp, Distribution.ofSHMpp N (s.inUnit k) = (Distribution.ofSHMpp N s).inUnit k ∧ (s.inUnit k).density = k ^ 4 * s.density ∧
      (s.inUnit k).pdfSpeed N v = s.pdfSpeed N v ∧ (s.inUnit k).cdfSpeed N v = s.cdfSpeed N v ∧ (s.inUnit k).eta v = s.eta v ∧
      (s.inUnit k).pdfVelocity vel = s.pdfVelocity vel) ∧
    Distribution.imported I P file (k ^ 4 * rho) xs ys = (Distribution.imported I P file rho xs ys).inUnit (Distribution.inUnit k) := by
  refine ⟨?_, ?_, ?_, fun s => ⟨rfl, rfl, rfl, rfl, rfl, rfl⟩, ?_⟩
  · rw [← SHMpp.run_unit hk]
    congr 1
    have e : 0.55 * (U.inUnit k hk).GeV / (U.inUnit k hk).cm / (U.inUnit k hk).cm / (U.inUnit k hk).cm =
        k ^ 4 * (0.55 * U.GeV / U.cm / U.cm / U.cm) := by
      have := U.cm_pos.ne'
      simp only [Units.GeV, Units.inUnit]
      field_simp
    unfold SHMpp.default
    rw [← SHMpp.ofSHM_unit, e, speed_unit hk, speed_unit hk, speed_unit hk]
    rfl
  · rw [← SHMpp.run_unit hk]; rfl
  · rw [← SHMpp.run_unit hk]; rfl
  · unfold Distribution.imported
    cases xs.head? with
    | none => rfl
    | some a => cases xs.getLast? <;> rfl

/-! ## Configurations -/

theorem observerVelocity_unit (hk : 0 < k) (c : Config) : c.observerVelocity (U.inUnit k hk) = c.observerVelocity U := by
  unfold Config.observerVelocity
  simp only [speed_unit hk]

theorem haloModel_unit (hk : 0 < k) (c : Config) (label : String) :
    c.haloModel (U.inUnit k hk) N label = (c.haloModel U N label).inUnit (Distribution.inUnit k) := by
  unfold Config.haloModel
  refine Outcome.inUnit_bind' fun rho => ?_
  refine Outcome.inUnit_bind' fun v0 => ?_
  rw [observerVelocity_unit]
  refine Outcome.inUnit_bind' fun vel => ?_
  refine Outcome.inUnit_bind' fun vesc => ?_
  rw [densityUnit_unit, speedUnit_unit, speedUnit_unit]
  by_cases hl : label = "SHM"
  · rw [if_pos hl, if_pos hl]; rfl
  · rw [if_neg hl, if_neg hl]
    refine Outcome.inUnit_bind' fun e => ?_
    exact Outcome.inUnit_bind' fun b => rfl

/-- C104 (configured distributions). The distribution of a configuration file is the same in both units. -/
theorem C104_configured_distribution (hk : 0 < k) (speeds : String → Option (List ℝ × List ℝ)) (c : Config) :
    c.distribution (U.inUnit k hk) N speeds = (c.distribution U N speeds).inUnit (Distribution.inUnit k) := by
  unfold Config.distribution
  refine Outcome.inUnit_bind' fun kind => ?_
  split_ifs
  · exact haloModel_unit hk c kind
  · unfold Config.importedDistribution
    refine Outcome.inUnit_bind' fun rho => ?_
    refine Outcome.inUnit_bind' fun path => ?_
    rw [densityUnit_unit]
    cases speeds path with
    | none => rfl
    | some t =>
      dsimp only
      exact (C104_other_halos (U := U) (N := N) hk _ 0 0 0 0 0 0 [] _ _ _ _ _ 0).2.2.2.2
  · rfl

theorem particleSI_unit (hk : 0 < k) {c : Config} (hc : MediatorClear U k c) :
    c.particleSI (U.inUnit k hk) = (c.particleSI U).inUnit (DMParticle.inUnit k) := by
  unfold Config.particleSI DMParticle.makeSI1
  have e : 10 * (U.inUnit k hk).GeV = k * (10 * U.GeV) := by simp only [Units.GeV, Units.inUnit]; ring
  rw [e, DMParticle.cm2_unit hk, DMParticle.makeSI_unit]
  refine Outcome.inUnit_bind fun p => ?_
  refine Outcome.inUnit_bind' fun ff => ?_
  by_cases hf : ff = "General"
  · rw [if_pos hf, if_pos hf]
    cases hm : c.getDouble "DM_mediator_mass" with
    | ok m =>
      have e2 : m * (U.inUnit k hk).MeV = k * (m * U.MeV) := by simp only [Units.MeV, Units.inUnit]; ring
      have hc' := hc m hm
      dsimp only [Outcome.bind_ok]
      rw [e2]
      by_cases h : m * U.MeV < 1 / 10 ^ 60
      · rw [if_pos h, if_pos (hc'.1 h)]; rfl
      · rw [if_neg h, if_neg (hc'.not.1 h)]
        exact DMParticle.step_unit (U := U) hk p (.setFormFactorDM ff (m * U.MeV))
    | _ => rfl
  · rw [if_neg hf, if_neg hf, Outcome.bind_ok, Outcome.bind_ok]
    have e3 : ∀ q : DMParticle, q.setFormFactorDM ff (-1) = q.setFormFactorDM ff (-k) := by
      intro q
      unfold DMParticle.setFormFactorDM
      have h1 : ¬ (0 : ℝ) < -1 := by norm_num
      have h2 : ¬ (0 : ℝ) < -k := by linarith
      cases q.interaction with
      | SD => rfl
      | SI f qRef mOld =>
        dsimp only
        cases DMParticle.formFactorOfName ff with
        | none => rfl
        | some f => dsimp only; rw [if_neg (fun h => h1 h.2), if_neg (fun h => h2 h.2)]
    dsimp only
    rw [e3 (p.inUnit k), show -k = k * (-1) by ring]
    exact DMParticle.step_unit (U := U) hk p (.setFormFactorDM ff (-1))

theorem particleStandard_unit (hk : 0 < k) {c : Config} (hc : MediatorClear U k c) (i : String) :
    c.particleStandard (U.inUnit k hk) i = (c.particleStandard U i).inUnit (DMParticle.inUnit k) := by
  have e : 10 * (U.inUnit k hk).GeV = k * (10 * U.GeV) := by simp only [Units.GeV, Units.inUnit]; ring
  have e2 : ∀ s : ℝ, s * ((U.inUnit k hk).cm * (U.inUnit k hk).cm) = s * (U.cm * U.cm) / k ^ 2 := by
    intro s
    simp only [Units.inUnit]
    field_simp
  have h1 : (if i = "SI" then c.particleSI (U.inUnit k hk) else DMParticle.makeSD1 (U.inUnit k hk) (10 * (U.inUnit k hk).GeV)) =
      (if i = "SI" then c.particleSI U else DMParticle.makeSD1 U (10 * U.GeV)).inUnit (DMParticle.inUnit k) := by
    by_cases hi : i = "SI"
    · rw [if_pos hi, if_pos hi, particleSI_unit hk hc]
    · rw [if_neg hi, if_neg hi]
      unfold DMParticle.makeSD1
      rw [e, DMParticle.cm2_unit hk, DMParticle.makeSD_unit]
  let rest : Units → DMParticle → Outcome DMParticle := fun U p => c.relativeCouplings >>= fun ab => p.fixCouplingRatio ab.1 ab.2 >>= fun p =>
    c.getDouble "DM_cross_section_nucleon" >>= fun s => p.setInteractionParameter U (s * (U.cm * U.cm)) "Nuclei" >>= fun p =>
    c.getDouble "DM_cross_section_electron" >>= fun se => .ok (p.setSigmaElectron (se * (U.cm * U.cm)))
  have h0 : ∀ U : Units, c.particleStandard U i = (if i = "SI" then c.particleSI U else DMParticle.makeSD1 U (10 * U.GeV)) >>= rest U := by
    intro U
    unfold Config.particleStandard
    by_cases hi : i = "SI"
    · rw [if_pos hi, if_pos hi]
    · rw [if_neg hi, if_neg hi]
  rw [h0, h0, h1]
  refine Outcome.inUnit_bind fun p => ?_
  refine Outcome.inUnit_bind' fun ab => ?_
  have h2 := DMParticle.step_unit (U := U) hk p (.fixCouplingRatio ab.1 ab.2)
  change (p.inUnit k).fixCouplingRatio ab.1 ab.2 = (p.fixCouplingRatio ab.1 ab.2).inUnit (DMParticle.inUnit k) at h2
  rw [h2]
  refine Outcome.inUnit_bind fun p => ?_
  refine Outcome.inUnit_bind' fun s => ?_
  rw [e2, DMParticle.setInteractionParameter_unit]
  refine Outcome.inUnit_bind fun p => ?_
  refine Outcome.inUnit_bind' fun se => ?_
  rw [e2]
  rfl

/-- C104 (configured particles). The particle of a configuration file is the same in both units, and a file that is rejected in one is rejected in
the other. What is missing: a mediator is rejected if its mass is below the pure number 10⁻⁶⁰. -/
theorem C104_configured_particle_partial (hk : 0 < k) {c : Config} (hc : MediatorClear U k c) :
    c.particle (U.inUnit k hk) = (c.particle U).inUnit (DMParticle.inUnit k) := by
  unfold Config.particle
  refine Outcome.inUnit_bind' fun m => ?_
  refine Outcome.inUnit_bind' fun spin => ?_
  refine Outcome.inUnit_bind' fun f => ?_
  refine Outcome.inUnit_bind' fun l => ?_
  refine Outcome.inUnit_bind' fun i => ?_
  have e : m * (U.inUnit k hk).GeV = k * (m * U.GeV) := by simp only [Units.GeV, Units.inUnit]; ring
  by_cases hi : i = "SI" ∨ i = "SD"
  · rw [if_pos hi, if_pos hi, particleStandard_unit hk hc]
    refine Outcome.inUnit_bind fun p => ?_
    dsimp only
    rw [e, DMParticle.setMass_unit]
    exact Outcome.inUnit_bind fun p => rfl
  · rw [if_neg hi, if_neg hi]; rfl

/-- C104 (mediators). Every file with the form factor "General" and an admissible mediator mass is rejected if the unit of energy is large
enough. -/
theorem C104_fails_mediator {c : Config} {s : ParticleSettings} (hc : DescribesParticle c s) (h1 : s.interaction = "SI")
    (h2 : s.formFactor = "General") (hm : 0 < s.mass) (hs : 0 ≤ s.sigmaNucleon) (hab : s.fp + s.fn ≠ 0) (h3 : 1 / 10 ^ 60 ≤ s.mediator * U.MeV) :
    (∃ p, c.particle U = .ok p) ∧ ∃ (k : ℝ) (hk : 0 < k), c.particle (U.inUnit k hk) = .exit := by
  constructor
  · obtain ⟨p, hp, -⟩ := C53_particle_partial (U := U) hc (.inr ⟨h1, by simp [h2], fun _ => h3⟩) hm hs hab
    exact ⟨p, hp⟩
  · have h0 : 0 < s.mediator * U.MeV := lt_of_lt_of_le (by positivity) h3
    refine ⟨1 / 10 ^ 61 / (s.mediator * U.MeV), by positivity, C53_unknown_words hc ?_⟩
    rintro (h | ⟨-, -, h⟩)
    · rw [h1] at h; exact absurd h (by decide)
    · have := h h2
      have e : ∀ (k : ℝ) (hk : 0 < k), s.mediator * (U.inUnit k hk).MeV = k * (s.mediator * U.MeV) := by
        intro k hk
        simp only [Units.MeV, Units.inUnit]; ring
      rw [e, div_mul_cancel₀ _ h0.ne'] at this
      norm_num at this

theorem targets_unit (hk : 0 < k) (c : Config) (j n : ℕ) (cache : List Nucleus) :
    c.targets (S.inUnit k hk) j n (cache.map (Nucleus.inUnit k)) =
      (c.targets S j n cache).inUnit fun r => (r.1.map (Nucleus.inUnit k), r.2.1, r.2.2.map (Nucleus.inUnit k)) := by
  induction n generalizing j cache with
  | zero => rfl
  | succ n ih =>
    unfold Config.targets
    refine Outcome.inUnit_bind' fun s => ?_
    refine Outcome.inUnit_bind' fun e => ?_
    refine Outcome.inUnit_bind' fun a => ?_
    refine Outcome.inUnit_bind' fun ab => ?_
    refine Outcome.inUnit_bind' fun z => ?_
    refine Outcome.inUnit_bind' fun zz => ?_
    rw [show (S.inUnit k hk).U = S.U.inUnit k hk from rfl, show (S.inUnit k hk).files.nuclear = S.files.nuclear from rfl, getNucleus_unit hk]
    refine Outcome.inUnit_bind fun r => ?_
    dsimp only
    rw [ih]
    exact Outcome.inUnit_bind fun r => rfl

theorem expo_unit (hk : 0 < k) (e : ℝ) : e * ((S.inUnit k hk).kg * (S.inUnit k hk).M.year) = e * (S.kg * S.M.year) := by
  rw [Setup.kgyear_unit]

theorem nuclearDetector_unit (hk : 0 < k) (c : Config) (cache : List Nucleus) :
    c.nuclearDetector (S.inUnit k hk) (cache.map (Nucleus.inUnit k)) = (c.nuclearDetector S cache).inUnit (anyInUnit k) := by
  unfold Config.nuclearDetector
  refine Outcome.inUnit_bind' fun l => ?_
  rw [targets_unit]
  refine Outcome.inUnit_bind fun r => ?_
  dsimp only
  refine Outcome.inUnit_bind' fun thr => ?_
  refine Outcome.inUnit_bind' fun emax => ?_
  refine Outcome.inUnit_bind' fun expo => ?_
  refine Outcome.inUnit_bind' fun eff => ?_
  refine Outcome.inUnit_bind' fun obs => ?_
  refine Outcome.inUnit_bind' fun bkg => ?_
  refine Outcome.inUnit_bind' fun res => ?_
  rw [expo_unit, NuclearDetector.make_unit hk]
  refine Outcome.inUnit_bind fun t => ?_
  dsimp only
  rw [Setup.keV_unit, Setup.keV_unit, Setup.keV_unit, Detector.setFlatEfficiency_unit, Detector.useEnergyThreshold_unit _ hk]
  refine Outcome.inUnit_bind fun d => ?_
  rw [Detector.setObserved_unit _ hk]
  refine Outcome.inUnit_bind fun d => ?_
  rw [Detector.setBackground_unit _ hk]
  refine Outcome.inUnit_bind fun d => ?_
  rw [Outcome.inUnit_ok]
  have : Config.configuredResolution (t.2.inUnit k) (k * (res * S.U.keV)) = (Config.configuredResolution t.2 (res * S.U.keV)).inUnit k := by
    unfold Config.configuredResolution
    by_cases h : 0 < res * S.U.keV
    · rw [if_pos h, if_pos (mul_pos hk h)]; rfl
    · rw [if_neg h, if_neg (fun h' => h ((mul_pos_iff_of_pos_left hk).1 h'))]
  rw [this]
  rfl

theorem ionizationDetector_unit (hk : 0 < k) (hP : UnitFreeInterpolation S.P) (c : Config) (kind : String) (cache : List Nucleus) :
    c.ionizationDetector (S.inUnit k hk) kind (cache.map (Nucleus.inUnit k)) = (c.ionizationDetector S kind cache).inUnit (anyInUnit k) := by
  unfold Config.ionizationDetector
  refine Outcome.inUnit_bind' fun atom => ?_
  refine Outcome.inUnit_bind' fun thr => ?_
  refine Outcome.inUnit_bind' fun expo => ?_
  refine Outcome.inUnit_bind' fun eff => ?_
  refine Outcome.inUnit_bind' fun obs => ?_
  refine Outcome.inUnit_bind' fun bkg => ?_
  rw [expo_unit, Setup.makeIonization_unit hk hP]
  refine Outcome.inUnit_bind fun t => ?_
  unfold ionizationInUnit
  dsimp only
  rw [Detector.setFlatEfficiency_unit, Setup.useElectronThreshold_unit hk]
  refine Outcome.inUnit_bind fun d => ?_
  dsimp only
  rw [Detector.setObserved_unit _ hk]
  refine Outcome.inUnit_bind fun d => ?_
  rw [Detector.setBackground_unit _ hk]
  refine Outcome.inUnit_bind fun d => ?_
  rw [Outcome.inUnit_ok]
  split_ifs <;> rfl

theorem crystalDetector_unit (hk : 0 < k) (hP : UnitFreeInterpolation S.P) (c : Config) :
    c.crystalDetector (S.inUnit k hk) = (c.crystalDetector S).inUnit (AnyDetector.inUnit k) := by
  unfold Config.crystalDetector
  refine Outcome.inUnit_bind' fun target => ?_
  refine Outcome.inUnit_bind' fun thr => ?_
  refine Outcome.inUnit_bind' fun expo => ?_
  refine Outcome.inUnit_bind' fun eff => ?_
  refine Outcome.inUnit_bind' fun obs => ?_
  refine Outcome.inUnit_bind' fun bkg => ?_
  rw [expo_unit, Setup.makeCrystal_unit hk hP]
  refine Outcome.inUnit_bind fun t => ?_
  unfold crystalInUnit
  dsimp only
  rw [Detector.setFlatEfficiency_unit, Setup.useQThreshold_unit hk]
  unfold crystalInUnit
  dsimp only
  rw [Detector.setObserved_unit _ hk]
  refine Outcome.inUnit_bind fun d => ?_
  rw [Detector.setBackground_unit _ hk]
  exact Outcome.inUnit_bind fun d => rfl

theorem asNuclear_unit (r : Outcome (List Nucleus × Detector × NuclearDetector)) :
    Config.asNuclear (r.inUnit (nuclearInUnit k)) = (Config.asNuclear r).inUnit (anyInUnit k) := Outcome.inUnit_bind fun _ => rfl
theorem asER_unit (r : Outcome (List Nucleus × Detector × IonizationDetector)) :
    Config.asER (r.inUnit (ionizationInUnit k)) = (Config.asER r).inUnit (anyInUnit k) := Outcome.inUnit_bind fun _ => rfl
theorem asMigdal_unit (r : Outcome (List Nucleus × Detector × IonizationDetector)) :
    Config.asMigdal (r.inUnit (ionizationInUnit k)) = (Config.asMigdal r).inUnit (anyInUnit k) := Outcome.inUnit_bind fun _ => rfl
theorem asCrystal_unit (cache : List Nucleus) (r : Outcome (Detector × CrystalDetector)) :
    Config.asCrystal (cache.map (Nucleus.inUnit k)) (r.inUnit (crystalInUnit k)) = (Config.asCrystal cache r).inUnit (anyInUnit k) :=
  Outcome.inUnit_bind fun _ => rfl

theorem Outcome.inUnit_ite {α β : Type} (P : Prop) [Decidable P] (a b : Outcome α) (F : α → β) :
    (if P then a else b).inUnit F = if P then a.inUnit F else b.inUnit F := by split_ifs <;> rfl

/-- C104 (configured detectors). The detector of a configuration file, whether predefined or described in the file, is the same in both units, and
a file that is rejected in one is rejected in the other. -/
theorem C104_configured_detector (hk : 0 < k) (hP : UnitFreeInterpolation S.P) (c : Config) (cache : List Nucleus) :
    c.detector (S.inUnit k hk) (cache.map (Nucleus.inUnit k)) = (c.detector S cache).inUnit (anyInUnit k) := by
  unfold Config.detector
  refine Outcome.inUnit_bind' fun name => ?_
  obtain ⟨a1, a2, a3, a4, a5, -⟩ := C104_experiments hk hP cache ""
  obtain ⟨-, -, -, -, -, b1, b2, b3, b4, b5, b6, b7, c1, c2, c3, c4, c5, c6⟩ := C104_experiments hk hP cache "Electrons"
  obtain ⟨-, -, -, -, -, d1, d2, d3, d4, d5, d6, d7, -⟩ := C104_experiments hk hP cache "Nuclei"
  unfold Config.selectDetector
  rw [nuclearDetector_unit, ionizationDetector_unit hk hP, crystalDetector_unit hk hP, a1, a2, a3, a4, a5, b1, b2, b3, b4, b5, b6, b7, c1, c2, c3,
    c4, c5, c6, d1, d2, d3, d4, d5, d6, d7]
  simp only [asNuclear_unit, asER_unit, asMigdal_unit, asCrystal_unit]
  have e : (((c.crystalDetector S).inUnit (AnyDetector.inUnit k)) >>= fun d => Outcome.ok (cache.map (Nucleus.inUnit k), d)) =
      ((c.crystalDetector S) >>= fun d => Outcome.ok (cache, d)).inUnit (anyInUnit k) := Outcome.inUnit_bind fun _ => rfl
  rw [e]
  simp only [Outcome.inUnit_ite, Outcome.inUnit_exit]

/-- C104 (configurations). The object made from a configuration file is the same in both units: the same particle, distribution and detector, the
same certainty, and the same paths. What is missing: the mediator mass of `C104_configured_particle_partial`; and the mass range of the limits is a
pair of pure numbers, see `C104_fails_mass_range`. -/
theorem C104_configuration_partial (hk : 0 < k) (hP : UnitFreeInterpolation S.P) (R : Installation)
    (speeds : String → Option (List ℝ × List ℝ)) {c : Config} (hc : MediatorClear S.U k c) (cache : List Nucleus) (cfgFile ID : Name) :
    Configuration.build R (S.inUnit k hk) N speeds c (cache.map (Nucleus.inUnit k)) cfgFile ID =
      (Configuration.build R S N speeds c cache cfgFile ID).inUnit (fun r => (r.1.map (Nucleus.inUnit k), r.2.inUnit k)) := by
  unfold Configuration.build
  rw [show (S.inUnit k hk).U = S.U.inUnit k hk from rfl, C104_configured_particle_partial hk hc]
  refine Outcome.inUnit_bind fun p => ?_
  rw [C104_configured_distribution hk]
  refine Outcome.inUnit_bind fun h => ?_
  rw [C104_configured_detector hk hP]
  refine Outcome.inUnit_bind fun d => ?_
  unfold anyInUnit
  dsimp only
  exact Outcome.inUnit_bind' fun t => rfl

/-- A platform in the other unit. -/
noncomputable def Platform.inUnit (E : Platform) (k : ℝ) (hk : 0 < k) : Platform := { E with S := E.S.inUnit k hk }

/-- C104 (the mass range of the limits). The program takes the mass range of the configuration, which it announces in GeV, as the number that
stands for a mass, whatever the unit: in any other unit the masses at which it computes limits, expressed in GeV, are different ones. -/
theorem C104_fails_mass_range (E : Platform) (hk : 0 < k) (hk1 : k ≠ 1) {o : Configuration} (h1 : 0 < o.massMin) (h2 : 0 < o.massMax)
    (h3 : 2 ≤ o.masses) : ∃ ms, Program.masses E o = .ok ms ∧ Program.masses (E.inUnit k hk) (o.inUnit k) = .ok ms ∧ ms ≠ [] ∧
      ∀ m ∈ ms, m / (E.inUnit k hk).S.U.GeV ≠ m / E.S.U.GeV := by
  refine ⟨logSpace o.massMin o.massMax o.masses, ?_, ?_, ?_, ?_⟩
  · unfold Program.masses
    rw [if_pos ⟨h1, h2, h3⟩]
  · unfold Program.masses
    rw [if_pos ⟨h1, h2, h3⟩]
    rfl
  · unfold logSpace
    intro h
    have := congrArg List.length h
    simp at this
    omega
  · intro m hm
    unfold logSpace at hm
    obtain ⟨i, -, rfl⟩ := List.mem_map.1 hm
    have hg : (E.inUnit k hk).S.U.GeV = k * E.S.U.GeV := by simp only [Platform.inUnit, Setup.inUnit, Units.GeV, Units.inUnit]; ring
    have hG : 0 < E.S.U.GeV := by have := E.S.U.eV_pos; unfold Units.GeV; positivity
    rw [hg]
    intro h
    set x := o.massMin * (o.massMax / o.massMin) ^ ((i : ℝ) / ((o.masses : ℝ) - 1)) with hx
    have hx0 : 0 < x := by
      have : 0 < o.massMax / o.massMin := div_pos h2 h1
      exact mul_pos h1 (Real.rpow_pos_of_pos this _)
    rw [div_eq_div_iff (by positivity) hG.ne'] at h
    have : x * E.S.U.GeV * (k - 1) = 0 := by linarith
    rcases mul_eq_zero.1 this with h | h
    · exact (mul_pos hx0 hG).ne' h
    · exact hk1 (by linarith)

/-! ## Non-vacuity -/

/-- A file with a heavy mediator meets the hypothesis of `C104_configured_particle_partial`. -/
example (hU : 1 ≤ U.MeV) (hk1 : 1 ≤ k) : MediatorClear U k (Function.update exampleConfig "DM_mediator_mass" (some (.float 3))) := by
  intro m hm
  have : m = 3 := by
    have e : (Function.update exampleConfig "DM_mediator_mass" (some (.float 3))) "DM_mediator_mass" = some (.float 3) := by simp
    rw [Config.getDouble_eq e] at hm
    exact (Outcome.ok.inj hm).symm
  subst this
  have h1 : (1 : ℝ) / 10 ^ 60 ≤ 3 * U.MeV := le_trans (by norm_num) (show (3 : ℝ) ≤ 3 * U.MeV by linarith)
  have h2 : 3 * U.MeV ≤ k * (3 * U.MeV) := le_mul_of_one_le_left (by linarith) hk1
  exact ⟨fun h => absurd h (not_lt.2 h1), fun h => absurd h (not_lt.2 (h1.trans h2))⟩

/-- The files of `C104_fails_mediator` exist. -/
example : DescribesParticle (Function.update (exampleWith "DM_form_factor" "General") "DM_mediator_mass" (some (.float 3)))
    { mass := 0.1, spin := 0.5, fraction := 1, light := false, interaction := "SI", formFactor := "General", mediator := 3, fp := 1, fn := 1,
      sigmaNucleon := 1e-36, sigmaElectron := 1e-36 } := by
  constructor <;> simp [exampleConfig, exampleWith, Function.update]

/-- The mass range of the example meets the hypotheses of `C104_fails_mass_range`. -/
example (o : Configuration) : let o' : Configuration := { o with massMin := 0.02, massMax := 1, masses := 10 }
    0 < o'.massMin ∧ 0 < o'.massMax ∧ 2 ≤ o'.masses := by
  norm_num

end Obscura
