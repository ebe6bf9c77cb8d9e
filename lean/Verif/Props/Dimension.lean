import Verif.Lemmas.DimensionElectrons
import Verif.Props.LimitComparison

/-!
# C104: results do not depend on the internal unit of energy
-/

namespace Obscura
open Spec Detector

variable {U : Units} {T : Tools} {k : ℝ} {h : Distribution} {p : DMParticle} {D : AnyDetector} {c0 s cert : ℝ} {ss : List ℝ}

/-! ## Particles -/

/-- C104 (particles). A particle that is constructed and treated by any sequence of calls with all arguments expressed in another unit is the
same particle in that unit; a sequence that ends in an error still does, with the same one. -/
theorem C104_particles (hk : 0 < k) (m sigma : ℝ) (ops : List DMParticle.Op) :
    (DMParticle.makeSI (U.inUnit k hk) (k * m) (sigma / k ^ 2) >>= fun q => q.run (U.inUnit k hk) (ops.map (DMParticle.Op.inUnit k))) =
      (DMParticle.makeSI U m sigma >>= fun q => q.run U ops).inUnit (DMParticle.inUnit k) ∧
    (DMParticle.makeSD (U.inUnit k hk) (k * m) (sigma / k ^ 2) >>= fun q => q.run (U.inUnit k hk) (ops.map (DMParticle.Op.inUnit k))) =
      (DMParticle.makeSD U m sigma >>= fun q => q.run U ops).inUnit (DMParticle.inUnit k) := by
  rw [DMParticle.makeSI_unit, DMParticle.makeSD_unit]
  exact ⟨Outcome.inUnit_bind fun q => DMParticle.run_unit hk q ops, Outcome.inUnit_bind fun q => DMParticle.run_unit hk q ops⟩

/-- What a user can bring about in one unit they can bring about in the other. -/
theorem Spec.Reachable.inUnit (hk : 0 < k) (hp : Reachable U p) : Reachable (U.inUnit k hk) (p.inUnit k) := by
  obtain ⟨q, ops, hq, hv, hr⟩ := hp
  refine ⟨q.inUnit k, ops.map (DMParticle.Op.inUnit k), ?_, ?_, ?_⟩
  · rcases hq with ⟨m, x, hm, e⟩ | ⟨m, x, hm, e⟩
    · exact .inl ⟨k * m, x / k ^ 2, mul_pos hk hm, by rw [DMParticle.makeSI_unit, e, Outcome.inUnit_ok]⟩
    · exact .inr ⟨k * m, x / k ^ 2, mul_pos hk hm, by rw [DMParticle.makeSD_unit, e, Outcome.inUnit_ok]⟩
  · intro o ho
    obtain ⟨o', ho', rfl⟩ := List.mem_map.1 ho
    have := hv o' ho'
    cases o' <;> first | trivial | exact mul_pos hk this
  · rw [DMParticle.run_unit, hr, Outcome.inUnit_ok]

/-- C104 (cross sections). Cross sections, couplings and interaction parameters have the dimension (energy)⁻², cross sections per squared
momentum (energy)⁻⁴, cross sections per recoil energy (energy)⁻³, and those per momentum and electron energy (energy)⁻⁵ for atoms and
crystals; form factors are pure numbers. -/
theorem C104_cross_sections (hk : 0 < k) {I : Integrator} (hI : UnitFree I) (p : DMParticle) (iso : Isotope) (e : AtomicElectron)
    (c : Crystal) (t : String) (q E Ee v : ℝ) :
    (p.inUnit k).getInteractionParameter (U.inUnit k hk) t = (p.getInteractionParameter U t).inUnit (· / k ^ 2) ∧
    (p.inUnit k).sigmaProton (U.inUnit k hk) = p.sigmaProton U / k ^ 2 ∧
    (p.inUnit k).sigmaNeutron (U.inUnit k hk) = p.sigmaNeutron U / k ^ 2 ∧
    (p.inUnit k).sigmaTotalNucleus (U.inUnit k hk) I (iso.inUnit k) v = (p.sigmaTotalNucleus U I iso v).inUnit (· / k ^ 2) ∧
    (p.inUnit k).sigmaTotalElectron (U.inUnit k hk) v = (p.sigmaTotalElectron U v).inUnit (· / k ^ 2) ∧
    (p.inUnit k).dSigmadq2Nucleus (U.inUnit k hk) (k * q) (iso.inUnit k) v = p.dSigmadq2Nucleus U q iso v / k ^ 4 ∧
    (p.inUnit k).dSigmadq2Electron (U.inUnit k hk) (k * q) v = p.dSigmadq2Electron U q v / k ^ 4 ∧
    (p.inUnit k).dSigmadERNucleus (U.inUnit k hk) (k * E) (iso.inUnit k) v = p.dSigmadERNucleus U E iso v / k ^ 3 ∧
    (p.inUnit k).d2SigmaIonization (U.inUnit k hk) (k * q) (k * Ee) v (e.inUnit k) = p.d2SigmaIonization U q Ee v e / k ^ 5 ∧
    (p.inUnit k).d2SigmaMigdal (U.inUnit k hk) (k * E) (k * Ee) v (iso.inUnit k) (e.inUnit k) = p.d2SigmaMigdal U E Ee v iso e / k ^ 4 ∧
    (p.inUnit k).d2SigmaCrystal (U.inUnit k hk) (k * q) (k * Ee) v (c.inUnit k) = p.d2SigmaCrystal U q Ee v c / k ^ 5 ∧
    (iso.inUnit k).helmFormFactor (U.inUnit k hk) (k * q) = iso.helmFormFactor U q ∧
    (e.inUnit k).ionizationFormFactor (U.inUnit k hk) (k * q) (k * Ee) = e.ionizationFormFactor U q Ee :=
  ⟨DMParticle.getInteractionParameter_unit hk p t, DMParticle.sigmaProton_unit hk p, DMParticle.sigmaNeutron_unit hk p,
    DMParticle.sigmaTotalNucleus_unit hk p hI iso v, DMParticle.sigmaTotalElectron_unit hk p v, DMParticle.dSigmadq2Nucleus_unit hk p q v iso,
    DMParticle.dSigmadq2Electron_unit hk p q v, DMParticle.dSigmadERNucleus_unit hk p E v iso, d2SigmaIonization_unit hk p q Ee v e,
    d2SigmaMigdal_unit hk p E Ee v iso e, d2SigmaCrystal_unit hk p q Ee v c, helmFormFactor_unit hk iso q,
    AtomicElectron.ionizationFormFactor_unit e hk q Ee⟩

/-- C104 (kinematics). Minimal speeds are pure numbers; momentum transfers and recoil energies have the dimension of an energy. -/
theorem C104_kinematics (hk : 0 < k) (E q Ee m M B v : ℝ) :
    vMinimalNucleus (k * E) (k * m) (k * M) = vMinimalNucleus E m M ∧
    vMinimalElectrons (k * q) (k * E) (k * m) = vMinimalElectrons q E m ∧
    vMinimalMigdal (k * E) (k * Ee) (k * m) (k * M) (k * B) = vMinimalMigdal E Ee m M B ∧
    maximumNuclearRecoilEnergy v (k * m) (k * M) = k * maximumNuclearRecoilEnergy v m M ∧
    qMinER (k * m) v (k * B) = k * qMinER m v B ∧ qMaxER (k * m) v (k * B) = k * qMaxER m v B ∧
    erMinMigdal v (k * M) (k * B) = k * erMinMigdal v M B ∧ erMaxMigdal v (k * m) (k * M) = k * erMaxMigdal v m M :=
  ⟨vMinimalNucleus_unit hk _ _ _, vMinimalElectrons_unit hk _ _ _, vMinimalMigdal_unit hk _ _ _ _ _, maximumNuclearRecoilEnergy_unit hk _ _ _,
    qMinER_unit hk _ _ _, qMaxER_unit hk _ _ _, erMinMigdal_unit hk _ _ _, erMaxMigdal_unit hk _ _ _⟩

/-! ## Halos -/

theorem speed_unit (hk : 0 < k) (a : ℝ) : a * (U.inUnit k hk).km / (U.inUnit k hk).sec = a * U.km / U.sec := by
  have := U.sec_pos.ne'
  simp only [Units.km, Units.inUnit]
  field_simp

theorem earthVelocity_unit (hk : 0 < k) (n : ℝ) : earthVelocity (U.inUnit k hk) n = earthVelocity U n := by
  simp only [earthVelocity, sunVelocity, speed_unit hk]

theorem SHM.run_unit (hk : 0 < k) (h : SHM) (ops : List SHM.Op) :
    (h.inUnit k).run (U.inUnit k hk) (ops.map (SHM.Op.inUnit k)) = (h.run U ops).inUnit k := by
  induction ops generalizing h with
  | nil => rfl
  | cons op ops ih =>
    have : (h.inUnit k).step (U.inUnit k hk) (op.inUnit k) = (h.step U op).inUnit k := by
      cases op with
      | setObserverDate a b c d e => simp only [SHM.Op.inUnit, SHM.step, SHM.setObserverDate, earthVelocity_unit hk]; rfl
      | _ => rfl
    change ((h.inUnit k).step (U.inUnit k hk) (op.inUnit k)).run (U.inUnit k hk) (ops.map (SHM.Op.inUnit k)) = ((h.step U op).run U ops).inUnit k
    rw [this, ih]

/-- C104 (halos). The default halo model, the two constructors and every sequence of calls give the same halo, whose speed distribution and
`eta` are pure numbers and whose density has the dimension (energy)⁴. -/
theorem C104_halos (hk : 0 < k) (rho v0 vobs vesc : ℝ) (vel : Vec) (ops : List SHM.Op) (v : ℝ) :
    (SHM.default (U.inUnit k hk)).run (U.inUnit k hk) (ops.map (SHM.Op.inUnit k)) = ((SHM.default U).run U ops).inUnit k ∧
    (SHM.makeSpeed (k ^ 4 * rho) v0 vobs vesc).run (U.inUnit k hk) (ops.map (SHM.Op.inUnit k)) =
      ((SHM.makeSpeed rho v0 vobs vesc).run U ops).inUnit k ∧
    (SHM.makeVel (k ^ 4 * rho) v0 vel vesc).run (U.inUnit k hk) (ops.map (SHM.Op.inUnit k)) =
      ((SHM.makeVel rho v0 vel vesc).run U ops).inUnit k ∧
    (∀ h : SHM, Distribution.ofSHM (h.inUnit k) = (Distribution.ofSHM h).inUnit k ∧ (h.inUnit k).density = k ^ 4 * h.density ∧
      (h.inUnit k).pdfSpeed v = h.pdfSpeed v ∧ (h.inUnit k).cdfSpeed v = h.cdfSpeed v ∧ (h.inUnit k).eta v = h.eta v ∧
      (h.inUnit k).pdfVelocity vel = h.pdfVelocity vel) := by
  refine ⟨?_, ?_, ?_, fun h => ⟨rfl, rfl, rfl, rfl, rfl, rfl⟩⟩
  · rw [← SHM.run_unit hk]
    congr 1
    have e : 0.4 * (U.inUnit k hk).GeV / (U.inUnit k hk).cm / (U.inUnit k hk).cm / (U.inUnit k hk).cm =
        k ^ 4 * (0.4 * U.GeV / U.cm / U.cm / U.cm) := by
      have := U.cm_pos.ne'
      simp only [Units.GeV, Units.inUnit]
      field_simp
    simp only [SHM.default, speed_unit hk, e]
    rfl
  · rw [← SHM.run_unit hk]; rfl
  · rw [← SHM.run_unit hk]; rfl

/-! ## Targets -/

/-- C104 (targets). Isotopes, the nuclei read from the data file, atoms and crystals built from the same tables are the same in both units. -/
theorem C104_targets (hk : 0 < k) {P : Interpolator2D} (hP : UnitFreeInterpolation P) (z a : ℕ) (ab s sp sn : ℝ)
    (file : Option (List NuclearRow)) (cache : List Nucleus) (tables : ResponseTables) (name : String) (form : String → List ℝ) :
    Isotope.make (U.inUnit k hk) z a ab s sp sn = (Isotope.make U z a ab s sp sn).inUnit (Isotope.inUnit k) ∧
    getNucleus (U.inUnit k hk) file (cache.map (Nucleus.inUnit k)) z =
      (getNucleus U file cache z).inUnit (fun r => (r.1.map (Nucleus.inUnit k), r.2.inUnit k)) ∧
    getNucleusByName (U.inUnit k hk) file (cache.map (Nucleus.inUnit k)) name =
      (getNucleusByName U file cache name).inUnit (fun r => (r.1.map (Nucleus.inUnit k), r.2.inUnit k)) ∧
    Atom.make (U.inUnit k hk) P tables file (cache.map (Nucleus.inUnit k)) name =
      (Atom.make U P tables file cache name).inUnit (fun r => (r.1.map (Nucleus.inUnit k), r.2.inUnit k)) ∧
    Crystal.make (U.inUnit k hk) P form name = (Crystal.make U P form name).inUnit (Crystal.inUnit k) :=
  ⟨Isotope.make_unit hk z a ab s sp sn, getNucleus_unit hk file cache z, findNucleus_unit hk file name _ cache,
    Atom.make_unit hk hP tables file cache name, Crystal.make_unit hk hP form name⟩

/-! ## Detectors -/

/-- C104 (detectors). A nuclear recoil detector built from the same nuclei, and a detector of any class after any sequence of configuration
calls with all arguments in the other unit, is the same detector in that unit; a sequence that ends in an error still does. -/
theorem C104_detectors (hk : 0 < k) (label : String) (expo : ℝ) (target : String) (nuclei : List Nucleus) (ab : List ℝ)
    (ops : List Detector.Op) (x : IonizationDetector) (opsI : List IonizationDetector.Op) (y : CrystalDetector) (opsC : List CrystalDetector.Op) :
    NuclearDetector.make label expo (nuclei.map (Nucleus.inUnit k)) ab =
      (NuclearDetector.make label expo nuclei ab).inUnit (fun r => (r.1.inUnit k, r.2.inUnit k)) ∧
    (Detector.make label expo target).run (ops.map (Detector.Op.inUnit k)) = ((Detector.make label expo target).run ops).inUnit (Detector.inUnit k) ∧
    IonizationDetector.run (Detector.make label expo target, x.inUnit k) (opsI.map (IonizationDetector.Op.inUnit k)) =
      (IonizationDetector.run (Detector.make label expo target, x) opsI).inUnit (fun r => (r.1.inUnit k, r.2.inUnit k)) ∧
    CrystalDetector.run (Detector.make label expo target, y.inUnit k) (opsC.map (CrystalDetector.Op.inUnit k)) =
      (CrystalDetector.run (Detector.make label expo target, y) opsC).inUnit (fun r => (r.1.inUnit k, r.2.inUnit k)) := by
  have e := Detector.make_unit (k := k) label expo target
  have h1 := Detector.run_unit (Detector.make label expo target) hk ops
  have h2 := IonizationDetector.run_unit hk (Detector.make label expo target, x) opsI
  have h3 := CrystalDetector.run_unit hk (Detector.make label expo target, y) opsC
  simp only [e] at h1 h2 h3
  exact ⟨NuclearDetector.make_unit hk label expo nuclei ab, h1, h2, h3⟩

theorem Spec.ReachableDetector.inUnit (hk : 0 < k) {d : Detector} (hd : ReachableDetector d) : ReachableDetector (d.inUnit k) := by
  rcases hd with ⟨d₀, ops, ⟨l, e, t, rfl⟩, hr⟩ | ⟨d₀, x₀, x, ops, ⟨l, e, t, rfl⟩, hr⟩ | ⟨d₀, x₀, x, ops, ⟨l, e, t, rfl⟩, hr⟩
  · refine .inl ⟨_, ops.map (Detector.Op.inUnit k), ⟨l, e, t, rfl⟩, ?_⟩
    have h1 := Detector.run_unit (Detector.make l e t) hk ops
    rwa [Detector.make_unit, hr] at h1
  · refine .inr (.inl ⟨_, x₀.inUnit k, x.inUnit k, ops.map (IonizationDetector.Op.inUnit k), ⟨l, e, t, rfl⟩, ?_⟩)
    have h1 := IonizationDetector.run_unit hk (Detector.make l e t, x₀) ops
    simp only [Detector.make_unit, hr] at h1
    exact h1
  · refine .inr (.inr ⟨_, x₀.inUnit k, x.inUnit k, ops.map (CrystalDetector.Op.inUnit k), ⟨l, e, t, rfl⟩, ?_⟩)
    have h1 := CrystalDetector.run_unit hk (Detector.make l e t, x₀) ops
    simp only [Detector.make_unit, hr] at h1
    exact h1

/-- C104 (predictions). For detectors of all classes, in every state, every halo and every particle: the spectrum has the dimension
(energy)⁻¹, the largest energy deposit that of an energy, and the total signals, the signals in every bin and the total rate are pure numbers that do
not depend on the unit. -/
theorem C104_predictions (hk : 0 < k) (hT : UnitFreeTools T) (D : AnyDetector) (h : Distribution) (p : DMParticle) (E : ℝ) :
    let C := D.toClass U T h
    let C' := (D.inUnit k).toClass (U.inUnit k hk) T (h.inUnit k)
    C'.dRdE (D.inUnit k).base (k * E) (p.inUnit k) = C.dRdE D.base E p / k ∧
    C'.maximumEnergyDeposit (p.inUnit k) = (C.maximumEnergyDeposit p).inUnit (k * ·) ∧
    C'.signalsTotal (D.inUnit k).base (p.inUnit k) = C.signalsTotal D.base p ∧
    C'.signalsBinned (D.inUnit k).base (p.inUnit k) = C.signalsBinned D.base p ∧
    (D.inUnit k).base.signalRateTotal C' (p.inUnit k) = D.base.signalRateTotal C p := by
  have hC := AnyDetector.class_unit (U := U) (h := h) hk hT D
  rw [AnyDetector.base_unit]
  refine ⟨?_, hC.deposit p, hC.total _ p, hC.binned _ p, D.base.signalRateTotal_unit p hC⟩
  rw [hC.rate]
  ring

theorem pValueAt_unit (hk : 0 < k) (hT : UnitFreeTools T) {C C' : DetectorClass} (hC : ClassUnit k C C') (d : Detector) (p : DMParticle) (c : ℝ) :
    pValueAt (U.inUnit k hk) T C' (d.inUnit k) (p.inUnit k) (c / k ^ 2) = pValueAt U T C d p c := by
  unfold pValueAt
  rw [show (d.inUnit k).targets = d.targets from rfl, DMParticle.setInteractionParameter_unit]
  cases p.setInteractionParameter U c d.targets with
  | ok q =>
    rw [Outcome.inUnit_ok, Outcome.bind_ok, Outcome.bind_ok]
    exact d.pValue_unit q hk hT hC
  | _ => rfl

/-- C104 (statistics). P-values, likelihoods and log-likelihoods are the same in both units, and so is a scan over masses and couplings, whose
points are the same in the other unit. -/
theorem C104_statistics (hk : 0 < k) (hT : UnitFreeTools T) (D : AnyDetector) (h : Distribution) (p : DMParticle) (ms cs : List ℝ) (c : ℝ) :
    let C := D.toClass U T h
    let C' := (D.inUnit k).toClass (U.inUnit k hk) T (h.inUnit k)
    (D.inUnit k).base.pValue (U.inUnit k hk) T C' (p.inUnit k) = D.base.pValue U T C p ∧
    (D.inUnit k).base.logLikelihood T C' (p.inUnit k) = D.base.logLikelihood T C p ∧
    (D.inUnit k).base.likelihood T C' (p.inUnit k) = D.base.likelihood T C p ∧
    (D.inUnit k).base.logLikelihoodScan (U.inUnit k hk) T C' (p.inUnit k) (ms.map (k * ·)) (cs.map (· / k ^ 2)) =
      (D.base.logLikelihoodScan U T C p ms cs).inUnit (fun r => (r.1.inUnit k, r.2.map fun x => (k * x.1, x.2.1 / k ^ 2, x.2.2))) ∧
    pValueAt (U.inUnit k hk) T C' (D.inUnit k).base (p.inUnit k) (c / k ^ 2) = pValueAt U T C D.base p c := by
  have hC := AnyDetector.class_unit (U := U) (h := h) hk hT D
  rw [AnyDetector.base_unit]
  refine ⟨D.base.pValue_unit p hk hT hC, D.base.logLikelihood_unit p hk hT hC, D.base.likelihood_unit p hk hT hC,
    D.base.logLikelihoodScan_unit p hk hT hC ms cs, ?_⟩
  exact pValueAt_unit hk hT hC D.base p c

theorem Spec.Sees.inUnit (hk : 0 < k) (hT : UnitFreeTools T) (hS : Sees U T h D p c0 s) :
    Sees (U.inUnit k hk) T (h.inUnit k) (D.inUnit k) (p.inUnit k) (c0 / k ^ 2) s := by
  have hC := AnyDetector.class_unit (U := U) (h := h) hk hT D
  have e := D.base_unit (k := k)
  refine ⟨e ▸ hS.detector.inUnit hk, e ▸ hS.counting, e ▸ hS.background, hS.particle.inUnit hk, ?_, ?_, ?_, hS.visible⟩
  · rw [e, show (D.base.inUnit k).targets = D.base.targets from rfl, DMParticle.getInteractionParameter_unit, hS.parameter, Outcome.inUnit_ok]
  · have := hS.positive; positivity
  · rw [e, hC.total]; exact hS.signal

theorem Spec.SeesInBins.inUnit (hk : 0 < k) (hT : UnitFreeTools T) (hS : SeesInBins U T h D p c0 ss) :
    SeesInBins (U.inUnit k hk) T (h.inUnit k) (D.inUnit k) (p.inUnit k) (c0 / k ^ 2) ss := by
  have hC := AnyDetector.class_unit (U := U) (h := h) hk hT D
  have e := D.base_unit (k := k)
  refine ⟨e ▸ hS.detector.inUnit hk, e ▸ hS.binned, e ▸ hS.bins, e ▸ hS.background, hS.particle.inUnit hk, ?_, ?_, ?_, e ▸ hS.complete,
    e ▸ hS.visible⟩
  · rw [e, show (D.base.inUnit k).targets = D.base.targets from rfl, DMParticle.getInteractionParameter_unit, hS.parameter, Outcome.inUnit_ok]
  · have := hS.positive; positivity
  · rw [e, hC.binned]; exact hS.signal

/-- C104 (upper limits, counting experiments). Where a limit is found in both units it is the same cross section. What is missing:
the window in which the limit is searched is a pure number (10⁻³⁰ … 10¹⁰), so it can be found in one unit and missed in the other. -/
theorem C104_limit_partial (hk : 0 < k) (hT : UnitFreeTools T) (hR : T.findRoot.Exact) (hS : Sees U T h D p c0 s) {r r' : Detector × DMParticle × ℝ}
    (h1 : D.base.upperLimit U T (D.toClass U T h) p cert = .ok r)
    (h2 : (D.inUnit k).base.upperLimit (U.inUnit k hk) T ((D.inUnit k).toClass (U.inUnit k hk) T (h.inUnit k)) (p.inUnit k) cert = .ok r')
    (hx : 0 < r.2.2) (hx' : 0 < r'.2.2) : r'.2.2 = r.2.2 / k ^ 2 := by
  have e := D.base_unit (k := k)
  have key := C87_comparison hS (hS.inUnit hk hT) hR hR (by rw [e]; rfl) (by rw [e]; rfl) h1 h2 hx hx'
  have := hS.positive
  have := hS.visible
  field_simp at key ⊢
  linarith

/-- C104 (upper limits, binned experiments). The same for binned analyses. -/
theorem C104_limit_binned_partial (hk : 0 < k) (hT : UnitFreeTools T) (hR : T.findRoot.Exact) (hS : SeesInBins U T h D p c0 ss)
    {r r' : Detector × DMParticle × ℝ} (h1 : D.base.upperLimit U T (D.toClass U T h) p cert = .ok r)
    (h2 : (D.inUnit k).base.upperLimit (U.inUnit k hk) T ((D.inUnit k).toClass (U.inUnit k hk) T (h.inUnit k)) (p.inUnit k) cert = .ok r')
    (hx : 0 < r.2.2) (hx' : 0 < r'.2.2) : r'.2.2 = r.2.2 / k ^ 2 := by
  have e := D.base_unit (k := k)
  have hS' := hS.inUnit hk hT
  have h0 := hk.ne'
  have hc := hS.positive.ne'
  have a1 := C87_comparison_binned hS hS' hR hR (by rw [e]; rfl) (fun _ _ => by rw [e]; rfl) (fun _ _ => by rw [e]; rfl) (k := k ^ 2)
    (fun i _ => le_of_eq (by field_simp)) h1 h2 hx hx'
  have a2 := C87_comparison_binned hS' hS hR hR (by rw [e]; rfl) (fun _ _ => by rw [e]; rfl) (fun _ _ => by rw [e]; rfl) (k := (k ^ 2)⁻¹)
    (fun i _ => le_of_eq (by field_simp)) h2 h1 hx' hx
  refine le_antisymm ?_ ?_
  · rw [div_eq_inv_mul]; exact a2
  · rw [div_le_iff₀ (by positivity), mul_comm]; exact a1

/-! ## The lightest particle and the slowest particle -/

/-- C104 (smallest mass and speed). For nuclear recoil detectors and crystals the smallest detectable mass has the dimension of an energy and the
smallest detectable speed is a pure number. -/
theorem C104_minimum (hk : 0 < k) (hT : UnitFreeTools T) (d : Detector) (x : NuclearDetector) (h : Distribution) (p : DMParticle) :
    (x.inUnit k).minimumDMMass (U.inUnit k hk) T.integrate (d.inUnit k) (p.inUnit k) (h.inUnit k) =
      (x.minimumDMMass U T.integrate d p h).inUnit (k * ·) ∧
    (x.inUnit k).minimumDMSpeed (U.inUnit k hk) T.integrate (d.inUnit k) (p.inUnit k) = x.minimumDMSpeed U T.integrate d p ∧
    CrystalDetector.minimumDMMass (d.inUnit k) (h.inUnit k) = (CrystalDetector.minimumDMMass d h).inUnit (k * ·) ∧
    CrystalDetector.minimumDMSpeed (d.inUnit k) (p.inUnit k) = CrystalDetector.minimumDMSpeed d p :=
  ⟨x.minimumDMMass_unit d p hk hT.integral, x.minimumDMSpeed_unit d p hk hT.integral, CrystalDetector.minimumDMMass_unit d hk,
    CrystalDetector.minimumDMSpeed_unit d p hk⟩

open Classical in
theorem least_unit {α β : Type} (hk : 0 < k) (F : α → β) (g : α → ℝ) (g' : β → ℝ) (l : List α) (hg : ∀ a ∈ l, g' (F a) = k * g a) (c : ℝ) :
    (l.map F).foldl (fun (b : ℝ) a => if g' a < b then g' a else b) (k * c) = k * l.foldl (fun (b : ℝ) a => if g a < b then g a else b) c := by
  induction l generalizing c with
  | nil => rfl
  | cons a l ih =>
    simp only [List.map_cons, List.foldl_cons]
    rw [← ih (fun b hb => hg b (List.mem_cons_of_mem _ hb)), hg a List.mem_cons_self]
    simp only [mul_lt_mul_iff_right₀ hk]
    congr 1
    split_ifs <;> rfl

open Classical in
theorem least_start {α : Type} (g : α → ℝ) (l : List α) {c c' : ℝ} (h : ∃ a ∈ l, g a ≤ c ∧ g a ≤ c') :
    l.foldl (fun (b : ℝ) a => if g a < b then g a else b) c = l.foldl (fun (b : ℝ) a => if g a < b then g a else b) c' := by
  have e : ∀ (b : ℝ) a, (if g a < b then g a else b) = min b (g a) := by
    intro b a
    split_ifs with h
    · exact (min_eq_right h.le).symm
    · exact (min_eq_left (not_lt.1 h)).symm
  simp only [e]
  have key : ∀ (l : List α) (c : ℝ), l.foldl (fun (b : ℝ) a => min b (g a)) c ≤ c := by
    intro l
    induction l with
    | nil => intro c; exact le_rfl
    | cons a l ih => intro c; exact (ih _).trans (min_le_left _ _)
  have key2 : ∀ (l : List α) (c d : ℝ), l.foldl (fun (b : ℝ) a => min b (g a)) (min c d) = min c (l.foldl (fun (b : ℝ) a => min b (g a)) d) := by
    intro l
    induction l with
    | nil => intro c d; rfl
    | cons a l ih => intro c d; simp only [List.foldl_cons, min_assoc]; exact ih _ _
  have key3 : ∀ (l : List α) (c : ℝ), (∃ a ∈ l, g a ≤ c) → ∀ d, l.foldl (fun (b : ℝ) a => min b (g a)) (min c d) =
      l.foldl (fun (b : ℝ) a => min b (g a)) d := by
    intro l c h d
    rw [key2]
    obtain ⟨a, ha, hac⟩ := h
    refine min_eq_right (le_trans ?_ hac)
    clear hac
    induction l generalizing d with
    | nil => simp at ha
    | cons b l ih =>
      rcases List.mem_cons.1 ha with rfl | ha
      · exact (key l _).trans (min_le_right _ _)
      · exact ih _ ha
  obtain ⟨a, ha, h1, h2⟩ := h
  rw [← key3 l c' ⟨a, ha, h2⟩ c, min_comm, key3 l c ⟨a, ha, h1⟩ c']

theorem lowestBindingEnergy_unit (hk : 0 < k) (a : Atom) (ha : ∃ e ∈ a.electrons, |e.binding| ≤ 1 ∧ k * |e.binding| ≤ 1) :
    (a.inUnit k).lowestBindingEnergy = k * a.lowestBindingEnergy := by
  have hb : ∀ e : AtomicElectron, |(e.inUnit k).binding| = k * |e.binding| := fun e => by
    simp only [AtomicElectron.inUnit, abs_mul, abs_of_pos hk]
  unfold Atom.lowestBindingEnergy
  rw [show (a.inUnit k).electrons = a.electrons.map (AtomicElectron.inUnit k) from rfl,
    ← least_unit hk (AtomicElectron.inUnit k) (fun e => |e.binding|) (fun e => |e.binding|) a.electrons (fun e _ => hb e)]
  obtain ⟨e, he, h1, h2⟩ := ha
  refine least_start (fun e : AtomicElectron => |e.binding|) _ ⟨e.inUnit k, List.mem_map.2 ⟨e, he, rfl⟩, ?_, ?_⟩
  · rw [hb]; exact h2
  · rw [hb]; exact mul_le_mul_of_nonneg_left h1 hk.le

theorem lowestBindingEnergy_le (a : Atom) : a.lowestBindingEnergy ≤ 1 := by
  classical
  unfold Atom.lowestBindingEnergy
  suffices ∀ (l : List AtomicElectron) (c : ℝ), l.foldl (fun (b : ℝ) e => if |e.binding| < b then |e.binding| else b) c ≤ c from this _ _
  intro l
  induction l with
  | nil => intro c; exact le_rfl
  | cons e l ih =>
    intro c
    refine (ih _).trans ?_
    dsimp only
    split_ifs with h
    · exact h.le
    · exact le_rfl

theorem energyGap_unit (hk : 0 < k) {x : IonizationDetector} (hx : Ordinary k x) : (x.inUnit k).energyGap = k * x.energyGap := by
  unfold IonizationDetector.energyGap
  have hl : ∀ a ∈ x.atoms, (a.inUnit k).lowestBindingEnergy = k * a.lowestBindingEnergy := fun a ha => lowestBindingEnergy_unit hk a (hx.shells a ha)
  rw [show (x.inUnit k).atoms = x.atoms.map (Atom.inUnit k) from rfl,
    ← least_unit hk (Atom.inUnit k) Atom.lowestBindingEnergy Atom.lowestBindingEnergy x.atoms hl]
  obtain ⟨a, ha⟩ := List.exists_mem_of_ne_nil _ hx.atoms
  have h1 := lowestBindingEnergy_le a
  have h2 := lowestBindingEnergy_le (a.inUnit k)
  refine least_start Atom.lowestBindingEnergy _ ⟨a.inUnit k, List.mem_map.2 ⟨a, ha, rfl⟩, h2.trans (by norm_num), ?_⟩
  rw [hl a ha]
  exact mul_le_mul_of_nonneg_left (h1.trans (by norm_num)) hk.le

theorem lowestW_unit (hk : 0 < k) {x : IonizationDetector} (hx : Ordinary k x) : (x.inUnit k).lowestW = k * x.lowestW := by
  unfold IonizationDetector.lowestW
  rw [show (x.inUnit k).atoms = x.atoms.map (Atom.inUnit k) from rfl,
    ← least_unit hk (Atom.inUnit k) Atom.W Atom.W x.atoms (fun a _ => rfl)]
  obtain ⟨a, ha, h1, h2⟩ := hx.work
  exact least_start Atom.W _ ⟨a.inUnit k, List.mem_map.2 ⟨a, ha, rfl⟩, h2, mul_le_mul_of_nonneg_left h1 hk.le⟩

/-- C104 (smallest mass and speed of ionization detectors). The same for detectors whose atoms have, in both units, a shell bound by less than 1
and a work function below 10¹⁰. What is missing: the loops that look for the smallest binding energy and work function start from these pure
numbers, so beyond them the answers depend on the unit. -/
theorem C104_minimum_ionization_partial (hk : 0 < k) (d : Detector) {x : IonizationDetector} (hx : Ordinary k x) (h : Distribution) (p : DMParticle) :
    (x.inUnit k).minimumDMMass (d.inUnit k) (h.inUnit k) = (x.minimumDMMass d h).inUnit (k * ·) ∧
    (x.inUnit k).minimumDMSpeed (p.inUnit k) = x.minimumDMSpeed p := by
  constructor
  · unfold IonizationDetector.minimumDMMass
    rw [energyGap_unit hk hx, lowestW_unit hk hx]
    have e1 : (d.inUnit k).usingEnergyThreshold = d.usingEnergyThreshold := rfl
    have e2 : (x.inUnit k).usingElectronBins = x.usingElectronBins := rfl
    have e3 : (x.inUnit k).usingElectronThreshold = x.usingElectronThreshold := rfl
    have e4 : (x.inUnit k).neThreshold = x.neThreshold := rfl
    have e5 : (d.inUnit k).energyThreshold = k * d.energyThreshold := rfl
    have e6 : (h.inUnit k).vMax = h.vMax := rfl
    simp only [e1, e2, e3, e4, e5, e6]
    have e7 : ∀ E, fdiv (2 * (k * E)) (h.vMax * h.vMax) = (fdiv (2 * E) (h.vMax * h.vMax)).inUnit (k * ·) := by
      intro E
      have := fdiv_unit hk (2 * E) (h.vMax * h.vMax) k 1 hk.ne' one_ne_zero
      rw [one_mul, div_one] at this
      rw [← this]
      congr 1
      ring
    split_ifs
    · exact e7 _
    · rw [← e7]; congr 1; ring
    · exact e7 _
  · unfold IonizationDetector.minimumDMSpeed
    rw [energyGap_unit hk hx, show (p.inUnit k).mass = k * p.mass from rfl, mul_left_comm, fdiv_unit hk _ _ _ _ hk.ne' hk.ne', div_self hk.ne']
    cases fdiv (2 * x.energyGap) p.mass <;> simp

/-- An atom with one shell, bound by the energy `E`. -/
noncomputable def oneShell (E : ℝ) : Atom :=
  { nucleus := ⟨some 1, [], "X"⟩, W := 1,
    electrons := [{ n := 1, l := 0, binding := -E, kMin := 1, kMax := 2, qMin := 1, qMax := 2, dlogk := 1, dlogq := 1,
                    kGrid := [1, 2], qGrid := [1, 2], responses := [], secondaries := 0, name := "X_1s" }] }

theorem oneShell_gap {E : ℝ} (hE : 0 < E) (hE' : E < 1) (fractions : List ℝ) :
    (IonizationDetector.initial [oneShell E] fractions).energyGap = E := by
  have e : (oneShell E).lowestBindingEnergy = E := by
    simp [Atom.lowestBindingEnergy, oneShell, abs_of_pos hE, hE']
  simp only [IonizationDetector.energyGap, IonizationDetector.initial, List.foldl_cons, List.foldl_nil, e]
  rw [if_pos (by linarith)]

/-- C104 fails for ionization detectors: an atom bound by half an energy unit. In a unit four times smaller the code gives a smallest detectable
mass of only half the right value. -/
theorem C104_fails_minimum (h : Distribution) (hv : h.vMax = 1) :
    let x := IonizationDetector.initial [oneShell (1 / 2)] [1]
    let d := Detector.make "x" 1 "Electrons"
    x.minimumDMMass d h = .ok 1 ∧ (x.inUnit 4).minimumDMMass (d.inUnit 4) (h.inUnit 4) = .ok 2 ∧
    (x.inUnit 4).minimumDMMass (d.inUnit 4) (h.inUnit 4) ≠ (x.minimumDMMass d h).inUnit (4 * ·) := by
  intro x d
  have hg : x.energyGap = 1 / 2 := oneShell_gap (by norm_num) (by norm_num) [1]
  have hg' : (x.inUnit 4).energyGap = 1 := by
    have e : ((oneShell (1 / 2)).inUnit 4).lowestBindingEnergy = 1 := by
      simp only [Atom.lowestBindingEnergy, oneShell, Atom.inUnit, AtomicElectron.inUnit, List.map_cons, List.map_nil, List.foldl_cons,
        List.foldl_nil]
      rw [if_neg (by norm_num)]
    have e2 : (x.inUnit 4).atoms = [(oneShell (1 / 2)).inUnit 4] := rfl
    rw [IonizationDetector.energyGap, e2, List.foldl_cons, List.foldl_nil, e]
    rw [if_pos (by norm_num)]
  have h1 : x.minimumDMMass d h = .ok 1 := by
    unfold IonizationDetector.minimumDMMass
    rw [hg, hv]
    simp [d, x, Detector.make, IonizationDetector.initial, fdiv]
  have h2 : (x.inUnit 4).minimumDMMass (d.inUnit 4) (h.inUnit 4) = .ok 2 := by
    unfold IonizationDetector.minimumDMMass
    rw [hg', show (h.inUnit 4).vMax = h.vMax from rfl, hv]
    simp [d, x, Detector.make, IonizationDetector.initial, fdiv, Detector.inUnit, IonizationDetector.inUnit]
  refine ⟨h1, h2, ?_⟩
  rw [h1, h2, Outcome.inUnit_ok]
  intro h
  have := Outcome.ok.inj h
  norm_num at this

/-! ## Non-vacuity -/

/-- The exact integral does not depend on the unit. -/
theorem unitFree_exact : UnitFree exactIntegrator where
  homogeneous := exactIntegrator_exact.homogeneous
  substitution := by
    intro k f a b hk
    simp only [exactIntegrator]
    rw [intervalIntegral.integral_comp_div _ hk.ne', mul_div_cancel_left₀ _ hk.ne', mul_div_cancel_left₀ _ hk.ne', smul_eq_mul]

/-- There are tools that do not depend on the unit and find roots exactly. -/
theorem exists_unitFreeTools : ∃ T : Tools, UnitFreeTools T ∧ T.findRoot.Exact ∧ T.interpolationIntegral = flatTools.interpolationIntegral := by
  obtain ⟨R, hR⟩ := exists_exact_rootFinder
  refine ⟨{ flatTools with findRoot := R }, ⟨unitFree_exact, fun k xs ys x y => ?_, fun k xs ys a b hk => ?_⟩, hR, rfl⟩
  · cases ys <;> simp [flatTools, mul_assoc]
  · simp only [flatTools]; ring

/-- An interpolation that does not depend on the unit: the constant of the first entry. -/
example : UnitFreeInterpolation fun _ _ t _ _ => (t.headD []).headD 0 := fun _ _ _ _ _ _ _ => rfl

/-- The hypotheses of `C104_minimum_ionization_partial` are met, with a gap that is not that of the initial values. -/
example : Ordinary 2 (IonizationDetector.initial [oneShell (1 / 4)] [1]) ∧ (IonizationDetector.initial [oneShell (1 / 4)] [1]).energyGap = 1 / 4 := by
  refine ⟨⟨by simp [IonizationDetector.initial], fun a ha => ?_, ⟨oneShell (1 / 4), by simp [IonizationDetector.initial], ?_, ?_⟩⟩,
    oneShell_gap (by norm_num) (by norm_num) [1]⟩
  · simp only [IonizationDetector.initial, List.mem_singleton] at ha
    subst ha
    exact ⟨_, List.mem_singleton.2 rfl, by norm_num [abs_of_pos], by norm_num [abs_of_pos]⟩
  · norm_num [oneShell]
  · norm_num [oneShell]

/-- An experiment whose limit is 8 in one unit and 2 in a unit that is smaller by a factor 2. -/
example (U : Units) : ∃ (T : Tools) (v : ℝ) (p : DMParticle) (s cert : ℝ) (p₁ p₂ : DMParticle),
    T.findRoot.Exact ∧ UnitFreeTools T ∧ Sees U T (flatHalo v) (hydrogenDetector U) p 1 s ∧
    (hydrogenDetector U).base.upperLimit U T ((hydrogenDetector U).toClass U T (flatHalo v)) p cert = .ok ((hydrogenDetector U).base, p₁, 8) ∧
    ((hydrogenDetector U).inUnit 2).base.upperLimit (U.inUnit 2 two_pos) T
        (((hydrogenDetector U).inUnit 2).toClass (U.inUnit 2 two_pos) T ((flatHalo v).inUnit 2)) (p.inUnit 2) cert =
      .ok (((hydrogenDetector U).inUnit 2).base, p₂, 2) := by
  obtain ⟨T, hU, hR, hT⟩ := exists_unitFreeTools
  obtain ⟨v, p, s, -, -, -, hS⟩ := sees_example U hT
  have hs := hS.visible
  have hS' := hS.inUnit (k := 2) two_pos hU
  obtain ⟨p₁, x₁, g1, k1⟩ := C87_value hS hR (1 - probAtMost (8 / 1 * s + 1) 3)
  have e1 := LimitOf.eq (c := 8) (n := 3) (b := 1) one_pos hs zero_le_one (inRange_of (by norm_num) (by norm_num)) rfl k1
  obtain ⟨p₂, x₂, g2, k2⟩ := C87_value hS' hR (1 - probAtMost (8 / 1 * s + 1) 3)
  have e2 := LimitOf.eq (c := 2) (n := 3) (b := 1) hS'.positive hS'.visible zero_le_one (inRange_of (by norm_num) (by norm_num))
    (by rw [show (2 : ℝ) / (1 / 2 ^ 2) * s + 1 = 8 / 1 * s + 1 by ring]) k2
  subst e1 e2
  exact ⟨T, v, p, s, _, p₁, p₂, hR, hU, hS, g1, g2⟩

/-- C104 fails for limits: the window of the search is a pure number. There is an experiment whose limit is found in one unit, while in a
unit smaller by the factor 10¹⁶ no limit is found (-1 is returned). -/
theorem C104_fails_limit (U : Units) : ∃ (T : Tools) (h : Distribution) (p : DMParticle) (s cert : ℝ) (p₁ p₂ : DMParticle) (k : ℝ) (hk : 0 < k),
    T.findRoot.Exact ∧ UnitFreeTools T ∧ Sees U T h (hydrogenDetector U) p 1 s ∧
    (hydrogenDetector U).base.upperLimit U T ((hydrogenDetector U).toClass U T h) p cert = .ok ((hydrogenDetector U).base, p₁, 8) ∧
    ((hydrogenDetector U).inUnit k).base.upperLimit (U.inUnit k hk) T
        (((hydrogenDetector U).inUnit k).toClass (U.inUnit k hk) T (h.inUnit k)) (p.inUnit k) cert =
      .ok (((hydrogenDetector U).inUnit k).base, p₂, -1) := by
  obtain ⟨T, hU, hR, hT⟩ := exists_unitFreeTools
  obtain ⟨v, p, s, -, -, -, hS⟩ := sees_example U hT
  have hs := hS.visible
  have hk : (0 : ℝ) < 10 ^ 16 := by positivity
  have hS' := hS.inUnit hk hU
  obtain ⟨p₁, x₁, g1, k1⟩ := C87_value hS hR (1 - probAtMost (8 / 1 * s + 1) 3)
  have e1 := LimitOf.eq (c := 8) (n := 3) (b := 1) one_pos hs zero_le_one (inRange_of (by norm_num) (by norm_num)) rfl k1
  obtain ⟨p₂, x₂, g2, k2⟩ := C87_value hS' hR (1 - probAtMost (8 / 1 * s + 1) 3)
  have e2 : x₂ = -1 := by
    rcases k2 with ⟨e, -⟩ | ⟨⟨hlo, -⟩, e⟩
    · exact e
    · exfalso
      have e3 : probAtMost (x₂ / (1 / (10 ^ 16) ^ 2) * s + 1) 3 = 1 - (1 - probAtMost (8 / 1 * s + 1) 3) := e
      have hlo' : (1 : ℝ) / 10 ^ 30 ≤ x₂ := by
        refine le_trans (le_of_eq ?_) hlo
        rw [Real.rpow_neg (by norm_num), show (30 : ℝ) = ((30 : ℕ) : ℝ) by norm_num, Real.rpow_natCast, one_div]
      have l : 8 / 1 * s + 1 < x₂ / (1 / (10 ^ 16) ^ 2) * s + 1 := by
        have : (8 : ℝ) / 1 < x₂ / (1 / (10 ^ 16) ^ 2) := by
          rw [div_one, lt_div_iff₀ (by positivity)]
          refine lt_of_lt_of_le ?_ hlo'
          norm_num
        nlinarith
      have := probAtMost_lt (by positivity) l 3
      linarith
  subst e1 e2
  exact ⟨T, flatHalo v, p, s, _, p₁, p₂, 10 ^ 16, hk, hR, hU, hS, g1, g2⟩

end Obscura
