import Verif.Lemmas.DimensionDetector

/-!
# Electron recoils and the Migdal effect in another unit of energy
-/

namespace Obscura

open Spec

variable {U : Units} {T : Tools} {k : ℝ} {h : Distribution}

theorem differentialFlux_unit (hk : 0 < k) (v m : ℝ) : (h.inUnit k).differentialFlux v (k * m) = k ^ 3 * h.differentialFlux v m := by
  have h0 := hk.ne'
  simp only [Distribution.differentialFlux, Distribution.inUnit]
  rw [show k ^ 4 * h.density / (k * m) = k ^ 3 * (h.density / m) by
      rw [show k ^ 4 * h.density = k * (k ^ 3 * h.density) by ring, mul_div_mul_left _ _ h0, mul_div_assoc]]
  ring

/-! ## Crystals -/

namespace Crystal

variable (c : Crystal)

theorem formFactor_unit (hk : 0 < k) (q E : ℝ) : (c.inUnit k).formFactor (k * q) (k * E) = c.formFactor q E := by
  unfold formFactor
  simp only [inUnit, mul_lt_mul_iff_right₀ hk, mul_div_cancel_left₀ _ hk.ne']

theorem minimumElectronEnergy_unit (Q : ℤ) : (c.inUnit k).minimumElectronEnergy Q = k * c.minimumElectronEnergy Q := by
  simp only [minimumElectronEnergy, inUnit]; ring

theorem electronHolePairs_unit (hk : 0 < k) (E : ℝ) : (c.inUnit k).electronHolePairs (k * E) = c.electronHolePairs E := by
  simp only [electronHolePairs, inUnit, ← mul_sub, mul_div_mul_left _ _ hk.ne']

theorem constants_unit (hk : 0 < k) (t : String) :
    constants (U.inUnit k hk) t = (constants U t).inUnit fun r => (k * r.1, k * r.2.1, k * r.2.2.1, k * r.2.2.2) := by
  unfold constants
  split_ifs
  · simp only [Outcome.inUnit_ok, Units.inUnit, Outcome.ok.injEq, Prod.mk.injEq]
    exact ⟨by ring, by ring, by ring, by ring⟩
  · simp only [Outcome.inUnit_ok, Units.inUnit, Outcome.ok.injEq, Prod.mk.injEq]
    exact ⟨by ring, by ring, by ring, by ring⟩
  · rfl

theorem make_unit (hk : 0 < k) {P : Interpolator2D} (hP : UnitFreeInterpolation P) (file : String → List ℝ) (t : String) :
    make (U.inUnit k hk) P file t = (make U P file t).inUnit (inUnit k) := by
  have h0 := hk.ne'
  unfold make
  rw [constants_unit]
  refine Outcome.inUnit_bind fun r => ?_
  obtain ⟨gap, epsilon, mCell, prefactor⟩ := r
  dsimp only
  have e1 : 0.1 * (U.inUnit k hk).eV = k * (0.1 * U.eV) := by simp only [Units.inUnit]; ring
  have e2 : 0.02 * (U.inUnit k hk).aEM * (U.inUnit k hk).mElectron = k * (0.02 * U.aEM * U.mElectron) := by simp only [Units.inUnit]; ring
  rw [e1, e2]
  generalize 0.1 * U.eV = dE
  generalize 0.02 * U.aEM * U.mElectron = dq
  have e3 : ∀ x : ℝ, x * (k * dE) = k * (x * dE) := fun x => by ring
  have e4 : ∀ x : ℝ, x * (k * dq) = k * (x * dq) := fun x => by ring
  have e5 : ∀ x : ℝ, (k * x - k * gap + k * epsilon) / (k * epsilon) = (x - gap + epsilon) / epsilon := fun x => by
    rw [← mul_sub, ← mul_add, mul_div_mul_left _ _ h0]
  have e6 : ∀ x : ℝ, k * prefactor * x / (k * dE) = prefactor * x / dE := fun x => by
    rw [mul_assoc, mul_div_mul_left _ _ h0]
  simp only [e3, e4, e5, e6]
  refine Outcome.inUnit_bind' fun pairs => ?_
  refine Outcome.inUnit_bind' fun table => ?_
  simp only [Outcome.inUnit_ok, inUnit, Outcome.ok.injEq, Crystal.mk.injEq, true_and]
  funext q E
  have := hP k (linearSpace dq ((900 : ℕ) * dq) 900) (linearSpace dE ((500 : ℕ) * dE) 500) table (q / k) (E / k) hk
  rw [← linearSpace_unit, ← linearSpace_unit, mul_div_cancel₀ _ h0, mul_div_cancel₀ _ h0] at this
  exact this

end Crystal

theorem d2SigmaCrystal_unit (hk : 0 < k) (p : DMParticle) (q Ee v : ℝ) (c : Crystal) :
    (p.inUnit k).d2SigmaCrystal (U.inUnit k hk) (k * q) (k * Ee) v (c.inUnit k) = p.d2SigmaCrystal U q Ee v c / k ^ 5 := by
  have h0 := hk.ne'
  unfold DMParticle.d2SigmaCrystal
  have hs := DMParticle.dSigmadq2Electron_unit (U := U) hk p q v
  rw [Crystal.formFactor_unit c hk, hs]
  have e1 : (p.inUnit k).interaction = p.interaction.inUnit k := rfl
  rw [e1]
  cases p.interaction with
  | SD => simp [Interaction.inUnit]
  | SI ff a b =>
    simp only [Interaction.inUnit, Units.inUnit]
    rw [show 2 * U.aEM * (k * U.mElectron) * (k * U.mElectron) / (k * q) / (k * q) / (k * q) =
      1 / k * (2 * U.aEM * U.mElectron * U.mElectron / q / q / q) by
        rw [show 2 * U.aEM * (k * U.mElectron) * (k * U.mElectron) = k * (k * (2 * U.aEM * U.mElectron * U.mElectron)) by ring,
          mul_div_mul_left _ _ h0, mul_div_assoc, mul_div_mul_left _ _ h0, ← div_div (_ / q / q)]
        ring]
    field_simp

theorem dRdEeCrystalTerm_unit (hk : 0 < k) (hI : UnitFree T.integrate) (Ee : ℝ) (p : DMParticle) (c : Crystal) (qi : ℕ) :
    dRdEeCrystalTerm (U.inUnit k hk) T.integrate (k * Ee) (p.inUnit k) (h.inUnit k) (c.inUnit k) qi =
      dRdEeCrystalTerm U T.integrate Ee p h c qi := by
  have h0 := hk.ne'
  unfold dRdEeCrystalTerm
  have e0 : ((qi : ℝ) + 1) * (c.inUnit k).dq = k * (((qi : ℝ) + 1) * c.dq) := by simp only [Crystal.inUnit]; ring
  have e1 : (p.inUnit k).mass = k * p.mass := rfl
  have e3 : (h.inUnit k).vMax = h.vMax := rfl
  have e4 : (p.inUnit k).useEtaFunction = p.useEtaFunction := rfl
  have e5 : (h.inUnit k).useEta = h.useEta := rfl
  have e6 : (h.inUnit k).eta = h.eta := rfl
  have e8 : (h.inUnit k).density = k ^ 4 * h.density := rfl
  have e9 : (c.inUnit k).dq = k * c.dq := rfl
  rw [e0, e1, e3, e4, e5, e6, e8, e9]
  generalize ((qi : ℝ) + 1) * c.dq = q
  simp only [vMinimalElectrons_unit hk, d2SigmaCrystal_unit hk, differentialFlux_unit hk]
  split_ifs
  · rfl
  · congr 1
    funext e
    simp only [Outcome.ok.injEq]
    rw [show 2 * (k * q) * (k * c.dq) * (k ^ 4 * h.density) / (k * p.mass) = k ^ 5 * (2 * q * c.dq * h.density / p.mass) by
      rw [show 2 * (k * q) * (k * c.dq) * (k ^ 4 * h.density) = k * (k ^ 5 * (2 * q * c.dq * h.density)) by ring, mul_div_mul_left _ _ h0,
        mul_div_assoc]]
    field_simp
  · simp only [Outcome.ok.injEq]
    have : ∀ v, k ^ 3 * h.differentialFlux v p.mass * (p.d2SigmaCrystal U q Ee v c / k ^ 5) =
        1 / k ^ 2 * (h.differentialFlux v p.mass * p.d2SigmaCrystal U q Ee v c) := by
      intro v; field_simp
    simp only [this]
    rw [hI.homogeneous]
    field_simp

theorem dRdEeCrystal_unit (hk : 0 < k) (hI : UnitFree T.integrate) (Ee : ℝ) (p : DMParticle) (c : Crystal) :
    dRdEeCrystal (U.inUnit k hk) T.integrate (k * Ee) (p.inUnit k) (h.inUnit k) (c.inUnit k) =
      (dRdEeCrystal U T.integrate Ee p h c).inUnit (1 / k * ·) := by
  unfold dRdEeCrystal
  have e1 : (c.inUnit k).eMax = k * c.eMax := rfl
  have e2 : (c.inUnit k).nq = c.nq := rfl
  have e3 : (c.inUnit k).mCell = k * c.mCell := rfl
  rw [funext (dRdEeCrystalTerm_unit hk hI Ee p c), e1, e2, e3]
  simp only [mul_lt_mul_iff_right₀ hk]
  split_ifs
  · simp
  · refine Outcome.inUnit_bind' fun s => ?_
    simp only [Outcome.inUnit_ok, one_div, mul_inv, mul_assoc]

theorem rQCrystal_unit (hk : 0 < k) (hI : UnitFree T.integrate) (Q : ℤ) (p : DMParticle) (c : Crystal) :
    rQCrystal (U.inUnit k hk) T.integrate Q (p.inUnit k) (h.inUnit k) (c.inUnit k) = rQCrystal U T.integrate Q p h c := by
  have h0 := hk.ne'
  unfold rQCrystal
  have e1 : (c.inUnit k).dE = k * c.dE := rfl
  have e2 : (c.inUnit k).nE = c.nE := rfl
  have e3 : ∀ x : ℝ, x * (k * c.dE) = k * (x * c.dE) := fun x => by ring
  simp only [Crystal.minimumElectronEnergy_unit, e1, e2, mul_div_mul_left _ _ h0, e3, mul_le_mul_iff_right₀ hk, dRdEeCrystal_unit hk hI]
  congr 1
  funext l
  congr 1
  funext i
  cases dRdEeCrystal U T.integrate (((i : ℝ) + 1) * c.dE) p h c with
  | ok r =>
    simp only [Outcome.inUnit_ok, Outcome.bind_ok, Outcome.ok.injEq]
    field_simp
  | _ => rfl

theorem rTotalCrystal_unit (hk : 0 < k) (hI : UnitFree T.integrate) (Q : ℤ) (p : DMParticle) (c : Crystal) :
    rTotalCrystal (U.inUnit k hk) T.integrate Q (p.inUnit k) (h.inUnit k) (c.inUnit k) = rTotalCrystal U T.integrate Q p h c := by
  have h0 := hk.ne'
  unfold rTotalCrystal
  have e1 : (c.inUnit k).dE = k * c.dE := rfl
  have e2 : (c.inUnit k).nE = c.nE := rfl
  have e3 : ∀ x : ℝ, x * (k * c.dE) = k * (x * c.dE) := fun x => by ring
  simp only [Crystal.minimumElectronEnergy_unit, e1, e2, mul_div_mul_left _ _ h0, e3, dRdEeCrystal_unit hk hI]
  congr 1
  funext l
  congr 1
  funext i
  cases dRdEeCrystal U T.integrate (((i : ℝ) + 1) * c.dE) p h c with
  | ok r =>
    simp only [Outcome.inUnit_ok, Outcome.bind_ok, Outcome.ok.injEq]
    field_simp
  | _ => rfl

namespace CrystalDetector

variable (x : CrystalDetector) (d : Detector) (p : DMParticle)

theorem maximumEnergyDeposit_unit : maximumEnergyDeposit (p.inUnit k) (h.inUnit k) = (maximumEnergyDeposit p h).inUnit (k * ·) := by
  simp only [maximumEnergyDeposit, Outcome.inUnit_ok, Outcome.ok.injEq, DMParticle.inUnit, Distribution.inUnit]; ring

theorem minimumDMMass_unit (hk : 0 < k) : minimumDMMass (d.inUnit k) (h.inUnit k) = (minimumDMMass d h).inUnit (k * ·) := by
  unfold minimumDMMass
  have := fdiv_unit hk (2 * d.energyThreshold) (h.vMax ^ 2) k 1 hk.ne' one_ne_zero
  simp only [Detector.inUnit, Distribution.inUnit]
  rw [mul_left_comm]
  simpa using this

theorem minimumDMSpeed_unit (hk : 0 < k) : minimumDMSpeed (d.inUnit k) (p.inUnit k) = minimumDMSpeed d p := by
  unfold minimumDMSpeed
  simp only [Detector.inUnit, DMParticle.inUnit]
  rw [mul_left_comm, fdiv_unit hk _ _ _ _ hk.ne' hk.ne', div_self hk.ne']
  cases fdiv (2 * d.energyThreshold) p.mass <;> simp

theorem dRdE_unit (hk : 0 < k) (hI : UnitFree T.integrate) (E : ℝ) :
    (x.inUnit k).dRdE (U.inUnit k hk) T.integrate (d.inUnit k) (k * E) (p.inUnit k) (h.inUnit k) =
      (x.dRdE U T.integrate d E p h).inUnit (1 / k * ·) := by
  unfold dRdE
  rw [show (x.inUnit k).crystal = x.crystal.inUnit k from rfl, dRdEeCrystal_unit hk hI]
  refine Outcome.inUnit_bind fun r => ?_
  simp only [Outcome.inUnit_ok, Outcome.ok.injEq, Detector.inUnit]; ring

theorem signalsQBins_unit (hk : 0 < k) (hI : UnitFree T.integrate) :
    (x.inUnit k).signalsQBins (U.inUnit k hk) T.integrate (d.inUnit k) (p.inUnit k) (h.inUnit k) = x.signalsQBins U T.integrate d p h := by
  unfold signalsQBins
  simp only [show (x.inUnit k).crystal = x.crystal.inUnit k from rfl, rQCrystal_unit hk hI]
  rfl

theorem rate_unit (hk : 0 < k) (hI : UnitFree T.integrate) (d : Detector) (E : ℝ) (p : DMParticle) :
    ((x.inUnit k).dRdE (U.inUnit k hk) T.integrate (d.inUnit k) (k * E) (p.inUnit k) (h.inUnit k)).valueOr0 =
      1 / k * (x.dRdE U T.integrate d E p h).valueOr0 := by
  rw [dRdE_unit x d p hk hI, Outcome.valueOr0_unit]

theorem signalsBinned_unit (hk : 0 < k) (hT : UnitFreeTools T) :
    (x.inUnit k).signalsBinned (U.inUnit k hk) T (d.inUnit k) (p.inUnit k) (h.inUnit k) = x.signalsBinned U T d p h := by
  unfold signalsBinned
  rw [Detector.signalsEnergyBins_unit (C := x.rateClass U T h) d p hk hT (rate_unit x hk hT.integral),
    signalsQBins_unit x d p hk hT.integral]
  rfl

theorem signalsTotal_unit (hk : 0 < k) (hT : UnitFreeTools T) :
    (x.inUnit k).signalsTotal (U.inUnit k hk) T (d.inUnit k) (p.inUnit k) (h.inUnit k) = x.signalsTotal U T d p h := by
  unfold signalsTotal
  have e := DMParticle.integral_unit hk hT.integral (i := 1 / k) hk (fun E => (x.dRdE U T.integrate d E p h).valueOr0)
    (fun E => ((x.inUnit k).dRdE (U.inUnit k hk) T.integrate (d.inUnit k) E (p.inUnit k) (h.inUnit k)).valueOr0)
    d.energyThreshold d.energyMax (fun E => rate_unit (U := U) (h := h) x hk hT.integral d E p)
  rw [mul_one_div_cancel hk.ne', one_mul] at e
  rw [signalsBinned_unit x d p hk hT, show (d.inUnit k).energyThreshold = k * d.energyThreshold from rfl,
    show (d.inUnit k).energyMax = k * d.energyMax from rfl, e]
  simp only [show (x.inUnit k).crystal = x.crystal.inUnit k from rfl, rTotalCrystal_unit hk hT.integral]
  rfl

theorem class_unit (hk : 0 < k) (hT : UnitFreeTools T) :
    ClassUnit k (x.toClass U T h) ((x.inUnit k).toClass (U.inUnit k hk) T (h.inUnit k)) :=
  ⟨fun p => maximumEnergyDeposit_unit p, rate_unit x hk hT.integral, fun d p => signalsTotal_unit x d p hk hT,
    fun d p => signalsBinned_unit x d p hk hT⟩

theorem step_unit (hk : 0 < k) (s : Detector × CrystalDetector) (op : Op) :
    step (s.1.inUnit k, s.2.inUnit k) (op.inUnit k) = (step s op).inUnit fun r => (r.1.inUnit k, r.2.inUnit k) := by
  cases op with
  | base op =>
    simp only [step, Op.inUnit, Detector.step_unit _ hk]
    exact Outcome.inUnit_bind fun d => rfl
  | useQThreshold Q =>
    simp only [step, Op.inUnit, useQThreshold, Outcome.inUnit_ok,
      show (s.2.inUnit k).crystal.minimumElectronEnergy = fun Q => k * s.2.crystal.minimumElectronEnergy Q from
        funext (Crystal.minimumElectronEnergy_unit s.2.crystal)]
    rfl
  | useQBins Q N =>
    simp only [step, Op.inUnit, useQBins, Detector.initializeBinned, show (s.1.inUnit k).analysis = s.1.analysis from rfl,
      show (s.2.inUnit k).crystal.minimumElectronEnergy = fun Q => k * s.2.crystal.minimumElectronEnergy Q from
        funext (Crystal.minimumElectronEnergy_unit s.2.crystal)]
    by_cases h1 : s.1.analysis = .binnedPoisson
    · rw [if_pos h1, if_pos h1]; rfl
    · rw [if_neg h1, if_neg h1]; rfl

theorem run_unit (hk : 0 < k) (s : Detector × CrystalDetector) (ops : List Op) :
    run (s.1.inUnit k, s.2.inUnit k) (ops.map (Op.inUnit k)) = (run s ops).inUnit fun r => (r.1.inUnit k, r.2.inUnit k) := by
  induction ops generalizing s with
  | nil => rfl
  | cons op ops ih =>
    simp only [List.map_cons, run, step_unit hk]
    exact Outcome.inUnit_bind fun x => ih x

end CrystalDetector

/-! ## Nuclear data -/

theorem ofIsotopes_unit (l : List Isotope) : Nucleus.ofIsotopes (l.map (Isotope.inUnit k)) = (Nucleus.ofIsotopes l).inUnit (Nucleus.inUnit k) := by
  unfold Nucleus.ofIsotopes
  rw [vecGet_unit]
  refine Outcome.inUnit_bind fun iso => ?_
  rw [show (iso.inUnit k).Z = iso.Z from rfl]
  split_ifs
  · rfl
  · exact Outcome.inUnit_bind' fun n => rfl

theorem importLoop_unit (hk : 0 < k) (rows : List NuclearRow) (z : ℕ) (isos : List Isotope) (nuclei : List Nucleus) :
    importLoop (U.inUnit k hk) rows z (isos.map (Isotope.inUnit k)) (nuclei.map (Nucleus.inUnit k)) =
      (importLoop U rows z isos nuclei).inUnit (List.map (Nucleus.inUnit k)) := by
  induction rows generalizing z isos nuclei with
  | nil =>
    simp only [importLoop, ofIsotopes_unit]
    exact Outcome.inUnit_bind fun n => by simp
  | cons r rows ih =>
    simp only [importLoop, ofIsotopes_unit, NuclearRow.isotope, Isotope.make_unit hk]
    split_ifs
    · refine Outcome.inUnit_bind fun n => ?_
      refine Outcome.inUnit_bind fun iso => ?_
      have := ih r.Z [iso] (nuclei ++ [n])
      simpa using this
    · refine Outcome.inUnit_bind fun iso => ?_
      have := ih z (isos ++ [iso]) nuclei
      simpa using this

theorem getNucleus_unit (hk : 0 < k) (file : Option (List NuclearRow)) (cache : List Nucleus) (z : ℕ) :
    getNucleus (U.inUnit k hk) file (cache.map (Nucleus.inUnit k)) z =
      (getNucleus U file cache z).inUnit fun r => (r.1.map (Nucleus.inUnit k), r.2.inUnit k) := by
  unfold getNucleus
  rw [List.length_map]
  have e : importNuclearData (U.inUnit k hk) file = (importNuclearData U file).inUnit (List.map (Nucleus.inUnit k)) := by
    cases file with
    | none => rfl
    | some rows => exact importLoop_unit hk rows 1 [] []
  rw [e]
  split_ifs
  · rfl
  · refine Outcome.inUnit_bind fun c => ?_
    dsimp only
    rw [vecGet_unit]
    exact Outcome.inUnit_bind fun n => rfl
  · rw [Outcome.bind_ok, Outcome.bind_ok]
    dsimp only
    rw [vecGet_unit]
    exact Outcome.inUnit_bind fun n => rfl

theorem findNucleus_unit (hk : 0 < k) (file : Option (List NuclearRow)) (name : String) (zs : List ℕ) (cache : List Nucleus) :
    findNucleus (U.inUnit k hk) file name zs (cache.map (Nucleus.inUnit k)) =
      (findNucleus U file name zs cache).inUnit fun r => (r.1.map (Nucleus.inUnit k), r.2.inUnit k) := by
  induction zs generalizing cache with
  | nil => rfl
  | cons z zs ih =>
    simp only [findNucleus, getNucleus_unit hk]
    refine Outcome.inUnit_bind fun r => ?_
    dsimp only
    rw [show (r.2.inUnit k).name = r.2.name from rfl]
    split_ifs
    · exact getNucleus_unit hk file r.1 z
    · exact ih r.1

/-! ## Atoms -/

namespace AtomicElectron

variable (e : AtomicElectron)

theorem response_unit (hk : 0 < k) (r : ℤ) (q E : ℝ) :
    (e.inUnit k).response (U.inUnit k hk) r (k * q) (k * E) = e.response U r q E := by
  have h0 := hk.ne'
  unfold response
  have e1 : (U.inUnit k hk).mElectron = k * U.mElectron := rfl
  have e2 : (e.inUnit k).qMax = k * e.qMax := rfl
  have e3 : (e.inUnit k).kMax = k * e.kMax := rfl
  have e4 : (e.inUnit k).kMin = k * e.kMin := rfl
  have e5 : (e.inUnit k).qMin = k * e.qMin := rfl
  have e6 : (e.inUnit k).responses = e.responses.map fun f a b => f (a / k) (b / k) := rfl
  have e7 : ∀ c x : ℝ, c * (k * x) = k * (c * x) := fun c x => by ring
  have e8 : k * q * (k * q) / (k * e.qMin) / (k * e.qMin) = q * q / e.qMin / e.qMin := by
    rw [mul_assoc, mul_div_mul_left _ _ h0, mul_left_comm, mul_div_assoc, mul_div_mul_left _ _ h0]
  rw [e1, DMParticle.sqrt_unit hk, e2, e3, e4, e5, e6, e7, e7, e7, e8]
  simp only [mul_lt_mul_iff_right₀ hk, vecGet_unit]
  generalize Real.sqrt (2 * U.mElectron * E) = κ
  split_ifs
  · rfl
  · cases vecGet e.responses 0 <;> simp [h0]
  · cases vecGet e.responses 0 <;> simp [h0]
  · cases vecGet e.responses (r - 1).toNat <;> simp [h0]
  · rfl
  · rfl

theorem ionizationFormFactor_unit (hk : 0 < k) (q E : ℝ) :
    (e.inUnit k).ionizationFormFactor (U.inUnit k hk) (k * q) (k * E) = e.ionizationFormFactor U q E := by
  unfold ionizationFormFactor
  rw [response_unit e hk]

theorem make_unit (hk : 0 < k) {P : Interpolator2D} (hP : UnitFreeInterpolation P) (tables : ResponseTables) (element : String) (N L : ℕ)
    (binding kMin kMax qMin qMax : ℝ) (s : ℕ) :
    make P tables element N L (k * binding) (k * kMin) (k * kMax) (k * qMin) (k * qMax) s =
      (make P tables element N L binding kMin kMax qMin qMax s).inUnit (inUnit k) := by
  have h0 := hk.ne'
  have hP' : ∀ xs ys t, P (xs.map (k * ·)) (ys.map (k * ·)) t = fun a b => P xs ys t (a / k) (b / k) := by
    intro xs ys t
    funext a b
    rw [← hP k xs ys t (a / k) (b / k) hk, mul_div_cancel₀ _ h0, mul_div_cancel₀ _ h0]
  have hi : ∀ name r, importResponse P tables name (k * kMin) (k * kMax) (k * qMin) (k * qMax) r =
      (importResponse P tables name kMin kMax qMin qMax r).inUnit fun x => (x.1, x.2.1, fun a b => x.2.2 (a / k) (b / k)) := by
    intro name r
    unfold importResponse
    cases tables (name ++ "_" ++ toString r) with
    | none => rfl
    | some t =>
      refine Outcome.inUnit_bind' fun row => ?_
      simp only [Outcome.inUnit_ok, logSpace_unit hk, hP']
  have hc : ∀ name, collect (importResponse P tables name (k * kMin) (k * kMax) (k * qMin) (k * qMax)) [1, 2, 3, 4] =
      (collect (importResponse P tables name kMin kMax qMin qMax) [1, 2, 3, 4]).inUnit
        (List.map fun x => (x.1, x.2.1, fun a b => x.2.2 (a / k) (b / k))) := by
    intro name
    have := collect_unit (F := id) [1, 2, 3, 4] (hi name)
    rwa [List.map_id] at this
  unfold make
  refine Outcome.inUnit_bind' fun letter => ?_
  dsimp only
  rw [hc]
  refine Outcome.inUnit_bind fun rs => ?_
  rw [vecGet_unit]
  refine Outcome.inUnit_bind fun r => ?_
  dsimp only
  rw [mul_div_mul_left _ _ h0, mul_div_mul_left _ _ h0]
  refine Outcome.inUnit_bind' fun dk => ?_
  refine Outcome.inUnit_bind' fun dq => ?_
  simp only [Outcome.inUnit_ok, inUnit, logSpace_unit hk, List.map_map, Function.comp_def]

end AtomicElectron

namespace Atom

theorem shells_unit (hk : 0 < k) {P : Interpolator2D} (hP : UnitFreeInterpolation P) (tables : ResponseTables) (element : String) (kMax : ℝ)
    (data : List ShellData) : shells (U.inUnit k hk) P tables element (k * kMax) data =
      (shells U P tables element kMax data).inUnit (List.map (AtomicElectron.inUnit k)) := by
  unfold shells
  have e1 : ∀ x : ℝ, x * (U.inUnit k hk).eV = k * (x * U.eV) := fun x => by simp only [Units.inUnit]; ring
  have e2 : ∀ x : ℝ, x * (U.inUnit k hk).keV = k * (x * U.keV) := fun x => by simp only [Units.inUnit, Units.keV]; ring
  have := collect_unit (F := id) (G := AtomicElectron.inUnit k) (g := fun s : ShellData => AtomicElectron.make P tables element s.n s.l
      (s.energy * U.eV) (0.1 * U.keV) kMax (1 * U.keV) (1000 * U.keV) s.secondaries)
    (g' := fun s : ShellData => AtomicElectron.make P tables element s.n s.l (s.energy * (U.inUnit k hk).eV) (0.1 * (U.inUnit k hk).keV)
      (k * kMax) (1 * (U.inUnit k hk).keV) (1000 * (U.inUnit k hk).keV) s.secondaries) data fun s => by
      simp only [id, e1, e2]
      exact AtomicElectron.make_unit hk hP _ _ _ _ _ _ _ _ _ _
  rw [List.map_id] at this
  rw [this]
  exact Outcome.inUnit_bind fun es => by simp

theorem make_unit (hk : 0 < k) {P : Interpolator2D} (hP : UnitFreeInterpolation P) (tables : ResponseTables) (file : Option (List NuclearRow))
    (cache : List Nucleus) (name : String) : make (U.inUnit k hk) P tables file (cache.map (Nucleus.inUnit k)) name =
      (make U P tables file cache name).inUnit fun r => (r.1.map (Nucleus.inUnit k), r.2.inUnit k) := by
  unfold make
  have e1 : ∀ x : ℝ, x * (U.inUnit k hk).eV = k * (x * U.eV) := fun x => by simp only [Units.inUnit]; ring
  have e2 : ∀ x : ℝ, x * (U.inUnit k hk).keV = k * (x * U.keV) := fun x => by simp only [Units.inUnit, Units.keV]; ring
  simp only [getNucleusByName, findNucleus_unit hk, e1, e2, shells_unit hk hP]
  refine Outcome.inUnit_bind fun r => ?_
  dsimp only
  split_ifs
  · exact Outcome.inUnit_bind fun es => rfl
  · exact Outcome.inUnit_bind fun es => rfl
  · rfl

end Atom

/-! ## Rates -/

theorem d2SigmaIonization_unit (hk : 0 < k) (p : DMParticle) (q Ee v : ℝ) (e : AtomicElectron) :
    (p.inUnit k).d2SigmaIonization (U.inUnit k hk) (k * q) (k * Ee) v (e.inUnit k) = p.d2SigmaIonization U q Ee v e / k ^ 5 := by
  have h0 := hk.ne'
  unfold DMParticle.d2SigmaIonization
  have hs := DMParticle.dSigmadq2Electron_unit (U := U) hk p q v
  rw [AtomicElectron.ionizationFormFactor_unit e hk, hs]
  have e1 : (p.inUnit k).interaction = p.interaction.inUnit k := rfl
  rw [e1]
  cases p.interaction with
  | SD => simp [Interaction.inUnit]
  | SI ff a b =>
    simp only [Interaction.inUnit]
    rw [← div_div (1 / 4)]
    field_simp

theorem d2SigmaMigdal_unit (hk : 0 < k) (p : DMParticle) (ER Ee v : ℝ) (iso : Isotope) (e : AtomicElectron) :
    (p.inUnit k).d2SigmaMigdal (U.inUnit k hk) (k * ER) (k * Ee) v (iso.inUnit k) (e.inUnit k) = p.d2SigmaMigdal U ER Ee v iso e / k ^ 4 := by
  have h0 := hk.ne'
  unfold DMParticle.d2SigmaMigdal
  have e1 : (U.inUnit k hk).mElectron / (iso.inUnit k).mass * Real.sqrt (2 * (iso.inUnit k).mass * (k * ER)) =
      k * (U.mElectron / iso.mass * Real.sqrt (2 * iso.mass * ER)) := by
    simp only [Units.inUnit, Isotope.inUnit]
    rw [DMParticle.sqrt_unit hk, mul_div_mul_left _ _ h0]
    ring
  simp only [e1, AtomicElectron.ionizationFormFactor_unit e hk, DMParticle.dSigmadERNucleus_unit]
  rw [← div_div (1 / 4)]
  field_simp

theorem dRdEeERTerm_unit (hk : 0 < k) (hI : UnitFree T.integrate) (Ee dlnq : ℝ) (p : DMParticle) (e : AtomicElectron) (q : ℝ) :
    dRdEeERTerm (U.inUnit k hk) T.integrate (k * Ee) dlnq (p.inUnit k) (h.inUnit k) (e.inUnit k) (k * q) =
      (dRdEeERTerm U T.integrate Ee dlnq p h e q).inUnit (1 * ·) := by
  have h0 := hk.ne'
  unfold dRdEeERTerm
  have e0 : (e.inUnit k).binding + k * Ee = k * (e.binding + Ee) := by simp only [AtomicElectron.inUnit]; ring
  have e1 : (p.inUnit k).mass = k * p.mass := rfl
  have e3 : (h.inUnit k).vMax = h.vMax := rfl
  have e4 : (p.inUnit k).useEtaFunction = p.useEtaFunction := rfl
  have e5 : (h.inUnit k).useEta = h.useEta := rfl
  have e6 : (h.inUnit k).eta = h.eta := rfl
  have e8 : (h.inUnit k).density = k ^ 4 * h.density := rfl
  rw [e0, e1, e3, e4, e5, e6, e8]
  simp only [vMinimalElectrons_unit hk, d2SigmaIonization_unit hk, differentialFlux_unit hk]
  split_ifs
  · refine Outcome.inUnit_bind' fun x => ?_
    simp only [Outcome.inUnit_ok, Outcome.ok.injEq]
    rw [← div_div (_ * _) k p.mass]
    field_simp
  · simp only [Outcome.inUnit_ok, Outcome.ok.injEq]
    have : ∀ v, k ^ 3 * h.differentialFlux v p.mass * (p.d2SigmaIonization U q Ee v e / k ^ 5) =
        1 / k ^ 2 * (h.differentialFlux v p.mass * p.d2SigmaIonization U q Ee v e) := by
      intro v; field_simp
    simp only [this]
    rw [hI.homogeneous]
    field_simp
  · simp

theorem dRdEeER_unit (hk : 0 < k) (hI : UnitFree T.integrate) (Ee : ℝ) (p : DMParticle) (m : ℝ) (e : AtomicElectron) :
    dRdEeER (U.inUnit k hk) T.integrate (k * Ee) (p.inUnit k) (h.inUnit k) (k * m) (e.inUnit k) =
      (dRdEeER U T.integrate Ee p h m e).inUnit (1 / k * ·) := by
  have h0 := hk.ne'
  unfold dRdEeER
  have e1 : (p.inUnit k).mass = k * p.mass := rfl
  have e2 : (h.inUnit k).vMax = h.vMax := rfl
  have e3 : (e.inUnit k).binding = k * e.binding := rfl
  have e4 : (e.inUnit k).qMax = k * e.qMax := rfl
  have e5 : ∀ x, k * x ≤ 0 ↔ x ≤ 0 := fun x => ⟨fun h => by by_contra h'; push Not at h'; nlinarith, fun h => mul_nonpos_of_nonneg_of_nonpos hk.le h⟩
  have hc : energeticallyClosed (p.inUnit k).mass (h.inUnit k).vMax (e.inUnit k).binding ↔ energeticallyClosed p.mass h.vMax e.binding :=
    energeticallyClosed_unit hk _ _ _
  by_cases h1 : energeticallyClosed p.mass h.vMax e.binding
  · rw [if_pos h1, if_pos (hc.2 h1)]; simp
  · rw [if_neg h1, if_neg (mt hc.1 h1)]
    simp only [e1, e2, e3, e4, qMinER_unit hk, qMaxER_unit hk, mul_lt_mul_iff_right₀ hk, e5]
    by_cases h2 : e.qMax < qMinER p.mass h.vMax e.binding
    · rw [if_pos h2, if_pos h2]; simp
    · rw [if_neg h2, if_neg h2]
      by_cases h3 : qMinER p.mass h.vMax e.binding ≤ 0
      · rw [if_pos h3, if_pos h3]; simp
      · rw [if_neg h3, if_neg h3]
        have e6 : (if e.qMax < qMaxER p.mass h.vMax e.binding then k * e.qMax else k * qMaxER p.mass h.vMax e.binding) =
            k * (if e.qMax < qMaxER p.mass h.vMax e.binding then e.qMax else qMaxER p.mass h.vMax e.binding) := by
          split_ifs <;> rfl
        rw [e6, logSpace_unit hk]
        generalize logSpace _ _ _ = grid
        rw [vecGet_unit, vecGet_unit]
        refine Outcome.inUnit_bind fun q1 => ?_
        refine Outcome.inUnit_bind fun q0 => ?_
        rw [mul_div_mul_left _ _ h0, sumOver_unit grid fun q => dRdEeERTerm_unit hk hI Ee _ p e q]
        refine Outcome.inUnit_bind fun s => ?_
        simp only [Outcome.inUnit_ok, Outcome.ok.injEq, one_mul]
        rw [← div_div]
        ring

theorem migdalIntegrand_unit (hk : 0 < k) (hI : UnitFree T.integrate) (Ee : ℝ) (p : DMParticle) (iso : Isotope) (e : AtomicElectron) (ER : ℝ) :
    migdalIntegrand (U.inUnit k hk) T.integrate (k * Ee) (p.inUnit k) (h.inUnit k) (iso.inUnit k) (e.inUnit k) (k * ER) =
      1 / k * migdalIntegrand U T.integrate Ee p h iso e ER := by
  have h0 := hk.ne'
  unfold migdalIntegrand
  have e0 : 1 / 10 ^ 20 * (U.inUnit k hk).cm / (U.inUnit k hk).sec = 1 / 10 ^ 20 * U.cm / U.sec := by
    simp only [Units.inUnit]; have := U.sec_pos.ne'; field_simp
  have e1 : (p.inUnit k).mass = k * p.mass := rfl
  have e2 : (h.inUnit k).vMax = h.vMax := rfl
  have e3 : (e.inUnit k).binding = k * e.binding := rfl
  have e4 : (iso.inUnit k).mass = k * iso.mass := rfl
  have e5 : (p.inUnit k).useEtaFunction = p.useEtaFunction := rfl
  have e6 : (h.inUnit k).useEta = h.useEta := rfl
  have e7 : (h.inUnit k).eta = h.eta := rfl
  have e8 : (h.inUnit k).density = k ^ 4 * h.density := rfl
  simp only [e0, e1, e2, e3, e4, e5, e6, e7, e8, mul_pos_iff_of_pos_left hk, vMinimalMigdal_unit hk, d2SigmaMigdal_unit hk,
    differentialFlux_unit hk]
  generalize (if 0 < ER then vMinimalMigdal ER Ee p.mass iso.mass e.binding else 1 / 10 ^ 20 * U.cm / U.sec) = vMin
  split_ifs
  · simp
  · rw [← div_div (_ * _) k p.mass]
    field_simp
  · have : ∀ v, k ^ 3 * h.differentialFlux v p.mass * (p.d2SigmaMigdal U ER Ee v iso e / k ^ 4) =
        1 / k * (h.differentialFlux v p.mass * p.d2SigmaMigdal U ER Ee v iso e) := by
      intro v; field_simp
    simp only [this]
    rw [hI.homogeneous]

theorem dRdEeMigdalIsotope_unit (hk : 0 < k) (hI : UnitFree T.integrate) (Ee : ℝ) (p : DMParticle) (iso : Isotope) (e : AtomicElectron) :
    dRdEeMigdalIsotope (U.inUnit k hk) T.integrate (k * Ee) (p.inUnit k) (h.inUnit k) (iso.inUnit k) (e.inUnit k) =
      1 / k * dRdEeMigdalIsotope U T.integrate Ee p h iso e := by
  have h0 := hk.ne'
  unfold dRdEeMigdalIsotope
  have e1 : (p.inUnit k).mass = k * p.mass := rfl
  have e2 : (h.inUnit k).vMax = h.vMax := rfl
  have e3 : (e.inUnit k).binding = k * e.binding := rfl
  have e4 : (iso.inUnit k).mass = k * iso.mass := rfl
  rw [e1, e2, e3, e4, erMinMigdal_unit hk, erMaxMigdal_unit hk, DMParticle.integral_unit hk hI (i := 1 / k) hk
    (migdalIntegrand U T.integrate Ee p h iso e) _ _ _ (fun ER => migdalIntegrand_unit hk hI Ee p iso e ER), mul_one_div_cancel h0, ← div_div]
  ring

theorem dRdEeMigdal_unit (hk : 0 < k) (hI : UnitFree T.integrate) (Ee : ℝ) (p : DMParticle) (n : Nucleus) (e : AtomicElectron) :
    dRdEeMigdal (U.inUnit k hk) T.integrate (k * Ee) (p.inUnit k) (h.inUnit k) (n.inUnit k) (e.inUnit k) =
      1 / k * dRdEeMigdal U T.integrate Ee p h n e := by
  unfold dRdEeMigdal
  have : ∀ (l : List Isotope) (s : ℝ), (l.map (Isotope.inUnit k)).foldl (fun (s : ℝ) iso => s + iso.abundance *
      dRdEeMigdalIsotope (U.inUnit k hk) T.integrate (k * Ee) (p.inUnit k) (h.inUnit k) iso (e.inUnit k)) (1 / k * s) =
      1 / k * l.foldl (fun (s : ℝ) iso => s + iso.abundance * dRdEeMigdalIsotope U T.integrate Ee p h iso e) s := by
    intro l
    induction l with
    | nil => intro s; rfl
    | cons a l ih =>
      intro s
      simp only [List.map_cons, List.foldl_cons, ← ih, dRdEeMigdalIsotope_unit hk hI, show (a.inUnit k).abundance = a.abundance from rfl]
      congr 1
      ring
  have h1 := this n.isotopes 0
  rw [mul_zero] at h1
  exact h1

/-! ## Ionization detectors -/

/-- The rates per shell in two units of energy. -/
def ShellUnit (k : ℝ) (S S' : ShellRate) : Prop :=
  ∀ d E p n e, S' (d.inUnit k) (k * E) (p.inUnit k) (n.inUnit k) (e.inUnit k) = (S d E p n e).inUnit (1 / k * ·)

theorem shellRateER_unit (hk : 0 < k) (hI : UnitFree T.integrate) :
    ShellUnit k (shellRateER U T.integrate h) (shellRateER (U.inUnit k hk) T.integrate (h.inUnit k)) := by
  intro d E p n e
  unfold shellRateER
  rw [averageMass_unit, dRdEeER_unit hk hI]
  refine Outcome.inUnit_bind fun r => ?_
  simp only [Outcome.inUnit_ok, Outcome.ok.injEq, Detector.inUnit]; ring

theorem shellRateMigdal_unit (hk : 0 < k) (hI : UnitFree T.integrate) :
    ShellUnit k (shellRateMigdal U T.integrate h) (shellRateMigdal (U.inUnit k hk) T.integrate (h.inUnit k)) := by
  intro d E p n e
  unfold shellRateMigdal
  rw [dRdEeMigdal_unit hk hI]
  simp only [Outcome.inUnit_ok, Outcome.ok.injEq, Detector.inUnit]; ring

namespace IonizationDetector

variable {S S' : ShellRate} (x : IonizationDetector) (d : Detector) (p : DMParticle)

theorem maximumEnergyDeposit_unit : maximumEnergyDeposit (p.inUnit k) (h.inUnit k) = (maximumEnergyDeposit p h).inUnit (k * ·) := by
  simp only [maximumEnergyDeposit, Outcome.inUnit_ok, Outcome.ok.injEq, DMParticle.inUnit, Distribution.inUnit]; ring

theorem dRdE_unit (hS : ShellUnit k S S') (E : ℝ) :
    (x.inUnit k).dRdE S' (d.inUnit k) (k * E) (p.inUnit k) = (x.dRdE S d E p).inUnit (1 / k * ·) := by
  unfold dRdE
  have e1 : (x.inUnit k).atoms = x.atoms.map (Atom.inUnit k) := rfl
  have e2 : (x.inUnit k).fractions = x.fractions := rfl
  rw [e1, e2, List.length_map]
  refine sumOver_unit' _ fun i => ?_
  rw [vecGet_unit]
  refine Outcome.inUnit_bind fun a => ?_
  refine Outcome.inUnit_bind' fun f => ?_
  have : dRdEAtom S' (d.inUnit k) (k * E) (p.inUnit k) (a.inUnit k) = (dRdEAtom S d E p a).inUnit (1 / k * ·) :=
    sumOver_unit a.electrons fun e => hS d E p a.nucleus e
  rw [this]
  refine Outcome.inUnit_bind fun r => ?_
  simp only [Outcome.inUnit_ok, Outcome.ok.injEq]; ring

theorem pdfNe_unit (hk : 0 < k) (ne : ℕ) (Ee W : ℝ) (s : ℕ) : pdfNe ne (k * Ee) (k * W) s = pdfNe ne Ee W s := by
  unfold pdfNe
  rw [fdiv_unit hk _ _ _ _ hk.ne' hk.ne', div_self hk.ne']
  cases fdiv Ee W <;> simp

theorem rNeShell_unit (hk : 0 < k) (hS : ShellUnit k S S') (ne : ℕ) (W : ℝ) (n : Nucleus) (e : AtomicElectron) :
    rNeShell (U.inUnit k hk) S' (d.inUnit k) ne (p.inUnit k) (k * W) (n.inUnit k) (e.inUnit k) = rNeShell U S d ne p W n e := by
  have h0 := hk.ne'
  unfold rNeShell
  have := sumOver_unit (F := (k * ·)) (i := 1) (g := fun κ : ℝ => do
      let Ee := κ * κ / 2 / U.mElectron
      let w ← pdfNe ne Ee W e.secondaries
      let r ← S d Ee p n e
      .ok (Real.log 10 * e.dlogk * κ * κ / U.mElectron * w * r)) (g' := fun κ : ℝ => do
      let Ee := κ * κ / 2 / (U.inUnit k hk).mElectron
      let w ← pdfNe ne Ee (k * W) (e.inUnit k).secondaries
      let r ← S' (d.inUnit k) Ee (p.inUnit k) (n.inUnit k) (e.inUnit k)
      .ok (Real.log 10 * (e.inUnit k).dlogk * κ * κ / (U.inUnit k hk).mElectron * w * r)) e.kGrid fun κ => by
    have hm := U.mElectron_pos.ne'
    have e1 : k * κ * (k * κ) / 2 / (U.inUnit k hk).mElectron = k * (κ * κ / 2 / U.mElectron) := by
      simp only [Units.inUnit]; field_simp
    dsimp only
    rw [e1, pdfNe_unit hk, hS]
    refine Outcome.inUnit_bind' fun w => ?_
    refine Outcome.inUnit_bind fun r => ?_
    simp only [Outcome.inUnit_ok, Outcome.ok.injEq, Units.inUnit, AtomicElectron.inUnit]
    field_simp
  refine this.trans ?_
  simp only [one_mul]
  exact Outcome.inUnit_id _

theorem rNe_unit (hk : 0 < k) (hS : ShellUnit k S S') (ne : ℕ) :
    (x.inUnit k).rNe (U.inUnit k hk) S' (d.inUnit k) ne (p.inUnit k) = x.rNe U S d ne p := by
  unfold rNe
  have e1 : (x.inUnit k).atoms = x.atoms.map (Atom.inUnit k) := rfl
  have e2 : (x.inUnit k).fractions = x.fractions := rfl
  rw [e1, e2, List.length_map]
  congr 1
  funext i
  rw [vecGet_unit]
  have ha : ∀ a : Atom, rNeAtom (U.inUnit k hk) S' (d.inUnit k) ne (p.inUnit k) (a.inUnit k) = rNeAtom U S d ne p a := by
    intro a
    unfold rNeAtom
    have := sumOver_unit (F := AtomicElectron.inUnit k) (i := 1) (g := fun e => rNeShell U S d ne p a.W a.nucleus e)
      (g' := fun e => rNeShell (U.inUnit k hk) S' (d.inUnit k) ne (p.inUnit k) (k * a.W) (a.nucleus.inUnit k) e) a.electrons fun e => by
        rw [rNeShell_unit d p hk hS]
        simp only [one_mul]
        exact (Outcome.inUnit_id _).symm
    refine this.trans ?_
    simp only [one_mul]
    exact Outcome.inUnit_id _
  cases vecGet x.atoms i with
  | ok a => simp only [Outcome.inUnit_ok, Outcome.bind_ok, ha]
  | _ => rfl

theorem rS2Bin_unit (hk : 0 < k) (hS : ShellUnit k S S') (lo hi : ℕ) (l : List ℝ) :
    (x.inUnit k).rS2Bin (U.inUnit k hk) S' (d.inUnit k) lo hi (p.inUnit k) l = x.rS2Bin U S d lo hi p l := by
  unfold rS2Bin rS2
  simp only [rNe_unit x d p hk hS]
  rfl

theorem rate_unit (hS : ShellUnit k S S') (d : Detector) (E : ℝ) (p : DMParticle) :
    ((x.inUnit k).dRdE S' (d.inUnit k) (k * E) (p.inUnit k)).valueOr0 = 1 / k * (x.dRdE S d E p).valueOr0 := by
  rw [dRdE_unit x d p hS, Outcome.valueOr0_unit]

theorem signalsBinned_unit (hk : 0 < k) (hT : UnitFreeTools T) (hS : ShellUnit k S S') :
    (x.inUnit k).signalsBinned (U.inUnit k hk) S' T (d.inUnit k) (p.inUnit k) (h.inUnit k) = x.signalsBinned U S T d p h := by
  unfold signalsBinned
  rw [Detector.signalsEnergyBins_unit (C := x.rateClass S h) d p hk hT (rate_unit x hS)]
  unfold signalsElectronBins signalsPEBins
  simp only [rNe_unit x d p hk hS, rS2Bin_unit x d p hk hS]
  rfl

theorem thresholdSignal_unit (hk : 0 < k) (hT : UnitFreeTools T) (hS : ShellUnit k S S') (n : Nucleus) (f : ℝ) (e : AtomicElectron) :
    thresholdSignal (U.inUnit k hk) S' T (d.inUnit k) (p.inUnit k) (n.inUnit k) f (e.inUnit k) = thresholdSignal U S T d p n f e := by
  unfold thresholdSignal
  have hm := U.mElectron_pos.ne'
  have h0 := hk.ne'
  have e1 : (e.inUnit k).kMax * (e.inUnit k).kMax / 2 / (U.inUnit k hk).mElectron = k * (e.kMax * e.kMax / 2 / U.mElectron) := by
    simp only [Units.inUnit, AtomicElectron.inUnit]; field_simp
  have e2 : (d.inUnit k).energyThreshold = k * d.energyThreshold := rfl
  simp only [e1, e2, mul_lt_mul_iff_right₀ hk]
  split_ifs
  · rw [DMParticle.integral_unit hk hT.integral (i := 1 / k) hk (fun E => d.exposure * (S d E p n e).valueOr0) _ _ _ (fun E => by
      rw [hS, Outcome.valueOr0_unit, show (d.inUnit k).exposure = d.exposure from rfl]; ring), mul_one_div_cancel h0, one_mul]
  · rfl

theorem signalsTotal_unit (hk : 0 < k) (hT : UnitFreeTools T) (hS : ShellUnit k S S') :
    (x.inUnit k).signalsTotal (U.inUnit k hk) S' T (d.inUnit k) (p.inUnit k) (h.inUnit k) = x.signalsTotal U S T d p h := by
  unfold signalsTotal
  rw [signalsBinned_unit x d p hk hT hS, rS2Bin_unit x d p hk hS]
  simp only [rNe_unit x d p hk hS]
  have e1 : (x.inUnit k).atoms = x.atoms.map (Atom.inUnit k) := rfl
  have e2 : (x.inUnit k).fractions = x.fractions := rfl
  have e3 : sumOver (fun i => do
      let a ← vecGet (x.inUnit k).atoms i
      sumOver (fun e => do
        let f ← vecGet (x.inUnit k).fractions i
        .ok (thresholdSignal (U.inUnit k hk) S' T (d.inUnit k) (p.inUnit k) a.nucleus f e)) a.electrons) (List.range (x.inUnit k).atoms.length) =
      sumOver (fun i => do
        let a ← vecGet x.atoms i
        sumOver (fun e => do
          let f ← vecGet x.fractions i
          .ok (thresholdSignal U S T d p a.nucleus f e)) a.electrons) (List.range x.atoms.length) := by
    rw [e1, e2, List.length_map]
    congr 1
    funext i
    rw [vecGet_unit]
    cases vecGet x.atoms i with
    | ok a =>
      simp only [Outcome.inUnit_ok, Outcome.bind_ok]
      have := sumOver_unit (F := AtomicElectron.inUnit k) (i := 1) (g := fun e => do
          let f ← vecGet x.fractions i
          .ok (thresholdSignal U S T d p a.nucleus f e)) (g' := fun e => do
          let f ← vecGet x.fractions i
          .ok (thresholdSignal (U.inUnit k hk) S' T (d.inUnit k) (p.inUnit k) (a.nucleus.inUnit k) f e)) a.electrons fun e => by
        refine Outcome.inUnit_bind' fun f => ?_
        simp only [thresholdSignal_unit d p hk hT hS, Outcome.inUnit_ok, one_mul]
      refine this.trans ?_
      simp only [one_mul]
      exact Outcome.inUnit_id _
    | _ => rfl
  rw [e3]
  rfl

theorem class_unit (hk : 0 < k) (hT : UnitFreeTools T) (hS : ShellUnit k S S') :
    ClassUnit k (x.toClass U S T h) ((x.inUnit k).toClass (U.inUnit k hk) S' T (h.inUnit k)) :=
  ⟨fun p => maximumEnergyDeposit_unit p, rate_unit x hS, fun d p => signalsTotal_unit x d p hk hT hS,
    fun d p => signalsBinned_unit x d p hk hT hS⟩

theorem step_unit (hk : 0 < k) (s : Detector × IonizationDetector) (op : Op) :
    step (s.1.inUnit k, s.2.inUnit k) (op.inUnit k) = (step s op).inUnit fun r => (r.1.inUnit k, r.2.inUnit k) := by
  have e1 : (s.1.inUnit k).analysis = s.1.analysis := rfl
  have e2 : (s.2.inUnit k).usingS2Bins = s.2.usingS2Bins := rfl
  have e3 : (s.2.inUnit k).usingS2Threshold = s.2.usingS2Threshold := rfl
  cases op with
  | base op =>
    simp only [step, Op.inUnit, Detector.step_unit _ hk]
    exact Outcome.inUnit_bind fun d => rfl
  | useElectronThreshold n m =>
    simp only [step, Op.inUnit, useElectronThreshold]
    split_ifs <;> rfl
  | useElectronBins n b =>
    simp only [step, Op.inUnit, useElectronBins, Detector.initializeBinned, e1]
    by_cases h1 : s.1.analysis = .binnedPoisson
    · rw [if_pos h1, if_pos h1]; rfl
    · rw [if_neg h1, if_neg h1]
      simp only [Outcome.bind_ok]
      split_ifs <;> rfl
  | usePEThreshold mu si n m =>
    simp only [step, Op.inUnit, usePEThreshold]
    split_ifs <;> rfl
  | usePEBins mu si r =>
    simp only [step, Op.inUnit, usePEBins, Detector.initializeBinned, e1]
    by_cases h1 : s.1.analysis = .binnedPoisson
    · rw [if_pos h1, if_pos h1]; rfl
    · rw [if_neg h1, if_neg h1]; rfl
  | importTrigger l =>
    simp only [step, Op.inUnit, importTrigger, e2, e3]
    split_ifs <;> rfl
  | importAcceptance l =>
    simp only [step, Op.inUnit, importAcceptance, e2, e3]
    split_ifs <;> rfl

theorem run_unit (hk : 0 < k) (s : Detector × IonizationDetector) (ops : List Op) :
    run (s.1.inUnit k, s.2.inUnit k) (ops.map (Op.inUnit k)) = (run s ops).inUnit fun r => (r.1.inUnit k, r.2.inUnit k) := by
  induction ops generalizing s with
  | nil => rfl
  | cons op ops ih =>
    simp only [List.map_cons, run, step_unit hk]
    exact Outcome.inUnit_bind fun x => ih x

end IonizationDetector

theorem AnyDetector.class_unit (hk : 0 < k) (hT : UnitFreeTools T) (D : AnyDetector) :
    ClassUnit k (D.toClass U T h) ((D.inUnit k).toClass (U.inUnit k hk) T (h.inUnit k)) := by
  cases D with
  | nuclear d x => exact x.class_unit hk hT
  | electronRecoil d x => exact x.class_unit hk hT (shellRateER_unit hk hT.integral)
  | migdal d x => exact x.class_unit hk hT (shellRateMigdal_unit hk hT.integral)
  | crystal d x => exact x.class_unit hk hT

theorem AnyDetector.base_unit (D : AnyDetector) : (D.inUnit k).base = D.base.inUnit k := by cases D <;> rfl

end Obscura
