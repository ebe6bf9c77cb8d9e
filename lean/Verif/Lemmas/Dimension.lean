import Verif.Spec.Dimension

/-!
# Formulas in another unit of energy: particles, kinematics and cross sections
-/

namespace Obscura

open Spec

variable {U : Units} {k : ℝ} (hk : 0 < k)

@[simp] theorem Outcome.inUnit_ok {α β : Type} (f : α → β) (x : α) : (Outcome.ok x).inUnit f = .ok (f x) := rfl
@[simp] theorem Outcome.inUnit_exit {α β : Type} (f : α → β) : (Outcome.exit : Outcome α).inUnit f = .exit := rfl
@[simp] theorem Outcome.inUnit_ub {α β : Type} (f : α → β) : (Outcome.ub : Outcome α).inUnit f = .ub := rfl
@[simp] theorem Outcome.inUnit_nonfinite {α β : Type} (f : α → β) : (Outcome.nonfinite : Outcome α).inUnit f = .nonfinite := rfl

theorem Outcome.inUnit_bind {α β γ δ : Type} {o : Outcome α} {f : α → β} {g : α → Outcome γ} {g' : β → Outcome δ} {F : γ → δ}
    (h : ∀ x, g' (f x) = (g x).inUnit F) : (o.inUnit f >>= g') = (o >>= g).inUnit F := by
  cases o <;> simp [h]

include hk

theorem reducedMass_unit (a b : ℝ) : reducedMass (k * a) (k * b) = k * reducedMass a b := by
  unfold reducedMass
  rw [← mul_add, mul_mul_mul_comm, mul_assoc k k, mul_div_mul_left _ _ hk.ne', mul_div_assoc]

theorem fdiv_unit (a b : ℝ) (i j : ℝ) (hi : i ≠ 0) (hj : j ≠ 0) : fdiv (i * a) (j * b) = (fdiv a b).inUnit fun x => i / j * x := by
  unfold fdiv
  by_cases h : b = 0
  · simp [h]
  · simp [h, hj]
    field_simp

theorem fsqrt_unit (a : ℝ) : fsqrt (k ^ 2 * a) = (fsqrt a).inUnit fun x => k * x := by
  unfold fsqrt
  have h : (k ^ 2 * a < 0) ↔ a < 0 := by
    have : 0 < k ^ 2 := by positivity
    constructor <;> intro h <;> nlinarith
  by_cases h' : a < 0
  · simp [h, h']
  · simp only [h, h', if_false, Outcome.inUnit_ok]
    rw [Real.sqrt_mul (by positivity), Real.sqrt_sq hk.le]

namespace DMParticle

variable (p : DMParticle)

theorem sigmaProton_unit : (p.inUnit k).sigmaProton (U.inUnit k hk) = p.sigmaProton U / k ^ 2 := by
  simp only [sigmaProton, inUnit, Units.inUnit, reducedMass_unit hk]
  have := hk.ne'
  field_simp

theorem sigmaNeutron_unit : (p.inUnit k).sigmaNeutron (U.inUnit k hk) = p.sigmaNeutron U / k ^ 2 := by
  simp only [sigmaNeutron, inUnit, Units.inUnit, reducedMass_unit hk]
  have := hk.ne'
  field_simp

theorem couplingOf_unit (s : ℝ) : (p.inUnit k).couplingOf (U.inUnit k hk) (s / k ^ 2) = (p.couplingOf U s).inUnit (· / k ^ 2) := by
  have h0 := hk.ne'
  unfold couplingOf
  simp only [inUnit, Units.inUnit, reducedMass_unit hk]
  have e1 : Real.pi * (s / k ^ 2) = (k⁻¹) ^ 2 * (Real.pi * s) := by field_simp
  have e2 : fdiv (Real.pi * (s / k ^ 2)) p.prefactor = (fdiv (Real.pi * s) p.prefactor).inUnit fun x => (k⁻¹) ^ 2 * x := by
    rw [e1]
    have := fdiv_unit (k := k) hk (Real.pi * s) p.prefactor ((k⁻¹) ^ 2) 1 (by positivity) one_ne_zero
    simpa using this
  rw [e2]
  refine Outcome.inUnit_bind fun x => ?_
  rw [fsqrt_unit (inv_pos.2 hk)]
  refine Outcome.inUnit_bind fun y => ?_
  rw [fdiv_unit hk _ _ _ _ (inv_ne_zero h0) h0]
  congr 1
  funext z
  field_simp

theorem setSigmaProton_unit (s : ℝ) :
    (p.inUnit k).setSigmaProton (U.inUnit k hk) (s / k ^ 2) = (p.setSigmaProton U s).inUnit (inUnit k) := by
  have h0 := hk.ne'
  unfold setSigmaProton
  rw [couplingOf_unit]
  by_cases hf : p.fixedRelation = true
  · by_cases h1 : p.fpRel = 0
    · simp [inUnit, hf, h1]
    · simp only [inUnit, hf, h1, if_true, if_false]
      refine Outcome.inUnit_bind fun x => ?_
      cases fdiv p.fnRel p.fpRel <;> simp [inUnit]
      field_simp
  · simp only [inUnit, hf, if_false, Bool.false_eq_true]
    exact Outcome.inUnit_bind fun x => by simp [inUnit]

theorem setSigmaNeutron_unit (s : ℝ) :
    (p.inUnit k).setSigmaNeutron (U.inUnit k hk) (s / k ^ 2) = (p.setSigmaNeutron U s).inUnit (inUnit k) := by
  have h0 := hk.ne'
  unfold setSigmaNeutron
  rw [couplingOf_unit]
  by_cases hf : p.fixedRelation = true
  · by_cases h1 : p.fnRel = 0
    · simp [inUnit, hf, h1]
    · simp only [inUnit, hf, h1, if_true, if_false]
      refine Outcome.inUnit_bind fun x => ?_
      cases fdiv p.fpRel p.fnRel <;> simp [inUnit]
      field_simp
  · simp only [inUnit, hf, if_false, Bool.false_eq_true]
    exact Outcome.inUnit_bind fun x => by simp [inUnit]

theorem setMass_unit (m : ℝ) : (p.inUnit k).setMass (U.inUnit k hk) (k * m) = (p.setMass U m).inUnit (inUnit k) := by
  have hm : ({ p.inUnit k with mass := k * m } : DMParticle) = ({ p with mass := m } : DMParticle).inUnit k := rfl
  unfold setMass
  rw [sigmaProton_unit, sigmaNeutron_unit, hm, setSigmaProton_unit, setSigmaNeutron_unit]
  have h1 : (p.inUnit k).fixedRelation = p.fixedRelation := rfl
  have h2 : (p.inUnit k).fpRel = p.fpRel := rfl
  rw [h1, h2]
  split_ifs
  · rfl
  · rfl
  · exact Outcome.inUnit_bind fun x => setSigmaNeutron_unit hk x _

theorem getInteractionParameter_unit (t : String) :
    (p.inUnit k).getInteractionParameter (U.inUnit k hk) t = (p.getInteractionParameter U t).inUnit (· / k ^ 2) := by
  unfold getInteractionParameter
  rw [sigmaProton_unit, sigmaNeutron_unit]
  have h2 : (p.inUnit k).fpRel = p.fpRel := rfl
  rw [h2]
  split_ifs <;> rfl

theorem setInteractionParameter_unit (x : ℝ) (t : String) :
    (p.inUnit k).setInteractionParameter (U.inUnit k hk) (x / k ^ 2) t = (p.setInteractionParameter U x t).inUnit (inUnit k) := by
  unfold setInteractionParameter
  rw [setSigmaProton_unit, setSigmaNeutron_unit]
  have h2 : (p.inUnit k).fpRel = p.fpRel := rfl
  rw [h2]
  split_ifs <;> rfl

theorem div_unit_eq_zero (x : ℝ) : x / k ^ 2 = 0 ↔ x = 0 := by
  have := hk.ne'
  simp [this]

theorem step_unit (op : Op) : (p.inUnit k).step (U.inUnit k hk) (op.inUnit k) = (p.step U op).inUnit (inUnit k) := by
  have h0 := hk.ne'
  cases op with
  | setMass m => exact setMass_unit hk p m
  | setSpin s => rfl
  | setLowMassMode b => rfl
  | setFractionalDensity f => rfl
  | setSigmaProton s => exact setSigmaProton_unit hk p s
  | setSigmaNeutron s => exact setSigmaNeutron_unit hk p s
  | setSigmaElectron s => rfl
  | setInteractionParameter x t => exact setInteractionParameter_unit hk p x t
  | fixCouplingRatio a b =>
    simp only [Op.inUnit, step, fixCouplingRatio]
    cases fdiv a (a + b) with
    | ok x =>
      cases fdiv b (a + b) with
      | ok y =>
        simp only [Outcome.bind_ok, inUnit, ne_eq, div_unit_eq_zero hk]
        split_ifs <;> first
          | rfl
          | (simp [inUnit])
          | (cases fdiv y x <;> simp [inUnit] <;> field_simp)
          | (cases fdiv x y <;> simp [inUnit] <;> field_simp)
      | _ => rfl
    | _ => rfl
  | fixFnOverFp r =>
    simp only [Op.inUnit, step, fixFnOverFp]
    cases fdiv 1 (1 + r) with
    | ok x =>
      cases fdiv r (1 + r) with
      | ok y =>
        simp only [Outcome.bind_ok, inUnit, ne_eq, div_unit_eq_zero hk]
        split_ifs <;> first
          | rfl
          | (simp [inUnit])
          | (cases fdiv y x <;> simp [inUnit] <;> field_simp)
          | (cases fdiv x y <;> simp [inUnit] <;> field_simp)
      | _ => rfl
    | _ => rfl
  | fixFpOverFn r =>
    simp only [Op.inUnit, step, fixFpOverFn, inUnit, ne_eq, div_unit_eq_zero hk]
    split_ifs <;> first
      | rfl
      | (simp [inUnit])
      | (cases fdiv 1 r <;> simp [inUnit] <;> field_simp)
      | (cases fdiv r 1 <;> simp [inUnit] <;> field_simp)
  | unfixCouplingRatios => rfl
  | setFormFactorDM ff m =>
    simp only [Op.inUnit, step, setFormFactorDM, inUnit]
    cases p.interaction with
    | SD => rfl
    | SI f q mo =>
      simp only [Interaction.inUnit]
      cases formFactorOfName ff with
      | none => rfl
      | some g =>
        simp only [Outcome.inUnit_ok, inUnit, Interaction.inUnit, mul_pos_iff_of_pos_left hk]
        split_ifs <;> rfl
  | setMediatorMass m =>
    simp only [Op.inUnit, step, setMediatorMass, inUnit]
    cases p.interaction <;> rfl

theorem run_unit (ops : List Op) :
    (p.inUnit k).run (U.inUnit k hk) (ops.map (Op.inUnit k)) = (p.run U ops).inUnit (inUnit k) := by
  induction ops generalizing p with
  | nil => rfl
  | cons op ops ih =>
    simp only [List.map_cons, run, step_unit]
    exact Outcome.inUnit_bind fun x => ih x

theorem standard_unit (m pre : ℝ) (i : Interaction) :
    standard (U.inUnit k hk) (k * m) pre (i.inUnit k) = (standard U m pre i).inUnit k := by
  have h0 := hk.ne'
  simp only [standard, inUnit, Units.inUnit, DMParticle.mk.injEq, true_and, zero_div, and_true]
  field_simp

theorem makeSI_unit (m s : ℝ) : makeSI (U.inUnit k hk) (k * m) (s / k ^ 2) = (makeSI U m s).inUnit (inUnit k) := by
  unfold makeSI
  have : Interaction.SI .contact ((U.inUnit k hk).aEM * (U.inUnit k hk).mElectron) 0 =
      (Interaction.SI .contact (U.aEM * U.mElectron) 0).inUnit k := by
    simp [Interaction.inUnit, Units.inUnit]; ring
  rw [this, standard_unit, setSigmaProton_unit]

theorem makeSD_unit (m s : ℝ) : makeSD (U.inUnit k hk) (k * m) (s / k ^ 2) = (makeSD U m s).inUnit (inUnit k) := by
  unfold makeSD
  have : Interaction.SD = (Interaction.SD).inUnit k := rfl
  rw [this, standard_unit, setSigmaProton_unit]
  rfl

theorem cm2_unit : 1 / 10 ^ 40 * (U.inUnit k hk).cm * (U.inUnit k hk).cm = (1 / 10 ^ 40 * U.cm * U.cm) / k ^ 2 := by
  have h0 := hk.ne'
  simp only [Units.inUnit]
  field_simp

end DMParticle

theorem helmRadius_unit (iso : Isotope) : (iso.inUnit k).helmRadius (U.inUnit k hk) = iso.helmRadius U / k := by
  have h0 := hk.ne'
  simp only [Isotope.helmRadius, Isotope.inUnit, Units.inUnit]
  rw [← Real.sqrt_sq hk.le, ← Real.sqrt_div' _ (by positivity), Real.sqrt_sq hk.le]
  congr 1
  field_simp

theorem helmFormFactor_unit (iso : Isotope) (q : ℝ) :
    (iso.inUnit k).helmFormFactor (U.inUnit k hk) (k * q) = iso.helmFormFactor U q := by
  have h0 := hk.ne'
  unfold Isotope.helmFormFactor
  rw [helmRadius_unit]
  have h1 : 1 / 10 ^ 6 * (U.inUnit k hk).MeV = k * (1 / 10 ^ 6 * U.MeV) := by simp [Units.MeV, Units.inUnit]; ring
  have h2 : k * q * (iso.helmRadius U / k) = q * iso.helmRadius U := by field_simp
  have h3 : -(k * q) * (k * q) * (0.9 * (U.inUnit k hk).fm) * (0.9 * (U.inUnit k hk).fm) / 2 = -q * q * (0.9 * U.fm) * (0.9 * U.fm) / 2 := by
    simp only [Units.inUnit]; field_simp
  simp only [h1, h2, h3, mul_lt_mul_iff_right₀ hk]

theorem formFactor2_unit (ff : FormFactor) (qRef mMed q : ℝ) :
    DMParticle.formFactor2 ff (k * qRef) (k * mMed) (k * q) = DMParticle.formFactor2 ff qRef mMed q := by
  have h0 := hk.ne'
  cases ff <;> simp only [DMParticle.formFactor2]
  · rw [mul_div_mul_left _ _ h0]
  · have : k * qRef * (k * qRef) / (k * q) / (k * q) = qRef * qRef / q / q := by field_simp
    rw [this]
  · have : (k * qRef * (k * qRef) + k * mMed * (k * mMed)) / (k * q * (k * q) + k * mMed * (k * mMed)) =
        (qRef * qRef + mMed * mMed) / (q * q + mMed * mMed) := by
      rw [show k * qRef * (k * qRef) + k * mMed * (k * mMed) = k ^ 2 * (qRef * qRef + mMed * mMed) by ring,
        show k * q * (k * q) + k * mMed * (k * mMed) = k ^ 2 * (q * q + mMed * mMed) by ring, mul_div_mul_left _ _ (pow_ne_zero 2 h0)]
    rw [this]

namespace DMParticle

variable (p : DMParticle)

theorem dSigmadq2Nucleus_unit (q v : ℝ) (iso : Isotope) :
    (p.inUnit k).dSigmadq2Nucleus (U.inUnit k hk) (k * q) (iso.inUnit k) v = p.dSigmadq2Nucleus U q iso v / k ^ 4 := by
  have h0 := hk.ne'
  unfold dSigmadq2Nucleus
  rw [helmFormFactor_unit]
  simp only [inUnit]
  cases p.interaction with
  | SD =>
    simp only [Interaction.inUnit, Isotope.inUnit]
    by_cases h : iso.spin = 0
    · simp [h]
    · simp only [h, if_false]
      field_simp
  | SI ff a b =>
    simp only [Interaction.inUnit, formFactor2_unit hk, Isotope.inUnit, Isotope.neutrons]
    by_cases h : p.lowMass = true
    · simp only [h, if_true]; field_simp
    · simp only [h]; field_simp

theorem dSigmadq2Electron_unit (q v : ℝ) :
    (p.inUnit k).dSigmadq2Electron (U.inUnit k hk) (k * q) v = p.dSigmadq2Electron U q v / k ^ 4 := by
  have h0 := hk.ne'
  unfold dSigmadq2Electron
  simp only [inUnit, Units.inUnit, reducedMass_unit hk]
  have e : p.sigmaElectronRef / k ^ 2 / (2 * (k * reducedMass p.mass U.mElectron) * v) ^ 2 =
      p.sigmaElectronRef / (2 * reducedMass p.mass U.mElectron * v) ^ 2 / k ^ 4 := by
    rw [div_div, div_div]; congr 1; ring
  cases p.interaction with
  | SD => simp only [Interaction.inUnit]; exact e
  | SI ff a b =>
    simp only [Interaction.inUnit, formFactor2_unit hk, e]
    ring

theorem sqrt_unit (a b : ℝ) : Real.sqrt (2 * (k * a) * (k * b)) = k * Real.sqrt (2 * a * b) := by
  rw [show 2 * (k * a) * (k * b) = k ^ 2 * (2 * a * b) by ring, Real.sqrt_mul (by positivity), Real.sqrt_sq hk.le]

theorem dSigmadERNucleus_unit (ER v : ℝ) (iso : Isotope) :
    (p.inUnit k).dSigmadERNucleus (U.inUnit k hk) (k * ER) (iso.inUnit k) v = p.dSigmadERNucleus U ER iso v / k ^ 3 := by
  have h0 := hk.ne'
  unfold dSigmadERNucleus
  have : (iso.inUnit k).mass = k * iso.mass := rfl
  rw [this, sqrt_unit hk, dSigmadq2Nucleus_unit]
  field_simp

theorem integral_unit {I : Integrator} (hI : UnitFree I) {j i : ℝ} (hj : 0 < j) (f g : ℝ → ℝ) (a b : ℝ) (h : ∀ x, g (j * x) = i * f x) :
    I g (j * a) (j * b) = j * i * I f a b := by
  have : g = fun x => (fun y => i * f y) (x / j) := by
    funext x
    show g x = i * f (x / j)
    rw [← h, mul_div_cancel₀ _ hj.ne']
  rw [this, hI.substitution j (fun y => i * f y) a b hj, hI.homogeneous, mul_assoc]

theorem q2max_unit (a m v : ℝ) : 4 * (reducedMass (k * a) (k * m) * v) ^ 2 = k ^ 2 * (4 * (reducedMass a m * v) ^ 2) := by
  rw [reducedMass_unit hk]; ring

theorem sigmaTotalNucleusBase_unit {I : Integrator} (hI : UnitFree I) (iso : Isotope) (v : ℝ) :
    (p.inUnit k).sigmaTotalNucleusBase (U.inUnit k hk) I (iso.inUnit k) v = p.sigmaTotalNucleusBase U I iso v / k ^ 2 := by
  have h0 := hk.ne'
  unfold sigmaTotalNucleusBase
  have e1 : (p.inUnit k).mass = k * p.mass := rfl
  have e2 : (iso.inUnit k).mass = k * iso.mass := rfl
  rw [e1, e2, q2max_unit hk]
  have := integral_unit hk hI (j := k ^ 2) (i := 1 / k ^ 4) (by positivity) (fun q2 => p.dSigmadq2Nucleus U (Real.sqrt q2) iso v)
    (fun q2 => (p.inUnit k).dSigmadq2Nucleus (U.inUnit k hk) (Real.sqrt q2) (iso.inUnit k) v) 0
    (4 * (reducedMass p.mass iso.mass * v) ^ 2) (fun x => by
      rw [Real.sqrt_mul (by positivity), Real.sqrt_sq hk.le, dSigmadq2Nucleus_unit]; ring)
  rw [mul_zero] at this
  rw [this]
  field_simp

theorem sigmaTotalElectronBase_unit {I : Integrator} (hI : UnitFree I) (v : ℝ) :
    (p.inUnit k).sigmaTotalElectronBase (U.inUnit k hk) I v = p.sigmaTotalElectronBase U I v / k ^ 2 := by
  have h0 := hk.ne'
  unfold sigmaTotalElectronBase
  have e1 : (p.inUnit k).mass = k * p.mass := rfl
  have e2 : (U.inUnit k hk).mElectron = k * U.mElectron := rfl
  rw [e1, e2, q2max_unit hk]
  have := integral_unit hk hI (j := k ^ 2) (i := 1 / k ^ 4) (by positivity) (fun q2 => p.dSigmadq2Electron U (Real.sqrt q2) v)
    (fun q2 => (p.inUnit k).dSigmadq2Electron (U.inUnit k hk) (Real.sqrt q2) v) 0
    (4 * (reducedMass p.mass U.mElectron * v) ^ 2) (fun x => by
      rw [Real.sqrt_mul (by positivity), Real.sqrt_sq hk.le, dSigmadq2Electron_unit]; ring)
  rw [mul_zero] at this
  rw [this]
  field_simp

theorem generalFactor_unit (qRef mMed q2 : ℝ) :
    generalFactor (k * qRef) (k * mMed) (k ^ 2 * q2) = generalFactor qRef mMed q2 := by
  have h0 := hk.ne'
  unfold generalFactor
  rw [show (k * qRef * (k * qRef) + k * mMed * (k * mMed)) ^ 2 = k ^ 4 * (qRef * qRef + mMed * mMed) ^ 2 by ring,
    fdiv_unit hk _ _ _ _ (pow_ne_zero 4 h0) h0]
  cases fdiv ((qRef * qRef + mMed * mMed) ^ 2) mMed with
  | ok x =>
    simp only [Outcome.inUnit_ok, Outcome.bind_ok]
    rw [show k ^ 4 / k * x = k ^ 3 * x by field_simp, fdiv_unit hk _ _ _ _ (pow_ne_zero 3 h0) h0]
    cases fdiv x mMed with
    | ok y =>
      simp only [Outcome.inUnit_ok, Outcome.bind_ok]
      rw [show k ^ 3 / k * y = k ^ 2 * y by field_simp, show k * mMed * (k * mMed) + k ^ 2 * q2 = k ^ 2 * (mMed * mMed + q2) by ring,
        fdiv_unit hk _ _ _ _ (pow_ne_zero 2 h0) (pow_ne_zero 2 h0)]
      cases fdiv y (mMed * mMed + q2) <;> simp [h0]
    | _ => rfl
  | _ => rfl

theorem sigmaTotalNucleus_unit {I : Integrator} (hI : UnitFree I) (iso : Isotope) (v : ℝ) :
    (p.inUnit k).sigmaTotalNucleus (U.inUnit k hk) I (iso.inUnit k) v = (p.sigmaTotalNucleus U I iso v).inUnit (· / k ^ 2) := by
  have h0 := hk.ne'
  have hb := sigmaTotalNucleusBase_unit (U := U) hk p hI iso v
  have e1 : (p.inUnit k).mass = k * p.mass := rfl
  have e2 : (iso.inUnit k).mass = k * iso.mass := rfl
  have e3 : (p.inUnit k).lowMass = p.lowMass := rfl
  have e4 : (p.inUnit k).interaction = p.interaction.inUnit k := rfl
  unfold sigmaTotalNucleus
  rw [hb, e1, e2, e3, e4, q2max_unit hk, reducedMass_unit hk]
  cases p.interaction with
  | SD =>
    simp only [Interaction.inUnit, inUnit, Isotope.inUnit]
    by_cases h : iso.spin = 0
    · simp [h]
    · simp only [h, if_false, not_false_eq_true, if_true, ne_eq, Outcome.inUnit_ok, Outcome.ok.injEq]
      field_simp
  | SI ff a b =>
    simp only [Interaction.inUnit, inUnit, Isotope.inUnit, generalFactor_unit hk, Isotope.neutrons]
    split_ifs
    · rfl
    · rfl
    · cases generalFactor a b (4 * (reducedMass p.mass iso.mass * v) ^ 2) <;> simp
      field_simp
    · simp only [Outcome.inUnit_ok, Outcome.ok.injEq]
      field_simp

theorem sigmaTotalElectron_unit (v : ℝ) :
    (p.inUnit k).sigmaTotalElectron (U.inUnit k hk) v = (p.sigmaTotalElectron U v).inUnit (· / k ^ 2) := by
  have e1 : (p.inUnit k).mass = k * p.mass := rfl
  have e2 : (U.inUnit k hk).mElectron = k * U.mElectron := rfl
  have e4 : (p.inUnit k).interaction = p.interaction.inUnit k := rfl
  unfold sigmaTotalElectron
  rw [e1, e2, e4, q2max_unit hk]
  cases p.interaction with
  | SD => rfl
  | SI ff a b =>
    simp only [Interaction.inUnit, generalFactor_unit hk]
    split_ifs
    · rfl
    · cases generalFactor a b (4 * (reducedMass p.mass U.mElectron * v) ^ 2) <;> simp [sigmaElectron, inUnit]
      ring
    · rfl

end DMParticle

/-! ## Kinematics -/

theorem vMinimalNucleus_unit (E m M : ℝ) : vMinimalNucleus (k * E) (k * m) (k * M) = vMinimalNucleus E m M := by
  have h0 := hk.ne'
  unfold vMinimalNucleus
  rw [reducedMass_unit hk]
  congr 1
  rw [show k * M * (k * E) / 2 / (k * reducedMass m M) ^ 2 = k ^ 2 * (M * E / 2) / (k ^ 2 * reducedMass m M ^ 2) by ring,
    mul_div_mul_left _ _ (pow_ne_zero 2 h0)]

theorem maximumNuclearRecoilEnergy_unit (v m M : ℝ) :
    maximumNuclearRecoilEnergy v (k * m) (k * M) = k * maximumNuclearRecoilEnergy v m M := by
  have h0 := hk.ne'
  unfold maximumNuclearRecoilEnergy
  rw [reducedMass_unit hk, show 2 * v * v * (k * reducedMass m M) ^ 2 = k * (k * (2 * v * v * reducedMass m M ^ 2)) by ring,
    mul_div_mul_left _ _ h0, mul_div_assoc]

theorem vMinimalElectrons_unit (q E m : ℝ) : vMinimalElectrons (k * q) (k * E) (k * m) = vMinimalElectrons q E m := by
  have h0 := hk.ne'
  unfold vMinimalElectrons
  rw [mul_div_mul_left _ _ h0, mul_div_assoc, mul_div_mul_left _ _ h0]

theorem qBound_unit (m v E : ℝ) : Real.sqrt (k * m * (k * m) * v * v - 2 * (k * m) * (k * E)) = k * Real.sqrt (m * m * v * v - 2 * m * E) := by
  rw [show k * m * (k * m) * v * v - 2 * (k * m) * (k * E) = k ^ 2 * (m * m * v * v - 2 * m * E) by ring, Real.sqrt_mul (by positivity),
    Real.sqrt_sq hk.le]

theorem qMinER_unit (m v E : ℝ) : qMinER (k * m) v (k * E) = k * qMinER m v E := by
  unfold qMinER; rw [qBound_unit hk]; ring

theorem qMaxER_unit (m v E : ℝ) : qMaxER (k * m) v (k * E) = k * qMaxER m v E := by
  unfold qMaxER; rw [qBound_unit hk]; ring

theorem energeticallyClosed_unit (m v E : ℝ) : energeticallyClosed (k * m) v (k * E) ↔ energeticallyClosed m v E := by
  unfold energeticallyClosed
  rw [show k * m / 2 * v * v = k * (m / 2 * v * v) by ring, mul_lt_mul_iff_right₀ hk]

theorem vMinimalMigdal_unit (ER Ee m M B : ℝ) :
    vMinimalMigdal (k * ER) (k * Ee) (k * m) (k * M) (k * B) = vMinimalMigdal ER Ee m M B := by
  have h0 := hk.ne'
  unfold vMinimalMigdal
  rw [DMParticle.sqrt_unit hk, reducedMass_unit hk, ← mul_add, mul_div_mul_left _ _ h0]
  congr 2
  rw [show k * M * (k * ER) / 2 / (k * reducedMass m M) / (k * reducedMass m M) =
    k ^ 2 * (M * ER / 2) / (k ^ 2 * (reducedMass m M * reducedMass m M)) by rw [div_div]; ring, mul_div_mul_left _ _ (pow_ne_zero 2 h0),
    div_div, div_div, div_div]

theorem erMinMigdal_unit (v M B : ℝ) : erMinMigdal v (k * M) (k * B) = k * erMinMigdal v M B := by
  have h0 := hk.ne'
  unfold erMinMigdal
  rw [show k * B / v * (k * B / v) / 2 = k * (k * (B / v * (B / v) / 2)) by ring, mul_div_mul_left _ _ h0, mul_div_assoc]

theorem erMaxMigdal_unit (v m M : ℝ) : erMaxMigdal v (k * m) (k * M) = k * erMaxMigdal v m M := by
  have h0 := hk.ne'
  unfold erMaxMigdal
  rw [reducedMass_unit hk, show 2 * (k * reducedMass m M) * v * (2 * (k * reducedMass m M) * v) / 2 =
    k * (k * (2 * reducedMass m M * v * (2 * reducedMass m M * v) / 2)) by ring, mul_div_mul_left _ _ h0, mul_div_assoc]

end Obscura
