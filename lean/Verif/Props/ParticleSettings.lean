import Verif.Lemmas.Particle

/-!
# Property C62: settings take effect and change nothing else; C51 for the isotope constructor
-/

namespace Obscura

open Spec DMParticle

variable {U : Units}

/-- C62 (`Set_Spin`). -/
theorem C62_spin (p : DMParticle) (s : ℝ) :
    (p.setSpin s).spin = s ∧ (p.setSpin s).fractionalDensity = p.fractionalDensity ∧ (p.setSpin s).lowMass = p.lowMass ∧
      SameReference U p (p.setSpin s) ∧ SameCrossSections U p (p.setSpin s) :=
  ⟨rfl, rfl, rfl, ⟨rfl, rfl, rfl, rfl, rfl, rfl, fun _ => rfl⟩, ⟨fun _ _ _ => rfl, fun _ _ => rfl, fun _ _ _ => rfl, fun _ => rfl⟩⟩

/-- C62 (`Set_Fractional_Density`). -/
theorem C62_fraction (p : DMParticle) (f : ℝ) :
    (p.setFractionalDensity f).fractionalDensity = f ∧ (p.setFractionalDensity f).spin = p.spin ∧
      (p.setFractionalDensity f).lowMass = p.lowMass ∧
      SameReference U p (p.setFractionalDensity f) ∧ SameCrossSections U p (p.setFractionalDensity f) :=
  ⟨rfl, rfl, rfl, ⟨rfl, rfl, rfl, rfl, rfl, rfl, fun _ => rfl⟩, ⟨fun _ _ _ => rfl, fun _ _ => rfl, fun _ _ _ => rfl, fun _ => rfl⟩⟩

/-- C62 (`Set_Low_Mass_Mode`): in low-mass mode the nuclear form factor is dropped from the spin-independent cross section,
otherwise it enters squared; nothing else changes. -/
theorem C62_low_mass (p : DMParticle) (b : Bool) :
    (p.setLowMassMode b).lowMass = b ∧ (p.setLowMassMode b).spin = p.spin ∧
      (p.setLowMassMode b).fractionalDensity = p.fractionalDensity ∧
      SameReference U p (p.setLowMassMode b) ∧
      (∀ q v, (p.setLowMassMode b).dSigmadq2Electron U q v = p.dSigmadq2Electron U q v) ∧
      (p.interaction = .SD → SameCrossSections U p (p.setLowMassMode b)) ∧
      (p.interaction ≠ .SD → ∀ q iso v, (p.setLowMassMode false).dSigmadq2Nucleus U q iso v =
        (p.setLowMassMode true).dSigmadq2Nucleus U q iso v * iso.helmFormFactor U q ^ 2) := by
  refine ⟨rfl, rfl, rfl, ⟨rfl, rfl, rfl, rfl, rfl, rfl, fun _ => rfl⟩, fun _ _ => rfl, fun h => ?_, fun h q iso v => ?_⟩
  · refine ⟨fun _ _ _ => ?_, fun _ _ => rfl, fun _ _ _ => ?_, fun _ => ?_⟩
    · simp [setLowMassMode, dSigmadq2Nucleus, h]
    · simp [setLowMassMode, sigmaTotalNucleus, h]
    · simp [setLowMassMode, sigmaTotalElectron, h, sigmaElectron]
  · cases hi : p.interaction with
    | SD => exact absurd hi h
    | SI ff q0 m => simp [setLowMassMode, dSigmadq2Nucleus, hi]; ring

/-- C62 (`Set_FormFactor_DM`, accepted names): the differential cross sections are those of a contact interaction times the
documented form factor, with the given mediator mass if that is positive; nothing else changes. -/
theorem C62_form_factor {p : DMParticle} (hp : Reachable U p) (hsi : p.interaction ≠ .SD) (name : String) (m : ℝ)
    (hn : name ∈ ["Contact", "Electric-Dipole", "Long-Range", "General"]) (hm : name = "General" → 0 < m) :
    ∃ p' pc, p.setFormFactorDM name m = .ok p' ∧ p.setFormFactorDM "Contact" m = .ok pc ∧
      p'.spin = p.spin ∧ p'.fractionalDensity = p.fractionalDensity ∧ p'.lowMass = p.lowMass ∧ SameReference U p p' ∧
      ∀ q, ∃ F, documentedFormFactor2 (U.aEM * U.mElectron) m q name = some F ∧
        (∀ iso v, p'.dSigmadq2Nucleus U q iso v = F * pc.dSigmadq2Nucleus U q iso v) ∧
        ∀ v, p'.dSigmadq2Electron U q v = F * pc.dSigmadq2Electron U q v := by
  rcases reachable_kind hp with ⟨h, _⟩ | ⟨ff, m₀, h, _⟩
  · exact absurd h hsi
  have hc : p.setFormFactorDM "Contact" m = .ok { p with interaction := .SI .contact (U.aEM * U.mElectron) m₀ } := by
    simp [setFormFactorDM, h, formFactorOfName]
  simp only [List.mem_cons, List.not_mem_nil, or_false] at hn
  rcases hn with rfl | rfl | rfl | rfl
  · refine ⟨_, _, hc, hc, rfl, rfl, rfl, ⟨rfl, rfl, rfl, rfl, rfl, rfl, fun _ => rfl⟩, fun q => ⟨1, by simp [documentedFormFactor2], ?_, ?_⟩⟩ <;>
      intros <;> ring
  · refine ⟨{ p with interaction := .SI .electricDipole (U.aEM * U.mElectron) m₀ }, _, by simp [setFormFactorDM, h, formFactorOfName], hc,
      rfl, rfl, rfl, ⟨rfl, rfl, rfl, rfl, rfl, rfl, fun _ => rfl⟩, fun q => ⟨_, by simp [documentedFormFactor2]; rfl, ?_, ?_⟩⟩ <;>
      intros <;> simp only [dSigmadq2Nucleus, dSigmadq2Electron, formFactor2] <;> ring
  · refine ⟨{ p with interaction := .SI .longRange (U.aEM * U.mElectron) m₀ }, _, by simp [setFormFactorDM, h, formFactorOfName], hc,
      rfl, rfl, rfl, ⟨rfl, rfl, rfl, rfl, rfl, rfl, fun _ => rfl⟩, fun q => ⟨_, by simp [documentedFormFactor2]; rfl, ?_, ?_⟩⟩ <;>
      intros <;> simp only [dSigmadq2Nucleus, dSigmadq2Electron, formFactor2] <;> ring
  · refine ⟨{ p with interaction := .SI .general (U.aEM * U.mElectron) m }, _,
      by simp [setFormFactorDM, h, formFactorOfName, hm rfl], hc,
      rfl, rfl, rfl, ⟨rfl, rfl, rfl, rfl, rfl, rfl, fun _ => rfl⟩, fun q => ⟨_, by simp [documentedFormFactor2]; rfl, ?_, ?_⟩⟩ <;>
      intros <;> simp only [dSigmadq2Nucleus, dSigmadq2Electron, formFactor2] <;> ring

/-- C62 (`Set_FormFactor_DM`, other names): the program stops. -/
theorem C62_unknown_form_factor (p : DMParticle) (name : String) (m : ℝ)
    (hn : name ∉ ["Contact", "Electric-Dipole", "Long-Range", "General"]) : p.setFormFactorDM name m = .exit := by
  simp only [List.mem_cons, List.not_mem_nil, or_false, not_or] at hn
  unfold setFormFactorDM
  cases p.interaction <;> simp [formFactorOfName, hn]

/-- C62 (`Set_Mediator_Mass`): for a massive mediator it is the same as choosing that mediator mass in `Set_FormFactor_DM`; for any
other form factor no cross section changes. -/
theorem C62_mediator_mass {p : DMParticle} (hsi : p.interaction ≠ .SD) (m : ℝ) :
    ∃ p', p.setMediatorMass m = .ok p' ∧ p'.spin = p.spin ∧ p'.fractionalDensity = p.fractionalDensity ∧
      p'.lowMass = p.lowMass ∧ SameReference U p p' ∧
      ((¬ ∃ q₀ m₀, p.interaction = .SI .general q₀ m₀) → SameCrossSections U p p') ∧
      ((∃ q₀ m₀, p.interaction = .SI .general q₀ m₀) → 0 < m → p.setFormFactorDM "General" m = .ok p') := by
  cases hi : p.interaction with
  | SD => exact absurd hi hsi
  | SI ff q0 m₀ =>
    refine ⟨{ p with interaction := .SI ff q0 m }, by simp [setMediatorMass, hi], rfl, rfl, rfl,
      ⟨rfl, rfl, rfl, rfl, rfl, rfl, fun _ => rfl⟩, fun hg => ?_, ?_⟩
    · have hff : ff ≠ .general := fun e => hg ⟨q0, m₀, by rw [e]⟩
      have hF : ∀ q, formFactor2 ff q0 m q = formFactor2 ff q0 m₀ q := by
        intro q; cases ff <;> simp [formFactor2] at hff ⊢
      have hds : ∀ q iso v, ({ p with interaction := .SI ff q0 m } : DMParticle).dSigmadq2Nucleus U q iso v =
          p.dSigmadq2Nucleus U q iso v := by
        intro q iso v; simp only [dSigmadq2Nucleus, hi, hF]
      refine ⟨hds, fun q v => ?_, fun I iso v => ?_, fun v => ?_⟩
      · simp only [dSigmadq2Electron, hi, hF]
      · simp only [sigmaTotalNucleus, hi, sigmaTotalNucleusBase, hds, hff, if_false]
      · simp only [sigmaTotalElectron, hi, hff, if_false, sigmaElectron]
    · rintro ⟨q₁, m₁, h1⟩ hm
      cases h1
      simp [setFormFactorDM, hi, formFactorOfName, hm]

/-- C62 (`Unfix_Coupling_Ratios`): no observable changes, and from then on the nucleon cross sections are set independently. -/
theorem C62_unfix {p : DMParticle} (hp : Reachable U p) {s : ℝ} (hs : 0 ≤ s) :
    SameObservables U p p.unfixCouplingRatios ∧
    (∃ p', p.unfixCouplingRatios.setSigmaProton U s = .ok p' ∧ p'.sigmaProton U = s ∧ p'.sigmaNeutron U = p.sigmaNeutron U) ∧
    (∃ p', p.unfixCouplingRatios.setSigmaNeutron U s = .ok p' ∧ p'.sigmaNeutron U = s ∧ p'.sigmaProton U = p.sigmaProton U) := by
  have hb := reachable_inv hp
  have hpre : 0 < p.unfixCouplingRatios.prefactor := hb.pre
  have hm : 0 < p.unfixCouplingRatios.mass := hb.mass
  refine ⟨⟨rfl, rfl, rfl, rfl, rfl, rfl, rfl, rfl, rfl, fun _ => rfl, fun _ _ _ => rfl, fun _ _ => rfl, fun _ _ _ => rfl, fun _ => rfl⟩,
    ⟨_, setSigmaProton_unfixed hpre hm hs rfl, ?_, rfl⟩, ⟨_, setSigmaNeutron_unfixed hpre hm hs rfl, ?_, rfl⟩⟩
  · exact cpl_sq hpre hm hs
  · exact cpl_sq hpre hm hs

/-- Non-vacuity for C62: a spin-independent particle of mass 1 with cross section 1. -/
example : ∃ p, Reachable U p ∧ p.interaction ≠ .SD ∧ 0 < p.sigmaProton U := by
  obtain ⟨c, hc0, hc, hmk, hcs⟩ := makeSI_eq (U := U) (m := 1) (s := 1) one_pos zero_le_one
  refine ⟨_, ⟨_, [], makeSI_built one_pos hmk, by simp, rfl⟩, by simp [standard], ?_⟩
  have : ({ standard U 1 1 (.SI .contact (U.aEM * U.mElectron) 0) with fp := c, fn := c } : DMParticle).sigmaProton U = 1 := by
    simpa [sigmaProton, standard] using hcs
  rw [this]; exact one_pos

/-- C51 (isotope constructor): the mass is `A` nucleon masses (one proton mass for `A = 1`), all other arguments are stored, and
charge numbers outside `1 … 118` read outside the table of names. -/
theorem C51_isotope_constructor (z a : ℕ) (abund J sp sn : ℝ) :
    (1 ≤ z → z ≤ 118 → ∃ iso, Isotope.make U z a abund J sp sn = .ok iso ∧ iso.Z = z ∧ iso.A = a ∧ iso.abundance = abund ∧
      iso.spin = J ∧ iso.sp = sp ∧ iso.sn = sn ∧ iso.mass = (if a = 1 then U.mProton else a * U.mNucleon)) ∧
    (z = 0 ∨ 118 < z → Isotope.make U z a abund J sp sn = .ub) := by
  constructor
  · intro h1 h2
    exact ⟨_, by rw [Isotope.make, if_pos ⟨h1, h2⟩], rfl, rfl, rfl, rfl, rfl, rfl, rfl⟩
  · intro h
    rw [Isotope.make, if_neg (by omega)]

end Obscura
