import Verif.Lemmas.BaseParticle
import Verif.Props.Angles
import Verif.Props.NuclearRange

/-!
# Property C78: every particle class derived from the base class
-/

namespace Obscura
open BaseParticle Spec MeasureTheory

variable {U : Units} {I : Integrator} {R : RootFinder} {mass v param : ℝ} {dN : ℝ → Isotope → ℝ → ℝ → ℝ} {dE : ℝ → ℝ → ℝ → ℝ}
  {iso : Isotope}

/-- C78 (total cross sections). A class that overrides only the differential cross sections has as total cross sections their integrals over
all kinematically allowed momentum transfers, `0 ≤ q² ≤ (2 μ v)²`. -/
theorem C78_total (hI : I.Exact) :
    (derived U I mass dN dE).sigmaTotalNucleus iso v param =
      ∫ q2 in (0 : ℝ)..(2 * (mass * iso.mass / (mass + iso.mass)) * v) ^ 2, dN (Real.sqrt q2) iso v param ∧
    (derived U I mass dN dE).sigmaTotalElectron v param =
      ∫ q2 in (0 : ℝ)..(2 * (mass * U.mElectron / (mass + U.mElectron)) * v) ^ 2, dE (Real.sqrt q2) v param := by
  simp only [derived, sigmaTotalNucleusBase, sigmaTotalElectronBase, hI _ _ _, reducedMass]
  constructor <;> congr 1 <;> ring

/-- C78 (recoil energies). The differential cross section in the recoil energy, integrated over all recoil energies from zero to the
largest possible one, `2 μ² v² / M`, is the total cross section. -/
theorem C78_recoil (hI : I.Exact) (hM : 0 < iso.mass) :
    ∫ ER in (0 : ℝ)..2 * (mass * iso.mass / (mass + iso.mass)) ^ 2 * v ^ 2 / iso.mass,
      (derived U I mass dN dE).dSigmadERNucleus ER iso v param = (derived U I mass dN dE).sigmaTotalNucleus iso v param := by
  rw [(C78_total hI).1]
  have h2 : 2 * iso.mass ≠ 0 := by positivity
  simp only [dSigmadERNucleus, intervalIntegral.integral_const_mul]
  have h := intervalIntegral.integral_comp_mul_left (a := 0)
    (b := 2 * (mass * iso.mass / (mass + iso.mass)) ^ 2 * v ^ 2 / iso.mass)
    (fun y => (derived U I mass dN dE).dSigmadq2Nucleus (Real.sqrt y) iso v param) h2
  rw [h, smul_eq_mul, mul_zero, ← mul_assoc, mul_inv_cancel₀ h2, one_mul]
  congr 1
  field_simp

/-- C78 (angles, nuclei). Whatever the differential cross section, the PDF, CDF and sampler of the base class describe one normalised
distribution, if the total cross section is not zero. -/
theorem C78_nucleus (hI : I.Exact) (hR : R.Exact) (hm : 0 < mass) (hM : 0 < iso.mass) (hv : 0 < v)
    (hpos : ∀ q, 0 ≤ q → 0 ≤ dN q iso v param) (hs : (derived U I mass dN dE).sigmaTotalNucleus iso v param ≠ 0) :
    AngleDistribution (fun c => .ok ((derived U I mass dN dE).pdfAngleNucleus c iso v param))
      (fun c => .ok ((derived U I mass dN dE).cdfAngleNucleus I c iso v param))
      (fun xi => .ok ((derived U I mass dN dE).sampleAngleNucleus I R xi iso v param)) := by
  have hmu := reducedMass_pos hm hM
  refine angle_distribution (f := fun q => dN q iso v param) (K := reducedMass mass iso.mass * v)
    (s := (derived U I mass dN dE).sigmaTotalNucleus iso v param) hI hR hpos (by positivity) ?_ hs ?_ ?_
  · exact hI _ _ _
  · intro x
    unfold pdfAngleNucleus
    simp only [hs, ne_eq, not_false_eq_true, if_true]
    rw [reducedMass_comm iso.mass]
    simp only [derived]
    ring
  · intro c
    rfl

/-- C78 (angles, electrons). -/
theorem C78_electron (hI : I.Exact) (hR : R.Exact) (hm : 0 < mass) (hv : 0 < v)
    (hpos : ∀ q, 0 ≤ q → 0 ≤ dE q v param) (hs : (derived U I mass dN dE).sigmaTotalElectron v param ≠ 0) :
    AngleDistribution (fun c => .ok ((derived U I mass dN dE).pdfAngleElectron U c v param))
      (fun c => .ok ((derived U I mass dN dE).cdfAngleElectron U I c v param))
      (fun xi => .ok ((derived U I mass dN dE).sampleAngleElectron U I R xi v param)) := by
  have hmu := reducedMass_pos hm U.mElectron_pos
  refine angle_distribution (f := fun q => dE q v param) (K := reducedMass mass U.mElectron * v)
    (s := (derived U I mass dN dE).sigmaTotalElectron v param) hI hR hpos (by positivity) ?_ hs ?_ ?_
  · exact hI _ _ _
  · intro x
    unfold pdfAngleElectron
    simp only [hs, ne_eq, not_false_eq_true, if_true]
    rw [reducedMass_comm U.mElectron]
    simp only [derived]
    ring
  · intro c
    rfl

/-- C78 (angle and momentum): the density of the angle is the share of the scatterings with the momentum transfer this angle belongs to,
`q² = 2 μ² v² (1 - cos α)`, per unit of `cos α`. -/
theorem C78_angle_momentum (c : ℝ) :
    ((derived U I mass dN dE).sigmaTotalNucleus iso v param ≠ 0 →
      (derived U I mass dN dE).pdfAngleNucleus c iso v param * (derived U I mass dN dE).sigmaTotalNucleus iso v param =
        2 * (mass * iso.mass / (mass + iso.mass) * v) ^ 2 *
          dN (mass * iso.mass / (mass + iso.mass) * v * Real.sqrt (2 * (1 - c))) iso v param) ∧
    ((derived U I mass dN dE).sigmaTotalElectron v param ≠ 0 →
      (derived U I mass dN dE).pdfAngleElectron U c v param * (derived U I mass dN dE).sigmaTotalElectron v param =
        2 * (mass * U.mElectron / (mass + U.mElectron) * v) ^ 2 *
          dE (mass * U.mElectron / (mass + U.mElectron) * v * Real.sqrt (2 * (1 - c))) v param) := by
  constructor
  · intro h1
    unfold pdfAngleNucleus
    rw [reducedMass_comm iso.mass, if_pos h1]
    have e : (derived U I mass dN dE).dSigmadq2Nucleus = dN := rfl
    have e' : (derived U I mass dN dE).mass = mass := rfl
    rw [e, e']
    generalize (derived U I mass dN dE).sigmaTotalNucleus iso v param = s at *
    simp only [reducedMass]
    generalize mass * iso.mass / (mass + iso.mass) = μ
    field_simp
    ring
  · intro h1
    unfold pdfAngleElectron
    rw [reducedMass_comm U.mElectron, if_pos h1]
    have e : (derived U I mass dN dE).dSigmadq2Electron = dE := rfl
    have e' : (derived U I mass dN dE).mass = mass := rfl
    rw [e, e']
    generalize (derived U I mass dN dE).sigmaTotalElectron v param = s at *
    simp only [reducedMass]
    generalize mass * U.mElectron / (mass + U.mElectron) = μ
    field_simp
    ring

/-- C78 fails without a cross section: for a particle that does not scatter — for instance an object of the base class — the PDF is
zero everywhere while the CDF at one is still one. -/
theorem C78_fails_no_scattering :
    (∀ c, (plain U I mass).pdfAngleNucleus c iso v param = 0) ∧ (plain U I mass).cdfAngleNucleus I 1 iso v param = 1 ∧
    (∀ c, (plain U I mass).pdfAngleElectron U c v param = 0) ∧ (plain U I mass).cdfAngleElectron U I 1 v param = 1 ∧
    ¬ AngleDistribution (fun c => .ok ((plain U I mass).pdfAngleNucleus c iso v param))
      (fun c => .ok ((plain U I mass).cdfAngleNucleus I c iso v param))
      (fun xi => .ok ((plain U I mass).sampleAngleNucleus I R xi iso v param)) := by
  have h1 : ∀ c, (plain U I mass).pdfAngleNucleus c iso v param = 0 := by
    intro c; unfold pdfAngleNucleus; simp [plain, derived]
  have h2 : ∀ c, (plain U I mass).pdfAngleElectron U c v param = 0 := by
    intro c; unfold pdfAngleElectron; simp [plain, derived]
  refine ⟨h1, ?_, h2, ?_, ?_⟩
  · unfold cdfAngleNucleus; rw [if_neg (by norm_num), if_pos le_rfl]
  · unfold cdfAngleElectron; rw [if_neg (by norm_num), if_pos le_rfl]
  · intro h
    obtain ⟨f, hf, h3⟩ := h.normalised
    rw [intervalIntegral.integral_congr (g := fun _ => 0)] at h3
    · simp at h3
    · intro c hc
      rw [Set.uIcc_of_le (by norm_num)] at hc
      have := hf c hc
      rw [h1] at this
      injection this with this
      exact this.symm

/-- Non-vacuity: a particle class with a constant differential cross section, for nuclei and electrons. -/
example : ∃ I : Integrator, I.Exact ∧ (derived Units.sample I 1 (fun _ _ _ _ => 1) (fun _ _ _ => 1)).sigmaTotalNucleus sampleIsotope 1 0 ≠ 0 ∧
    (derived Units.sample I 1 (fun _ _ _ _ => 1) (fun _ _ _ => 1)).sigmaTotalElectron 1 0 ≠ 0 := by
  refine ⟨exactIntegrator, exactIntegrator_exact, ?_, ?_⟩
  · rw [(C78_total exactIntegrator_exact).1]
    norm_num [sampleIsotope, Units.sample]
  · rw [(C78_total (iso := sampleIsotope) exactIntegrator_exact).2]
    norm_num [Units.sample]

/-- C78 (the class for spin-independent interactions, nuclear form factor included, is such a class): its angle functions for nuclei are those
every derived class inherits. -/
theorem C78_standard {p : DMParticle} {ff : FormFactor} {qRef mMed : ℝ} (hi : p.interaction = .SI ff qRef mMed)
    (hff : ff = .contact ∨ ff = .general) (hl : p.lowMass = false) (c : ℝ) :
    p.sigmaTotalNucleus U I iso v =
      .ok ((derived U I p.mass (fun q t w _ => p.dSigmadq2Nucleus U q t w) dE).sigmaTotalNucleus iso v param) ∧
    p.pdfAngleNucleus U I c iso v =
      .ok ((derived U I p.mass (fun q t w _ => p.dSigmadq2Nucleus U q t w) dE).pdfAngleNucleus c iso v param) ∧
    p.cdfAngleNucleus U I c iso v =
      .ok ((derived U I p.mass (fun q t w _ => p.dSigmadq2Nucleus U q t w) dE).cdfAngleNucleus I c iso v param) ∧
    p.sampleAngleNucleus U I R c iso v =
      .ok ((derived U I p.mass (fun q t w _ => p.dSigmadq2Nucleus U q t w) dE).sampleAngleNucleus I R c iso v param) := by
  have h1 : p.sigmaTotalNucleus U I iso v =
      .ok ((derived U I p.mass (fun q t w _ => p.dSigmadq2Nucleus U q t w) dE).sigmaTotalNucleus iso v param) := by
    rcases hff with rfl | rfl <;> simp only [DMParticle.sigmaTotalNucleus, hi, hl] <;> simp <;> rfl
  have h2 : ∀ c, p.pdfAngleNucleusBaseVal U
      ((derived U I p.mass (fun q t w _ => p.dSigmadq2Nucleus U q t w) dE).sigmaTotalNucleus iso v param) c iso v =
      (derived U I p.mass (fun q t w _ => p.dSigmadq2Nucleus U q t w) dE).pdfAngleNucleus c iso v param := fun _ => rfl
  refine ⟨h1, ?_, ?_, ?_⟩
  · rcases hff with rfl | rfl <;>
      simp [DMParticle.pdfAngleNucleus, hi, hl, DMParticle.pdfAngleNucleusBase, h1, h2]
  · have h3 : p.cdfAngleNucleusBase U I c iso v =
        .ok ((derived U I p.mass (fun q t w _ => p.dSigmadq2Nucleus U q t w) dE).cdfAngleNucleus I c iso v param) := by
      simp only [DMParticle.cdfAngleNucleusBase, h1, h2, Outcome.bind_ok, cdfAngleNucleus]
      split_ifs <;> rfl
    rcases hff with rfl | rfl <;> simp [DMParticle.cdfAngleNucleus, hi, hl, h3]
  · have h3 : p.sampleAngleNucleusBase U I R c iso v =
        .ok ((derived U I p.mass (fun q t w _ => p.dSigmadq2Nucleus U q t w) dE).sampleAngleNucleus I R c iso v param) := by
      simp only [DMParticle.sampleAngleNucleusBase, h1, Outcome.bind_ok]
      rfl
    rcases hff with rfl | rfl <;> simp [DMParticle.sampleAngleNucleus, hi, hl, h3]

/-- C78 (changing the mass). A class whose reference cross sections can be set independently keeps all of them when the mass is changed,
however they depend on the mass internally. -/
theorem C78_set_mass {σ : Type} {C : CrossSectionClass σ}
    (hm : ∀ p m, C.mass (C.assignMass p m) = m)
    (hp : ∀ p s, C.sigmaProton (C.setSigmaProton p s) = s ∧ C.mass (C.setSigmaProton p s) = C.mass p)
    (hn : ∀ p s, C.sigmaNeutron (C.setSigmaNeutron p s) = s ∧ C.sigmaProton (C.setSigmaNeutron p s) = C.sigmaProton p ∧
      C.mass (C.setSigmaNeutron p s) = C.mass p)
    (he : ∀ p s, C.sigmaElectron (C.setSigmaElectron p s) = s ∧ C.sigmaProton (C.setSigmaElectron p s) = C.sigmaProton p ∧
      C.sigmaNeutron (C.setSigmaElectron p s) = C.sigmaNeutron p ∧ C.mass (C.setSigmaElectron p s) = C.mass p) (p : σ) (m : ℝ) :
    C.mass (C.setMass p m) = m ∧ C.sigmaProton (C.setMass p m) = C.sigmaProton p ∧
    C.sigmaNeutron (C.setMass p m) = C.sigmaNeutron p ∧ C.sigmaElectron (C.setMass p m) = C.sigmaElectron p := by
  unfold CrossSectionClass.setMass
  simp [hm, hp, hn, he]

/-- Non-vacuity: couplings from which the cross sections follow with a factor that depends on the mass. -/
example : ∃ C : CrossSectionClass (ℝ × ℝ × ℝ × ℝ),
    (∀ p m, C.mass (C.assignMass p m) = m) ∧
    (∀ p s, C.sigmaProton (C.setSigmaProton p s) = s ∧ C.mass (C.setSigmaProton p s) = C.mass p) ∧
    (∀ p s, C.sigmaNeutron (C.setSigmaNeutron p s) = s ∧ C.sigmaProton (C.setSigmaNeutron p s) = C.sigmaProton p ∧
      C.mass (C.setSigmaNeutron p s) = C.mass p) ∧
    (∀ p s, C.sigmaElectron (C.setSigmaElectron p s) = s ∧ C.sigmaProton (C.setSigmaElectron p s) = C.sigmaProton p ∧
      C.sigmaNeutron (C.setSigmaElectron p s) = C.sigmaNeutron p ∧ C.mass (C.setSigmaElectron p s) = C.mass p) ∧
    C.sigmaProton (C.assignMass (1, 1, 1, 1) 2) ≠ C.sigmaProton (1, 1, 1, 1) := by
  refine ⟨⟨fun x => x.1, fun x m => (m, x.2), fun x => x.2.1 * (x.1 ^ 2 + 1), fun x => x.2.2.1 * (x.1 ^ 2 + 1), fun x => x.2.2.2 * (x.1 ^ 2 + 1),
    fun x s => (x.1, s / (x.1 ^ 2 + 1), x.2.2), fun x s => (x.1, x.2.1, s / (x.1 ^ 2 + 1), x.2.2.2),
    fun x s => (x.1, x.2.1, x.2.2.1, s / (x.1 ^ 2 + 1))⟩, fun _ _ => rfl, fun p s => ?_, fun p s => ?_, fun p s => ?_, by norm_num⟩
  all_goals
    have : p.1 ^ 2 + 1 ≠ 0 := by positivity
    simp [this]

end Obscura
