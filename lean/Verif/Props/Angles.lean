import Verif.Lemmas.Angles
import Verif.Props.CrossSections

/-!
# Property C08: scattering angles
-/

namespace Obscura
open DMParticle Spec MeasureTheory

variable {U : Units}

/-- C08 (nuclei, low-mass mode): PDF, CDF and sampler describe one normalised distribution on `[-1, 1]`, for every
spin-independent contact or massive-mediator interaction, every isotope and speed. -/
theorem C08_nucleus_SI {p : DMParticle} {ff : FormFactor} {qRef mMed : ℝ} {I : Integrator} {R : RootFinder}
    {iso : Isotope} {v : ℝ} (hi : p.interaction = .SI ff qRef mMed) (hl : p.lowMass = true)
    (hff : ff = .contact ∨ (ff = .general ∧ mMed ≠ 0)) :
    AngleDistribution (fun c => p.pdfAngleNucleus U I c iso v) (fun c => p.cdfAngleNucleus U I c iso v)
      (fun xi => p.sampleAngleNucleus U I R xi iso v) := by
  rcases hff with rfl | ⟨rfl, hm⟩
  · simpa [pdfAngleNucleus, cdfAngleNucleus, sampleAngleNucleus, hi, hl] using isotropic_distribution
  · simpa [pdfAngleNucleus, cdfAngleNucleus, sampleAngleNucleus, hi, hl] using
      general_distribution (Q := p.q2max iso.mass v) hm (by unfold q2max; positivity)

/-- C08 (nuclei, spin-dependent, low-mass mode). -/
theorem C08_nucleus_SD {p : DMParticle} {I : Integrator} {R : RootFinder} {iso : Isotope} {v : ℝ}
    (hi : p.interaction = .SD) (hl : p.lowMass = true) :
    AngleDistribution (fun c => p.pdfAngleNucleus U I c iso v) (fun c => p.cdfAngleNucleus U I c iso v)
      (fun xi => p.sampleAngleNucleus U I R xi iso v) := by
  simpa [pdfAngleNucleus, cdfAngleNucleus, sampleAngleNucleus, hi, hl] using isotropic_distribution

/-- C08 (electrons). -/
theorem C08_electron {p : DMParticle} {v : ℝ}
    (h : p.interaction = .SD ∨ ∃ ff qRef mMed, p.interaction = .SI ff qRef mMed ∧
      (ff = .contact ∨ (ff = .general ∧ mMed ≠ 0))) :
    AngleDistribution (fun c => p.pdfAngleElectron U c v) (fun c => p.cdfAngleElectron U c v)
      (fun xi => p.sampleAngleElectron U xi v) := by
  rcases h with hi | ⟨ff, qRef, mMed, hi, rfl | ⟨rfl, hm⟩⟩
  · simpa [pdfAngleElectron, cdfAngleElectron, sampleAngleElectron, hi] using isotropic_distribution
  · simpa [pdfAngleElectron, cdfAngleElectron, sampleAngleElectron, hi] using isotropic_distribution
  · simpa [pdfAngleElectron, cdfAngleElectron, sampleAngleElectron, hi] using
      general_distribution (Q := p.q2max U.mElectron v) hm (by unfold q2max; positivity)

/-- C08 (nuclei, nuclear form factor included): the generic implementation. With an exact quadrature and root finder,
PDF, CDF and sampler describe one normalised distribution whenever the total cross section is not zero. -/
theorem C08_nucleus_heavy {p : DMParticle} {I : Integrator} {R : RootFinder} {iso : Isotope} {v s : ℝ}
    (hI : I.Exact) (hR : R.Exact) (hl : p.lowMass = false) (hm : 0 < p.mass) (hM : 0 < iso.mass) (hJ : 0 ≤ iso.spin)
    (hv : 0 < v) (htot : p.sigmaTotalNucleus U I iso v = .ok s) (hs : s ≠ 0) :
    AngleDistribution (fun c => p.pdfAngleNucleus U I c iso v) (fun c => p.cdfAngleNucleus U I c iso v)
      (fun xi => p.sampleAngleNucleus U I R xi iso v) := by
  -- the total cross section is the integral of the differential one
  have hs_int : s = ∫ y in (0 : ℝ)..p.q2max iso.mass v, p.dSigmadq2Nucleus U (Real.sqrt y) iso v := by
    cases hi : p.interaction with
    | SD =>
      have := (C07_total_SD (U := U) (I := I) (iso := iso) hi hv.ne' hm).1
      rw [htot] at this
      injection this
    | SI ff qRef mMed =>
      by_cases hff : ff = .contact ∨ ff = .general
      · have := C06_total_nucleus_heavy (U := U) (iso := iso) (v := v) hI hi hl hff
        rw [htot] at this
        injection this
      · push Not at hff
        simp [sigmaTotalNucleus, hi, hff.1, hff.2] at htot
  have hpos : 0 ≤ s := by
    rw [hs_int]
    exact intervalIntegral.integral_nonneg (by unfold q2max; positivity) fun y _ => (C09_dsigma_nonneg hJ).1
  have e1 : ∀ c, p.pdfAngleNucleus U I c iso v = .ok (p.pdfAngleNucleusBaseVal U s c iso v) := by
    intro c
    cases hi : p.interaction with
    | SD => simp [pdfAngleNucleus, hi, hl, pdfAngleNucleusBase, htot]
    | SI ff qRef mMed =>
      by_cases hff : ff ≠ .contact ∧ ff ≠ .general
      · simp [sigmaTotalNucleus, hi, hff.1, hff.2] at htot
      · simp [pdfAngleNucleus, hi, hl, pdfAngleNucleusBase, htot]
        exact fun h => not_not.1 (not_and.1 hff h)
  have e2 : ∀ c, p.cdfAngleNucleus U I c iso v = .ok (p.cdfAngleNucleusBaseVal U I s c iso v) := by
    intro c
    have : p.cdfAngleNucleusBase U I c iso v = .ok (p.cdfAngleNucleusBaseVal U I s c iso v) := by
      simp only [cdfAngleNucleusBase, htot, cdfAngleNucleusBaseVal, Outcome.bind_ok]
      split_ifs <;> rfl
    cases hi : p.interaction with
    | SD => simp [cdfAngleNucleus, hi, hl, this]
    | SI ff qRef mMed =>
      by_cases hff : ff ≠ .contact ∧ ff ≠ .general
      · simp [sigmaTotalNucleus, hi, hff.1, hff.2] at htot
      · simp [cdfAngleNucleus, hi, hl, this]
        exact fun h => not_not.1 (not_and.1 hff h)
  have e3 : ∀ xi, p.sampleAngleNucleus U I R xi iso v =
      .ok (R (fun c => xi - p.cdfAngleNucleusBaseVal U I s c iso v) (-1) 1) := by
    intro xi
    cases hi : p.interaction with
    | SD => simp [sampleAngleNucleus, hi, hl, sampleAngleNucleusBase, htot]
    | SI ff qRef mMed =>
      by_cases hff : ff ≠ .contact ∧ ff ≠ .general
      · simp [sigmaTotalNucleus, hi, hff.1, hff.2] at htot
      · simp [sampleAngleNucleus, hi, hl, sampleAngleNucleusBase, htot]
        exact fun h => not_not.1 (not_and.1 hff h)
  have hone : ∫ x in (-1 : ℝ)..1, p.pdfAngleNucleusBaseVal U s x iso v = 1 := by
    rw [base_integral hs hv hm hM, sub_self, mul_zero, ← hs_int]
    field_simp
  have hcdf : ∀ c ∈ Set.Icc (-1 : ℝ) 1, p.cdfAngleNucleusBaseVal U I s c iso v =
      ∫ x in (-1 : ℝ)..c, p.pdfAngleNucleusBaseVal U s x iso v := by
    intro c hc
    unfold cdfAngleNucleusBaseVal
    split_ifs with h1 h2
    · have : c = -1 := le_antisymm h1 hc.1
      rw [this, intervalIntegral.integral_same]
    · have : c = 1 := le_antisymm hc.2 h2
      rw [this, hone]
    · rw [hI]
  refine ⟨?_, ⟨_, fun c _ => e1 c, hone⟩, ⟨_, fun c _ => e1 c, ?_⟩, ?_⟩
  · intro c _
    refine ⟨_, e1 c, ?_⟩
    rw [base_pdf_eq hs hv hm hM]
    have := (C09_dsigma_nonneg (U := U) (p := p) (v := v)
      (q := Real.sqrt (p.q2max iso.mass v / 2 - p.q2max iso.mass v / 2 * c)) hJ).1
    have hQ : 0 ≤ p.q2max iso.mass v := by unfold q2max; positivity
    positivity
  · intro c hc
    simp only [e2, hcdf c hc]
  · intro ξ hξ
    have hcont : ContinuousOn (fun c => ξ - p.cdfAngleNucleusBaseVal U I s c iso v) (Set.Icc (-1) 1) := by
      refine continuousOn_const.sub ?_
      have hint : IntervalIntegrable (fun x => p.pdfAngleNucleusBaseVal U s x iso v) volume (-1) 1 :=
        intervalIntegral.intervalIntegrable_of_integral_ne_zero (by rw [hone]; exact one_ne_zero)
      have h1 : ContinuousOn (fun c => ∫ x in (-1 : ℝ)..c, p.pdfAngleNucleusBaseVal U s x iso v) (Set.Icc (-1) 1) := by
        have := intervalIntegral.continuousOn_primitive_interval (a := -1) (b := 1)
          (f := fun x => p.pdfAngleNucleusBaseVal U s x iso v) (μ := volume)
          ((intervalIntegrable_iff_integrableOn_Icc_of_le (by norm_num)).1 hint |>.mono_set (by
            rw [Set.uIcc_of_le (by norm_num)]))
        rwa [Set.uIcc_of_le (by norm_num)] at this
      exact h1.congr fun c hc => hcdf c hc
    have hleft : p.cdfAngleNucleusBaseVal U I s (-1) iso v = 0 := by simp [cdfAngleNucleusBaseVal]
    have hright : p.cdfAngleNucleusBaseVal U I s 1 iso v = 1 := by
      have : ¬ ((1 : ℝ) ≤ -1) := by norm_num
      simp [cdfAngleNucleusBaseVal, this]
    have hroot := hR (fun c => ξ - p.cdfAngleNucleusBaseVal U I s c iso v) (-1) 1 (by norm_num)
      (by simp only [hleft, hright]; nlinarith [hξ.1, hξ.2]) hcont
    refine ⟨_, hroot.1, e3 ξ, ?_⟩
    simp only [e2]
    congr 1
    have := hroot.2
    linarith

/-- C08: in low-mass mode the closed-form PDF is the normalised differential cross section at the momentum transfer
`q² = q²max (1 - cos α)/2`, i.e. the angle and momentum descriptions of one scattering event agree. -/
theorem C08_pdf_is_normalised_dsigma {p : DMParticle} {ff : FormFactor} {qRef mMed c s v : ℝ} {I : Integrator}
    {iso : Isotope} (hi : p.interaction = .SI ff qRef mMed) (hl : p.lowMass = true)
    (hff : ff = .contact ∨ (ff = .general ∧ mMed ≠ 0)) (hv : 0 < v) (hm : 0 < p.mass) (hM : 0 < iso.mass)
    (hc : c ∈ Set.Icc (-1 : ℝ) 1) (htot : p.sigmaTotalNucleus U I iso v = .ok s) (hs : s ≠ 0) :
    p.pdfAngleNucleus U I c iso v = .ok (4 * (reducedMass p.mass iso.mass * v) ^ 2 / 2 / s *
      p.dSigmadq2Nucleus U (Real.sqrt (4 * (reducedMass p.mass iso.mass * v) ^ 2 * (1 - c) / 2)) iso v) := by
  have hmu := reducedMass_pos hm hM
  have hpi := Real.pi_ne_zero
  rcases hff with rfl | ⟨rfl, hm0⟩
  · have h1 : reducedMass p.mass iso.mass ^ 2 / Real.pi * (p.fp * iso.Z + p.fn * iso.neutrons) ^ 2 = s := by
      simpa [sigmaTotalNucleus, hi, hl] using htot
    have h2 : (p.fp * iso.Z + p.fn * iso.neutrons) ^ 2 ≠ 0 := fun h => hs (by rw [← h1, h, mul_zero])
    simp only [pdfAngleNucleus, hi, hl, dSigmadq2Nucleus, formFactor2_contact, ← h1]
    simp
    have h3 : p.fp * iso.Z + p.fn * iso.neutrons ≠ 0 := fun h => h2 (by rw [h]; ring)
    field_simp
  · have hQ : 0 ≤ 4 * (reducedMass p.mass iso.mass * v) ^ 2 := by positivity
    have h1 : reducedMass p.mass iso.mass ^ 2 / Real.pi * (p.fp * iso.Z + p.fn * iso.neutrons) ^ 2 *
        ((qRef * qRef + mMed * mMed) ^ 2 / mMed / mMed / (mMed * mMed + 4 * (reducedMass p.mass iso.mass * v) ^ 2))
          = s := by
      simpa [sigmaTotalNucleus, hi, hl, generalFactor_ok hm0 hQ] using htot
    have h2 : p.fp * iso.Z + p.fn * iso.neutrons ≠ 0 := fun h => hs (by rw [← h1, h]; ring)
    have h4 : qRef * qRef + mMed * mMed ≠ 0 := by
      have := mul_self_pos.2 hm0; have := mul_self_nonneg qRef; positivity
    have hd := general_denom_pos (c := c) hm0 hQ hc.2
    have hx : 0 ≤ 4 * (reducedMass p.mass iso.mass * v) ^ 2 * (1 - c) / 2 := by
      have : 0 ≤ 1 - c := by linarith [hc.2]
      positivity
    have h5 : mMed * mMed + 4 * (reducedMass p.mass iso.mass * v) ^ 2 ≠ 0 := by
      have := mul_self_pos.2 hm0; positivity
    simp only [pdfAngleNucleus, hi, hl, dSigmadq2Nucleus, formFactor2_general_sqrt hx, pdfAngleGeneral, q2max]
    have h6 : 4 * (reducedMass p.mass iso.mass * v) ^ 2 * (1 - c) / 2 + mMed * mMed ≠ 0 := by
      have : 4 * (reducedMass p.mass iso.mass * v) ^ 2 * (1 - c) / 2 + mMed * mMed =
        (2 * (mMed * mMed) + 4 * (reducedMass p.mass iso.mass * v) ^ 2 * (1 - c)) / 2 := by ring
      rw [this]; positivity
    rw [fdiv_ok (pow_ne_zero 2 hd.ne')]
    simp
    rw [← h1]
    have h7 : 2 * (mMed * mMed) + 4 * (reducedMass p.mass iso.mass * v) ^ 2 * (1 - c) =
      2 * (4 * (reducedMass p.mass iso.mass * v) ^ 2 * (1 - c) / 2 + mMed * mMed) := by ring
    rw [h7]
    generalize 4 * (reducedMass p.mass iso.mass * v) ^ 2 * (1 - c) / 2 + mMed * mMed = D at *
    generalize hE : mMed * mMed + 4 * (reducedMass p.mass iso.mass * v) ^ 2 = E at *
    field_simp

/-- C08 (error branch): the two infrared-divergent form factors are rejected by all six functions. -/
theorem C08_divergent_rejected {p : DMParticle} {ff : FormFactor} {qRef mMed : ℝ} {I : Integrator} {R : RootFinder}
    {iso : Isotope} (hi : p.interaction = .SI ff qRef mMed) (hff : ff = .longRange ∨ ff = .electricDipole) (x v : ℝ) :
    p.pdfAngleNucleus U I x iso v = .exit ∧ p.cdfAngleNucleus U I x iso v = .exit ∧
    p.sampleAngleNucleus U I R x iso v = .exit ∧ p.pdfAngleElectron U x v = .exit ∧
    p.cdfAngleElectron U x v = .exit ∧ p.sampleAngleElectron U x v = .exit := by
  rcases hff with rfl | rfl <;>
    simp [pdfAngleNucleus, cdfAngleNucleus, sampleAngleNucleus, pdfAngleElectron, cdfAngleElectron,
      sampleAngleElectron, hi]

/-- Non-vacuity: a reachable particle with a massive mediator. -/
example : ∃ p : DMParticle, Reachable Units.sample p ∧ p.lowMass = true ∧
    p.interaction = .SI .general (Units.sample.aEM * Units.sample.mElectron) 2 := by
  obtain ⟨c, _, hc, h, _⟩ := makeSI_eq (U := Units.sample) (m := 1) (s := 1) one_pos zero_le_one
  refine ⟨_, ⟨_, [.setLowMassMode true, .setFormFactorDM "General" 2], makeSI_built one_pos h, by simp [ValidOp], rfl⟩,
    rfl, ?_⟩
  simp

/-- Non-vacuity of the root-finder contract: it can be met. -/
theorem RootFinder.exists_exact : ∃ R : RootFinder, R.Exact := by
  classical
  refine ⟨fun f a b => if h : ∃ r ∈ Set.Icc a b, f r = 0 then h.choose else a, fun f a b hab hs hc => ?_⟩
  have : ∃ r ∈ Set.Icc a b, f r = 0 := by
    rcases mul_nonpos_iff.1 hs with ⟨h1, h2⟩ | ⟨h1, h2⟩
    · obtain ⟨r, hr, h⟩ := intermediate_value_Icc' hab hc ⟨h2, h1⟩; exact ⟨r, hr, h⟩
    · obtain ⟨r, hr, h⟩ := intermediate_value_Icc hab hc ⟨h1, h2⟩; exact ⟨r, hr, h⟩
  simp only [this, dif_pos]
  exact this.choose_spec

end Obscura
