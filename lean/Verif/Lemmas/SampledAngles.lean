import Verif.Lemmas.Sampling
import Verif.Spec.Sampling
import Verif.Props.BaseParticle

/-!
# Helper lemmas: scattering angles fed with uniform random numbers
-/

namespace Obscura
open DMParticle Spec MeasureTheory Filter
open scoped Topology ENNReal

variable {U : Units} {I : Integrator} {R : RootFinder} {p : DMParticle} {iso : Isotope} {v s : ℝ}

/-! ## General consequences of inverse-transform sampling -/

theorem sampledFrom_of_angles {pdf cdf sample : ℝ → Outcome ℝ} (h : AngleDistribution pdf cdf sample) : SampledFrom pdf sample := by
  obtain ⟨f, c, T, hf, hc⟩ := InverseTransform.of_angles h
  refine ⟨fun ξ hξ => ⟨c ξ, T.mem ξ hξ, hc ξ hξ⟩, fun a b ha hab hb => ⟨f, fun x hx => hf x ⟨ha.trans hx.1, hx.2.trans hb⟩, ?_⟩⟩
  rw [← T.chance ha hab hb]
  unfold probability
  congr 1
  ext ξ
  simp only [Set.mem_ofPred_eq]
  refine and_congr_right fun hξ => ?_
  rw [hc ξ hξ]
  constructor
  · rintro ⟨x, hx, h1, h2⟩
    injection hx with hx
    rw [hx]; exact ⟨h1, h2⟩
  · exact fun h => ⟨_, rfl, h⟩

/-- What the angles are in which the differential cross section `D(q)` per total cross section `s` is the density, with `Q` the largest `q²`:
the integral over `q²` of the cross section. -/
theorem share_of_angles {f D : ℝ → ℝ} {Q a b : ℝ} (hQ : 0 < Q) (hab : a ≤ b) (ha : -1 ≤ a) (hb : b ≤ 1)
    (hf : ∀ x ∈ Set.Icc (-1 : ℝ) 1, f x = Q / 2 / s * D (Real.sqrt (Q * (1 - x) / 2))) (g : ℝ → ℝ) :
    ∫ x in a..b, g (Q * (1 - x) / 2) * f x = 1 / s * ∫ y in Q * (1 - b) / 2..Q * (1 - a) / 2, g y * D (Real.sqrt y) := by
  have h1 : ∫ x in a..b, g (Q * (1 - x) / 2) * f x =
      ∫ x in a..b, Q / 2 / s * (g (Q / 2 - Q / 2 * x) * D (Real.sqrt (Q / 2 - Q / 2 * x))) := by
    refine intervalIntegral.integral_congr fun x hx => ?_
    rw [Set.uIcc_of_le hab] at hx
    simp only [hf x ⟨ha.trans hx.1, hx.2.trans hb⟩]
    rw [show Q * (1 - x) / 2 = Q / 2 - Q / 2 * x by ring]
    ring
  rw [h1, intervalIntegral.integral_const_mul]
  have h2 := intervalIntegral.integral_comp_sub_mul (a := a) (b := b) (fun y => g y * D (Real.sqrt y)) (c := Q / 2) (by positivity) (Q / 2)
  rw [h2, smul_eq_mul, show Q / 2 - Q / 2 * a = Q * (1 - a) / 2 by ring, show Q / 2 - Q / 2 * b = Q * (1 - b) / 2 by ring]
  generalize (∫ y in Q * (1 - b) / 2..Q * (1 - a) / 2, g y * D (Real.sqrt y)) = J
  field_simp

/-! ## Which particles have angles -/

/-- The particles with a total cross section are those with an angle distribution. -/
theorem nucleus_angles (hI : I.Exact) (hR : R.Exact) (hm : 0 < p.mass) (hM : 0 < iso.mass) (hJ : 0 ≤ iso.spin) (hv : 0 < v)
    (htot : p.sigmaTotalNucleus U I iso v = .ok s) (hs : s ≠ 0) :
    AngleDistribution (fun c => p.pdfAngleNucleus U I c iso v) (fun c => p.cdfAngleNucleus U I c iso v)
      (fun xi => p.sampleAngleNucleus U I R xi iso v) := by
  cases hl : p.lowMass with
  | false => exact C08_nucleus_heavy hI hR hl hm hM hJ hv htot hs
  | true =>
    cases hi : p.interaction with
    | SD => exact C08_nucleus_SD hi hl
    | SI ff qRef mMed =>
      refine C08_nucleus_SI hi hl ?_
      cases ff with
      | contact => exact Or.inl rfl
      | general =>
        refine Or.inr ⟨rfl, ?_⟩
        rintro rfl
        simp [sigmaTotalNucleus, hi, hl, generalFactor, fdiv] at htot
      | longRange => simp [sigmaTotalNucleus, hi] at htot
      | electricDipole => simp [sigmaTotalNucleus, hi] at htot

theorem electron_angles (htot : p.sigmaTotalElectron U v = .ok s) :
    AngleDistribution (fun c => p.pdfAngleElectron U c v) (fun c => p.cdfAngleElectron U c v)
      (fun xi => p.sampleAngleElectron U xi v) := by
  refine C08_electron ?_
  cases hi : p.interaction with
  | SD => exact Or.inl rfl
  | SI ff qRef mMed =>
    refine Or.inr ⟨ff, qRef, mMed, rfl, ?_⟩
    cases ff with
    | contact => exact Or.inl rfl
    | general =>
      refine Or.inr ⟨rfl, ?_⟩
      rintro rfl
      simp [sigmaTotalElectron, hi, generalFactor, fdiv] at htot
    | longRange => simp [sigmaTotalElectron, hi] at htot
    | electricDipole => simp [sigmaTotalElectron, hi] at htot

/-- The density of the angle is the share of the cross section. -/
theorem nucleus_pdf (hm : 0 < p.mass) (hM : 0 < iso.mass) (hv : 0 < v) (htot : p.sigmaTotalNucleus U I iso v = .ok s) (hs : s ≠ 0)
    {c : ℝ} (hc : c ∈ Set.Icc (-1 : ℝ) 1) :
    p.pdfAngleNucleus U I c iso v = .ok (4 * (reducedMass p.mass iso.mass * v) ^ 2 / 2 / s *
      p.dSigmadq2Nucleus U (Real.sqrt (4 * (reducedMass p.mass iso.mass * v) ^ 2 * (1 - c) / 2)) iso v) := by
  have hmu := reducedMass_pos hm hM
  have base : p.pdfAngleNucleusBaseVal U s c iso v = 4 * (reducedMass p.mass iso.mass * v) ^ 2 / 2 / s *
      p.dSigmadq2Nucleus U (Real.sqrt (4 * (reducedMass p.mass iso.mass * v) ^ 2 * (1 - c) / 2)) iso v := by
    rw [base_pdf_eq hs hv hm hM]
    unfold q2max
    congr 3
    ring
  cases hl : p.lowMass with
  | false =>
    rw [← base]
    cases hi : p.interaction with
    | SD => simp [pdfAngleNucleus, hi, hl, pdfAngleNucleusBase, htot]
    | SI ff qRef mMed =>
      by_cases hff : ff ≠ .contact ∧ ff ≠ .general
      · simp [sigmaTotalNucleus, hi, hff.1, hff.2] at htot
      · simp [pdfAngleNucleus, hi, hl, pdfAngleNucleusBase, htot]
        exact fun h => not_not.1 (not_and.1 hff h)
  | true =>
    cases hi : p.interaction with
    | SD =>
      by_cases hJ : iso.spin = 0
      · simp [sigmaTotalNucleus, hi, hJ] at htot
        exact absurd htot.symm hs
      · have h1 : 4 * reducedMass p.mass iso.mass ^ 2 / Real.pi * (iso.spin + 1) / iso.spin *
            (p.fp * iso.sp + p.fn * iso.sn) ^ 2 = s := by
          simpa [sigmaTotalNucleus, hi, hJ] using htot
        simp only [pdfAngleNucleus, hi, hl, dSigmadq2Nucleus, if_neg hJ]
        simp
        rw [eq_comm, ← h1]
        have h2 : (iso.spin + 1) ≠ 0 := fun h => hs (by rw [← h1, h]; simp)
        have h3 : p.fp * iso.sp + p.fn * iso.sn ≠ 0 := fun h => hs (by rw [← h1, h]; simp)
        have hpi := Real.pi_ne_zero
        field_simp
    | SI ff qRef mMed =>
      refine C08_pdf_is_normalised_dsigma hi hl ?_ hv hm hM hc htot hs
      cases ff with
      | contact => exact Or.inl rfl
      | general =>
        refine Or.inr ⟨rfl, ?_⟩
        rintro rfl
        simp [sigmaTotalNucleus, hi, hl, generalFactor, fdiv] at htot
      | longRange => simp [sigmaTotalNucleus, hi] at htot
      | electricDipole => simp [sigmaTotalNucleus, hi] at htot

theorem electron_pdf (hm : 0 < p.mass) (hv : 0 < v) (htot : p.sigmaTotalElectron U v = .ok s) (hs : s ≠ 0)
    {c : ℝ} (hc : c ∈ Set.Icc (-1 : ℝ) 1) :
    p.pdfAngleElectron U c v = .ok (4 * (reducedMass p.mass U.mElectron * v) ^ 2 / 2 / s *
      p.dSigmadq2Electron U (Real.sqrt (4 * (reducedMass p.mass U.mElectron * v) ^ 2 * (1 - c) / 2)) v) := by
  have hmu := reducedMass_pos hm U.mElectron_pos
  cases hi : p.interaction with
  | SD =>
    have h1 : p.sigmaElectronRef = s := by simpa [sigmaTotalElectron, hi, sigmaElectron] using htot
    simp only [pdfAngleElectron, hi, dSigmadq2Electron, h1]
    congr 1
    field_simp
    norm_num
  | SI ff qRef mMed =>
    cases ff with
    | contact =>
      have h1 : p.sigmaElectronRef = s := by simpa [sigmaTotalElectron, hi, sigmaElectron] using htot
      simp only [pdfAngleElectron, hi, dSigmadq2Electron, h1, formFactor2_contact]
      simp
      field_simp
      norm_num
    | general =>
      have hm0 : mMed ≠ 0 := by
        rintro rfl
        simp [sigmaTotalElectron, hi, generalFactor, fdiv] at htot
      have hQ : 0 ≤ 4 * (reducedMass p.mass U.mElectron * v) ^ 2 := by positivity
      have h1 : p.sigmaElectronRef *
          ((qRef * qRef + mMed * mMed) ^ 2 / mMed / mMed / (mMed * mMed + 4 * (reducedMass p.mass U.mElectron * v) ^ 2)) = s := by
        simpa [sigmaTotalElectron, hi, sigmaElectron, generalFactor_ok hm0 hQ] using htot
      have h2 : p.sigmaElectronRef ≠ 0 := fun h => hs (by rw [← h1, h]; ring)
      have h4 : qRef * qRef + mMed * mMed ≠ 0 := by
        have := mul_self_pos.2 hm0; have := mul_self_nonneg qRef; positivity
      have hd := general_denom_pos (c := c) hm0 hQ hc.2
      have hx : 0 ≤ 4 * (reducedMass p.mass U.mElectron * v) ^ 2 * (1 - c) / 2 := by
        have : 0 ≤ 1 - c := by linarith [hc.2]
        positivity
      have h5 : mMed * mMed + 4 * (reducedMass p.mass U.mElectron * v) ^ 2 ≠ 0 := by
        have := mul_self_pos.2 hm0; positivity
      simp only [pdfAngleElectron, hi, dSigmadq2Electron, formFactor2_general_sqrt hx, pdfAngleGeneral, q2max]
      have h6 : 4 * (reducedMass p.mass U.mElectron * v) ^ 2 * (1 - c) / 2 + mMed * mMed ≠ 0 := by
        have : 4 * (reducedMass p.mass U.mElectron * v) ^ 2 * (1 - c) / 2 + mMed * mMed =
          (2 * (mMed * mMed) + 4 * (reducedMass p.mass U.mElectron * v) ^ 2 * (1 - c)) / 2 := by ring
        rw [this]; positivity
      rw [fdiv_ok (pow_ne_zero 2 hd.ne')]
      simp
      rw [← h1]
      have h7 : 2 * (mMed * mMed) + 4 * (reducedMass p.mass U.mElectron * v) ^ 2 * (1 - c) =
        2 * (4 * (reducedMass p.mass U.mElectron * v) ^ 2 * (1 - c) / 2 + mMed * mMed) := by ring
      rw [h7]
      generalize 4 * (reducedMass p.mass U.mElectron * v) ^ 2 * (1 - c) / 2 + mMed * mMed = D at *
      have h8 : (2 * reducedMass p.mass U.mElectron * v) ^ 2 = 4 * (reducedMass p.mass U.mElectron * v) ^ 2 := by ring
      rw [h8]
      have h9 : 4 * (reducedMass p.mass U.mElectron * v) ^ 2 ≠ 0 := by positivity
      generalize 4 * (reducedMass p.mass U.mElectron * v) ^ 2 = Q at *
      field_simp
    | longRange => simp [sigmaTotalElectron, hi] at htot
    | electricDipole => simp [sigmaTotalElectron, hi] at htot

end Obscura
