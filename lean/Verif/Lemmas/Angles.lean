import Verif.Lemmas.CrossSections

/-!
# Helper lemmas: scattering-angle distributions
-/

namespace Obscura
open DMParticle Spec MeasureTheory

variable {U : Units}

/-- The isotropic distribution. -/
theorem isotropic_distribution :
    AngleDistribution (fun _ => .ok (1 / 2)) (fun c => .ok ((1 + c) / 2)) (fun xi => .ok (2 * xi - 1)) where
  pdf_ok := fun c _ => ⟨1 / 2, rfl, by norm_num⟩
  normalised := ⟨fun _ => 1 / 2, fun _ _ => rfl, by simp; norm_num⟩
  cdf_is_integral := ⟨fun _ => 1 / 2, fun _ _ => rfl, fun c _ => by
    congr 1; simp; ring⟩
  sample_ok := by
    intro ξ hξ
    refine ⟨2 * ξ - 1, ⟨by linarith [hξ.1], by linarith [hξ.2]⟩, rfl, ?_⟩
    congr 1; ring

theorem general_denom_pos {m Q c : ℝ} (hm : m ≠ 0) (hQ : 0 ≤ Q) (hc : c ≤ 1) : 0 < 2 * (m * m) + Q * (1 - c) := by
  have h1 := mul_self_pos.2 hm
  have h2 : 0 ≤ Q * (1 - c) := mul_nonneg hQ (by linarith)
  linarith

theorem general_integral {m Q c : ℝ} (hm : m ≠ 0) (hQ : 0 ≤ Q) (hc : c ∈ Set.Icc (-1 : ℝ) 1) :
    ∫ x in (-1 : ℝ)..c, 2 * (m * m) * (m * m + Q) / (2 * (m * m) + Q * (1 - x)) ^ 2 =
      (1 + c) * (m * m) / (2 * (m * m) + Q * (1 - c)) := by
  have h := intervalIntegral.integral_eq_sub_of_hasDerivAt (a := -1) (b := c)
    (f := fun x => (1 + x) * (m * m) / (2 * (m * m) + Q * (1 - x)))
    (f' := fun x => 2 * (m * m) * (m * m + Q) / (2 * (m * m) + Q * (1 - x)) ^ 2) ?_ ?_
  · rw [h]; simp
  · intro x hx
    rw [Set.uIcc_of_le hc.1] at hx
    have hd := general_denom_pos (c := x) hm hQ (hx.2.trans hc.2)
    have h1 : HasDerivAt (fun x : ℝ => (1 + x) * (m * m)) (m * m) x := by
      simpa using ((hasDerivAt_id' x).const_add 1).mul_const (m * m)
    have h2 : HasDerivAt (fun x : ℝ => 2 * (m * m) + Q * (1 - x)) (-Q) x := by
      have := (((hasDerivAt_id' x).const_sub 1).const_mul Q).const_add (2 * (m * m))
      simpa using this
    refine (h1.div h2 hd.ne').congr_deriv ?_
    congr 1; ring
  · apply ContinuousOn.intervalIntegrable
    intro x hx
    rw [Set.uIcc_of_le hc.1] at hx
    have hd := general_denom_pos (c := x) hm hQ (hx.2.trans hc.2)
    have hd' : (2 * (m * m) + Q * (1 - x)) ^ 2 ≠ 0 := by positivity
    apply ContinuousAt.continuousWithinAt
    fun_prop (disch := assumption)

theorem general_distribution {m Q : ℝ} (hm : m ≠ 0) (hQ : 0 ≤ Q) :
    AngleDistribution (pdfAngleGeneral m Q) (cdfAngleGeneral m Q) (sampleAngleGeneral m Q) := by
  have hm2 := mul_self_pos.2 hm
  have hp : ∀ c ∈ Set.Icc (-1 : ℝ) 1, pdfAngleGeneral m Q c =
      .ok (2 * (m * m) * (m * m + Q) / (2 * (m * m) + Q * (1 - c)) ^ 2) := fun c hc =>
    fdiv_ok (pow_ne_zero 2 (general_denom_pos hm hQ hc.2).ne')
  have hc : ∀ c ∈ Set.Icc (-1 : ℝ) 1, cdfAngleGeneral m Q c =
      .ok ((1 + c) * (m * m) / (2 * (m * m) + Q * (1 - c))) := fun c hc =>
    fdiv_ok (general_denom_pos hm hQ hc.2).ne'
  refine ⟨?_, ⟨_, hp, ?_⟩, ⟨_, hp, ?_⟩, ?_⟩
  · intro c h
    refine ⟨_, hp c h, by positivity⟩
  · rw [general_integral hm hQ (by simp)]
    field_simp; ring
  · intro c h
    rw [hc c h, general_integral hm hQ h]
  · intro ξ hξ
    have hd : 0 < m * m + Q * ξ := by have := mul_nonneg hQ hξ.1; linarith
    have hmem : (m * m * (2 * ξ - 1) + Q * ξ) / (m * m + Q * ξ) ∈ Set.Icc (-1 : ℝ) 1 := by
      constructor
      · rw [le_div_iff₀ hd]; nlinarith [mul_nonneg hQ hξ.1, mul_nonneg hm2.le hξ.1]
      · rw [div_le_one hd]; nlinarith [hξ.2]
    refine ⟨_, hmem, fdiv_ok hd.ne', ?_⟩
    rw [hc _ hmem]
    congr 1
    rw [div_eq_iff (general_denom_pos hm hQ hmem.2).ne']
    generalize hD : m * m + Q * ξ = D at *
    have hQξ : Q * ξ = D - m * m := by linarith
    have hD0 := hd.ne'
    rw [hQξ]
    field_simp
    linear_combination (-2 * m * m * (1 - ξ)) * hQξ

/-- The base-class PDF is the normalised differential cross section; substituting `q² = q²max (1 - cos α)/2`. -/
theorem base_pdf_eq {p : DMParticle} {s c v : ℝ} {iso : Isotope} (hs : s ≠ 0) (hv : 0 < v) (hm : 0 < p.mass)
    (hM : 0 < iso.mass) :
    p.pdfAngleNucleusBaseVal U s c iso v = p.q2max iso.mass v / 2 / s *
      p.dSigmadq2Nucleus U (Real.sqrt (p.q2max iso.mass v / 2 - p.q2max iso.mass v / 2 * c)) iso v := by
  have hmu := reducedMass_pos hm hM
  unfold pdfAngleNucleusBaseVal
  simp only [hs, ne_eq, not_false_eq_true, if_true, reducedMass_comm iso.mass p.mass]
  have h1 : reducedMass p.mass iso.mass * v * Real.sqrt (2 * (1 - c)) =
      Real.sqrt (p.q2max iso.mass v / 2 - p.q2max iso.mass v / 2 * c) := by
    have h2 : p.q2max iso.mass v / 2 - p.q2max iso.mass v / 2 * c =
        (reducedMass p.mass iso.mass * v) ^ 2 * (2 * (1 - c)) := by unfold q2max; ring
    rw [h2, Real.sqrt_mul (sq_nonneg _) (2 * (1 - c)), Real.sqrt_sq (by positivity)]
  rw [h1]
  congr 1
  unfold q2max; ring

theorem base_integral {p : DMParticle} {s c v : ℝ} {iso : Isotope} (hs : s ≠ 0) (hv : 0 < v) (hm : 0 < p.mass)
    (hM : 0 < iso.mass) :
    ∫ x in (-1 : ℝ)..c, p.pdfAngleNucleusBaseVal U s x iso v =
      1 / s * ∫ y in (p.q2max iso.mass v / 2 * (1 - c))..p.q2max iso.mass v, p.dSigmadq2Nucleus U (Real.sqrt y) iso v := by
  have hmu := reducedMass_pos hm hM
  have hQ : p.q2max iso.mass v / 2 ≠ 0 := by unfold q2max; positivity
  simp only [base_pdf_eq hs hv hm hM, intervalIntegral.integral_const_mul]
  have h := intervalIntegral.integral_comp_sub_mul (a := -1) (b := c)
    (fun y => p.dSigmadq2Nucleus U (Real.sqrt y) iso v) hQ (p.q2max iso.mass v / 2)
  rw [h, smul_eq_mul]
  have e1 : p.q2max iso.mass v / 2 - p.q2max iso.mass v / 2 * c = p.q2max iso.mass v / 2 * (1 - c) := by ring
  have e2 : p.q2max iso.mass v / 2 - p.q2max iso.mass v / 2 * (-1) = p.q2max iso.mass v := by ring
  rw [e1, e2]
  have hQ' : p.q2max iso.mass v ≠ 0 := fun h => hQ (by rw [h]; simp)
  generalize (∫ (x : ℝ) in p.q2max iso.mass v / 2 * (1 - c)..p.q2max iso.mass v, dSigmadq2Nucleus U p (√x) iso v) = J
  field_simp

end Obscura
