import Verif.Lemmas.SampledAngles
import Verif.Spec.LimitTolerance
import Mathlib.Probability.Independence.InfinitePi

/-!
# Property C115: sampled scattering angles follow the announced distribution
-/

namespace Obscura
open DMParticle Spec MeasureTheory Filter
open scoped Topology ENNReal

variable {U : Units} {I : Integrator} {R : RootFinder} {p : DMParticle} {iso : Isotope} {v s : ℝ}

/-- C115 (nuclei): whenever there is a total cross section, the sampled cosine of the scattering angle lies between any two values with the
probability given by the integral of the PDF. -/
theorem C115_nucleus (hI : I.Exact) (hR : R.Exact) (hm : 0 < p.mass) (hM : 0 < iso.mass) (hJ : 0 ≤ iso.spin) (hv : 0 < v)
    (htot : p.sigmaTotalNucleus U I iso v = .ok s) (hs : s ≠ 0) :
    SampledFrom (fun c => p.pdfAngleNucleus U I c iso v) (fun xi => p.sampleAngleNucleus U I R xi iso v) :=
  sampledFrom_of_angles (nucleus_angles hI hR hm hM hJ hv htot hs)

/-- C115 (electrons). -/
theorem C115_electron (htot : p.sigmaTotalElectron U v = .ok s) :
    SampledFrom (fun c => p.pdfAngleElectron U c v) (fun xi => p.sampleAngleElectron U xi v) :=
  sampledFrom_of_angles (electron_angles htot)

/-- C115 (every class derived from the base class, nuclei and electrons). -/
theorem C115_base {mass param : ℝ} {dN : ℝ → Isotope → ℝ → ℝ → ℝ} {dE : ℝ → ℝ → ℝ → ℝ} (hI : I.Exact) (hR : R.Exact) (hm : 0 < mass)
    (hv : 0 < v) :
    (0 < iso.mass → (∀ q, 0 ≤ q → 0 ≤ dN q iso v param) → (BaseParticle.derived U I mass dN dE).sigmaTotalNucleus iso v param ≠ 0 →
      SampledFrom (fun c => .ok ((BaseParticle.derived U I mass dN dE).pdfAngleNucleus c iso v param))
        (fun xi => .ok ((BaseParticle.derived U I mass dN dE).sampleAngleNucleus I R xi iso v param))) ∧
    ((∀ q, 0 ≤ q → 0 ≤ dE q v param) → (BaseParticle.derived U I mass dN dE).sigmaTotalElectron v param ≠ 0 →
      SampledFrom (fun c => .ok ((BaseParticle.derived U I mass dN dE).pdfAngleElectron U c v param))
        (fun xi => .ok ((BaseParticle.derived U I mass dN dE).sampleAngleElectron U I R xi v param))) :=
  ⟨fun hM hpos hs => sampledFrom_of_angles (C78_nucleus hI hR hm hM hv hpos hs),
    fun hpos hs => sampledFrom_of_angles (C78_electron hI hR hm hv hpos hs)⟩

/-- C115 (recoil energies): the recoil energy of the nucleus, `E = E_max (1 - cos α) / 2`, computed from the sampled angle, lies between `E₁` and
`E₂` with the probability given by the recoil spectrum: the integral of `dσ/dE` from `E₁` to `E₂`, divided by the total cross section. -/
theorem C115_recoil (hI : I.Exact) (hR : R.Exact) (hm : 0 < p.mass) (hM : 0 < iso.mass) (hJ : 0 ≤ iso.spin) (hv : 0 < v)
    (htot : p.sigmaTotalNucleus U I iso v = .ok s) (hs : s ≠ 0) {E₁ E₂ : ℝ} (h0 : 0 ≤ E₁) (h12 : E₁ ≤ E₂)
    (h2 : E₂ ≤ maximumNuclearRecoilEnergy v p.mass iso.mass) :
    probability (fun ξ => ∃ c, p.sampleAngleNucleus U I R ξ iso v = .ok c ∧
        E₁ ≤ maximumNuclearRecoilEnergy v p.mass iso.mass * (1 - c) / 2 ∧
        maximumNuclearRecoilEnergy v p.mass iso.mass * (1 - c) / 2 ≤ E₂) =
      ENNReal.ofReal ((∫ E in E₁..E₂, p.dSigmadERNucleus U E iso v) / s) := by
  have hmu := reducedMass_pos hm hM
  set Q := 4 * (reducedMass p.mass iso.mass * v) ^ 2 with hQdef
  have hQ : 0 < Q := by positivity
  have hE : 0 < maximumNuclearRecoilEnergy v p.mass iso.mass := by unfold maximumNuclearRecoilEnergy; positivity
  have hEQ : Q = 2 * iso.mass * maximumNuclearRecoilEnergy v p.mass iso.mass := by
    rw [hQdef]; unfold maximumNuclearRecoilEnergy; field_simp; ring
  set M := maximumNuclearRecoilEnergy v p.mass iso.mass with hMdef
  have ha : -1 ≤ 1 - 2 * E₂ / M := by
    have : E₂ / M ≤ 1 := (div_le_one hE).2 h2
    have e : 2 * E₂ / M = 2 * (E₂ / M) := by ring
    linarith
  have hab : 1 - 2 * E₂ / M ≤ 1 - 2 * E₁ / M := by
    have : 2 * E₁ / M ≤ 2 * E₂ / M := by gcongr
    linarith
  have hb : 1 - 2 * E₁ / M ≤ 1 := by
    have : 0 ≤ 2 * E₁ / M := by positivity
    linarith
  obtain ⟨f, hf, hprob⟩ := (C115_nucleus hI hR hm hM hJ hv htot hs).interval _ _ ha hab hb
  have hset : probability (fun ξ => ∃ c, p.sampleAngleNucleus U I R ξ iso v = .ok c ∧ E₁ ≤ M * (1 - c) / 2 ∧ M * (1 - c) / 2 ≤ E₂) =
      probability (fun ξ => ∃ c, p.sampleAngleNucleus U I R ξ iso v = .ok c ∧ 1 - 2 * E₂ / M ≤ c ∧ c ≤ 1 - 2 * E₁ / M) := by
    congr 1
    funext ξ
    refine propext (exists_congr fun c => and_congr_right fun _ => ?_)
    have e1 : E₁ ≤ M * (1 - c) / 2 ↔ c ≤ 1 - 2 * E₁ / M := by
      rw [le_sub_comm, div_le_iff₀ hE]
      constructor <;> intro h <;> linarith
    have e2 : M * (1 - c) / 2 ≤ E₂ ↔ 1 - 2 * E₂ / M ≤ c := by
      rw [sub_le_comm, le_div_iff₀ hE]
      constructor <;> intro h <;> linarith
    rw [e1, e2]
    exact and_comm
  rw [hset, hprob]
  congr 1
  have hf' : ∀ x ∈ Set.Icc (1 - 2 * E₂ / M) (1 - 2 * E₁ / M), f x = Q / 2 / s * p.dSigmadq2Nucleus U (Real.sqrt (Q * (1 - x) / 2)) iso v := by
    intro x hx
    have h3 := nucleus_pdf (U := U) (I := I) hm hM hv htot hs (c := x) ⟨ha.trans hx.1, hx.2.trans hb⟩
    rw [hf x hx] at h3
    injection h3
  have h4 := share_of_angles (s := s) (f := fun x => Q / 2 / s * p.dSigmadq2Nucleus U (Real.sqrt (Q * (1 - x) / 2)) iso v)
    (D := fun q => p.dSigmadq2Nucleus U q iso v) hQ hab ha hb (fun _ _ => rfl) (fun _ => 1)
  simp only [one_mul] at h4
  rw [intervalIntegral.integral_congr (g := fun x => Q / 2 / s * p.dSigmadq2Nucleus U (Real.sqrt (Q * (1 - x) / 2)) iso v)
    (fun x hx => hf' x (by rwa [Set.uIcc_of_le hab] at hx)), h4]
  unfold dSigmadERNucleus
  rw [intervalIntegral.integral_const_mul]
  have h5 := intervalIntegral.smul_integral_comp_mul_left (a := E₁) (b := E₂)
    (f := fun q2 => p.dSigmadq2Nucleus U (Real.sqrt q2) iso v) (2 * iso.mass)
  rw [smul_eq_mul] at h5
  rw [h5, one_div, inv_mul_eq_div]
  congr 2
  · rw [hEQ]; field_simp; ring
  · rw [hEQ]; field_simp; ring

/-- C115 (momentum transfers, electrons): the squared momentum transfer `q² = (2 μ v)² (1 - cos α) / 2` of a sampled angle lies between two values
with the probability given by `dσ/dq²`. -/
theorem C115_electron_momentum (hm : 0 < p.mass) (hv : 0 < v) (htot : p.sigmaTotalElectron U v = .ok s) (hs : s ≠ 0) {y₁ y₂ : ℝ}
    (h0 : 0 ≤ y₁) (h12 : y₁ ≤ y₂) (h2 : y₂ ≤ (2 * (p.mass * U.mElectron / (p.mass + U.mElectron)) * v) ^ 2) :
    probability (fun ξ => ∃ c, p.sampleAngleElectron U ξ v = .ok c ∧
        y₁ ≤ (2 * (p.mass * U.mElectron / (p.mass + U.mElectron)) * v) ^ 2 * (1 - c) / 2 ∧
        (2 * (p.mass * U.mElectron / (p.mass + U.mElectron)) * v) ^ 2 * (1 - c) / 2 ≤ y₂) =
      ENNReal.ofReal ((∫ y in y₁..y₂, p.dSigmadq2Electron U (Real.sqrt y) v) / s) := by
  have hmu := reducedMass_pos hm U.mElectron_pos
  have hQe : (2 * (p.mass * U.mElectron / (p.mass + U.mElectron)) * v) ^ 2 = 4 * (reducedMass p.mass U.mElectron * v) ^ 2 := by
    unfold reducedMass; ring
  rw [hQe] at h2 ⊢
  set Q := 4 * (reducedMass p.mass U.mElectron * v) ^ 2 with hQdef
  have hQ : 0 < Q := by positivity
  have ha : -1 ≤ 1 - 2 * y₂ / Q := by
    have : y₂ / Q ≤ 1 := (div_le_one hQ).2 h2
    have e : 2 * y₂ / Q = 2 * (y₂ / Q) := by ring
    linarith
  have hab : 1 - 2 * y₂ / Q ≤ 1 - 2 * y₁ / Q := by
    have : 2 * y₁ / Q ≤ 2 * y₂ / Q := by gcongr
    linarith
  have hb : 1 - 2 * y₁ / Q ≤ 1 := by
    have : 0 ≤ 2 * y₁ / Q := by positivity
    linarith
  obtain ⟨f, hf, hprob⟩ := (C115_electron htot).interval _ _ ha hab hb
  have hset : probability (fun ξ => ∃ c, p.sampleAngleElectron U ξ v = .ok c ∧ y₁ ≤ Q * (1 - c) / 2 ∧ Q * (1 - c) / 2 ≤ y₂) =
      probability (fun ξ => ∃ c, p.sampleAngleElectron U ξ v = .ok c ∧ 1 - 2 * y₂ / Q ≤ c ∧ c ≤ 1 - 2 * y₁ / Q) := by
    congr 1
    funext ξ
    refine propext (exists_congr fun c => and_congr_right fun _ => ?_)
    have e1 : y₁ ≤ Q * (1 - c) / 2 ↔ c ≤ 1 - 2 * y₁ / Q := by
      rw [le_sub_comm, div_le_iff₀ hQ]
      constructor <;> intro h <;> linarith
    have e2 : Q * (1 - c) / 2 ≤ y₂ ↔ 1 - 2 * y₂ / Q ≤ c := by
      rw [sub_le_comm, le_div_iff₀ hQ]
      constructor <;> intro h <;> linarith
    rw [e1, e2]
    exact and_comm
  rw [hset, hprob]
  congr 1
  have hf' : ∀ x ∈ Set.Icc (1 - 2 * y₂ / Q) (1 - 2 * y₁ / Q), f x = Q / 2 / s * p.dSigmadq2Electron U (Real.sqrt (Q * (1 - x) / 2)) v := by
    intro x hx
    have h3 := electron_pdf (U := U) hm hv htot hs (c := x) ⟨ha.trans hx.1, hx.2.trans hb⟩
    rw [hf x hx] at h3
    injection h3
  have h4 := share_of_angles (s := s) (f := fun x => Q / 2 / s * p.dSigmadq2Electron U (Real.sqrt (Q * (1 - x) / 2)) v)
    (D := fun q => p.dSigmadq2Electron U q v) hQ hab ha hb (fun _ _ => rfl) (fun _ => 1)
  simp only [one_mul] at h4
  rw [intervalIntegral.integral_congr (g := fun x => Q / 2 / s * p.dSigmadq2Electron U (Real.sqrt (Q * (1 - x) / 2)) v)
    (fun x hx => hf' x (by rwa [Set.uIcc_of_le hab] at hx)), h4, one_div, inv_mul_eq_div]
  congr 2
  · field_simp; ring
  · field_simp; ring

/-- C115 (histograms): with an ideal random number generator, the share of sampled angles in any interval converges to the integral of the PDF
over this interval, with probability one. -/
theorem C115_histogram {pdf sample : ℝ → Outcome ℝ}
    (h : (∃ s, p.sigmaTotalElectron U v = .ok s ∧ pdf = (fun c => p.pdfAngleElectron U c v) ∧
        sample = fun xi => p.sampleAngleElectron U xi v) ∨
      (I.Exact ∧ R.Exact ∧ 0 < p.mass ∧ 0 < iso.mass ∧ 0 ≤ iso.spin ∧ 0 < v ∧
        (∃ s, p.sigmaTotalNucleus U I iso v = .ok s ∧ s ≠ 0) ∧ pdf = (fun c => p.pdfAngleNucleus U I c iso v) ∧
        sample = fun xi => p.sampleAngleNucleus U I R xi iso v))
    {Ω : Type} [MeasurableSpace Ω] {μ : Measure Ω} [IsProbabilityMeasure μ] {X : ℕ → Ω → ℝ} (hX : RandomNumbers μ X) {a b : ℝ}
    (ha : -1 ≤ a) (hab : a ≤ b) (hb : b ≤ 1) :
    ∃ f : ℝ → ℝ, (∀ x ∈ Set.Icc a b, pdf x = .ok (f x)) ∧ ∀ᵐ ω ∂μ, ∃ c : ℕ → ℝ, (∀ i, sample (X i ω) = .ok (c i)) ∧
      Tendsto (fun n : ℕ => (∑ i ∈ Finset.range n, Set.indicator (Set.Icc a b) (fun _ => (1 : ℝ)) (c i)) / n) atTop
        (𝓝 (∫ x in a..b, f x)) := by
  have hA : ∃ cdf, AngleDistribution pdf cdf sample := by
    rcases h with ⟨s, h1, rfl, rfl⟩ | ⟨hI, hR, hm, hM, hJ, hv, ⟨s, h1, h2⟩, rfl, rfl⟩
    · exact ⟨_, electron_angles h1⟩
    · exact ⟨_, nucleus_angles hI hR hm hM hJ hv h1 h2⟩
  obtain ⟨cdf, hA⟩ := hA
  obtain ⟨f, c, T, hf, hc⟩ := InverseTransform.of_angles hA
  refine ⟨f, fun x hx => hf x ⟨ha.trans hx.1, hx.2.trans hb⟩, ?_⟩
  have hg : Measurable (Set.indicator (Set.Icc a b) (fun _ : ℝ => (1 : ℝ))) := measurable_const.indicator measurableSet_Icc
  have hcm := (hg.comp_aemeasurable T.aemeasurable).aestronglyMeasurable
  have hint : Integrable (fun ξ => Set.indicator (Set.Icc a b) (fun _ : ℝ => (1 : ℝ)) (c ξ)) (volume.restrict (Set.Icc 0 1)) := by
    refine Integrable.of_bound hcm 1 (ae_of_all _ fun ξ => ?_)
    simp only [Set.indicator]
    split_ifs <;> norm_num
  have hlim := T.average hX.measurable hX.uniform hX.independent hg hint
  have hval : ∫ ξ in (0 : ℝ)..1, Set.indicator (Set.Icc a b) (fun _ : ℝ => (1 : ℝ)) (c ξ) = ∫ x in a..b, f x := by
    rw [intervalIntegral.integral_of_le zero_le_one, ← integral_Icc_eq_integral_Ioc]
    rw [← integral_map T.aemeasurable hg.aestronglyMeasurable, integral_indicator measurableSet_Icc]
    simp only [integral_const, MeasurableSet.univ, measureReal_restrict_apply, Set.univ_inter, smul_eq_mul, mul_one]
    rw [measureReal_def, Measure.map_apply_of_aemeasurable T.aemeasurable measurableSet_Icc, Measure.restrict_apply' measurableSet_Icc]
    have e : c ⁻¹' Set.Icc a b ∩ Set.Icc 0 1 = {ξ ∈ Set.Icc (0 : ℝ) 1 | a ≤ c ξ ∧ c ξ ≤ b} := by
      ext ξ
      simp only [Set.mem_inter_iff, Set.mem_preimage, Set.mem_ofPred_eq]
      exact and_comm
    rw [e, T.chance ha hab hb, ENNReal.toReal_ofReal]
    exact intervalIntegral.integral_nonneg hab fun x hx => T.nonneg x ⟨ha.trans hx.1, hx.2.trans hb⟩
  rw [hval] at hlim
  have hmem : ∀ i, ∀ᵐ ω ∂μ, X i ω ∈ Set.Icc (0 : ℝ) 1 := by
    intro i
    have h1 : ∀ᵐ x ∂(volume.restrict (Set.Icc (0 : ℝ) 1)), x ∈ Set.Icc (0 : ℝ) 1 := ae_restrict_mem measurableSet_Icc
    rw [← hX.uniform i] at h1
    exact ae_of_ae_map (hX.measurable i).aemeasurable h1
  filter_upwards [hlim, ae_all_iff.2 hmem] with ω h1 h2
  exact ⟨fun i => c (X i ω), fun i => hc _ (h2 i), h1⟩

/-- C115 (average energy loss): the average recoil energy of a long sequence of sampled scatterings converges to the mean of the recoil spectrum. -/
theorem C115_energy_loss (hI : I.Exact) (hR : R.Exact) (hm : 0 < p.mass) (hM : 0 < iso.mass) (hJ : 0 ≤ iso.spin) (hv : 0 < v)
    (htot : p.sigmaTotalNucleus U I iso v = .ok s) (hs : s ≠ 0) {Ω : Type} [MeasurableSpace Ω] {μ : Measure Ω} [IsProbabilityMeasure μ]
    {X : ℕ → Ω → ℝ} (hX : RandomNumbers μ X) :
    ∀ᵐ ω ∂μ, ∃ c : ℕ → ℝ, (∀ i, p.sampleAngleNucleus U I R (X i ω) iso v = .ok (c i)) ∧
      Tendsto (fun n : ℕ => (∑ i ∈ Finset.range n, maximumNuclearRecoilEnergy v p.mass iso.mass * (1 - c i) / 2) / n) atTop
        (𝓝 ((∫ E in (0 : ℝ)..maximumNuclearRecoilEnergy v p.mass iso.mass, E * p.dSigmadERNucleus U E iso v) / s)) := by
  have hmu := reducedMass_pos hm hM
  set Q := 4 * (reducedMass p.mass iso.mass * v) ^ 2 with hQdef
  have hQ : 0 < Q := by positivity
  have hE : 0 < maximumNuclearRecoilEnergy v p.mass iso.mass := by unfold maximumNuclearRecoilEnergy; positivity
  have hEQ : Q = 2 * iso.mass * maximumNuclearRecoilEnergy v p.mass iso.mass := by
    rw [hQdef]; unfold maximumNuclearRecoilEnergy; field_simp; ring
  set M := maximumNuclearRecoilEnergy v p.mass iso.mass with hMdef
  obtain ⟨f, c, T, hf, hc⟩ := InverseTransform.of_angles (nucleus_angles (U := U) hI hR hm hM hJ hv htot hs)
  have hg : Continuous fun x : ℝ => M * (1 - x) / 2 := by fun_prop
  have hint : Integrable (fun ξ => M * (1 - c ξ) / 2) (volume.restrict (Set.Icc 0 1)) := by
    refine Integrable.of_bound (hg.measurable.comp_aemeasurable T.aemeasurable).aestronglyMeasurable M ?_
    refine (ae_restrict_iff' measurableSet_Icc).2 (ae_of_all _ fun ξ hξ => ?_)
    have h1 := T.mem ξ hξ
    show ‖M * (1 - c ξ) / 2‖ ≤ M
    rw [Real.norm_eq_abs, abs_le]
    constructor <;> nlinarith [h1.1, h1.2]
  have hlim := T.average hX.measurable hX.uniform hX.independent hg.measurable hint
  have hval : ∫ ξ in (0 : ℝ)..1, M * (1 - c ξ) / 2 = (∫ E in (0 : ℝ)..M, E * p.dSigmadERNucleus U E iso v) / s := by
    rw [T.mean hg]
    have hf' : ∀ x ∈ Set.Icc (-1 : ℝ) 1, f x = Q / 2 / s * p.dSigmadq2Nucleus U (Real.sqrt (Q * (1 - x) / 2)) iso v := by
      intro x hx
      have h3 := nucleus_pdf (U := U) (I := I) hm hM hv htot hs hx
      rw [hf x hx] at h3
      injection h3
    have h4 := share_of_angles (s := s) (f := f) (D := fun q => p.dSigmadq2Nucleus U q iso v) hQ (a := -1) (b := 1) (by norm_num)
      le_rfl le_rfl hf' (fun y => y / (2 * iso.mass))
    have e : ∀ x : ℝ, Q * (1 - x) / 2 / (2 * iso.mass) = M * (1 - x) / 2 := by
      intro x; rw [hEQ]; field_simp
    simp only [e] at h4
    rw [h4, show Q * (1 - 1) / 2 = 0 by ring, show Q * (1 - -1) / 2 = 2 * iso.mass * M by rw [hEQ]; ring]
    have h5 := intervalIntegral.smul_integral_comp_mul_left (a := 0) (b := M)
      (f := fun q2 => q2 / (2 * iso.mass) * p.dSigmadq2Nucleus U (Real.sqrt q2) iso v) (2 * iso.mass)
    rw [smul_eq_mul, mul_zero] at h5
    rw [← h5, ← intervalIntegral.integral_const_mul, one_div, inv_mul_eq_div]
    congr 1
    refine intervalIntegral.integral_congr fun E _ => ?_
    simp only [dSigmadERNucleus]
    field_simp
  rw [hval] at hlim
  have hmem : ∀ i, ∀ᵐ ω ∂μ, X i ω ∈ Set.Icc (0 : ℝ) 1 := by
    intro i
    have h1 : ∀ᵐ x ∂(volume.restrict (Set.Icc (0 : ℝ) 1)), x ∈ Set.Icc (0 : ℝ) 1 := ae_restrict_mem measurableSet_Icc
    rw [← hX.uniform i] at h1
    exact ae_of_ae_map (hX.measurable i).aemeasurable h1
  filter_upwards [hlim, ae_all_iff.2 hmem] with ω h1 h2
  exact ⟨fun i => c (X i ω), fun i => hc _ (h2 i), h1⟩

/-- C115 (finite tolerance): a root finder that stops within `δ` — the code asks for `10⁻⁶` — moves at most the ends of the interval by `δ`.
Stated for every class derived from the base class; the nuclear form factor is included this way (`C78_standard`). -/
theorem C115_tolerance {mass param δ a b : ℝ} {dN : ℝ → Isotope → ℝ → ℝ → ℝ} {dE : ℝ → ℝ → ℝ → ℝ} (hI : I.Exact) (hR : FindsWithin R δ)
    (hm : 0 < mass) (hM : 0 < iso.mass) (hv : 0 < v) (hpos : ∀ q, 0 ≤ q → 0 ≤ dN q iso v param)
    (hs : (BaseParticle.derived U I mass dN dE).sigmaTotalNucleus iso v param ≠ 0) (hδ : 0 ≤ δ) (ha : -1 ≤ a - δ) (hab : a + δ ≤ b - δ)
    (hb : b + δ ≤ 1) :
    ENNReal.ofReal (∫ x in a + δ..b - δ, (BaseParticle.derived U I mass dN dE).pdfAngleNucleus x iso v param) ≤
      probability (fun ξ => a ≤ (BaseParticle.derived U I mass dN dE).sampleAngleNucleus I R ξ iso v param ∧
        (BaseParticle.derived U I mass dN dE).sampleAngleNucleus I R ξ iso v param ≤ b) ∧
    probability (fun ξ => a ≤ (BaseParticle.derived U I mass dN dE).sampleAngleNucleus I R ξ iso v param ∧
        (BaseParticle.derived U I mass dN dE).sampleAngleNucleus I R ξ iso v param ≤ b) ≤
      ENNReal.ofReal (∫ x in a - δ..b + δ, (BaseParticle.derived U I mass dN dE).pdfAngleNucleus x iso v param) := by
  obtain ⟨R₀, hR₀⟩ := RootFinder.exists_exact
  have hA := C78_nucleus (dE := dE) hI hR₀ hm hM hv hpos hs
  obtain ⟨f, c, T, hf, -⟩ := InverseTransform.of_angles hA
  set P := BaseParticle.derived U I mass dN dE with hP
  have hff : ∀ x ∈ Set.Icc (-1 : ℝ) 1, f x = P.pdfAngleNucleus x iso v param := by
    intro x hx
    have := hf x hx
    injection this with this
    exact this.symm
  have hint : ∀ {x y : ℝ}, -1 ≤ x → x ≤ y → y ≤ 1 → ∫ z in x..y, P.pdfAngleNucleus z iso v param = ∫ z in x..y, f z := by
    intro x y h1 h2 h3
    refine intervalIntegral.integral_congr fun z hz => ?_
    rw [Set.uIcc_of_le h2] at hz
    exact (hff z ⟨h1.trans hz.1, hz.2.trans h3⟩).symm
  -- the distribution function
  set C := fun x => P.cdfAngleNucleus I x iso v param with hC
  have hCF : ∀ x ∈ Set.Icc (-1 : ℝ) 1, C x = ∫ z in (-1 : ℝ)..x, f z := by
    intro x hx
    obtain ⟨g, hg, hcdf⟩ := hA.cdf_is_integral
    have h1 := hcdf x hx
    injection h1 with h1
    rw [hC, ← hint le_rfl hx.1 hx.2]
    refine h1.trans (intervalIntegral.integral_congr fun z hz => ?_)
    rw [Set.uIcc_of_le hx.1] at hz
    have h2 := hg z ⟨hz.1, hz.2.trans hx.2⟩
    injection h2 with h2
    exact h2.symm
  have hCmono : ∀ {x y : ℝ}, x ∈ Set.Icc (-1 : ℝ) 1 → y ∈ Set.Icc (-1 : ℝ) 1 → x ≤ y → C x ≤ C y := by
    intro x y hx hy hxy
    rw [hCF x hx, hCF y hy]
    exact T.mono hx hy hxy
  have hleft : C (-1) = 0 := by rw [hCF _ (by norm_num), intervalIntegral.integral_same]
  have hright : C 1 = 1 := by rw [hCF _ (by norm_num), T.one]
  -- the bracket the sampler ends with
  have hbr : ∀ ξ ∈ Set.Icc (0 : ℝ) 1, ∃ l r, -1 ≤ l ∧ l ≤ P.sampleAngleNucleus I R ξ iso v param ∧
      P.sampleAngleNucleus I R ξ iso v param ≤ r ∧ r ≤ 1 ∧ r - l ≤ δ ∧ C l ≤ ξ ∧ ξ ≤ C r := by
    intro ξ hξ
    obtain ⟨l, r, h1, h2, h3, h4, h5, h6⟩ := hR (fun c => ξ - C c) (-1) 1 (by norm_num)
      (by simp only [hleft, hright]; nlinarith [hξ.1, hξ.2])
    have hlr : C l ≤ C r := hCmono ⟨h1, (h2.trans h3).trans h4⟩ ⟨h1.trans (h2.trans h3), h4⟩ (h2.trans h3)
    refine ⟨l, r, h1, h2, h3, h4, h5, ?_, ?_⟩
    · by_contra h7
      push Not at h7
      have : 0 < (ξ - C l) * (ξ - C r) := mul_pos_of_neg_of_neg (by linarith) (by linarith)
      exact absurd h6 (not_le.2 this)
    · by_contra h7
      push Not at h7
      have : 0 < (ξ - C l) * (ξ - C r) := mul_pos (by linarith) (by linarith)
      exact absurd h6 (not_le.2 this)
  have hv1 : ∀ {x y : ℝ}, -1 ≤ x → x ≤ y → y ≤ 1 → ∫ z in x..y, f z = C y - C x := by
    intro x y h1 h2 h3
    rw [hCF x ⟨h1, h2.trans h3⟩, hCF y ⟨h1.trans h2, h3⟩, T.between ⟨h1, h2.trans h3⟩ ⟨h1.trans h2, h3⟩]
  constructor
  · rw [hint (by linarith) hab (by linarith), hv1 (by linarith) hab (by linarith), ← Real.volume_Ioo]
    refine measure_mono fun ξ hξ => ?_
    have h0 : 0 ≤ C (a + δ) := by
      rw [← hleft]
      exact hCmono (by norm_num) ⟨by linarith, by linarith⟩ (by linarith)
    have h1 : C (b - δ) ≤ 1 := by
      rw [← hright]
      exact hCmono ⟨by linarith, by linarith⟩ (by norm_num) (by linarith)
    have hξ' : ξ ∈ Set.Icc (0 : ℝ) 1 := ⟨h0.trans hξ.1.le, hξ.2.le.trans h1⟩
    obtain ⟨l, r, h2, h3, h4, h5, h6, h7, h8⟩ := hbr ξ hξ'
    refine ⟨hξ', ?_, ?_⟩
    · by_contra h9
      push Not at h9
      have := hCmono (x := r) (y := a + δ) ⟨by linarith, h5⟩ ⟨by linarith, by linarith⟩ (by linarith)
      exact absurd hξ.1 (not_lt.2 (h8.trans this))
    · by_contra h9
      push Not at h9
      have := hCmono (x := b - δ) (y := l) ⟨by linarith, by linarith⟩ ⟨h2, by linarith⟩ (by linarith)
      exact absurd hξ.2 (not_lt.2 (this.trans h7))
  · rw [hint ha (by linarith) hb, hv1 ha (by linarith) hb, ← Real.volume_Icc]
    refine measure_mono fun ξ hξ => ?_
    obtain ⟨h0, h1, h1'⟩ := hξ
    obtain ⟨l, r, h2, h3, h4, h5, h6, h7, h8⟩ := hbr ξ h0
    exact ⟨(hCmono (x := a - δ) (y := l) ⟨by linarith, by linarith⟩ ⟨h2, by linarith⟩ (by linarith)).trans h7,
      h8.trans (hCmono (x := r) (y := b + δ) ⟨by linarith, h5⟩ ⟨by linarith, by linarith⟩ (by linarith))⟩

/-- Non-vacuity: a new particle with a spin-dependent interaction has a total cross section on hydrogen; its sampler uses the root finder. -/
example : ∃ p : DMParticle, Reachable Units.sample p ∧ 0 < p.mass ∧ p.lowMass = false ∧ ∃ s s', s ≠ 0 ∧ s' ≠ 0 ∧
    p.sigmaTotalNucleus Units.sample exactIntegrator (Isotope.default Units.sample) 1 = .ok s ∧
    p.sigmaTotalElectron Units.sample 1 = .ok s' := by
  have h1 : (0 : ℝ) < (standard Units.sample 1 3 .SD).prefactor := by simp [standard]
  have h2 : 0 < (standard Units.sample 1 3 .SD).mass := one_pos
  have h := setSigmaProton_fixed (U := Units.sample) h1 h2 zero_le_one rfl (by simp [standard])
  have hcm := Units.sample.cm_pos
  have hmu := reducedMass_pos one_pos Units.sample.mProton_pos
  have hpi := Real.pi_pos
  refine ⟨_, ⟨_, [], Or.inr ⟨1, 1, one_pos, h⟩, by simp, rfl⟩, one_pos, rfl, _, _, ?_, ?_, (if_pos (by simp [Isotope.default])), rfl⟩
  · have hc : 0 < cpl Units.sample (standard Units.sample 1 3 .SD) 1 := by
      simp only [cpl, standard]
      positivity
    simp only [Isotope.default, standard] at *
    positivity
  · simp only [standard, sigmaElectron]
    positivity

/-- Non-vacuity: there is an ideal random number generator. -/
example : ∃ (Ω : Type) (_ : MeasurableSpace Ω) (μ : Measure Ω) (X : ℕ → Ω → ℝ), IsProbabilityMeasure μ ∧ RandomNumbers μ X := by
  have : IsProbabilityMeasure (volume.restrict (Set.Icc (0 : ℝ) 1)) := ⟨by simp⟩
  refine ⟨ℕ → ℝ, inferInstance, Measure.infinitePi fun _ => volume.restrict (Set.Icc (0 : ℝ) 1), fun i ω => ω i, inferInstance,
    fun i => measurable_pi_apply i, fun i => ?_, fun i j hij => ?_⟩
  · exact Measure.infinitePi_map_eval (fun _ : ℕ => volume.restrict (Set.Icc (0 : ℝ) 1)) i
  · exact (ProbabilityTheory.iIndepFun_infinitePi (P := fun _ : ℕ => volume.restrict (Set.Icc (0 : ℝ) 1)) (X := fun _ ω => ω)
      (fun _ => measurable_id)).indepFun hij

end Obscura
