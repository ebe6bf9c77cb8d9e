import Verif.Lemmas.Angles
import Mathlib.MeasureTheory.Constructions.BorelSpace.Order
import Mathlib.MeasureTheory.Measure.WithDensity
import Mathlib.MeasureTheory.Function.L1Space.Integrable
import Mathlib.Probability.StrongLaw

/-!
# Helper lemmas: results of a sampler fed with uniform random numbers
-/

namespace Obscura
open Spec MeasureTheory Filter
open scoped Topology ENNReal

/-- The inverse of a distribution function, on the level of real functions. -/
structure InverseTransform (f c : ℝ → ℝ) : Prop where
  nonneg : ∀ x ∈ Set.Icc (-1 : ℝ) 1, 0 ≤ f x
  one : ∫ x in (-1 : ℝ)..1, f x = 1
  mem : ∀ ξ ∈ Set.Icc (0 : ℝ) 1, c ξ ∈ Set.Icc (-1 : ℝ) 1
  inv : ∀ ξ ∈ Set.Icc (0 : ℝ) 1, ∫ x in (-1 : ℝ)..c ξ, f x = ξ

namespace InverseTransform

variable {f c : ℝ → ℝ}

theorem of_angles {pdf cdf sample : ℝ → Outcome ℝ} (h : AngleDistribution pdf cdf sample) :
    ∃ f c : ℝ → ℝ, InverseTransform f c ∧ (∀ x ∈ Set.Icc (-1 : ℝ) 1, pdf x = .ok (f x)) ∧
      ∀ ξ ∈ Set.Icc (0 : ℝ) 1, sample ξ = .ok (c ξ) := by
  classical
  obtain ⟨f, hf, hone⟩ := h.normalised
  obtain ⟨g, hg, hcdf⟩ := h.cdf_is_integral
  have hfg : ∀ x ∈ Set.Icc (-1 : ℝ) 1, g x = f x := by
    intro x hx
    have h1 := hf x hx
    rw [hg x hx] at h1
    injection h1
  choose! c hc hs hi using h.sample_ok
  refine ⟨f, c, ⟨?_, hone, hc, ?_⟩, hf, hs⟩
  · intro x hx
    obtain ⟨y, h1, h2⟩ := h.pdf_ok x hx
    rw [hf x hx] at h1
    injection h1 with h1
    rw [h1]; exact h2
  · intro ξ hξ
    have h1 := hi ξ hξ
    rw [hcdf _ (hc ξ hξ)] at h1
    injection h1 with h1
    refine (intervalIntegral.integral_congr (g := g) fun x hx => ?_).trans h1
    rw [Set.uIcc_of_le (hc ξ hξ).1] at hx
    exact (hfg x ⟨hx.1, hx.2.trans (hc ξ hξ).2⟩).symm

variable (T : InverseTransform f c)
include T

theorem integrable : IntervalIntegrable f volume (-1) 1 :=
  intervalIntegral.intervalIntegrable_of_integral_ne_zero (by rw [T.one]; exact one_ne_zero)

theorem integrable_sub {a b : ℝ} (ha : a ∈ Set.Icc (-1 : ℝ) 1) (hb : b ∈ Set.Icc (-1 : ℝ) 1) : IntervalIntegrable f volume a b := by
  refine T.integrable.mono_set ?_
  rw [Set.uIcc_of_le (show (-1 : ℝ) ≤ 1 by norm_num)]
  exact Set.uIcc_subset_Icc ha hb

theorem between {a b : ℝ} (ha : a ∈ Set.Icc (-1 : ℝ) 1) (hb : b ∈ Set.Icc (-1 : ℝ) 1) :
    ∫ x in a..b, f x = (∫ x in (-1 : ℝ)..b, f x) - ∫ x in (-1 : ℝ)..a, f x :=
  (intervalIntegral.integral_interval_sub_left (T.integrable_sub (by norm_num) hb) (T.integrable_sub (by norm_num) ha)).symm

theorem mono {a b : ℝ} (ha : a ∈ Set.Icc (-1 : ℝ) 1) (hb : b ∈ Set.Icc (-1 : ℝ) 1) (hab : a ≤ b) :
    ∫ x in (-1 : ℝ)..a, f x ≤ ∫ x in (-1 : ℝ)..b, f x := by
  have h1 := T.between ha hb
  have h2 : 0 ≤ ∫ x in a..b, f x :=
    intervalIntegral.integral_nonneg hab fun x hx => T.nonneg x ⟨ha.1.trans hx.1, hx.2.trans hb.2⟩
  linarith

theorem strictMono : StrictMonoOn c (Set.Icc 0 1) := by
  intro x hx y hy hxy
  by_contra h
  push Not at h
  have h1 := T.mono (T.mem y hy) (T.mem x hx) h
  rw [T.inv x hx, T.inv y hy] at h1
  linarith

/-- The probability of an interval is the integral of the density. -/
theorem chance {a b : ℝ} (ha : -1 ≤ a) (hab : a ≤ b) (hb : b ≤ 1) :
    volume {ξ ∈ Set.Icc (0 : ℝ) 1 | a ≤ c ξ ∧ c ξ ≤ b} = ENNReal.ofReal (∫ x in a..b, f x) := by
  have ha' : a ∈ Set.Icc (-1 : ℝ) 1 := ⟨ha, hab.trans hb⟩
  have hb' : b ∈ Set.Icc (-1 : ℝ) 1 := ⟨ha.trans hab, hb⟩
  have h0 : 0 ≤ ∫ x in (-1 : ℝ)..a, f x := by
    have := T.mono (a := -1) (by norm_num) ha' ha
    simpa using this
  have h1 : ∫ x in (-1 : ℝ)..b, f x ≤ 1 := by
    have := T.mono hb' (b := 1) (by norm_num) hb
    rwa [T.one] at this
  rw [T.between ha' hb']
  refine le_antisymm ?_ ?_
  · rw [← Real.volume_Icc]
    refine measure_mono fun ξ hξ => ?_
    obtain ⟨h2, h3, h4⟩ := hξ
    have h5 := T.mono ha' (T.mem ξ h2) h3
    have h6 := T.mono (T.mem ξ h2) hb' h4
    rw [T.inv ξ h2] at h5 h6
    exact ⟨h5, h6⟩
  · rw [← Real.volume_Ioo]
    refine measure_mono fun ξ hξ => ?_
    have h2 : ξ ∈ Set.Icc (0 : ℝ) 1 := ⟨h0.trans hξ.1.le, hξ.2.le.trans h1⟩
    refine ⟨h2, ?_, ?_⟩
    · by_contra h3
      push Not at h3
      have := T.mono (T.mem ξ h2) ha' h3.le
      rw [T.inv ξ h2] at this
      exact absurd hξ.1 (not_lt.2 this)
    · by_contra h3
      push Not at h3
      have := T.mono hb' (T.mem ξ h2) h3.le
      rw [T.inv ξ h2] at this
      exact absurd hξ.2 (not_lt.2 this)

theorem aemeasurable : AEMeasurable c (volume.restrict (Set.Icc 0 1)) :=
  aemeasurable_restrict_of_monotoneOn measurableSet_Icc T.strictMono.monotoneOn

theorem density_aemeasurable : AEMeasurable (fun x => ENNReal.ofReal (f x)) (volume.restrict (Set.Icc (-1 : ℝ) 1)) := by
  have := (intervalIntegrable_iff_integrableOn_Icc_of_le (by norm_num)).1 T.integrable
  exact this.aestronglyMeasurable.aemeasurable.ennreal_ofReal

theorem lintegral {a b : ℝ} (ha : -1 ≤ a) (hab : a ≤ b) (hb : b ≤ 1) :
    ∫⁻ x in Set.Icc a b, ENNReal.ofReal (f x) = ENNReal.ofReal (∫ x in a..b, f x) := by
  rw [intervalIntegral.integral_of_le hab, ← integral_Icc_eq_integral_Ioc]
  rw [ofReal_integral_eq_lintegral_ofReal]
  · exact (intervalIntegrable_iff_integrableOn_Icc_of_le hab).1 (T.integrable_sub ⟨ha, hab.trans hb⟩ ⟨ha.trans hab, hb⟩)
  · exact (ae_restrict_iff' measurableSet_Icc).2 (ae_of_all _ fun x hx => T.nonneg x ⟨ha.trans hx.1, hx.2.trans hb⟩)

/-- The law of the sampled values. -/
theorem law : (volume.restrict (Set.Icc (0 : ℝ) 1)).map c =
    (volume.restrict (Set.Icc (-1 : ℝ) 1)).withDensity fun x => ENNReal.ofReal (f x) := by
  have : IsFiniteMeasure ((volume.restrict (Set.Icc (0 : ℝ) 1)).map c) := by infer_instance
  refine Measure.ext_of_Iic _ _ fun a => ?_
  rw [Measure.map_apply_of_aemeasurable T.aemeasurable measurableSet_Iic, withDensity_apply _ measurableSet_Iic,
    Measure.restrict_restrict measurableSet_Iic]
  have hset : volume.restrict (Set.Icc (0 : ℝ) 1) (c ⁻¹' Set.Iic a) = volume {ξ ∈ Set.Icc (0 : ℝ) 1 | c ξ ≤ a} := by
    rw [Measure.restrict_apply' measurableSet_Icc]
    congr 1
    ext ξ
    simp only [Set.mem_inter_iff, Set.mem_preimage, Set.mem_Iic, Set.mem_ofPred_eq]
    exact and_comm
  rw [hset]
  rcases lt_or_ge a (-1) with h | h
  · have h1 : {ξ ∈ Set.Icc (0 : ℝ) 1 | c ξ ≤ a} = ∅ := by
      ext ξ
      simp only [Set.mem_ofPred_eq, Set.mem_empty_iff_false, iff_false, not_and]
      intro hξ
      have := (T.mem ξ hξ).1
      linarith
    have h2 : Set.Iic a ∩ Set.Icc (-1 : ℝ) 1 = ∅ := by
      ext x
      simp only [Set.mem_inter_iff, Set.mem_Iic, Set.mem_Icc, Set.mem_empty_iff_false, iff_false, not_and]
      intro h3 h4
      linarith
    rw [h1, h2]
    simp
  · have key : ∀ b ∈ Set.Icc (-1 : ℝ) 1, volume {ξ ∈ Set.Icc (0 : ℝ) 1 | c ξ ≤ b} = ∫⁻ x in Set.Icc (-1) b, ENNReal.ofReal (f x) := by
      intro b hb
      rw [T.lintegral le_rfl hb.1 hb.2, ← T.chance le_rfl hb.1 hb.2]
      congr 1
      ext ξ
      simp only [Set.mem_ofPred_eq]
      exact ⟨fun h => ⟨h.1, (T.mem ξ h.1).1, h.2⟩, fun h => ⟨h.1, h.2.2⟩⟩
    rcases le_total a 1 with h1 | h1
    · rw [key a ⟨h, h1⟩]
      congr 2
      ext x
      simp only [Set.mem_inter_iff, Set.mem_Iic, Set.mem_Icc]
      exact ⟨fun h => ⟨h.2, h.1, h.2.trans h1⟩, fun h => ⟨h.2.1, h.1⟩⟩
    · have h2 := key 1 (by norm_num)
      have h3 : {ξ ∈ Set.Icc (0 : ℝ) 1 | c ξ ≤ a} = {ξ ∈ Set.Icc (0 : ℝ) 1 | c ξ ≤ 1} := by
        ext ξ
        simp only [Set.mem_ofPred_eq]
        exact ⟨fun h => ⟨h.1, (T.mem ξ h.1).2⟩, fun h => ⟨h.1, h.2.trans h1⟩⟩
      rw [h3, h2]
      congr 2
      ext x
      simp only [Set.mem_inter_iff, Set.mem_Iic, Set.mem_Icc]
      exact ⟨fun h => ⟨h.2.trans h1, h⟩, fun h => h.2⟩

/-- Averages over the random numbers are averages over the density. -/
theorem mean {g : ℝ → ℝ} (hg : Continuous g) :
    ∫ ξ in (0 : ℝ)..1, g (c ξ) = ∫ x in (-1 : ℝ)..1, g x * f x := by
  rw [intervalIntegral.integral_of_le zero_le_one, ← integral_Icc_eq_integral_Ioc, ← integral_map T.aemeasurable
    hg.aestronglyMeasurable, T.law, integral_withDensity_eq_integral_toReal_smul₀ T.density_aemeasurable
      (ae_of_all _ fun _ => ENNReal.ofReal_lt_top), intervalIntegral.integral_of_le (by norm_num),
    ← integral_Icc_eq_integral_Ioc]
  refine setIntegral_congr_fun measurableSet_Icc fun x hx => ?_
  simp only [ENNReal.toReal_ofReal (T.nonneg x hx), smul_eq_mul, mul_comm]

/-- Averages over a long sequence of samples converge to the average over the density. -/
theorem average {Ω : Type*} [MeasurableSpace Ω] {μ : Measure Ω} [IsProbabilityMeasure μ] {X : ℕ → Ω → ℝ}
    (hX : ∀ i, Measurable (X i)) (hlaw : ∀ i, μ.map (X i) = volume.restrict (Set.Icc 0 1))
    (hind : Pairwise fun i j => ProbabilityTheory.IndepFun (X i) (X j) μ) {g : ℝ → ℝ} (hg : Measurable g)
    (hint : Integrable (fun ξ => g (c ξ)) (volume.restrict (Set.Icc 0 1))) :
    ∀ᵐ ω ∂μ, Tendsto (fun n : ℕ => (∑ i ∈ Finset.range n, g (c (X i ω))) / n) atTop (𝓝 (∫ ξ in (0 : ℝ)..1, g (c ξ))) := by
  -- a measurable version of the sampler
  obtain ⟨c', hc', hcc⟩ := T.aemeasurable
  have hae : ∀ i, ∀ᵐ ω ∂μ, c (X i ω) = c' (X i ω) := by
    intro i
    have h := hcc
    rw [← hlaw i] at h
    exact ae_of_ae_map (hX i).aemeasurable h
  have hgc : Measurable fun ξ => g (c' ξ) := hg.comp hc'
  have hint' : Integrable (fun ξ => g (c' ξ)) (volume.restrict (Set.Icc 0 1)) :=
    hint.congr (hcc.mono fun ξ h => by simp only [h])
  have h := ProbabilityTheory.strong_law_ae_real (fun i ω => g (c' (X i ω))) (μ := μ)
    (by
      have := hint'
      rw [← hlaw 0] at this
      exact this.comp_measurable (hX 0))
    (fun i j hij => (hind hij).comp hgc hgc)
    (fun i => ⟨(hgc.comp (hX i)).aemeasurable, (hgc.comp (hX 0)).aemeasurable, by
      have e : ∀ i, μ.map (fun ω => g (c' (X i ω))) = (volume.restrict (Set.Icc 0 1)).map (fun ξ => g (c' ξ)) := by
        intro i
        rw [← hlaw i, Measure.map_map hgc (hX i)]
        rfl
      rw [e i, e 0]⟩)
  have hval : (∫ ω, g (c' (X 0 ω)) ∂μ) = ∫ ξ in (0 : ℝ)..1, g (c ξ) := by
    rw [intervalIntegral.integral_of_le zero_le_one, ← integral_Icc_eq_integral_Ioc]
    have : (∫ ω, g (c' (X 0 ω)) ∂μ) = ∫ ξ, g (c' ξ) ∂(μ.map (X 0)) :=
      (integral_map (hX 0).aemeasurable hgc.aestronglyMeasurable).symm
    rw [this, hlaw 0]
    exact integral_congr_ae (hcc.mono fun ξ h => by simp only [h])
  rw [hval] at h
  filter_upwards [h, ae_all_iff.2 hae] with ω h1 h2
  simpa only [h2] using h1

end InverseTransform
end Obscura
