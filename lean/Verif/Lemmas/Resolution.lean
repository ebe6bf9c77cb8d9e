import Verif.Props.HaloComparison
import Mathlib.Probability.Distributions.Gaussian.Real
import Mathlib.MeasureTheory.Integral.Prod

/-!
# Lemmas for C119: integrals over spectra that are convoluted with a Gaussian
-/

namespace Obscura

open MeasureTheory Set

theorem pdfGauss_eq {σ : ℝ} (hσ : 0 < σ) (m x : ℝ) : pdfGauss x m σ = ProbabilityTheory.gaussianPDFReal m (Real.toNNReal (σ ^ 2)) x := by
  have h2 : ((Real.toNNReal (σ ^ 2) : NNReal) : ℝ) = σ ^ 2 := Real.coe_toNNReal _ (by positivity)
  unfold pdfGauss ProbabilityTheory.gaussianPDFReal
  rw [h2, Real.sqrt_mul' (2 * Real.pi) (sq_nonneg σ), Real.sqrt_sq hσ.le, one_div]
  congr 2
  field_simp

theorem pdfGauss_nonneg {σ : ℝ} (hσ : 0 < σ) (m x : ℝ) : 0 ≤ pdfGauss x m σ := by unfold pdfGauss; positivity

theorem pdfGauss_integrable {σ : ℝ} (hσ : 0 < σ) (m : ℝ) : Integrable fun x => pdfGauss x m σ := by
  simp only [pdfGauss_eq hσ]
  exact ProbabilityTheory.integrable_gaussianPDFReal _ _

theorem pdfGauss_integral {σ : ℝ} (hσ : 0 < σ) (m : ℝ) : ∫ x, pdfGauss x m σ = 1 := by
  simp only [pdfGauss_eq hσ]
  exact ProbabilityTheory.integral_gaussianPDFReal_eq_one _ (by simpa using hσ.ne')

/-- Six standard deviations on, the density of a Gaussian has fallen by more than `exp 18`. -/
theorem pdfGauss_far {σ : ℝ} (hσ : 0 < σ) (m x y : ℝ) (h : (y - m) ^ 2 + 36 * σ ^ 2 ≤ (x - m) ^ 2) : pdfGauss x m σ ≤ Real.exp (-18) * pdfGauss y m σ := by
  unfold pdfGauss
  rw [mul_left_comm]
  refine mul_le_mul_of_nonneg_left ?_ (by positivity)
  rw [← Real.exp_add]
  refine Real.exp_le_exp.2 ?_
  rw [div_pow, div_pow]
  have hs : 0 < σ ^ 2 := by positivity
  have : (y - m) ^ 2 / σ ^ 2 + 36 ≤ (x - m) ^ 2 / σ ^ 2 := by
    rw [div_add' _ _ _ hs.ne', div_le_div_iff_of_pos_right hs]
    exact h
  linarith

/-- Less than `exp (-18)` of a Gaussian lies outside six standard deviations. -/
theorem pdfGauss_window {σ : ℝ} (hσ : 0 < σ) (m : ℝ) : 1 - Real.exp (-18) ≤ ∫ x in Ioo (m - 6 * σ) (m + 6 * σ), pdfGauss x m σ := by
  set g := fun x => pdfGauss x m σ with hg
  have gi : Integrable g := pdfGauss_integrable hσ m
  have up : ∫ x in Ici (m + 6 * σ), g x ≤ Real.exp (-18) * ∫ x in Ici m, g x := by
    rw [← integral_indicator measurableSet_Ici, ← integral_indicator measurableSet_Ici, ← integral_sub_right_eq_self ((Ici m).indicator g) (6 * σ), ← integral_const_mul]
    refine integral_mono (gi.indicator measurableSet_Ici) (((gi.indicator measurableSet_Ici).comp_sub_right _).const_mul _) fun x => ?_
    by_cases hx : m + 6 * σ ≤ x
    · rw [indicator_of_mem (show x ∈ Ici (m + 6 * σ) from hx), indicator_of_mem (show x - 6 * σ ∈ Ici m by simp; linarith)]
      exact pdfGauss_far hσ m x _ (by nlinarith)
    · rw [indicator_of_notMem (show x ∉ Ici (m + 6 * σ) from hx)]
      exact mul_nonneg (Real.exp_nonneg _) (indicator_nonneg (fun y _ => pdfGauss_nonneg hσ m y) _)
  have down : ∫ x in Iic (m - 6 * σ), g x ≤ Real.exp (-18) * ∫ x in Iio m, g x := by
    rw [← integral_Iic_eq_integral_Iio (x := m), ← integral_indicator measurableSet_Iic, ← integral_indicator measurableSet_Iic, ← integral_add_right_eq_self ((Iic m).indicator g) (6 * σ), ← integral_const_mul]
    refine integral_mono (gi.indicator measurableSet_Iic) (((gi.indicator measurableSet_Iic).comp_add_right _).const_mul _) fun x => ?_
    by_cases hx : x ≤ m - 6 * σ
    · rw [indicator_of_mem (show x ∈ Iic (m - 6 * σ) from hx), indicator_of_mem (show x + 6 * σ ∈ Iic m by simp; linarith)]
      exact pdfGauss_far hσ m x _ (by nlinarith)
    · rw [indicator_of_notMem (show x ∉ Iic (m - 6 * σ) from hx)]
      exact mul_nonneg (Real.exp_nonneg _) (indicator_nonneg (fun y _ => pdfGauss_nonneg hσ m y) _)
  have all : (∫ x in Ici m, g x) = 1 - ∫ x in Iio m, g x := by
    have := integral_add_compl (measurableSet_Ici (a := m)) gi
    rw [compl_Ici, pdfGauss_integral hσ m] at this
    linarith
  have split : (∫ x in Ioo (m - 6 * σ) (m + 6 * σ), g x) + ((∫ x in Ici (m + 6 * σ), g x) + ∫ x in Iic (m - 6 * σ), g x) = 1 := by
    have h1 := integral_add_compl (measurableSet_Ioo (a := m - 6 * σ) (b := m + 6 * σ)) gi
    have hc : (Ioo (m - 6 * σ) (m + 6 * σ))ᶜ = Ici (m + 6 * σ) ∪ Iic (m - 6 * σ) := by
      ext x
      simp only [mem_compl_iff, mem_Ioo, mem_union, mem_Ici, mem_Iic, not_and_or, not_lt]
      tauto
    have hd : Disjoint (Ici (m + 6 * σ)) (Iic (m - 6 * σ)) := by
      rw [Set.disjoint_left]
      intro x h1 h2
      simp only [mem_Ici, mem_Iic] at h1 h2
      linarith
    rw [hc, setIntegral_union hd measurableSet_Iic gi.integrableOn gi.integrableOn, pdfGauss_integral hσ m] at h1
    exact h1
  rw [all, mul_sub, mul_one] at up
  show _ ≤ ∫ x in Ioo (m - 6 * σ) (m + 6 * σ), g x
  linarith

/-- The part of `∫ pdfGauss E ER f(ER)` from recoil energies above `L` and within six standard deviations. -/
noncomputable def smeared (σ L : ℝ) (f : ℝ → ℝ) (E : ℝ) : ℝ := ∫ ER in (max (E - 6 * σ) L)..(E + 6 * σ), pdfGauss E ER σ * f ER

theorem smeared_bounds {σ L a b : ℝ} {f : ℝ → ℝ} (hσ : 0 < σ) (hab : a ≤ b) (hL : L ≤ a + 6 * σ) (h0 : ∀ x, L < x → 0 ≤ f x)
    (hf : IntervalIntegrable f volume L (b + 6 * σ)) : ∫ E in a..b, smeared σ L f E ≤ ∫ x in L..(b + 6 * σ), f x ∧
    (∀ c e, L ≤ c → c ≤ e → a ≤ c - 6 * σ → e + 6 * σ ≤ b → (1 - Real.exp (-18)) * (∫ x in c..e, f x) ≤ ∫ E in a..b, smeared σ L f E) ∧
    IntervalIntegrable (smeared σ L f) volume a b := by
  classical
  have hLb : L ≤ b + 6 * σ := by linarith
  set M := b + 6 * σ with hM
  set K : Set (ℝ × ℝ) := {z | z.1 - 6 * σ < z.2 ∧ z.2 ≤ z.1 + 6 * σ} with hK
  have hKm : MeasurableSet K := by
    refine MeasurableSet.inter ?_ ?_
    · exact measurableSet_lt (measurable_fst.sub_const _) measurable_snd
    · exact measurableSet_le measurable_snd (measurable_fst.add_const _)
  set k : ℝ × ℝ → ℝ := K.indicator fun z => pdfGauss z.1 z.2 σ with hk
  have gc : Continuous fun z : ℝ × ℝ => pdfGauss z.1 z.2 σ := by unfold pdfGauss; fun_prop
  have km : Measurable k := gc.measurable.indicator hKm
  have k0 : ∀ z, 0 ≤ k z := fun z => indicator_nonneg (fun y _ => pdfGauss_nonneg hσ _ _) _
  have kle : ∀ z, k z ≤ pdfGauss z.1 z.2 σ := fun z => indicator_le_self' (fun y _ => pdfGauss_nonneg hσ _ _) _
  have kb : ∀ z, ‖k z‖ ≤ 1 / (Real.sqrt (2 * Real.pi) * σ) := fun z => by
    rw [Real.norm_of_nonneg (k0 z)]
    refine (kle z).trans ?_
    unfold pdfGauss
    refine mul_le_of_le_one_right (by positivity) (Real.exp_le_one_iff.2 ?_)
    have := sq_nonneg ((z.1 - z.2) / σ)
    linarith
  set μE := (volume : Measure ℝ).restrict (Ioc a b) with hμE
  set μR := (volume : Measure ℝ).restrict (Ioc L M) with hμR
  have fi : Integrable f μR := (intervalIntegrable_iff_integrableOn_Ioc_of_le hLb).1 hf
  have Fi : Integrable (fun z : ℝ × ℝ => k z * f z.2) (μE.prod μR) :=
    (fi.comp_snd μE).bdd_mul km.aestronglyMeasurable (.of_forall kb)
  have S : ∀ E ∈ Ioc a b, smeared σ L f E = ∫ x, k (E, x) * f x ∂μR := fun E hE => by
    unfold smeared
    have hle : max (E - 6 * σ) L ≤ E + 6 * σ := max_le (by linarith) (by linarith [hE.1])
    rw [intervalIntegral.integral_of_le hle, ← integral_indicator measurableSet_Ioc, hμR, ← integral_indicator measurableSet_Ioc]
    congr 1
    ext x
    by_cases h1 : x ∈ Ioc (max (E - 6 * σ) L) (E + 6 * σ)
    · rw [indicator_of_mem h1]
      obtain ⟨h2, h3⟩ := h1
      obtain ⟨h4, h5⟩ := max_lt_iff.1 h2
      rw [indicator_of_mem (show x ∈ Ioc L M from ⟨h5, h3.trans (by rw [hM]; linarith [hE.2])⟩), hk, indicator_of_mem (show (E, x) ∈ K from ⟨h4, h3⟩)]
    · rw [indicator_of_notMem h1]
      by_cases h2 : x ∈ Ioc L M
      · rw [indicator_of_mem h2, hk, indicator_of_notMem (show (E, x) ∉ K from fun h => h1 ⟨max_lt h.1 h2.1, h.2⟩), zero_mul]
      · rw [indicator_of_notMem h2]
  have swap : ∫ E in a..b, smeared σ L f E = ∫ x, (∫ E, k (E, x) ∂μE) * f x ∂μR := by
    rw [intervalIntegral.integral_of_le hab, setIntegral_congr_fun measurableSet_Ioc S]
    rw [show (∫ E in Ioc a b, ∫ x, k (E, x) * f x ∂μR) = ∫ E, ∫ x, k (E, x) * f x ∂μR ∂μE from rfl, integral_integral_swap Fi]
    refine integral_congr_ae (.of_forall fun x => ?_)
    exact integral_mul_const (f x) fun E => k (E, x)
  have Gi : Integrable (fun x => (∫ E, k (E, x) ∂μE) * f x) μR := by
    refine Fi.integral_prod_right.congr (.of_forall fun x => ?_)
    exact integral_mul_const (f x) fun E => k (E, x)
  have kx : ∀ x, Integrable (fun E => k (E, x)) := fun x => by
    refine (pdfGauss_integrable hσ x).mono' (km.comp (by fun_prop : Measurable fun E : ℝ => (E, x))).aestronglyMeasurable (.of_forall fun E => ?_)
    rw [Real.norm_of_nonneg (k0 _)]
    exact kle _
  have w0 : ∀ x, 0 ≤ ∫ E, k (E, x) ∂μE := fun x => integral_nonneg fun E => k0 _
  refine ⟨?_, fun c e hc hce ha hb => ?_, (intervalIntegrable_iff_integrableOn_Ioc_of_le hab).2
    ((integrable_congr ((ae_restrict_iff' measurableSet_Ioc).2 (.of_forall S))).2 Fi.integral_prod_left)⟩
  · rw [swap, intervalIntegral.integral_of_le hLb]
    refine integral_mono_ae Gi fi ((ae_restrict_iff' measurableSet_Ioc).2 (.of_forall fun x hx => ?_))
    refine mul_le_of_le_one_left (h0 x hx.1) ?_
    calc ∫ E, k (E, x) ∂μE ≤ ∫ E, k (E, x) := setIntegral_le_integral (kx x) (.of_forall fun E => k0 _)
      _ ≤ ∫ E, pdfGauss E x σ := integral_mono (kx x) (pdfGauss_integrable hσ x) fun E => kle _
      _ = 1 := pdfGauss_integral hσ x
  · have hsub : Ioc c e ⊆ Ioc L M := Ioc_subset_Ioc hc (by rw [hM]; linarith)
    rw [swap, intervalIntegral.integral_of_le hce, ← integral_const_mul]
    calc ∫ x in Ioc c e, (1 - Real.exp (-18)) * f x ≤ ∫ x in Ioc c e, (∫ E, k (E, x) ∂μE) * f x := by
          have s1 : IntegrableOn f (Ioc c e) := IntegrableOn.mono_set fi hsub
          have s2 : IntegrableOn (fun x => (∫ E, k (E, x) ∂μE) * f x) (Ioc c e) := IntegrableOn.mono_set Gi hsub
          refine setIntegral_mono_on (s1.const_mul _) s2 measurableSet_Ioc fun x hx => mul_le_mul_of_nonneg_right ?_ (h0 x (hc.trans_lt hx.1))
          refine (pdfGauss_window hσ x).trans ?_
          have hs : Ioo (x - 6 * σ) (x + 6 * σ) ⊆ Ioc a b := fun E hE => ⟨by linarith [hE.1, hx.1], by linarith [hE.2, hx.2]⟩
          calc ∫ E in Ioo (x - 6 * σ) (x + 6 * σ), pdfGauss E x σ = ∫ E in Ioo (x - 6 * σ) (x + 6 * σ), k (E, x) :=
                setIntegral_congr_fun measurableSet_Ioo fun E hE => by
                  rw [hk, indicator_of_mem (show (E, x) ∈ K from ⟨by show E - 6 * σ < x; linarith [hE.2], by show x ≤ E + 6 * σ; linarith [hE.1]⟩)]
            _ ≤ ∫ E in Ioc a b, k (E, x) := setIntegral_mono_set (kx x).integrableOn (.of_forall fun E => k0 _) (LE.le.eventuallyLE hs)
      _ ≤ ∫ x in Ioc L M, (∫ E, k (E, x) ∂μE) * f x :=
        setIntegral_mono_set Gi ((ae_restrict_iff' measurableSet_Ioc).2 (.of_forall fun x hx => mul_nonneg (w0 x) (h0 x hx.1))) (LE.le.eventuallyLE hsub)

end Obscura
