import Verif.Model.AverageVelocity
import Verif.Lemmas.HaloPP
import Verif.Props.HaloAngular
import Mathlib.MeasureTheory.Integral.Prod
import Mathlib.MeasureTheory.Group.Integral
import Mathlib.MeasureTheory.Measure.Haar.Unique

/-!
# Helper lemmas: integrals over all velocities and their spherical coordinates
-/

namespace Obscura

open Real Set MeasureTheory
open scoped ENNReal

theorem sphere_sq (r : ℝ) {c : ℝ} (hc : c ∈ Icc (-1 : ℝ) 1) (φ : ℝ) :
    (r * sin (arccos c) * cos φ) * (r * sin (arccos c) * cos φ) + (r * sin (arccos c) * sin φ) * (r * sin (arccos c) * sin φ) +
      (r * c) * (r * c) = r ^ 2 := by
  rw [sin_arccos]
  have h1 : √(1 - c ^ 2) ^ 2 = 1 - c ^ 2 := Real.sq_sqrt (by nlinarith [hc.1, hc.2])
  have h2 := sin_sq_add_cos_sq φ
  linear_combination r ^ 2 * √(1 - c ^ 2) ^ 2 * h2 + r ^ 2 * h1

/-- A bounded function of the velocity in spherical coordinates, with the volume element. -/
theorem spherical_measurable {F : Vec → ℝ} (hF : Measurable F) :
    Measurable fun q : ℝ × ℝ × ℝ => q.1 * q.1 * F (sphericalCoordinates q.1 (arccos q.2.1) q.2.2) := by
  refine (by fun_prop : Measurable fun q : ℝ × ℝ × ℝ => q.1 * q.1).mul (hF.comp ?_)
  refine measurable_pi_lambda _ fun i => ?_
  fin_cases i <;> simp [sphericalCoordinates] <;> fun_prop

/-- The iterated integral as one integral over a product. -/
theorem iterated_eq_prod {F : Vec → ℝ} (hF : Measurable F) {K : ℝ} (hK : ∀ u, |F u| ≤ K) {R : ℝ} (hR : 0 ≤ R) :
    Integrable (fun q : ℝ × ℝ × ℝ => q.1 * q.1 * F (sphericalCoordinates q.1 (arccos q.2.1) q.2.2))
      ((volume.restrict (Ioc 0 R)).prod ((volume.restrict (Ioc (-1) 1)).prod (volume.restrict (Ioc 0 (2 * π))))) ∧
    (∫ r in (0 : ℝ)..R, ∫ c in (-1 : ℝ)..1, ∫ φ in (0 : ℝ)..(2 * π), r * r * F (sphericalCoordinates r (arccos c) φ)) =
      ∫ q, q.1 * q.1 * F (sphericalCoordinates q.1 (arccos q.2.1) q.2.2)
        ∂((volume.restrict (Ioc 0 R)).prod ((volume.restrict (Ioc (-1) 1)).prod (volume.restrict (Ioc 0 (2 * π))))) := by
  have hm := spherical_measurable hF
  have hK0 : 0 ≤ K := le_trans (abs_nonneg _) (hK 0)
  have hint : Integrable (fun q : ℝ × ℝ × ℝ => q.1 * q.1 * F (sphericalCoordinates q.1 (arccos q.2.1) q.2.2))
      ((volume.restrict (Ioc 0 R)).prod ((volume.restrict (Ioc (-1) 1)).prod (volume.restrict (Ioc 0 (2 * π))))) := by
    refine Integrable.of_bound hm.aestronglyMeasurable (R * R * K) ?_
    have h1 : ∀ᵐ q ∂((volume.restrict (Ioc 0 R)).prod ((volume.restrict (Ioc (-1 : ℝ) 1)).prod (volume.restrict (Ioc 0 (2 * π))))), q.1 ∈ Ioc 0 R :=
      Measure.quasiMeasurePreserving_fst.ae (ae_restrict_mem measurableSet_Ioc)
    filter_upwards [h1] with q hq
    rw [Real.norm_eq_abs, abs_mul, abs_mul_self]
    exact mul_le_mul (mul_self_le_mul_self hq.1.le hq.2) (hK _) (abs_nonneg _) (by positivity)
  refine ⟨hint, ?_⟩
  rw [integral_prod _ hint, intervalIntegral.integral_of_le hR]
  refine integral_congr_ae (Filter.Eventually.of_forall fun r => ?_)
  simp only
  have hint' : Integrable (fun q : ℝ × ℝ => r * r * F (sphericalCoordinates r (arccos q.1) q.2))
      ((volume.restrict (Ioc (-1) 1)).prod (volume.restrict (Ioc 0 (2 * π)))) := by
    refine Integrable.of_bound (hm.comp (by fun_prop : Measurable fun q : ℝ × ℝ => (r, q.1, q.2))).aestronglyMeasurable (r * r * K) ?_
    refine Filter.Eventually.of_forall fun q => ?_
    rw [Real.norm_eq_abs, abs_mul, abs_mul_self]
    exact mul_le_mul_of_nonneg_left (hK _) (mul_self_nonneg r)
  rw [integral_prod _ hint', intervalIntegral.integral_of_le (by norm_num)]
  refine integral_congr_ae (Filter.Eventually.of_forall fun c => ?_)
  simp only
  rw [intervalIntegral.integral_of_le (by positivity)]

/-- Non-negative functions that vanish beyond the speed `R`. -/
theorem iterated_nonneg {F : Vec → ℝ} (hF : Measurable F) {K : ℝ} (h0 : ∀ u, 0 ≤ F u) (hK : ∀ u, F u ≤ K) {R : ℝ} (hR : 0 ≤ R)
    (hz : ∀ u, R < vnorm u → F u = 0) :
    (∫ r in (0 : ℝ)..R, ∫ c in (-1 : ℝ)..1, ∫ φ in (0 : ℝ)..(2 * π), r * r * F (sphericalCoordinates r (arccos c) φ)) =
      (∫⁻ u : Vec, ENNReal.ofReal (F u)).toReal := by
  have hK0 : 0 ≤ K := le_trans (h0 0) (hK 0)
  set f : ℝ → ℝ → ℝ → ℝ := fun x y z => F ![x, y, z] with hf
  have hfm : Measurable fun p : ℝ × ℝ × ℝ => f p.1 p.2.1 p.2.2 := by
    refine hF.comp (measurable_pi_lambda _ fun i => ?_)
    fin_cases i <;> simp <;> fun_prop
  set D : ℝ → ℝ≥0∞ := dirs (fun x y z => ENNReal.ofReal (f x y z)) with hD
  have hid := fun r => integral_dirs f hfm (fun _ _ _ => h0 _) (fun _ _ _ => hK _) r
  have hDm : Measurable D := by
    unfold D dirs
    refine Measurable.lintegral_prod_right' (f := fun q : ℝ × ℝ => ∫⁻ φ in Ioo (-π) π, ENNReal.ofReal (f (q.1 * sin (arccos q.2) * cos φ) (q.1 * sin (arccos q.2) * sin φ) (q.1 * q.2))) ?_
    refine Measurable.lintegral_prod_right' (f := fun q : (ℝ × ℝ) × ℝ => ENNReal.ofReal (f (q.1.1 * sin (arccos q.1.2) * cos q.2) (q.1.1 * sin (arccos q.1.2) * sin q.2) (q.1.1 * q.1.2))) ?_
    exact hfm.ennreal_ofReal.comp (by fun_prop : Measurable fun q : (ℝ × ℝ) × ℝ => (q.1.1 * sin (arccos q.1.2) * cos q.2, q.1.1 * sin (arccos q.1.2) * sin q.2, q.1.1 * q.1.2))
  have hin : ∀ r, (∫ c in (-1 : ℝ)..1, ∫ φ in (0 : ℝ)..(2 * π), r * r * F (sphericalCoordinates r (arccos c) φ)) = r ^ 2 * (D r).toReal := by
    intro r
    rw [hD, ← (hid r).2, pow_two]
    simp_rw [intervalIntegral.integral_const_mul]
    rfl
  have hD0 : ∀ r, R < r → D r = 0 := by
    intro r hr
    rw [hD]
    unfold dirs
    rw [setLIntegral_congr_fun (g := fun _ => 0) measurableSet_Ioo, lintegral_zero]
    intro c hc
    simp only
    rw [setLIntegral_congr_fun (g := fun _ => 0) measurableSet_Ioo, lintegral_zero]
    intro φ _
    simp only [hf]
    rw [hz, ENNReal.ofReal_zero]
    rw [vnorm, Real.lt_sqrt hR]
    simp only [dot, Matrix.cons_val_zero, Matrix.cons_val_one, Matrix.cons_val]
    rw [sphere_sq r (Ioo_subset_Icc_self hc)]
    nlinarith
  simp_rw [hin]
  rw [intervalIntegral.integral_of_le hR,
    integral_eq_lintegral_of_nonneg_ae (Filter.Eventually.of_forall fun r => mul_nonneg (sq_nonneg r) ENNReal.toReal_nonneg)
      ((by fun_prop : Measurable fun r : ℝ => r ^ 2).mul hDm.ennreal_toReal).aestronglyMeasurable]
  congr 1
  have e1 : ∫⁻ r in Ioc (0 : ℝ) R, ENNReal.ofReal (r ^ 2 * (D r).toReal) = ∫⁻ r in Ioc (0 : ℝ) R, ENNReal.ofReal (r ^ 2) * D r := by
    refine setLIntegral_congr_fun measurableSet_Ioc fun r _ => ?_
    rw [ENNReal.ofReal_mul (sq_nonneg r), ENNReal.ofReal_toReal (hid r).1]
  have e2 : ∫⁻ r in Ioi (0 : ℝ), ENNReal.ofReal (r ^ 2) * D r = ∫⁻ r in Ioc (0 : ℝ) R, ENNReal.ofReal (r ^ 2) * D r := by
    rw [← inter_eq_left.2 (Ioc_subset_Ioi_self : Ioc (0 : ℝ) R ⊆ Ioi 0), ← Measure.restrict_restrict measurableSet_Ioc,
      ← lintegral_indicator measurableSet_Ioc]
    refine setLIntegral_congr_fun measurableSet_Ioi fun v hv => ?_
    by_cases hm : v ≤ R
    · rw [indicator_of_mem (show v ∈ Ioc (0 : ℝ) _ from ⟨hv, hm⟩)]
    · rw [indicator_of_notMem (fun hx : v ∈ Ioc (0 : ℝ) _ => hm hx.2), hD0 v (not_le.1 hm), mul_zero]
  rw [e1, ← e2, hD, ← lintegral_spherical _ hfm.ennreal_ofReal, ← lintegral_components _ hfm.ennreal_ofReal]
  refine lintegral_congr fun u => ?_
  simp only [hf]
  congr 2
  funext i
  fin_cases i <;> rfl

/-- Integral over the ball of radius `R` in spherical coordinates, for bounded functions that vanish outside. -/
theorem iterated_eq_integral {F : Vec → ℝ} (hF : Measurable F) {K : ℝ} (hK : ∀ u, |F u| ≤ K) {R : ℝ} (hR : 0 ≤ R)
    (hz : ∀ u, R < vnorm u → F u = 0) :
    Integrable F ∧
    (∫ r in (0 : ℝ)..R, ∫ c in (-1 : ℝ)..1, ∫ φ in (0 : ℝ)..(2 * π), r * r * F (sphericalCoordinates r (arccos c) φ)) = ∫ u, F u := by
  have hball : Integrable F := by
    have hs : Function.support F ⊆ Metric.closedBall (0 : Vec) R := by
      intro u hu
      rw [Function.mem_support] at hu
      have hle : vnorm u ≤ R := by
        by_contra hc
        exact hu (hz u (not_le.1 hc))
      rw [mem_closedBall_zero_iff, pi_norm_le_iff_of_nonneg hR]
      intro i
      refine le_trans ?_ hle
      rw [Real.norm_eq_abs]
      refine Real.abs_le_sqrt ?_
      unfold dot
      fin_cases i <;> simp <;> nlinarith [mul_self_nonneg (u 0), mul_self_nonneg (u 1), mul_self_nonneg (u 2)]
    rw [← integrableOn_iff_integrable_of_support_subset hs]
    refine Measure.integrableOn_of_bounded (M := K) ?_ hF.aestronglyMeasurable (Filter.Eventually.of_forall fun u => hK u)
    exact (isCompact_closedBall (0 : Vec) R).measure_lt_top.ne
  refine ⟨hball, ?_⟩
  have hp : Measurable fun u => max (F u) 0 := hF.max measurable_const
  have hn : Measurable fun u => max (-F u) 0 := hF.neg.max measurable_const
  have hpK : ∀ u, max (F u) 0 ≤ K := fun u => max_le (le_trans (le_abs_self _) (hK u)) (le_trans (abs_nonneg _) (hK u))
  have hnK : ∀ u, max (-F u) 0 ≤ K := fun u => max_le (le_trans (neg_le_abs _) (hK u)) (le_trans (abs_nonneg _) (hK u))
  have ip := iterated_nonneg hp (fun _ => le_max_right _ _) hpK hR (fun u hu => by simp [hz u hu])
  have inn := iterated_nonneg hn (fun _ => le_max_right _ _) hnK hR (fun u hu => by simp [hz u hu])
  have ap := iterated_eq_prod hp (K := K) (fun u => by rw [abs_of_nonneg (le_max_right _ _)]; exact hpK u) hR
  have an := iterated_eq_prod hn (K := K) (fun u => by rw [abs_of_nonneg (le_max_right _ _)]; exact hnK u) hR
  have a := iterated_eq_prod hF hK hR
  rw [ap.2] at ip
  rw [an.2] at inn
  rw [a.2, integral_eq_lintegral_pos_part_sub_lintegral_neg_part hball]
  have e1 : ∫⁻ u, ENNReal.ofReal (F u) = ∫⁻ u, ENNReal.ofReal (max (F u) 0) :=
    lintegral_congr fun u => by rcases le_total (F u) 0 with h | h <;> simp [h, ENNReal.ofReal_eq_zero.2]
  have e2 : ∫⁻ u, ENNReal.ofReal (-F u) = ∫⁻ u, ENNReal.ofReal (max (-F u) 0) :=
    lintegral_congr fun u => by rcases le_total (-F u) 0 with h | h <;> simp [h, ENNReal.ofReal_eq_zero.2]
  rw [e1, e2, ← ip, ← inn, ← integral_sub ap.1 an.1]
  refine integral_congr_ae (Filter.Eventually.of_forall fun q => ?_)
  simp only
  rw [← mul_sub]
  congr 1
  rcases le_total (F (sphericalCoordinates q.1 (arccos q.2.1) q.2.2)) 0 with h | h
  · rw [max_eq_right h, max_eq_left (by linarith)]; ring
  · rw [max_eq_left h, max_eq_right (by linarith)]; ring

theorem vnorm_sub_le (u w : Vec) : vnorm u ≤ vnorm (u + w) + vnorm w := by
  have h1 : ∀ x : Vec, vnorm x = ‖(WithLp.toLp 2 x : EuclideanSpace ℝ (Fin 3))‖ := by
    intro x
    rw [EuclideanSpace.norm_eq, Fin.sum_univ_three]
    simp [vnorm, dot, pow_two]
  rw [h1, h1, h1]
  have : (WithLp.toLp 2 u : EuclideanSpace ℝ (Fin 3)) = WithLp.toLp 2 (u + w) - WithLp.toLp 2 w := by
    rw [← WithLp.toLp_sub, add_sub_cancel_right]
  rw [this]
  exact norm_sub_le _ _

/-- Mean of a symmetric function with integral 1 seen by a moving observer. -/
theorem mean_boosted {g : Vec → ℝ} (hg : Measurable g) {K e : ℝ} (hK : ∀ u, |g u| ≤ K) (he : 0 ≤ e)
    (hz : ∀ u, e < vnorm u → g u = 0) (heven : ∀ u, g (-u) = g u) (hone : ∫ u, g u = 1) (w : Vec) {R : ℝ}
    (hR : e + vnorm w ≤ R) (i : Fin 3) :
    (∫ r in (0 : ℝ)..R, ∫ c in (-1 : ℝ)..1, ∫ φ in (0 : ℝ)..(2 * π),
      r * r * (sphericalCoordinates r (arccos c) φ i * g (sphericalCoordinates r (arccos c) φ + w))) = -w i := by
  have hw := vnorm_nonneg w
  have hR0 : 0 ≤ R := by linarith
  have hK0 : 0 ≤ K := le_trans (abs_nonneg _) (hK 0)
  have hcomp : ∀ (u : Vec) i, |u i| ≤ vnorm u := by
    intro u i
    refine Real.abs_le_sqrt ?_
    unfold dot
    fin_cases i <;> simp <;> nlinarith [mul_self_nonneg (u 0), mul_self_nonneg (u 1), mul_self_nonneg (u 2)]
  have hz' : ∀ u, R < vnorm u → g (u + w) = 0 := by
    intro u hu
    apply hz
    linarith [vnorm_sub_le u w]
  have hFm : Measurable fun u : Vec => u i * g (u + w) := (measurable_pi_apply i).mul (hg.comp (measurable_id.add_const w))
  have hFK : ∀ u : Vec, |u i * g (u + w)| ≤ R * K := by
    intro u
    by_cases hu : R < vnorm u
    · rw [hz' u hu, mul_zero, abs_zero]; positivity
    · rw [abs_mul]
      exact mul_le_mul (le_trans (hcomp u i) (not_lt.1 hu)) (hK _) (abs_nonneg _) hR0
  have h1 := iterated_eq_integral hFm hFK hR0 (fun u hu => by rw [hz' u hu, mul_zero])
  rw [h1.2]
  have hgm : Measurable fun u : Vec => u i * g u := (measurable_pi_apply i).mul hg
  have hgK : ∀ u : Vec, |u i * g u| ≤ e * K := by
    intro u
    by_cases hu : e < vnorm u
    · rw [hz u hu, mul_zero, abs_zero]; positivity
    · rw [abs_mul]
      exact mul_le_mul (le_trans (hcomp u i) (not_lt.1 hu)) (hK _) (abs_nonneg _) he
  have h2 := (iterated_eq_integral hgm hgK he (fun u hu => by rw [hz u hu, mul_zero])).1
  have h3 := (iterated_eq_integral hg hK he hz).1
  have e1 : ∫ u : Vec, u i * g (u + w) = ∫ u : Vec, (u i * g u - w i * g u) := by
    rw [← integral_add_right_eq_self (fun u : Vec => u i * g u - w i * g u) w]
    refine integral_congr_ae (Filter.Eventually.of_forall fun u => ?_)
    simp only [Pi.add_apply]
    ring
  have e2 : ∫ u : Vec, u i * g u = 0 := by
    have := integral_neg_eq_self (fun u : Vec => u i * g u) volume
    simp only [heven, Pi.neg_apply, neg_mul] at this
    rw [integral_neg] at this
    linarith
  rw [e1, integral_sub h2 (h3.const_mul _), e2, integral_const_mul, hone]
  ring

/-- The isotropic velocity PDF is normalised over all velocities. -/
theorem lintegral_maxwell {a e : ℝ} (ha : 0 < a) (he : 0 < e) :
    ∫⁻ u : Vec, ENNReal.ofReal (maxwell a e (1 / SHM.nEscOf a e * ((a * √π) ^ 3)⁻¹) (dot u u)) = 1 := by
  have hN := nEscOf_pos ha he
  have hπ := sqrt_pi_pos
  have hpi : √π ^ 2 = π := Real.sq_sqrt pi_pos.le
  set C := 1 / SHM.nEscOf a e * ((a * √π) ^ 3)⁻¹ with hC
  have hC0 : 0 ≤ C := by positivity
  have hm : Measurable fun u : Vec => maxwell a e C (dot u u) := by
    refine (measurable_maxwell a e C).comp ?_
    unfold dot
    fun_prop
  have hz : ∀ u : Vec, e < vnorm u → maxwell a e C (dot u u) = 0 := fun u hu => by
    unfold maxwell; exact if_pos (Or.inl hu)
  have hI := iterated_nonneg hm (fun u => maxwell_nonneg hC0 _) (fun u => maxwell_le hC0 _) he.le hz
  have hfin : ∫⁻ u : Vec, ENNReal.ofReal (maxwell a e C (dot u u)) ≠ ∞ := by
    have := (iterated_eq_integral hm (K := C) (fun u => by rw [abs_of_nonneg (maxwell_nonneg hC0 _)]; exact maxwell_le hC0 _) he.le hz).1
    exact (lintegral_ofReal_ne_top_iff_integrable this.1 (Filter.Eventually.of_forall fun u => maxwell_nonneg hC0 _)).2 this
  have hval : (∫ r in (0 : ℝ)..e, ∫ c in (-1 : ℝ)..1, ∫ φ in (0 : ℝ)..(2 * π),
      r * r * maxwell a e C (dot (sphericalCoordinates r (arccos c) φ) (sphericalCoordinates r (arccos c) φ))) = 1 := by
    have h1 : ∀ r ∈ Ioc (0 : ℝ) e, (∫ c in (-1 : ℝ)..1, ∫ φ in (0 : ℝ)..(2 * π),
        r * r * maxwell a e C (dot (sphericalCoordinates r (arccos c) φ) (sphericalCoordinates r (arccos c) φ))) =
        1 / SHM.nEscOf a e * (4 * r * r / √π / a / a / a * gauss a r) := by
      intro r hr
      have h2 : ∀ c φ : ℝ, dot (sphericalCoordinates r (arccos c) φ) (sphericalCoordinates r (arccos c) φ) = r ^ 2 := by
        intro c φ
        simp only [dot, sphericalCoordinates, Matrix.cons_val_zero, Matrix.cons_val_one, Matrix.cons_val]
        have e1 := sin_sq_add_cos_sq φ
        have e2 := sin_sq_add_cos_sq (arccos c)
        linear_combination r ^ 2 * sin (arccos c) ^ 2 * e1 + r ^ 2 * e2
      simp_rw [h2]
      rw [intervalIntegral.integral_const, intervalIntegral.integral_const, smul_eq_mul, smul_eq_mul]
      unfold maxwell
      rw [Real.sqrt_sq hr.1.le, if_neg (by push Not; exact ⟨hr.2, hr.1⟩)]
      have : exp (-1 * r ^ 2 / a / a) = gauss a r := by unfold gauss; congr 1; field_simp
      rw [this, hC]
      generalize gauss a r = X
      nth_rw 1 [← hpi]
      field_simp
      ring
    rw [intervalIntegral.integral_of_le he.le, setIntegral_congr_fun measurableSet_Ioc h1, ← intervalIntegral.integral_of_le he.le,
      intervalIntegral.integral_const_mul, intervalIntegral.integral_eq_sub_of_hasDerivAt (fun r _ => hasDerivAt_nEsc ha r)]
    · have h0 : SHM.nEscOf a 0 = 0 := by rw [nEscOf_eq]; simp [erf_zero]
      rw [← nEscOf_eq, ← nEscOf_eq, h0, sub_zero, one_div, inv_mul_cancel₀ hN.ne']
    · refine Continuous.intervalIntegrable ?_ _ _
      have := continuous_gauss a
      fun_prop
  rw [hval] at hI
  rw [← ENNReal.ofReal_toReal hfin, ← hI, ENNReal.ofReal_one]

end Obscura
