import Mathlib.Analysis.SpecialFunctions.PolarCoord
import Mathlib.MeasureTheory.Function.JacobianOneDim
import Mathlib.MeasureTheory.Integral.IntervalIntegral.Periodic
import Mathlib.MeasureTheory.Measure.Haar.InnerProductSpace
import Mathlib.Analysis.InnerProductSpace.Projection.Reflection
import Mathlib.Analysis.SpecialFunctions.Trigonometric.Inverse
import Mathlib.Analysis.SpecialFunctions.Trigonometric.Deriv

/-!
# Integration over the sphere in the coordinates `(cos θ, φ)`

Spherical coordinates for three-dimensional Lebesgue integrals, and the rotation invariance of the integral over directions.
-/

namespace Obscura

open MeasureTheory Set Real
open scoped ENNReal

/-- Integral over the directions `(θ = arccos c, φ)` at radius `r`, with `φ ∈ (-π, π)`. -/
noncomputable def dirs (f : ℝ → ℝ → ℝ → ℝ≥0∞) (r : ℝ) : ℝ≥0∞ :=
  ∫⁻ c in Ioo (-1 : ℝ) 1, ∫⁻ φ in Ioo (-π) π, f (r * sin (arccos c) * cos φ) (r * sin (arccos c) * sin φ) (r * c)

theorem cos_image_Ioo : cos '' Ioo 0 π = Ioo (-1) 1 := by
  ext c
  constructor
  · rintro ⟨t, ht, rfl⟩
    refine ⟨?_, ?_⟩
    · rw [← cos_pi]; exact cos_lt_cos_of_nonneg_of_le_pi ht.1.le le_rfl ht.2
    · rw [← cos_zero]; exact cos_lt_cos_of_nonneg_of_le_pi le_rfl ht.2.le ht.1
  · intro hc
    refine ⟨arccos c, ⟨arccos_pos.2 hc.2, ?_⟩, cos_arccos hc.1.le hc.2.le⟩
    exact lt_of_le_of_ne (arccos_le_pi c) fun h => by
      have := arccos_eq_pi.1 h
      exact absurd hc.1 (not_lt.2 this)

theorem lintegral_theta (g : ℝ → ℝ≥0∞) :
    ∫⁻ t in Ioo 0 π, ENNReal.ofReal (sin t) * g t = ∫⁻ c in Ioo (-1 : ℝ) 1, g (arccos c) := by
  rw [← cos_image_Ioo, lintegral_image_eq_lintegral_abs_deriv_mul measurableSet_Ioo
    (fun x _ => (hasDerivAt_cos x).hasDerivWithinAt) (injOn_cos.mono Ioo_subset_Icc_self)]
  refine setLIntegral_congr_fun measurableSet_Ioo fun t ht => ?_
  rw [abs_neg, abs_of_pos (sin_pos_of_mem_Ioo ht), arccos_cos ht.1.le ht.2.le]

theorem lintegral_polar (g : ℝ → ℝ → ℝ≥0∞) (hg : Measurable fun p : ℝ × ℝ => g p.1 p.2) :
    ∫⁻ p : ℝ × ℝ, g p.1 p.2 =
      ∫⁻ r in Ioi (0 : ℝ), ∫⁻ t in Ioo (-π) π, ENNReal.ofReal r * g (r * cos t) (r * sin t) := by
  rw [← lintegral_comp_polarCoord_symm, polarCoord_target, Measure.volume_eq_prod, ← Measure.prod_restrict, lintegral_prod]
  · simp only [polarCoord_symm_apply, smul_eq_mul]
  · refine Measurable.aemeasurable ?_
    simp only [polarCoord_symm_apply, smul_eq_mul]
    refine (by fun_prop : Measurable fun p : ℝ × ℝ => ENNReal.ofReal p.1).mul ?_
    exact hg.comp (by fun_prop : Measurable fun p : ℝ × ℝ => (p.1 * cos p.2, p.1 * sin p.2))

theorem lintegral_spherical (f : ℝ → ℝ → ℝ → ℝ≥0∞) (hf : Measurable fun p : ℝ × ℝ × ℝ => f p.1 p.2.1 p.2.2) :
    ∫⁻ z, ∫⁻ x, ∫⁻ y, f x y z = ∫⁻ r in Ioi (0 : ℝ), ENNReal.ofReal (r ^ 2) * dirs f r := by
  have h1 : ∀ z, ∫⁻ x, ∫⁻ y, f x y z =
      ∫⁻ ρ in Ioi (0 : ℝ), ∫⁻ φ in Ioo (-π) π, ENNReal.ofReal ρ * f (ρ * cos φ) (ρ * sin φ) z := by
    intro z
    have hz : Measurable fun p : ℝ × ℝ => f p.1 p.2 z :=
      hf.comp (by fun_prop : Measurable fun p : ℝ × ℝ => (p.1, p.2, z))
    rw [← lintegral_polar (fun x y => f x y z) hz, Measure.volume_eq_prod, lintegral_prod _ hz.aemeasurable]
  set G : ℝ → ℝ → ℝ≥0∞ := fun z ρ => ∫⁻ φ in Ioo (-π) π, f (ρ * cos φ) (ρ * sin φ) z with hG
  have hGm : Measurable fun p : ℝ × ℝ => G p.1 p.2 := by
    refine Measurable.lintegral_prod_right' (f := fun q : (ℝ × ℝ) × ℝ => f (q.1.2 * cos q.2) (q.1.2 * sin q.2) q.1.1) ?_
    exact hf.comp (by fun_prop : Measurable fun q : (ℝ × ℝ) × ℝ => (q.1.2 * cos q.2, q.1.2 * sin q.2, q.1.1))
  have h2 : ∀ z, ∫⁻ x, ∫⁻ y, f x y z = ∫⁻ ρ, (Ioi (0 : ℝ)).indicator (fun ρ => ENNReal.ofReal ρ * G z ρ) ρ := by
    intro z
    rw [h1, lintegral_indicator measurableSet_Ioi]
    refine setLIntegral_congr_fun measurableSet_Ioi fun ρ _ => ?_
    simp only [hG]
    rw [lintegral_const_mul]
    exact hf.comp (by fun_prop : Measurable fun φ : ℝ => (ρ * cos φ, ρ * sin φ, z))
  have hI : Measurable fun p : ℝ × ℝ => (Ioi (0 : ℝ)).indicator (fun ρ => ENNReal.ofReal ρ * G p.1 ρ) p.2 := by
    have : (fun p : ℝ × ℝ => (Ioi (0 : ℝ)).indicator (fun ρ => ENNReal.ofReal ρ * G p.1 ρ) p.2) =
        {p : ℝ × ℝ | 0 < p.2}.indicator fun p => ENNReal.ofReal p.2 * G p.1 p.2 := by
      funext p
      by_cases h : 0 < p.2 <;> simp [indicator, h]
    rw [this]
    refine Measurable.indicator ?_ (measurableSet_lt measurable_const measurable_snd)
    exact (by fun_prop : Measurable fun p : ℝ × ℝ => ENNReal.ofReal p.2).mul hGm
  rw [lintegral_congr h2,
    ← lintegral_prod (fun p : ℝ × ℝ => (Ioi (0 : ℝ)).indicator (fun ρ => ENNReal.ofReal ρ * G p.1 ρ) p.2) hI.aemeasurable,
    ← Measure.volume_eq_prod,
    lintegral_polar (fun z ρ => (Ioi (0 : ℝ)).indicator (fun ρ => ENNReal.ofReal ρ * G z ρ) ρ) hI]
  refine setLIntegral_congr_fun measurableSet_Ioi fun r hr => ?_
  have hr' : (0 : ℝ) < r := hr
  have h3 : ∀ t ∈ Ioo (-π) π, ENNReal.ofReal r * (Ioi (0 : ℝ)).indicator (fun ρ => ENNReal.ofReal ρ * G (r * cos t) ρ) (r * sin t) =
      (Ioo 0 π).indicator (fun t => ENNReal.ofReal (sin t) * (ENNReal.ofReal (r ^ 2) * G (r * cos t) (r * sin t))) t := by
    intro t ht
    by_cases h0 : 0 < t
    · have hs : 0 < sin t := sin_pos_of_mem_Ioo ⟨h0, ht.2⟩
      rw [indicator_of_mem (show r * sin t ∈ Ioi (0 : ℝ) from mul_pos hr' hs), indicator_of_mem (show t ∈ Ioo 0 π from ⟨h0, ht.2⟩)]
      rw [ENNReal.ofReal_mul hr'.le, pow_two, ENNReal.ofReal_mul hr'.le]
      ring
    · have hs : sin t ≤ 0 := sin_nonpos_of_nonpos_of_neg_pi_le (not_lt.1 h0) ht.1.le
      have hm : r * sin t ∉ Ioi (0 : ℝ) := fun h => absurd (show 0 < r * sin t from h) (not_lt.2 (mul_nonpos_of_nonneg_of_nonpos hr'.le hs))
      rw [indicator_of_notMem hm, indicator_of_notMem (fun h : t ∈ Ioo 0 π => h0 h.1), mul_zero]
  rw [setLIntegral_congr_fun measurableSet_Ioo h3, lintegral_indicator measurableSet_Ioo, Measure.restrict_restrict measurableSet_Ioo,
    inter_eq_left.2 (Ioo_subset_Ioo (by linarith [pi_pos]) le_rfl), lintegral_theta]
  rw [dirs, ← lintegral_const_mul']
  · refine setLIntegral_congr_fun measurableSet_Ioo fun c hc => ?_
    simp only [hG, cos_arccos hc.1.le hc.2.le]
  · exact ENNReal.ofReal_ne_top

/-- Three-dimensional Lebesgue integral written out in components. -/
theorem lintegral_components (f : ℝ → ℝ → ℝ → ℝ≥0∞) (hf : Measurable fun p : ℝ × ℝ × ℝ => f p.1 p.2.1 p.2.2) :
    ∫⁻ u : Fin 3 → ℝ, f (u 0) (u 1) (u 2) = ∫⁻ z, ∫⁻ x, ∫⁻ y, f x y z := by
  have e1 := volume_preserving_piFinSuccAbove (fun _ : Fin 3 => ℝ) 2
  have hm : Measurable fun q : ℝ × (Fin 2 → ℝ) => f (q.2 0) (q.2 1) q.1 :=
    hf.comp (by fun_prop : Measurable fun q : ℝ × (Fin 2 → ℝ) => (q.2 0, q.2 1, q.1))
  have h1 := e1.lintegral_comp hm
  have h2 : ∀ u : Fin 3 → ℝ, f (((MeasurableEquiv.piFinSuccAbove (fun _ : Fin 3 => ℝ) 2) u).2 0)
      (((MeasurableEquiv.piFinSuccAbove (fun _ : Fin 3 => ℝ) 2) u).2 1)
      (((MeasurableEquiv.piFinSuccAbove (fun _ : Fin 3 => ℝ) 2) u).1) = f (u 0) (u 1) (u 2) := fun u => rfl
  rw [lintegral_congr h2] at h1
  rw [h1, Measure.volume_eq_prod, lintegral_prod _ hm.aemeasurable]
  refine lintegral_congr fun z => ?_
  have e2 := volume_preserving_finTwoArrow ℝ
  have hm2 : Measurable fun q : ℝ × ℝ => f q.1 q.2 z :=
    hf.comp (by fun_prop : Measurable fun q : ℝ × ℝ => (q.1, q.2, z))
  have h3 := e2.lintegral_comp hm2
  have h4 : ∀ u : Fin 2 → ℝ, f ((MeasurableEquiv.finTwoArrow u).1) ((MeasurableEquiv.finTwoArrow u).2) z = f (u 0) (u 1) z :=
    fun u => rfl
  rw [lintegral_congr h4] at h3
  rw [h3, Measure.volume_eq_prod, lintegral_prod _ hm2.aemeasurable]

/-- The integral of a function of `w·n` over all directions `n` depends on `|w|` only. -/
theorem dirs_zonal (h : ℝ → ℝ≥0∞) (hh : Measurable h) (a b c : ℝ) :
    dirs (fun x y z => h (a * x + b * y + c * z)) 1 =
      ENNReal.ofReal (2 * π) * ∫⁻ t in Ioo (-1 : ℝ) 1, h (√(a ^ 2 + b ^ 2 + c ^ 2) * t) := by
  -- the ball integral
  let F : ℝ → ℝ → ℝ → ℝ → ℝ → ℝ → ℝ≥0∞ := fun a b c x y z =>
    (Ioo (0 : ℝ) 1).indicator (fun n => h ((a * x + b * y + c * z) / n)) (√(x ^ 2 + y ^ 2 + z ^ 2))
  have hF : ∀ a b c, Measurable fun p : ℝ × ℝ × ℝ => F a b c p.1 p.2.1 p.2.2 := by
    intro a b c
    have : (fun p : ℝ × ℝ × ℝ => F a b c p.1 p.2.1 p.2.2) =
        {p : ℝ × ℝ × ℝ | √(p.1 ^ 2 + p.2.1 ^ 2 + p.2.2 ^ 2) ∈ Ioo (0 : ℝ) 1}.indicator
          fun p => h ((a * p.1 + b * p.2.1 + c * p.2.2) / √(p.1 ^ 2 + p.2.1 ^ 2 + p.2.2 ^ 2)) := by
      funext p
      by_cases hp : √(p.1 ^ 2 + p.2.1 ^ 2 + p.2.2 ^ 2) ∈ Ioo (0 : ℝ) 1
      · simp only [F]; rw [indicator_of_mem hp, indicator_of_mem (by exact hp)]
      · simp only [F]; rw [indicator_of_notMem hp, indicator_of_notMem (by exact hp)]
    rw [this]
    refine Measurable.indicator (hh.comp (by fun_prop)) ?_
    exact (by fun_prop : Measurable fun p : ℝ × ℝ × ℝ => √(p.1 ^ 2 + p.2.1 ^ 2 + p.2.2 ^ 2)) measurableSet_Ioo
  have hS : ∀ a b c, ∫⁻ u : Fin 3 → ℝ, F a b c (u 0) (u 1) (u 2) =
      (∫⁻ r in Ioo (0 : ℝ) 1, ENNReal.ofReal (r ^ 2)) * dirs (fun x y z => h (a * x + b * y + c * z)) 1 := by
    intro a b c
    rw [lintegral_components _ (hF a b c), lintegral_spherical _ (hF a b c)]
    have hd : ∀ r ∈ Ioi (0 : ℝ), ENNReal.ofReal (r ^ 2) * dirs (F a b c) r =
        (Ioo (0 : ℝ) 1).indicator (fun r => ENNReal.ofReal (r ^ 2) * dirs (fun x y z => h (a * x + b * y + c * z)) 1) r := by
      intro r hr
      have hr0 : (0 : ℝ) < r := hr
      have hn : ∀ c ∈ Ioo (-1 : ℝ) 1, ∀ φ, √((r * sin (arccos c) * cos φ) ^ 2 + (r * sin (arccos c) * sin φ) ^ 2 + (r * c) ^ 2) = r := by
        intro t ht φ
        rw [sin_arccos]
        have h1 : √(1 - t ^ 2) ^ 2 = 1 - t ^ 2 := Real.sq_sqrt (by nlinarith [ht.1, ht.2])
        have h2 := sin_sq_add_cos_sq φ
        rw [show (r * √(1 - t ^ 2) * cos φ) ^ 2 + (r * √(1 - t ^ 2) * sin φ) ^ 2 + (r * t) ^ 2 =
          r ^ 2 * (√(1 - t ^ 2) ^ 2 * (sin φ ^ 2 + cos φ ^ 2) + t ^ 2) by ring, h1, h2]
        rw [show r ^ 2 * ((1 - t ^ 2) * 1 + t ^ 2) = r ^ 2 by ring, Real.sqrt_sq hr0.le]
      by_cases h1 : r < 1
      · rw [indicator_of_mem (show r ∈ Ioo (0 : ℝ) 1 from ⟨hr0, h1⟩)]
        congr 1
        unfold dirs
        refine setLIntegral_congr_fun measurableSet_Ioo fun t ht => ?_
        refine setLIntegral_congr_fun measurableSet_Ioo fun φ _ => ?_
        simp only [F]
        rw [hn t ht φ, indicator_of_mem (show r ∈ Ioo (0 : ℝ) 1 from ⟨hr0, h1⟩)]
        congr 1
        field_simp
      · rw [indicator_of_notMem (fun hm : r ∈ Ioo (0 : ℝ) 1 => h1 hm.2)]
        have : dirs (F a b c) r = 0 := by
          unfold dirs
          rw [setLIntegral_congr_fun (g := fun _ => 0) measurableSet_Ioo, lintegral_zero]
          intro t ht
          simp only
          rw [setLIntegral_congr_fun (g := fun _ => 0) measurableSet_Ioo, lintegral_zero]
          intro φ _
          simp only [F]
          rw [hn t ht φ, indicator_of_notMem (fun hm : r ∈ Ioo (0 : ℝ) 1 => h1 hm.2)]
        rw [this, mul_zero]
    rw [setLIntegral_congr_fun measurableSet_Ioi hd, lintegral_indicator measurableSet_Ioo,
      Measure.restrict_restrict measurableSet_Ioo, inter_eq_left.2 Ioo_subset_Ioi_self, lintegral_mul_const]
    fun_prop
  have hK0 : (∫⁻ r in Ioo (0 : ℝ) 1, ENNReal.ofReal (r ^ 2)) ≠ 0 := by
    rw [Ne, setLIntegral_eq_zero_iff measurableSet_Ioo (by fun_prop)]
    intro hz
    have h0 : volume (Ioo (0 : ℝ) 1) = 0 := by
      refine measure_mono_null (fun x hx => ?_) (show volume {x | ¬ (x ∈ Ioo (0 : ℝ) 1 → ENNReal.ofReal (x ^ 2) = 0)} = 0 from hz)
      intro hx'
      have := hx' hx
      rw [ENNReal.ofReal_eq_zero] at this
      have : 0 < x ^ 2 := pow_pos hx.1 2
      linarith
    simp at h0
  have hKt : (∫⁻ r in Ioo (0 : ℝ) 1, ENNReal.ofReal (r ^ 2)) ≠ ∞ := by
    refine ne_of_lt (lt_of_le_of_lt (setLIntegral_mono measurable_const fun r hr => ?_) (b := ∫⁻ _ in Ioo (0 : ℝ) 1, 1) ?_)
    · rw [← ENNReal.ofReal_one]
      exact ENNReal.ofReal_le_ofReal (by nlinarith [hr.1, hr.2])
    · simp
  -- rotate `w` onto the polar axis
  have hrot : ∫⁻ u : Fin 3 → ℝ, F a b c (u 0) (u 1) (u 2) = ∫⁻ u : Fin 3 → ℝ, F 0 0 (√(a ^ 2 + b ^ 2 + c ^ 2)) (u 0) (u 1) (u 2) := by
    let w : EuclideanSpace ℝ (Fin 3) := !₂[a, b, c]
    let e : EuclideanSpace ℝ (Fin 3) := !₂[0, 0, √(a ^ 2 + b ^ 2 + c ^ 2)]
    have hwe : ‖w‖ = ‖e‖ := by
      simp [EuclideanSpace.norm_eq, Fin.sum_univ_three, w, e]
    let R := Submodule.reflection (ℝ ∙ (w - e))ᗮ
    have hR : R w = e := Submodule.reflection_sub hwe
    have key : ∀ (a b c : ℝ) (u : EuclideanSpace ℝ (Fin 3)), F a b c (u 0) (u 1) (u 2) =
        (Ioo (0 : ℝ) 1).indicator (fun n => h (inner ℝ (!₂[a, b, c] : EuclideanSpace ℝ (Fin 3)) u / n)) ‖u‖ := by
      intro a b c u
      simp only [F]
      rw [EuclideanSpace.norm_eq, Fin.sum_univ_three]
      simp [PiLp.inner_apply, Fin.sum_univ_three, mul_comm]
    have tr : ∀ a b c, ∫⁻ u : Fin 3 → ℝ, F a b c (u 0) (u 1) (u 2) = ∫⁻ u : EuclideanSpace ℝ (Fin 3), F a b c (u 0) (u 1) (u 2) := by
      intro a b c
      have hm : Measurable fun u : Fin 3 → ℝ => F a b c (u 0) (u 1) (u 2) :=
        (hF a b c).comp (by fun_prop : Measurable fun u : Fin 3 → ℝ => (u 0, u 1, u 2))
      rw [← (PiLp.volume_preserving_ofLp (Fin 3)).lintegral_comp hm]
    rw [tr, tr, lintegral_congr (key a b c), lintegral_congr (key 0 0 _)]
    have hm : Measurable fun u : EuclideanSpace ℝ (Fin 3) =>
        (Ioo (0 : ℝ) 1).indicator (fun n => h (inner ℝ e u / n)) ‖u‖ := by
      have h1 : Measurable fun u : EuclideanSpace ℝ (Fin 3) => F 0 0 (√(a ^ 2 + b ^ 2 + c ^ 2)) (u 0) (u 1) (u 2) :=
        (hF 0 0 _).comp (by fun_prop : Measurable fun u : EuclideanSpace ℝ (Fin 3) => (u 0, u 1, u 2))
      rwa [show (fun u : EuclideanSpace ℝ (Fin 3) => F 0 0 (√(a ^ 2 + b ^ 2 + c ^ 2)) (u 0) (u 1) (u 2)) = _ from
        funext (key 0 0 _)] at h1
    rw [← (LinearIsometryEquiv.measurePreserving R).lintegral_comp hm]
    refine lintegral_congr fun u => ?_
    rw [LinearIsometryEquiv.norm_map, ← hR, LinearIsometryEquiv.inner_map_map]
  have := hS a b c
  rw [hrot, hS] at this
  rw [← (ENNReal.mul_right_inj hK0 hKt).1 this]
  unfold dirs
  rw [← lintegral_const_mul]
  · refine setLIntegral_congr_fun measurableSet_Ioo fun t _ => ?_
    simp only [zero_mul, zero_add, one_mul, lintegral_const, Measure.restrict_apply MeasurableSet.univ, univ_inter, Real.volume_Ioo]
    rw [mul_comm, show π - -π = 2 * π by ring]
  · exact hh.comp (by fun_prop)

/-- Iterated interval integrals over directions as a Lebesgue integral. -/
theorem integral_dirs (f : ℝ → ℝ → ℝ → ℝ) (hf : Measurable fun p : ℝ × ℝ × ℝ => f p.1 p.2.1 p.2.2) {M : ℝ}
    (h0 : ∀ x y z, 0 ≤ f x y z) (hM : ∀ x y z, f x y z ≤ M) (r : ℝ) :
    dirs (fun x y z => ENNReal.ofReal (f x y z)) r ≠ ∞ ∧
    (∫ c : ℝ in (-1)..1, ∫ φ : ℝ in (0)..(2 * π), f (r * sin (arccos c) * cos φ) (r * sin (arccos c) * sin φ) (r * cos (arccos c))) =
      (dirs (fun x y z => ENNReal.ofReal (f x y z)) r).toReal := by
  have hin : ∀ c ∈ Ioo (-1 : ℝ) 1, (∫ φ : ℝ in (0)..(2 * π), f (r * sin (arccos c) * cos φ) (r * sin (arccos c) * sin φ) (r * cos (arccos c))) =
      (∫⁻ φ in Ioo (-π) π, ENNReal.ofReal (f (r * sin (arccos c) * cos φ) (r * sin (arccos c) * sin φ) (r * c))).toReal := by
    intro c hc
    have hper : Function.Periodic (fun φ => f (r * sin (arccos c) * cos φ) (r * sin (arccos c) * sin φ) (r * cos (arccos c))) (2 * π) := by
      intro φ; simp only [cos_add_two_pi, sin_add_two_pi]
    have := hper.intervalIntegral_add_eq 0 (-π)
    rw [zero_add, show -π + 2 * π = π by ring] at this
    rw [this, intervalIntegral.integral_of_le (by linarith [pi_pos]), integral_Ioc_eq_integral_Ioo,
      integral_eq_lintegral_of_nonneg_ae (Filter.Eventually.of_forall fun _ => h0 _ _ _)]
    · rw [cos_arccos hc.1.le hc.2.le]
    · exact (hf.comp (by fun_prop : Measurable fun φ : ℝ => (r * sin (arccos c) * cos φ, r * sin (arccos c) * sin φ, r * cos (arccos c)))).aestronglyMeasurable
  have hbd : ∀ c, (∫⁻ φ in Ioo (-π) π, ENNReal.ofReal (f (r * sin (arccos c) * cos φ) (r * sin (arccos c) * sin φ) (r * c))) ≤
      ENNReal.ofReal M * ENNReal.ofReal (2 * π) := by
    intro c
    refine le_trans (lintegral_mono fun φ => ENNReal.ofReal_le_ofReal (hM _ _ _)) ?_
    rw [lintegral_const, Measure.restrict_apply MeasurableSet.univ, univ_inter, Real.volume_Ioo, show π - -π = 2 * π by ring]
  have hfin : ∀ c, (∫⁻ φ in Ioo (-π) π, ENNReal.ofReal (f (r * sin (arccos c) * cos φ) (r * sin (arccos c) * sin φ) (r * c))) ≠ ∞ :=
    fun c => ne_of_lt (lt_of_le_of_lt (hbd c) (ENNReal.mul_lt_top ENNReal.ofReal_lt_top ENNReal.ofReal_lt_top))
  have hmeas : Measurable fun c => ∫⁻ φ in Ioo (-π) π, ENNReal.ofReal (f (r * sin (arccos c) * cos φ) (r * sin (arccos c) * sin φ) (r * c)) := by
    refine Measurable.lintegral_prod_right' (f := fun q : ℝ × ℝ => ENNReal.ofReal (f (r * sin (arccos q.1) * cos q.2) (r * sin (arccos q.1) * sin q.2) (r * q.1))) ?_
    exact (hf.comp (by fun_prop : Measurable fun q : ℝ × ℝ => (r * sin (arccos q.1) * cos q.2, r * sin (arccos q.1) * sin q.2, r * q.1))).ennreal_ofReal
  constructor
  · refine ne_of_lt (lt_of_le_of_lt (lintegral_mono hbd) ?_)
    rw [lintegral_const, Measure.restrict_apply MeasurableSet.univ, univ_inter, Real.volume_Ioo]
    exact ENNReal.mul_lt_top (ENNReal.mul_lt_top ENNReal.ofReal_lt_top ENNReal.ofReal_lt_top) ENNReal.ofReal_lt_top
  · rw [intervalIntegral.integral_of_le (by norm_num), integral_Ioc_eq_integral_Ioo, setIntegral_congr_fun measurableSet_Ioo hin,
      integral_eq_lintegral_of_nonneg_ae (Filter.Eventually.of_forall fun _ => ENNReal.toReal_nonneg) hmeas.ennreal_toReal.aestronglyMeasurable]
    unfold dirs
    congr 1
    refine lintegral_congr fun c => ?_
    rw [ENNReal.ofReal_toReal (hfin c)]

/-- The angular integral of a bounded function of `w·n` over all directions `n`. -/
theorem integral_zonal (k : ℝ → ℝ) (hk : Measurable k) {M : ℝ} (h0 : ∀ x, 0 ≤ k x) (hM : ∀ x, k x ≤ M) (a b d : ℝ) :
    (∫ c : ℝ in (-1)..1, ∫ φ : ℝ in (0)..(2 * π), k (a * (sin (arccos c) * cos φ) + b * (sin (arccos c) * sin φ) + d * cos (arccos c))) =
      2 * π * ∫ t : ℝ in (-1)..1, k (√(a ^ 2 + b ^ 2 + d ^ 2) * t) := by
  have h := integral_dirs (fun x y z => k (a * x + b * y + d * z)) (hk.comp (by fun_prop)) (fun _ _ _ => h0 _) (fun _ _ _ => hM _) 1
  simp only [one_mul] at h
  rw [h.2, dirs_zonal (fun x => ENNReal.ofReal (k x)) hk.ennreal_ofReal, ENNReal.toReal_mul, ENNReal.toReal_ofReal (by positivity),
    intervalIntegral.integral_of_le (by norm_num), integral_Ioc_eq_integral_Ioo,
    integral_eq_lintegral_of_nonneg_ae (Filter.Eventually.of_forall fun _ => h0 _)]
  exact (hk.comp (by fun_prop)).aestronglyMeasurable

end Obscura
