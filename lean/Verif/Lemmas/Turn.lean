import Verif.Lemmas.Sphere
import Verif.Model.Vector
import Verif.Spec.Isotropy

/-!
# The integral over all directions is invariant under rotations
-/

namespace Obscura

open MeasureTheory Set Real Spec
open scoped ENNReal

/-- The length of a vector on the sphere. -/
theorem sphere_length {r : ℝ} (hr : 0 ≤ r) {c : ℝ} (hc : c ∈ Ioo (-1 : ℝ) 1) (φ : ℝ) :
    vnorm ![r * sin (arccos c) * cos φ, r * sin (arccos c) * sin φ, r * c] = r := by
  have h1 : √(1 - c ^ 2) ^ 2 = 1 - c ^ 2 := Real.sq_sqrt (by nlinarith [hc.1, hc.2])
  have h2 := sin_sq_add_cos_sq φ
  simp only [vnorm, dot, Matrix.cons_val_zero, Matrix.cons_val_one, Matrix.cons_val, sin_arccos]
  rw [show r * √(1 - c ^ 2) * cos φ * (r * √(1 - c ^ 2) * cos φ) + r * √(1 - c ^ 2) * sin φ * (r * √(1 - c ^ 2) * sin φ) + r * c * (r * c) =
    r ^ 2 by linear_combination r ^ 2 * √(1 - c ^ 2) ^ 2 * h2 + r ^ 2 * h1, Real.sqrt_sq hr]

/-- A function of the direction only, cut to the unit ball. -/
noncomputable def inBall (f : Vec → ℝ≥0∞) (r : ℝ) (u : Vec) : ℝ≥0∞ :=
  (Ioo (0 : ℝ) 1).indicator (fun n => f ((r / n) • u)) (vnorm u)

theorem measurable_vnorm : Measurable vnorm := by
  unfold vnorm dot
  fun_prop

theorem measurable_inBall {f : Vec → ℝ≥0∞} (hf : Measurable f) (r : ℝ) : Measurable (inBall f r) := by
  have : inBall f r = {u : Vec | vnorm u ∈ Ioo (0 : ℝ) 1}.indicator fun u => f ((r / vnorm u) • u) := by
    funext u
    by_cases hu : vnorm u ∈ Ioo (0 : ℝ) 1
    · rw [inBall, indicator_of_mem hu, indicator_of_mem (by exact hu)]
    · rw [inBall, indicator_of_notMem hu, indicator_of_notMem (by exact hu)]
  rw [this]
  refine Measurable.indicator (hf.comp ?_) (measurable_vnorm measurableSet_Ioo)
  exact (measurable_const.div measurable_vnorm).smul measurable_id

theorem lintegral_inBall {f : Vec → ℝ≥0∞} (hf : Measurable f) (r : ℝ) :
    ∫⁻ u, inBall f r u = (∫⁻ t in Ioo (0 : ℝ) 1, ENNReal.ofReal (t ^ 2)) * dirs (fun x y z => f ![x, y, z]) r := by
  have hm : Measurable fun p : ℝ × ℝ × ℝ => inBall f r ![p.1, p.2.1, p.2.2] := by
    refine (measurable_inBall hf r).comp (measurable_pi_lambda _ fun i => ?_)
    fin_cases i <;> simp <;> fun_prop
  have e0 : ∫⁻ u, inBall f r u = ∫⁻ u : Vec, inBall f r ![u 0, u 1, u 2] := by
    refine lintegral_congr fun u => ?_
    congr 1
    funext i
    fin_cases i <;> rfl
  rw [e0, lintegral_components (fun x y z => inBall f r ![x, y, z]) hm, lintegral_spherical (fun x y z => inBall f r ![x, y, z]) hm]
  have hd : ∀ t ∈ Ioi (0 : ℝ), ENNReal.ofReal (t ^ 2) * dirs (fun x y z => inBall f r ![x, y, z]) t =
      (Ioo (0 : ℝ) 1).indicator (fun t => ENNReal.ofReal (t ^ 2) * dirs (fun x y z => f ![x, y, z]) r) t := by
    intro t ht
    have ht0 : (0 : ℝ) < t := ht
    by_cases h1 : t < 1
    · rw [indicator_of_mem (show t ∈ Ioo (0 : ℝ) 1 from ⟨ht0, h1⟩)]
      congr 1
      unfold dirs
      refine setLIntegral_congr_fun measurableSet_Ioo fun c hc => ?_
      refine setLIntegral_congr_fun measurableSet_Ioo fun φ _ => ?_
      simp only [inBall]
      rw [sphere_length ht0.le hc φ, indicator_of_mem (show t ∈ Ioo (0 : ℝ) 1 from ⟨ht0, h1⟩)]
      congr 1
      funext i
      fin_cases i <;> simp <;> field_simp
    · rw [indicator_of_notMem (fun hx : t ∈ Ioo (0 : ℝ) 1 => h1 hx.2)]
      have : dirs (fun x y z => inBall f r ![x, y, z]) t = 0 := by
        unfold dirs
        rw [setLIntegral_congr_fun (g := fun _ => 0) measurableSet_Ioo, lintegral_zero]
        intro c hc
        simp only
        rw [setLIntegral_congr_fun (g := fun _ => 0) measurableSet_Ioo, lintegral_zero]
        intro φ _
        simp only [inBall]
        rw [sphere_length ht0.le hc φ, indicator_of_notMem (fun hx : t ∈ Ioo (0 : ℝ) 1 => h1 hx.2)]
      rw [this, mul_zero]
  rw [setLIntegral_congr_fun measurableSet_Ioi hd, lintegral_indicator measurableSet_Ioo, Measure.restrict_restrict measurableSet_Ioo,
    inter_eq_left.2 Ioo_subset_Ioi_self, lintegral_mul_const]
  fun_prop

theorem Spec.Turn.norm {R : Vec →ₗ[ℝ] Vec} (hR : Turn R) (v : Vec) : vnorm (R v) = vnorm v := by
  unfold vnorm
  rw [hR]

/-- Rotations and reflections keep volumes. -/
theorem Spec.Turn.measurePreserving {R : Vec →ₗ[ℝ] Vec} (hR : Turn R) : MeasurePreserving R volume volume := by
  let L : EuclideanSpace ℝ (Fin 3) →ₗᵢ[ℝ] EuclideanSpace ℝ (Fin 3) :=
    { toLinearMap := (WithLp.linearEquiv 2 ℝ Vec).symm.toLinearMap ∘ₗ R ∘ₗ (WithLp.linearEquiv 2 ℝ Vec).toLinearMap
      norm_map' := by
        intro u
        have hn : ∀ w : EuclideanSpace ℝ (Fin 3), ‖w‖ = vnorm (WithLp.ofLp w) := by
          intro w
          rw [EuclideanSpace.norm_eq, Fin.sum_univ_three, vnorm, dot]
          simp [pow_two]
        rw [hn, hn]
        exact hR.norm _ }
  have h1 : MeasurePreserving (L.toLinearIsometryEquiv rfl) volume volume := LinearIsometryEquiv.measurePreserving _
  have h2 := PiLp.volume_preserving_ofLp (Fin 3)
  have h3 := PiLp.volume_preserving_toLp (Fin 3)
  exact (h2.comp h1).comp h3

/-- The integral over all directions is invariant under rotations. -/
theorem dirs_turn {f : Vec → ℝ≥0∞} (hf : Measurable f) {R : Vec →ₗ[ℝ] Vec} (hR : Turn R) (r : ℝ) :
    dirs (fun x y z => f (R ![x, y, z])) r = dirs (fun x y z => f ![x, y, z]) r := by
  have hRm : Measurable R := hR.measurePreserving.measurable
  have h1 := lintegral_inBall (hf.comp hRm) r
  have h2 := lintegral_inBall hf r
  have h3 : ∫⁻ u, inBall (f ∘ R) r u = ∫⁻ u, inBall f r u := by
    rw [← hR.measurePreserving.lintegral_comp (measurable_inBall hf r)]
    refine lintegral_congr fun u => ?_
    simp only [inBall, hR.norm, Function.comp_apply, map_smul]
  have hK0 : (∫⁻ t in Ioo (0 : ℝ) 1, ENNReal.ofReal (t ^ 2)) ≠ 0 := by
    rw [Ne, setLIntegral_eq_zero_iff measurableSet_Ioo (by fun_prop)]
    intro hz
    have h0 : volume (Ioo (0 : ℝ) 1) = 0 := by
      refine measure_mono_null (fun x hx => ?_) (show volume {x | ¬ (x ∈ Ioo (0 : ℝ) 1 → ENNReal.ofReal (x ^ 2) = 0)} = 0 from hz)
      intro hx'
      have := hx' hx
      rw [ENNReal.ofReal_eq_zero] at this
      have : 0 < x ^ 2 := pow_pos hx.1 2
      linarith
    simp at h0
  have hKt : (∫⁻ t in Ioo (0 : ℝ) 1, ENNReal.ofReal (t ^ 2)) ≠ ∞ := by
    refine ne_of_lt (lt_of_le_of_lt (setLIntegral_mono measurable_const fun r hr => ?_) (b := ∫⁻ _ in Ioo (0 : ℝ) 1, 1) ?_)
    · rw [← ENNReal.ofReal_one]
      exact ENNReal.ofReal_le_ofReal (by nlinarith [hr.1, hr.2])
    · simp
  rw [h1, h2] at h3
  exact (ENNReal.mul_right_inj hK0 hKt).1 h3

end Obscura
