import Verif.Lemmas.Angles
import Verif.Model.BaseParticle

/-!
# Helper lemmas: the angle distribution of an arbitrary differential cross section
-/

namespace Obscura
open Spec MeasureTheory

/-- Angle and momentum transfer: the integral over the angle is the integral over `q²`. -/
theorem angle_integral {f P : ℝ → ℝ} {K s c : ℝ} (hK : 0 < K)
    (hP : ∀ x, P x = 4 * K ^ 2 / 2 / s * f (K * Real.sqrt (2 * (1 - x)))) :
    ∫ x in (-1 : ℝ)..c, P x = 1 / s * ∫ y in (4 * K ^ 2 / 2 * (1 - c))..(4 * K ^ 2), f (Real.sqrt y) := by
  have hQ : 4 * K ^ 2 / 2 ≠ 0 := by positivity
  have e : ∀ x, P x = 4 * K ^ 2 / 2 / s * f (Real.sqrt (4 * K ^ 2 / 2 - 4 * K ^ 2 / 2 * x)) := by
    intro x
    rw [hP, show 4 * K ^ 2 / 2 - 4 * K ^ 2 / 2 * x = K ^ 2 * (2 * (1 - x)) by ring, Real.sqrt_mul (sq_nonneg _),
      Real.sqrt_sq hK.le]
  simp only [e, intervalIntegral.integral_const_mul]
  have h := intervalIntegral.integral_comp_sub_mul (a := -1) (b := c) (fun y => f (Real.sqrt y)) hQ (4 * K ^ 2 / 2)
  rw [h, smul_eq_mul, show 4 * K ^ 2 / 2 - 4 * K ^ 2 / 2 * c = 4 * K ^ 2 / 2 * (1 - c) by ring,
    show 4 * K ^ 2 / 2 - 4 * K ^ 2 / 2 * (-1) = 4 * K ^ 2 by ring]
  generalize (∫ y in (4 * K ^ 2 / 2 * (1 - c))..(4 * K ^ 2), f (Real.sqrt y)) = J
  field_simp

/-- The angle distribution of a differential cross section `f(q)`, with `K` the reduced mass times the speed. -/
theorem angle_distribution {f P C : ℝ → ℝ} {K s : ℝ} {I : Integrator} {R : RootFinder} (hI : I.Exact) (hR : R.Exact)
    (hf : ∀ q, 0 ≤ q → 0 ≤ f q) (hK : 0 < K) (hs : s = ∫ y in (0 : ℝ)..4 * K ^ 2, f (Real.sqrt y)) (hs0 : s ≠ 0)
    (hP : ∀ x, P x = 4 * K ^ 2 / 2 / s * f (K * Real.sqrt (2 * (1 - x))))
    (hC : ∀ c, C c = if c ≤ -1 then 0 else if 1 ≤ c then 1 else I P (-1) c) :
    AngleDistribution (fun c => .ok (P c)) (fun c => .ok (C c)) (fun xi => .ok (R (fun c => xi - C c) (-1) 1)) := by
  have hpos : 0 ≤ s := by
    rw [hs]
    exact intervalIntegral.integral_nonneg (by positivity) fun y _ => hf _ (Real.sqrt_nonneg y)
  have hone : ∫ x in (-1 : ℝ)..1, P x = 1 := by
    rw [angle_integral hK hP, sub_self, mul_zero, ← hs]
    field_simp
  have hcdf : ∀ c ∈ Set.Icc (-1 : ℝ) 1, C c = ∫ x in (-1 : ℝ)..c, P x := by
    intro c hc
    rw [hC]
    split_ifs with h1 h2
    · rw [le_antisymm h1 hc.1, intervalIntegral.integral_same]
    · rw [le_antisymm hc.2 h2, hone]
    · rw [hI]
  refine ⟨fun c _ => ⟨_, rfl, ?_⟩, ⟨P, fun c _ => rfl, hone⟩, ⟨P, fun c _ => rfl, fun c hc => by rw [hcdf c hc]⟩, ?_⟩
  · rw [hP]
    have := hf _ (mul_nonneg hK.le (Real.sqrt_nonneg (2 * (1 - c))))
    positivity
  · intro ξ hξ
    have hcont : ContinuousOn (fun c => ξ - C c) (Set.Icc (-1) 1) := by
      refine continuousOn_const.sub ?_
      have hint : IntervalIntegrable P volume (-1) 1 :=
        intervalIntegral.intervalIntegrable_of_integral_ne_zero (by rw [hone]; exact one_ne_zero)
      have h1 : ContinuousOn (fun c => ∫ x in (-1 : ℝ)..c, P x) (Set.Icc (-1) 1) := by
        have := intervalIntegral.continuousOn_primitive_interval (a := -1) (b := 1) (f := P) (μ := volume)
          ((intervalIntegrable_iff_integrableOn_Icc_of_le (by norm_num)).1 hint |>.mono_set (by
            rw [Set.uIcc_of_le (by norm_num)]))
        rwa [Set.uIcc_of_le (by norm_num)] at this
      exact h1.congr hcdf
    have hleft : C (-1) = 0 := by rw [hC, if_pos le_rfl]
    have hright : C 1 = 1 := by rw [hC, if_neg (by norm_num), if_pos le_rfl]
    have hroot := hR (fun c => ξ - C c) (-1) 1 (by norm_num)
      (by simp only [hleft, hright]; nlinarith [hξ.1, hξ.2]) hcont
    refine ⟨_, hroot.1, rfl, ?_⟩
    congr 1
    have := hroot.2
    linarith

end Obscura
