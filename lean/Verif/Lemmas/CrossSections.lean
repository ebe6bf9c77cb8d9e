import Verif.Model.Angles
import Verif.Spec.CrossSections
import Mathlib.MeasureTheory.Integral.IntervalIntegral.FundThmCalculus
import Mathlib.Analysis.SpecialFunctions.Integrability.Basic
import Mathlib.Analysis.SpecialFunctions.Trigonometric.Deriv

/-!
# Helper lemmas: integrals of the differential cross sections
-/

namespace Obscura
open DMParticle MeasureTheory

variable {U : Units}

theorem integral_general {m2 Q : ℝ} (K : ℝ) (hm : 0 < m2) (hQ : 0 ≤ Q) :
    ∫ x in (0 : ℝ)..Q, (K / (x + m2)) * (K / (x + m2)) = K ^ 2 * Q / (m2 * (m2 + Q)) := by
  have h := intervalIntegral.integral_eq_sub_of_hasDerivAt (a := 0) (b := Q)
    (f := fun x => - (K ^ 2) / (x + m2)) (f' := fun x => (K / (x + m2)) * (K / (x + m2))) ?_ ?_
  · rw [h]
    have : 0 < Q + m2 := by linarith
    field_simp
    ring
  · intro x hx
    rw [Set.uIcc_of_le hQ] at hx
    have hx' : x + m2 ≠ 0 := by have := hx.1; positivity
    have h1 := (((hasDerivAt_id x).add_const m2).inv hx').const_mul (-(K ^ 2))
    refine (h1.congr_deriv ?_).congr_of_eventuallyEq (Filter.Eventually.of_forall fun y => ?_)
    · simp only [id]; field_simp
    · simp only [id, Pi.inv_apply, div_eq_mul_inv]
  · apply ContinuousOn.intervalIntegrable
    intro x hx
    rw [Set.uIcc_of_le hQ] at hx
    have hx' : x + m2 ≠ 0 := by have := hx.1; positivity
    apply ContinuousAt.continuousWithinAt
    fun_prop (disch := assumption)

theorem formFactor2_general_sqrt {qRef mMed x : ℝ} (hx : 0 ≤ x) :
    formFactor2 .general qRef mMed (Real.sqrt x) =
      ((qRef * qRef + mMed * mMed) / (x + mMed * mMed)) * ((qRef * qRef + mMed * mMed) / (x + mMed * mMed)) := by
  simp [formFactor2, Real.mul_self_sqrt hx]

theorem integral_formFactor2_general {qRef mMed Q : ℝ} (hm : mMed ≠ 0) (hQ : 0 ≤ Q) :
    ∫ x in (0 : ℝ)..Q, formFactor2 .general qRef mMed (Real.sqrt x) =
      (qRef * qRef + mMed * mMed) ^ 2 * Q / (mMed * mMed * (mMed * mMed + Q)) := by
  rw [← integral_general _ (mul_self_pos.2 hm) hQ]
  refine intervalIntegral.integral_congr fun x hx => ?_
  rw [Set.uIcc_of_le hQ] at hx
  exact formFactor2_general_sqrt hx.1

theorem formFactor2_contact (qRef mMed q : ℝ) : formFactor2 .contact qRef mMed q = 1 := by simp [formFactor2]

theorem generalFactor_ok {qRef mMed Q : ℝ} (hm : mMed ≠ 0) (hQ : 0 ≤ Q) :
    generalFactor qRef mMed Q = .ok ((qRef * qRef + mMed * mMed) ^ 2 / mMed / mMed / (mMed * mMed + Q)) := by
  have h : mMed * mMed + Q ≠ 0 := by have := mul_self_pos.2 hm; positivity
  simp [generalFactor, fdiv_ok hm, fdiv_ok h]

/-- `∫ x⁻¹` and `∫ x⁻²` diverge at 0. -/
theorem not_integrable_inv {Q : ℝ} (hQ : 0 < Q) :
    ¬ IntervalIntegrable (fun x : ℝ => x⁻¹) volume 0 Q := by
  rw [intervalIntegrable_inv_iff]
  simp only [Set.left_mem_uIcc, not_true, or_false]
  exact hQ.ne

theorem not_integrable_inv_sq {Q : ℝ} (hQ : 0 < Q) :
    ¬ IntervalIntegrable (fun x : ℝ => (x⁻¹) ^ 2) volume 0 Q := by
  intro h
  have h1 := h.continuousOn_mul (g := fun x : ℝ => x) continuousOn_id
  refine not_integrable_inv hQ (h1.congr ?_)
  intro x _
  show x * x⁻¹ ^ 2 = x⁻¹
  by_cases hx : x = 0
  · simp [hx]
  · field_simp

/-- `|sin x - x cos x| ≤ x³/3`. -/
theorem abs_sin_sub_mul_cos_le {x : ℝ} (hx : 0 ≤ x) : |Real.sin x - x * Real.cos x| ≤ x ^ 3 / 3 := by
  have hd : ∀ y : ℝ, HasDerivAt (fun y => Real.sin y - y * Real.cos y) (y * Real.sin y) y := by
    intro y
    have := (Real.hasDerivAt_sin y).sub ((hasDerivAt_id' y).mul (Real.hasDerivAt_cos y))
    exact this.congr_deriv (by ring)
  have hc : ∀ y : ℝ, HasDerivAt (fun y : ℝ => y ^ 3 / 3) (y ^ 2) y := by
    intro y
    have := (hasDerivAt_pow 3 y).div_const 3
    exact this.congr_deriv (by norm_num)
  rw [abs_le]
  constructor
  · have : MonotoneOn (fun y : ℝ => y ^ 3 / 3 + (Real.sin y - y * Real.cos y)) (Set.Ici 0) := by
      apply monotoneOn_of_hasDerivWithinAt_nonneg (convex_Ici 0)
        (f' := fun y => y ^ 2 + y * Real.sin y)
      · intro y _; exact ((hc y).add (hd y)).continuousAt.continuousWithinAt
      · intro y _; exact ((hc y).add (hd y)).hasDerivWithinAt
      · intro y hy
        rw [interior_Ici] at hy
        have h1 : -y ≤ Real.sin y := by
          have := (abs_le.1 (Real.abs_sin_le_abs (x := y))).1
          rwa [abs_of_pos hy.out] at this
        nlinarith [hy.out]
    have h := this (Set.mem_Ici.2 le_rfl) (Set.mem_Ici.2 hx) hx
    simp at h
    linarith
  · have : MonotoneOn (fun y : ℝ => y ^ 3 / 3 - (Real.sin y - y * Real.cos y)) (Set.Ici 0) := by
      apply monotoneOn_of_hasDerivWithinAt_nonneg (convex_Ici 0)
        (f' := fun y => y ^ 2 - y * Real.sin y)
      · intro y _; exact ((hc y).sub (hd y)).continuousAt.continuousWithinAt
      · intro y _; exact ((hc y).sub (hd y)).hasDerivWithinAt
      · intro y hy
        rw [interior_Ici] at hy
        have h1 : Real.sin y ≤ y := by
          exact Real.sin_le hy.out.le
        nlinarith [hy.out]
    have h := this (Set.mem_Ici.2 le_rfl) (Set.mem_Ici.2 hx) hx
    simp at h
    linarith

end Obscura
