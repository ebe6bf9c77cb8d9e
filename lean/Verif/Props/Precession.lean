import Verif.Props.Astronomy
import Verif.Spec.Precession
import Mathlib.Analysis.Real.Pi.Bounds

/-!
# C23 — precession
-/

namespace Obscura

open Spec

theorem date_matrix (v : Vec) (T : ℝ) : transformGalToEquat (transformEquatToGal v 0) T = (transformationMatrixP T).mulVec v := by
  have hM : IsUnit transformationMatrixM.det := by rw [isRotation_M.2]; exact isUnit_one
  unfold transformGalToEquat transformEquatToGal
  rw [P_zero, inv_one, Matrix.mul_one, Matrix.mulVec_mulVec, Matrix.mul_assoc, Matrix.nonsing_inv_mul _ hM, Matrix.mul_one]

/-- C23 (precession). A direction with given equatorial coordinates at J2000 has, `T` Julian centuries later, the coordinates obtained by the three
rotations of the IAU 2006 precession. -/
theorem C23_precession (v : Vec) (T : ℝ) :
    transformGalToEquat (transformEquatToGal v 0) T =
      turnZ (arcseconds (2306.077181 * T + 1.092735 * T ^ 2)) (turnXZ (arcseconds (2004.191903 * T - 0.429493 * T ^ 2))
        (turnZ (arcseconds (2306.083227 * T + 0.298850 * T ^ 2)) v)) := by
  rw [date_matrix]
  unfold transformationMatrixP
  have e1 : 2306.083227 * arcsec * T + 0.298850 * arcsec * T * T = arcseconds (2306.083227 * T + 0.298850 * T ^ 2) := by
    unfold arcsec deg arcseconds; ring
  have e2 : 2306.077181 * arcsec * T + 1.092735 * arcsec * T * T = arcseconds (2306.077181 * T + 1.092735 * T ^ 2) := by
    unfold arcsec deg arcseconds; ring
  have e3 : 2004.191903 * arcsec * T - 0.429493 * arcsec * T * T = arcseconds (2004.191903 * T - 0.429493 * T ^ 2) := by
    unfold arcsec deg arcseconds; ring
  rw [e1, e2, e3]
  generalize arcseconds (2306.083227 * T + 0.298850 * T ^ 2) = a
  generalize arcseconds (2306.077181 * T + 1.092735 * T ^ 2) = b
  generalize arcseconds (2004.191903 * T - 0.429493 * T ^ 2) = c
  ext i
  fin_cases i <;> simp [precessionMatrix, turnZ, turnXZ, Matrix.mulVec, dotProduct, Fin.sum_univ_three] <;> ring

/-- C23 (the moving pole). The celestial poles of J2000 and of the date are separated by `2004.191903'' T - 0.429493'' T²`: half a degree per
century. -/
theorem C23_pole_of_date (T : ℝ) :
    dot (transformEquatToGal ![0, 0, 1] 0) (transformEquatToGal ![0, 0, 1] T) =
      Real.cos (arcseconds (2004.191903 * T - 0.429493 * T ^ 2)) := by
  have h1 := (C23_isometry transformGalToEquat (by simp [coordinateTransformations]) (transformEquatToGal ![0, 0, 1] 0)
    (transformEquatToGal ![0, 0, 1] T) T).1
  rw [← h1, (C23_inverse _ T).1, C23_precession]
  simp [dot, turnZ, turnXZ]

/-- Non-vacuity: a century after J2000 the pole has moved. -/
example : dot (transformEquatToGal ![0, 0, 1] 0) (transformEquatToGal ![0, 0, 1] 1) < 1 := by
  rw [C23_pole_of_date]
  have hpi := Real.pi_pos
  have h4 := Real.pi_le_four
  have : Real.cos (arcseconds (2004.191903 * 1 - 0.429493 * 1 ^ 2)) < Real.cos 0 := by
    apply Real.cos_lt_cos_of_nonneg_of_le_pi_div_two le_rfl
    · unfold arcseconds; nlinarith
    · unfold arcseconds; norm_num; nlinarith
  simpa using this

end Obscura
