import Verif.Model.Astronomy
import Verif.Spec.Calendar
import Mathlib.LinearAlgebra.Matrix.Determinant.Basic
import Mathlib.Tactic.LinearCombination
import Mathlib.Tactic.FinCases
import Mathlib.Tactic.IntervalCases

/-!
# Properties C23–C26: astronomy
-/

namespace Obscura

/-! ### Orthogonal matrices -/

/-- Orthogonal with determinant one. -/
def IsRotation (A : Mat) : Prop := A.transpose * A = 1 ∧ A.det = 1

theorem isRotation_mul {A B : Mat} (hA : IsRotation A) (hB : IsRotation B) : IsRotation (A * B) := by
  refine ⟨?_, by rw [Matrix.det_mul, hA.2, hB.2, one_mul]⟩
  rw [Matrix.transpose_mul, Matrix.mul_assoc, ← Matrix.mul_assoc _ A, hA.1, Matrix.one_mul, hB.1]

theorem isRotation_inv {A : Mat} (hA : IsRotation A) : IsRotation A⁻¹ := by
  have h : A⁻¹ = A.transpose := Matrix.inv_eq_left_inv hA.1
  rw [h]
  refine ⟨?_, by rw [Matrix.det_transpose, hA.2]⟩
  rw [Matrix.transpose_transpose]
  exact mul_eq_one_comm.1 hA.1

theorem isRotation_rotationX (a : ℝ) : IsRotation (rotationX a) := by
  have h := Real.sin_sq_add_cos_sq a
  refine ⟨?_, ?_⟩
  · ext i j
    fin_cases i <;> fin_cases j <;> simp [rotationX, Matrix.mul_apply, Fin.sum_univ_three] <;> linarith
  · simp [rotationX, Matrix.det_fin_three]; linarith

/-- Rotation around the z axis. -/
noncomputable def rotZ (a : ℝ) : Mat :=
  !![Real.cos a, -Real.sin a, 0; Real.sin a, Real.cos a, 0; 0, 0, 1]

/-- Rotation around the y axis. -/
noncomputable def rotY (a : ℝ) : Mat :=
  !![Real.cos a, 0, -Real.sin a; 0, 1, 0; Real.sin a, 0, Real.cos a]

theorem isRotation_rotZ (a : ℝ) : IsRotation (rotZ a) := by
  have h := Real.sin_sq_add_cos_sq a
  refine ⟨?_, ?_⟩
  · ext i j
    fin_cases i <;> fin_cases j <;> simp [rotZ, Matrix.mul_apply, Fin.sum_univ_three] <;> linarith
  · simp [rotZ, Matrix.det_fin_three]; linarith

theorem isRotation_rotY (a : ℝ) : IsRotation (rotY a) := by
  have h := Real.sin_sq_add_cos_sq a
  refine ⟨?_, ?_⟩
  · ext i j
    fin_cases i <;> fin_cases j <;> simp [rotY, Matrix.mul_apply, Fin.sum_univ_three] <;> linarith
  · simp [rotY, Matrix.det_fin_three]; linarith

theorem isRotation_precession (zeta z theta : ℝ) : IsRotation (precessionMatrix zeta z theta) := by
  have h : precessionMatrix zeta z theta = rotZ z * rotY theta * rotZ zeta := by
    ext i j
    fin_cases i <;> fin_cases j <;>
      simp [precessionMatrix, rotZ, rotY, Matrix.mul_apply, Fin.sum_univ_three] <;> ring
  rw [h]
  exact isRotation_mul (isRotation_mul (isRotation_rotZ _) (isRotation_rotY _)) (isRotation_rotZ _)

theorem isRotation_galactic (l a d : ℝ) : IsRotation (galacticMatrix l a d) := by
  have hd : IsRotation !![-Real.sin d, 0, Real.cos d; 0, -1, 0; Real.cos d, 0, Real.sin d] := by
    have h := Real.sin_sq_add_cos_sq d
    refine ⟨?_, ?_⟩
    · ext i j
      fin_cases i <;> fin_cases j <;> simp [Matrix.mul_apply, Fin.sum_univ_three] <;> linarith
    · simp [Matrix.det_fin_three]; linarith
  have h : galacticMatrix l a d =
      rotZ l * !![-Real.sin d, 0, Real.cos d; 0, -1, 0; Real.cos d, 0, Real.sin d] * rotZ (-a) := by
    ext i j
    fin_cases i <;> fin_cases j <;>
      simp [galacticMatrix, rotZ, Matrix.mul_apply, Fin.sum_univ_three] <;> ring
  rw [h]
  exact isRotation_mul (isRotation_mul (isRotation_rotZ _) hd) (isRotation_rotZ _)

theorem isRotation_P (T : ℝ) : IsRotation (transformationMatrixP T) := isRotation_precession _ _ _
theorem isRotation_M : IsRotation transformationMatrixM := isRotation_galactic _ _ _
theorem isRotation_R (T : ℝ) : IsRotation (transformationMatrixR T) := isRotation_rotationX _

theorem dot_eq (v w : Vec) : dot v w = v ⬝ᵥ w := by
  simp [dot, dotProduct, Fin.sum_univ_three]

theorem dot_mulVec {A : Mat} (hA : IsRotation A) (v w : Vec) : dot (A.mulVec v) (A.mulVec w) = dot v w := by
  rw [dot_eq, dot_eq, Matrix.dotProduct_mulVec, Matrix.vecMul_mulVec, ← Matrix.dotProduct_mulVec, hA.1]
  simp

/-- The volume spanned by three vectors with its sign (positive for right-handed triples), written out. -/
def triple (u v w : Vec) : ℝ :=
  u 0 * (v 1 * w 2 - v 2 * w 1) - u 1 * (v 0 * w 2 - v 2 * w 0) + u 2 * (v 0 * w 1 - v 1 * w 0)

theorem triple_mulVec {A : Mat} (hA : IsRotation A) (u v w : Vec) :
    triple (A.mulVec u) (A.mulVec v) (A.mulVec w) = triple u v w := by
  have h := hA.2
  rw [Matrix.det_fin_three] at h
  simp only [triple, Matrix.mulVec, dotProduct, Fin.sum_univ_three]
  linear_combination (u 0 * (v 1 * w 2 - v 2 * w 1) - u 1 * (v 0 * w 2 - v 2 * w 0) + u 2 * (v 0 * w 1 - v 1 * w 0)) * h

/-! ## C23 — coordinate transformations -/

/-- The three transformations to galactic coordinates and the one back, by name. -/
noncomputable def coordinateTransformations : List (Vec → ℝ → Vec) :=
  [transformEquatToGal, transformGeoEclToGal, transformHelEclToGal, transformGalToEquat]

theorem helEcl_eq (v : Vec) (T : ℝ) : transformHelEclToGal v T = -transformGeoEclToGal v T := by
  unfold transformHelEclToGal transformGeoEclToGal
  rw [neg_one_smul, Matrix.neg_mul, Matrix.neg_mul, Matrix.neg_mulVec]

/-- C23: every transformation preserves lengths and angles (all scalar products), at every time. -/
theorem C23_isometry (f : Vec → ℝ → Vec) (hf : f ∈ coordinateTransformations) (v w : Vec) (T : ℝ) :
    dot (f v T) (f w T) = dot v w ∧ vnorm (f v T) = vnorm v := by
  have key : ∀ v w, dot (f v T) (f w T) = dot v w := by
    intro v w
    have hG := isRotation_mul isRotation_M (isRotation_inv (isRotation_P T))
    have hE := isRotation_mul hG (isRotation_R T)
    simp only [coordinateTransformations, List.mem_cons, List.not_mem_nil, or_false] at hf
    rcases hf with h | h | h | h
    · subst h; exact dot_mulVec hG v w
    · subst h; exact dot_mulVec hE v w
    · subst h
      rw [helEcl_eq, helEcl_eq]
      rw [← dot_mulVec hE v w]
      simp [dot, transformGeoEclToGal]
    · subst h; exact dot_mulVec (isRotation_mul (isRotation_P T) (isRotation_inv isRotation_M)) v w
  exact ⟨key v w, by unfold vnorm; rw [key]⟩

/-- C23: galactic → equatorial undoes equatorial → galactic, both ways, at every time. -/
theorem C23_inverse (v : Vec) (T : ℝ) :
    transformGalToEquat (transformEquatToGal v T) T = v ∧ transformEquatToGal (transformGalToEquat v T) T = v := by
  have hM : IsUnit transformationMatrixM.det := by rw [isRotation_M.2]; exact isUnit_one
  have hP : IsUnit (transformationMatrixP T).det := by rw [(isRotation_P T).2]; exact isUnit_one
  unfold transformGalToEquat transformEquatToGal
  constructor
  · rw [Matrix.mulVec_mulVec, Matrix.mul_assoc, ← Matrix.mul_assoc _ transformationMatrixM, Matrix.nonsing_inv_mul _ hM,
      Matrix.one_mul, Matrix.mul_nonsing_inv _ hP, Matrix.one_mulVec]
  · rw [Matrix.mulVec_mulVec, Matrix.mul_assoc, ← Matrix.mul_assoc _ (transformationMatrixP T),
      Matrix.nonsing_inv_mul _ hP, Matrix.one_mul, Matrix.mul_nonsing_inv _ hM, Matrix.one_mulVec]

/-- C23: equatorial and geocentric ecliptic systems are carried to the galactic one by a proper rotation; heliocentric
ecliptic coordinates are the reflected geocentric ones. -/
theorem C23_orientation (u v w : Vec) (T : ℝ) :
    triple (transformEquatToGal u T) (transformEquatToGal v T) (transformEquatToGal w T) = triple u v w ∧
    triple (transformGeoEclToGal u T) (transformGeoEclToGal v T) (transformGeoEclToGal w T) = triple u v w ∧
    transformHelEclToGal v T = -transformGeoEclToGal v T := by
  have hG := isRotation_mul isRotation_M (isRotation_inv (isRotation_P T))
  exact ⟨triple_mulVec hG u v w, triple_mulVec (isRotation_mul hG (isRotation_R T)) u v w, helEcl_eq v T⟩

theorem P_zero : transformationMatrixP 0 = 1 := by
  ext i j
  fin_cases i <;> fin_cases j <;> simp [transformationMatrixP, precessionMatrix]

/-- C23: at J2000 the galactic north pole (right ascension 192.85948°, declination 27.12825°) is the galactic z axis and
the celestial north pole has galactic longitude 122.932° and latitude 27.12825°. These two directions fix the rotation. -/
theorem C23_poles :
    transformEquatToGal ![Real.cos (192.85948 * deg) * Real.cos (27.12825 * deg),
      Real.sin (192.85948 * deg) * Real.cos (27.12825 * deg), Real.sin (27.12825 * deg)] 0 = ![0, 0, 1] ∧
    transformEquatToGal ![0, 0, 1] 0 = ![Real.cos (122.932 * deg) * Real.cos (27.12825 * deg),
      Real.sin (122.932 * deg) * Real.cos (27.12825 * deg), Real.sin (27.12825 * deg)] := by
  unfold transformEquatToGal
  rw [P_zero, inv_one, Matrix.mul_one]
  unfold transformationMatrixM
  have h1 := Real.sin_sq_add_cos_sq (192.85948 * deg)
  have h2 := Real.sin_sq_add_cos_sq (27.12825 * deg)
  generalize 192.85948 * deg = a at *
  generalize 27.12825 * deg = d at *
  generalize 122.932 * deg = l
  constructor
  · ext i
    fin_cases i <;> simp [galacticMatrix, Matrix.mulVec, dotProduct, Fin.sum_univ_three]
    · linear_combination (-Real.cos l * Real.sin d * Real.cos d) * h1
    · linear_combination (-Real.sin l * Real.sin d * Real.cos d) * h1
    · linear_combination (Real.cos d ^ 2) * h1 + h2
  · ext i
    fin_cases i <;> simp [galacticMatrix, Matrix.mulVec, dotProduct, Fin.sum_univ_three]

/-- C23: the vernal equinox is the common x axis of the equatorial and the ecliptic system, and the ecliptic pole is
inclined against the celestial pole by the obliquity, `23.4393° - 0.0130° T`. -/
theorem C23_ecliptic (T : ℝ) :
    transformGalToEquat (transformGeoEclToGal ![1, 0, 0] T) T = ![1, 0, 0] ∧
    transformGalToEquat (transformGeoEclToGal ![0, 0, 1] T) T =
      ![0, -Real.sin ((23.4393 - 0.0130 * T) * deg), Real.cos ((23.4393 - 0.0130 * T) * deg)] := by
  have h : ∀ v, transformGeoEclToGal v T = transformEquatToGal ((transformationMatrixR T).mulVec v) T := by
    intro v; unfold transformGeoEclToGal transformEquatToGal; rw [Matrix.mulVec_mulVec]
  rw [h, h, (C23_inverse _ T).1, (C23_inverse _ T).1]
  have he : (23.4393 - 0.0130 * T) * deg = 23.4393 * deg - 0.0130 * deg * T := by ring
  rw [he]
  constructor <;> ext i <;> fin_cases i <;> simp [transformationMatrixR, rotationX, Matrix.mulVec, dotProduct, Fin.sum_univ_three]

/-! ## C24 — day count -/

theorem floor_julian (y : ℤ) : (⌊(365.25 : ℝ) * (y : ℝ)⌋ : ℤ) = (1461 * y) / 4 := by
  have h : (365.25 : ℝ) * (y : ℝ) = (((1461 * y : ℤ) : ℝ)) / ((4 : ℕ) : ℝ) := by push_cast; ring
  rw [h, Int.floor_div_natCast, Int.floor_intCast]
  norm_num

theorem floor_months (m : ℤ) : (⌊(30.61 : ℝ) * (m : ℝ)⌋ : ℤ) = (3061 * m) / 100 := by
  have h : (30.61 : ℝ) * (m : ℝ) = (((3061 * m : ℤ) : ℝ)) / ((100 : ℕ) : ℝ) := by push_cast; ring
  rw [h, Int.floor_div_natCast, Int.floor_intCast]
  norm_num

/-- The integer part of the day count. -/
def dayNumber (d : Date) : ℤ :=
  (if d.month = 1 ∨ d.month = 2 then (1461 * (d.year - 1)) / 4 + (3061 * (d.month + 13)) / 100
    else (1461 * d.year) / 4 + (3061 * (d.month + 1)) / 100) + d.day

theorem fractionalDays_eq (d : Date) (h mi s : ℝ) :
    fractionalDaysSinceJ2000 d.day d.month d.year h mi s = dayNumber d - 730563.5 + h / 24 + mi / 1440 + s / 86400 := by
  unfold fractionalDaysSinceJ2000 dayNumber
  rw [floor_julian, floor_julian, floor_months, floor_months]
  split_ifs <;> push_cast <;> ring

theorem dayNumber_next (d : Date) (hd : d.ValidJulian) : dayNumber d.nextJulian = dayNumber d + 1 := by
  obtain ⟨dd, m, y⟩ := d
  obtain ⟨h1, h2, h3, h4⟩ := hd
  simp only at h1 h2 h3 h4
  unfold Date.nextJulian Date.next
  simp only
  have hl : decide (julianLeap y) = true ∧ y % 4 = 0 ∨ decide (julianLeap y) = false ∧ y % 4 ≠ 0 := by
    by_cases h : julianLeap y
    · left; exact ⟨by simp [h], h⟩
    · right; exact ⟨by simp [h], h⟩
  have h14 : ∃ k r, y = 4 * k + r ∧ 0 ≤ r ∧ r < 4 := ⟨y / 4, y % 4, by omega, by omega, by omega⟩
  obtain ⟨k, r, rfl, hr0, hr4⟩ := h14
  have e0 : (1461 * (4 * k + r)) / 4 = 1461 * k + 365 * r := by omega
  have e1 : (1461 * (4 * k + r - 1)) / 4 = 1461 * k + 365 * (r - 1) - (if r = 0 then 1 else 0) := by split_ifs <;> omega
  rcases hl with ⟨hl, hy⟩ | ⟨hl, hy⟩
  all_goals
    have hy' : r = 0 ∨ r ≠ 0 := em _
    rw [hl] at h4 ⊢
    split_ifs with c1 c2
    all_goals
      unfold dayNumber
      simp only
      interval_cases m <;> simp [daysInMonth, e0, e1] at h4 c1 ⊢ <;> omega

/-- C24: the count is 0 at noon of 1 January 2000 and linear in the time of day, on every date. -/
theorem C24_epoch_and_time :
    fractionalDaysSinceJ2000 1 1 2000 12 0 0 = 0 ∧
    ∀ d m y h mi s, fractionalDaysSinceJ2000 d m y h mi s =
      fractionalDaysSinceJ2000 d m y 0 0 0 + (h * 3600 + mi * 60 + s) / 86400 := by
  constructor
  · rw [fractionalDays_eq ⟨1, 1, 2000⟩]; norm_num [dayNumber]
  · intro d m y h mi s
    unfold fractionalDaysSinceJ2000; ring

/-- C24 for the calendar the code implements: in the Julian calendar the count grows by exactly one per day, on every
valid date of every year. -/
theorem C24_julian_partial (d : Date) (hd : d.ValidJulian) (h mi s : ℝ) :
    fractionalDaysSinceJ2000 d.nextJulian.day d.nextJulian.month d.nextJulian.year h mi s =
      fractionalDaysSinceJ2000 d.day d.month d.year h mi s + 1 := by
  rw [fractionalDays_eq, fractionalDays_eq, dayNumber_next d hd]
  push_cast; ring

/-- From 1 March 1900 to 28 February 2100 the Julian and the Gregorian leap years agree. -/
theorem julian_eq_gregorian (d : Date) (h1 : ¬ d.before ⟨1, 3, 1900⟩) (h2 : d.before ⟨28, 2, 2100⟩)
    (hd : d.ValidGregorian) : d.ValidJulian ∧ d.nextGregorian = d.nextJulian := by
  obtain ⟨dd, m, y⟩ := d
  have key : (m = 2 → (gregorianLeap y ↔ julianLeap y)) ∨ (m = 2 ∧ y = 2100 ∧ dd < 28) := by
    by_cases hm : m = 2
    · by_cases hy : y = 2100
      · right
        simp [Date.before, hy, hm] at h2
        exact ⟨hm, hy, h2⟩
      · left
        intro _
        simp [Date.before, hm] at h1 h2
        unfold gregorianLeap julianLeap
        omega
    · left; intro h; exact absurd h hm
  have hdm : (∀ b b' : Bool, m ≠ 2 → daysInMonth b m = daysInMonth b' m) := by
    intro b b' hm; simp [daysInMonth, hm]
  rcases key with key | ⟨hm, hy, hlt⟩
  · have hb : daysInMonth (decide (gregorianLeap y)) m = daysInMonth (decide (julianLeap y)) m := by
      by_cases hm : m = 2
      · simp only [key hm]
      · exact hdm _ _ hm
    unfold Date.ValidGregorian Date.ValidJulian Date.Valid Date.nextGregorian Date.nextJulian Date.next at *
    simp only [hb] at hd ⊢
    exact ⟨hd, trivial⟩
  · subst hm hy
    unfold Date.ValidGregorian Date.ValidJulian Date.Valid Date.nextGregorian Date.nextJulian Date.next at *
    simp only [daysInMonth, gregorianLeap, julianLeap] at hd ⊢
    simp at hd ⊢
    constructor
    · omega
    · rw [if_pos (by omega), if_pos (by omega)]

/-- C24, civil (Gregorian) calendar: from 1 March 1900 to 28 February 2100 the count grows by exactly one per day.
Missing: all other dates (see `C24_fails`). -/
theorem C24_next_day_partial (d : Date) (hd : d.ValidGregorian) (h1 : ¬ d.before ⟨1, 3, 1900⟩)
    (h2 : d.before ⟨28, 2, 2100⟩) (h mi s : ℝ) :
    fractionalDaysSinceJ2000 d.nextGregorian.day d.nextGregorian.month d.nextGregorian.year h mi s =
      fractionalDaysSinceJ2000 d.day d.month d.year h mi s + 1 := by
  obtain ⟨hj, he⟩ := julian_eq_gregorian d h1 h2 hd
  rw [he]
  exact C24_julian_partial d hj h mi s

example : (⟨29, 2, 2000⟩ : Date).ValidGregorian ∧ ¬ (⟨29, 2, 2000⟩ : Date).before ⟨1, 3, 1900⟩ ∧
    (⟨29, 2, 2000⟩ : Date).before ⟨28, 2, 2100⟩ := by
  simp [Date.ValidGregorian, Date.Valid, daysInMonth, gregorianLeap, Date.before]

theorem daysInMonth_pos (b : Bool) (m : ℤ) : 1 ≤ daysInMonth b m := by
  unfold daysInMonth; split_ifs <;> norm_num

theorem Date.next_valid (leap : ℤ → Bool) (d : Date) (hd : d.Valid leap) : (d.next leap).Valid leap := by
  obtain ⟨h1, h2, h3, h4⟩ := hd
  unfold Date.next
  split_ifs with c1 c2
  · exact ⟨h1, h2, by dsimp only; omega, by dsimp only; omega⟩
  · exact ⟨by dsimp only; omega, by dsimp only; omega, le_refl _, daysInMonth_pos _ _⟩
  · exact ⟨le_refl _, by norm_num, le_refl _, daysInMonth_pos _ _⟩

theorem Date.before_next (leap : ℤ → Bool) (d : Date) : d.before (d.next leap) := by
  unfold Date.next
  split_ifs with c1 c2
  · right; exact ⟨rfl, Or.inr ⟨rfl, by dsimp only; omega⟩⟩
  · right; exact ⟨rfl, Or.inl (by dsimp only; omega)⟩
  · left; dsimp only; omega

/-- C24, civil calendar: `n` days after a date the count is larger by exactly `n`, as long as the period from
1 March 1900 to 28 February 2100 is not left. -/
theorem C24_count_partial (d : Date) (hd : d.ValidGregorian) (h1 : ¬ d.before ⟨1, 3, 1900⟩) (n : ℕ)
    (h2 : ¬ (⟨28, 2, 2100⟩ : Date).before (Date.nextGregorian^[n] d)) (h mi s : ℝ) :
    let e := Date.nextGregorian^[n] d
    fractionalDaysSinceJ2000 e.day e.month e.year h mi s =
      fractionalDaysSinceJ2000 d.day d.month d.year h mi s + n := by
  induction n generalizing d with
  | zero => simp
  | succ n ih =>
    simp only [Function.iterate_succ_apply] at h2 ⊢
    have hb : d.before d.nextGregorian := Date.before_next _ d
    have hstep : ∀ (k : ℕ) (e : Date), e.before (Date.nextGregorian^[k + 1] e) := by
      intro k
      induction k with
      | zero => intro e; exact Date.before_next (fun y => decide (gregorianLeap y)) e
      | succ k ihk =>
        intro e
        have a := ihk e.nextGregorian
        have b : e.before e.nextGregorian := Date.before_next _ e
        simp only [Function.iterate_succ_apply] at a ⊢
        unfold Date.before at *
        omega
    have hlast : d.before (Date.nextGregorian^[n] d.nextGregorian) := hstep n d
    have h3 : d.before ⟨28, 2, 2100⟩ := by
      unfold Date.before at *
      simp only at *
      omega
    have h4 : ¬ d.nextGregorian.before ⟨1, 3, 1900⟩ := by
      unfold Date.before at *
      simp only at *
      omega
    have := ih d.nextGregorian (Date.next_valid _ d hd) h4 h2
    simp only at this
    rw [this, C24_next_day_partial d hd h1 h3]
    push_cast; ring

example : Date.nextGregorian^[3] ⟨28, 2, 2000⟩ = ⟨2, 3, 2000⟩ := by
  simp [Date.nextGregorian, Date.next, daysInMonth, gregorianLeap]

/-- C24 fails for general dates: the 1st of March 2100 is counted two days after the 28th of February 2100 (and likewise
in 1900), although 2100 is not a leap year. -/
theorem C24_fails : ∃ d : Date, d.ValidGregorian ∧ d.nextGregorian = ⟨1, 3, 2100⟩ ∧ ∀ h mi s,
    fractionalDaysSinceJ2000 d.nextGregorian.day d.nextGregorian.month d.nextGregorian.year h mi s =
      fractionalDaysSinceJ2000 d.day d.month d.year h mi s + 2 := by
  have hn : (⟨28, 2, 2100⟩ : Date).nextGregorian = ⟨1, 3, 2100⟩ := by
    simp [Date.nextGregorian, Date.next, daysInMonth, gregorianLeap]
  refine ⟨⟨28, 2, 2100⟩, ?_, hn, ?_⟩
  · simp [Date.ValidGregorian, Date.Valid, daysInMonth, gregorianLeap]
  · intro h mi s
    rw [hn, fractionalDays_eq, fractionalDays_eq]
    norm_num [dayNumber]; ring

/-! ## C25 — sidereal time -/

theorem cfmod_nonneg {x y : ℝ} (hx : 0 ≤ x) (hy : 0 < y) : 0 ≤ cfmod x y ∧ cfmod x y < y := by
  have h0 : 0 ≤ x / y := by positivity
  unfold cfmod
  rw [if_pos h0]
  have h1 := Int.floor_le (x / y)
  have h2 := Int.lt_floor_add_one (x / y)
  rw [le_div_iff₀ hy] at h1
  rw [div_lt_iff₀ hy] at h2
  constructor <;> nlinarith

theorem cfmod_neg {x y : ℝ} (hx : x ≤ 0) (hy : 0 < y) : -y < cfmod x y ∧ cfmod x y ≤ 0 := by
  have h1 := Int.le_ceil (x / y)
  have h2 := Int.ceil_lt_add_one (x / y)
  rw [div_le_iff₀ hy] at h1
  rw [← sub_lt_iff_lt_add, lt_div_iff₀ hy] at h2
  rcases hx.lt_or_eq with hx | hx
  · have h0 : ¬ 0 ≤ x / y := not_le.2 (div_neg_of_neg_of_pos hx hy)
    unfold cfmod
    rw [if_neg h0]
    constructor <;> nlinarith
  · subst hx; simp [cfmod, hy]

/-- `fmod(x, y)` differs from `x` by a multiple of `y`. -/
theorem cfmod_congr (x y : ℝ) : ∃ k : ℤ, cfmod x y = x - y * k := by
  unfold cfmod; split_ifs
  · exact ⟨_, rfl⟩
  · exact ⟨_, rfl⟩

theorem siderealSeconds_bound (n lon : ℝ) :
    |siderealSeconds n lon - (86400 * (0.779057273264 + 0.00273781191135448 * n + cfmod n 1) + 0.00096707 +
      307.47710227 * (n / 36525) + 0.092772113 * (n / 36525) ^ 2 + lon / 2 / Real.pi * 86400)| ≤ 2 := by
  unfold siderealSeconds
  simp only
  generalize 125.04455501 * deg - 0.05295376 * deg * n = Om
  generalize 280.47 * deg - 0.98565 * deg * n = L
  generalize 23.439279444 * deg - 0.01301021361 * deg * (n / 36525) = ep
  have e : ∀ a b c : ℝ, a + b + c - (a + c) = b := by intros; ring
  rw [e]
  have s1 := Real.abs_sin_le_one Om
  have s2 := Real.abs_sin_le_one (2 * Om)
  have s3 := Real.abs_cos_le_one (2 * L)
  have s4 := Real.abs_cos_le_one ep
  have h5 : |(-1.1484 * Real.sin Om - 0.0864 * Real.cos (2 * L))| ≤ 1.2348 := by
    rw [abs_le] at *; constructor <;> linarith
  have h6 : |(-1.1484 * Real.sin Om - 0.0864 * Real.cos (2 * L)) * Real.cos ep| ≤ 1.2348 := by
    rw [abs_mul]
    calc _ ≤ 1.2348 * 1 := mul_le_mul h5 s4 (abs_nonneg _) (by norm_num)
      _ = 1.2348 := by norm_num
  rw [abs_le] at *
  constructor <;> linarith [h6.1, h6.2]

/-- C25 from the epoch on: for every time since J2000.0 and every longitude (east positive, at least `-π`) the local
sidereal time lies in `[0, 24 h)`. Missing: times before J2000.0 and western longitudes below `-π`
(see `C25_fails`). -/
theorem C25_range_partial (U : Units) {n lon : ℝ} (hn : 0 ≤ n) (hl : -Real.pi ≤ lon) :
    0 ≤ localApparentSiderealTime U n lon ∧ localApparentSiderealTime U n lon < 86400 * U.sec := by
  have hsec := U.sec_pos
  have hpi := Real.pi_pos
  have hb := (abs_le.1 (siderealSeconds_bound n lon)).1
  have h1 : -(1 / 2) ≤ lon / 2 / Real.pi := by
    rw [div_div, le_div_iff₀ (by positivity)]; linarith
  have h2 := (cfmod_nonneg hn one_pos).1
  have h3 : 0 ≤ 307.47710227 * (n / 36525) + 0.092772113 * (n / 36525) ^ 2 := by positivity
  have h4 : 0 ≤ siderealSeconds n lon := by linarith
  obtain ⟨h5, h6⟩ := cfmod_nonneg h4 (show (0 : ℝ) < 86400 by norm_num)
  unfold localApparentSiderealTime
  exact ⟨by positivity, by gcongr⟩

example : (0 : ℝ) ≤ 3650.5 ∧ -Real.pi ≤ -Real.pi / 2 := ⟨by norm_num, by linarith [Real.pi_pos]⟩

/-- C25 on every input: the absolute value is below 24 h, and moving east by a longitude `d` advances the time by
`d / 2π` days, modulo full days. -/
theorem C25_modulo_day_partial (U : Units) (n lon d : ℝ) :
    |localApparentSiderealTime U n lon| < 86400 * U.sec ∧
    ∃ k : ℤ, localApparentSiderealTime U n (lon + d) =
      localApparentSiderealTime U n lon + (d / (2 * Real.pi) + k) * (86400 * U.sec) := by
  have hsec := U.sec_pos
  constructor
  · unfold localApparentSiderealTime
    rw [abs_mul, abs_of_pos hsec]
    gcongr
    rw [abs_lt]
    rcases le_total 0 (siderealSeconds n lon) with h | h
    · have := cfmod_nonneg h (show (0 : ℝ) < 86400 by norm_num)
      constructor <;> linarith [this.1, this.2]
    · have := cfmod_neg h (show (0 : ℝ) < 86400 by norm_num)
      constructor <;> linarith [this.1, this.2]
  · obtain ⟨k1, h1⟩ := cfmod_congr (siderealSeconds n (lon + d)) 86400
    obtain ⟨k2, h2⟩ := cfmod_congr (siderealSeconds n lon) 86400
    refine ⟨k2 - k1, ?_⟩
    unfold localApparentSiderealTime
    rw [h1, h2]
    have h3 : siderealSeconds n (lon + d) = siderealSeconds n lon + d / 2 / Real.pi * 86400 := by
      unfold siderealSeconds; ring
    rw [h3]
    push_cast
    field_simp
    ring

/-- C25: from one day to the next the sidereal time advances by 3 min 56.6 s modulo a day, up to nutation (4 s), within
a century of the epoch: a sidereal day is that much shorter than a solar day. -/
theorem C25_sidereal_day (U : Units) {n : ℝ} (hn : |n| ≤ 36525) (lon : ℝ) :
    ∃ k : ℤ, |localApparentSiderealTime U (n + 1) lon - localApparentSiderealTime U n lon -
      (236.5554 + 86400 * k) * U.sec| ≤ 4.001 * U.sec := by
  have hsec := U.sec_pos
  obtain ⟨k1, h1⟩ := cfmod_congr (siderealSeconds (n + 1) lon) 86400
  obtain ⟨k2, h2⟩ := cfmod_congr (siderealSeconds n lon) 86400
  obtain ⟨k3, h3⟩ := cfmod_congr (n + 1) 1
  obtain ⟨k4, h4⟩ := cfmod_congr n 1
  refine ⟨k2 - k1 + 1 + k4 - k3, ?_⟩
  have b1 := abs_le.1 (siderealSeconds_bound (n + 1) lon)
  have b2 := abs_le.1 (siderealSeconds_bound n lon)
  rw [h3] at b1
  rw [h4] at b2
  unfold localApparentSiderealTime
  rw [h1, h2, ← sub_mul, ← sub_mul, abs_mul, abs_of_pos hsec]
  apply mul_le_mul_of_nonneg_right _ hsec.le
  have hq : ((n + 1) / 36525) ^ 2 - (n / 36525) ^ 2 = (2 * n + 1) / 36525 ^ 2 := by ring
  have hn' := abs_le.1 hn
  have hq1 : -(1 / 1000) ≤ (2 * n + 1) / 36525 ^ 2 := by rw [le_div_iff₀ (by norm_num)]; norm_num; linarith
  have hq2 : (2 * n + 1) / 36525 ^ 2 ≤ 1 / 1000 := by rw [div_le_iff₀ (by norm_num)]; norm_num; linarith
  rw [abs_le]
  push_cast
  norm_num at b1 b2 ⊢
  constructor <;> nlinarith [b1.1, b1.2, b2.1, b2.2]

example : |(8000 : ℝ)| ≤ 36525 := by norm_num

/-- C25: modulo a day, the sidereal time is the one of the Naval Observatory's formulae, except for the second nutation term: the
code has `cos 2L` with `L = 280.47° - 0.98565° n` where the formula has `sin 2L` with `L = 280.47° + 0.98565° n`. -/
theorem C25_formula (U : Units) (n lon : ℝ) :
    ∃ k : ℤ, localApparentSiderealTime U n lon =
      (localApparent n lon + 0.0864 * (Real.sin (2 * solarLongitude n) - Real.cos (2 * rad (280.47 - 0.98565 * n))) *
        Real.cos (obliquity n) + 86400 * k) * U.sec := by
  obtain ⟨k1, h1⟩ := cfmod_congr (siderealSeconds n lon) 86400
  obtain ⟨k2, h2⟩ := cfmod_congr n 1
  refine ⟨-k1 - k2, ?_⟩
  unfold localApparentSiderealTime
  rw [h1]
  unfold siderealSeconds localApparent greenwichMean equationOfEquinoxes lunarNode solarLongitude obliquity rad
  rw [h2]
  have e1 : (23.439279444 * deg - 0.01301021361 * deg * (n / 36525) : ℝ) =
      (23.439279444 - 0.01301021361 * (n / 36525)) * (Real.pi / 180) := by unfold deg; ring
  have e2 : (125.04455501 * deg - 0.05295376 * deg * n : ℝ) = (125.04455501 - 0.05295376 * n) * (Real.pi / 180) := by
    unfold deg; ring
  have e3 : (280.47 * deg - 0.98565 * deg * n : ℝ) = (280.47 - 0.98565 * n) * (Real.pi / 180) := by unfold deg; ring
  dsimp only
  rw [e1, e2, e3]
  push_cast
  ring

/-- C25: so the result agrees with the Naval Observatory's formulae to 0.173 s, modulo a day. -/
theorem C25_accuracy (U : Units) (n lon : ℝ) :
    ∃ k : ℤ, |localApparentSiderealTime U n lon - (localApparent n lon + 86400 * k) * U.sec| ≤ 0.1728 * U.sec := by
  obtain ⟨k, hk⟩ := C25_formula U n lon
  refine ⟨k, ?_⟩
  have hsec := U.sec_pos
  rw [hk, ← sub_mul, abs_mul, abs_of_pos hsec]
  gcongr
  have h1 := Real.abs_sin_le_one (2 * solarLongitude n)
  have h2 := Real.abs_cos_le_one (2 * rad (280.47 - 0.98565 * n))
  have h3 := Real.abs_cos_le_one (obliquity n)
  have h4 := abs_sub (Real.sin (2 * solarLongitude n)) (Real.cos (2 * rad (280.47 - 0.98565 * n)))
  rw [show ∀ a b c d : ℝ, a + b * c * d + 86400 * k - (a + 86400 * k) = b * (c * d) by intros; ring, abs_mul, abs_mul]
  have h5 := mul_le_mul (h4.trans (add_le_add h1 h2)) h3 (abs_nonneg _) (by norm_num)
  rw [abs_of_pos (by norm_num)]
  linarith

/-- C25 fails before the epoch: a century before J2000.0 the returned time is negative (at Greenwich). -/
theorem C25_fails (U : Units) : localApparentSiderealTime U (-36525) 0 < 0 := by
  have hsec := U.sec_pos
  have hb := abs_le.1 (siderealSeconds_bound (-36525) 0)
  have h0 : cfmod (-36525) 1 = 0 := by
    norm_num [cfmod]
  rw [h0] at hb
  norm_num at hb
  have h1 : siderealSeconds (-36525) 0 / 86400 < -99 := by
    rw [div_lt_iff₀ (by norm_num)]; linarith [hb.2]
  have h2 : -100 < siderealSeconds (-36525) 0 / 86400 := by
    rw [lt_div_iff₀ (by norm_num)]; linarith [hb.1]
  have h3 : ⌈siderealSeconds (-36525) 0 / 86400⌉ = -99 := by
    rw [Int.ceil_eq_iff]; push_cast; constructor <;> linarith
  unfold localApparentSiderealTime cfmod
  rw [if_neg (by linarith), h3]
  have h4 : siderealSeconds (-36525) 0 - 86400 * ((-99 : ℤ) : ℝ) < 0 := by
    rw [div_lt_iff₀ (by norm_num)] at h1; push_cast; linarith
  exact mul_neg_of_neg_of_pos h4 hsec

/-! ## C26 — Earth's velocity -/

/-- C26: the Sun's velocity is the rotation of the local standard of rest (220 km/s) plus the Sun's peculiar motion. -/
theorem C26_sun (U : Units) : sunVelocity U = ![11.1 * U.km / U.sec, 232.2 * U.km / U.sec, 7.3 * U.km / U.sec] := by
  ext i
  fin_cases i <;> simp [sunVelocity]
  ring

/-- C26: in heliocentric ecliptic coordinates the Earth moves with mean longitude `L = 280.46° + 0.9856474° n` on an
orbit with perihelion at `282.932° + 0.0000471° n`; reducing the angles modulo a turn has no effect, and the motion
stays in the ecliptic plane, at every time `n` before or after the epoch. -/
theorem C26_orbit (U : Units) (n : ℝ) :
    let u := earthVelocity U n - sunVelocity U
    let L := (280.46 + 0.9856474 * n) * deg
    let w := (282.932 + 0.0000471 * n) * deg
    dot u (transformHelEclToGal ![1, 0, 0] (n / 36525)) =
      -(29.79 * U.km / U.sec) * (Real.sin L + 0.01671 * Real.sin (2 * L - w)) ∧
    dot u (transformHelEclToGal ![0, 1, 0] (n / 36525)) =
      29.79 * U.km / U.sec * (Real.cos L + 0.01671 * Real.cos (2 * L - w)) ∧
    dot u (transformHelEclToGal ![0, 0, 1] (n / 36525)) = 0 := by
  intro u L w
  obtain ⟨k1, hk1⟩ := cfmod_congr (280.46 * deg + n * 0.9856474 * deg) (2 * Real.pi)
  obtain ⟨k2, hk2⟩ := cfmod_congr (282.932 * deg + n * 0.0000471 * deg) (2 * Real.pi)
  have eL : cfmod (280.46 * deg + n * 0.9856474 * deg) (2 * Real.pi) = L - k1 * (2 * Real.pi) := by
    rw [hk1]; simp only [L]; ring
  have ew : cfmod (282.932 * deg + n * 0.0000471 * deg) (2 * Real.pi) = w - k2 * (2 * Real.pi) := by
    rw [hk2]; simp only [w]; ring
  have e2 : 2 * (L - k1 * (2 * Real.pi)) - (w - k2 * (2 * Real.pi)) = 2 * L - w - ((2 * k1 - k2 : ℤ) : ℝ) * (2 * Real.pi) := by
    push_cast; ring
  have hmem : transformHelEclToGal ∈ coordinateTransformations := by simp [coordinateTransformations]
  have hxx := (C23_isometry _ hmem ![1, 0, 0] ![1, 0, 0] (n / 36525)).1
  have hxy := (C23_isometry _ hmem ![1, 0, 0] ![0, 1, 0] (n / 36525)).1
  have hyy := (C23_isometry _ hmem ![0, 1, 0] ![0, 1, 0] (n / 36525)).1
  have hxz := (C23_isometry _ hmem ![1, 0, 0] ![0, 0, 1] (n / 36525)).1
  have hyz := (C23_isometry _ hmem ![0, 1, 0] ![0, 0, 1] (n / 36525)).1
  have hu : u = (-(29.79 * U.km / U.sec) * (Real.sin L + 0.01671 * Real.sin (2 * L - w))) • transformHelEclToGal ![1, 0, 0] (n / 36525) +
      (29.79 * U.km / U.sec * (Real.cos L + 0.01671 * Real.cos (2 * L - w))) • transformHelEclToGal ![0, 1, 0] (n / 36525) := by
    simp only [u, earthVelocity]
    rw [eL, ew, e2, Real.sin_sub_int_mul_two_pi, Real.cos_sub_int_mul_two_pi, Real.sin_sub_int_mul_two_pi,
      Real.cos_sub_int_mul_two_pi, add_sub_cancel_left]
  rw [hu]
  generalize transformHelEclToGal ![1, 0, 0] (n / 36525) = ex at *
  generalize transformHelEclToGal ![0, 1, 0] (n / 36525) = ey at *
  generalize transformHelEclToGal ![0, 0, 1] (n / 36525) = ez at *
  generalize -(29.79 * U.km / U.sec) * (Real.sin L + 0.01671 * Real.sin (2 * L - w)) = a at *
  generalize 29.79 * U.km / U.sec * (Real.cos L + 0.01671 * Real.cos (2 * L - w)) = b at *
  simp [dot] at hxx hxy hyy hxz hyz ⊢
  refine ⟨?_, ?_, ?_⟩
  · linear_combination a * hxx + b * hxy
  · linear_combination a * hxy + b * hyy
  · linear_combination a * hxz + b * hyz

/-- C26: the Earth's velocity relative to the Sun has a length between `ve (1 - e)` and `ve (1 + e)` with
`ve = 29.79 km/s` and eccentricity `e = 0.01671`, at every time. -/
theorem C26_orbital_speed (U : Units) (n : ℝ) :
    29.79 * U.km / U.sec * (1 - 0.01671) ≤ vnorm (earthVelocity U n - sunVelocity U) ∧
    vnorm (earthVelocity U n - sunVelocity U) ≤ 29.79 * U.km / U.sec * (1 + 0.01671) := by
  have hkm := U.km_pos
  have hsec := U.sec_pos
  unfold earthVelocity
  simp only
  generalize cfmod (280.46 * deg + n * 0.9856474 * deg) (2 * Real.pi) = L
  generalize cfmod (282.932 * deg + n * 0.0000471 * deg) (2 * Real.pi) = om
  set ve : ℝ := 29.79 * U.km / U.sec with hve
  have hve0 : 0 < ve := by positivity
  have hmem : transformHelEclToGal ∈ coordinateTransformations := by simp [coordinateTransformations]
  have hxx := (C23_isometry _ hmem ![1, 0, 0] ![1, 0, 0] (n / 36525)).1
  have hxy := (C23_isometry _ hmem ![1, 0, 0] ![0, 1, 0] (n / 36525)).1
  have hyy := (C23_isometry _ hmem ![0, 1, 0] ![0, 1, 0] (n / 36525)).1
  generalize transformHelEclToGal ![1, 0, 0] (n / 36525) = ex at *
  generalize transformHelEclToGal ![0, 1, 0] (n / 36525) = ey at *
  simp [dot] at hxx hxy hyy
  have h1 := Real.sin_sq_add_cos_sq L
  have h2 := Real.sin_sq_add_cos_sq (2 * L - om)
  have h3 : Real.cos (L - om) = Real.cos (2 * L - om) * Real.cos L + Real.sin (2 * L - om) * Real.sin L := by
    rw [← Real.cos_sub]; congr 1; ring
  have hc1 := Real.neg_one_le_cos (L - om)
  have hc2 := Real.cos_le_one (L - om)
  set e : ℝ := 0.01671 with he
  have he0 : 0 < e := by norm_num [he]
  have hsq : dot (sunVelocity U + ((-ve * (Real.sin L + e * Real.sin (2 * L - om))) • ex +
      (ve * (Real.cos L + e * Real.cos (2 * L - om))) • ey) - sunVelocity U)
      (sunVelocity U + ((-ve * (Real.sin L + e * Real.sin (2 * L - om))) • ex +
      (ve * (Real.cos L + e * Real.cos (2 * L - om))) • ey) - sunVelocity U) =
      ve ^ 2 * (1 + 2 * e * Real.cos (L - om) + e ^ 2) := by
    rw [add_sub_cancel_left]
    simp only [dot, Pi.add_apply, Pi.smul_apply, smul_eq_mul]
    rw [h3]
    generalize Real.sin L = sL at *
    generalize Real.cos L = cL at *
    generalize Real.sin (2 * L - om) = sO at *
    generalize Real.cos (2 * L - om) = cO at *
    linear_combination (ve ^ 2 * (sL + e * sO) ^ 2) * hxx + (-2 * ve ^ 2 * (sL + e * sO) * (cL + e * cO)) * hxy +
      (ve ^ 2 * (cL + e * cO) ^ 2) * hyy + ve ^ 2 * h1 + ve ^ 2 * e ^ 2 * h2
  have he1 : e < 1 := by norm_num [he]
  unfold vnorm
  rw [hsq]
  constructor
  · apply Real.le_sqrt_of_sq_le
    nlinarith [mul_pos (pow_pos hve0 2) he0]
  · apply Real.sqrt_le_iff.2 ⟨by positivity, ?_⟩
    nlinarith [mul_pos (pow_pos hve0 2) he0]

end Obscura
