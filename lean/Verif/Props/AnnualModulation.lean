import Verif.Lemmas.AnnualModulation
import Verif.Model.HaloPP

/-!
# C94: the wind of dark matter through the year
-/

namespace Obscura

open Real

/-- The length of a sum of vectors. -/
theorem vnorm_add_le (v w : Vec) : vnorm (v + w) ≤ vnorm v + vnorm w := by
  have hv : 0 ≤ dot v v := by simp only [dot]; nlinarith [mul_self_nonneg (v 0), mul_self_nonneg (v 1), mul_self_nonneg (v 2)]
  have hw : 0 ≤ dot w w := by simp only [dot]; nlinarith [mul_self_nonneg (w 0), mul_self_nonneg (w 1), mul_self_nonneg (w 2)]
  have hcs : dot v w ≤ √(dot v v) * √(dot w w) := by
    rw [← Real.sqrt_mul hv]
    apply Real.le_sqrt_of_sq_le
    simp only [dot]
    nlinarith [sq_nonneg (v 0 * w 1 - v 1 * w 0), sq_nonneg (v 0 * w 2 - v 2 * w 0), sq_nonneg (v 1 * w 2 - v 2 * w 1)]
  unfold vnorm
  apply Real.sqrt_le_iff.2 ⟨by positivity, ?_⟩
  have e : dot (v + w) (v + w) = dot v v + dot w w + 2 * dot v w := by simp [dot]; ring
  have h1 := Real.sq_sqrt hv
  have h2 := Real.sq_sqrt hw
  nlinarith

theorem vnorm_sub_comm (v w : Vec) : vnorm (v - w) = vnorm (w - v) := by
  unfold vnorm
  congr 1
  simp [dot]; ring

/-- The Earth moves through the halo with 202.2 to 262.9 km/s, at every time. -/
theorem earth_speed (U : Units) (n : ℝ) :
    202.2 * U.km / U.sec ≤ vnorm (earthVelocity U n) ∧ vnorm (earthVelocity U n) ≤ 262.9 * U.km / U.sec := by
  have hk : 0 < U.km / U.sec := div_pos U.km_pos U.sec_pos
  have hs : vnorm (sunVelocity U) ≤ 232.6 * (U.km / U.sec) ∧ 232.5 * (U.km / U.sec) ≤ vnorm (sunVelocity U) := by
    have e : dot (sunVelocity U) (sunVelocity U) = 54093.34 * (U.km / U.sec) ^ 2 := by
      rw [C26_sun]; simp [dot]; ring
    unfold vnorm
    rw [e]
    constructor
    · apply Real.sqrt_le_iff.2 ⟨by positivity, ?_⟩
      nlinarith [sq_nonneg (U.km / U.sec)]
    · apply Real.le_sqrt_of_sq_le
      nlinarith [sq_nonneg (U.km / U.sec)]
  have ho := (C26_orbital_speed U n).2
  have h1 := vnorm_add_le (sunVelocity U) (earthVelocity U n - sunVelocity U)
  have h2 := vnorm_add_le (earthVelocity U n) (sunVelocity U - earthVelocity U n)
  rw [add_sub_cancel] at h1 h2
  rw [vnorm_sub_comm] at h2
  rw [mul_div_assoc] at ho ⊢
  rw [mul_div_assoc]
  constructor <;> nlinarith [hs.1, hs.2]

/-- The days since the epoch on one of the first fifteen days of June (`F = 214`) or December (`F = 397`). -/
theorem days_of_date {d m y hour minute F : ℤ} (hm12 : ¬(m = 1 ∨ m = 2)) (hF : ⌊(30.61 : ℝ) * ((m + 1 : ℤ) : ℝ)⌋ = F) (hd : 1 ≤ d ∧ d ≤ 15)
    (hh : 0 ≤ hour ∧ hour ≤ 23) (hm : 0 ≤ minute ∧ minute ≤ 59) :
    365.25 * ((y : ℝ) - 2000) + F - 63.25 ≤ fractionalDaysSinceJ2000 d m y hour minute 0 ∧
    fractionalDaysSinceJ2000 d m y hour minute 0 ≤ 365.25 * ((y : ℝ) - 2000) + F - 47.5 := by
  have hf := Int.floor_le ((365.25 : ℝ) * (y : ℝ))
  have hf' : (365.25 : ℝ) * y - 0.75 ≤ (⌊(365.25 : ℝ) * (y : ℝ)⌋ : ℝ) := by
    have h4 : (4 * ((365.25 : ℝ) * y) : ℝ) = ((1461 * y : ℤ) : ℝ) := by push_cast; ring
    have h5 := Int.lt_floor_add_one ((365.25 : ℝ) * (y : ℝ))
    have h6 : ((1461 * y : ℤ) : ℝ) < ((4 * (⌊(365.25 : ℝ) * (y : ℝ)⌋ + 1) : ℤ) : ℝ) := by rw [← h4]; push_cast; linarith
    have h7 : 1461 * y + 1 ≤ 4 * (⌊(365.25 : ℝ) * (y : ℝ)⌋ + 1) := by exact_mod_cast h6
    have h8 : ((1461 * y + 1 : ℤ) : ℝ) ≤ ((4 * (⌊(365.25 : ℝ) * (y : ℝ)⌋ + 1) : ℤ) : ℝ) := by exact_mod_cast h7
    push_cast at h8
    linarith
  have hd1 : (1 : ℝ) ≤ d ∧ (d : ℝ) ≤ 15 := by exact_mod_cast hd
  have hh1 : (0 : ℝ) ≤ hour ∧ (hour : ℝ) ≤ 23 := by exact_mod_cast hh
  have hm1 : (0 : ℝ) ≤ minute ∧ (minute : ℝ) ≤ 59 := by exact_mod_cast hm
  unfold fractionalDaysSinceJ2000
  rw [if_neg hm12, hF]
  constructor <;> linarith

theorem earth_speed_june (U : Units) {d y hour minute : ℤ} (hd : 1 ≤ d ∧ d ≤ 15) (hy : 1901 ≤ y ∧ y ≤ 2099) (hh : 0 ≤ hour ∧ hour ≤ 23)
    (hm : 0 ≤ minute ∧ minute ≤ 59) : 245 * U.km / U.sec ≤ vnorm (earthVelocity U (fractionalDaysSinceJ2000 d 6 y hour minute 0)) := by
  have hk : 0 < U.km / U.sec := div_pos U.km_pos U.sec_pos
  obtain ⟨d1, d2⟩ := deg_bounds
  have hdeg : 180 * deg = π := by unfold deg; ring
  obtain ⟨n1, n2⟩ := days_of_date (y := y) (m := 6) (F := 214) (by decide) (by rw [Int.floor_eq_iff]; norm_num) hd hh hm
  generalize fractionalDaysSinceJ2000 d 6 y hour minute 0 = n at *
  have hy1 : (1901 : ℝ) ≤ y ∧ (y : ℝ) ≤ 2099 := by exact_mod_cast hy
  push_cast at n1 n2
  have hN : |n| ≤ 36525 := by
    rw [abs_le]; constructor <;> linarith
  obtain ⟨a, b, o, e1, e2, ⟨a1, a2⟩, ⟨b1, b2⟩, ⟨o1, o2⟩, he1, he2, hsq⟩ := earth_speed_sq U hN
  -- the angle from the longitude 90°
  obtain ⟨x, hx⟩ : ∃ x, x = (90 + 360 * (y - 1999)) - (280.46 + 0.9856474 * n) := ⟨_, rfl⟩
  have hx1 : 4 ≤ x ∧ x ≤ 21.8 := by
    rw [hx]; constructor <;> linarith
  have hL : (280.46 + 0.9856474 * n) * deg = π / 2 - x * deg + ((y - 1999 : ℤ) : ℝ) * (2 * π) := by
    rw [hx, ← hdeg]; push_cast; ring
  rw [hL, Real.sin_add_int_mul_two_pi, Real.cos_add_int_mul_two_pi, Real.sin_pi_div_two_sub, Real.cos_pi_div_two_sub] at hsq
  have hxd : 0 ≤ x * deg ∧ x * deg ≤ 0.381 := ⟨mul_nonneg (by linarith) (by linarith), by nlinarith⟩
  have hc : 0.927 ≤ cos (x * deg) := by
    have h1 := Real.one_sub_sq_div_two_le_cos (x := x * deg)
    nlinarith
  have hs : 0 ≤ sin (x * deg) := Real.sin_nonneg_of_nonneg_of_le_pi hxd.1 (by linarith [Real.pi_gt_three])
  generalize cos (x * deg) = c at *
  generalize sin (x * deg) = s at *
  have g1 : 0.927 * 101 ≤ c * -a := mul_le_mul hc (by linarith) (by norm_num) (by linarith)
  have g2 : 0 ≤ s * b := mul_nonneg hs b1
  have g3 := abs_le.1 (abs_mul_le he1 (abs_le.2 ⟨a1, by linarith⟩ : |a| ≤ 115))
  have g4 := abs_le.1 (abs_mul_le he2 (abs_le.2 ⟨by linarith, b2⟩ : |b| ≤ 50))
  unfold vnorm
  apply Real.le_sqrt_of_sq_le
  rw [hsq, mul_div_assoc, mul_pow, mul_comm]
  refine mul_le_mul_of_nonneg_left ?_ (by positivity)
  linarith [g3.1, g3.2, g4.1, g4.2]

theorem earth_speed_december (U : Units) {d y hour minute : ℤ} (hd : 1 ≤ d ∧ d ≤ 15) (hy : 1901 ≤ y ∧ y ≤ 2099) (hh : 0 ≤ hour ∧ hour ≤ 23)
    (hm : 0 ≤ minute ∧ minute ≤ 59) : vnorm (earthVelocity U (fractionalDaysSinceJ2000 d 12 y hour minute 0)) ≤ 223 * U.km / U.sec := by
  have hk : 0 < U.km / U.sec := div_pos U.km_pos U.sec_pos
  obtain ⟨d1, d2⟩ := deg_bounds
  have hdeg : 180 * deg = π := by unfold deg; ring
  obtain ⟨n1, n2⟩ := days_of_date (y := y) (m := 12) (F := 397) (by decide) (by rw [Int.floor_eq_iff]; norm_num) hd hh hm
  generalize fractionalDaysSinceJ2000 d 12 y hour minute 0 = n at *
  have hy1 : (1901 : ℝ) ≤ y ∧ (y : ℝ) ≤ 2099 := by exact_mod_cast hy
  push_cast at n1 n2
  have hN : |n| ≤ 36525 := by
    rw [abs_le]; constructor <;> linarith
  obtain ⟨a, b, o, e1, e2, ⟨a1, a2⟩, ⟨b1, b2⟩, ⟨o1, o2⟩, he1, he2, hsq⟩ := earth_speed_sq U hN
  -- the angle from the longitude 270°
  obtain ⟨x, hx⟩ : ∃ x, x = (270 + 360 * (y - 1999)) - (280.46 + 0.9856474 * n) := ⟨_, rfl⟩
  have hx1 : 4 ≤ x ∧ x ≤ 21.8 := by
    rw [hx]; constructor <;> linarith
  have hL : (280.46 + 0.9856474 * n) * deg = π / 2 - x * deg + π + ((y - 1999 : ℤ) : ℝ) * (2 * π) := by
    rw [hx, ← hdeg]; push_cast; ring
  rw [hL, Real.sin_add_int_mul_two_pi, Real.cos_add_int_mul_two_pi, Real.sin_add_pi, Real.cos_add_pi, Real.sin_pi_div_two_sub,
    Real.cos_pi_div_two_sub] at hsq
  have hxd : 0 ≤ x * deg ∧ x * deg ≤ 0.381 := ⟨mul_nonneg (by linarith) (by linarith), by nlinarith⟩
  have hc : 0.927 ≤ cos (x * deg) := by
    have h1 := Real.one_sub_sq_div_two_le_cos (x := x * deg)
    nlinarith
  have hs : 0 ≤ sin (x * deg) := Real.sin_nonneg_of_nonneg_of_le_pi hxd.1 (by linarith [Real.pi_gt_three])
  generalize cos (x * deg) = c at *
  generalize sin (x * deg) = s at *
  have g1 : 0.927 * 101 ≤ c * -a := mul_le_mul hc (by linarith) (by norm_num) (by linarith)
  have g2 : 0 ≤ s * b := mul_nonneg hs b1
  have g3 := abs_le.1 (abs_mul_le he1 (abs_le.2 ⟨a1, by linarith⟩ : |a| ≤ 115))
  have g4 := abs_le.1 (abs_mul_le he2 (abs_le.2 ⟨by linarith, b2⟩ : |b| ≤ 50))
  unfold vnorm
  apply Real.sqrt_le_iff.2 ⟨by rw [mul_div_assoc]; positivity, ?_⟩
  rw [hsq, mul_div_assoc, mul_pow, mul_comm _ ((U.km / U.sec) ^ 2)]
  refine mul_le_mul_of_nonneg_left ?_ (by positivity)
  linarith [g3.1, g3.2, g4.1, g4.2]

/-- C94 (every date). Whatever the state of the halo model and the date and time, valid or not, after setting the observer's velocity by the date
the observer moves with 202.2 to 262.9 km/s, and the fastest particle is faster than the escape speed by just this speed. -/
theorem C94_every_date (U : Units) (s : SHM) (t : SHMpp) (day month year hour minute : ℤ) :
    let v := vnorm (earthVelocity U (fractionalDaysSinceJ2000 day month year hour minute 0))
    (202.2 * U.km / U.sec ≤ v ∧ v ≤ 262.9 * U.km / U.sec) ∧
    (s.setObserverDate U day month year hour minute).vObs = v ∧ (s.setObserverDate U day month year hour minute).vMax = s.vEsc + v ∧
    (t.setObserverDate U day month year hour minute).vObs = v ∧ (t.setObserverDate U day month year hour minute).vMax = t.vEsc + v :=
  ⟨earth_speed U _, rfl, rfl, rfl, rfl⟩

/-- C94 (two dates). Between any two dates the speed of the observer changes by no more than twice the largest orbital speed of the Earth. -/
theorem C94_two_dates (U : Units) (s : SHM) (d m y h mi d' m' y' h' mi' : ℤ) :
    |(s.setObserverDate U d m y h mi).vObs - (s.setObserverDate U d' m' y' h' mi').vObs| ≤ 2 * (29.79 * U.km / U.sec * (1 + 0.01671)) := by
  have key : ∀ n n', vnorm (earthVelocity U n) ≤ vnorm (earthVelocity U n') + 2 * (29.79 * U.km / U.sec * (1 + 0.01671)) := by
    intro n n'
    have h1 := vnorm_add_le (earthVelocity U n') (sunVelocity U - earthVelocity U n')
    have h2 := vnorm_add_le (sunVelocity U) (earthVelocity U n - sunVelocity U)
    rw [add_sub_cancel] at h1 h2
    rw [vnorm_sub_comm] at h1
    linarith [(C26_orbital_speed U n).2, (C26_orbital_speed U n').2]
  rw [abs_le]
  constructor
  · linarith [key (fractionalDaysSinceJ2000 d' m' y' h' mi' 0) (fractionalDaysSinceJ2000 d m y h mi 0),
      show (s.setObserverDate U d m y h mi).vObs = vnorm (earthVelocity U (fractionalDaysSinceJ2000 d m y h mi 0)) from rfl,
      show (s.setObserverDate U d' m' y' h' mi').vObs = vnorm (earthVelocity U (fractionalDaysSinceJ2000 d' m' y' h' mi' 0)) from rfl]
  · linarith [key (fractionalDaysSinceJ2000 d m y h mi 0) (fractionalDaysSinceJ2000 d' m' y' h' mi' 0),
      show (s.setObserverDate U d m y h mi).vObs = vnorm (earthVelocity U (fractionalDaysSinceJ2000 d m y h mi 0)) from rfl,
      show (s.setObserverDate U d' m' y' h' mi').vObs = vnorm (earthVelocity U (fractionalDaysSinceJ2000 d' m' y' h' mi' 0)) from rfl]

/-- C94 (annual modulation). In every year from 1901 to 2099, at every minute of the first fifteen days of June the observer moves with more than
245 km/s through the halo, and of the first fifteen days of December with less than 223 km/s. -/
theorem C94_annual_modulation (U : Units) (s : SHM) (t : SHMpp) {day year hour minute : ℤ} (hd : 1 ≤ day ∧ day ≤ 15)
    (hy : 1901 ≤ year ∧ year ≤ 2099) (hh : 0 ≤ hour ∧ hour ≤ 23) (hm : 0 ≤ minute ∧ minute ≤ 59) :
    245 * U.km / U.sec ≤ (s.setObserverDate U day 6 year hour minute).vObs ∧
    245 * U.km / U.sec ≤ (t.setObserverDate U day 6 year hour minute).vObs ∧
    (s.setObserverDate U day 12 year hour minute).vObs ≤ 223 * U.km / U.sec ∧
    (t.setObserverDate U day 12 year hour minute).vObs ≤ 223 * U.km / U.sec :=
  ⟨earth_speed_june U hd hy hh hm, earth_speed_june U hd hy hh hm, earth_speed_december U hd hy hh hm, earth_speed_december U hd hy hh hm⟩

/-- Non-vacuity: 2 June 2020, 13:30. -/
example : (1 ≤ (2 : ℤ) ∧ (2 : ℤ) ≤ 15) ∧ (1901 ≤ (2020 : ℤ) ∧ (2020 : ℤ) ≤ 2099) ∧ (0 ≤ (13 : ℤ) ∧ (13 : ℤ) ≤ 23) ∧ 0 ≤ (30 : ℤ) ∧ (30 : ℤ) ≤ 59 := by
  decide

end Obscura
