import Verif.Model.Rounding
import Verif.Spec.Rounding
import Verif.Lemmas.Particle
import Mathlib.Data.Int.Log
import Mathlib.Algebra.Order.Round

/-!
# Rounding errors
-/

namespace Obscura

open Spec

/-! ### Rounding to nearest exists -/

/-- The position of the last binary digit. -/
noncomputable def lastDigit (x : ℝ) : ℤ := Int.log 2 |x| - 52

/-- Rounding to the nearest number of 53 binary digits. -/
noncomputable def nearest (x : ℝ) : ℝ := (round (x / (2 : ℝ) ^ lastDigit x) : ℝ) * (2 : ℝ) ^ lastDigit x

theorem mantissa_bounds {x : ℝ} (hx : x ≠ 0) : 2 ^ 52 ≤ |x / (2 : ℝ) ^ lastDigit x| ∧ |x / (2 : ℝ) ^ lastDigit x| < 2 ^ 53 := by
  have h0 : (0 : ℝ) < 2 ^ lastDigit x := by positivity
  have hp : 0 < |x| := abs_pos.2 hx
  have h1 : ((2 : ℕ) : ℝ) ^ Int.log 2 |x| ≤ |x| := Int.zpow_log_le_self (by norm_num) hp
  have h2 : |x| < ((2 : ℕ) : ℝ) ^ (Int.log 2 |x| + 1) := Int.lt_zpow_succ_log_self (by norm_num) _
  push_cast at h1 h2
  have e : Int.log 2 |x| = lastDigit x + 52 := by unfold lastDigit; ring
  rw [e] at h1 h2
  rw [abs_div, abs_of_pos h0, le_div_iff₀ h0, div_lt_iff₀ h0]
  constructor
  · rw [zpow_add₀ (by norm_num)] at h1
    have : (2 : ℝ) ^ (52 : ℤ) = 2 ^ 52 := by norm_cast
    rw [this] at h1
    linarith
  · rw [show lastDigit x + 52 + 1 = lastDigit x + 53 by ring, zpow_add₀ (by norm_num)] at h2
    have : (2 : ℝ) ^ (53 : ℤ) = 2 ^ 53 := by norm_cast
    rw [this] at h2
    linarith

theorem nearest_zero : nearest 0 = 0 := by simp [nearest]

/-- Rounding to nearest meets the specification. -/
theorem nearest_double : DoubleRounding nearest where
  double x := by
    by_cases hx : x = 0
    · rw [hx, nearest_zero]; exact ⟨0, 0, by norm_num, by simp⟩
    obtain ⟨h1, h2⟩ := mantissa_bounds hx
    set y := x / (2 : ℝ) ^ lastDigit x with hy
    have hr : |((round y : ℤ) : ℝ) - y| ≤ 1 / 2 := by rw [abs_sub_comm]; exact abs_sub_round y
    have hle : |((round y : ℤ) : ℝ)| < 2 ^ 53 + 1 := by
      have := abs_sub_abs_le_abs_sub ((round y : ℤ) : ℝ) y
      linarith
    have hle' : |round y| < 2 ^ 53 + 1 := by
      have : ((|round y| : ℤ) : ℝ) < ((2 ^ 53 + 1 : ℤ) : ℝ) := by push_cast; linarith
      exact_mod_cast this
    rcases (Int.lt_add_one_iff.1 hle').lt_or_eq with h | h
    · exact ⟨round y, lastDigit x, h, rfl⟩
    · have : ∃ s : ℤ, |s| = 1 ∧ round y = s * 2 ^ 53 := by
        rcases abs_eq (by norm_num : (0 : ℤ) ≤ 2 ^ 53) |>.1 h with h | h
        · exact ⟨1, by norm_num, by rw [h]; norm_num⟩
        · exact ⟨-1, by norm_num, by rw [h]; norm_num⟩
      obtain ⟨s, hs, hsy⟩ := this
      refine ⟨s, lastDigit x + 53, by rw [hs]; norm_num, ?_⟩
      unfold nearest
      rw [← hy, hsy, zpow_add₀ (by norm_num)]
      push_cast
      have : (2 : ℝ) ^ (53 : ℤ) = 2 ^ 53 := by norm_cast
      rw [this]
      ring
  nearest x y hy := by
    by_cases h0 : x = 0
    · rw [h0, nearest_zero]; simp
    obtain ⟨h1, h2⟩ := mantissa_bounds h0
    have hpos : (0 : ℝ) < 2 ^ lastDigit x := by positivity
    obtain ⟨m, e, hm, he⟩ := hy
    have hm' : |(m : ℝ)| < 2 ^ 53 := by exact_mod_cast hm
    set z := x / (2 : ℝ) ^ lastDigit x with hz
    have hx : x = z * 2 ^ lastDigit x := by rw [hz]; field_simp
    have hn : nearest x - x = ((round z : ℤ) - z) * 2 ^ lastDigit x := by
      unfold nearest
      rw [← hz, sub_mul, ← hx]
    have hy : y - x = (y / 2 ^ lastDigit x - z) * 2 ^ lastDigit x := by
      rw [sub_mul, ← hx]
      field_simp
    rw [hn, hy, abs_mul, abs_mul]
    refine mul_le_mul_of_nonneg_right ?_ (abs_nonneg _)
    rcases le_or_gt (lastDigit x) e with hle | hlt
    · have : y / (2 : ℝ) ^ lastDigit x = ((m * 2 ^ (e - lastDigit x).toNat : ℤ) : ℝ) := by
        rw [he, mul_div_assoc, ← zpow_sub₀ (by norm_num)]
        push_cast
        congr 1
        rw [← zpow_natCast, Int.toNat_of_nonneg (by omega)]
      rw [this, abs_sub_comm, abs_sub_comm _ z]
      exact round_le z _
    · have hyb : |y / (2 : ℝ) ^ lastDigit x| ≤ 2 ^ 52 := by
        rw [abs_div, abs_of_pos hpos, div_le_iff₀ hpos, he, abs_mul, abs_of_pos (by positivity : (0 : ℝ) < 2 ^ e)]
        have h3 : (2 : ℝ) ^ (e + 1) ≤ 2 ^ lastDigit x := zpow_le_zpow_right₀ (by norm_num) (by omega)
        rw [zpow_add_one₀ (by norm_num)] at h3
        have he0 : (0 : ℝ) < 2 ^ e := by positivity
        have hmm : |(m : ℝ)| * 2 ^ e ≤ 2 ^ 53 * 2 ^ e := by gcongr
        nlinarith
      obtain ⟨hy1, hy2⟩ := abs_le.1 hyb
      generalize y / (2 : ℝ) ^ lastDigit x = w at *
      rcases le_total 0 z with hz0 | hz0
      · rw [abs_of_nonneg hz0] at h1
        have := round_le z (2 ^ 52)
        push_cast at this
        rw [abs_sub_comm, abs_sub_comm w z]
        refine this.trans ?_
        rw [abs_of_nonneg (by linarith), abs_of_nonneg (by linarith)]
        linarith
      · rw [abs_of_nonpos hz0] at h1
        have := round_le z (-2 ^ 52)
        push_cast at this
        rw [abs_sub_comm, abs_sub_comm w z]
        refine this.trans ?_
        rw [abs_of_nonpos (by linarith), abs_of_nonpos (by linarith)]
        linarith

theorem nearest_close (x : ℝ) : |nearest x - x| ≤ |x| / 2 ^ 53 := by
  by_cases h0 : x = 0
  · rw [h0, nearest_zero]; simp
  obtain ⟨h1, h2⟩ := mantissa_bounds h0
  have hpos : (0 : ℝ) < 2 ^ lastDigit x := by positivity
  set y := x / (2 : ℝ) ^ lastDigit x with hy
  have hr : |((round y : ℤ) : ℝ) - y| ≤ 1 / 2 := by rw [abs_sub_comm]; exact abs_sub_round y
  have hx : x = y * 2 ^ lastDigit x := by rw [hy]; field_simp
  have e : nearest x - x = (((round y : ℤ) : ℝ) - y) * 2 ^ lastDigit x := by
    unfold nearest
    rw [← hy, sub_mul, ← hx]
  rw [e, abs_mul, abs_of_pos hpos]
  have hax : |x| = |y| * 2 ^ lastDigit x := by
    conv_lhs => rw [hx]
    rw [abs_mul, abs_of_pos hpos]
  rw [hax, le_div_iff₀ (by norm_num)]
  nlinarith

variable {rnd : ℝ → ℝ}

/-- Doubles are kept. -/
theorem Spec.DoubleRounding.exact (hr : DoubleRounding rnd) (x : ℝ) (hx : IsDouble x) : rnd x = x := by
  have := hr.nearest x x hx
  rw [sub_self, abs_zero] at this
  linarith [abs_eq_zero.1 (le_antisymm this (abs_nonneg _))]

/-- The relative error is at most `2⁻⁵³`. -/
theorem Spec.DoubleRounding.close (hr : DoubleRounding rnd) (x : ℝ) : |rnd x - x| ≤ |x| / 2 ^ 53 :=
  (hr.nearest x _ (nearest_double.double x)).trans (nearest_close x)

/-- Whatever is closer than half a unit in the last digit to a double is rounded to this double. -/
theorem Spec.DoubleRounding.eq (hr : DoubleRounding rnd) {x : ℝ} {m e : ℤ} (h1 : 2 ^ 52 < m) (h2 : m < 2 ^ 53)
    (hx : |m * (2 : ℝ) ^ e - x| < 2 ^ e / 2) : rnd x = m * 2 ^ e := by
  have hd : IsDouble (m * (2 : ℝ) ^ e) := ⟨m, e, by rw [abs_lt]; constructor <;> omega, rfl⟩
  have h3 := hr.nearest x _ hd
  obtain ⟨m', e', hm', he'⟩ := hr.double x
  have h0 : (0 : ℝ) < 2 ^ e := by positivity
  have hlt : |rnd x - m * 2 ^ e| < 2 ^ e := by
    have : rnd x - m * 2 ^ e = (rnd x - x) - (m * 2 ^ e - x) := by ring
    rw [this]
    have := abs_sub (rnd x - x) (m * 2 ^ e - x)
    linarith
  rcases le_or_gt e e' with hle | hgt
  · have hmul : rnd x = ((m' * 2 ^ (e' - e).toNat : ℤ) : ℝ) * 2 ^ e := by
      rw [he']
      push_cast
      rw [mul_assoc, ← zpow_natCast, Int.toNat_of_nonneg (by omega), ← zpow_add₀ (by norm_num)]
      congr 2
      ring
    rw [hmul, ← sub_mul, abs_mul, abs_of_pos h0] at hlt
    have : |((m' * 2 ^ (e' - e).toNat : ℤ) : ℝ) - m| < 1 := by
      by_contra hc
      have := mul_le_mul_of_nonneg_right (not_lt.1 hc) h0.le
      linarith
    have : |m' * 2 ^ (e' - e).toNat - m| < 1 := by exact_mod_cast this
    rw [hmul, Int.abs_lt_one_iff.1 this |> sub_eq_zero.1]
  · exfalso
    have hm'' : |(m' : ℝ)| < 2 ^ 53 := by exact_mod_cast hm'
    have h3 : (2 : ℝ) ^ (e' + 1) ≤ 2 ^ e := zpow_le_zpow_right₀ (by norm_num) (by omega)
    rw [zpow_add_one₀ (by norm_num)] at h3
    have he0 : (0 : ℝ) < 2 ^ e' := by positivity
    have hb : |rnd x| ≤ 2 ^ 52 * 2 ^ e := by
      rw [he', abs_mul, abs_of_pos he0]
      have hmm : |(m' : ℝ)| * 2 ^ e' ≤ 2 ^ 53 * 2 ^ e' := by gcongr
      nlinarith
    have hm1 : (2 ^ 52 + 1 : ℝ) ≤ m := by exact_mod_cast h1
    have := (abs_lt.1 hlt).1
    have := (abs_le.1 hb).2
    nlinarith

/-! ### Successive errors -/

theorem Spec.Near.refl (x : ℝ) : Near 0 x x := by simp [Near]

theorem u_pos : (0 : ℝ) < 1 - 1 / 2 ^ 53 := by norm_num

theorem Spec.Near.nonneg {k : ℕ} {x y : ℝ} (hx : 0 ≤ x) (h : Near k x y) : 0 ≤ y :=
  (mul_nonneg hx (pow_nonneg u_pos.le _)).trans h.1

theorem Spec.Near.pos {k : ℕ} {x y : ℝ} (hx : 0 < x) (h : Near k x y) : 0 < y :=
  (mul_pos hx (pow_pos u_pos _)).trans_le h.1

theorem Spec.Near.trans {k l : ℕ} {x y z : ℝ} (h1 : Near k x y) (h2 : Near l y z) : Near (k + l) x z := by
  constructor
  · refine le_trans ?_ h2.1
    rw [pow_add, ← mul_assoc]
    exact mul_le_mul_of_nonneg_right h1.1 (pow_nonneg u_pos.le _)
  · refine h2.2.trans ?_
    rw [pow_add, ← mul_assoc]
    exact mul_le_mul_of_nonneg_right h1.2 (by positivity)

theorem Spec.Near.mul_right {k : ℕ} {x y c : ℝ} (h : Near k x y) (hc : 0 ≤ c) : Near k (x * c) (y * c) := by
  constructor
  · have := mul_le_mul_of_nonneg_right h.1 hc
    nlinarith
  · have := mul_le_mul_of_nonneg_right h.2 hc
    nlinarith

theorem Spec.Near.sq {k : ℕ} {x y : ℝ} (hx : 0 ≤ x) (h : Near k x y) : Near (2 * k) (x * x) (y * y) := by
  have hy := h.nonneg hx
  have h0 := pow_nonneg u_pos.le k
  constructor
  · rw [two_mul, pow_add]
    calc x * x * ((1 - 1 / 2 ^ 53) ^ k * (1 - 1 / 2 ^ 53) ^ k) = (x * (1 - 1 / 2 ^ 53) ^ k) * (x * (1 - 1 / 2 ^ 53) ^ k) := by ring
      _ ≤ y * y := mul_self_le_mul_self (mul_nonneg hx h0) h.1
  · rw [two_mul, pow_add]
    calc y * y ≤ (x * (1 + 1 / 2 ^ 53) ^ k) * (x * (1 + 1 / 2 ^ 53) ^ k) := mul_self_le_mul_self hy h.2
      _ = _ := by ring

theorem Spec.Near.round {rnd : ℝ → ℝ} (hr : DoubleRounding rnd) {k : ℕ} {x y : ℝ} (hx : 0 ≤ x) (h : Near k x y) : Near (k + 1) x (rnd y) := by
  refine h.trans ?_
  have hy := h.nonneg hx
  have := abs_le.1 (hr.close y)
  rw [abs_of_nonneg hy] at this
  constructor <;> rw [pow_one] <;> linarith [this.1, this.2]

theorem Spec.Near.weaken {k l : ℕ} {x y : ℝ} (hx : 0 ≤ x) (hkl : k ≤ l) (h : Near k x y) : Near l x y := by
  constructor
  · refine le_trans ?_ h.1
    exact mul_le_mul_of_nonneg_left (pow_le_pow_of_le_one u_pos.le (by norm_num) hkl) hx
  · refine h.2.trans ?_
    exact mul_le_mul_of_nonneg_left (pow_le_pow_right₀ (by norm_num) hkl) hx

theorem rnd_pos {rnd : ℝ → ℝ} (hr : DoubleRounding rnd) {x : ℝ} (hx : 0 < x) : 0 < rnd x := ((Near.refl x).round hr hx.le).pos hx

theorem rnd_nonneg {rnd : ℝ → ℝ} (hr : DoubleRounding rnd) {x : ℝ} (hx : 0 ≤ x) : 0 ≤ rnd x := ((Near.refl x).round hr hx).nonneg hx

end Obscura
