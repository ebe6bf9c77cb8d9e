import Mathlib.Data.Real.Basic

/-!
# Specification of rounding (C88)

The numbers of 53 binary digits with any exponent, and what is known of the result of one operation of `double` arithmetic that does neither overflow
nor underflow (IEEE 754, rounding to nearest).
-/

namespace Obscura.Spec

/-- A number with at most 53 binary digits. -/
def IsDouble (x : ℝ) : Prop := ∃ m e : ℤ, |m| < 2 ^ 53 ∧ x = m * (2 : ℝ) ^ e

/-- Rounding to `double`: the result is a double, and no double is closer. Which of two doubles at the same distance is taken is left open. -/
structure DoubleRounding (rnd : ℝ → ℝ) : Prop where
  double : ∀ x, IsDouble (rnd x)
  nearest : ∀ x y, IsDouble y → |rnd x - x| ≤ |y - x|

/-- `y` deviates from `x ≥ 0` by no more than `k` successive rounding errors. -/
def Near (k : ℕ) (x y : ℝ) : Prop := x * (1 - 1 / 2 ^ 53) ^ k ≤ y ∧ y ≤ x * (1 + 1 / 2 ^ 53) ^ k

end Obscura.Spec
