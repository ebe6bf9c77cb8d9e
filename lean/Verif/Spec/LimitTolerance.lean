import Verif.Spec.Detector

/-!
# Specification: limits found with a finite tolerance
-/

namespace Obscura.Spec

/-- The root finder stops when it has a bracket (two points where the function has opposite signs, or a zero) of width at most `δ`, and
returns some point of it. Nothing is assumed about the function; it may jump. -/
def FindsWithin (R : RootFinder) (δ : ℝ) : Prop :=
  ∀ f a b, a ≤ b → f a * f b ≤ 0 → ∃ l r, a ≤ l ∧ l ≤ R f a b ∧ R f a b ≤ r ∧ r ≤ b ∧ r - l ≤ δ ∧ f l * f r ≤ 0

/-- What a result `x` of `Upper_Limit` is worth if the search has the tolerance `δ` (in powers of ten) and p-values are known up to `ε`:
either a coupling in the searched range `[10^-30, 10^10]` such that all couplings smaller by more than a factor `10^δ` have a p-value
above `1 - CL - ε`, and all couplings larger by more than this factor have a p-value below `1 - CL + ε`; or `-1`, and then all couplings
of the range are on the same side. -/
def LimitWithin (U : Units) (T : Tools) (C : DetectorClass) (d : Detector) (p : DMParticle) (certainty δ ε x : ℝ) : Prop :=
  (x = -1 ∧
    ((∀ c, (10 : ℝ) ^ (-30 : ℝ) ≤ c → c ≤ (10 : ℝ) ^ (10 : ℝ) → ∃ y, pValueAt U T C d p c = .ok y ∧ 1 - certainty - ε < y) ∨
      ∀ c, (10 : ℝ) ^ (-30 : ℝ) ≤ c → c ≤ (10 : ℝ) ^ (10 : ℝ) → ∃ y, pValueAt U T C d p c = .ok y ∧ y < 1 - certainty + ε)) ∨
  ((10 : ℝ) ^ (-30 : ℝ) ≤ x ∧ x ≤ (10 : ℝ) ^ (10 : ℝ) ∧ ∀ c, 0 < c → ∃ y, pValueAt U T C d p c = .ok y ∧
    (c * 10 ^ δ < x → 1 - certainty - ε < y) ∧ (x * 10 ^ δ < c → y < 1 - certainty + ε))

end Obscura.Spec
