import Verif.Basic
import Mathlib.MeasureTheory.Measure.Lebesgue.Basic
import Mathlib.MeasureTheory.Integral.IntervalIntegral.Basic
import Mathlib.Probability.Independence.Basic

/-!
# Specification vocabulary for C115: random numbers and what is made of them
-/

namespace Obscura.Spec
open MeasureTheory
open scoped ENNReal

/-- The probability of an event that depends on one random number drawn uniformly from `[0, 1]`. -/
noncomputable def probability (event : ℝ → Prop) : ℝ≥0∞ := volume {ξ ∈ Set.Icc (0 : ℝ) 1 | event ξ}

/-- The sampler turns every random number into a value of `[-1, 1]`, and the probability of any interval is the integral of the density over
this interval. -/
structure SampledFrom (pdf sample : ℝ → Outcome ℝ) : Prop where
  always : ∀ ξ ∈ Set.Icc (0 : ℝ) 1, ∃ c ∈ Set.Icc (-1 : ℝ) 1, sample ξ = .ok c
  interval : ∀ a b : ℝ, -1 ≤ a → a ≤ b → b ≤ 1 → ∃ f : ℝ → ℝ, (∀ x ∈ Set.Icc a b, pdf x = .ok (f x)) ∧
    probability (fun ξ => ∃ c, sample ξ = .ok c ∧ a ≤ c ∧ c ≤ b) = ENNReal.ofReal (∫ x in a..b, f x)

/-- An ideal random number generator: `X i` is the `i`-th number, all are uniform in `[0, 1]` and independent of one another. -/
structure RandomNumbers {Ω : Type} [MeasurableSpace Ω] (μ : Measure Ω) (X : ℕ → Ω → ℝ) : Prop where
  measurable : ∀ i, Measurable (X i)
  uniform : ∀ i, μ.map (X i) = volume.restrict (Set.Icc 0 1)
  independent : Pairwise fun i j => ProbabilityTheory.IndepFun (X i) (X j) μ

end Obscura.Spec
