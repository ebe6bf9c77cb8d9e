import Mathlib.Probability.Distributions.Poisson.Basic

/-!
# Specification: Poisson counts

Mathlib's Poisson distribution is the reference for the event statistics.
-/

namespace Obscura.Spec

open ProbabilityTheory

/-- The probability that at most `n` events occur when `mu ≥ 0` are expected. -/
noncomputable def probAtMost (mu : ℝ) (n : ℕ) : ℝ := (poissonMeasure mu.toNNReal).real (Set.Iic n)

/-- The probability that exactly `n` events occur when `mu ≥ 0` are expected. -/
noncomputable def probExactly (mu : ℝ) (n : ℕ) : ℝ := (poissonMeasure mu.toNNReal).real {n}

end Obscura.Spec
