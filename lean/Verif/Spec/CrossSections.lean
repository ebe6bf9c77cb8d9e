import Verif.Basic
import Mathlib.MeasureTheory.Integral.IntervalIntegral.Basic

/-!
# Specification vocabulary for cross sections and scattering angles
-/

namespace Obscura.Spec

/-- The three functions describe one and the same probability distribution of `cos α` on `[-1, 1]`:
the density is non-negative and normalised, the CDF is its integral, and inserting a uniform random number `ξ` into
the sampler gives a value whose CDF is `ξ` (inverse-transform sampling). All three always return a number. -/
structure AngleDistribution (pdf cdf sample : ℝ → Outcome ℝ) : Prop where
  pdf_ok : ∀ c ∈ Set.Icc (-1 : ℝ) 1, ∃ y, pdf c = .ok y ∧ 0 ≤ y
  normalised : ∃ f : ℝ → ℝ, (∀ c ∈ Set.Icc (-1 : ℝ) 1, pdf c = .ok (f c)) ∧ ∫ c in (-1 : ℝ)..1, f c = 1
  cdf_is_integral : ∃ f : ℝ → ℝ, (∀ c ∈ Set.Icc (-1 : ℝ) 1, pdf c = .ok (f c)) ∧
    ∀ c ∈ Set.Icc (-1 : ℝ) 1, cdf c = .ok (∫ x in (-1 : ℝ)..c, f x)
  sample_ok : ∀ ξ ∈ Set.Icc (0 : ℝ) 1, ∃ c ∈ Set.Icc (-1 : ℝ) 1, sample ξ = .ok c ∧ cdf c = .ok ξ

end Obscura.Spec
