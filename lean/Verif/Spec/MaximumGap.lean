import Verif.Model.Detector
import Mathlib.MeasureTheory.Integral.IntervalIntegral.Basic
import Mathlib.Analysis.SpecialFunctions.Exp

/-!
# Specification of the maximum-gap distribution

Events of a Poisson process with unit rate fall on an interval of length `μ` (the expected number of events). `F μ` is the
probability that no gap (between neighbouring events, or between an event and an end of the interval) has the length `x` or more.
-/

namespace Obscura.Spec

open MeasureTheory

/-- An interval shorter than `x` has no gap of length `x`. In a longer one the first event must come at some `t < x` (probability
density `exp(-t)`), and the rest of the interval must have no such gap either. -/
def IsMaxGapCDF (x : ℝ) (F : ℝ → ℝ) : Prop :=
  (∀ μ, 0 ≤ μ → μ < x → F μ = 1) ∧
  ∀ μ, x ≤ μ → IntervalIntegrable (fun t => Real.exp (-t) * F (μ - t)) volume 0 x ∧ F μ = ∫ t in (0 : ℝ)..x, Real.exp (-t) * F (μ - t)

/-- The expected number of events between each two neighbouring entries of a list of energies, for the spectrum `f`. -/
noncomputable def countsBetween (f : ℝ → ℝ) (s : List ℝ) : List ℝ := List.zipWith (fun a b => ∫ e in a..b, f e) s s.tail

/-- The interpolation resolves the function `f`: a table of `f` with at least 400 increasing entries gives the right integral
over every interval covered by the table. -/
def Resolves (T : Tools) (f : ℝ → ℝ) : Prop :=
  ∀ xs : List ℝ, 400 ≤ xs.length → xs.Pairwise (· < ·) → ∀ lo hi a b, xs.head? = some lo → xs.getLast? = some hi →
    lo ≤ a → a ≤ b → b ≤ hi → T.interpolationIntegral xs (xs.map f) a b = ∫ e in a..b, f e

end Obscura.Spec
