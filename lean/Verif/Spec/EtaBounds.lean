import Verif.Spec.NuclearDetector

/-!
# Specification vocabulary for rates computed with an inexact eta function
-/

namespace Obscura.Spec

open Obscura MeasureTheory

/-- The same halo with another density of speeds. -/
def withSpeeds (h : Distribution) (f : ℝ → ℝ) : Distribution := { h with pdfSpeed := f }

/-- The speeds below `w` only. -/
noncomputable def slowerThan (w : ℝ) (f : ℝ → ℝ) : ℝ → ℝ := fun u => open Classical in if u < w then f u else 0

/-- What the distribution reports as `Eta_Function(v)` lies between the integrals of `l(u)/u` and of `g(u)/u` over the faster particles. -/
def EtaBetween (h : Distribution) (l g : ℝ → ℝ) (v : ℝ) : Prop :=
  ∃ x, h.eta v = .ok x ∧ ∫ u in v..h.vMax, l u / u ≤ x ∧ x ≤ ∫ u in v..h.vMax, g u / u

/-- `Eta_Function(v)` is defined and not negative. -/
def EtaNonneg (h : Distribution) (v : ℝ) : Prop := ∃ x, h.eta v = .ok x ∧ 0 ≤ x

end Obscura.Spec
