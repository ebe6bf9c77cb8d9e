import Verif.Spec.LimitTrends
import Verif.Spec.Poisson
import Mathlib.MeasureTheory.Constructions.Pi

/-!
# Specification for C109 — how often the truth is excluded

If a particle exists, the experiment sees Poisson numbers of its events and of the background. An upper limit excludes this particle if it is below
its interaction parameter.
-/

namespace Obscura.Spec

open ProbabilityTheory MeasureTheory

/-- The distribution of the number of events if `s` signal events are expected. -/
noncomputable def countLaw (d : Detector) (s : ℝ) : Measure ℕ := poissonMeasure (s + d.background).toNNReal

/-- The distribution of the numbers of events in the bins (they are independent) if `ss` signal events are expected. -/
noncomputable def binLaw (d : Detector) (ss : List ℝ) : Measure (Fin d.bins → ℕ) :=
  Measure.pi fun i => poissonMeasure (ss.getD i 0 + d.binBackground.getD i 0).toNNReal

/-- After the call that enters the data, the particle is rejected: its p-value is at most `α`. -/
def Rejects (U : Units) (T : Tools) (C : DetectorClass) (d : Detector) (p : DMParticle) (α : ℝ) (data : Detector.Op) : Prop :=
  ∃ d' x, d.run [data] = .ok d' ∧ d'.pValue U T C p = .ok x ∧ x ≤ α

/-- After the call that enters the data, `Upper_Limit` finds a limit below the interaction parameter `c0` of the particle. -/
def Excludes (U : Units) (T : Tools) (C : DetectorClass) (d : Detector) (p : DMParticle) (c0 cert : ℝ) (data : Detector.Op) : Prop :=
  ∃ d' r, d.run [data] = .ok d' ∧ d'.upperLimit U T C p cert = .ok r ∧ 0 < r.2.2 ∧ r.2.2 < c0

end Obscura.Spec
