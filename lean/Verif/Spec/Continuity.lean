import Verif.Model.Libphysica
import Mathlib.Topology.Instances.Real.Lemmas

/-!
# Specification: results that vary without jumps
-/

namespace Obscura.Spec

open Obscura

/-- On the set `s` the result is defined and depends continuously on the argument. -/
def NoJumps (f : ℝ → Outcome ℝ) (s : Set ℝ) : Prop := ∃ r : ℝ → ℝ, (∀ x ∈ s, f x = .ok (r x)) ∧ ContinuousOn r s

end Obscura.Spec
