import Verif.Model.Configuration

/-!
# Specification: rescaled detectors (C80)
-/

namespace Obscura.Spec

/-- The same detector with `a` times the exposure and `f` times the flat efficiency. -/
noncomputable def rescaled (d : Detector) (a f : ℝ) : Detector :=
  { d with exposure := a * d.exposure, flatEfficiency := f * d.flatEfficiency }

end Obscura.Spec
