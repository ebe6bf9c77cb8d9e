import Verif.Model.Configuration

/-!
# Specification: the local density (C93)
-/

namespace Obscura.Spec

/-- The same distribution of speeds with `k` times the local density. -/
noncomputable def denser (k : ℝ) (h : Distribution) : Distribution := { h with density := k * h.density }

end Obscura.Spec
