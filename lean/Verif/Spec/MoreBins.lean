import Verif.Spec.LimitTrends

/-!
# Specification for C107 — analyses with further bins
-/

namespace Obscura.Spec

/-- The analysis `d'` has all bins of `d`, with the same data, and possibly further ones. -/
structure MoreBins (d d' : Detector) : Prop where
  bins : d.bins ≤ d'.bins
  observed : ∀ i < d.bins, d'.binObserved.getD i 0 = d.binObserved.getD i 0
  background : ∀ i < d.bins, d'.binBackground.getD i 0 = d.binBackground.getD i 0

/-- The analysis `d'` counts the events of the only bin of `d`. -/
structure CountsTheBin (d d' : Detector) : Prop where
  bins : d.bins = 1
  observed : d'.observed = d.binObserved.getD 0 0
  background : d'.background = d.binBackground.getD 0 0

end Obscura.Spec
