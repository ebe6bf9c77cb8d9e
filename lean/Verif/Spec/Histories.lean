import Verif.Model.Configuration

/-!
# Specification for histories of configuration calls (C38, C79)
-/

namespace Obscura.Spec

/-- The calls that enter the outcome of the experiment — events seen and background expected — and nothing about how the detector works. -/
def EntersData : Detector.Op → Prop
  | .setObserved _ | .setBackground _ | .setObservedBins _ | .setBackgroundBins _ => True
  | _ => False

/-- The quantity a data or efficiency call sets. -/
inductive Quantity where
  | observed | background | observedBins | backgroundBins | binEfficiencies | flatEfficiency

/-- Which quantity a call sets, if it does not choose an analysis. -/
def quantity : Detector.Op → Option Quantity
  | .setObserved _ => some .observed
  | .setBackground _ => some .background
  | .setObservedBins _ => some .observedBins
  | .setBackgroundBins _ => some .backgroundBins
  | .setBinEfficiencies _ => some .binEfficiencies
  | .setFlatEfficiency _ => some .flatEfficiency
  | _ => none

end Obscura.Spec
