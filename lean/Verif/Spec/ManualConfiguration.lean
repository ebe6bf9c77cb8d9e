import Verif.Model.ManualConfiguration

/-!
# Configurations put together by hand
-/

namespace Obscura.Spec

open ManualConfiguration

/-- The value assigned last by the assignments recognised by `f`. -/
def lastAssigned {α : Type} (f : Op → Option α) (ops : List Op) : Option α := (ops.filterMap f).getLast?

/-- The values of the assignments to each member. -/
def idOf : Op → Option Name | .setID i => some i | _ => none
def pathOf : Op → Option Name | .setResultsPath i => some i | _ => none
def particleOf : Op → Option DMParticle | .setParticle p => some p | _ => none
def distributionOf : Op → Option (Distribution × List Printed) | .setDistribution h out => some (h, out) | _ => none
def detectorOf : Op → Option AnyDetector | .setDetector D => some D | _ => none
def certaintyOf : Op → Option ℝ | .setCertainty c => some c | _ => none
def massMinOf : Op → Option ℝ | .setMassMin m => some m | _ => none
def massMaxOf : Op → Option ℝ | .setMassMax m => some m | _ => none
def massesOf : Op → Option ℕ | .setMasses n => some n | _ => none

/-- `o` has the values assigned last to the members of a configuration put together by hand, and every member needed was assigned; `printed` is
what the distribution prints. -/
structure PutTogether (ops : List Op) (o : Configuration) (printed : List Printed) : Prop where
  particle : lastAssigned particleOf ops = some o.particle
  distribution : lastAssigned distributionOf ops = some (o.distribution, printed)
  detector : lastAssigned detectorOf ops = some o.detector
  certainty : lastAssigned certaintyOf ops = some o.certainty
  massMin : lastAssigned massMinOf ops = some o.massMin
  massMax : lastAssigned massMaxOf ops = some o.massMax
  masses : lastAssigned massesOf ops = some o.masses
  ID : o.ID = (lastAssigned idOf ops).getD "default".toList
  path : o.resultsPath = (lastAssigned pathOf ops).getD []
  file : o.cfgFile = []

end Obscura.Spec
