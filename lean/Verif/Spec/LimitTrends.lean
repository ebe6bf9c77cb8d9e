import Verif.Lemmas.Configured

/-!
# Specification for C87 — an experiment that sees a particle
-/

namespace Obscura.Spec

/-- A counting experiment `D` (any class, in any state reachable by public calls) that sees the particle `p`: with its present interaction
parameter `c0 > 0` the particle is expected to give `s > 0` events in the halo `h`. -/
structure Sees (U : Units) (T : Tools) (h : Distribution) (D : AnyDetector) (p : DMParticle) (c0 s : ℝ) : Prop where
  detector : ReachableDetector D.base
  counting : D.base.analysis = .poisson
  background : 0 ≤ D.base.background
  particle : Reachable U p
  parameter : p.getInteractionParameter U D.base.targets = .ok c0
  positive : 0 < c0
  signal : (D.toClass U T h).signalsTotal D.base p = .ok s
  visible : 0 < s

/-- The same for a binned analysis: `ss` events are expected in the bins, some in every bin. -/
structure SeesInBins (U : Units) (T : Tools) (h : Distribution) (D : AnyDetector) (p : DMParticle) (c0 : ℝ) (ss : List ℝ) : Prop where
  detector : ReachableDetector D.base
  binned : D.base.analysis = .binnedPoisson
  bins : 0 < D.base.bins
  background : ∀ i < D.base.bins, 0 ≤ D.base.binBackground.getD i 0
  particle : Reachable U p
  parameter : p.getInteractionParameter U D.base.targets = .ok c0
  positive : 0 < c0
  signal : (D.toClass U T h).signalsBinned D.base p = .ok ss
  complete : ss.length = D.base.bins
  visible : ∀ i < D.base.bins, 0 < ss.getD i 0

end Obscura.Spec
