import Verif.Spec.LimitTrends

/-!
# Specification for C106 — the likelihood as a function of the interaction parameter
-/

namespace Obscura.Spec

/-- What `Log_Likelihood` gives after the interaction parameter of the particle `p` was set to `c`. -/
noncomputable def logLikelihoodCurve (U : Units) (T : Tools) (h : Distribution) (D : AnyDetector) (d : Detector) (p : DMParticle) (c : ℝ) : Outcome ℝ := do
  let p' ← p.setInteractionParameter U c d.targets
  d.logLikelihood T (D.toClass U T h) p'

/-- The parameter at which the particle is expected to give exactly the excess over the background, if `s` events are expected at `c0`;
zero if there is no excess. -/
noncomputable def bestParameter (c0 s : ℝ) (n : ℕ) (b : ℝ) : ℝ := c0 * max 0 (n - b) / s

end Obscura.Spec
