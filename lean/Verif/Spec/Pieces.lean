import Verif.Spec.Detector

/-!
# Several computations, one after the other, on the same objects
-/

namespace Obscura.Spec

variable (U : Units) (T : Tools) (C : DetectorClass)

/-- `Upper_Limit_Curve` is called for one list of masses after the other, on the same detector and the same particle. -/
noncomputable def curves (cert : ℝ) : List (List ℝ) → Detector → DMParticle → Outcome (Detector × DMParticle × List (List (ℝ × ℝ)))
  | [], d, p => .ok (d, p, [])
  | ms :: rest, d, p => do
    let (d, p, rows) ← d.upperLimitCurve U T C p ms cert
    let (d, p, more) ← curves cert rest d p
    .ok (d, p, rows :: more)

/-- `Log_Likelihood_Scan` is called for one list of masses after the other, on the same particle. -/
noncomputable def scans (d : Detector) (couplings : List ℝ) : List (List ℝ) → DMParticle → Outcome (DMParticle × List (List (ℝ × ℝ × ℝ)))
  | [], p => .ok (p, [])
  | ms :: rest, p => do
    let (p, rows) ← d.logLikelihoodScan U T C p ms couplings
    let (p, more) ← scans d couplings rest p
    .ok (p, rows :: more)

end Obscura.Spec
