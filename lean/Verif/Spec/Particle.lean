import Verif.Model.Particle

/-!
# Specification vocabulary for DM particles

What "a reachable particle", "the requested coupling ratio" and "looks the same from outside" mean.
-/

namespace Obscura.Spec

open Obscura DMParticle

variable (U : Units)

/-- A freshly constructed `DM_Particle_SI` or `DM_Particle_SD` of positive mass. -/
def Built (p : DMParticle) : Prop :=
  (∃ m s, 0 < m ∧ DMParticle.makeSI U m s = .ok p) ∨ (∃ m s, 0 < m ∧ DMParticle.makeSD U m s = .ok p)

/-- A user only asks for positive DM masses; all other arguments are arbitrary. -/
def ValidOp : Op → Prop
  | .setMass m => 0 < m
  | _ => True

/-- `p` results from construction and some finite history of public calls none of which failed. -/
def Reachable (p : DMParticle) : Prop :=
  ∃ p₀ ops, Built U p₀ ∧ (∀ op ∈ ops, ValidOp op) ∧ DMParticle.run U p₀ ops = .ok p

/-- The ratio `fp : fn` asked for by a call, if it is one of the three ratio-fixing calls. -/
def requestedBy : Op → Option (ℝ × ℝ)
  | .fixCouplingRatio a b => some (a, b)
  | .fixFnOverFp r => some (1, r)
  | .fixFpOverFn r => some (r, 1)
  | _ => none

/-- The ratio asked for by the most recent ratio-fixing call of a history (1 : 1 if there was none). -/
def requestedRatio (ops : List Op) : ℝ × ℝ :=
  ops.foldl (fun r op => (requestedBy op).getD r) (1, 1)

/-- Reachable by a history whose most recently requested ratio is `r`. -/
def ReachableWith (p : DMParticle) (r : ℝ × ℝ) : Prop :=
  ∃ p₀ ops, Built U p₀ ∧ (∀ op ∈ ops, ValidOp op) ∧ DMParticle.run U p₀ ops = .ok p ∧ r = requestedRatio ops

/-- A history in which every ratio-fixing call is made while the proton cross section is not zero. -/
def CleanFrom : DMParticle → List Op → Prop
  | _, [] => True
  | p, op :: ops =>
    ((requestedBy op).isSome → p.sigmaProton U ≠ 0) ∧
      ∀ p', p.step U op = .ok p' → CleanFrom p' ops

/-- Reachable by a clean history whose most recently requested ratio is `r`. -/
def CleanReachable (p : DMParticle) (r : ℝ × ℝ) : Prop :=
  ∃ p₀ ops, Built U p₀ ∧ (∀ op ∈ ops, ValidOp op) ∧ CleanFrom U p₀ ops ∧
    DMParticle.run U p₀ ops = .ok p ∧ r = requestedRatio ops

/-- Two particles that no public query can tell apart: same mass, spin, density fraction, flags and reference
cross sections, and the same differential and total cross sections on every isotope and on electrons for
every momentum transfer and speed and whatever the quadrature routine. -/
structure SameObservables (p p' : DMParticle) : Prop where
  mass : p'.mass = p.mass
  spin : p'.spin = p.spin
  fraction : p'.fractionalDensity = p.fractionalDensity
  lowMass : p'.lowMass = p.lowMass
  useEta : p'.useEtaFunction = p.useEtaFunction
  usesXS : p'.usingCrossSection = p.usingCrossSection
  sigmaP : p'.sigmaProton U = p.sigmaProton U
  sigmaN : p'.sigmaNeutron U = p.sigmaNeutron U
  sigmaE : p'.sigmaElectron = p.sigmaElectron
  param : ∀ t, p'.getInteractionParameter U t = p.getInteractionParameter U t
  dsN : ∀ q iso v, p'.dSigmadq2Nucleus U q iso v = p.dSigmadq2Nucleus U q iso v
  dsE : ∀ q v, p'.dSigmadq2Electron U q v = p.dSigmadq2Electron U q v
  totN : ∀ I iso v, p'.sigmaTotalNucleus U I iso v = p.sigmaTotalNucleus U I iso v
  totE : ∀ v, p'.sigmaTotalElectron U v = p.sigmaTotalElectron U v

/-- Same mass, flags and reference cross sections. -/
structure SameReference (p p' : DMParticle) : Prop where
  mass : p'.mass = p.mass
  useEta : p'.useEtaFunction = p.useEtaFunction
  usesXS : p'.usingCrossSection = p.usingCrossSection
  sigmaP : p'.sigmaProton U = p.sigmaProton U
  sigmaN : p'.sigmaNeutron U = p.sigmaNeutron U
  sigmaE : p'.sigmaElectron = p.sigmaElectron
  param : ∀ t, p'.getInteractionParameter U t = p.getInteractionParameter U t

/-- Same differential and total cross sections. -/
structure SameCrossSections (p p' : DMParticle) : Prop where
  dsN : ∀ q iso v, p'.dSigmadq2Nucleus U q iso v = p.dSigmadq2Nucleus U q iso v
  dsE : ∀ q v, p'.dSigmadq2Electron U q v = p.dSigmadq2Electron U q v
  totN : ∀ I iso v, p'.sigmaTotalNucleus U I iso v = p.sigmaTotalNucleus U I iso v
  totE : ∀ v, p'.sigmaTotalElectron U v = p.sigmaTotalElectron U v

/-- The squared form factor documented for each name: `q₀` is the reference momentum `α mₑ`, `m` the mediator mass. -/
noncomputable def documentedFormFactor2 (q₀ m q : ℝ) (name : String) : Option ℝ :=
  if name = "Contact" then some 1
  else if name = "Electric-Dipole" then some ((q₀ / q) ^ 2)
  else if name = "Long-Range" then some ((q₀ ^ 2 / q ^ 2) ^ 2)
  else if name = "General" then some (((q₀ ^ 2 + m ^ 2) / (q ^ 2 + m ^ 2)) ^ 2)
  else none

end Obscura.Spec
