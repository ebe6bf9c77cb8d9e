import Verif.Model.Configuration

/-!
# Calls that concern one kind of target
-/

namespace Obscura.Spec

/-- Calls that concern the interaction with nuclei (and the spin, which concerns neither). -/
def ConcernsNuclei : DMParticle.Op → Prop
  | .setSigmaProton _ | .setSigmaNeutron _ | .fixCouplingRatio _ _ | .fixFnOverFp _ | .fixFpOverFn _ | .unfixCouplingRatios | .setLowMassMode _
  | .setSpin _ => True
  | .setInteractionParameter _ t => t = "Nuclei"
  | _ => False

/-- Calls that concern the interaction with electrons. -/
def ConcernsElectrons : DMParticle.Op → Prop
  | .setSigmaElectron _ | .setSpin _ => True
  | .setInteractionParameter _ t => t = "Electrons"
  | _ => False

/-- A search for recoiling electrons. In the Migdal effect the electrons come from a nucleus that is hit. -/
def ElectronSearch (D : AnyDetector) : Prop := (∃ d x, D = .electronRecoil d x) ∨ ∃ d x, D = .crystal d x

/-- A search for recoiling nuclei. -/
def NuclearSearch (D : AnyDetector) : Prop := (∃ d x, D = .nuclear d x) ∨ ∃ d x, D = .migdal d x

end Obscura.Spec
