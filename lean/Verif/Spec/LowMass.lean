import Verif.Model.Configuration

/-!
# Where the low-mass mode has no effect
-/

namespace Obscura.Spec

/-- The low-mass mode drops the form factor of nuclei from spin-independent interactions. It does not concern electron recoils, nor nuclei that are hit by
spin-dependent interactions. -/
def Unaffected (D : AnyDetector) (p : DMParticle) : Prop :=
  (∃ d x, D = .electronRecoil d x) ∨ (∃ d x, D = .crystal d x) ∨ p.interaction = .SD

end Obscura.Spec
