import Verif.Model.NuclearDetector

/-!
# Targets the couplings of which cancel
-/

namespace Obscura.Spec

/-- The couplings of the particle to the protons and neutrons of the isotope cancel when they are in the ratio `a : b`: for spin-independent
interactions `a Z + b (A - Z) = 0`, for spin-dependent ones the same with the average spins of protons and neutrons. -/
def Cancels (p : DMParticle) (a b : ℝ) (iso : Isotope) : Prop :=
  match p.interaction with
  | .SI _ _ _ => iso.Z ≤ iso.A ∧ a * iso.Z + b * (iso.A - iso.Z) = 0
  | .SD => a * iso.sp + b * iso.sn = 0

/-- The particle passes through the isotope: all differential cross sections are zero. -/
def PassesThrough (U : Units) (p : DMParticle) (iso : Isotope) : Prop :=
  ∀ q v E, p.dSigmadq2Nucleus U q iso v = 0 ∧ p.dSigmadERNucleus U E iso v = 0

end Obscura.Spec
