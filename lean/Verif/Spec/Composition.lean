import Verif.Model.Ionization

/-!
# Specification of equivalent targets (C90)
-/

namespace Obscura.Spec

/-- No function of a detector - largest deposited energy, smallest mass and speed, spectrum, expected events - tells `a` from `b`, for any particle,
any halo and any state of the analysis. -/
def Indistinguishable (U : Units) (a b : NuclearDetector) : Prop :=
  ∀ (T : Tools) (h : Distribution), a.toClass U T h = b.toClass U T h ∧ ∀ d p, a.minimumDMSpeed U T.integrate d p = b.minimumDMSpeed U T.integrate d p

/-- They remain indistinguishable whatever resolution is set, with or without a table of efficiencies. -/
def SameTarget (U : Units) (a b : NuclearDetector) : Prop :=
  ∀ res, Indistinguishable U (a.setResolution res) (b.setResolution res) ∧
    ∀ f, Indistinguishable U ((a.setResolution res).importEfficiency f) ((b.setResolution res).importEfficiency f)

/-- Every function of an ionization detector that returns something for `x` returns the same for `y`, and the other way round. `S` is the rate of the
concrete class (electron recoils or Migdal effect). -/
structure SameResults (U : Units) (S : ShellRate) (T : Tools) (h : Distribution) (x y : IonizationDetector) : Prop where
  deposit : ∀ p, (x.toClass U S T h).maximumEnergyDeposit p = (y.toClass U S T h).maximumEnergyDeposit p
  mass : ∀ d p, (x.toClass U S T h).minimumDMMass d p = (y.toClass U S T h).minimumDMMass d p
  speed : ∀ p, x.minimumDMSpeed p = y.minimumDMSpeed p
  spectrum : ∀ d E p, (x.toClass U S T h).dRdE d E p = (y.toClass U S T h).dRdE d E p
  electrons : ∀ d ne p r, x.rNe U S d ne p = .ok r ↔ y.rNe U S d ne p = .ok r
  photons : ∀ d n p r, x.rS2 U S d n p [] = .ok r ↔ y.rS2 U S d n p [] = .ok r
  total : ∀ d p s, (x.toClass U S T h).signalsTotal d p = .ok s ↔ (y.toClass U S T h).signalsTotal d p = .ok s
  binned : ∀ d p s, (x.toClass U S T h).signalsBinned d p = .ok s ↔ (y.toClass U S T h).signalsBinned d p = .ok s

end Obscura.Spec
