import Verif.Spec.Configured
import Verif.Spec.EtaBounds
import Verif.Spec.NuclearDetector

/-!
# When predicted numbers of events make sense

What the data files, the distribution and the particle have to satisfy, in physical terms; nothing here refers to how rates are
computed.
-/

namespace Obscura.Spec

/-- Contract of the interpolation in two dimensions: it does not take negative values for a table without negative numbers. -/
def NonnegInterpolation (P : Interpolator2D) : Prop :=
  ∀ xs ys (t : List (List ℝ)), (∀ row ∈ t, ∀ z ∈ row, 0 ≤ z) → ∀ x y, 0 ≤ P xs ys t x y

/-- Contract of the integral of an interpolation: it is not negative for values that are not negative. -/
def NonnegIntegral (T : Tools) : Prop :=
  ∀ xs (ys : List ℝ) a b, a ≤ b → (∀ y ∈ ys, 0 ≤ y) → 0 ≤ T.interpolationIntegral xs ys a b

/-- The data files contain nothing unphysical: no negative response functions, form factors, spins and abundances, and no isotopes
without nucleons. -/
structure PhysicalFiles (S : Setup) : Prop where
  response : ∀ name t, S.files.response name = some t → ∀ row ∈ t, ∀ z ∈ row, 0 ≤ z
  crystal : ∀ target l, S.files.crystal target = some l → ∀ z ∈ l, 0 ≤ z
  nuclear : ∀ rows, S.files.nuclear = some rows → ∀ r ∈ rows, 1 ≤ r.A ∧ 0 ≤ r.spin ∧ 0 ≤ r.abundance

/-- A distribution of particles: the density and the speed PDF are not negative, some particles move, and if `Eta_Function` is to be
used it is defined and not negative. -/
structure PhysicalDistribution (h : Distribution) : Prop where
  density : 0 ≤ h.density
  moving : 0 < h.vMax
  pdf : ∀ v, 0 ≤ v → 0 ≤ h.pdfSpeed v
  eta : h.useEta = true → ∀ v, 0 ≤ v → v ≤ h.vMax → EtaNonneg h v

/-- A particle with a positive mass, a share in the density and a cross section for scatterings with electrons that is not negative. -/
structure PhysicalParticle (p : DMParticle) : Prop where
  mass : 0 < p.mass
  density : 0 ≤ p.fractionalDensity
  electrons : 0 ≤ p.sigmaElectron

/-- The predicted total number of events is defined and not negative. -/
def PredictsEvents (U : Units) (T : Tools) (D : AnyDetector) : Prop :=
  ∀ p h, PhysicalParticle p → PhysicalDistribution h → ∃ s, (D.toClass U T h).signalsTotal D.base p = .ok s ∧ 0 ≤ s

/-- What the particles scatter off in the user-defined detectors. -/
def targetsOf (kind : String) : String := if kind = "Nuclear recoil" ∨ kind = "Migdal" then "Nuclei" else "Electrons"

end Obscura.Spec
