import Verif.Spec.Crystal
import Verif.Spec.Ionization
import Mathlib.Topology.EMetricSpace.BoundedVariation
import Mathlib.MeasureTheory.Integral.IntervalIntegral.Basic

/-!
# Specification vocabulary for the accuracy of sums over grids

The sums over grids in `Spec.crystalRate`, `Spec.ionizationRate`, `Spec.gridSum` and `Spec.spectrumSum` stand for integrals. Here are
the integrals.
-/

namespace Obscura.Spec

open Obscura MeasureTheory

variable (U : Units)

/-- The values of `f` between `a` and `b` go up and down by at most `V` in total. -/
def VariesByAtMost (f : ℝ → ℝ) (a b V : ℝ) : Prop := 0 ≤ V ∧ eVariationOn f (Set.Icc a b) ≤ ENNReal.ofReal V

/-- What the momentum transfer `q` contributes to the rate in a crystal: all speeds with which the energy `E` can be transferred. -/
noncomputable def crystalPerMomentum (p : DMParticle) (h : Distribution) (c : Crystal) (E q : ℝ) : ℝ :=
  2 * q * ∫ v in {v : ℝ | v ≤ h.vMax ∧ CanTransfer p.mass v q E}, v * h.pdfSpeed v * crystalCrossSection U p c q E v

/-- The rate in a crystal as an integral over the momentum transfers of the table. -/
noncomputable def crystalIntegral (p : DMParticle) (h : Distribution) (c : Crystal) (E : ℝ) : ℝ :=
  h.density / (p.mass * c.mCell) * ∫ q in 0..c.qMax, crystalPerMomentum U p h c E q

/-- What the momentum transfer `q` contributes to the ionization rate of a shell: all speeds with which the binding energy and the
kinetic energy `E` can be transferred. -/
noncomputable def ionizationPerMomentum (p : DMParticle) (h : Distribution) (e : AtomicElectron) (E q : ℝ) : ℝ :=
  2 * q * ∫ v in {v : ℝ | v ≤ h.vMax ∧ CanTransfer p.mass v q (e.binding + E)},
    v * h.pdfSpeed v * ionizationCrossSection U p e q E v

/-- The ionization rate of a shell as an integral over momentum transfers. -/
noncomputable def ionizationIntegral (p : DMParticle) (h : Distribution) (M : ℝ) (e : AtomicElectron) (lo hi E : ℝ) : ℝ :=
  h.density / (p.mass * M) * ∫ q in lo..hi, ionizationPerMomentum U p h e E q

/-- The kinetic energy of an electron with momentum `k`. -/
noncomputable def kinetic (k : ℝ) : ℝ := k ^ 2 / (2 * U.mElectron)

end Obscura.Spec
