import Verif.Model.NuclearDetector
import Mathlib.MeasureTheory.Integral.Bochner.Set

/-!
# Specification vocabulary for nuclear recoil rates
-/

namespace Obscura.Spec

open Obscura MeasureTheory

variable (U : Units)

/-- The textbook recoil rate per target mass: `f ρ / (m M) ∫ v f(v) dσ/dE dv` over all speeds of the halo that can produce a recoil
of energy `E`, that is with `E ≤ 2 μ² v² / M`. -/
noncomputable def isotopeRate (p : DMParticle) (h : Distribution) (iso : Isotope) (E : ℝ) : ℝ :=
  p.fractionalDensity * h.density / (p.mass * iso.mass) *
    ∫ v in {v : ℝ | 0 ≤ v ∧ v ≤ h.vMax ∧ E ≤ 2 * (p.mass * iso.mass / (p.mass + iso.mass)) ^ 2 * v ^ 2 / iso.mass},
      v * h.pdfSpeed v * p.dSigmadERNucleus U E iso v

/-- An element: the average over its isotopes. -/
noncomputable def nucleusRate (p : DMParticle) (h : Distribution) (n : Nucleus) (E : ℝ) : ℝ :=
  (n.isotopes.map fun iso => iso.abundance * isotopeRate U p h iso E).sum

/-- The efficiency of target `i`: one table counts for all targets, as many tables as targets count for one each. -/
noncomputable def efficiencyOf (nd : NuclearDetector) (i : ℕ) (E : ℝ) : ℝ :=
  if nd.usingTables = true ∧ nd.efficiencies.length = 1 then nd.efficiencies.getD 0 (fun _ => 1) E
  else if nd.usingTables = true ∧ nd.efficiencies.length = nd.nuclei.length then nd.efficiencies.getD i (fun _ => 1) E
  else 1

/-- A detector: every target contributes with its mass fraction and efficiency. -/
noncomputable def targetRate (nd : NuclearDetector) (d : Detector) (p : DMParticle) (h : Distribution) (E ER : ℝ) : ℝ :=
  ∑ i : Fin nd.nuclei.length,
    efficiencyOf nd i E * d.flatEfficiency * nd.fractions.getD i 0 * nucleusRate U p h nd.nuclei[i] ER

/-- What the distribution reports as `Eta_Function(v)` is the integral of `f(u)/u` over the faster particles. -/
def EtaAt (h : Distribution) (v : ℝ) : Prop := h.eta v = .ok (∫ u in v..h.vMax, h.pdfSpeed u / u)

/-- Masses are positive and spins not negative. -/
def PhysicalIsotope (iso : Isotope) : Prop := 0 < iso.mass ∧ 0 ≤ iso.spin ∧ 0 ≤ iso.abundance

end Obscura.Spec
