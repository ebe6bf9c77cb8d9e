import Verif.Model.NuclearDetector

/-!
# Falling recoil spectra
-/

namespace Obscura.Spec

/-- The particle sees the nuclei as points: spin-dependent interactions have no nuclear form factor here, and the others none in the low-mass
mode. -/
def SeesPoints (p : DMParticle) : Prop := p.interaction = .SD ∨ p.lowMass = true

/-- What the halo reports as `Eta_Function` is defined, not negative, and falls with the speed. -/
def FallingEta (h : Distribution) : Prop :=
  ∀ v w, 0 ≤ v → v ≤ w → w ≤ h.vMax → ∃ x y, h.eta v = .ok x ∧ h.eta w = .ok y ∧ 0 ≤ y ∧ y ≤ x

/-- The speed density is not negative and integrable over the speeds of the halo. -/
def ProperSpeeds (h : Distribution) : Prop :=
  (∀ v, 0 ≤ v → 0 ≤ h.pdfSpeed v) ∧ IntervalIntegrable h.pdfSpeed MeasureTheory.volume 0 h.vMax

/-- A function of the energy that is defined, not negative and falling for positive energies. -/
def FallingSpectrum (f : ℝ → Outcome ℝ) : Prop :=
  ∀ E E', 0 < E → E ≤ E' → ∃ r r', f E = .ok r ∧ f E' = .ok r' ∧ 0 ≤ r' ∧ r' ≤ r

end Obscura.Spec
