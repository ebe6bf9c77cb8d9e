import Verif.Spec.FallingSpectra

/-!
# Specification: a halo that consists of two others
-/

namespace Obscura.Spec

open Obscura

/-- At every speed the halo `h` holds `a` times the particles of `h₁` and `b` times the particles of `h₂`. What the three report as `Eta_Function` says the
same; all end at the same speed and are used by detectors in the same way. -/
structure HaloMixture (a b : ℝ) (h h₁ h₂ : Distribution) : Prop where
  method₁ : h₁.useEta = h.useEta
  method₂ : h₂.useEta = h.useEta
  fastest₁ : h₁.vMax = h.vMax
  fastest₂ : h₂.vMax = h.vMax
  speeds : ∀ v, 0 ≤ v → v ≤ h.vMax → h.density * h.pdfSpeed v = a * (h₁.density * h₁.pdfSpeed v) + b * (h₂.density * h₂.pdfSpeed v)
  inverse : ∀ v, 0 ≤ v → v ≤ h.vMax → ∃ x x₁ x₂, h.eta v = .ok x ∧ h₁.eta v = .ok x₁ ∧ h₂.eta v = .ok x₂ ∧
    h.density * x = a * (h₁.density * x₁) + b * (h₂.density * x₂)

end Obscura.Spec
