import Verif.Spec.FallingSpectra

/-!
# Specification: one halo holds at most so many times the particles of another one
-/

namespace Obscura.Spec

open Obscura

/-- At every speed there are at most `k` times as many particles in the halo `h` as in `h'`. What both report as `Eta_Function` says the same, and both
halos are used by detectors in the same way. -/
structure AtMost (k : ℝ) (h h' : Distribution) : Prop where
  method : h.useEta = h'.useEta
  fastest : h.vMax ≤ h'.vMax
  speeds : ∀ v, 0 ≤ v → v ≤ h.vMax → h.density * h.pdfSpeed v ≤ k * (h'.density * h'.pdfSpeed v)
  inverse : ∀ v, 0 ≤ v → v ≤ h.vMax → ∃ x y, h.eta v = .ok x ∧ h'.eta v = .ok y ∧ h.density * x ≤ k * (h'.density * y)

/-- A halo in order: a density and speeds that are not negative, and a mean inverse speed that falls. -/
structure Orderly (h : Distribution) : Prop where
  density : 0 ≤ h.density
  speeds : ProperSpeeds h
  inverse : FallingEta h

end Obscura.Spec
