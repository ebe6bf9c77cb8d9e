import Verif.Model.Crystal
import Verif.Spec.Detector
import Mathlib.MeasureTheory.Integral.Bochner.Set

/-!
# Specification vocabulary for semiconductor detectors
-/

namespace Obscura.Spec

open Obscura MeasureTheory

variable (U : Units)

/-- A crystal produced by the constructor. -/
def BuiltCrystal (c : Crystal) : Prop := ∃ P file target, Crystal.make U P file target = .ok c

/-- The energy `E` suffices for `Q ≥ 1` electron-hole pairs: the band gap for the first, the mean energy `ε` for each further. -/
def Suffices (c : Crystal) (E : ℝ) (Q : ℕ) : Prop := c.gap + ((Q : ℝ) - 1) * c.epsilon ≤ E

/-- The `j`-th tabulated energy. -/
noncomputable def gridEnergy (c : Crystal) (j : ℕ) : ℝ := ((j : ℝ) + 1) * c.dE

/-- The Riemann sum of a spectrum over the tabulated energies that satisfy a condition. -/
noncomputable def gridSum (c : Crystal) (rate : ℝ → ℝ) (cond : ℝ → Prop) : ℝ :=
  open Classical in
  ∑ j ∈ (Finset.range c.nE).filter (fun j => cond (gridEnergy c j)), c.dE * rate (gridEnergy c j)

/-- The doubly differential cross section in terms of the free-electron one and the crystal form factor (Essig et al.,
arXiv:1509.01598). There is none for spin-dependent interactions. -/
noncomputable def crystalCrossSection (p : DMParticle) (c : Crystal) (q E v : ℝ) : ℝ :=
  match p.interaction with
  | .SI _ _ _ => 2 * U.aEM * U.mElectron ^ 2 / q ^ 3 * p.dSigmadq2Electron U q v * c.formFactor q E
  | .SD => 0

/-- The textbook electron recoil rate per cell mass: momentum transfers `q` on the grid of the table, and for each of them all
speeds with which energy `E` can be transferred, `q v - q² / 2m ≥ E`. -/
noncomputable def crystalRate (p : DMParticle) (h : Distribution) (c : Crystal) (E : ℝ) : ℝ :=
  h.density / (p.mass * c.mCell) * ∑ i ∈ Finset.range c.nq,
    2 * (((i : ℝ) + 1) * c.dq) * c.dq *
      ∫ v in {v : ℝ | v ≤ h.vMax ∧ E ≤ ((i : ℝ) + 1) * c.dq * v - (((i : ℝ) + 1) * c.dq) ^ 2 / (2 * p.mass)},
        v * h.pdfSpeed v * crystalCrossSection U p c (((i : ℝ) + 1) * c.dq) E v

/-- A crystal detector fresh from the constructor. -/
def BuiltCrystalDetector (s : Detector × CrystalDetector) : Prop :=
  ∃ P file label expo crys, CrystalDetector.make U P file label expo crys = .ok s

/-- `s` results from construction and some finite history of configuration calls none of which failed. -/
def ReachableCrystalDetector (s : Detector × CrystalDetector) : Prop :=
  ∃ s₀ ops, BuiltCrystalDetector U s₀ ∧ CrystalDetector.run s₀ ops = .ok s

end Obscura.Spec
