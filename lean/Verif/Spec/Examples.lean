import Verif.Model.Examples
import Verif.Spec.Signals
import Verif.Spec.Summary
import Verif.Spec.Runs

/-!
# What is expected of the example programs
-/

namespace Obscura.Spec

/-- The halo that the default constructor describes: 0.4 GeV/cm³, speeds of 220 km/s with an escape speed of 544 km/s, seen by the Sun
which moves with (11.1, 232.2, 7.3) km/s, with particles up to the sum of the escape speed and the speed of the Sun. -/
noncomputable def standardHalo (U : Units) : SHM :=
  SHM.makeVel (0.4 * U.GeV / U.cm ^ 3) (220 * U.km / U.sec)
    ![11.1 * U.km / U.sec, 232.2 * U.km / U.sec, 7.3 * U.km / U.sec] (544 * U.km / U.sec)

/-- `N` events are expected for the particle `p` with the cross section `σ` for scatterings with electrons. -/
def ExpectsEvents (U : Units) (T : Tools) (D : AnyDetector) (h : Distribution) (p : DMParticle) (σ N : ℝ) : Prop :=
  (D.toClass U T h).signalsTotal D.base { p with sigmaElectronRef := σ } = .ok N

/-- `x` is the cross section at which `N₀` events are expected: smaller ones lead to less, larger ones to more. If it is `-1`, no cross
section between `10^-30` and `10^10` (in natural units) leads to `N₀` events. -/
def LimitAtEvents (U : Units) (T : Tools) (D : AnyDetector) (h : Distribution) (p : DMParticle) (N₀ x : ℝ) : Prop :=
  (x = -1 ∧ ∀ σ, (10 : ℝ) ^ (-30 : ℝ) ≤ σ → σ ≤ (10 : ℝ) ^ (10 : ℝ) → ∃ N, ExpectsEvents U T D h p σ N ∧ N ≠ N₀) ∨
  ((10 : ℝ) ^ (-30 : ℝ) ≤ x ∧ x ≤ (10 : ℝ) ^ (10 : ℝ) ∧ ∀ σ, 0 ≤ σ → ∃ N, ExpectsEvents U T D h p σ N ∧
    (σ < x → N < N₀) ∧ (x < σ → N₀ < N) ∧ (σ = x → N = N₀))

/-- The fastest particles but those in the last `10^-8 v₀` can lead to a recoil energy `E`. -/
def Reaches (s : SHM) (m M E : ℝ) : Prop :=
  E ≤ 2 * (m * M / (m + M)) ^ 2 * (s.vEsc + s.vObs - 1e-8 * s.v0) ^ 2 / M

end Obscura.Spec
