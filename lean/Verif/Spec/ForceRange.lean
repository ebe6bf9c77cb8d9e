import Verif.Model.Particle

/-!
# Forces of different ranges
-/

namespace Obscura.Spec

/-- The differential rate on a nucleus of mass `M` at recoil energy `E`, relative to that of a contact interaction, for the form factor of the given
name. The squared momentum transfer is `2 M E`, `q` the momentum at which the reference cross section is defined and `m` the mediator mass. -/
noncomputable def rangeFactor (name : String) (q m M E : ℝ) : ℝ :=
  if name = "Contact" then 1
  else if name = "General" then ((q ^ 2 + m ^ 2) / (2 * M * E + m ^ 2)) ^ 2
  else if name = "Electric-Dipole" then q ^ 2 / (2 * M * E)
  else (q ^ 2 / (2 * M * E)) ^ 2

/-- The first form factor belongs to a force of longer range (or the same): a contact interaction has the shortest, a massless mediator the longest
range, and a lighter mediator a longer one than a heavier mediator. -/
def LongerRange (name : String) (m : ℝ) (name' : String) (m' : ℝ) : Prop :=
  name' = "Contact" ∨ name = "Long-Range" ∨ (name = "General" ∧ name' = "General" ∧ m ≤ m')

end Obscura.Spec
