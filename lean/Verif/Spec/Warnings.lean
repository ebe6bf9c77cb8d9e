import Verif.Model.Warnings

/-!
# Warnings about the limits of tables: what is expected
-/

namespace Obscura
namespace Spec

/-- The momentum of an electron of energy `E` is not in the table of the shell. -/
def MomentumOutside (U : Units) (e : AtomicElectron) (E : ℝ) : Prop :=
  1.000001 * e.kMax < Real.sqrt (2 * U.mElectron * E) ∨ Real.sqrt (2 * U.mElectron * E) < 0.999999 * e.kMin

/-- The arguments of a response function are outside its table, and nothing replaces the table there: the first response function is
extrapolated to low momentum transfers, the others are not. -/
def Outside (U : Units) (e : AtomicElectron) (r : ℤ) (q E : ℝ) : Prop :=
  1.000001 * e.qMax < q ∨ MomentumOutside U e E ∨ ((r = 2 ∨ r = 3 ∨ r = 4) ∧ q ≤ e.qMin)

/-- The warning for such arguments: it shows the momentum if that is outside, and the momentum transfer if that is too large or the only
reason. -/
noncomputable def shellWarning (U : Units) (e : AtomicElectron) (r : ℤ) (q E : ℝ) : ShellWarning :=
  open Classical in
  { response := r
    shell := e.name
    q := if 1.000001 * e.qMax < q ∨ ¬ MomentumOutside U e E then some (q / U.keV, e.qMin / U.keV, e.qMax / U.keV) else none
    k := if MomentumOutside U e E then some (Real.sqrt (2 * U.mElectron * E) / U.keV, e.kMin / U.keV, e.kMax / U.keV) else none }

/-- The warning for the first call, by reference, that leaves the table of the shell `e` with index `i`. -/
noncomputable def firstWarning (U : Units) (e : AtomicElectron) (i : ℕ) : List Atom.ShellCall → List ShellWarning
  | [] => []
  | .reference j r q E :: cs =>
    open Classical in
    if j = i ∧ Outside U e r q E then [shellWarning U e r q E] else firstWarning U e i cs
  | .copy _ _ _ _ _ :: cs => firstWarning U e i cs

/-- A call by reference. -/
def ByReference : Atom.ShellCall → Prop
  | .reference _ _ _ _ => True
  | .copy _ _ _ _ _ => False

/-- The arguments are outside the table of the crystal by more than a millionth. -/
def ClearlyOutside (c : Crystal) (q E : ℝ) : Prop :=
  q < 0.999999 * c.dq ∨ 1.000001 * c.qMax < q ∨ E < 0.999999 * c.dE ∨ 1.000001 * c.eMax < E

/-- The warning for the first call that clearly leaves the table of its crystal. -/
noncomputable def firstCrystalWarning (U : Units) : List (Crystal × ℝ × ℝ) → List CrystalWarning
  | [] => []
  | (c, q, E) :: cs =>
    open Classical in
    if ClearlyOutside c q E then
      [⟨(q / U.keV, c.dq / U.keV, c.qMax / U.keV), (E / U.eV, c.dE / U.eV, c.eMax / U.eV)⟩]
    else firstCrystalWarning U cs

end Spec
end Obscura
