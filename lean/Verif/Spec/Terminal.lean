import Verif.Spec.Main
import Verif.Spec.Summary

/-!
# What the program is to print
-/

namespace Obscura.Spec

/-- The line says that for the mass `m`, number `k` of `n`, the limit is `x`. Below 1 GeV the mass is given in MeV. -/
def LimitLine (U : Units) (k n : ℕ) (m x : ℝ) (line : List Printed) : Prop :=
  ∃ v w unitName unit, line = [.nat k, .text "/", .nat n, .text "\tmDM = ", .rounded v, .text unitName, .text "\tUpper Bound:\t", .rounded w, .text "\n"] ∧
    (unitName, unit) ∈ [(" MeV", 10 ^ 6 * U.eV), (" GeV", 10 ^ 9 * U.eV)] ∧ v * unit = m ∧ w * U.cm ^ 2 = x ∧
    (unitName = " MeV" → v < 1000) ∧ (unitName = " GeV" → 1 ≤ v)

/-- The output consists of one line for each row, in order, numbered from 1. -/
def Reports (U : Units) (rows : List (ℝ × ℝ)) (out : List Printed) : Prop :=
  ∃ lines : List (List Printed), out = lines.flatten ∧ lines.length = rows.length ∧
    ∀ i m x line, rows[i]? = some (m, x) → lines[i]? = some line → LimitLine U (i + 1) rows.length m x line

end Obscura.Spec
