import Verif.Model.Nucleus
import Mathlib.Analysis.SpecialFunctions.Pow.Real

/-!
# Specification of C120: the size of a nucleus
-/

namespace Obscura.Spec

/-- A third of the mean square radius of Helm's model for the mass number `A`, with the parameters of Lewin and Smith. -/
noncomputable def meanSquareThird (U : Units) (A : ℕ) : ℝ :=
  ((1.23 * (A : ℝ) ^ (1 / 3 : ℝ) - 0.6) ^ 2 + 7 / 3 * (Real.pi * 0.52) ^ 2) / 5 * U.fm ^ 2

end Obscura.Spec
