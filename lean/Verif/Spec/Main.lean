import Verif.Spec.Files
import Verif.Spec.Detector

/-!
# What the program is to write
-/

namespace Obscura.Spec

/-- `n` masses from `lo` to `hi`, each the same multiple of the one before. -/
structure GeometricGrid (ms : List ℝ) (lo hi : ℝ) (n : ℕ) : Prop where
  length : ms.length = n
  first : ms.head? = some lo
  last : ms.getLast? = some hi
  ratio : ∃ q, 0 < q ∧ ∀ (i : ℕ) a b, ms[i]? = some a → ms[i + 1]? = some b → b = q * a

/-- `k` per cent is the whole percentage nearest to the certainty. -/
def NearestPercent (certainty : ℝ) (k : ℤ) : Prop := |100 * certainty - k| ≤ 1 / 2

/-- The file `results/ID/DD_Constraints_k.txt`. -/
def constraintsPlace (top : List Name) (ID : Name) (k : ℤ) : List Name :=
  ("DD_Constraints_" ++ toString k ++ ".txt").toList :: runPlace top ID

end Obscura.Spec
