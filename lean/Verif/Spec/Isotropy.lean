import Verif.Model.Vector

/-!
# Directions
-/

namespace Obscura.Spec

/-- A rotation or reflection: linear, and it keeps all scalar products. -/
def Turn (R : Vec →ₗ[ℝ] Vec) : Prop := ∀ v w, dot (R v) (R w) = dot v w

/-- It also keeps the direction to the centre of the galaxy (the first component). -/
def KeepsRadial (R : Vec →ₗ[ℝ] Vec) : Prop := ∀ v, (R v) 0 = v 0

end Obscura.Spec
