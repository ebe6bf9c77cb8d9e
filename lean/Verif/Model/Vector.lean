import Verif.Basic
import Mathlib.LinearAlgebra.Matrix.NonsingularInverse
import Mathlib.LinearAlgebra.Matrix.Notation
import Mathlib.Analysis.SpecialFunctions.Trigonometric.Basic

/-!
# The linear algebra of libphysica used by obscura (`libphysica/Linear_Algebra.hpp`, outside `/repo`)

`libphysica::Vector` always has three components in obscura. `Matrix::Inverse` is the mathematical inverse.
-/

namespace Obscura

/-- `libphysica::Vector` with three components. -/
abbrev Vec := Fin 3 → ℝ

/-- `libphysica::Matrix`, 3x3. -/
abbrev Mat := Matrix (Fin 3) (Fin 3) ℝ

/-- Scalar product of two vectors, written out. As in `src/DM_Halo_Models.cpp:84-91`. -/
def dot (v w : Vec) : ℝ := v 0 * w 0 + v 1 * w 1 + v 2 * w 2

/-- `libphysica::Vector::Norm()`. -/
noncomputable def vnorm (v : Vec) : ℝ := Real.sqrt (dot v v)

/-- `libphysica::Rotation_Matrix(angle, 3, {1,0,0})`: the rotation by `angle` around the x axis. -/
noncomputable def rotationX (a : ℝ) : Mat :=
  !![1, 0, 0; 0, Real.cos a, -Real.sin a; 0, Real.sin a, Real.cos a]

/-- `libphysica::Spherical_Coordinates(r, theta, phi)`. -/
noncomputable def sphericalCoordinates (r theta phi : ℝ) : Vec :=
  ![r * Real.sin theta * Real.cos phi, r * Real.sin theta * Real.sin phi, r * Real.cos theta]

end Obscura
