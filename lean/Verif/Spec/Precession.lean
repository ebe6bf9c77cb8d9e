import Verif.Model.Vector

/-!
# Specification of the precession of the equatorial system (C23)

The angles of the IAU 2006 precession, in seconds of arc, for `T` Julian centuries since J2000: a circle has 1 296 000 seconds of arc.
-/

namespace Obscura.Spec

/-- An angle given in seconds of arc. -/
noncomputable def arcseconds (x : ℝ) : ℝ := x * (2 * Real.pi / 1296000)

/-- The vector turned by an angle around the z axis (from x towards y). -/
noncomputable def turnZ (a : ℝ) (v : Vec) : Vec := ![Real.cos a * v 0 - Real.sin a * v 1, Real.sin a * v 0 + Real.cos a * v 1, v 2]

/-- The vector turned by an angle around the y axis (from x towards z). -/
noncomputable def turnXZ (a : ℝ) (v : Vec) : Vec := ![Real.cos a * v 0 - Real.sin a * v 2, v 1, Real.sin a * v 0 + Real.cos a * v 2]

end Obscura.Spec
