import Verif.Model.Vector
import Mathlib.Data.Rat.Floor
import Mathlib.Algebra.Order.Round

/-!
# `src/Astronomy.cpp`
-/

namespace Obscura

/-- `deg` of `libphysica/Natural_Units.hpp`. -/
noncomputable def deg : ℝ := Real.pi / 180

/-- `arcsec` of `libphysica/Natural_Units.hpp`. -/
noncomputable def arcsec : ℝ := deg / 3600

/-- The matrix built in `Transformation_Matrix_P` from its three precession angles, `src/Astronomy.cpp:19-22`. -/
noncomputable def precessionMatrix (zeta z theta : ℝ) : Mat :=
  open Real in
  !![cos zeta * cos theta * cos z - sin zeta * sin z, -sin zeta * cos theta * cos z - cos zeta * sin z, -sin theta * cos z;
     cos zeta * cos theta * sin z + sin zeta * cos z, -sin zeta * cos theta * sin z + cos zeta * cos z, -sin theta * sin z;
     cos zeta * sin theta, -sin zeta * sin theta, cos theta]

/-- `Transformation_Matrix_P(T)`, `src/Astronomy.cpp:14-24`. -/
noncomputable def transformationMatrixP (T : ℝ) : Mat :=
  precessionMatrix (2306.083227 * arcsec * T + 0.298850 * arcsec * T * T)
    (2306.077181 * arcsec * T + 1.092735 * arcsec * T * T)
    (2004.191903 * arcsec * T - 0.429493 * arcsec * T * T)

/-- The matrix built in `Transformation_Matrix_M` from its three angles, `src/Astronomy.cpp:31-34`. -/
noncomputable def galacticMatrix (l a d : ℝ) : Mat :=
  open Real in
  !![-sin l * sin a - cos l * cos a * sin d, sin l * cos a - cos l * sin a * sin d, cos l * cos d;
     cos l * sin a - sin l * cos a * sin d, -cos l * cos a - sin l * sin a * sin d, sin l * cos d;
     cos a * cos d, sin a * cos d, sin d]

/-- `Transformation_Matrix_M()`, `src/Astronomy.cpp:26-36`. -/
noncomputable def transformationMatrixM : Mat := galacticMatrix (122.932 * deg) (192.85948 * deg) (27.12825 * deg)

/-- `Transformation_Matrix_R(T)`, `src/Astronomy.cpp:38-43`. -/
noncomputable def transformationMatrixR (T : ℝ) : Mat := rotationX (23.4393 * deg - 0.0130 * deg * T)

/-- `Transform_Equat_to_Gal`, `src/Astronomy.cpp:46-49`. -/
noncomputable def transformEquatToGal (v : Vec) (T : ℝ) : Vec :=
  (transformationMatrixM * (transformationMatrixP T)⁻¹).mulVec v

/-- `Transform_GeoEcl_to_Gal`, `src/Astronomy.cpp:51-54`. -/
noncomputable def transformGeoEclToGal (v : Vec) (T : ℝ) : Vec :=
  (transformationMatrixM * (transformationMatrixP T)⁻¹ * transformationMatrixR T).mulVec v

/-- `Transform_HelEcl_to_Gal`, `src/Astronomy.cpp:56-59`. -/
noncomputable def transformHelEclToGal (v : Vec) (T : ℝ) : Vec :=
  (((-1 : ℝ) • transformationMatrixM) * (transformationMatrixP T)⁻¹ * transformationMatrixR T).mulVec v

/-- `Transform_Gal_to_Equat`, `src/Astronomy.cpp:61-64`. -/
noncomputable def transformGalToEquat (v : Vec) (T : ℝ) : Vec :=
  (transformationMatrixP T * transformationMatrixM⁻¹).mulVec v

/-- `Fractional_Days_since_J2000`, `src/Astronomy.cpp:68-81`. The products `365.25 * year` and `30.61 * (month + 1)` are
exact here (in the code the first is exact as well, the second rounded; no product is near an integer). -/
noncomputable def fractionalDaysSinceJ2000 (day month year : ℤ) (hour minute second : ℝ) : ℝ :=
  (if month = 1 ∨ month = 2 then
      (⌊(365.25 : ℝ) * ((year - 1 : ℤ) : ℝ)⌋ : ℝ) + (⌊(30.61 : ℝ) * ((month + 13 : ℤ) : ℝ)⌋ : ℝ)
    else (⌊(365.25 : ℝ) * (year : ℝ)⌋ : ℝ) + (⌊(30.61 : ℝ) * ((month + 1 : ℤ) : ℝ)⌋ : ℝ)) +
  ((day : ℝ) - 730563.5 + hour / 24 + minute / 1440 + second / 86400)

/-- C's `fmod(x, y)`: the remainder has the sign of `x`. Called in `src/Astronomy.cpp:87,96,117,118`. -/
noncomputable def cfmod (x y : ℝ) : ℝ := x - y * (if 0 ≤ x / y then (⌊x / y⌋ : ℝ) else (⌈x / y⌉ : ℝ))

/-- The seconds accumulated in `Local_Apparent_Sidereal_Time` before the final `fmod`, `src/Astronomy.cpp:85-95`. -/
noncomputable def siderealSeconds (nJ2000 longitude : ℝ) : ℝ :=
  open Real in
  let T := nJ2000 / 36525
  let t := 86400 * (0.779057273264 + 0.00273781191135448 * nJ2000 + cfmod nJ2000 1) + 0.00096707 +
    307.47710227 * T + 0.092772113 * T ^ 2
  let epsilonA := 23.439279444 * deg - 0.01301021361 * deg * T
  let Omega := 125.04455501 * deg - 0.05295376 * deg * nJ2000
  let L := 280.47 * deg - 0.98565 * deg * nJ2000
  let DeltaPsi := -1.1484 * sin Omega - 0.0864 * cos (2 * L)
  t + (DeltaPsi * cos epsilonA + 0.000176 * sin Omega + 0.000004 * sin (2 * Omega)) + longitude / 2 / π * 86400

/-- `Local_Apparent_Sidereal_Time`, `src/Astronomy.cpp:83-97`. -/
noncomputable def localApparentSiderealTime (U : Units) (nJ2000 longitude : ℝ) : ℝ :=
  cfmod (siderealSeconds nJ2000 longitude) 86400 * U.sec

/-- `Sun_Velocity()`, `src/Astronomy.cpp:100-108`. -/
noncomputable def sunVelocity (U : Units) : Vec :=
  ![0, 220 * U.km / U.sec, 0] + ![11.1 * U.km / U.sec, 12.2 * U.km / U.sec, 7.3 * U.km / U.sec]

/-- `Earth_Velocity(nJ2000)`, `src/Astronomy.cpp:110-130`. -/
noncomputable def earthVelocity (U : Units) (nJ2000 : ℝ) : Vec :=
  open Real in
  let e := 0.01671
  let L := cfmod (280.46 * deg + nJ2000 * 0.9856474 * deg) (2 * π)
  let omega := cfmod (282.932 * deg + nJ2000 * 0.0000471 * deg) (2 * π)
  let T := nJ2000 / 36525
  let exEcl := transformHelEclToGal ![1, 0, 0] T
  let eyEcl := transformHelEclToGal ![0, 1, 0] T
  let ve := 29.79 * U.km / U.sec
  let uE := (-ve * (sin L + e * sin (2 * L - omega))) • exEcl + (ve * (cos L + e * cos (2 * L - omega))) • eyEcl
  sunVelocity U + uE

end Obscura
