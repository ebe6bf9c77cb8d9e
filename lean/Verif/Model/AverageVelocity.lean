import Verif.Model.Distribution

/-!
# The mean velocity of a distribution — `src/DM_Distribution.cpp:80-91`
-/

namespace Obscura

/-- `libphysica::Integrate_3D(f, rMin, rMax, cosMin, cosMax, phiMin, phiMax)` (`libphysica/Integration.hpp`, outside `/repo`): the
integral of a function of a vector over a region given in spherical coordinates, left abstract. -/
abbrev Integrator3 := (Vec → ℝ) → ℝ → ℝ → ℝ → ℝ → ℝ → ℝ → ℝ

/-- The contract "the three-dimensional quadrature is exact": the volume element in the coordinates `(r, cos θ, φ)` is `r²`.
Called in `src/DM_Distribution.cpp:80-91`. -/
def Integrator3.Exact (I : Integrator3) : Prop :=
  ∀ f r1 r2 c1 c2 p1 p2, I f r1 r2 c1 c2 p1 p2 =
    ∫ r in r1..r2, ∫ c in c1..c2, ∫ p in p1..p2, r * r * f (sphericalCoordinates r (Real.arccos c) p)

/-- `DM_Distribution::Average_Velocity`, `src/DM_Distribution.cpp:80-91`, for a distribution with velocity PDF `pdf` on the speed
domain `[vMin, vMax]`; the loop over the three components is the function of the index. -/
noncomputable def averageVelocity (I : Integrator3) (pdf : Vec → ℝ) (vMin vMax : ℝ) : Vec :=
  fun i => I (fun vel => vel i * pdf vel) vMin vMax (-1) 1 0 (2 * Real.pi)

/-- `DM_Distribution::PDF_Velocity` where it is not overridden (base class and imported distributions),
`include/obscura/DM_Distribution.hpp:34`. -/
def basePdfVelocity (_ : Vec) : ℝ := 0

/-- `Average_Velocity` of a standard halo model (inherited), `src/DM_Distribution.cpp:80-91`. -/
noncomputable def SHM.averageVelocity (I : Integrator3) (s : SHM) : Vec := Obscura.averageVelocity I s.pdfVelocity s.vMin s.vMax

/-- `Average_Velocity` of an SHM++ (inherited), `src/DM_Distribution.cpp:80-91`. -/
noncomputable def SHMpp.averageVelocity (I : Integrator3) (s : SHMpp) : Vec := Obscura.averageVelocity I s.pdfVelocity s.vMin s.vMax

/-- `Average_Velocity` of an imported distribution (nothing overridden), `src/DM_Distribution.cpp:80-91`. -/
noncomputable def Distribution.averageVelocity (I : Integrator3) (d : Distribution) : Vec :=
  Obscura.averageVelocity I basePdfVelocity d.vMin d.vMax

end Obscura
