import Verif.Model.HaloPP

/-!
# The base class `DM_Distribution` and imported distributions — `src/DM_Distribution.cpp`
-/

namespace Obscura

/-- A `DM_Distribution` object: the data members (`include/obscura/DM_Distribution.hpp:18-25`) and the virtual functions that a
subclass may override. The constructors (`src/DM_Distribution.cpp:17-25`) fill in the members; `Minimum_DM_Speed` and
`Maximum_DM_Speed` (26-34) are the projections `vMin` and `vMax`; `Eta_Function` (141-145) of the base class is `Eta_Function_Base`. -/
structure Distribution where
  density : ℝ
  vMin : ℝ
  vMax : ℝ
  useEta : Bool
  pdfSpeed : ℝ → ℝ
  cdfSpeed : ℝ → ℝ
  eta : ℝ → Outcome ℝ

/-- The value of a computation that cannot fail at the place of use (see there). Used for `src/DM_Halo_Models.cpp:320-331`. -/
def Outcome.valueOr0 : Outcome ℝ → ℝ
  | .ok x => x
  | _ => 0

namespace Distribution

/-- `DM_Distribution::PDF_Speed` (not overridden), `src/DM_Distribution.cpp:35-42`. -/
noncomputable def basePdfSpeed (I2 : Integrator2) (pdfVelocity : Vec → ℝ) (v : ℝ) : ℝ :=
  I2 (fun c phi => v * v * pdfVelocity (sphericalCoordinates v (Real.arccos c) phi)) (-1) 1 0 (2 * Real.pi)

/-- `DM_Distribution::CDF_Speed` (not overridden), `src/DM_Distribution.cpp:44-57`. -/
noncomputable def baseCdf (I : Integrator) (pdf : ℝ → ℝ) (vMin vMax v : ℝ) : ℝ :=
  open Classical in
  if v < vMin then 0 else if vMax < v then 1 else I pdf vMin v

/-- `DM_Distribution::Eta_Function_Base`, `src/DM_Distribution.cpp:121-139`. -/
noncomputable def baseEta (I : Integrator) (pdf : ℝ → ℝ) (vMin vMax v : ℝ) : Outcome ℝ :=
  open Classical in
  if v < vMin then .exit else if vMax ≤ v then .ok 0 else .ok (I (fun u => 1 / u * pdf u) v vMax)

/-- A distribution that overrides nothing but `PDF_Speed`. `include/obscura/DM_Distribution.hpp:33-47`. -/
noncomputable def ofPdf (I : Integrator) (rho vMin vMax : ℝ) (pdf : ℝ → ℝ) : Distribution where
  density := rho
  vMin := vMin
  vMax := vMax
  useEta := false
  pdfSpeed := pdf
  cdfSpeed := baseCdf I pdf vMin vMax
  eta := baseEta I pdf vMin vMax

/-- `PDF_Norm`, `src/DM_Distribution.cpp:59-65`. -/
def pdfNorm (I : Integrator) (d : Distribution) : ℝ := I d.pdfSpeed d.vMin d.vMax

/-- `Differential_DM_Flux`, `src/DM_Distribution.cpp:67-70` (for `mDM ≠ 0`). -/
noncomputable def differentialFlux (d : Distribution) (v mDM : ℝ) : ℝ := d.density / mDM * v * d.pdfSpeed v

/-- `Total_DM_Flux`, `src/DM_Distribution.cpp:72-78`. -/
noncomputable def totalFlux (I : Integrator) (d : Distribution) (mDM : ℝ) : ℝ :=
  I (fun v => d.differentialFlux v mDM) d.vMin d.vMax

/-- `Average_Speed`, `src/DM_Distribution.cpp:93-119`. -/
noncomputable def averageSpeed (I : Integrator) (d : Distribution) (vMin : ℝ) : Outcome ℝ :=
  open Classical in
  if vMin < 0 then .ok (I (fun v => v * d.pdfSpeed v) d.vMin d.vMax)
  else if vMin < d.vMin ∨ d.vMax ≤ vMin then .exit
  else fdiv (I (fun v => v * d.pdfSpeed v) vMin d.vMax) (1 - d.cdfSpeed vMin)

/-- `Imported_DM_Distribution::PDF_Speed`, `src/DM_Distribution.cpp:220-226`. `a`, `b` is the domain of the interpolated table. -/
noncomputable def importedPdf (f : ℝ → ℝ) (a b v : ℝ) : ℝ :=
  open Classical in
  if v < a ∨ b < v then 0 else f v

/-- `Imported_DM_Distribution::Interpolate_Eta`, `src/DM_Distribution.cpp:191-198`. `Eta_Function_Base` cannot exit at these
abscissae (they start at `a`), so the error value is not reached; it is mapped to 0. -/
noncomputable def importedTable (I : Integrator) (P : Interpolator) (f : ℝ → ℝ) (a b : ℝ) : ℝ → ℝ :=
  let vs := linearSpace a b 500
  P vs (vs.map fun v => (baseEta I (importedPdf f a b) a b v).valueOr0)

/-- `Imported_DM_Distribution::Eta_Function`, `src/DM_Distribution.cpp:228-239`. -/
noncomputable def importedEta (table : ℝ → ℝ) (a b v : ℝ) : Outcome ℝ :=
  open Classical in
  if v < a then .exit else if b < v then .ok 0 else .ok (table v)

/-- The two constructors of `Imported_DM_Distribution`, `src/DM_Distribution.cpp:200-218`, from the tabulated PDF (abscissae and
values in natural units). The constructor from a file sets `DD_use_eta_function`, the one from a table does not. The
normalisation check only prints a warning and is not modelled. An empty table has no domain (undefined behaviour in the
library). -/
noncomputable def imported (I : Integrator) (P : Interpolator) (fromFile : Bool) (rho : ℝ) (xs ys : List ℝ) : Outcome Distribution :=
  match xs.head?, xs.getLast? with
  | some a, some b =>
    .ok { density := rho, vMin := a, vMax := b, useEta := fromFile, pdfSpeed := importedPdf (P xs ys) a b,
          cdfSpeed := baseCdf I (importedPdf (P xs ys) a b) a b, eta := importedEta (importedTable I P (P xs ys) a b) a b }
  | _, _ => .ub

/-- A standard halo model seen through the base class, `include/obscura/DM_Halo_Models.hpp:18-48`. -/
noncomputable def ofSHM (s : SHM) : Distribution where
  density := s.density
  vMin := s.vMin
  vMax := s.vMax
  useEta := s.useEta
  pdfSpeed := s.pdfSpeed
  cdfSpeed := s.cdfSpeed
  eta := fun v => .ok (s.eta v)

/-- An SHM++ seen through the base class, `include/obscura/DM_Halo_Models.hpp:52-90`. -/
noncomputable def ofSHMpp (N : Numerics) (s : SHMpp) : Distribution where
  density := s.density
  vMin := s.vMin
  vMax := s.vMax
  useEta := s.useEta
  pdfSpeed := s.pdfSpeed N
  cdfSpeed := s.cdfSpeed N
  eta := s.eta

end Distribution

end Obscura
