import Verif.Model.Distribution
import Verif.Model.Detector

/-!
# Tables of a distribution written to and read from files — `src/DM_Distribution.cpp:164-180`, `200-209`

The text between the file and the numbers (`libphysica/Utilities.hpp`, outside `/repo`) is not modelled: a file of two columns is the
list of its rows, without rounding.
-/

namespace Obscura

/-- `libphysica::Export_Function(path, f, xs, {u, w})` (outside `/repo`): one row per abscissa, the columns divided by the units. -/
noncomputable def exportFunction (f : ℝ → Outcome ℝ) (xs : List ℝ) (u w : ℝ) : Outcome (List (ℝ × ℝ)) :=
  collect (fun x => do
    let y ← f x
    .ok (x / u, y / w)) xs

/-- `libphysica::Import_Table(path, {u, w})` (outside `/repo`): the columns multiplied by the units. -/
def importTable (rows : List (ℝ × ℝ)) (u w : ℝ) : List ℝ × List ℝ := (rows.map fun r => r.1 * u, rows.map fun r => r.2 * w)

namespace Distribution

variable (U : Units)

/-- The abscissae of the two export functions, `src/DM_Distribution.cpp:166` and `175`, for at least two points. `Log_Space` takes the
logarithms of the ends of the domain; unless both are positive they are not finite numbers. -/
noncomputable def exportGrid (d : Distribution) (points : ℕ) (logScale : Bool) : Outcome (List ℝ) :=
  open Classical in
  if logScale = true then
    if 0 < d.vMin ∧ 0 < d.vMax then .ok (logSpace d.vMin d.vMax points) else .nonfinite
  else .ok (linearSpace d.vMin d.vMax points)

/-- `Export_PDF_Speed`, `src/DM_Distribution.cpp:164-171`: the rows of the file. -/
noncomputable def exportPdfSpeed (d : Distribution) (points : ℕ) (logScale : Bool) : Outcome (List (ℝ × ℝ)) := do
  let vs ← d.exportGrid points logScale
  exportFunction (fun v => .ok (d.pdfSpeed v)) vs (U.km / U.sec) (U.sec / U.km)

/-- `Export_Eta_Function`, `src/DM_Distribution.cpp:173-180`: the rows of the file. -/
noncomputable def exportEta (d : Distribution) (points : ℕ) (logScale : Bool) : Outcome (List (ℝ × ℝ)) := do
  let vs ← d.exportGrid points logScale
  exportFunction d.eta vs (U.km / U.sec) (U.sec / U.km)

/-- `Imported_DM_Distribution(rho, filepath)`, `src/DM_Distribution.cpp:200-209`, from the rows of the file. -/
noncomputable def importFile (I : Integrator) (P : Interpolator) (rho : ℝ) (rows : List (ℝ × ℝ)) : Outcome Distribution :=
  imported I P true rho (importTable rows (U.km / U.sec) (U.sec / U.km)).1 (importTable rows (U.km / U.sec) (U.sec / U.km)).2

end Distribution

end Obscura
