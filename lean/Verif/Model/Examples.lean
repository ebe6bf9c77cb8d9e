import Verif.Model.Summary

/-!
# The example programs — `examples/`

The result of a program is what it prints when it ends normally; nuclear data are not loaded when it starts. `In_Units(x, u)` (outside
`/repo`) is `x / u`, and all summaries are asked for with the default rank 0.
-/

namespace Obscura.Examples

variable (S : Setup) (T : Tools) (I3 : Integrator3)

/-- The argon experiment, `examples/Electron_Recoil_Limit.cpp:26-27`; the second argument of `Use_Electron_Threshold` has the default
value 0 (`include/obscura/Direct_Detection_Ionization.hpp:64`). -/
noncomputable def argonExperiment : Outcome (Detector × IonizationDetector) := do
  let (_, d, x) ← S.makeIonization [] "Argon toy experiment" (100 * S.kg * S.M.year) "Electrons" "Ar"
  IonizationDetector.useElectronThreshold d x 4 0

/-- The silicon experiment, `examples/Electron_Recoil_Limit.cpp:31-32`. -/
noncomputable def siliconExperiment : Outcome (Detector × CrystalDetector) := do
  let (d, x) ← S.makeCrystal "Silicon toy experiment" (10 * S.M.gram * S.M.year) "Si"
  .ok (CrystalDetector.useQThreshold d x 2)

/-- The halo of both programs and its summary, `examples/Electron_Recoil_Limit.cpp:22-23`, `examples/Nuclear_Recoil_Spectrum.cpp:26-27`;
the name is that of the default constructor, `src/DM_Halo_Models.cpp:19`. -/
noncomputable def haloSummary : Outcome (List Printed) :=
  (SHM.default S.U).printSummary S.U T.integrate I3 "Standard halo model (SHM)" 0

/-- `main`, `examples/Electron_Recoil_Limit.cpp:14-43`. -/
noncomputable def electronRecoilLimit : Outcome (List Printed) := do
  let dm ← DMParticle.makeSI1 S.U (100 * S.U.MeV)
  let h := Distribution.ofSHM (SHM.default S.U)
  let halo ← haloSummary S T I3
  let (d, x) ← argonExperiment S
  let argon ← AnyDetector.printSummary S 0 (.electronRecoil d x)
  let (e, y) ← siliconExperiment S
  let silicon ← AnyDetector.printSummary S 0 (.crystal e y)
  let (_, dm', limitAr) ← d.upperLimit S.U T (AnyDetector.toClass S.U T h (.electronRecoil d x)) dm 0.95
  let (_, _, limitSi) ← e.upperLimit S.U T (AnyDetector.toClass S.U T h (.crystal e y)) dm' 0.95
  .ok (dm.printSummary S.U 0 ++ halo ++ argon ++ silicon ++
    [.text "Argon experiment: \tsigma_e < ", .real (limitAr / (S.U.cm * S.U.cm)), .text " cm^2 (95%CL)", .text "\n",
     .text "Silicon experiment: \tsigma_e < ", .real (limitSi / (S.U.cm * S.U.cm)), .text " cm^2 (95%CL)", .text "\n"])

/-- `main`, `examples/Nuclear_Recoil_Spectrum.cpp:12-42`. -/
noncomputable def nuclearRecoilSpectrum : Outcome (List Printed) := do
  let si ← DMParticle.makeSI1 S.U (10 * S.U.GeV)
  let si ← si.setSigmaProton S.U (1 / 10 ^ 40 * S.U.cm * S.U.cm)
  let sd ← DMParticle.makeSD1 S.U (10 * S.U.GeV)
  let sd ← sd.setSigmaProton S.U (1 / 10 ^ 40 * S.U.cm * S.U.cm)
  let h := Distribution.ofSHM (SHM.default S.U)
  let halo ← haloSummary S T I3
  let (_, xenon) ← getNucleusByName S.U S.files.nuclear [] "Xe"
  let rSI ← dRdERNucleus S.U T.integrate S.U.keV si h xenon
  let rSD ← dRdERNucleus S.U T.integrate S.U.keV sd h xenon
  .ok (si.printSummary S.U 0 ++ sd.printSummary S.U 0 ++ halo ++ xenon.printSummary S.U 0 ++
    [.text "SI-interactions: \tdR/dER (1 keV) = ", .real (rSI / (1 / S.kg / S.M.year / S.U.keV)), .text " events / kg / year / keV", .text "\n",
     .text "SD-interactions: \tdR/dER (1 keV) = ", .real (rSD / (1 / S.kg / S.M.year / S.U.keV)), .text " events / kg / year / keV", .text "\n"])

end Obscura.Examples
