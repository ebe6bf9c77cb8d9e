import Verif.Model.Detector
import Verif.Model.NuclearData
import Verif.Model.Distribution

/-!
# Nuclear recoil experiments — `src/Direct_Detection_Nucleus.cpp`

Divisions by masses and the root in `vMinimal_Nucleus` are total here: the theorems assume positive masses and non-negative energies.
Efficiency tables are functions of the energy (the result of interpolating the imported file).
-/

namespace Obscura

/-- A loop `sum += f(x)` over a list, from left to right. As in `src/Direct_Detection_Nucleus.cpp:40-44`. -/
noncomputable def sumOver {α : Type} (f : α → Outcome ℝ) (l : List α) : Outcome ℝ := do
  let xs ← collect f l
  .ok (xs.foldl (· + ·) 0)

variable (U : Units)

/-- `dRdER_Nucleus` for one isotope, `src/Direct_Detection_Nucleus.cpp:16-36`. -/
noncomputable def dRdERIsotope (I : Integrator) (ER : ℝ) (p : DMParticle) (h : Distribution) (iso : Isotope) : Outcome ℝ :=
  open Classical in
  let vMin := vMinimalNucleus ER p.mass iso.mass
  let vMax := h.vMax
  if vMax < vMin then .ok 0
  else if p.useEtaFunction ∧ h.useEta then do
    let rho := h.density * p.fractionalDensity
    let v := (1 / 1000 : ℝ)
    let e ← h.eta vMin
    .ok (1 / iso.mass * rho / p.mass * (v * v * p.dSigmadERNucleus U ER iso v) * e)
  else .ok (p.fractionalDensity / iso.mass *
    I (fun v => h.differentialFlux v p.mass * p.dSigmadERNucleus U ER iso v) vMin vMax)

/-- `dRdER_Nucleus` for a nucleus, `src/Direct_Detection_Nucleus.cpp:38-45`. -/
noncomputable def dRdERNucleus (I : Integrator) (ER : ℝ) (p : DMParticle) (h : Distribution) (n : Nucleus) : Outcome ℝ :=
  sumOver (fun iso => do
    let r ← dRdERIsotope U I ER p h iso
    .ok (iso.abundance * r)) n.isotopes

/-- The members of `DM_Detector_Nucleus`, `include/obscura/Direct_Detection_Nucleus.hpp:27-34`. -/
structure NuclearDetector where
  nuclei : List Nucleus
  fractions : List ℝ
  resolution : ℝ
  usingTables : Bool
  efficiencies : List (ℝ → ℝ)

namespace NuclearDetector

/-- The mass fractions computed by the constructor, `src/Direct_Detection_Nucleus.cpp:57-72`. -/
noncomputable def massFractions (nuclei : List Nucleus) (abund : List ℝ) : Outcome (List ℝ) :=
  open Classical in
  if abund = [] ∨ 1 < abund.foldl (· + ·) 0 then do
    let ms ← collect (fun i => do
      let n ← vecGet nuclei i
      let a ← if abund = [] then .ok 1 else vecGet abund i
      .ok (a * n.averageMass)) (List.range nuclei.length)
    collect (fun m => fdiv m (ms.foldl (· + ·) 0)) ms
  else .ok abund

/-- `DM_Detector_Nucleus(label, expo, nuclei, abund)`, `src/Direct_Detection_Nucleus.cpp:54-73`. -/
noncomputable def make (label : String) (expo : ℝ) (nuclei : List Nucleus) (abund : List ℝ) :
    Outcome (Detector × NuclearDetector) := do
  let fr ← massFractions nuclei abund
  .ok (Detector.make label expo "Nuclei",
    { nuclei := nuclei, fractions := fr, resolution := 0, usingTables := false, efficiencies := [] })

/-- `Set_Resolution`, `src/Direct_Detection_Nucleus.cpp:107-110`. -/
def setResolution (nd : NuclearDetector) (res : ℝ) : NuclearDetector := { nd with resolution := res }

/-- `Import_Efficiency(filename, dim)`, `src/Direct_Detection_Nucleus.cpp:112-118`: appends a table. -/
def importEfficiency (nd : NuclearDetector) (eff : ℝ → ℝ) : NuclearDetector :=
  { nd with usingTables := true, efficiencies := nd.efficiencies ++ [eff] }

/-- `Import_Efficiency(filenames, dim)`, `src/Direct_Detection_Nucleus.cpp:120-125`: replaces the tables. -/
def importEfficiencies (nd : NuclearDetector) (effs : List (ℝ → ℝ)) : NuclearDetector :=
  effs.foldl importEfficiency { nd with efficiencies := [] }

/-- All isotopes of the target, in the order of the nested loops. `src/Direct_Detection_Nucleus.cpp:79-80`. -/
def isotopes (nd : NuclearDetector) : List Isotope := nd.nuclei.flatMap Nucleus.isotopes

/-- The loop of `Maximum_Energy_Deposit`, `src/Direct_Detection_Nucleus.cpp:78-87`. -/
noncomputable def depositLoop (I : Integrator) (p : DMParticle) (vMax : ℝ) : List Isotope → ℝ → Outcome ℝ
  | [], E => .ok E
  | iso :: l, E =>
    let ER := maximumNuclearRecoilEnergy vMax p.mass iso.mass
    if E < ER then do
      let s ← p.sigmaTotalNucleus U I iso vMax
      if 0 < s then depositLoop I p vMax l ER else depositLoop I p vMax l E
    else depositLoop I p vMax l E

/-- `Maximum_Energy_Deposit`, `src/Direct_Detection_Nucleus.cpp:75-89`. -/
noncomputable def maximumEnergyDeposit (I : Integrator) (nd : NuclearDetector) (p : DMParticle) (h : Distribution) : Outcome ℝ := do
  let E ← depositLoop U I p h.vMax nd.isotopes 0
  .ok (E + 6 * nd.resolution)

/-- The mass `mMin` of `Minimum_DM_Mass`, `src/Direct_Detection_Nucleus.cpp:99`. For `E = 0` the quotient below the root is infinite,
and dividing by the result gives 0; other values that are not finite are not followed. -/
noncomputable def minimumMassIsotope (E vMax : ℝ) (iso : Isotope) : Outcome ℝ :=
  open Classical in
  if E = 0 ∧ 0 < iso.mass ∧ 0 < vMax then .ok 0
  else do
    let x ← fdiv (2 * iso.mass) E
    let r ← fsqrt x
    fdiv iso.mass (r * vMax - 1)

/-- The loop of `Minimum_DM_Mass`, `src/Direct_Detection_Nucleus.cpp:95-103`: the entries of `aux`. A value that is not finite is
only reported when it is stored. -/
noncomputable def massLoop (I : Integrator) (p : DMParticle) (E vMax : ℝ) : List Isotope → Outcome (List ℝ)
  | [] => .ok []
  | iso :: l => do
    let s ← p.sigmaTotalNucleus U I iso vMax
    if 0 < s then do
      let m ← minimumMassIsotope E vMax iso
      let ms ← massLoop I p E vMax l
      .ok (m :: ms)
    else massLoop I p E vMax l

/-- `Minimum_DM_Mass`, `src/Direct_Detection_Nucleus.cpp:91-105`. -/
noncomputable def minimumDMMass (I : Integrator) (nd : NuclearDetector) (d : Detector) (p : DMParticle) (h : Distribution) :
    Outcome ℝ := do
  let aux ← massLoop U I p (d.energyThreshold - 2 * nd.resolution) h.vMax nd.isotopes
  minElement aux

/-- The loop of `Minimum_DM_Speed`, `src/Direct_Detection_Nucleus.cpp:178-187`. -/
noncomputable def speedLoop (I : Integrator) (p : DMParticle) (E : ℝ) : List Isotope → ℝ → Outcome ℝ
  | [], v => .ok v
  | iso :: l, v =>
    let vmin := vMinimalNucleus E p.mass iso.mass
    if vmin < v then do
      let s ← p.sigmaTotalNucleus U I iso (1 / 1000)
      if 0 < s then speedLoop I p E l vmin else speedLoop I p E l v
    else speedLoop I p E l v

/-- `Minimum_DM_Speed`, `src/Direct_Detection_Nucleus.cpp:175-189`. -/
noncomputable def minimumDMSpeed (I : Integrator) (nd : NuclearDetector) (d : Detector) (p : DMParticle) : Outcome ℝ :=
  speedLoop U I p (d.energyThreshold - 2 * nd.resolution) nd.isotopes 1

/-- The efficiency `eff` of target `i`, `src/Direct_Detection_Nucleus.cpp:133-142,158-165`. -/
noncomputable def efficiency (nd : NuclearDetector) (i : ℕ) (E : ℝ) : Outcome ℝ :=
  if nd.usingTables then
    if nd.efficiencies.length = 1 then do
      let f ← vecGet nd.efficiencies 0
      .ok (f E)
    else if nd.efficiencies.length = nd.nuclei.length then do
      let f ← vecGet nd.efficiencies i
      .ok (f E)
    else .ok 1
  else .ok 1

/-- The weighted sum over the targets, `src/Direct_Detection_Nucleus.cpp:134-144,156-167`: efficiencies are evaluated at `E`, rates
at `ER`. -/
noncomputable def theoryRate (I : Integrator) (nd : NuclearDetector) (d : Detector) (E ER : ℝ) (p : DMParticle) (h : Distribution) :
    Outcome ℝ :=
  sumOver (fun i => do
    let n ← vecGet nd.nuclei i
    let eff ← nd.efficiency i E
    let fr ← vecGet nd.fractions i
    let r ← dRdERNucleus U I ER p h n
    .ok (eff * d.flatEfficiency * fr * r)) (List.range nd.nuclei.length)

/-- `dRdE`, `src/Direct_Detection_Nucleus.cpp:127-173`. Inside the convolution a failing evaluation of the rate is replaced by 0;
the theorems about this branch assume that the rates do not fail. -/
noncomputable def dRdE (I : Integrator) (nd : NuclearDetector) (d : Detector) (E : ℝ) (p : DMParticle) (h : Distribution) :
    Outcome ℝ :=
  open Classical in
  if nd.resolution < 1 / 10 ^ 6 * U.eV then nd.theoryRate U I d E E p h
  else
    let eMin := max (max (E - 6 * nd.resolution) (d.energyThreshold - 3 * nd.resolution)) (2 * nd.resolution)
    let eMax := E + 6 * nd.resolution
    .ok (I (fun ER => pdfGauss E ER nd.resolution * (nd.theoryRate U I d E ER p h).valueOr0) eMin eMax)

/-- The virtual functions of `DM_Detector_Nucleus` (`include/obscura/Direct_Detection_Nucleus.hpp:44-47`); the signals are those of
the base class. A failing rate is replaced by 0 here (the base class expects a number); the theorems assume that it does not fail. -/
noncomputable def toClass (T : Tools) (nd : NuclearDetector) (h : Distribution) : DetectorClass :=
  DetectorClass.base T (fun p => nd.maximumEnergyDeposit U T.integrate p h)
    (fun d p => nd.minimumDMMass U T.integrate d p h)
    (fun d E p => (nd.dRdE U T.integrate d E p h).valueOr0)

end NuclearDetector
end Obscura
