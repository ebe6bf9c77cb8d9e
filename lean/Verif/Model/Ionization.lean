import Verif.Model.Atom

/-!
# Ionization detectors — `src/Direct_Detection_Ionization.cpp`, `src/Direct_Detection_ER.cpp`, `src/Direct_Detection_Migdal.cpp`

`unsigned int` members are natural numbers below `2^32`. A loop `for(x = a; x <= b; x++)` over `unsigned int` never ends for
`b = 2^32 - 1`; that case is not modelled. `Print_Summary` is in `Model/Summary`.
-/

namespace Obscura

/-- The virtual function `dRdE_Ionization(E, DM, DM_distr, nucleus, shell)` of the concrete class, for a fixed DM distribution.
`include/obscura/Direct_Detection_Ionization.hpp:12-85`. -/
abbrev ShellRate := Detector → ℝ → DMParticle → Nucleus → AtomicElectron → Outcome ℝ

/-- `DM_Detector_Ionization_ER::dRdE_Ionization`, `src/Direct_Detection_ER.cpp:71-74`. -/
noncomputable def shellRateER (U : Units) (I : Integrator) (h : Distribution) : ShellRate := fun d E p nucleus shell => do
  let r ← dRdEeER U I E p h nucleus.averageMass shell
  .ok (d.flatEfficiency * r)

/-- `DM_Detector_Ionization_Migdal::dRdE_Ionization`, `src/Direct_Detection_Migdal.cpp:75-78`. -/
noncomputable def shellRateMigdal (U : Units) (I : Integrator) (h : Distribution) : ShellRate := fun d E p nucleus shell =>
  .ok (d.flatEfficiency * dRdEeMigdal U I E p h nucleus shell)

/-- `DM_Detector_Ionization::dRdE_Ionization`, `src/Direct_Detection_Ionization.cpp:216-219`. -/
def shellRateBase : ShellRate := fun _ _ _ _ _ => .ok 0

/-- `PDF_ne`, `src/Direct_Detection_Ionization.cpp:231-238`. The number of trials is converted from `double`. -/
noncomputable def pdfNe (ne : ℕ) (Ee W : ℝ) (secondaries : ℕ) : Outcome ℝ := do
  let fR : ℝ := 0
  let nxni : ℝ := 0.2
  let fe := (1 - fR) / (1 + nxni)
  let x ← fdiv Ee W
  let trials ← toUIntConv ((secondaries : ℝ) + ⌊x⌋)
  .ok (pmfBinomial trials fe (usub32 ne 1))

/-- The members of `DM_Detector_Ionization`, `include/obscura/Direct_Detection_Ionization.hpp:15-38`. -/
structure IonizationDetector where
  atoms : List Atom
  fractions : List ℝ
  neThreshold : ℕ
  neMax : ℕ
  usingElectronThreshold : Bool
  usingElectronBins : Bool
  peThreshold : ℕ
  peMax : ℕ
  s2Mu : ℝ
  s2Sigma : ℝ
  trigger : List ℝ
  acceptance : List ℝ
  usingS2Threshold : Bool
  usingS2Bins : Bool
  s2Bins : List ℕ

namespace IonizationDetector

/-- The members set by both constructors, `src/Direct_Detection_Ionization.cpp:105,110`. -/
def initial (atoms : List Atom) (fractions : List ℝ) : IonizationDetector where
  atoms := atoms
  fractions := fractions
  neThreshold := 3
  neMax := 100
  usingElectronThreshold := false
  usingElectronBins := false
  peThreshold := 0
  peMax := 0
  s2Mu := 0
  s2Sigma := 0
  trigger := []
  acceptance := []
  usingS2Threshold := false
  usingS2Bins := false
  s2Bins := []

/-- The atoms are constructed one after the other, `src/Direct_Detection_Ionization.cpp:113-114`. -/
noncomputable def makeAtoms (U : Units) (P : Interpolator2D) (tables : ResponseTables) (file : Option (List NuclearRow)) :
    List String → List Nucleus → Outcome (List Nucleus × List Atom)
  | [], cache => .ok (cache, [])
  | name :: names, cache => do
    let (cache, a) ← Atom.make U P tables file cache name
    let (cache, as) ← makeAtoms U P tables file names cache
    .ok (cache, a :: as)

/-- The mass fractions, `src/Direct_Detection_Ionization.cpp:115-128`. -/
noncomputable def massFractions (n : ℕ) (given : List ℝ) : Outcome (List ℝ) :=
  open Classical in
  if given.length = 0 then .ok (List.replicate n (1 / (n : ℝ)))
  else if given.length ≠ n then .exit
  else
    let total := given.foldl (· + ·) 0
    if 1 < total then .ok (given.map fun x => x / total) else .ok given

/-- `DM_Detector_Ionization(label, expo, target, atom)`, `src/Direct_Detection_Ionization.cpp:104-107`. The two subclasses pass
"Electrons" and "Nuclei", `src/Direct_Detection_ER.cpp:62-65`, `src/Direct_Detection_Migdal.cpp:68-71`. -/
noncomputable def makeOne (U : Units) (P : Interpolator2D) (tables : ResponseTables) (file : Option (List NuclearRow))
    (cache : List Nucleus) (label : String) (expo : ℝ) (target atom : String) :
    Outcome (List Nucleus × Detector × IonizationDetector) := do
  let (cache, a) ← Atom.make U P tables file cache atom
  .ok (cache, Detector.make label expo target, initial [a] [1])

/-- `DM_Detector_Ionization(label, expo, target, atoms, mass_fractions)`, `src/Direct_Detection_Ionization.cpp:109-129`. -/
noncomputable def make (U : Units) (P : Interpolator2D) (tables : ResponseTables) (file : Option (List NuclearRow))
    (cache : List Nucleus) (label : String) (expo : ℝ) (target : String) (atoms : List String) (given : List ℝ) :
    Outcome (List Nucleus × Detector × IonizationDetector) := do
  let (cache, as) ← makeAtoms U P tables file atoms cache
  let fr ← massFractions as.length given
  .ok (cache, Detector.make label expo target, initial as fr)

/-- `Energy_Gap`, `src/Direct_Detection_Ionization.cpp:15-22`. -/
noncomputable def energyGap (x : IonizationDetector) : ℝ :=
  open Classical in
  x.atoms.foldl (fun (g : ℝ) a => if a.lowestBindingEnergy < g then a.lowestBindingEnergy else g) (10 ^ 10)

/-- `Lowest_W`, `src/Direct_Detection_Ionization.cpp:24-31`. -/
noncomputable def lowestW (x : IonizationDetector) : ℝ :=
  open Classical in
  x.atoms.foldl (fun (w : ℝ) a => if a.W < w then a.W else w) (10 ^ 10)

/-- `Maximum_Energy_Deposit`, `src/Direct_Detection_Ionization.cpp:33-37`. -/
noncomputable def maximumEnergyDeposit (p : DMParticle) (h : Distribution) : Outcome ℝ := .ok (p.mass / 2 * h.vMax * h.vMax)

/-- `Minimum_DM_Mass`, `src/Direct_Detection_Ionization.cpp:131-142`. -/
noncomputable def minimumDMMass (x : IonizationDetector) (d : Detector) (h : Distribution) : Outcome ℝ :=
  let eMin :=
    if d.usingEnergyThreshold = true then d.energyThreshold
    else if x.usingElectronBins = true ∨ x.usingElectronThreshold = true then x.energyGap + ((x.neThreshold : ℝ) - 1) * x.lowestW
    else x.energyGap
  fdiv (2 * eMin) (h.vMax * h.vMax)

/-- `Minimum_DM_Speed`, `src/Direct_Detection_Ionization.cpp:144-147`. -/
noncomputable def minimumDMSpeed (x : IonizationDetector) (p : DMParticle) : Outcome ℝ := do
  let y ← fdiv (2 * x.energyGap) p.mass
  fsqrt y

/-! ## Rates -/

variable (U : Units) (S : ShellRate)

/-- `dRdE_Ionization(E, DM, DM_distr, atom)`, `src/Direct_Detection_Ionization.cpp:221-227`. -/
noncomputable def dRdEAtom (d : Detector) (E : ℝ) (p : DMParticle) (a : Atom) : Outcome ℝ :=
  sumOver (fun e => S d E p a.nucleus e) a.electrons

/-- `dRdE`, `src/Direct_Detection_Ionization.cpp:149-155`. -/
noncomputable def dRdE (x : IonizationDetector) (d : Detector) (E : ℝ) (p : DMParticle) : Outcome ℝ :=
  sumOver (fun i => do
    let a ← vecGet x.atoms i
    let f ← vecGet x.fractions i
    let r ← dRdEAtom S d E p a
    .ok (f * r)) (List.range x.atoms.length)

/-- `R_ne` for one shell, `src/Direct_Detection_Ionization.cpp:240-249`. -/
noncomputable def rNeShell (d : Detector) (ne : ℕ) (p : DMParticle) (W : ℝ) (nucleus : Nucleus) (shell : AtomicElectron) : Outcome ℝ :=
  sumOver (fun k : ℝ => do
    let Ee := k * k / 2 / U.mElectron
    let w ← pdfNe ne Ee W shell.secondaries
    let r ← S d Ee p nucleus shell
    .ok (Real.log 10 * shell.dlogk * k * k / U.mElectron * w * r)) shell.kGrid

/-- `R_ne` for an atom, `src/Direct_Detection_Ionization.cpp:251-257`. -/
noncomputable def rNeAtom (d : Detector) (ne : ℕ) (p : DMParticle) (a : Atom) : Outcome ℝ :=
  sumOver (fun e => rNeShell U S d ne p a.W a.nucleus e) a.electrons

/-- `R_ne` for the detector, `src/Direct_Detection_Ionization.cpp:259-266`. -/
noncomputable def rNe (x : IonizationDetector) (d : Detector) (ne : ℕ) (p : DMParticle) : Outcome ℝ :=
  sumOver (fun i => do
    let a ← vecGet x.atoms i
    let f ← vecGet x.fractions i
    let r ← rNeAtom U S d ne p a
    .ok (f * r)) (List.range x.atoms.length)

/-- `R_S2_aux`, `src/Direct_Detection_Ionization.cpp:299-305`. A vanishing width gives a division by zero. -/
noncomputable def rS2Aux (nPE : ℕ) (mu sigma : ℝ) (spectrum : List ℝ) : Outcome ℝ := do
  let rs ← collect (fun ne : ℕ => vecGet spectrum (ne - 1)) (List.range' 1 100)
  if sigma = 0 then .nonfinite
  else .ok ((List.zipWith (fun (ne : ℕ) (r : ℝ) => pdfGauss nPE (mu * ne) (Real.sqrt ne * sigma) * r) (List.range' 1 100) rs).foldl
    (· + ·) 0)

/-- `R_S2` for one shell, `src/Direct_Detection_Ionization.cpp:307-313`. -/
noncomputable def rS2Shell (x : IonizationDetector) (d : Detector) (nPE : ℕ) (p : DMParticle) (W : ℝ) (nucleus : Nucleus)
    (shell : AtomicElectron) (spectrum : List ℝ) : Outcome ℝ := do
  let spectrum ← if spectrum.isEmpty then collect (fun ne => rNeShell U S d ne p W nucleus shell) (List.range' 1 100) else .ok spectrum
  rS2Aux nPE x.s2Mu x.s2Sigma spectrum

/-- `R_S2` for an atom, `src/Direct_Detection_Ionization.cpp:315-321`. -/
noncomputable def rS2Atom (x : IonizationDetector) (d : Detector) (nPE : ℕ) (p : DMParticle) (a : Atom) (spectrum : List ℝ) :
    Outcome ℝ := do
  let spectrum ← if spectrum.isEmpty then collect (fun ne => rNeAtom U S d ne p a) (List.range' 1 100) else .ok spectrum
  rS2Aux nPE x.s2Mu x.s2Sigma spectrum

/-- `R_S2` for the detector, `src/Direct_Detection_Ionization.cpp:323-329`. -/
noncomputable def rS2 (x : IonizationDetector) (d : Detector) (nPE : ℕ) (p : DMParticle) (spectrum : List ℝ) : Outcome ℝ := do
  let spectrum ← if spectrum.isEmpty then collect (fun ne => x.rNe U S d ne p) (List.range' 1 100) else .ok spectrum
  rS2Aux nPE x.s2Mu x.s2Sigma spectrum

/-- The efficiency `PE_eff`, `src/Direct_Detection_Ionization.cpp:70-74`. -/
noncomputable def peEfficiency (x : IonizationDetector) (nPE : ℕ) : Outcome ℝ := do
  let t ← if x.trigger.isEmpty = false then vecGet x.trigger (usub32 nPE 1) else .ok 1
  let a ← if x.acceptance.isEmpty = false then vecGet x.acceptance (usub32 nPE 1) else .ok 1
  .ok (1 * t * a)

/-- `R_S2_Bin`, `src/Direct_Detection_Ionization.cpp:61-78`. -/
noncomputable def rS2Bin (x : IonizationDetector) (d : Detector) (lo hi : ℕ) (p : DMParticle) (spectrum : List ℝ) : Outcome ℝ := do
  let spectrum ← if spectrum.isEmpty then collect (fun ne => x.rNe U S d ne p) (List.range' 1 99) else .ok spectrum
  sumOver (fun nPE => do
    let eff ← x.peEfficiency nPE
    let r ← x.rS2 U S d nPE p spectrum
    .ok (eff * r)) (List.range' lo (hi + 1 - lo))

/-! ## Signals -/

/-- `DM_Signals_Electron_Bins`, `src/Direct_Detection_Ionization.cpp:40-58`. -/
noncomputable def signalsElectronBins (x : IonizationDetector) (d : Detector) (p : DMParticle) : Outcome (List ℝ) :=
  if x.usingElectronBins = false then .exit
  else collect (fun bin => do
    let r ← x.rNe U S d ((x.neThreshold + bin) % 2 ^ 32) p
    let eff ← vecGet d.binEfficiencies bin
    .ok (eff * d.exposure * r)) (List.range d.bins)

/-- `DM_Signals_PE_Bins`, `src/Direct_Detection_Ionization.cpp:80-102`. -/
noncomputable def signalsPEBins (x : IonizationDetector) (d : Detector) (p : DMParticle) : Outcome (List ℝ) :=
  if x.usingS2Bins = false then .exit
  else do
    let spectrum ← collect (fun ne => x.rNe U S d ne p) (List.range' 1 99)
    collect (fun bin => do
      let lo ← vecGet x.s2Bins bin
      let hi ← vecGet x.s2Bins (bin + 1)
      let r ← x.rS2Bin U S d lo (usub32 hi 1) p spectrum
      let eff ← vecGet d.binEfficiencies bin
      .ok (eff * d.exposure * r)) (List.range d.bins)

variable (T : Tools)

/-- The base class functions see this `dRdE`. `include/obscura/Direct_Detection_Ionization.hpp:46-53`. -/
noncomputable def rateClass (x : IonizationDetector) (h : Distribution) : DetectorClass where
  maximumEnergyDeposit := fun p => maximumEnergyDeposit p h
  minimumDMMass := fun d _ => x.minimumDMMass d h
  dRdE := fun d E p => (x.dRdE S d E p).valueOr0
  signalsTotal := fun _ _ => .exit
  signalsBinned := fun _ _ => .exit

/-- `DM_Signals_Binned`, `src/Direct_Detection_Ionization.cpp:189-213`. -/
noncomputable def signalsBinned (x : IonizationDetector) (d : Detector) (p : DMParticle) (h : Distribution) : Outcome (List ℝ) :=
  if d.analysis ≠ .binnedPoisson then .exit
  else if d.usingEnergyBins then d.signalsEnergyBins T (x.rateClass S h) p
  else if x.usingElectronBins then x.signalsElectronBins U S d p
  else if x.usingS2Bins then x.signalsPEBins U S d p
  else .exit

/-- The contribution of one shell in the energy threshold branch of `DM_Signals_Total`,
`src/Direct_Detection_Ionization.cpp:173-181`. A failing rate is replaced by 0 inside the integral. -/
noncomputable def thresholdSignal (d : Detector) (p : DMParticle) (nucleus : Nucleus) (fraction : ℝ) (e : AtomicElectron) : ℝ :=
  open Classical in
  let eMax := e.kMax * e.kMax / 2 / U.mElectron
  if d.energyThreshold < eMax then
    fraction * T.integrate (fun E => d.exposure * (S d E p nucleus e).valueOr0) d.energyThreshold eMax
  else 0

/-- `DM_Signals_Total`, `src/Direct_Detection_Ionization.cpp:157-187`. -/
noncomputable def signalsTotal (x : IonizationDetector) (d : Detector) (p : DMParticle) (h : Distribution) : Outcome ℝ :=
  if d.analysis = .binnedPoisson then do
    let l ← x.signalsBinned U S T d p h
    .ok (l.foldl (· + ·) 0)
  else if x.usingElectronThreshold then
    sumOver (fun ne => do
      let r ← x.rNe U S d ne p
      .ok (d.exposure * r)) (List.range' x.neThreshold (x.neMax + 1 - x.neThreshold))
  else if d.usingEnergyThreshold then
    sumOver (fun i => do
      let a ← vecGet x.atoms i
      sumOver (fun e => do
        let f ← vecGet x.fractions i
        .ok (thresholdSignal U S T d p a.nucleus f e)) a.electrons) (List.range x.atoms.length)
  else if x.usingS2Threshold then do
    let r ← x.rS2Bin U S d x.peThreshold x.peMax p []
    .ok (d.exposure * r)
  else .ok 0

/-- The virtual functions of `DM_Detector_Ionization`, `include/obscura/Direct_Detection_Ionization.hpp:46-53`. -/
noncomputable def toClass (x : IonizationDetector) (h : Distribution) : DetectorClass where
  maximumEnergyDeposit := fun p => maximumEnergyDeposit p h
  minimumDMMass := fun d _ => x.minimumDMMass d h
  dRdE := fun d E p => (x.dRdE S d E p).valueOr0
  signalsTotal := fun d p => x.signalsTotal U S T d p h
  signalsBinned := fun d p => x.signalsBinned U S T d p h

/-! ## Configuration -/

/-- `Use_Electron_Threshold`, `src/Direct_Detection_Ionization.cpp:268-282`. -/
def useElectronThreshold (d : Detector) (x : IonizationDetector) (n m : ℕ) : Outcome (Detector × IonizationDetector) :=
  let neMax := if 0 < m ∧ n < m then m else 100
  if neMax < n then .exit
  else .ok ({ d.initializePoisson with usingEnergyThreshold := false },
    { x with usingElectronThreshold := true, usingS2Threshold := false, neThreshold := n, neMax := neMax })

/-- `Use_Electron_Bins`, `src/Direct_Detection_Ionization.cpp:284-296`. -/
def useElectronBins (d : Detector) (x : IonizationDetector) (n bins : ℕ) : Outcome (Detector × IonizationDetector) := do
  let d ← d.initializeBinned bins
  let neMax := usub32 ((n + bins) % 2 ^ 32) 1
  if neMax < n then .exit
  else .ok (d, { x with usingElectronBins := true, neThreshold := n, neMax := neMax })

/-- `Use_PE_Threshold`, `src/Direct_Detection_Ionization.cpp:331-348`. -/
def usePEThreshold (d : Detector) (x : IonizationDetector) (mu sigma : ℝ) (n m : ℕ) : Outcome (Detector × IonizationDetector) :=
  if m < n then .exit
  else .ok ({ d.initializePoisson with usingEnergyThreshold := false },
    { x with usingS2Threshold := true, usingElectronThreshold := false, s2Mu := mu, s2Sigma := sigma, peThreshold := n, peMax := m })

/-- `Import_Trigger_Efficiency_PE`, `src/Direct_Detection_Ionization.cpp:350-361`. -/
def importTrigger (x : IonizationDetector) (l : List ℝ) : Outcome IonizationDetector :=
  if x.usingS2Bins = false ∧ x.usingS2Threshold = false then .exit else .ok { x with trigger := l }

/-- `Import_Acceptance_Efficiency_PE`, `src/Direct_Detection_Ionization.cpp:363-374`. -/
def importAcceptance (x : IonizationDetector) (l : List ℝ) : Outcome IonizationDetector :=
  if x.usingS2Bins = false ∧ x.usingS2Threshold = false then .exit else .ok { x with acceptance := l }

/-- `Use_PE_Bins`, `src/Direct_Detection_Ionization.cpp:377-385`. `size() - 1` is converted to `unsigned int`. -/
def usePEBins (d : Detector) (x : IonizationDetector) (mu sigma : ℝ) (ranges : List ℕ) : Outcome (Detector × IonizationDetector) := do
  let d ← d.initializeBinned (toUInt32 ((ranges.length : ℤ) - 1))
  .ok (d, { x with usingS2Bins := true, s2Mu := mu, s2Sigma := sigma, s2Bins := ranges })

/-- The public configuration calls of `DM_Detector_Ionization`.
`include/obscura/Direct_Detection.hpp:68-101` and `include/obscura/Direct_Detection_Ionization.hpp:64-78`. -/
inductive Op where
  | base (op : Detector.Op)
  | useElectronThreshold (n m : ℕ)
  | useElectronBins (n bins : ℕ)
  | usePEThreshold (mu sigma : ℝ) (n m : ℕ)
  | usePEBins (mu sigma : ℝ) (ranges : List ℕ)
  | importTrigger (l : List ℝ)
  | importAcceptance (l : List ℝ)

/-- One call. `include/obscura/Direct_Detection_Ionization.hpp:64-78`. -/
noncomputable def step (s : Detector × IonizationDetector) : Op → Outcome (Detector × IonizationDetector)
  | .base op => do
    let d ← s.1.step op
    .ok (d, s.2)
  | .useElectronThreshold n m => useElectronThreshold s.1 s.2 n m
  | .useElectronBins n bins => useElectronBins s.1 s.2 n bins
  | .usePEThreshold mu sigma n m => usePEThreshold s.1 s.2 mu sigma n m
  | .usePEBins mu sigma ranges => usePEBins s.1 s.2 mu sigma ranges
  | .importTrigger l => do
    let x ← importTrigger s.2 l
    .ok (s.1, x)
  | .importAcceptance l => do
    let x ← importAcceptance s.2 l
    .ok (s.1, x)

/-- A sequence of calls. `include/obscura/Direct_Detection_Ionization.hpp:64-78`. -/
noncomputable def run (s : Detector × IonizationDetector) : List Op → Outcome (Detector × IonizationDetector)
  | [] => .ok s
  | op :: ops => do
    let s' ← step s op
    run s' ops

end IonizationDetector
end Obscura
