import Verif.Model.NuclearDetector
import Verif.Model.Kinematics

/-!
# Semiconductor targets — `src/Target_Crystal.cpp`, `src/Direct_Detection_Crystal.cpp`

Printed warnings (and the flags that suppress their repetition) are not modelled.
Divisions by masses and momenta are total here; the theorems assume positive masses.
-/

namespace Obscura

/-- `libphysica::Interpolation_2D(xs, ys, table)`: a function of two variables, left abstract. -/
abbrev Interpolator2D := List ℝ → List ℝ → List (List ℝ) → ℝ → ℝ → ℝ

/-- The contract "the interpolating function passes through the tabulated points", for increasing abscissae.
Called in `src/Target_Crystal.cpp:54,72`. -/
def Interpolator2D.Nodes (P : Interpolator2D) : Prop :=
  ∀ (xs ys : List ℝ) (t : List (List ℝ)), xs.Pairwise (· < ·) → ys.Pairwise (· < ·) →
    ∀ (i j : ℕ) (x y z : ℝ), xs[i]? = some x → ys[j]? = some y → (t[i]?.bind fun row => row[j]?) = some z → P xs ys t x y = z

/-- Conversion of a `double` to `int`: the fraction is cut off; undefined if the result does not fit.
As in `src/Target_Crystal.cpp:28,36` and `src/main.cpp:42`. -/
noncomputable def toIntConv (x : ℝ) : Outcome ℤ :=
  if x ≤ -2 ^ 31 - 1 ∨ 2 ^ 31 ≤ x then .ub else .ok (if 0 ≤ x then ⌊x⌋ else ⌈x⌉)

/-- Conversion of a `double` to `unsigned int`: the fraction is cut off; undefined if the result does not fit.
As in `src/Direct_Detection_Crystal.cpp:26`. -/
noncomputable def toUIntConv (x : ℝ) : Outcome ℕ :=
  if x ≤ -1 ∨ 2 ^ 32 ≤ x then .ub else .ok ⌊x⌋₊

/-- `class Crystal`, `include/obscura/Target_Crystal.hpp:9-25`. -/
structure Crystal where
  name : String
  nE : ℕ
  nq : ℕ
  dE : ℝ
  dq : ℝ
  eMax : ℝ
  qMax : ℝ
  mCell : ℝ
  gap : ℝ
  epsilon : ℝ
  pairsMax : ℕ
  interpolation : ℝ → ℝ → ℝ

namespace Crystal

variable (U : Units)

/-- The constants that depend on the target, `src/Target_Crystal.cpp:21-43`: energy gap, mean energy per pair, mass of the cell,
prefactor of the table. -/
noncomputable def constants (target : String) : Outcome (ℝ × ℝ × ℝ × ℝ) :=
  if target = "Si" then .ok (1.11 * U.eV, 3.6 * U.eV, 2 * 28.08 * U.mNucleon, 2 * U.eV)
  else if target = "Ge" then .ok (0.67 * U.eV, 2.9 * U.eV, 2 * 72.6 * U.mNucleon, 1.8 * U.eV)
  else .exit

/-- `Crystal(target)`, `src/Target_Crystal.cpp:15-55`. `file` gives the list of numbers in `data/Semiconductors/C.<target>137.dat`
(the data are not part of `/repo`); reading past its end is undefined behaviour. -/
noncomputable def make (P : Interpolator2D) (file : String → List ℝ) (target : String) : Outcome Crystal := do
  let dE := 0.1 * U.eV
  let dq := 0.02 * U.aEM * U.mElectron
  let nE : ℕ := 500
  let nq : ℕ := 900
  let eMax := (nE : ℝ) * dE
  let qMax := (nq : ℝ) * dq
  let (gap, epsilon, mCell, prefactor) ← constants U target
  let pairs ← toUIntConv ⌊(eMax - gap + epsilon) / epsilon⌋
  let table ← collect (fun qi : ℕ => collect (fun ei : ℕ => do
    let a ← vecGet (file target) (ei * nq + qi)
    .ok (prefactor * ((qi : ℝ) + 1) / dE * (2 / 137) / 4 * a)) (List.range nE)) (List.range nq)
  .ok { name := target, nE := nE, nq := nq, dE := dE, dq := dq, eMax := eMax, qMax := qMax, mCell := mCell, gap := gap,
        epsilon := epsilon, pairsMax := pairs,
        interpolation := P (linearSpace dq qMax nq) (linearSpace dE eMax nE) table }

/-- `Crystal_Form_Factor`, `src/Target_Crystal.cpp:58-72`. -/
noncomputable def formFactor (c : Crystal) (q E : ℝ) : ℝ :=
  open Classical in
  if q < c.dq ∨ c.qMax < q ∨ E < c.dE ∨ c.eMax < E then 0 else c.interpolation q E

/-- `Minimum_Electron_Energy`, `src/Direct_Detection_Crystal.cpp:19-22`. The overflow of `Q - 1` for the smallest `int` is not modelled. -/
noncomputable def minimumElectronEnergy (c : Crystal) (Q : ℤ) : ℝ := c.epsilon * ((Q : ℝ) - 1) + c.gap

/-- `Electron_Hole_Pairs`, `src/Direct_Detection_Crystal.cpp:24-27`. -/
noncomputable def electronHolePairs (c : Crystal) (Ee : ℝ) : Outcome ℕ := toUIntConv ⌊(Ee - c.gap) / c.epsilon + 1⌋

end Crystal

/-- `d2Sigma_dq2_dEe_Crystal`: SI `src/DM_Particle_Standard.cpp:310-313`; the SD class inherits the function of the base class,
`include/obscura/DM_Particle.hpp:69`, which returns 0. -/
noncomputable def DMParticle.d2SigmaCrystal (U : Units) (p : DMParticle) (q Ee v : ℝ) (c : Crystal) : ℝ :=
  match p.interaction with
  | .SI _ _ _ => 2 * U.aEM * U.mElectron * U.mElectron / q / q / q * p.dSigmadq2Electron U q v * c.formFactor q Ee
  | .SD => 0

variable (U : Units)

/-- The contribution of one momentum transfer to `dRdEe_Crystal`, `src/Direct_Detection_Crystal.cpp:47-63`. -/
noncomputable def dRdEeCrystalTerm (I : Integrator) (Ee : ℝ) (p : DMParticle) (h : Distribution) (c : Crystal) (qi : ℕ) :
    Outcome ℝ :=
  open Classical in
  let q := ((qi : ℝ) + 1) * c.dq
  let vMin := vMinimalElectrons q Ee p.mass
  let vMax := h.vMax
  if vMax < vMin then .ok 0
  else if p.useEtaFunction ∧ h.useEta then do
    let v := (1 / 1000 : ℝ)
    let e ← h.eta vMin
    .ok (2 * q * c.dq * h.density / p.mass * e * v * v * p.d2SigmaCrystal U q Ee v c)
  else .ok (2 * q * c.dq * I (fun v => h.differentialFlux v p.mass * p.d2SigmaCrystal U q Ee v c) vMin vMax)

/-- `dRdEe_Crystal`, `src/Direct_Detection_Crystal.cpp:30-66`. -/
noncomputable def dRdEeCrystal (I : Integrator) (Ee : ℝ) (p : DMParticle) (h : Distribution) (c : Crystal) : Outcome ℝ :=
  open Classical in
  if c.eMax < Ee then .ok 0
  else do
    let integral ← sumOver (dRdEeCrystalTerm U I Ee p h c) (List.range c.nq)
    .ok (1 / c.mCell * integral)

/-- The integers `k, k+1, …, n-1`. The loops of `src/Direct_Detection_Crystal.cpp:75,91`. -/
def intRange (k n : ℤ) : List ℤ := (List.range (n - k).toNat).map fun i : ℕ => k + i

/-- `R_Q_Crystal`, `src/Direct_Detection_Crystal.cpp:68-83`. -/
noncomputable def rQCrystal (I : Integrator) (Q : ℤ) (p : DMParticle) (h : Distribution) (c : Crystal) : Outcome ℝ := do
  let eMin := c.minimumElectronEnergy Q
  let eMax := c.minimumElectronEnergy (Q + 1)
  let k ← toIntConv (eMin / c.dE)
  sumOver (fun i : ℤ => do
    let r ← dRdEeCrystal U I (((i : ℝ) + 1) * c.dE) p h c
    .ok (c.dE * r)) ((intRange k c.nE).takeWhile fun i : ℤ => decide (((i : ℝ) + 1) * c.dE ≤ eMax))

/-- `R_total_Crystal`, `src/Direct_Detection_Crystal.cpp:85-97`. -/
noncomputable def rTotalCrystal (I : Integrator) (Q : ℤ) (p : DMParticle) (h : Distribution) (c : Crystal) : Outcome ℝ := do
  let eMin := c.minimumElectronEnergy Q
  let k ← toIntConv (eMin / c.dE)
  sumOver (fun i : ℤ => do
    let r ← dRdEeCrystal U I (((i : ℝ) + 1) * c.dE) p h c
    .ok (c.dE * r)) (intRange k c.nE)

/-- Reading a member: `none` means that the member was never initialised. As in `src/Direct_Detection_Crystal.cpp:146,164,199,221`. -/
def readMember {α : Type} : Option α → Outcome α
  | some a => .ok a
  | none => .ub

/-- The members of `DM_Detector_Crystal`, `include/obscura/Direct_Detection_Crystal.hpp:24-34`. -/
structure CrystalDetector where
  crystal : Crystal
  qThreshold : Option ℕ
  usingQThreshold : Option Bool
  usingQBins : Option Bool

namespace CrystalDetector

/-- `DM_Detector_Crystal(label, expo, crys)`, `src/Direct_Detection_Crystal.cpp:105-108`: the three members are left uninitialised.
The default constructor (100-103) is the case of a silicon crystal. -/
noncomputable def make (P : Interpolator2D) (file : String → List ℝ) (label : String) (expo : ℝ) (crys : String) :
    Outcome (Detector × CrystalDetector) := do
  let c ← Crystal.make U P file crys
  .ok (Detector.make label expo "Electrons", { crystal := c, qThreshold := none, usingQThreshold := none, usingQBins := none })

/-- `Maximum_Energy_Deposit`, `src/Direct_Detection_Crystal.cpp:111-114`. -/
noncomputable def maximumEnergyDeposit (p : DMParticle) (h : Distribution) : Outcome ℝ := .ok (p.mass / 2 * h.vMax ^ 2)

/-- `Minimum_DM_Mass`, `src/Direct_Detection_Crystal.cpp:116-119`. -/
noncomputable def minimumDMMass (d : Detector) (h : Distribution) : Outcome ℝ := fdiv (2 * d.energyThreshold) (h.vMax ^ 2)

/-- `Minimum_DM_Speed`, `src/Direct_Detection_Crystal.cpp:121-124`. -/
noncomputable def minimumDMSpeed (d : Detector) (p : DMParticle) : Outcome ℝ := do
  let x ← fdiv (2 * d.energyThreshold) p.mass
  fsqrt x

/-- `dRdE`, `src/Direct_Detection_Crystal.cpp:126-129`. -/
noncomputable def dRdE (I : Integrator) (cd : CrystalDetector) (d : Detector) (E : ℝ) (p : DMParticle) (h : Distribution) :
    Outcome ℝ := do
  let r ← dRdEeCrystal U I E p h cd.crystal
  .ok (d.flatEfficiency * r)

/-- `Use_Q_Threshold`, `src/Direct_Detection_Crystal.cpp:176-183`. -/
noncomputable def useQThreshold (d : Detector) (cd : CrystalDetector) (Q : ℕ) : Detector × CrystalDetector :=
  ({ d.initializePoisson with energyThreshold := cd.crystal.minimumElectronEnergy (toInt32 Q),
                              energyMax := cd.crystal.minimumElectronEnergy (toInt32 cd.crystal.pairsMax) },
   { cd with usingQThreshold := some true, qThreshold := some Q })

/-- `Use_Q_Bins`, `src/Direct_Detection_Crystal.cpp:185-195`, for `Q, N < 2^32`. -/
noncomputable def useQBins (d : Detector) (cd : CrystalDetector) (Q N : ℕ) : Outcome (Detector × CrystalDetector) := do
  let qMax := if N = 0 then cd.crystal.pairsMax else usub32 ((N + Q) % 2 ^ 32) 1
  let bins := (usub32 qMax Q + 1) % 2 ^ 32
  let d ← d.initializeBinned bins
  .ok ({ d with energyThreshold := cd.crystal.minimumElectronEnergy (toInt32 Q),
                energyMax := cd.crystal.minimumElectronEnergy (toInt32 qMax) },
       { cd with usingQBins := some true, qThreshold := some Q })

/-- `DM_Signals_Q_Bins`, `src/Direct_Detection_Crystal.cpp:197-213`. -/
noncomputable def signalsQBins (I : Integrator) (cd : CrystalDetector) (d : Detector) (p : DMParticle) (h : Distribution) :
    Outcome (List ℝ) := do
  let using_ ← readMember cd.usingQBins
  if using_ = false then .exit
  else do
    let Q₀ ← readMember cd.qThreshold
    collect (fun Q : ℕ => do
      let eff ← vecGet d.binEfficiencies (usub32 Q 1)
      let r ← rQCrystal U I (toInt32 Q) p h cd.crystal
      .ok (d.exposure * d.flatEfficiency * eff * r)) (List.range' Q₀ ((Q₀ + d.bins) % 2 ^ 32 - Q₀))

variable (T : Tools)

/-- The base class functions see this `dRdE`. `include/obscura/Direct_Detection_Crystal.hpp:44`. -/
noncomputable def rateClass (cd : CrystalDetector) (h : Distribution) : DetectorClass where
  maximumEnergyDeposit := fun p => maximumEnergyDeposit p h
  minimumDMMass := fun d _ => minimumDMMass d h
  dRdE := fun d E p => (cd.dRdE U T.integrate d E p h).valueOr0
  signalsTotal := fun _ _ => .exit
  signalsBinned := fun _ _ => .exit

/-- `DM_Signals_Binned`, `src/Direct_Detection_Crystal.cpp:153-173`. -/
noncomputable def signalsBinned (cd : CrystalDetector) (d : Detector) (p : DMParticle) (h : Distribution) : Outcome (List ℝ) :=
  if d.analysis ≠ .binnedPoisson then .exit
  else if d.usingEnergyBins then d.signalsEnergyBins T (cd.rateClass U T h) p
  else do
    let using_ ← readMember cd.usingQBins
    if using_ = true then cd.signalsQBins U T.integrate d p h else .exit

/-- `DM_Signals_Total`, `src/Direct_Detection_Crystal.cpp:131-151`. -/
noncomputable def signalsTotal (cd : CrystalDetector) (d : Detector) (p : DMParticle) (h : Distribution) : Outcome ℝ :=
  if d.analysis = .binnedPoisson then do
    let l ← cd.signalsBinned U T d p h
    .ok (l.foldl (· + ·) 0)
  else if d.usingEnergyThreshold = true ∨ d.analysis = .maximumGap then
    .ok (d.exposure * T.integrate (fun E => (cd.dRdE U T.integrate d E p h).valueOr0) d.energyThreshold d.energyMax)
  else do
    let using_ ← readMember cd.usingQThreshold
    if using_ = true then do
      let Q ← readMember cd.qThreshold
      let r ← rTotalCrystal U T.integrate (toInt32 Q) p h cd.crystal
      .ok (d.exposure * d.flatEfficiency * r)
    else .ok 0

/-- The virtual functions of `DM_Detector_Crystal`, `include/obscura/Direct_Detection_Crystal.hpp:42-47`. -/
noncomputable def toClass (cd : CrystalDetector) (h : Distribution) : DetectorClass where
  maximumEnergyDeposit := fun p => maximumEnergyDeposit p h
  minimumDMMass := fun d _ => minimumDMMass d h
  dRdE := fun d E p => (cd.dRdE U T.integrate d E p h).valueOr0
  signalsTotal := fun d p => cd.signalsTotal U T d p h
  signalsBinned := fun d p => cd.signalsBinned U T d p h

/-- The public configuration calls of `DM_Detector_Crystal`.
`include/obscura/Direct_Detection.hpp:68-101` and `include/obscura/Direct_Detection_Crystal.hpp:50-52`. -/
inductive Op where
  | base (op : Detector.Op)
  | useQThreshold (Q : ℕ)
  | useQBins (Q N : ℕ)

/-- One call. `include/obscura/Direct_Detection_Crystal.hpp:50-52`. -/
noncomputable def step (s : Detector × CrystalDetector) : Op → Outcome (Detector × CrystalDetector)
  | .base op => do
    let d ← s.1.step op
    .ok (d, s.2)
  | .useQThreshold Q => .ok (useQThreshold s.1 s.2 Q)
  | .useQBins Q N => useQBins s.1 s.2 Q N

/-- A sequence of calls. `include/obscura/Direct_Detection_Crystal.hpp:50-52`. -/
noncomputable def run (s : Detector × CrystalDetector) : List Op → Outcome (Detector × CrystalDetector)
  | [] => .ok s
  | op :: ops => do
    let s' ← step s op
    run s' ops

end CrystalDetector
end Obscura
