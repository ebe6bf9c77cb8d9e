import Verif.Model.Particle
import Mathlib.Data.List.Sort

/-!
# The detector base class — `src/Direct_Detection.cpp`, `include/obscura/Direct_Detection.hpp`

The member `statistical_analysis` only ever holds the three strings "Poisson", "Binned Poisson" and "Maximum Gap", so it is an
enumeration here and the `else` branches that report an unknown analysis are not reachable.
The DM distribution is never changed by a detector; it is part of the virtual functions (`DetectorClass`).
`Print_Summary` is in `Model/Summary`; `Target_Particles` (`src/Direct_Detection.cpp:308-311`) is the projection `targets`.
-/

namespace Obscura

/-- Apply a fallible function to every entry of a list, from left to right. The loops of `src/Direct_Detection.cpp:104-105,110-114`. -/
def collect {α β : Type} (f : α → Outcome β) : List α → Outcome (List β)
  | [] => .ok []
  | a :: l => do
    let b ← f a
    let bs ← collect f l
    .ok (b :: bs)

/-- `libphysica::Log_Space(a, b, n)` for `a, b > 0`, `n ≥ 2`: `n` points from `a` to `b`, equidistant in the logarithm. -/
noncomputable def logSpace (a b : ℝ) (n : ℕ) : List ℝ :=
  (List.range n).map fun i : ℕ => a * (b / a) ^ ((i : ℝ) / ((n : ℝ) - 1))

/-- Conversion of an integer to `int` (32 bit two's complement). As in `src/Direct_Detection.cpp:197`. -/
def toInt32 (z : ℤ) : ℤ := (z + 2 ^ 31) % 2 ^ 32 - 2 ^ 31

/-- Conversion of an integer to `unsigned long int` (64 bit). As in `src/Direct_Detection.cpp:197`. -/
def toUInt64 (z : ℤ) : ℕ := (z % 2 ^ 64).toNat

/-- Conversion of an integer to `unsigned int` (32 bit). As in `src/Direct_Detection.cpp:432-444` and `src/Configuration.cpp:549`. -/
def toUInt32 (z : ℤ) : ℕ := (z % 2 ^ 32).toNat

/-- `std::accumulate(v.begin(), v.end(), 0)` for a `std::vector<unsigned long int>`: the accumulator has the type `int` of the
initial value, every sum is computed in `unsigned long int` and converted back. `src/Direct_Detection.cpp:197`. -/
def accumulateInt (l : List ℕ) : ℤ :=
  l.foldl (fun (acc : ℤ) (n : ℕ) => toInt32 (toUInt64 ((toUInt64 acc : ℤ) + n))) 0

/-- `*std::min_element(v.begin(), v.end())`; dereferencing `end()` is undefined behaviour. As in `src/Direct_Detection.cpp:115`. -/
noncomputable def minElement : List ℝ → Outcome ℝ
  | [] => .ub
  | a :: l => .ok (l.foldl min a)

/-- `*std::max_element(v.begin(), v.end())`. As in `src/Direct_Detection.cpp:296`. -/
noncomputable def maxElement : List ℝ → Outcome ℝ
  | [] => .ub
  | a :: l => .ok (l.foldl max a)

/-- The values of `statistical_analysis`. `src/Direct_Detection.cpp:133,174,241`. -/
inductive Analysis where
  | poisson
  | binnedPoisson
  | maximumGap
deriving DecidableEq

/-- Members of `DM_Detector`, `include/obscura/Direct_Detection.hpp:17-60`. -/
structure Detector where
  name : String
  targets : String
  exposure : ℝ
  flatEfficiency : ℝ
  analysis : Analysis
  observed : ℕ
  background : ℝ
  bins : ℕ
  binEfficiencies : List ℝ
  binObserved : List ℕ
  binBackground : List ℝ
  usingFiducial : Bool
  fiducialCoupling : ℝ
  fiducialSignals : ℝ
  fiducialSpectrum : List ℝ
  gapData : List ℝ
  energyThreshold : ℝ
  energyMax : ℝ
  usingEnergyThreshold : Bool
  usingEnergyBins : Bool
  binEnergies : List ℝ

namespace Detector

/-- `DM_Detector(label, expo, target_type)`, `include/obscura/Direct_Detection.hpp:63-64`; the default constructor (61-62) is the
case `"base name"`, `0`, `"base targets"`. -/
def make (label : String) (expo : ℝ) (target : String) : Detector where
  name := label
  targets := target
  exposure := expo
  flatEfficiency := 1
  analysis := .poisson
  observed := 0
  background := 0
  bins := 0
  binEfficiencies := []
  binObserved := []
  binBackground := []
  usingFiducial := false
  fiducialCoupling := 0
  fiducialSignals := 0
  fiducialSpectrum := []
  gapData := []
  energyThreshold := 0
  energyMax := 0
  usingEnergyThreshold := false
  usingEnergyBins := false
  binEnergies := []

/-! ## Configuration -/

/-- `Initialize_Poisson`, `src/Direct_Detection.cpp:131-136`. -/
def initializePoisson (d : Detector) : Detector :=
  { d with analysis := .poisson, observed := 0, background := 0 }

/-- `Set_Observed_Events(unsigned long int)`, `src/Direct_Detection.cpp:138-149`. -/
def setObserved (d : Detector) (n : ℕ) : Outcome Detector :=
  if d.analysis ≠ .poisson then .exit else .ok { d with observed := n }

/-- `Set_Expected_Background(double)`, `src/Direct_Detection.cpp:151-162`. -/
def setBackground (d : Detector) (B : ℝ) : Outcome Detector :=
  if d.analysis ≠ .poisson then .exit else .ok { d with background := B }

/-- `Initialize_Binned_Poisson`, `src/Direct_Detection.cpp:165-180`. -/
def initializeBinned (d : Detector) (bins : ℕ) : Outcome Detector :=
  if d.analysis = .binnedPoisson then .exit
  else .ok { d with analysis := .binnedPoisson, bins := bins, binObserved := List.replicate bins 0,
                    binBackground := List.replicate bins 0, binEfficiencies := List.replicate bins 1 }

/-- `Set_Observed_Events(std::vector<unsigned long int>)`, `src/Direct_Detection.cpp:182-199`. -/
def setObservedBins (d : Detector) (N : List ℕ) : Outcome Detector :=
  if d.analysis ≠ .binnedPoisson then .exit
  else if N.length ≠ d.bins then .exit
  else .ok { d with binObserved := N, observed := toUInt64 (accumulateInt N) }

/-- `Set_Bin_Efficiencies`, `src/Direct_Detection.cpp:201-217`. -/
def setBinEfficiencies (d : Detector) (eff : List ℝ) : Outcome Detector :=
  if d.analysis ≠ .binnedPoisson then .exit
  else if eff.length ≠ d.bins then .exit
  else .ok { d with binEfficiencies := eff }

/-- `Set_Expected_Background(const std::vector<double>&)`, `src/Direct_Detection.cpp:219-236`. -/
noncomputable def setBackgroundBins (d : Detector) (B : List ℝ) : Outcome Detector :=
  if d.analysis ≠ .binnedPoisson then .exit
  else if B.length ≠ d.bins then .exit
  else .ok { d with binBackground := B, background := B.foldl (· + ·) 0 }

/-- `Use_Maximum_Gap`, `src/Direct_Detection.cpp:239-247`; `front()` of an empty vector is undefined behaviour. -/
noncomputable def useMaximumGap (d : Detector) (energies : List ℝ) : Outcome Detector :=
  let s := energies.insertionSort (· ≤ ·)
  match s.head?, s.getLast? with
  | some a, some b => .ok { d with analysis := .maximumGap, gapData := s, energyThreshold := a, energyMax := b }
  | _, _ => .ub

/-- `Set_Flat_Efficiency`, `src/Direct_Detection.cpp:303-306`. -/
def setFlatEfficiency (d : Detector) (eff : ℝ) : Detector := { d with flatEfficiency := eff }

/-- `Use_Energy_Threshold`, `src/Direct_Detection.cpp:419-430`. -/
noncomputable def useEnergyThreshold (d : Detector) (Ethr Emax : ℝ) : Outcome Detector :=
  let d := { d.initializePoisson with usingEnergyThreshold := true, energyThreshold := Ethr, energyMax := Emax }
  if Emax < Ethr then .exit else .ok d

/-- `Use_Energy_Bins`, `src/Direct_Detection.cpp:432-444`. The `int` argument is converted to `unsigned int`, and
`number_of_bins + 1` is computed in `unsigned int`. -/
noncomputable def useEnergyBins (d : Detector) (Emin Emax : ℝ) (bins : ℤ) : Outcome Detector := do
  let d ← d.initializeBinned (toUInt32 bins)
  if Emax < Emin then .exit
  else .ok { d with usingEnergyBins := true, energyThreshold := Emin, energyMax := Emax,
                    binEnergies := linearSpace Emin Emax ((d.bins + 1) % 2 ^ 32) }

/-- The public configuration calls of the base class. `include/obscura/Direct_Detection.hpp:68-101`. -/
inductive Op where
  | setObserved (n : ℕ)
  | setBackground (B : ℝ)
  | setObservedBins (N : List ℕ)
  | setBinEfficiencies (eff : List ℝ)
  | setBackgroundBins (B : List ℝ)
  | useMaximumGap (energies : List ℝ)
  | setFlatEfficiency (eff : ℝ)
  | useEnergyThreshold (Ethr Emax : ℝ)
  | useEnergyBins (Emin Emax : ℝ) (bins : ℤ)

/-- One call. `include/obscura/Direct_Detection.hpp:68-101`. -/
noncomputable def step (d : Detector) : Op → Outcome Detector
  | .setObserved n => d.setObserved n
  | .setBackground B => d.setBackground B
  | .setObservedBins N => d.setObservedBins N
  | .setBinEfficiencies eff => d.setBinEfficiencies eff
  | .setBackgroundBins B => d.setBackgroundBins B
  | .useMaximumGap es => d.useMaximumGap es
  | .setFlatEfficiency eff => .ok (d.setFlatEfficiency eff)
  | .useEnergyThreshold a b => d.useEnergyThreshold a b
  | .useEnergyBins a b n => d.useEnergyBins a b n

/-- A sequence of calls. `include/obscura/Direct_Detection.hpp:68-101`. -/
noncomputable def run (d : Detector) : List Op → Outcome Detector
  | [] => .ok d
  | op :: ops => do
    let d' ← d.step op
    run d' ops

end Detector

/-- The virtual functions of a detector, for a fixed DM distribution and fixed members of the concrete class
(`include/obscura/Direct_Detection.hpp:71-77`). -/
structure DetectorClass where
  maximumEnergyDeposit : DMParticle → Outcome ℝ
  minimumDMMass : Detector → DMParticle → Outcome ℝ
  dRdE : Detector → ℝ → DMParticle → ℝ
  signalsTotal : Detector → DMParticle → Outcome ℝ
  signalsBinned : Detector → DMParticle → Outcome (List ℝ)

/-- The numerical routines of libphysica a detector calls. -/
structure Tools where
  /-- `libphysica::Integrate(f, a, b)` -/
  integrate : Integrator
  /-- `libphysica::Interpolation(xs, ys).Integrate(a, b)` -/
  interpolationIntegral : List ℝ → List ℝ → ℝ → ℝ → ℝ
  /-- `libphysica::Find_Root(f, a, b, 1e-4)` -/
  findRoot : RootFinder
  /-- the arguments at which `Find_Root(f, a, b, 1e-4)` evaluates `f`, in order -/
  searchPoints : (ℝ → ℝ) → ℝ → ℝ → List ℝ

namespace Detector

variable (U : Units) (T : Tools) (C : DetectorClass)

/-! ## Signals -/

/-- `DM_Detector::DM_Signals_Total`, `src/Direct_Detection.cpp:314-334`. The logarithm of a non-positive energy is not finite. -/
noncomputable def baseSignalsTotal (d : Detector) (p : DMParticle) : Outcome ℝ :=
  if d.analysis = .binnedPoisson then do
    let l ← C.signalsBinned d p
    .ok (l.foldl (· + ·) 0)
  else if d.energyThreshold ≤ 0 ∨ d.energyMax ≤ 0 then .nonfinite
  else
    let args := logSpace d.energyThreshold d.energyMax 200
    .ok (d.exposure * T.interpolationIntegral args (args.map fun E => C.dRdE d E p) d.energyThreshold d.energyMax)

/-- `DM_Signal_Rate_Total`, `src/Direct_Detection.cpp:336-339`. -/
noncomputable def signalRateTotal (d : Detector) (p : DMParticle) : Outcome ℝ := do
  let s ← C.signalsTotal d p
  fdiv s d.exposure

/-- `DM_Signals_Energy_Bins`, `src/Direct_Detection.cpp:446-466`. -/
noncomputable def signalsEnergyBins (d : Detector) (p : DMParticle) : Outcome (List ℝ) :=
  if d.usingEnergyBins = false then .exit
  else collect (fun i => do
    let lo ← vecGet d.binEnergies i
    let hi ← vecGet d.binEnergies (i + 1)
    let eff ← vecGet d.binEfficiencies i
    .ok (eff * (d.exposure * T.integrate (fun E => C.dRdE d E p) lo hi))) (List.range d.bins)

/-- `DM_Detector::DM_Signals_Binned`, `src/Direct_Detection.cpp:341-355`. -/
noncomputable def baseSignalsBinned (d : Detector) (p : DMParticle) : Outcome (List ℝ) :=
  if d.analysis ≠ .binnedPoisson then .exit
  else if d.usingEnergyBins then d.signalsEnergyBins T C p
  else .exit

/-! ## Maximum gap -/

/-- One term of the sum in `CDF_Maximum_Gap`, `src/Direct_Detection.cpp:259`. -/
noncomputable def gapTerm (x mu : ℝ) (k : ℕ) : Outcome ℝ := do
  let r ← fdiv k (mu - k * x)
  .ok ((k * x - mu) ^ k / (k.factorial : ℝ) * Real.exp (-k * x) * (1 + r))

/-- The loop of `CDF_Maximum_Gap`, `src/Direct_Detection.cpp:257-263`, with `n` rounds left, starting at index `k`. -/
noncomputable def gapLoop (x mu : ℝ) : ℕ → ℕ → ℝ → Outcome ℝ
  | 0, _, s => .ok s
  | n + 1, k, s => do
    let t ← gapTerm x mu k
    if |t| < 1 / 10 ^ 20 then .ok (s + t) else gapLoop x mu n (k + 1) (s + t)

/-- `CDF_Maximum_Gap`, `src/Direct_Detection.cpp:249-266`. The conversion of `mu / x` to `int` is undefined when the quotient is
not finite or its integer part does not fit. (`libphysica::Factorial` is taken as the factorial; its overflow behaviour is not
modelled.) -/
noncomputable def cdfMaximumGap (x mu : ℝ) : Outcome ℝ :=
  if x = mu then .ok (1 - Real.exp (-mu))
  else if x = 0 then .ub
  else if 2 ^ 31 ≤ mu / x ∨ mu / x ≤ -2 ^ 31 - 1 then .ub
  else if mu / x ≤ -1 then .ok 0
  else gapLoop x mu (⌊mu / x⌋₊ + 1) 0 0

/-- The expected signals between consecutive energies, `src/Direct_Detection.cpp:287-294`. `size() - 1` wraps for an empty list,
which makes the loop read out of bounds. -/
noncomputable def gapSizes (integral : ℝ → ℝ → ℝ) (data : List ℝ) : Outcome (List ℝ) :=
  match data with
  | [] => .ub
  | _ :: l => .ok (List.zipWith integral data l)

/-- `P_Value_Maximum_Gap`, `src/Direct_Detection.cpp:268-301`. -/
noncomputable def pValueMaximumGap (d : Detector) (p : DMParticle) : Outcome ℝ := do
  let Edep ← C.maximumEnergyDeposit p
  let energies := if Edep < d.energyMax then linearSpace d.energyThreshold Edep 400 ++ [d.energyMax]
    else linearSpace d.energyThreshold d.energyMax 400
  let values := energies.map fun E => d.exposure * C.dRdE d E p
  let gaps ← gapSizes (T.interpolationIntegral energies values) d.gapData
  let x ← maxElement gaps
  let c ← cdfMaximumGap x (gaps.foldl (· + ·) 0)
  .ok (1 - c)

/-! ## Likelihoods -/

/-- `libphysica::Log_Likelihood_Poisson(s, n, b)`; the logarithm of a non-positive expectation is not finite. -/
noncomputable def flogLikelihood (s : ℝ) (n : ℕ) (b : ℝ) : Outcome ℝ :=
  if s + b ≤ 0 then .nonfinite else .ok (logLikelihoodPoisson s n b)

/-- The background used when none is expected, `src/Direct_Detection.cpp:28,37`. -/
noncomputable def profiledBackground (s : ℝ) (n : ℕ) (b : ℝ) : ℝ :=
  if b < 1 / 10 ^ 4 ∧ s < n then n - s else b

/-- `Log_Likelihood`, `src/Direct_Detection.cpp:21-49`. `Log_Likelihood_Poisson_Binned` is the sum of the log-likelihoods of the
bins. -/
noncomputable def logLikelihood (d : Detector) (p : DMParticle) : Outcome ℝ :=
  match d.analysis with
  | .poisson => do
    let s ← C.signalsTotal d p
    flogLikelihood s d.observed (profiledBackground s d.observed d.background)
  | .binnedPoisson => do
    let ss ← C.signalsBinned d p
    let ls ← collect (fun i => do
      let s ← vecGet ss i
      let n ← vecGet d.binObserved i
      let b ← vecGet d.binBackground i
      flogLikelihood s n (profiledBackground s n b)) (List.range d.binBackground.length)
    .ok (ls.foldl (· + ·) 0)
  | .maximumGap => do
    let x ← d.pValueMaximumGap T C p
    if x ≤ 0 then .nonfinite else .ok (Real.log x)

/-- `Likelihood`, `src/Direct_Detection.cpp:51-54`. -/
noncomputable def likelihood (d : Detector) (p : DMParticle) : Outcome ℝ := do
  let l ← d.logLikelihood T C p
  .ok (Real.exp l)

/-- The inner loop of `Log_Likelihood_Scan`, `src/Direct_Detection.cpp:64-68`. -/
noncomputable def scanCouplings (d : Detector) (mass : ℝ) : List ℝ → DMParticle → Outcome (DMParticle × List (ℝ × ℝ × ℝ))
  | [], p => .ok (p, [])
  | c :: cs, p => do
    let p ← p.setInteractionParameter U c d.targets
    let l ← d.logLikelihood T C p
    let (p, rows) ← scanCouplings d mass cs p
    .ok (p, (mass, c, l) :: rows)

/-- The outer loop of `Log_Likelihood_Scan`, `src/Direct_Detection.cpp:61-69`. -/
noncomputable def scanMasses (d : Detector) (couplings : List ℝ) : List ℝ → DMParticle → Outcome (DMParticle × List (ℝ × ℝ × ℝ))
  | [], p => .ok (p, [])
  | m :: ms, p => do
    let p ← p.setMass U m
    let (p, rows) ← d.scanCouplings U T C m couplings p
    let (p, rest) ← scanMasses d couplings ms p
    .ok (p, rows ++ rest)

/-- `Log_Likelihood_Scan`, `src/Direct_Detection.cpp:56-73`: the particle afterwards and the rows. -/
noncomputable def logLikelihoodScan (d : Detector) (p : DMParticle) (masses couplings : List ℝ) :
    Outcome (DMParticle × List (ℝ × ℝ × ℝ)) := do
  let c0 ← p.getInteractionParameter U d.targets
  let (q, rows) ← d.scanMasses U T C couplings masses p
  let q ← q.setMass U p.mass
  let q ← q.setInteractionParameter U c0 d.targets
  .ok (q, rows)

/-! ## p-values and limits -/

/-- The factor by which the fiducial signals are rescaled, `src/Direct_Detection.cpp:83-89,100-105`. -/
noncomputable def rescaling (d : Detector) (p : DMParticle) : Outcome ℝ := do
  let c ← p.getInteractionParameter U d.targets
  let r ← fdiv c d.fiducialCoupling
  .ok (r ^ (if p.usingCrossSection then 1 else 2))

/-- `P_Value`, `src/Direct_Detection.cpp:75-128`. -/
noncomputable def pValue (d : Detector) (p : DMParticle) : Outcome ℝ :=
  match d.analysis with
  | .poisson => do
    let e ← if d.usingFiducial then do
        let k ← d.rescaling U p
        .ok (k * d.fiducialSignals)
      else C.signalsTotal d p
    .ok (cdfPoisson (e + d.background) d.observed)
  | .binnedPoisson => do
    let es ← if d.usingFiducial then do
        let _ ← p.getInteractionParameter U d.targets
        collect (fun s => do
          let k ← d.rescaling U p
          .ok (k * s)) d.fiducialSpectrum
      else C.signalsBinned d p
    let ps ← collect (fun i => do
      let e ← vecGet es i
      let b ← vecGet d.binBackground i
      let n ← vecGet d.binObserved i
      .ok (cdfPoisson (e + b) n)) (List.range d.bins)
    minElement ps
  | .maximumGap => d.pValueMaximumGap T C p

/-- The function whose root `Upper_Limit` looks for, `src/Direct_Detection.cpp:373-378`: it changes the particle. -/
noncomputable def limitFunction (d : Detector) (certainty : ℝ) (p : DMParticle) (l : ℝ) : Outcome (DMParticle × ℝ) := do
  let p' ← p.setInteractionParameter U ((10 : ℝ) ^ l) d.targets
  let x ← d.pValue U T C p'
  .ok (p', x - (1 - certainty))

/-- The value of `limitFunction` alone, as seen by `Find_Root`. A failing evaluation ends the program; `search` below accounts for
that. `src/Direct_Detection.cpp:373-383`. -/
noncomputable def limitValue (d : Detector) (certainty : ℝ) (p : DMParticle) (l : ℝ) : ℝ :=
  match d.limitFunction U T C certainty p l with
  | .ok (_, x) => x
  | _ => 0

/-- The particle after `Find_Root` has evaluated the function at the given points, one after the other. `src/Direct_Detection.cpp:373-383`. -/
noncomputable def search (d : Detector) (certainty : ℝ) : List ℝ → DMParticle → Outcome DMParticle
  | [], p => .ok p
  | l :: ls, p => do
    let (p', _) ← d.limitFunction U T C certainty p l
    search d certainty ls p'

/-- The detector during the search, `src/Direct_Detection.cpp:363-371`. -/
noncomputable def setFiducial (d : Detector) (c0 : ℝ) (p : DMParticle) : Outcome Detector :=
  match d.analysis with
  | .poisson => do
    let d := { d with usingFiducial := true, fiducialCoupling := c0 }
    let s ← C.signalsTotal d p
    .ok { d with fiducialSignals := s }
  | .binnedPoisson => do
    let d := { d with usingFiducial := true, fiducialCoupling := c0 }
    let ss ← C.signalsBinned d p
    .ok { d with fiducialSpectrum := ss }
  | .maximumGap => .ok d

/-- The detector after the search, `src/Direct_Detection.cpp:386-392`. -/
noncomputable def resetFiducial (d : Detector) : Detector :=
  match d.analysis with
  | .maximumGap => d
  | _ => { d with usingFiducial := false, fiducialCoupling := 0, fiducialSignals := 0, fiducialSpectrum := [] }

/-- `Upper_Limit`, `src/Direct_Detection.cpp:358-397`: detector and particle afterwards, and the returned value. The order in
which the two bracketing evaluations happen is not specified by C++; here the lower end comes first. -/
noncomputable def upperLimit (d : Detector) (p : DMParticle) (certainty : ℝ) : Outcome (Detector × DMParticle × ℝ) := do
  let c0 ← p.getInteractionParameter U d.targets
  let d ← d.setFiducial C c0 p
  let (p, fa) ← d.limitFunction U T C certainty p (-30)
  let (p, fb) ← d.limitFunction U T C certainty p 10
  let (p, result) ← if 0 < fa * fb then .ok (p, -1)
    else do
      let f := d.limitValue U T C certainty p
      let p ← d.search U T C certainty (T.searchPoints f (-30) 10) p
      .ok (p, (10 : ℝ) ^ T.findRoot f (-30) 10)
  let p ← p.setInteractionParameter U c0 d.targets
  .ok (d.resetFiducial, p, result)

/-- The loop of `Upper_Limit_Curve`, `src/Direct_Detection.cpp:405-413`. -/
noncomputable def curveLoop (certainty lowest : ℝ) : List ℝ → Detector → DMParticle → Outcome (Detector × DMParticle × List (ℝ × ℝ))
  | [], d, p => .ok (d, p, [])
  | m :: ms, d, p =>
    if m < lowest then curveLoop certainty lowest ms d p
    else do
      let p ← p.setMass U m
      let (d, p, x) ← d.upperLimit U T C p certainty
      let (d, p, rest) ← curveLoop certainty lowest ms d p
      .ok (d, p, if 0 < x then (m, x) :: rest else rest)

/-- `Upper_Limit_Curve`, `src/Direct_Detection.cpp:399-416`. -/
noncomputable def upperLimitCurve (d : Detector) (p : DMParticle) (masses : List ℝ) (certainty : ℝ) :
    Outcome (Detector × DMParticle × List (ℝ × ℝ)) := do
  let lowest ← C.minimumDMMass d p
  let (d, q, limits) ← curveLoop U T C certainty lowest masses d p
  let q ← q.setMass U p.mass
  .ok (d, q, limits)

end Detector

/-- The class `DM_Detector` itself, `include/obscura/Direct_Detection.hpp:71-77`, or a subclass that overrides only the functions
given. -/
noncomputable def DetectorClass.base (T : Tools) (maxDeposit : DMParticle → Outcome ℝ) (minMass : Detector → DMParticle → Outcome ℝ)
    (rate : Detector → ℝ → DMParticle → ℝ) : DetectorClass :=
  let C₀ : DetectorClass :=
    { maximumEnergyDeposit := maxDeposit, minimumDMMass := minMass, dRdE := rate,
      signalsTotal := fun _ _ => .exit, signalsBinned := fun _ _ => .exit }
  let C₁ : DetectorClass := { C₀ with signalsBinned := fun d p => d.baseSignalsBinned T C₀ p }
  { C₁ with signalsTotal := fun d p => d.baseSignalsTotal T C₁ p }

end Obscura
