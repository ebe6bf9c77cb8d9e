import Verif.Model.Nucleus

/-!
# DM particles — model of `src/DM_Particle.cpp` and `src/DM_Particle_Standard.cpp`

The classes `DM_Particle`, `DM_Particle_Standard`, `DM_Particle_SI`, `DM_Particle_SD` are one record with a
field saying which of the two concrete classes the object belongs to.
The unused argument `param` is dropped.
-/

namespace Obscura

/-- The values of `FF_DM`, `src/DM_Particle_Standard.cpp:257`. -/
inductive FormFactor where
  | contact
  | electricDipole
  | longRange
  | general
deriving DecidableEq

/-- The concrete class of the particle: the members of `DM_Particle_SI`
(`include/obscura/DM_Particle_Standard.hpp:72-75`), or `DM_Particle_SD` (no members). -/
inductive Interaction where
  | SI (ff : FormFactor) (qRef mMediator : ℝ)
  | SD

/-- Members of `DM_Particle` (`include/obscura/DM_Particle.hpp:18,36-37`) and `DM_Particle_Standard`
(`include/obscura/DM_Particle_Standard.hpp:18-29`). `Interaction_Parameter_Is_Cross_Section` (`src/DM_Particle.cpp:55-58`) is the
projection `usingCrossSection`. -/
structure DMParticle where
  mass : ℝ
  spin : ℝ
  fractionalDensity : ℝ
  lowMass : Bool
  usingCrossSection : Bool
  useEtaFunction : Bool
  fp : ℝ
  fn : ℝ
  prefactor : ℝ
  fixedRelation : Bool
  fpRel : ℝ
  fnRel : ℝ
  sigmaElectronRef : ℝ
  interaction : Interaction

namespace DMParticle

variable (U : Units)

/-! ## Reference cross sections -/

/-- `Sigma_Proton`, `src/DM_Particle_Standard.cpp:199-202`. -/
noncomputable def sigmaProton (p : DMParticle) : ℝ :=
  p.prefactor * p.fp * p.fp * reducedMass p.mass U.mProton * reducedMass p.mass U.mProton / Real.pi

/-- `Sigma_Neutron`, `src/DM_Particle_Standard.cpp:204-207` (the code uses the proton mass here too). -/
noncomputable def sigmaNeutron (p : DMParticle) : ℝ :=
  p.prefactor * p.fn * p.fn * reducedMass p.mass U.mProton * reducedMass p.mass U.mProton / Real.pi

/-- `Sigma_Electron`, `src/DM_Particle_Standard.cpp:209-212`. -/
def sigmaElectron (p : DMParticle) : ℝ := p.sigmaElectronRef

/-- The expression `sqrt(M_PI * sigma / prefactor) / Reduced_Mass(mass, mProton)`,
`src/DM_Particle_Standard.cpp:57,73`. -/
noncomputable def couplingOf (p : DMParticle) (sigma : ℝ) : Outcome ℝ := do
  let x ← fdiv (Real.pi * sigma) p.prefactor
  let r ← fsqrt x
  fdiv r (reducedMass p.mass U.mProton)

/-- `Set_Sigma_Proton`, `src/DM_Particle_Standard.cpp:55-69`. (The value assigned on line 57 is overwritten on
line 64 when the relative coupling is zero.) -/
noncomputable def setSigmaProton (p : DMParticle) (sigma : ℝ) : Outcome DMParticle :=
  if p.fixedRelation then
    if p.fpRel = 0 then .ok { p with fp := 0 }
    else do
      let fp ← p.couplingOf U sigma
      let r ← fdiv p.fnRel p.fpRel
      .ok { p with fp := fp, fn := r * fp }
  else do
    let fp ← p.couplingOf U sigma
    .ok { p with fp := fp }

/-- `Set_Sigma_Neutron`, `src/DM_Particle_Standard.cpp:71-85`. -/
noncomputable def setSigmaNeutron (p : DMParticle) (sigma : ℝ) : Outcome DMParticle :=
  if p.fixedRelation then
    if p.fnRel = 0 then .ok { p with fn := 0 }
    else do
      let fn ← p.couplingOf U sigma
      let r ← fdiv p.fpRel p.fnRel
      .ok { p with fn := fn, fp := r * fn }
  else do
    let fn ← p.couplingOf U sigma
    .ok { p with fn := fn }

/-- `Set_Sigma_Electron`, `src/DM_Particle_Standard.cpp:87-90`. -/
def setSigmaElectron (p : DMParticle) (sigma : ℝ) : DMParticle := { p with sigmaElectronRef := sigma }

/-- `DM_Particle_Standard::Set_Mass`, `src/DM_Particle_Standard.cpp:28-53`. -/
noncomputable def setMass (p : DMParticle) (m : ℝ) : Outcome DMParticle :=
  if p.fixedRelation then
    if p.fpRel ≠ 0 then setSigmaProton U { p with mass := m } (p.sigmaProton U)
    else setSigmaNeutron U { p with mass := m } (p.sigmaNeutron U)
  else do
    let p' ← setSigmaProton U { p with mass := m } (p.sigmaProton U)
    setSigmaNeutron U p' (p.sigmaNeutron U)

/-- `Get_Interaction_Parameter`, `src/DM_Particle_Standard.cpp:93-109`. -/
noncomputable def getInteractionParameter (p : DMParticle) (target : String) : Outcome ℝ :=
  if target = "Nuclei" then
    if 0 < p.fpRel then .ok (p.sigmaProton U) else .ok (p.sigmaNeutron U)
  else if target = "Electrons" then .ok p.sigmaElectron
  else .exit

/-- `Set_Interaction_Parameter`, `src/DM_Particle_Standard.cpp:111-127`. -/
noncomputable def setInteractionParameter (p : DMParticle) (par : ℝ) (target : String) :
    Outcome DMParticle :=
  if target = "Nuclei" then
    if 0 < p.fpRel then p.setSigmaProton U par else p.setSigmaNeutron U par
  else if target = "Electrons" then .ok (p.setSigmaElectron par)
  else .exit

/-- `Fix_Coupling_Ratio`, `src/DM_Particle_Standard.cpp:129-155`. Line 149 multiplies by `fp` (not `fn`), as
in the source. -/
noncomputable def fixCouplingRatio (p : DMParticle) (fpRel fnRel : ℝ) : Outcome DMParticle := do
  let a ← fdiv fpRel (fpRel + fnRel)
  let b ← fdiv fnRel (fpRel + fnRel)
  let p := { p with fixedRelation := true, fpRel := a, fnRel := b }
  if fpRel = 0 then .ok { p with fn := p.fp, fp := 0 }
  else if fnRel = 0 then .ok { p with fp := p.fn, fn := 0 }
  else if p.fp ≠ 0 then do
    let r ← fdiv b a
    .ok { p with fn := r * p.fp }
  else if p.fn ≠ 0 then do
    let r ← fdiv a b
    .ok { p with fp := r * p.fp }
  else .exit

/-- `Fix_fn_over_fp`, `src/DM_Particle_Standard.cpp:157-172`. -/
noncomputable def fixFnOverFp (p : DMParticle) (ratio : ℝ) : Outcome DMParticle := do
  let a ← fdiv 1 (1 + ratio)
  let b ← fdiv ratio (1 + ratio)
  let p := { p with fixedRelation := true, fpRel := a, fnRel := b }
  if p.fp ≠ 0 then do
    let r ← fdiv b a
    .ok { p with fn := r * p.fp }
  else if p.fn ≠ 0 then do
    let r ← fdiv a b
    .ok { p with fp := r * p.fp }
  else .exit

/-- `Fix_fp_over_fn`, `src/DM_Particle_Standard.cpp:174-191`. -/
noncomputable def fixFpOverFn (p : DMParticle) (ratio : ℝ) : Outcome DMParticle :=
  let p := { p with fixedRelation := true, fpRel := ratio, fnRel := 1 }
  if ratio = 0 then .ok { p with fp := 0 }
  else if p.fp ≠ 0 then do
    let r ← fdiv 1 ratio
    .ok { p with fn := r * p.fp }
  else if p.fn ≠ 0 then do
    let r ← fdiv ratio 1
    .ok { p with fp := r * p.fp }
  else .exit

/-- `Unfix_Coupling_Ratios`, `src/DM_Particle_Standard.cpp:193-196`. -/
def unfixCouplingRatios (p : DMParticle) : DMParticle := { p with fixedRelation := false }

/-- `DM_Particle::Set_Spin`, `src/DM_Particle.cpp:40-43`. -/
def setSpin (p : DMParticle) (s : ℝ) : DMParticle := { p with spin := s }
/-- `DM_Particle::Set_Low_Mass_Mode`, `src/DM_Particle.cpp:45-48`. -/
def setLowMassMode (p : DMParticle) (b : Bool) : DMParticle := { p with lowMass := b }
/-- `DM_Particle::Set_Fractional_Density`, `src/DM_Particle.cpp:50-53`. -/
def setFractionalDensity (p : DMParticle) (f : ℝ) : DMParticle := { p with fractionalDensity := f }

/-- The names recognised by `Set_FormFactor_DM`, `src/DM_Particle_Standard.cpp:257`. -/
def formFactorOfName (s : String) : Option FormFactor :=
  if s = "Contact" then some .contact
  else if s = "Electric-Dipole" then some .electricDipole
  else if s = "Long-Range" then some .longRange
  else if s = "General" then some .general
  else none

/-- `DM_Particle_SI::Set_FormFactor_DM`, `src/DM_Particle_Standard.cpp:255-266`. The class `DM_Particle_SD` has no
such member (such a program does not compile); the model returns `exit` there. -/
noncomputable def setFormFactorDM (p : DMParticle) (ff : String) (mMed : ℝ) : Outcome DMParticle :=
  match p.interaction with
  | .SD => .exit
  | .SI _ qRef mOld =>
    match formFactorOfName ff with
    | none => .exit
    | some f => .ok { p with interaction := .SI f qRef (if f = .general ∧ 0 < mMed then mMed else mOld) }

/-- `DM_Particle_SI::Set_Mediator_Mass`, `src/DM_Particle_Standard.cpp:268-271` (not a member of the SD class). -/
noncomputable def setMediatorMass (p : DMParticle) (m : ℝ) : Outcome DMParticle :=
  match p.interaction with
  | .SD => .exit
  | .SI f qRef _ => .ok { p with interaction := .SI f qRef m }

/-! ## Constructors -/

/-- The members set by `DM_Particle(m, 1/2)` (`src/DM_Particle.cpp:21-24`) followed by
`DM_Particle_Standard(mDM, pre)` (`src/DM_Particle_Standard.cpp:21-26`; without arguments, 14-19, the mass is 10 GeV). `fp` and `fn` are not initialised there;
the constructors of the concrete classes set both through `Set_Sigma_Proton` before anything reads them, so their
value here (0) is immaterial. -/
noncomputable def standard (m pre : ℝ) (i : Interaction) : DMParticle :=
  { mass := m, spin := 1 / 2, fractionalDensity := 1, lowMass := false, usingCrossSection := true,
    useEtaFunction := true, fp := 0, fn := 0, prefactor := pre, fixedRelation := true,
    fpRel := 1 / 2, fnRel := 1 / 2, sigmaElectronRef := 1 / 10 ^ 40 * U.cm * U.cm, interaction := i }

/-- `DM_Particle_SI(mDM, sigmaP)`, `src/DM_Particle_Standard.cpp:248-253`. -/
noncomputable def makeSI (m sigmaP : ℝ) : Outcome DMParticle :=
  setSigmaProton U (standard U m 1 (.SI .contact (U.aEM * U.mElectron) 0)) sigmaP

/-- `DM_Particle_SI(mDM)`, `src/DM_Particle_Standard.cpp:241-246`; `DM_Particle_SI()` (234-239) is the case
`mDM = 10 GeV` (`src/DM_Particle.cpp:17`). -/
noncomputable def makeSI1 (m : ℝ) : Outcome DMParticle := makeSI U m (1 / 10 ^ 40 * U.cm * U.cm)

/-- `DM_Particle_SD(mDM, sigmaP)`, `src/DM_Particle_Standard.cpp:515-519`. -/
noncomputable def makeSD (m sigmaP : ℝ) : Outcome DMParticle :=
  setSigmaProton U (standard U m 3 .SD) sigmaP

/-- `DM_Particle_SD(mDM)`, `src/DM_Particle_Standard.cpp:509-513`; `DM_Particle_SD()` (503-507) is the case
`mDM = 10 GeV`. -/
noncomputable def makeSD1 (m : ℝ) : Outcome DMParticle := makeSD U m (1 / 10 ^ 40 * U.cm * U.cm)

/-! ## Differential cross sections -/

/-- `DM_Particle_SI::FormFactor2_DM`, `src/DM_Particle_Standard.cpp:274-291`. -/
noncomputable def formFactor2 (ff : FormFactor) (qRef mMed q : ℝ) : ℝ :=
  let F := match ff with
    | .contact => 1
    | .general => (qRef * qRef + mMed * mMed) / (q * q + mMed * mMed)
    | .longRange => qRef * qRef / q / q
    | .electricDipole => qRef / q
  F * F

/-- `dSigma_dq2_Nucleus`: SI `src/DM_Particle_Standard.cpp:294-298`, SD `src/DM_Particle_Standard.cpp:522-525`. -/
noncomputable def dSigmadq2Nucleus (p : DMParticle) (q : ℝ) (iso : Isotope) (v : ℝ) : ℝ :=
  match p.interaction with
  | .SI ff qRef mMed =>
    let nff := if p.lowMass then 1 else iso.helmFormFactor U q
    1 / 4 / Real.pi / v / v * (p.fp * iso.Z + p.fn * iso.neutrons) ^ 2 * formFactor2 ff qRef mMed q * nff * nff
  | .SD =>
    if iso.spin = 0 then 0
    else 1 / Real.pi / v / v * (iso.spin + 1) / iso.spin * (p.fp * iso.sp + p.fn * iso.sn) ^ 2

/-- `dSigma_dq2_Electron`: SI `src/DM_Particle_Standard.cpp:300-303`, SD `src/DM_Particle_Standard.cpp:527-530`. -/
noncomputable def dSigmadq2Electron (p : DMParticle) (q v : ℝ) : ℝ :=
  match p.interaction with
  | .SI ff qRef mMed =>
    p.sigmaElectronRef / (2 * reducedMass p.mass U.mElectron * v) ^ 2 * formFactor2 ff qRef mMed q
  | .SD => p.sigmaElectronRef / (2 * reducedMass p.mass U.mElectron * v) ^ 2

/-- `DM_Particle::dSigma_dER_Nucleus`, `src/DM_Particle.cpp:100-104`. -/
noncomputable def dSigmadERNucleus (p : DMParticle) (ER : ℝ) (iso : Isotope) (v : ℝ) : ℝ :=
  2 * iso.mass * p.dSigmadq2Nucleus U (Real.sqrt (2 * iso.mass * ER)) iso v

/-! ## Total cross sections -/

/-- `DM_Particle::Sigma_Total_Nucleus_Base`, `src/DM_Particle.cpp:60-70`. -/
noncomputable def sigmaTotalNucleusBase (I : Integrator) (p : DMParticle) (iso : Isotope) (v : ℝ) : ℝ :=
  I (fun q2 => p.dSigmadq2Nucleus U (Real.sqrt q2) iso v) 0 (4 * (reducedMass p.mass iso.mass * v) ^ 2)

/-- `DM_Particle::Sigma_Total_Electron_Base`, `src/DM_Particle.cpp:72-82` (overridden by both concrete classes). -/
noncomputable def sigmaTotalElectronBase (I : Integrator) (p : DMParticle) (v : ℝ) : ℝ :=
  I (fun q2 => p.dSigmadq2Electron U (Real.sqrt q2) v) 0 (4 * (reducedMass p.mass U.mElectron * v) ^ 2)

/-- `Is_Sigma_Total_V_Dependent`: SI `src/DM_Particle_Standard.cpp:317-323`, SD 533-536. -/
def isSigmaTotalVDependent (p : DMParticle) : Bool :=
  match p.interaction with
  | .SI ff _ _ => !p.lowMass || decide (ff = .general)
  | .SD => false

/-- The factor multiplying the contact cross section for a massive mediator,
`src/DM_Particle_Standard.cpp:340-341,360-361`; `mMediator = 0` divides by zero. -/
noncomputable def generalFactor (qRef mMed q2max : ℝ) : Outcome ℝ := do
  let a ← fdiv ((qRef * qRef + mMed * mMed) ^ 2) mMed
  let b ← fdiv a mMed
  fdiv b (mMed * mMed + q2max)

/-- `Sigma_Total_Nucleus`: SI `src/DM_Particle_Standard.cpp:325-345`, SD 538-541. -/
noncomputable def sigmaTotalNucleus (I : Integrator) (p : DMParticle) (iso : Isotope) (v : ℝ) : Outcome ℝ :=
  match p.interaction with
  | .SI ff qRef mMed =>
    if ff ≠ .contact ∧ ff ≠ .general then .exit
    else if !p.lowMass then .ok (p.sigmaTotalNucleusBase U I iso v)
    else
      let s := reducedMass p.mass iso.mass ^ 2 / Real.pi * (p.fp * iso.Z + p.fn * iso.neutrons) ^ 2
      if ff = .general then do
        let g ← generalFactor qRef mMed (4 * (reducedMass p.mass iso.mass * v) ^ 2)
        .ok (s * g)
      else .ok s
  | .SD =>
    if iso.spin ≠ 0 then
      .ok (4 * reducedMass p.mass iso.mass ^ 2 / Real.pi * (iso.spin + 1) / iso.spin
        * (p.fp * iso.sp + p.fn * iso.sn) ^ 2)
    else .ok 0

/-- `Sigma_Total_Electron`: SI `src/DM_Particle_Standard.cpp:347-365`, SD 543-546. -/
noncomputable def sigmaTotalElectron (p : DMParticle) (v : ℝ) : Outcome ℝ :=
  match p.interaction with
  | .SI ff qRef mMed =>
    if ff ≠ .contact ∧ ff ≠ .general then .exit
    else
      if ff = .general then do
        let g ← generalFactor qRef mMed (4 * (reducedMass p.mass U.mElectron * v) ^ 2)
        .ok (p.sigmaElectron * g)
      else .ok p.sigmaElectron
  | .SD => .ok p.sigmaElectron

/-! ## Histories -/

/-- The public mutating calls of `DM_Particle_SI` / `DM_Particle_SD`.
`include/obscura/DM_Particle.hpp:43-46`, `include/obscura/DM_Particle_Standard.hpp:37-45,83-84`. -/
inductive Op where
  | setMass (m : ℝ)
  | setSpin (s : ℝ)
  | setLowMassMode (b : Bool)
  | setFractionalDensity (f : ℝ)
  | setSigmaProton (s : ℝ)
  | setSigmaNeutron (s : ℝ)
  | setSigmaElectron (s : ℝ)
  | setInteractionParameter (par : ℝ) (target : String)
  | fixCouplingRatio (a b : ℝ)
  | fixFnOverFp (r : ℝ)
  | fixFpOverFn (r : ℝ)
  | unfixCouplingRatios
  | setFormFactorDM (ff : String) (mMed : ℝ)
  | setMediatorMass (m : ℝ)

/-- One call. `include/obscura/DM_Particle_Standard.hpp:37-84`. -/
noncomputable def step (p : DMParticle) : Op → Outcome DMParticle
  | .setMass m => p.setMass U m
  | .setSpin s => .ok (p.setSpin s)
  | .setLowMassMode b => .ok (p.setLowMassMode b)
  | .setFractionalDensity f => .ok (p.setFractionalDensity f)
  | .setSigmaProton s => p.setSigmaProton U s
  | .setSigmaNeutron s => p.setSigmaNeutron U s
  | .setSigmaElectron s => .ok (p.setSigmaElectron s)
  | .setInteractionParameter x t => p.setInteractionParameter U x t
  | .fixCouplingRatio a b => p.fixCouplingRatio a b
  | .fixFnOverFp r => p.fixFnOverFp r
  | .fixFpOverFn r => p.fixFpOverFn r
  | .unfixCouplingRatios => .ok p.unfixCouplingRatios
  | .setFormFactorDM ff m => p.setFormFactorDM ff m
  | .setMediatorMass m => p.setMediatorMass m

/-- A sequence of calls. `include/obscura/DM_Particle_Standard.hpp:37-84`. -/
noncomputable def run (p : DMParticle) : List Op → Outcome DMParticle
  | [] => .ok p
  | op :: ops => do
    let p' ← p.step U op
    run p' ops

end DMParticle
end Obscura
