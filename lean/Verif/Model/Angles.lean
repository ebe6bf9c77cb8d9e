import Verif.Model.Particle

/-!
# Scattering angles — model of `src/DM_Particle.cpp:127-226` and `src/DM_Particle_Standard.cpp:367-479,548-587`

The random number `xi` drawn by `libphysica::Sample_Uniform(PRNG, 0.0, 1.0)` is an argument of the sampling functions.
-/

namespace Obscura
namespace DMParticle

variable (U : Units)

/-- `4.0 * pow(Reduced_Mass(mass, mT) * vDM, 2.0)`, the local variable `q2max` of the functions below.
`src/DM_Particle_Standard.cpp:382,399,418,435,458,476`. -/
noncomputable def q2max (p : DMParticle) (mT v : ℝ) : ℝ := 4 * (reducedMass p.mass mT * v) ^ 2

/-- The value computed by `PDF_Scattering_Angle_Nucleus_Base` once `SigmaTot` is known,
`src/DM_Particle.cpp:130-137`. -/
noncomputable def pdfAngleNucleusBaseVal (p : DMParticle) (sigmaTot c : ℝ) (iso : Isotope) (v : ℝ) : ℝ :=
  let q := reducedMass iso.mass p.mass * v * Real.sqrt (2 * (1 - c))
  let q2max := 4 * reducedMass iso.mass p.mass * reducedMass iso.mass p.mass * v * v
  if sigmaTot ≠ 0 then q2max / 2 / sigmaTot * p.dSigmadq2Nucleus U q iso v else 0

/-- `PDF_Scattering_Angle_Nucleus_Base`, `src/DM_Particle.cpp:128-137`. -/
noncomputable def pdfAngleNucleusBase (I : Integrator) (p : DMParticle) (c : ℝ) (iso : Isotope) (v : ℝ) :
    Outcome ℝ := do
  let s ← p.sigmaTotalNucleus U I iso v
  .ok (p.pdfAngleNucleusBaseVal U s c iso v)

/-- `CDF_Scattering_Angle_Nucleus_Base`, `src/DM_Particle.cpp:150-162`. The total cross section, which the C++ code
recomputes for each evaluation of the integrand, is computed once here (it does not depend on the angle). -/
noncomputable def cdfAngleNucleusBase (I : Integrator) (p : DMParticle) (c : ℝ) (iso : Isotope) (v : ℝ) :
    Outcome ℝ :=
  if c ≤ -1 then .ok 0
  else if 1 ≤ c then .ok 1
  else do
    let s ← p.sigmaTotalNucleus U I iso v
    .ok (I (fun x => p.pdfAngleNucleusBaseVal U s x iso v) (-1) c)

/-- The value computed by `CDF_Scattering_Angle_Nucleus_Base` once `SigmaTot` is known, `src/DM_Particle.cpp:152-161`. -/
noncomputable def cdfAngleNucleusBaseVal (I : Integrator) (p : DMParticle) (sigmaTot c : ℝ) (iso : Isotope) (v : ℝ) : ℝ :=
  if c ≤ -1 then 0 else if 1 ≤ c then 1
  else I (fun x => p.pdfAngleNucleusBaseVal U sigmaTot x iso v) (-1) c

/-- `Sample_Scattering_Angle_Nucleus_Base`, `src/DM_Particle.cpp:178-186`: the root of `xi - CDF` in `[-1, 1]`. -/
noncomputable def sampleAngleNucleusBase (I : Integrator) (R : RootFinder) (p : DMParticle) (xi : ℝ) (iso : Isotope)
    (v : ℝ) : Outcome ℝ := do
  let s ← p.sigmaTotalNucleus U I iso v
  .ok (R (fun c => xi - p.cdfAngleNucleusBaseVal U I s c iso v) (-1) 1)

/-- The closed-form PDF for a massive mediator, `src/DM_Particle_Standard.cpp:381-383,398-400`. The divisor vanishes
only at `mMediator = 0`, `cos_alpha = 1`. -/
noncomputable def pdfAngleGeneral (mMed q2max c : ℝ) : Outcome ℝ :=
  fdiv (2 * (mMed * mMed) * (mMed * mMed + q2max)) ((2 * (mMed * mMed) + q2max * (1 - c)) ^ 2)

/-- The closed-form CDF for a massive mediator, `src/DM_Particle_Standard.cpp:417-419,434-436`. -/
noncomputable def cdfAngleGeneral (mMed q2max c : ℝ) : Outcome ℝ :=
  fdiv ((1 + c) * (mMed * mMed)) (2 * (mMed * mMed) + q2max * (1 - c))

/-- The closed-form sample for a massive mediator, `src/DM_Particle_Standard.cpp:457-459,475-477`. -/
noncomputable def sampleAngleGeneral (mMed q2max xi : ℝ) : Outcome ℝ :=
  fdiv (mMed * mMed * (2 * xi - 1) + q2max * xi) (mMed * mMed + q2max * xi)

/-- `PDF_Scattering_Angle_Nucleus`: SI `src/DM_Particle_Standard.cpp:368-385`, SD 549-555. -/
noncomputable def pdfAngleNucleus (I : Integrator) (p : DMParticle) (c : ℝ) (iso : Isotope) (v : ℝ) : Outcome ℝ :=
  match p.interaction with
  | .SI ff _ mMed =>
    if ff ≠ .contact ∧ ff ≠ .general then .exit
    else if !p.lowMass then p.pdfAngleNucleusBase U I c iso v
    else if ff = .contact then .ok (1 / 2)
    else pdfAngleGeneral mMed (p.q2max iso.mass v) c
  | .SD => if !p.lowMass then p.pdfAngleNucleusBase U I c iso v else .ok (1 / 2)

/-- `PDF_Scattering_Angle_Electron`: SI `src/DM_Particle_Standard.cpp:387-402`, SD 557-560. -/
noncomputable def pdfAngleElectron (p : DMParticle) (c v : ℝ) : Outcome ℝ :=
  match p.interaction with
  | .SI ff _ mMed =>
    if ff ≠ .contact ∧ ff ≠ .general then .exit
    else if ff = .contact then .ok (1 / 2)
    else pdfAngleGeneral mMed (p.q2max U.mElectron v) c
  | .SD => .ok (1 / 2)

/-- `CDF_Scattering_Angle_Nucleus`: SI `src/DM_Particle_Standard.cpp:404-421`, SD 562-568. -/
noncomputable def cdfAngleNucleus (I : Integrator) (p : DMParticle) (c : ℝ) (iso : Isotope) (v : ℝ) : Outcome ℝ :=
  match p.interaction with
  | .SI ff _ mMed =>
    if ff ≠ .contact ∧ ff ≠ .general then .exit
    else if !p.lowMass then p.cdfAngleNucleusBase U I c iso v
    else if ff = .contact then .ok ((1 + c) / 2)
    else cdfAngleGeneral mMed (p.q2max iso.mass v) c
  | .SD => if !p.lowMass then p.cdfAngleNucleusBase U I c iso v else .ok ((1 + c) / 2)

/-- `CDF_Scattering_Angle_Electron`: SI `src/DM_Particle_Standard.cpp:423-438`, SD 569-572. -/
noncomputable def cdfAngleElectron (p : DMParticle) (c v : ℝ) : Outcome ℝ :=
  match p.interaction with
  | .SI ff _ mMed =>
    if ff ≠ .contact ∧ ff ≠ .general then .exit
    else if ff = .contact then .ok ((1 + c) / 2)
    else cdfAngleGeneral mMed (p.q2max U.mElectron v) c
  | .SD => .ok ((1 + c) / 2)

/-- `Sample_Scattering_Angle_Nucleus`: SI `src/DM_Particle_Standard.cpp:440-461`, SD 573-582. -/
noncomputable def sampleAngleNucleus (I : Integrator) (R : RootFinder) (p : DMParticle) (xi : ℝ) (iso : Isotope)
    (v : ℝ) : Outcome ℝ :=
  match p.interaction with
  | .SI ff _ mMed =>
    if ff ≠ .contact ∧ ff ≠ .general then .exit
    else if !p.lowMass then p.sampleAngleNucleusBase U I R xi iso v
    else if ff = .contact then .ok (2 * xi - 1)
    else sampleAngleGeneral mMed (p.q2max iso.mass v) xi
  | .SD => if !p.lowMass then p.sampleAngleNucleusBase U I R xi iso v else .ok (2 * xi - 1)

/-- `Sample_Scattering_Angle_Electron`: SI `src/DM_Particle_Standard.cpp:463-479`, SD 583-587. -/
noncomputable def sampleAngleElectron (p : DMParticle) (xi v : ℝ) : Outcome ℝ :=
  match p.interaction with
  | .SI ff _ mMed =>
    if ff ≠ .contact ∧ ff ≠ .general then .exit
    else if ff = .contact then .ok (2 * xi - 1)
    else sampleAngleGeneral mMed (p.q2max U.mElectron v) xi
  | .SD => .ok (2 * xi - 1)

end DMParticle
end Obscura
