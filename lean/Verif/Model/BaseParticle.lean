import Verif.Model.Kinematics
import Verif.Model.Nucleus
import Verif.Model.Libphysica
import Verif.Model.Particle

/-!
# The particle base class — model of `src/DM_Particle.cpp` and `include/obscura/DM_Particle.hpp:15-89`

`DM_Particle` is an open base class: a user derives a particle class and overrides the virtual functions they want. Here the
overriding functions are arbitrary; the functions of the base class are modelled on top of them. Random numbers are arguments.
-/

namespace Obscura

/-- A particle of some class derived from `DM_Particle` (`include/obscura/DM_Particle.hpp:15-89`): the members and the virtual functions the
functions below call. `param` is the additional last argument all of them pass on. -/
structure BaseParticle where
  mass : ℝ
  /-- `dSigma_dq2_Nucleus(q, target, vDM, param)`, line 62 -/
  dSigmadq2Nucleus : ℝ → Isotope → ℝ → ℝ → ℝ
  /-- `dSigma_dq2_Electron(q, vDM, param)`, line 67 -/
  dSigmadq2Electron : ℝ → ℝ → ℝ → ℝ
  /-- `Sigma_Total_Nucleus(target, vDM, param)`, line 77 -/
  sigmaTotalNucleus : Isotope → ℝ → ℝ → ℝ
  /-- `Sigma_Total_Electron(vDM, param)`, line 78 -/
  sigmaTotalElectron : ℝ → ℝ → ℝ

namespace BaseParticle

variable (U : Units) (I : Integrator) (R : RootFinder)

/-- `Sigma_Total_Nucleus_Base`, `src/DM_Particle.cpp:60-70`; also `DM_Particle::Sigma_Total_Nucleus`, 113-116. -/
noncomputable def sigmaTotalNucleusBase (p : BaseParticle) (target : Isotope) (v param : ℝ) : ℝ :=
  I (fun q2 => p.dSigmadq2Nucleus (Real.sqrt q2) target v param) 0 (4 * (reducedMass p.mass target.mass * v) ^ 2)

/-- `Sigma_Total_Electron_Base`, `src/DM_Particle.cpp:72-82`; also `DM_Particle::Sigma_Total_Electron`, 117-120. -/
noncomputable def sigmaTotalElectronBase (p : BaseParticle) (v param : ℝ) : ℝ :=
  I (fun q2 => p.dSigmadq2Electron (Real.sqrt q2) v param) 0 (4 * (reducedMass p.mass U.mElectron * v) ^ 2)

/-- A particle whose class overrides nothing but the two differential cross sections: `Sigma_Total_Nucleus` and `Sigma_Total_Electron` are
those of the base class, `src/DM_Particle.cpp:113-120`. -/
noncomputable def derived (mass : ℝ) (dN : ℝ → Isotope → ℝ → ℝ → ℝ) (dE : ℝ → ℝ → ℝ → ℝ) : BaseParticle where
  mass := mass
  dSigmadq2Nucleus := dN
  dSigmadq2Electron := dE
  sigmaTotalNucleus := sigmaTotalNucleusBase I ⟨mass, dN, dE, fun _ _ _ => 0, fun _ _ => 0⟩
  sigmaTotalElectron := sigmaTotalElectronBase U I ⟨mass, dN, dE, fun _ _ _ => 0, fun _ _ => 0⟩

/-- `DM_Particle(m, s)` itself, `src/DM_Particle.cpp:21-24`: the differential cross sections are those of
`include/obscura/DM_Particle.hpp:62,67`. -/
noncomputable def plain (mass : ℝ) : BaseParticle := derived U I mass (fun _ _ _ _ => 0) (fun _ _ _ => 0)

/-- `dSigma_dER_Nucleus`, `src/DM_Particle.cpp:100-104`. -/
noncomputable def dSigmadERNucleus (p : BaseParticle) (ER : ℝ) (target : Isotope) (v param : ℝ) : ℝ :=
  2 * target.mass * p.dSigmadq2Nucleus (Real.sqrt (2 * target.mass * ER)) target v param

/-- `PDF_Scattering_Angle_Nucleus_Base`, `src/DM_Particle.cpp:128-137`; also `PDF_Scattering_Angle_Nucleus`, 198-201. -/
noncomputable def pdfAngleNucleus (p : BaseParticle) (c : ℝ) (target : Isotope) (v param : ℝ) : ℝ :=
  let q := reducedMass target.mass p.mass * v * Real.sqrt (2 * (1 - c))
  let q2max := 4 * reducedMass target.mass p.mass * reducedMass target.mass p.mass * v * v
  let s := p.sigmaTotalNucleus target v param
  if s ≠ 0 then q2max / 2 / s * p.dSigmadq2Nucleus q target v param else 0

/-- `PDF_Scattering_Angle_Electron_Base`, `src/DM_Particle.cpp:139-148`; also `PDF_Scattering_Angle_Electron`, 203-206. -/
noncomputable def pdfAngleElectron (p : BaseParticle) (c v param : ℝ) : ℝ :=
  let q := reducedMass U.mElectron p.mass * v * Real.sqrt (2 * (1 - c))
  let q2max := 4 * reducedMass U.mElectron p.mass * reducedMass U.mElectron p.mass * v * v
  let s := p.sigmaTotalElectron v param
  if s ≠ 0 then q2max / 2 / s * p.dSigmadq2Electron q v param else 0

/-- `CDF_Scattering_Angle_Nucleus_Base`, `src/DM_Particle.cpp:150-162`; also `CDF_Scattering_Angle_Nucleus`, 208-211. -/
noncomputable def cdfAngleNucleus (p : BaseParticle) (c : ℝ) (target : Isotope) (v param : ℝ) : ℝ :=
  if c ≤ -1 then 0
  else if 1 ≤ c then 1
  else I (fun x => p.pdfAngleNucleus x target v param) (-1) c

/-- `CDF_Scattering_Angle_Electron_Base`, `src/DM_Particle.cpp:164-176`; also `CDF_Scattering_Angle_Electron`, 213-216. -/
noncomputable def cdfAngleElectron (p : BaseParticle) (c v param : ℝ) : ℝ :=
  if c ≤ -1 then 0
  else if 1 ≤ c then 1
  else I (fun x => p.pdfAngleElectron U x v param) (-1) c

/-- `Sample_Scattering_Angle_Nucleus_Base`, `src/DM_Particle.cpp:178-186`; also `Sample_Scattering_Angle_Nucleus`, 218-221, for a class that
does not override the CDF. -/
noncomputable def sampleAngleNucleus (p : BaseParticle) (xi : ℝ) (target : Isotope) (v param : ℝ) : ℝ :=
  R (fun c => xi - p.cdfAngleNucleus I c target v param) (-1) 1

/-- `Sample_Scattering_Angle_Electron_Base`, `src/DM_Particle.cpp:188-196`; also `Sample_Scattering_Angle_Electron`, 223-226, for a class that
does not override the CDF. -/
noncomputable def sampleAngleElectron (p : BaseParticle) (xi v param : ℝ) : ℝ :=
  R (fun c => xi - p.cdfAngleElectron U I c v param) (-1) 1

end BaseParticle

/-! ## `DM_Particle::Set_Mass` for any derived class -/

/-- What `DM_Particle::Set_Mass` needs of a derived class with objects of type `σ`: the member `mass` and the virtual accessors of the reference
cross sections (`include/obscura/DM_Particle.hpp:57-59,72-74`). -/
structure CrossSectionClass (σ : Type) where
  mass : σ → ℝ
  assignMass : σ → ℝ → σ
  sigmaProton : σ → ℝ
  sigmaNeutron : σ → ℝ
  sigmaElectron : σ → ℝ
  setSigmaProton : σ → ℝ → σ
  setSigmaNeutron : σ → ℝ → σ
  setSigmaElectron : σ → ℝ → σ

/-- `DM_Particle::Set_Mass`, `src/DM_Particle.cpp:26-38`. -/
def CrossSectionClass.setMass {σ : Type} (C : CrossSectionClass σ) (p : σ) (m : ℝ) : σ :=
  let sp := C.sigmaProton p
  let sn := C.sigmaNeutron p
  let se := C.sigmaElectron p
  let p := C.assignMass p m
  let p := C.setSigmaProton p sp
  let p := C.setSigmaNeutron p sn
  C.setSigmaElectron p se

end Obscura
