import Verif.Model.Configuration

/-!
# Quantities in another unit of energy

In natural units every quantity is a power of an energy. If energies are measured in a unit that is smaller by a factor `k`, the number
that stands for a quantity of dimension (energy)ⁿ is multiplied by `kⁿ`: energies, masses and momenta by `k`, lengths and times by
`1/k`, cross sections and couplings by `1/k²`, mass densities by `k⁴`; speeds, angles, exposures (mass × time) and numbers stay.
-/

namespace Obscura

/-- The constants in the other unit. -/
noncomputable def Units.inUnit (U : Units) (k : ℝ) (hk : 0 < k) : Units where
  mProton := k * U.mProton
  mElectron := k * U.mElectron
  mNucleon := k * U.mNucleon
  aEM := U.aEM
  cm := U.cm / k
  sec := U.sec / k
  eV := k * U.eV
  fm := U.fm / k
  mProton_pos := mul_pos hk U.mProton_pos
  mElectron_pos := mul_pos hk U.mElectron_pos
  mNucleon_pos := mul_pos hk U.mNucleon_pos
  aEM_pos := U.aEM_pos
  cm_pos := div_pos U.cm_pos hk
  sec_pos := div_pos U.sec_pos hk
  eV_pos := mul_pos hk U.eV_pos
  fm_pos := div_pos U.fm_pos hk

/-- A result in the other unit, where there is one. -/
def Outcome.inUnit {α β : Type} (f : α → β) (o : Outcome α) : Outcome β := o >>= fun x => .ok (f x)

/-- An isotope in the other unit. -/
noncomputable def Isotope.inUnit (k : ℝ) (iso : Isotope) : Isotope := { iso with mass := k * iso.mass }

/-- A nucleus in the other unit. -/
noncomputable def Nucleus.inUnit (k : ℝ) (n : Nucleus) : Nucleus := { n with isotopes := n.isotopes.map (Isotope.inUnit k) }

/-- The members of the concrete particle class in the other unit: the reference momentum and the mass of the mediator. -/
noncomputable def Interaction.inUnit (k : ℝ) : Interaction → Interaction
  | .SI ff qRef mMed => .SI ff (k * qRef) (k * mMed)
  | .SD => .SD

/-- A particle in the other unit. -/
noncomputable def DMParticle.inUnit (k : ℝ) (p : DMParticle) : DMParticle :=
  { p with mass := k * p.mass, fp := p.fp / k ^ 2, fn := p.fn / k ^ 2, sigmaElectronRef := p.sigmaElectronRef / k ^ 2,
           interaction := p.interaction.inUnit k }

/-- A call with its arguments in the other unit. -/
noncomputable def DMParticle.Op.inUnit (k : ℝ) : DMParticle.Op → DMParticle.Op
  | .setMass m => .setMass (k * m)
  | .setSpin s => .setSpin s
  | .setLowMassMode b => .setLowMassMode b
  | .setFractionalDensity f => .setFractionalDensity f
  | .setSigmaProton s => .setSigmaProton (s / k ^ 2)
  | .setSigmaNeutron s => .setSigmaNeutron (s / k ^ 2)
  | .setSigmaElectron s => .setSigmaElectron (s / k ^ 2)
  | .setInteractionParameter x t => .setInteractionParameter (x / k ^ 2) t
  | .fixCouplingRatio a b => .fixCouplingRatio a b
  | .fixFnOverFp r => .fixFnOverFp r
  | .fixFpOverFn r => .fixFpOverFn r
  | .unfixCouplingRatios => .unfixCouplingRatios
  | .setFormFactorDM ff m => .setFormFactorDM ff (k * m)
  | .setMediatorMass m => .setMediatorMass (k * m)

/-- A distribution in the other unit: only the density has a dimension. -/
noncomputable def Distribution.inUnit (k : ℝ) (h : Distribution) : Distribution := { h with density := k ^ 4 * h.density }

/-- A standard halo model in the other unit. -/
noncomputable def SHM.inUnit (k : ℝ) (s : SHM) : SHM := { s with density := k ^ 4 * s.density }

/-- A call of the halo model with its arguments in the other unit. -/
noncomputable def SHM.Op.inUnit (k : ℝ) : SHM.Op → SHM.Op
  | .setDensity rho => .setDensity (k ^ 4 * rho)
  | op => op

/-- The members of the base class of a detector in the other unit. -/
noncomputable def Detector.inUnit (k : ℝ) (d : Detector) : Detector :=
  { d with fiducialCoupling := d.fiducialCoupling / k ^ 2, gapData := d.gapData.map (k * ·), energyThreshold := k * d.energyThreshold,
           energyMax := k * d.energyMax, binEnergies := d.binEnergies.map (k * ·) }

/-- A configuration call with its arguments in the other unit. -/
noncomputable def Detector.Op.inUnit (k : ℝ) : Detector.Op → Detector.Op
  | .useMaximumGap es => .useMaximumGap (es.map (k * ·))
  | .useEnergyThreshold a b => .useEnergyThreshold (k * a) (k * b)
  | .useEnergyBins a b n => .useEnergyBins (k * a) (k * b) n
  | op => op

/-- The members of a nuclear recoil detector in the other unit; tables of efficiencies are functions of the energy. -/
noncomputable def NuclearDetector.inUnit (k : ℝ) (nd : NuclearDetector) : NuclearDetector :=
  { nd with nuclei := nd.nuclei.map (Nucleus.inUnit k), resolution := k * nd.resolution,
            efficiencies := nd.efficiencies.map fun f E => f (E / k) }

/-- A crystal in the other unit; its form factor is a pure number. -/
noncomputable def Crystal.inUnit (k : ℝ) (c : Crystal) : Crystal :=
  { c with dE := k * c.dE, dq := k * c.dq, eMax := k * c.eMax, qMax := k * c.qMax, mCell := k * c.mCell, gap := k * c.gap,
           epsilon := k * c.epsilon, interpolation := fun q E => c.interpolation (q / k) (E / k) }

/-- The members of a crystal detector in the other unit. -/
noncomputable def CrystalDetector.inUnit (k : ℝ) (x : CrystalDetector) : CrystalDetector := { x with crystal := x.crystal.inUnit k }

/-- A configuration call of a crystal detector with its arguments in the other unit. -/
noncomputable def CrystalDetector.Op.inUnit (k : ℝ) : CrystalDetector.Op → CrystalDetector.Op
  | .base op => .base (op.inUnit k)
  | op => op

/-- A shell in the other unit; the tabulated response functions are pure numbers. -/
noncomputable def AtomicElectron.inUnit (k : ℝ) (e : AtomicElectron) : AtomicElectron :=
  { e with binding := k * e.binding, kMin := k * e.kMin, kMax := k * e.kMax, qMin := k * e.qMin, qMax := k * e.qMax,
           kGrid := e.kGrid.map (k * ·), qGrid := e.qGrid.map (k * ·),
           responses := e.responses.map fun f a b => f (a / k) (b / k) }

/-- An atom in the other unit. -/
noncomputable def Atom.inUnit (k : ℝ) (a : Atom) : Atom :=
  { nucleus := a.nucleus.inUnit k, electrons := a.electrons.map (AtomicElectron.inUnit k), W := k * a.W }

/-- The members of an ionization detector in the other unit; numbers of electrons and photoelectrons have no dimension. -/
noncomputable def IonizationDetector.inUnit (k : ℝ) (x : IonizationDetector) : IonizationDetector :=
  { x with atoms := x.atoms.map (Atom.inUnit k) }

/-- A configuration call of an ionization detector with its arguments in the other unit. -/
noncomputable def IonizationDetector.Op.inUnit (k : ℝ) : IonizationDetector.Op → IonizationDetector.Op
  | .base op => .base (op.inUnit k)
  | op => op

/-- A detector of any class in the other unit. -/
noncomputable def AnyDetector.inUnit (k : ℝ) : AnyDetector → AnyDetector
  | .nuclear d x => .nuclear (d.inUnit k) (x.inUnit k)
  | .electronRecoil d x => .electronRecoil (d.inUnit k) (x.inUnit k)
  | .migdal d x => .migdal (d.inUnit k) (x.inUnit k)
  | .crystal d x => .crystal (d.inUnit k) (x.inUnit k)

namespace Spec

/-- The numerical integration does not depend on the unit of the variable, and scales with its integrand. -/
structure UnitFree (I : Integrator) : Prop where
  homogeneous : I.Homogeneous
  substitution : ∀ (k : ℝ) f a b, 0 < k → I (fun x => f (x / k)) (k * a) (k * b) = k * I f a b

/-- The same for the integrals of interpolated tables. -/
structure UnitFreeTools (T : Tools) : Prop where
  integral : UnitFree T.integrate
  linear : ∀ k xs (ys : List ℝ) x y, T.interpolationIntegral xs (ys.map fun z => k * z) x y = k * T.interpolationIntegral xs ys x y
  dilation : ∀ (k : ℝ) (xs ys : List ℝ) a b, 0 < k →
    T.interpolationIntegral (xs.map (k * ·)) ys (k * a) (k * b) = k * T.interpolationIntegral xs ys a b

/-- Interpolation in a table of two variables does not depend on their unit. -/
def UnitFreeInterpolation (P : Interpolator2D) : Prop :=
  ∀ (k : ℝ) (xs ys : List ℝ) t x y, 0 < k → P (xs.map (k * ·)) (ys.map (k * ·)) t (k * x) (k * y) = P xs ys t x y

/-- In both units every atom has a shell bound by less than 1, some atom a work function below 10¹⁰, and there is an atom. -/
structure Ordinary (k : ℝ) (x : IonizationDetector) : Prop where
  atoms : x.atoms ≠ []
  shells : ∀ a ∈ x.atoms, ∃ e ∈ a.electrons, |e.binding| ≤ 1 ∧ k * |e.binding| ≤ 1
  work : ∃ a ∈ x.atoms, a.W ≤ 10 ^ 10 ∧ k * a.W ≤ 10 ^ 10

end Spec
end Obscura
