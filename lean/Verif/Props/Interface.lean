import Verif.Props.Particle
import Verif.Props.HaloAngular
import Verif.Props.Distribution
import Verif.Props.Statistics
import Verif.Props.EnergyBins
import Verif.Props.NuclearData
import Verif.Props.NuclearRange

/-!
# Small functions of the public interface

Constructors with default arguments, the base class of distributions, average masses, rates and the energy resolution.
-/

namespace Obscura

open Spec Detector DMParticle

variable {U : Units}

/-! ## C01 — constructors -/

theorem setSigmaProton_standard {m s pre : ℝ} (hm : 0 < m) (hs : 0 ≤ s) (hpre : 0 < pre) (i : Interaction) :
    ∃ p, setSigmaProton U (standard U m pre i) s = .ok p ∧ p.mass = m ∧ p.interaction = i ∧ p.sigmaProton U = s ∧ p.sigmaNeutron U = s ∧
      p.sigmaElectron = 1 / 10 ^ 40 * U.cm * U.cm ∧ p.spin = 1 / 2 ∧ p.fractionalDensity = 1 ∧ p.lowMass = false := by
  have h1 : 0 < (standard U m pre i).prefactor := hpre
  have h2 : 0 < (standard U m pre i).mass := hm
  have h3 : (standard U m pre i).fpRel ≠ 0 := by simp [standard]
  have h4 := cpl_sq (U := U) h1 h2 hs
  refine ⟨_, setSigmaProton_fixed h1 h2 hs rfl h3, rfl, rfl, ?_, ?_, rfl, rfl, rfl, rfl⟩
  · simpa [sigmaProton, standard] using h4
  · simpa [sigmaNeutron, standard] using h4

/-- C01 (constructors). A constructor with a mass and a cross section gives a particle of that mass with that cross section for
protons and for neutrons, an electron cross section of 1e-40 cm², spin 1/2, making up all of the dark matter; SI particles have
contact interactions. -/
theorem C01_constructors {m s : ℝ} (hm : 0 < m) (hs : 0 ≤ s) :
    (∃ p q, makeSI U m s = .ok p ∧ p.mass = m ∧ p.interaction = .SI .contact q 0 ∧ p.sigmaProton U = s ∧ p.sigmaNeutron U = s ∧
      p.sigmaElectron = 1 / 10 ^ 40 * U.cm * U.cm ∧ p.spin = 1 / 2 ∧ p.fractionalDensity = 1 ∧ p.lowMass = false) ∧
    ∃ p, makeSD U m s = .ok p ∧ p.mass = m ∧ p.interaction = .SD ∧ p.sigmaProton U = s ∧ p.sigmaNeutron U = s ∧
      p.sigmaElectron = 1 / 10 ^ 40 * U.cm * U.cm ∧ p.spin = 1 / 2 ∧ p.fractionalDensity = 1 ∧ p.lowMass = false := by
  constructor
  · obtain ⟨p, h⟩ := setSigmaProton_standard (U := U) hm hs one_pos (.SI .contact (U.aEM * U.mElectron) 0)
    exact ⟨p, _, h⟩
  · exact setSigmaProton_standard (U := U) hm hs three_pos .SD

/-- C01 (default cross section). The constructors with only a mass use 1e-40 cm² for protons and neutrons. -/
theorem C01_default_constructors {m : ℝ} (hm : 0 < m) :
    (∃ p q, makeSI1 U m = .ok p ∧ p.mass = m ∧ p.interaction = .SI .contact q 0 ∧ p.sigmaProton U = 1 / 10 ^ 40 * U.cm ^ 2 ∧
      p.sigmaNeutron U = 1 / 10 ^ 40 * U.cm ^ 2) ∧
    ∃ p, makeSD1 U m = .ok p ∧ p.mass = m ∧ p.interaction = .SD ∧ p.sigmaProton U = 1 / 10 ^ 40 * U.cm ^ 2 ∧
      p.sigmaNeutron U = 1 / 10 ^ 40 * U.cm ^ 2 := by
  have hs : 0 ≤ 1 / 10 ^ 40 * U.cm * U.cm := by have := U.cm_pos; positivity
  have e : 1 / 10 ^ 40 * U.cm ^ 2 = 1 / 10 ^ 40 * U.cm * U.cm := by ring
  rw [e]
  obtain ⟨⟨p, q, h1, h2, h3, h4, h5, -⟩, p', h1', h2', h3', h4', h5', -⟩ := C01_constructors (U := U) hm hs
  exact ⟨⟨p, q, h1, h2, h3, h4, h5⟩, p', h1', h2', h3', h4', h5'⟩

/-! ## C21 — the base class of distributions -/

/-- C21 (base class, isotropic). If the velocity PDF only depends on the speed, the speed PDF computed by the base class is
`4 π v²` times it. -/
theorem C21_base_class_isotropic {I2 : Integrator2} (hI : I2.Exact) (g : ℝ → ℝ) {v : ℝ} (hv : 0 ≤ v) :
    Distribution.basePdfSpeed I2 (fun u => g (vnorm u)) v = 4 * Real.pi * v ^ 2 * g v := by
  have hn : ∀ c φ, vnorm (sphericalCoordinates v (Real.arccos c) φ) = v := fun c φ => by
    unfold vnorm dot sphericalCoordinates
    have e1 := Real.sin_sq_add_cos_sq φ
    have e2 := Real.sin_sq_add_cos_sq (Real.arccos c)
    simp only [Matrix.cons_val_zero, Matrix.cons_val_one, Matrix.cons_val]
    rw [← Real.sqrt_sq hv]
    congr 1
    rw [Real.sqrt_sq hv]
    linear_combination v ^ 2 * Real.sin (Real.arccos c) ^ 2 * e1 + v ^ 2 * e2
  unfold Distribution.basePdfSpeed
  rw [hI]
  simp only [hn, intervalIntegral.integral_const, smul_eq_mul]
  ring

/-- C21 (base class, standard halo), guarded. The speed PDF which the base class computes from the velocity PDF of a standard halo
model is the one the halo model itself provides. -/
theorem C21_base_class_halo_partial {I2 : Integrator2} (hI : I2.Exact) (s : SHM) (h : SHM.Reachable U s) (hp : s.Physical)
    (hoe : s.vObs ≤ s.vEsc) {v : ℝ} (hv : 0 ≤ v) : Distribution.basePdfSpeed I2 s.pdfVelocity v = s.pdfSpeed v := by
  unfold Distribution.basePdfSpeed
  rw [hI, C21_angular_partial U s h hp hoe v hv]

/-! ## C22 — norm -/

/-- C22 (norm). `PDF_Norm` of a proper distribution is one; in general it is the integral of the speed PDF over the domain. -/
theorem C22_norm {I : Integrator} (hI : I.Exact) (d : Distribution) :
    d.pdfNorm I = (∫ v in d.vMin..d.vMax, d.pdfSpeed v) ∧ (d.Proper → d.pdfNorm I = 1) := by
  have : d.pdfNorm I = ∫ v in d.vMin..d.vMax, d.pdfSpeed v := by unfold Distribution.pdfNorm; rw [hI]
  exact ⟨this, fun h => this.trans h.norm⟩

/-! ## C34 — likelihood of the maximum gap -/

/-- C34 (maximum gap, log-likelihood). It is the logarithm of the p-value; a p-value that is not positive has no finite
logarithm. -/
theorem C34_maximum_gap_log {T : Tools} {C : DetectorClass} {d : Detector} {p : DMParticle} {x : ℝ} (hd : d.analysis = .maximumGap)
    (hx : d.pValue U T C p = .ok x) :
    (0 < x → d.logLikelihood T C p = .ok (Real.log x)) ∧ (x ≤ 0 → d.logLikelihood T C p = .nonfinite) := by
  have h1 : d.pValueMaximumGap T C p = .ok x := by
    unfold pValue at hx; rw [hd] at hx; exact hx
  constructor <;> intro h <;> unfold logLikelihood <;> rw [hd] <;> simp only [h1, Outcome.bind_ok]
  · rw [if_neg (not_le.2 h)]
  · rw [if_pos h]

/-! ## C37 — rates -/

/-- C37 (rate). `DM_Signal_Rate_Total` times the exposure is `DM_Signals_Total`; without exposure there is no finite rate. -/
theorem C37_signal_rate {C : DetectorClass} {d : Detector} {p : DMParticle} {s : ℝ} (hs : C.signalsTotal d p = .ok s) :
    (d.exposure ≠ 0 → ∃ r, d.signalRateTotal C p = .ok r ∧ r * d.exposure = s) ∧
    (d.exposure = 0 → d.signalRateTotal C p = .nonfinite) := by
  constructor <;> intro h <;> unfold signalRateTotal <;> simp only [hs, Outcome.bind_ok]
  · exact ⟨_, fdiv_ok h, by field_simp⟩
  · simp [fdiv, h]

/-! ## C60 — average masses -/

/-- C60 (average). The average mass of a nucleus is the sum of the isotope masses weighted with the abundances; for normalised
abundances it lies between the smallest and the largest isotope mass. -/
theorem C60_average_mass (n : Nucleus) : n.averageMass = (n.isotopes.map fun iso => iso.abundance * iso.mass).sum ∧
    ((n.isotopes.map Isotope.abundance).sum = 1 → (∀ iso ∈ n.isotopes, 0 ≤ iso.abundance) → ∀ a b,
      (∀ iso ∈ n.isotopes, a ≤ iso.mass ∧ iso.mass ≤ b) → a ≤ n.averageMass ∧ n.averageMass ≤ b) := by
  have h1 : n.averageMass = (n.isotopes.map fun iso => iso.abundance * iso.mass).sum := by
    unfold Nucleus.averageMass
    have : ∀ (l : List Isotope) (s : ℝ), l.foldl (fun (s : ℝ) iso => s + iso.mass * iso.abundance) s =
        s + (l.map fun iso => iso.abundance * iso.mass).sum := by
      intro l
      induction l with
      | nil => intro s; simp
      | cons iso l ih => intro s; rw [List.foldl_cons, ih, List.map_cons, List.sum_cons]; ring
    rw [this, zero_add]
  refine ⟨h1, fun hsum h0 a b hab => ?_⟩
  rw [h1]
  have e : ∀ c : ℝ, c = (n.isotopes.map fun iso => iso.abundance * c).sum := fun c => by
    rw [List.sum_map_mul_right, hsum, one_mul]
  constructor
  · rw [e a]; exact List.sum_le_sum fun iso hi => mul_le_mul_of_nonneg_left (hab iso hi).1 (h0 iso hi)
  · rw [e b]; exact List.sum_le_sum fun iso hi => mul_le_mul_of_nonneg_left (hab iso hi).2 (h0 iso hi)

example : sampleIsotope.abundance = 1 ∧ 0 < sampleIsotope.mass := by simp [sampleIsotope]

/-! ## C40 — energy resolution -/

/-- C40 (`Set_Resolution`). After `Set_Resolution(σ)` the rate is that of the same target convoluted with a Gaussian of width `σ`,
and for `σ` below 1e-6 eV it is that of the same target. -/
theorem C40_set_resolution {I : Integrator} (hI : I.Exact) {nd : NuclearDetector} {d : Detector} {p : DMParticle} {h : Distribution}
    {E : ℝ} (σ : ℝ) (hm : 0 < p.mass) (hM : ∀ iso ∈ nd.isotopes, 0 < iso.mass) (hf : nd.fractions.length = nd.nuclei.length)
    (heta : p.useEtaFunction = true → h.useEta = true → ∀ v, 0 ≤ v → v ≤ h.vMax → EtaAt h v) :
    (σ < 1 / 10 ^ 6 * U.eV → (nd.setResolution σ).dRdE U I d E p h = .ok (targetRate U nd d p h E E)) ∧
    (1 / 10 ^ 6 * U.eV ≤ σ → (nd.setResolution σ).dRdE U I d E p h =
      .ok (∫ ER in (max (max (E - 6 * σ) (d.energyThreshold - 3 * σ)) (2 * σ))..(E + 6 * σ),
        ProbabilityTheory.gaussianPDFReal ER (Real.toNNReal (σ ^ 2)) E * targetRate U nd d p h E ER)) :=
  C40_rate (nd := nd.setResolution σ) hI hm hM hf heta

end Obscura
