import Verif.Props.Resolution

/-!
# C119: recoils below twice the resolution are lost
-/

namespace Obscura

open Spec NuclearDetector DMParticle MeasureTheory

variable {U : Units} {I : Integrator} {T : Tools} {p : DMParticle} {h : Distribution} {nd : NuclearDetector} {d : Detector}

/-- C119 (small recoils). If no recoil has an energy of `2σ` or more, the detector sees nothing at any observed energy, whatever its threshold. -/
theorem C119_blind (hI : I.Exact) (hres : 1 / 10 ^ 6 * U.eV ≤ nd.resolution) (htab : nd.usingTables = false)
    (hv : ∀ E, 2 * nd.resolution ≤ E → (nd.setResolution 0).dRdE U I d E p h = .ok 0) {E : ℝ} (hE : 0 ≤ E) : nd.dRdE U I d E p h = .ok 0 := by
  have hσ : 0 < nd.resolution := lt_of_lt_of_le (by have := U.eV_pos; positivity) hres
  unfold NuclearDetector.dRdE
  rw [if_neg (not_lt.2 hres)]
  dsimp only
  rw [hI, intervalIntegral.integral_congr (g := fun _ => (0 : ℝ)) fun ER hER => ?_]
  · simp
  · have : 2 * nd.resolution ≤ ER := by
      rcases Set.mem_uIcc.1 hER with ⟨h1, -⟩ | ⟨h1, -⟩
      · exact (le_max_right _ _).trans h1
      · linarith
    rw [← perfect_rate htab, hv ER this]
    exact mul_zero _

/-- C119 fails for small recoils: an event above the threshold is not seen if its energy is below `2σ`, although the Gaussian would put half of these events
at higher energies. A hydrogen detector with threshold 1 and resolution 1: with a perfect resolution it has a positive rate between 1 and 3/2, with this one
none at all. -/
theorem C119_fails_small_recoils (hU : 1 / 10 ^ 6 * U.eV ≤ 1) (hI : I.Exact) : ∃ (nd : NuclearDetector) (d : Detector) (p : DMParticle) (h : Distribution) (r : ℝ),
    nd.resolution = 1 ∧ d.energyThreshold = 1 ∧ Reachable U p ∧ 0 < r ∧ (∀ E, 1 ≤ E → E ≤ 3 / 2 → (nd.setResolution 0).dRdE U I d E p h = .ok r) ∧
    ∀ E, 0 ≤ E → nd.dRdE U I d E p h = .ok 0 := by
  obtain ⟨f, -, hf, hp, hfs⟩ := makeSI_eq (U := U) (m := 1) (s := 1) one_pos zero_le_one
  have hf := hf one_pos
  set p : DMParticle := { standard U 1 1 (.SI .contact (U.aEM * U.mElectron) 0) with fp := f, fn := f, lowMass := true } with hpd
  have hval : ∀ op ∈ [DMParticle.Op.setLowMassMode true], ValidOp op := fun op ho => by
    simp only [List.mem_cons, List.not_mem_nil, or_false] at ho
    rcases ho with rfl; trivial
  have hreach : Reachable U p := ⟨_, [.setLowMassMode true], .inl ⟨1, 1, one_pos, hp⟩, hval, rfl⟩
  set d : Detector := { Detector.make "x" 1 "Nuclei" with usingEnergyThreshold := true, energyThreshold := 1, energyMax := 2 } with hd
  have hM : 0 < (Isotope.default U).mass := by simp [Isotope.default, U.mProton_pos]
  have hm : 0 < p.mass := one_pos
  set v := vMinimalNucleus (3 / 2) p.mass (Isotope.default U).mass with hv
  have hev : (0 : ℝ) < 1 / 10 ^ 6 * U.eV := by have := U.eV_pos; positivity
  have hab : (Isotope.default U).abundance = 1 := rfl
  have hdS : 0 < p.dSigmadERNucleus U 1 (Isotope.default U) (1 / 1000) := by
    have := Real.pi_pos
    unfold dSigmadERNucleus
    have : p.dSigmadq2Nucleus U (√(2 * (Isotope.default U).mass * 1)) (Isotope.default U) (1 / 1000) =
        1 / 4 / Real.pi / (1 / 1000) / (1 / 1000) * f ^ 2 := by
      simp [dSigmadq2Nucleus, p, standard, formFactor2, Isotope.default, Isotope.neutrons, usub32]
    rw [this]
    positivity
  set r := 1 / (Isotope.default U).mass * (1 * 1) / p.mass * ((1 / 1000 : ℝ) * (1 / 1000) * p.dSigmadERNucleus U 1 (Isotope.default U) (1 / 1000)) * 1 with hr
  have iso : ∀ E, E ≤ 3 / 2 → dRdERIsotope U I E p (flatHalo v) (Isotope.default U) = .ok r := by
    intro E hE
    unfold dRdERIsotope
    have hle : vMinimalNucleus E p.mass (Isotope.default U).mass ≤ v := by
      rw [hv]
      unfold vMinimalNucleus
      exact Real.sqrt_le_sqrt (by gcongr)
    rw [if_neg (by simpa [flatHalo] using hle), if_pos ⟨rfl, rfl⟩]
    have : p.dSigmadERNucleus U E (Isotope.default U) (1 / 1000) = p.dSigmadERNucleus U 1 (Isotope.default U) (1 / 1000) := by
      simp [dSigmadERNucleus, dSigmadq2Nucleus, p, standard, formFactor2]
    rw [hr, ← this]
    rfl
  have iso0 : ∀ E, 3 / 2 < E → dRdERIsotope U I E p (flatHalo v) (Isotope.default U) = .ok 0 := by
    intro E hE
    unfold dRdERIsotope
    have hlt : v < vMinimalNucleus E p.mass (Isotope.default U).mass := by
      have hμ : 0 < reducedMass p.mass (Isotope.default U).mass := by unfold reducedMass; positivity
      rw [hv]
      unfold vMinimalNucleus
      exact Real.sqrt_lt_sqrt (by positivity) (by gcongr)
    rw [if_pos (by simpa [flatHalo] using hlt)]
  have rate : ∀ E z, dRdERIsotope U I E p (flatHalo v) (Isotope.default U) = .ok z →
      (((hydrogenTarget U).setResolution 1).setResolution 0).dRdE U I d E p (flatHalo v) = .ok z := by
    intro E z hz
    unfold NuclearDetector.dRdE
    rw [if_pos (by show (0 : ℝ) < _; exact hev)]
    unfold NuclearDetector.theoryRate dRdERNucleus
    simp [hydrogenTarget, setResolution, sumOver, collect, vecGet, NuclearDetector.efficiency, hz, hd, Detector.make, hab]
  refine ⟨(hydrogenTarget U).setResolution 1, d, p, flatHalo v, r, rfl, rfl, hreach, by rw [hr]; positivity, fun E _ h2 => rate E r (iso E h2), fun E hE => ?_⟩
  exact C119_blind hI hU rfl (fun E hE => rate E 0 (iso0 E (by
    have : (2 : ℝ) * 1 ≤ E := hE
    linarith))) hE

/-- Non-vacuity: integrals are exact for `exactIntegrator`, and with `Units.sample` a micro-electronvolt is below 1. -/
example : ∃ (nd : NuclearDetector) (d : Detector) (p : DMParticle) (h : Distribution) (r : ℝ),
    nd.resolution = 1 ∧ d.energyThreshold = 1 ∧ Reachable Units.sample p ∧ 0 < r ∧ (∀ E, 1 ≤ E → E ≤ 3 / 2 → (nd.setResolution 0).dRdE Units.sample exactIntegrator d E p h = .ok r) ∧
    ∀ E, 0 ≤ E → nd.dRdE Units.sample exactIntegrator d E p h = .ok 0 :=
  C119_fails_small_recoils (by norm_num [Units.sample]) exactIntegrator_exact

end Obscura
