import Verif.Spec.Cancellation
import Verif.Spec.Reach
import Verif.Props.NuclearRange
import Verif.Props.CrossSections
import Verif.Props.Particle

/-!
# C97: couplings of opposite sign cancel
-/

namespace Obscura

open Spec NuclearDetector DMParticle

variable {U : Units} {I : Integrator} {nd : NuclearDetector} {d : Detector} {p : DMParticle} {h : Distribution} {iso : Isotope} {a b : ℝ}

/-- With the couplings in the ratio `a : b` the amplitude is zero. -/
theorem amplitude_zero (hr : p.fp * b = p.fn * a) (hab : a ≠ 0 ∨ b ≠ 0) {x y : ℝ} (h0 : a * x + b * y = 0) : p.fp * x + p.fn * y = 0 := by
  rcases hab with ha | hb
  · have : a * (p.fp * x + p.fn * y) = 0 := by linear_combination p.fp * h0 - y * hr
    exact (mul_eq_zero.1 this).resolve_left ha
  · have : b * (p.fp * x + p.fn * y) = 0 := by linear_combination p.fn * h0 + x * hr
    exact (mul_eq_zero.1 this).resolve_left hb

theorem neutrons_eq (hZA : iso.Z ≤ iso.A) : (iso.neutrons : ℝ) = iso.A - iso.Z := by
  rw [Isotope.neutrons, usub32_of_le hZA, Nat.cast_sub hZA]

theorem passes_of_ratio (hr : p.fp * b = p.fn * a) (hab : a ≠ 0 ∨ b ≠ 0) (hc : Cancels p a b iso) : PassesThrough U p iso := by
  unfold Cancels at hc
  have key : ∀ q v, p.dSigmadq2Nucleus U q iso v = 0 := fun q v => by
    unfold dSigmadq2Nucleus
    cases hi : p.interaction with
    | SI ff qRef mMed =>
      rw [hi] at hc
      obtain ⟨hZA, h0⟩ := hc
      rw [← neutrons_eq hZA] at h0
      simp only [amplitude_zero hr hab h0]
      simp
    | SD =>
      rw [hi] at hc
      simp only [amplitude_zero hr hab hc]
      simp
  exact fun q v E => ⟨key q v, by unfold dSigmadERNucleus; rw [key, mul_zero]⟩

theorem total_of_passes (hI : I.Exact) (hr : p.fp * b = p.fn * a) (hab : a ≠ 0 ∨ b ≠ 0) (hc : Cancels p a b iso) {v s : ℝ}
    (hs : p.sigmaTotalNucleus U I iso v = .ok s) : s = 0 := by
  have hz := passes_of_ratio (U := U) hr hab hc
  unfold Cancels at hc
  unfold sigmaTotalNucleus at hs
  cases hi : p.interaction with
  | SI ff qRef mMed =>
    rw [hi] at hc
    obtain ⟨hZA, h0⟩ := hc
    rw [← neutrons_eq hZA] at h0
    have h0 := amplitude_zero hr hab h0
    simp only [hi] at hs
    split_ifs at hs with g1 g2 g3
    · rw [Outcome.ok.injEq] at hs
      rw [← hs]
      unfold sigmaTotalNucleusBase
      rw [hI]
      simp [fun q => (hz q v 0).1]
    · obtain ⟨g, -, e⟩ := Outcome.bind_eq_ok.1 hs
      rw [Outcome.ok.injEq, h0] at e
      rw [← e]
      simp
    · rw [Outcome.ok.injEq, h0] at hs
      rw [← hs]
      simp
  | SD =>
    rw [hi] at hc
    have h0 := amplitude_zero hr hab hc
    simp only [hi, h0] at hs
    split_ifs at hs <;> simp at hs <;> exact hs.symm

/-- C97 (cancellation). After fixing the ratio of the couplings at which the amplitudes of the protons and the neutrons of an isotope cancel, whatever
calls came before or after, the particle passes through this isotope: all differential cross sections are zero, and so is the total one wherever it
is defined. Missing for the full C97: ratios fixed while the proton cross section is zero, which are not honoured (`C03_fails`). -/
theorem C97_cancellation_partial (hp : CleanReachable U p (a, b)) (hf : p.fixedRelation = true) (hab : a ≠ 0 ∨ b ≠ 0) (hc : Cancels p a b iso) :
    PassesThrough U p iso ∧ ∀ I : Integrator, I.Exact → ∀ v s, p.sigmaTotalNucleus U I iso v = .ok s → s = 0 :=
  ⟨passes_of_ratio (C03_ratio_honoured_partial hp hf).1 hab hc,
    fun _ hI _ _ hs => total_of_passes hI (C03_ratio_honoured_partial hp hf).1 hab hc hs⟩

/-- C97 (no events). A detector all of whose isotopes the particle passes through sees nothing: the rate is zero at all energies, whatever the
resolution and the efficiencies. -/
theorem C97_no_events (hI : I.Exact) (hp : ∀ iso ∈ nd.isotopes, PassesThrough U p iso) (hη : ∀ v, ∃ x, h.eta v = .ok x)
    (hlen : nd.nuclei.length ≤ nd.fractions.length) (E : ℝ) : nd.dRdE U I d E p h = .ok 0 := by
  have h1 : ∀ iso ∈ nd.isotopes, ∀ ER, dRdERIsotope U I ER p h iso = .ok 0 := fun iso hi ER => by
    unfold dRdERIsotope
    dsimp only
    simp only [fun v => (hp iso hi 0 v ER).2]
    split_ifs
    · rfl
    · obtain ⟨x, hx⟩ := hη (vMinimalNucleus ER p.mass iso.mass)
      rw [hx]
      simp
    · rw [hI]
      simp
  have h2 : ∀ ER, nd.theoryRate U I d E ER p h = .ok 0 := fun ER => by
    rw [theoryRate_eq_of (g := fun _ => 0) hlen fun iso hi => h1 iso hi ER]
    simp
  unfold NuclearDetector.dRdE
  split_ifs
  · exact h2 E
  · simp only [h2, Outcome.valueOr0, mul_zero]
    rw [hI]
    simp

/-- C97 (one isotope at most). Two isotopes with different ratios of protons to neutrons are never both invisible, unless the particle has no
couplings at all: in the low-mass mode with a contact interaction one of the two total cross sections is positive. -/
theorem C97_one_isotope_at_most {qRef mMed : ℝ} (hi : p.interaction = .SI .contact qRef mMed) (hl : p.lowMass = true) (hm : 0 < p.mass)
    (hfp : p.fp ≠ 0 ∨ p.fn ≠ 0) {iso iso' : Isotope} (hM : 0 < iso.mass) (hM' : 0 < iso'.mass) (hZ : iso.Z ≤ iso.A) (hZ' : iso'.Z ≤ iso'.A)
    (hne : iso.Z * (iso'.A - iso'.Z) ≠ iso'.Z * (iso.A - iso.Z)) (v : ℝ) : Scatters U I p v iso ∨ Scatters U I p v iso' := by
  have hpi := Real.pi_pos
  have key : ∀ i : Isotope, 0 < i.mass → p.fp * i.Z + p.fn * i.neutrons ≠ 0 → Scatters U I p v i := fun i hMi h0 => by
    have := reducedMass_pos hm hMi
    refine ⟨reducedMass p.mass i.mass ^ 2 / Real.pi * (p.fp * i.Z + p.fn * i.neutrons) ^ 2, ?_, by positivity⟩
    simp [sigmaTotalNucleus, hi, hl]
  by_contra hcon
  push Not at hcon
  have e1 : p.fp * iso.Z + p.fn * iso.neutrons = 0 := by
    by_contra hx
    exact hcon.1 (key iso hM hx)
  have e2 : p.fp * iso'.Z + p.fn * iso'.neutrons = 0 := by
    by_contra hx
    exact hcon.2 (key iso' hM' hx)
  rw [neutrons_eq hZ] at e1
  rw [neutrons_eq hZ'] at e2
  have hne' : (iso.Z : ℝ) * (iso'.A - iso'.Z) - iso'.Z * (iso.A - iso.Z) ≠ 0 := fun hx => hne (by
    have : ((iso.Z * (iso'.A - iso'.Z) : ℕ) : ℝ) = ((iso'.Z * (iso.A - iso.Z) : ℕ) : ℝ) := by
      push_cast [Nat.cast_sub hZ, Nat.cast_sub hZ']
      linarith
    exact_mod_cast this)
  rcases hfp with h0 | h0
  · have : p.fp * ((iso.Z : ℝ) * (iso'.A - iso'.Z) - iso'.Z * (iso.A - iso.Z)) = 0 := by
      linear_combination (iso'.A - iso'.Z : ℝ) * e1 - (iso.A - iso.Z : ℝ) * e2
    exact (mul_ne_zero h0 hne') this
  · have : p.fn * ((iso.Z : ℝ) * (iso'.A - iso'.Z) - iso'.Z * (iso.A - iso.Z)) = 0 := by
      linear_combination (iso.Z : ℝ) * e2 - (iso'.Z : ℝ) * e1
    exact (mul_ne_zero h0 hne') this

/-- C97 (failure: smallest observable mass). For such a detector `Minimum_DM_Mass` dereferences the end of an empty list. -/
theorem C97_fails_minimum_mass (hI : I.Exact) {qRef mMed : ℝ} (hi : p.interaction = .SI .contact qRef mMed) (hp : CleanReachable U p (a, b))
    (hf : p.fixedRelation = true) (hab : a ≠ 0 ∨ b ≠ 0) (hc : ∀ iso ∈ nd.isotopes, Cancels p a b iso) :
    nd.minimumDMMass U I d p h = .ub ∧ nd.maximumEnergyDeposit U I p h = .ok (6 * nd.resolution) := by
  have h0 : ∀ iso ∈ nd.isotopes, ∀ v, p.sigmaTotalNucleus U I iso v = .ok 0 := fun iso hiso v => by
    have hs : ∃ s, p.sigmaTotalNucleus U I iso v = .ok s := by
      unfold sigmaTotalNucleus
      simp only [hi]
      cases p.lowMass <;> simp
    obtain ⟨s, hs⟩ := hs
    rw [hs, (C97_cancellation_partial hp hf hab (hc iso hiso)).2 I hI v s hs]
  generalize hl : nd.isotopes = l at *
  have h1 : ∀ E v, massLoop U I p E v l = .ok [] := by
    clear hl hc
    induction l with
    | nil => intro E v; rfl
    | cons iso l ih =>
      intro E v
      simp only [massLoop, h0 iso (by simp), Outcome.bind_ok, lt_irrefl, if_false]
      exact ih (fun i hi => h0 i (by simp [hi])) E v
  have h2 : ∀ v E, depositLoop U I p v l E = .ok E := by
    clear hl hc h1
    induction l with
    | nil => intro E v; rfl
    | cons iso l ih =>
      intro v E
      simp only [depositLoop, h0 iso (by simp), Outcome.bind_ok, lt_irrefl, if_false]
      split_ifs <;> exact ih (fun i hi => h0 i (by simp [hi])) v E
  constructor
  · unfold minimumDMMass
    rw [hl, h1]
    rfl
  · unfold maximumEnergyDeposit
    rw [hl, h2, Outcome.bind_ok, zero_add]

/-- Non-vacuity: with `f_n / f_p = -2` a particle passes through helium-3, and not through hydrogen. -/
example : ∃ p : DMParticle, CleanReachable U p (1, -2) ∧ p.fixedRelation = true ∧ p.interaction = .SI .contact (U.aEM * U.mElectron) 0 ∧
    p.lowMass = true ∧ Cancels p 1 (-2) ⟨2, 3, 1, 1, 1 / 2, 0, 1 / 2⟩ ∧ p.fp ≠ 0 ∧ ∀ v, Scatters U I p v sampleIsotope := by
  obtain ⟨c, hc0, hc, h, hcs⟩ := makeSI_eq (U := U) (m := 1) (s := 1) one_pos zero_le_one
  have hc := hc one_pos
  have hfp : ({ standard U 1 1 (.SI .contact (U.aEM * U.mElectron) 0) with fp := c, fn := c } : DMParticle).sigmaProton U = 1 := by
    simpa [sigmaProton, standard] using hcs
  have hi : (sampleIsotope.neutrons : ℝ) = 0 := by simp [sampleIsotope, Isotope.neutrons, usub32]
  refine ⟨{ standard U 1 1 (.SI .contact (U.aEM * U.mElectron) 0) with
              fixedRelation := true, fpRel := 1 / (1 + -2), fnRel := -2 / (1 + -2), fp := c,
              fn := -2 / (1 + -2) / (1 / (1 + -2)) * c, lowMass := true },
    ⟨_, [.fixFnOverFp (-2), .setLowMassMode true], makeSI_built one_pos h, by simp [ValidOp], ?_, ?_, rfl⟩, rfl, rfl, rfl, ?_, hc.ne', fun v => ?_⟩
  · exact ⟨fun _ => by rw [hfp]; exact one_ne_zero, fun p' _ => ⟨fun hx => by simp [requestedBy] at hx, fun _ _ => trivial⟩⟩
  · have h4 : (1 : ℝ) + -2 ≠ 0 := by norm_num
    have h5 : (1 : ℝ) / (1 + -2) ≠ 0 := by norm_num
    simp only [run, step, fixFnOverFp, fdiv_ok h4, Outcome.bind_ok, hc.ne', ne_eq, not_false_eq_true, if_true, fdiv_ok h5, setLowMassMode]
  · norm_num [Cancels, standard]
  · have hm := reducedMass_pos one_pos (show 0 < sampleIsotope.mass from one_pos)
    have hpi := Real.pi_pos
    refine ⟨reducedMass 1 sampleIsotope.mass ^ 2 / Real.pi * (c * 1) ^ 2, ?_, by positivity⟩
    have hZ : (sampleIsotope.Z : ℝ) = 1 := by simp [sampleIsotope]
    simp [sigmaTotalNucleus, standard, hi, hZ]

end Obscura
