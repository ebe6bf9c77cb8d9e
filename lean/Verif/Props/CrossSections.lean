import Verif.Lemmas.Particle
import Verif.Lemmas.CrossSections

/-!
# Properties C06–C11, C58: differential cross sections, total cross sections, scattering angles
-/

namespace Obscura
open DMParticle Spec MeasureTheory

variable {U : Units}

/-! ## C10 — the DM form factor -/

/-- C10: every form factor is 1 at the reference momentum. -/
theorem C10_normalised_at_qRef (ff : FormFactor) {qRef mMed : ℝ} (hq : qRef ≠ 0) :
    formFactor2 ff qRef mMed qRef = 1 := by
  have h : qRef * qRef + mMed * mMed ≠ 0 := by
    have := mul_self_pos.2 hq; have := mul_self_nonneg mMed; positivity
  cases ff <;> simp [formFactor2, hq, h]

/-- C10: never negative (whatever the arguments). -/
theorem C10_nonneg (ff : FormFactor) (qRef mMed q : ℝ) : 0 ≤ formFactor2 ff qRef mMed q := by
  unfold formFactor2; exact mul_self_nonneg _

/-- C10: does not increase with the momentum transfer. -/
theorem C10_antitone (ff : FormFactor) {qRef mMed q q' : ℝ} (hq : 0 < q) (hqq : q ≤ q') (hr : 0 ≤ qRef) :
    formFactor2 ff qRef mMed q' ≤ formFactor2 ff qRef mMed q := by
  have hq' : 0 < q' := hq.trans_le hqq
  have hm := mul_self_nonneg mMed
  have hsq : q * q ≤ q' * q' := mul_self_le_mul_self hq.le hqq
  cases ff with
  | contact => simp [formFactor2]
  | general =>
    have h1 : 0 < q * q + mMed * mMed := by positivity
    have h0 : 0 ≤ qRef * qRef + mMed * mMed := by positivity
    have : (qRef * qRef + mMed * mMed) / (q' * q' + mMed * mMed) ≤ (qRef * qRef + mMed * mMed) / (q * q + mMed * mMed) :=
      div_le_div_of_nonneg_left h0 h1 (by linarith)
    exact mul_self_le_mul_self (by positivity) this
  | longRange =>
    have : qRef * qRef / q' / q' ≤ qRef * qRef / q / q := by
      rw [div_div, div_div]; exact div_le_div_of_nonneg_left (by positivity) (by positivity) hsq
    exact mul_self_le_mul_self (by positivity) this
  | electricDipole =>
    have : qRef / q' ≤ qRef / q := div_le_div_of_nonneg_left hr hq hqq
    exact mul_self_le_mul_self (by positivity) this

/-- C10: the massive-mediator form factor lies between the contact and the long-range one (on either side of the
reference momentum). -/
theorem C10_general_between {qRef mMed q : ℝ} (hq : 0 < q) (hr : 0 < qRef) :
    min (formFactor2 .contact qRef mMed q) (formFactor2 .longRange qRef mMed q) ≤ formFactor2 .general qRef mMed q ∧
    formFactor2 .general qRef mMed q ≤ max (formFactor2 .contact qRef mMed q) (formFactor2 .longRange qRef mMed q) := by
  have hm := mul_self_nonneg mMed
  have h1 : 0 < q * q + mMed * mMed := by positivity
  have h0 : 0 < qRef * qRef + mMed * mMed := by positivity
  have hF0 : 0 ≤ (qRef * qRef + mMed * mMed) / (q * q + mMed * mMed) := by positivity
  have hL0 : 0 ≤ qRef * qRef / q / q := by positivity
  rcases le_total q qRef with h | h
  · have hsq : q * q ≤ qRef * qRef := mul_self_le_mul_self hq.le h
    have a1 : 1 ≤ (qRef * qRef + mMed * mMed) / (q * q + mMed * mMed) := by rw [le_div_iff₀ h1]; linarith
    have a2 : (qRef * qRef + mMed * mMed) / (q * q + mMed * mMed) ≤ qRef * qRef / q / q := by
      rw [div_div, div_le_div_iff₀ h1 (by positivity)]; nlinarith
    refine ⟨min_le_iff.2 (.inl ?_), le_max_iff.2 (.inr ?_)⟩
    · exact mul_self_le_mul_self zero_le_one a1
    · exact mul_self_le_mul_self hF0 a2
  · have hsq : qRef * qRef ≤ q * q := mul_self_le_mul_self hr.le h
    have a1 : (qRef * qRef + mMed * mMed) / (q * q + mMed * mMed) ≤ 1 := by rw [div_le_one h1]; linarith
    have a2 : qRef * qRef / q / q ≤ (qRef * qRef + mMed * mMed) / (q * q + mMed * mMed) := by
      rw [div_div, div_le_div_iff₀ (by positivity) h1]; nlinarith
    refine ⟨min_le_iff.2 (.inr ?_), le_max_iff.2 (.inl ?_)⟩
    · exact mul_self_le_mul_self hL0 a2
    · exact mul_self_le_mul_self hF0 a1

/-- C10: a massless mediator is the long-range interaction, and the heavy-mediator limit is the contact one. -/
theorem C10_limits (qRef q : ℝ) :
    formFactor2 .general qRef 0 q = formFactor2 .longRange qRef 0 q ∧
    Filter.Tendsto (fun m => formFactor2 .general qRef m q) Filter.atTop (nhds (formFactor2 .contact qRef 0 q)) := by
  constructor
  · simp [formFactor2, div_div]
  · have h1 : Filter.Tendsto (fun m : ℝ => m * m) Filter.atTop Filter.atTop :=
      Filter.Tendsto.atTop_mul_atTop₀ Filter.tendsto_id Filter.tendsto_id
    have h2 : Filter.Tendsto (fun m : ℝ => q * q + m * m) Filter.atTop Filter.atTop :=
      Filter.tendsto_atTop_add_const_left _ _ h1
    have h3 : Filter.Tendsto (fun m : ℝ => (qRef * qRef - q * q) / (q * q + m * m)) Filter.atTop (nhds 0) :=
      h2.const_div_atTop _
    have h4 : Filter.Tendsto (fun m : ℝ => (qRef * qRef + m * m) / (q * q + m * m)) Filter.atTop (nhds 1) := by
      have h5 := h3.const_add 1
      rw [add_zero] at h5
      refine h5.congr' ?_
      filter_upwards [Filter.eventually_gt_atTop 0] with m hm
      have : q * q + m * m ≠ 0 := by have := mul_self_nonneg q; positivity
      field_simp; ring
    have h6 := h4.mul h4
    simpa [formFactor2] using h6

example : formFactor2 .general 3 2 3 = 1 ∧ formFactor2 .electricDipole 3 0 6 = 1 / 4 := by
  constructor <;> norm_num [formFactor2]

/-! ## C06, C07 — total cross sections are integrals of differential ones -/

/-- C06 (nucleus, low-mass mode): for a contact interaction or a massive mediator the returned total cross section is
the integral of `dσ/dq²` over the kinematically allowed range. -/
theorem C06_total_nucleus_low_mass {p : DMParticle} {ff : FormFactor} {qRef mMed : ℝ} {I : Integrator} {iso : Isotope}
    {v : ℝ} (hi : p.interaction = .SI ff qRef mMed) (hl : p.lowMass = true)
    (hff : ff = .contact ∨ (ff = .general ∧ mMed ≠ 0)) (hv : v ≠ 0) :
    p.sigmaTotalNucleus U I iso v =
      .ok (∫ q2 in (0 : ℝ)..4 * (reducedMass p.mass iso.mass * v) ^ 2, p.dSigmadq2Nucleus U (Real.sqrt q2) iso v) := by
  have hQ : 0 ≤ 4 * (reducedMass p.mass iso.mass * v) ^ 2 := by positivity
  have hpi := Real.pi_ne_zero
  have e1 : ∀ q2, p.dSigmadq2Nucleus U (Real.sqrt q2) iso v =
      (1 / 4 / Real.pi / v / v * (p.fp * iso.Z + p.fn * iso.neutrons) ^ 2) * formFactor2 ff qRef mMed (Real.sqrt q2) := by
    intro q2; simp [dSigmadq2Nucleus, hi, hl]
  simp only [e1, intervalIntegral.integral_const_mul]
  rcases hff with rfl | ⟨rfl, hm⟩
  · simp only [formFactor2_contact, sigmaTotalNucleus, hi, hl]
    simp
    field_simp
  · rw [integral_formFactor2_general hm hQ]
    simp only [sigmaTotalNucleus, hi, hl]
    simp [generalFactor_ok hm hQ]
    have : mMed * mMed + 4 * (reducedMass p.mass iso.mass * v) ^ 2 ≠ 0 := by
      have := mul_self_pos.2 hm; positivity
    field_simp

/-- C06 (nucleus, otherwise): the quadrature of the same integrand over the same range. -/
theorem C06_total_nucleus_heavy {p : DMParticle} {ff : FormFactor} {qRef mMed : ℝ} {I : Integrator} {iso : Isotope}
    {v : ℝ} (hI : I.Exact) (hi : p.interaction = .SI ff qRef mMed) (hl : p.lowMass = false)
    (hff : ff = .contact ∨ ff = .general) :
    p.sigmaTotalNucleus U I iso v =
      .ok (∫ q2 in (0 : ℝ)..4 * (reducedMass p.mass iso.mass * v) ^ 2, p.dSigmadq2Nucleus U (Real.sqrt q2) iso v) := by
  rcases hff with rfl | rfl <;> simp [sigmaTotalNucleus, hi, hl, sigmaTotalNucleusBase, hI _ _ _]

/-- C06 (electron): same for electrons; low-mass mode plays no role. -/
theorem C06_total_electron {p : DMParticle} {ff : FormFactor} {qRef mMed : ℝ} {v : ℝ}
    (hi : p.interaction = .SI ff qRef mMed) (hff : ff = .contact ∨ (ff = .general ∧ mMed ≠ 0)) (hm : 0 < p.mass)
    (hv : v ≠ 0) :
    p.sigmaTotalElectron U v =
      .ok (∫ q2 in (0 : ℝ)..4 * (reducedMass p.mass U.mElectron * v) ^ 2, p.dSigmadq2Electron U (Real.sqrt q2) v) := by
  have hmu := reducedMass_pos hm U.mElectron_pos
  have hQ : 0 ≤ 4 * (reducedMass p.mass U.mElectron * v) ^ 2 := by positivity
  simp only [dSigmadq2Electron, hi, intervalIntegral.integral_const_mul]
  rcases hff with rfl | ⟨rfl, hm⟩
  · simp only [formFactor2_contact, sigmaTotalElectron, hi, sigmaElectron]
    simp
    field_simp
    norm_num
  · rw [integral_formFactor2_general hm hQ]
    simp only [sigmaTotalElectron, hi, sigmaElectron]
    simp [generalFactor_ok hm hQ]
    have : mMed * mMed + 4 * (reducedMass p.mass U.mElectron * v) ^ 2 ≠ 0 := by
      have := mul_self_pos.2 hm; positivity
    field_simp
    ring

/-- C06 (electrons, generic base-class implementation): it agrees with the closed form. -/
theorem C06_total_electron_base {p : DMParticle} {ff : FormFactor} {qRef mMed : ℝ} {I : Integrator} {v : ℝ}
    (hI : I.Exact) (hi : p.interaction = .SI ff qRef mMed) (hff : ff = .contact ∨ (ff = .general ∧ mMed ≠ 0))
    (hm : 0 < p.mass) (hv : v ≠ 0) :
    p.sigmaTotalElectron U v = .ok (p.sigmaTotalElectronBase U I v) := by
  rw [C06_total_electron hi hff hm hv, sigmaTotalElectronBase, hI]

/-- C06 (error branch): the two form factors with an infrared divergence are rejected for every isotope and electrons,
in every mode, and they are rejected for a reason: unless the coupling vanishes, the integral does not exist. -/
theorem C06_divergent_rejected {p : DMParticle} {ff : FormFactor} {qRef mMed : ℝ} {I : Integrator} {iso : Isotope}
    {v : ℝ} (hi : p.interaction = .SI ff qRef mMed) (hff : ff = .longRange ∨ ff = .electricDipole) :
    p.sigmaTotalNucleus U I iso v = .exit ∧ p.sigmaTotalElectron U v = .exit ∧
    (p.lowMass = true → v ≠ 0 → qRef ≠ 0 → reducedMass p.mass iso.mass ≠ 0 →
      p.fp * iso.Z + p.fn * iso.neutrons ≠ 0 →
      ¬ IntervalIntegrable (fun q2 => p.dSigmadq2Nucleus U (Real.sqrt q2) iso v) volume 0
        (4 * (reducedMass p.mass iso.mass * v) ^ 2)) := by
  refine ⟨?_, ?_, ?_⟩
  · rcases hff with rfl | rfl <;> simp [sigmaTotalNucleus, hi]
  · rcases hff with rfl | rfl <;> simp [sigmaTotalElectron, hi]
  · intro hl hv hq hmu hc hint
    have hpi := Real.pi_ne_zero
    have hQ : 0 < 4 * (reducedMass p.mass iso.mass * v) ^ 2 := by positivity
    have hK : (1 / 4 / Real.pi / v / v * (p.fp * iso.Z + p.fn * iso.neutrons) ^ 2) ≠ 0 := by
      refine mul_ne_zero ?_ (pow_ne_zero 2 hc)
      simp [hpi, hv]
    rcases hff with rfl | rfl
    · refine not_integrable_inv_sq hQ ?_
      have h2 := hint.const_mul ((1 / 4 / Real.pi / v / v * (p.fp * iso.Z + p.fn * iso.neutrons) ^ 2)⁻¹ *
        (qRef ^ 4)⁻¹)
      refine h2.congr fun x hx => ?_
      rw [Set.uIoc_of_le hQ.le] at hx
      have hx0 : Real.sqrt x ^ 2 = x := Real.sq_sqrt hx.1.le
      have hx1 : Real.sqrt x ≠ 0 := (Real.sqrt_pos.2 hx.1).ne'
      simp only [dSigmadq2Nucleus, hi, hl, formFactor2]
      rw [← hx0]
      field_simp
      simp
    · refine not_integrable_inv hQ ?_
      have h2 := hint.const_mul ((1 / 4 / Real.pi / v / v * (p.fp * iso.Z + p.fn * iso.neutrons) ^ 2)⁻¹ *
        (qRef ^ 2)⁻¹)
      refine h2.congr fun x hx => ?_
      rw [Set.uIoc_of_le hQ.le] at hx
      have hx0 : Real.sqrt x ^ 2 = x := Real.sq_sqrt hx.1.le
      have hx1 : Real.sqrt x ≠ 0 := (Real.sqrt_pos.2 hx.1).ne'
      simp only [dSigmadq2Nucleus, hi, hl, formFactor2]
      rw [← hx0]
      field_simp
      simp

/-- C06 (corner): form factor "General" without a mediator mass divides by zero instead of being rejected. -/
theorem C06_general_massless_not_rejected {p : DMParticle} {qRef : ℝ} {I : Integrator} {iso : Isotope} {v : ℝ}
    (hi : p.interaction = .SI .general qRef 0) :
    p.sigmaTotalElectron U v = .nonfinite ∧ (p.lowMass = true → p.sigmaTotalNucleus U I iso v = .nonfinite) := by
  constructor
  · simp [sigmaTotalElectron, hi, generalFactor, fdiv_zero]
  · intro hl; simp [sigmaTotalNucleus, hi, hl, generalFactor, fdiv_zero]

/-- C06: a particle reported as velocity-independent has the same total cross section at all speeds. -/
theorem C06_v_independence_sound {p : DMParticle} {I : Integrator} {iso : Isotope}
    (h : p.isSigmaTotalVDependent = false) (v v' : ℝ) :
    p.sigmaTotalNucleus U I iso v = p.sigmaTotalNucleus U I iso v' ∧
      p.sigmaTotalElectron U v = p.sigmaTotalElectron U v' := by
  unfold isSigmaTotalVDependent at h
  split at h
  · rename_i ff qRef mMed hi
    simp only [Bool.or_eq_false_iff, Bool.not_eq_false', decide_eq_false_iff_not] at h
    simp [sigmaTotalNucleus, sigmaTotalElectron, hi, h.1, h.2]
  · rename_i hi
    simp [sigmaTotalNucleus, sigmaTotalElectron, hi]

example : ∃ p : DMParticle, Reachable Units.sample p ∧
    p.interaction = .SI .contact (Units.sample.aEM * Units.sample.mElectron) 0 ∧
    p.lowMass = true ∧ p.isSigmaTotalVDependent = false ∧ p.fp ≠ 0 := by
  obtain ⟨c, _, hc, h, _⟩ := makeSI_eq (U := Units.sample) (m := 1) (s := 1) one_pos zero_le_one
  refine ⟨_, ⟨_, [.setLowMassMode true], makeSI_built one_pos h, by simp [ValidOp], rfl⟩, rfl, rfl, rfl, ?_⟩
  exact (hc one_pos).ne'

/-- C07: the spin-dependent total cross section is the integral of `dσ/dq²` over the allowed range, for every isotope
(with or without spin), and electrons likewise. -/
theorem C07_total_SD {p : DMParticle} {I : Integrator} {iso : Isotope} {v : ℝ} (hi : p.interaction = .SD) (hv : v ≠ 0)
    (hm : 0 < p.mass) :
    p.sigmaTotalNucleus U I iso v =
      .ok (∫ q2 in (0 : ℝ)..4 * (reducedMass p.mass iso.mass * v) ^ 2, p.dSigmadq2Nucleus U (Real.sqrt q2) iso v) ∧
    p.sigmaTotalElectron U v =
      .ok (∫ q2 in (0 : ℝ)..4 * (reducedMass p.mass U.mElectron * v) ^ 2, p.dSigmadq2Electron U (Real.sqrt q2) v) := by
  have hpi := Real.pi_ne_zero
  have hmu := (reducedMass_pos hm U.mElectron_pos).ne'
  constructor
  · by_cases hs : iso.spin = 0
    · simp [sigmaTotalNucleus, dSigmadq2Nucleus, hi, hs]
    · simp [sigmaTotalNucleus, dSigmadq2Nucleus, hi, hs]
      field_simp
  · simp [sigmaTotalElectron, dSigmadq2Electron, hi, sigmaElectron]
    field_simp
    norm_num

/-- C07: isotopes without spin do not scatter, others do unless their couplings cancel. -/
theorem C07_spinless_transparent {p : DMParticle} {I : Integrator} {iso : Isotope} {v : ℝ} (hi : p.interaction = .SD)
    (hs : iso.spin = 0) : p.sigmaTotalNucleus U I iso v = .ok 0 ∧ ∀ q, p.dSigmadq2Nucleus U q iso v = 0 := by
  simp [sigmaTotalNucleus, dSigmadq2Nucleus, hi, hs]

/-! ## C11 — hydrogen -/

/-- C11: on a proton target the total cross section is `Sigma_Proton()` (SI: contact interaction, low-mass mode, where
no nuclear form factor is applied), and the electron cross section is `Sigma_Electron()`. -/
theorem C11_hydrogen_SI {p : DMParticle} {qRef mMed : ℝ} {I : Integrator} {iso : Isotope} {v : ℝ}
    (hp : Reachable U p) (hi : p.interaction = .SI .contact qRef mMed) (hl : p.lowMass = true) (hZ : iso.Z = 1)
    (hA : iso.A = 1) (hm : iso.mass = U.mProton) :
    p.sigmaTotalNucleus U I iso v = .ok (p.sigmaProton U) ∧ p.sigmaTotalElectron U v = .ok p.sigmaElectron := by
  have hpre : p.prefactor = 1 := by
    rcases reachable_kind hp with ⟨h, _⟩ | ⟨_, _, _, h⟩
    · rw [hi] at h; cases h
    · exact h
  constructor
  · simp [sigmaTotalNucleus, hi, hl, hZ, Isotope.neutrons, hA, usub32, hm, sigmaProton, hpre]
    ring
  · simp [sigmaTotalElectron, hi]

/-- C11 (SD). -/
theorem C11_hydrogen_SD {p : DMParticle} {I : Integrator} {iso : Isotope} {v : ℝ}
    (hp : Reachable U p) (hi : p.interaction = .SD) (hs : iso.spin = 1 / 2) (hsp : iso.sp = 1 / 2)
    (hsn : iso.sn = 0) (hm : iso.mass = U.mProton) :
    p.sigmaTotalNucleus U I iso v = .ok (p.sigmaProton U) ∧ p.sigmaTotalElectron U v = .ok p.sigmaElectron := by
  have hpre : p.prefactor = 3 := by
    rcases reachable_kind hp with ⟨_, h⟩ | ⟨_, _, h, _⟩
    · exact h
    · rw [hi] at h; cases h
  have hpi := Real.pi_ne_zero
  constructor
  · simp [sigmaTotalNucleus, hi, hs, hsp, hsn, hm, sigmaProton, hpre]
    field_simp
    ring
  · simp [sigmaTotalElectron, hi]

/-- C11: a neutron-like target (`Z = 0`, `A = 1`) gives `Sigma_Neutron()`. -/
theorem C11_neutron_SI {p : DMParticle} {qRef mMed : ℝ} {I : Integrator} {iso : Isotope} {v : ℝ}
    (hp : Reachable U p) (hi : p.interaction = .SI .contact qRef mMed) (hl : p.lowMass = true) (hZ : iso.Z = 0)
    (hA : iso.A = 1) (hm : iso.mass = U.mProton) :
    p.sigmaTotalNucleus U I iso v = .ok (p.sigmaNeutron U) := by
  have hpre : p.prefactor = 1 := by
    rcases reachable_kind hp with ⟨h, _⟩ | ⟨_, _, _, h⟩
    · rw [hi] at h; cases h
    · exact h
  simp [sigmaTotalNucleus, hi, hl, hZ, Isotope.neutrons, hA, usub32, hm, sigmaNeutron, hpre]
  ring

/-- C11: the default isotope of the library, and the one built by the six-argument constructor, are such targets. -/
theorem C11_default_isotope_is_proton :
    (Isotope.default U).Z = 1 ∧ (Isotope.default U).A = 1 ∧ (Isotope.default U).mass = U.mProton ∧
    (Isotope.default U).spin = 1 / 2 ∧ (Isotope.default U).sp = 1 / 2 ∧ (Isotope.default U).sn = 0 ∧
    Isotope.make U 1 1 1 (1 / 2) (1 / 2) 0 = .ok (Isotope.default U) := by
  simp [Isotope.default, Isotope.make]

/-- C11 (general nuclei): with equal couplings the SI cross section scales with `A²` and the reduced masses. -/
theorem C11_A_squared_scaling {p : DMParticle} {qRef mMed : ℝ} {I : Integrator} {iso : Isotope} {v : ℝ}
    (hp : Reachable U p) (hi : p.interaction = .SI .contact qRef mMed) (hl : p.lowMass = true)
    (hf : p.fp = p.fn) (hZA : iso.Z ≤ iso.A) :
    p.sigmaTotalNucleus U I iso v = .ok (p.sigmaProton U * (iso.A : ℝ) ^ 2 *
      (reducedMass p.mass iso.mass / reducedMass p.mass U.mProton) ^ 2) := by
  have hpre : p.prefactor = 1 := by
    rcases reachable_kind hp with ⟨h, _⟩ | ⟨_, _, _, h⟩
    · rw [hi] at h; cases h
    · exact h
  have hmu := (reducedMass_pos (reachable_inv hp).mass U.mProton_pos).ne'
  have h1 : (iso.neutrons : ℝ) = iso.A - iso.Z := by
    rw [Isotope.neutrons, usub32_of_le hZA, Nat.cast_sub hZA]
  simp [sigmaTotalNucleus, hi, hl, sigmaProton, hpre, h1, hf]
  field_simp
  ring

/-- C11 (general nuclei, any fixed ratio `a : b`): the contact cross section on a nucleus with `Z` protons and `A - Z`
neutrons is `σ_p (μ_N/μ_p)² (Z + (A-Z) b/a)²`. -/
theorem C11_fixed_ratio_scaling {p : DMParticle} {a b qRef mMed : ℝ} {I : Integrator} {iso : Isotope} {v : ℝ}
    (hp : CleanReachable U p (a, b)) (hf : p.fixedRelation = true) (hi : p.interaction = .SI .contact qRef mMed)
    (hl : p.lowMass = true) (ha : a ≠ 0) (hZA : iso.Z ≤ iso.A) :
    p.sigmaTotalNucleus U I iso v = .ok (p.sigmaProton U * (iso.Z + (iso.A - iso.Z : ℝ) * (b / a)) ^ 2 *
      (reducedMass p.mass iso.mass / reducedMass p.mass U.mProton) ^ 2) := by
  have hr := cleanReachable_reachable hp
  have hpre : p.prefactor = 1 := by
    rcases reachable_kind hr with ⟨h, _⟩ | ⟨_, _, _, h⟩
    · rw [hi] at h; cases h
    · exact h
  have hmu := (reducedMass_pos (reachable_inv hr).mass U.mProton_pos).ne'
  have h1 : (iso.neutrons : ℝ) = iso.A - iso.Z := by
    rw [Isotope.neutrons, usub32_of_le hZA, Nat.cast_sub hZA]
  have h2 : p.fn = p.fp * (b / a) := by
    have := (cleanReachable_inv hp).requested hf
    simp only at this
    field_simp; linarith
  simp [sigmaTotalNucleus, hi, hl, sigmaProton, hpre, h1, h2]
  field_simp

/-- C11 (general nuclei, spin-dependent, any fixed ratio `a : b`). -/
theorem C11_fixed_ratio_scaling_SD {p : DMParticle} {a b : ℝ} {I : Integrator} {iso : Isotope} {v : ℝ}
    (hp : CleanReachable U p (a, b)) (hf : p.fixedRelation = true) (hi : p.interaction = .SD)
    (ha : a ≠ 0) (hs : iso.spin ≠ 0) :
    p.sigmaTotalNucleus U I iso v = .ok (p.sigmaProton U * (4 / 3 * (iso.spin + 1) / iso.spin) *
      (iso.sp + iso.sn * (b / a)) ^ 2 * (reducedMass p.mass iso.mass / reducedMass p.mass U.mProton) ^ 2) := by
  have hr := cleanReachable_reachable hp
  have hpre : p.prefactor = 3 := by
    rcases reachable_kind hr with ⟨_, h⟩ | ⟨_, _, h, _⟩
    · exact h
    · rw [hi] at h; cases h
  have hmu := (reducedMass_pos (reachable_inv hr).mass U.mProton_pos).ne'
  have h2 : p.fn = p.fp * (b / a) := by
    have := (cleanReachable_inv hp).requested hf
    simp only at this
    field_simp; linarith
  simp [sigmaTotalNucleus, hi, hs, sigmaProton, hpre, h2]
  field_simp

example : ∃ p : DMParticle, CleanReachable Units.sample p (1, 3) ∧ p.fixedRelation = true ∧ p.sigmaProton Units.sample ≠ 0 :=
  reachable_example one_pos one_pos

/-! ## C58 — recoil-energy and momentum spectra -/

/-- C58: `dσ/dE_R` is `2 m_N dσ/dq²` at `q² = 2 m_N E_R`, and integrating it over all recoil energies up to the
kinematic maximum gives the integral of `dσ/dq²` over all momentum transfers. -/
theorem C58_same_measure {p : DMParticle} {iso : Isotope} {v : ℝ} (hm : iso.mass ≠ 0) :
    (∀ ER, p.dSigmadERNucleus U ER iso v = 2 * iso.mass * p.dSigmadq2Nucleus U (Real.sqrt (2 * iso.mass * ER)) iso v) ∧
    ∫ ER in (0 : ℝ)..maximumNuclearRecoilEnergy v p.mass iso.mass, p.dSigmadERNucleus U ER iso v =
      ∫ q2 in (0 : ℝ)..4 * (reducedMass p.mass iso.mass * v) ^ 2, p.dSigmadq2Nucleus U (Real.sqrt q2) iso v := by
  refine ⟨fun _ => rfl, ?_⟩
  unfold dSigmadERNucleus
  rw [intervalIntegral.integral_const_mul]
  have h := intervalIntegral.smul_integral_comp_mul_left (a := 0) (b := maximumNuclearRecoilEnergy v p.mass iso.mass)
    (f := fun q2 => p.dSigmadq2Nucleus U (Real.sqrt q2) iso v) (2 * iso.mass)
  rw [smul_eq_mul, mul_zero] at h
  rw [h]
  congr 1
  unfold maximumNuclearRecoilEnergy
  field_simp
  ring

/-- C58 (with C06): the recoil spectrum integrates to the total cross section that the library reports. -/
theorem C58_integrates_to_total {p : DMParticle} {ff : FormFactor} {qRef mMed : ℝ} {I : Integrator} {iso : Isotope}
    {v : ℝ} (hi : p.interaction = .SI ff qRef mMed) (hl : p.lowMass = true)
    (hff : ff = .contact ∨ (ff = .general ∧ mMed ≠ 0)) (hv : v ≠ 0) (hm : iso.mass ≠ 0) :
    p.sigmaTotalNucleus U I iso v =
      .ok (∫ ER in (0 : ℝ)..maximumNuclearRecoilEnergy v p.mass iso.mass, p.dSigmadERNucleus U ER iso v) := by
  rw [C06_total_nucleus_low_mass hi hl hff hv, (C58_same_measure hm).2]

example : (Isotope.default Units.sample).mass ≠ 0 := Units.sample.mProton_pos.ne'

/-! ## C09 — nuclear form factor -/

/-- C09: the nuclear radius is a positive real number for every mass number (no root of a negative number). -/
theorem C09_radius_positive (iso : Isotope) :
    0 < (((1.23 * (iso.A : ℝ) ^ (1 / 3 : ℝ) - 0.6) * U.fm) * ((1.23 * (iso.A : ℝ) ^ (1 / 3 : ℝ) - 0.6) * U.fm)
      + 7 / 3 * (Real.pi * (0.52 * U.fm)) ^ 2 - 5 * (0.9 * U.fm) * (0.9 * U.fm)) ∧ 0 < iso.helmRadius U := by
  have hfm := U.fm_pos
  have hpi := Real.pi_gt_three
  have key : 0 < (((1.23 * (iso.A : ℝ) ^ (1 / 3 : ℝ) - 0.6) * U.fm) * ((1.23 * (iso.A : ℝ) ^ (1 / 3 : ℝ) - 0.6) * U.fm)
      + 7 / 3 * (Real.pi * (0.52 * U.fm)) ^ 2 - 5 * (0.9 * U.fm) * (0.9 * U.fm)) := by
    have h1 := mul_self_nonneg ((1.23 * (iso.A : ℝ) ^ (1 / 3 : ℝ) - 0.6) * U.fm)
    have h2 : (9 : ℝ) * U.fm ^ 2 ≤ Real.pi ^ 2 * U.fm ^ 2 := by
      apply mul_le_mul_of_nonneg_right _ (by positivity)
      nlinarith
    have h3 : 0 < U.fm ^ 2 := by positivity
    nlinarith
  exact ⟨key, Real.sqrt_pos.2 key⟩

/-- C09: the form factor is 1 at zero momentum transfer and its square never exceeds 1. -/
theorem C09_helm_bounded (iso : Isotope) (q : ℝ) :
    iso.helmFormFactor U 0 = 1 ∧ |iso.helmFormFactor U q| ≤ 1 ∧ iso.helmFormFactor U q ^ 2 ≤ 1 := by
  have h0 : iso.helmFormFactor U 0 = 1 := by
    have := U.MeV_pos
    unfold Isotope.helmFormFactor
    rw [if_pos (by positivity)]
  have habs : |iso.helmFormFactor U q| ≤ 1 := by
    unfold Isotope.helmFormFactor
    split_ifs with h
    · simp
    · have hq' : 0 < q := by
        have := U.MeV_pos
        have h1 : 0 < 1 / 10 ^ 6 * U.MeV := by positivity
        linarith [not_lt.1 h]
      have hx : 0 < q * iso.helmRadius U := mul_pos hq' (C09_radius_positive iso).2
      simp only
      generalize q * iso.helmRadius U = x at hx
      have hexp : Real.exp (-q * q * (0.9 * U.fm) * (0.9 * U.fm) / 2) ≤ 1 := by
        apply Real.exp_le_one_iff.2
        have : 0 ≤ q * q * (0.9 * U.fm) * (0.9 * U.fm) / 2 := by
          have := U.fm_pos; positivity
        linarith
      have h1 := abs_sin_sub_mul_cos_le hx.le
      have h2 : 3 * (Real.sin x / x ^ 3 - Real.cos x / x ^ 2) = 3 / x ^ 3 * (Real.sin x - x * Real.cos x) := by
        field_simp
      rw [abs_mul, h2, abs_mul, abs_of_pos (by positivity : 0 < 3 / x ^ 3), abs_of_pos (Real.exp_pos _)]
      have h3 : 3 / x ^ 3 * |Real.sin x - x * Real.cos x| ≤ 1 := by
        calc _ ≤ 3 / x ^ 3 * (x ^ 3 / 3) := by gcongr
          _ = 1 := by field_simp
      calc _ ≤ 1 * 1 := mul_le_mul h3 hexp (Real.exp_pos _).le zero_le_one
        _ = 1 := one_mul 1
  exact ⟨h0, habs, by rw [sq_le_one_iff_abs_le_one]; exact habs⟩

/-- C09: a finite nucleus never scatters more than a point-like one. -/
theorem C09_no_enhancement {p : DMParticle} {iso : Isotope} {q v : ℝ} :
    (p.setLowMassMode false).dSigmadq2Nucleus U q iso v ≤ (p.setLowMassMode true).dSigmadq2Nucleus U q iso v := by
  cases hi : p.interaction with
  | SD => simp [setLowMassMode, dSigmadq2Nucleus, hi]
  | SI ff qRef mMed =>
    have hF := C10_nonneg ff qRef mMed q
    have hpi := Real.pi_pos
    have hK : 0 ≤ 1 / 4 / Real.pi / v / v * (p.fp * iso.Z + p.fn * iso.neutrons) ^ 2 * formFactor2 ff qRef mMed q := by
      have : 1 / 4 / Real.pi / v / v = 1 / 4 / Real.pi / v ^ 2 := by rw [div_div _ v v, sq]
      rw [this]; positivity
    have hH := (C09_helm_bounded (U := U) iso q).2.2
    simp only [setLowMassMode, dSigmadq2Nucleus, hi, if_true, mul_one]
    generalize 1 / 4 / Real.pi / v / v * (p.fp * iso.Z + p.fn * iso.neutrons) ^ 2 * formFactor2 ff qRef mMed q = K at *
    simp only [Bool.false_eq_true, if_false]
    rw [mul_assoc, ← sq]; exact mul_le_of_le_one_right hK hH

/-- C09: differential cross sections are never negative (any spin `J ≥ 0` for SD). -/
theorem C09_dsigma_nonneg {p : DMParticle} {iso : Isotope} {q v : ℝ} (hs : 0 ≤ iso.spin) :
    0 ≤ p.dSigmadq2Nucleus U q iso v ∧ (0 ≤ p.sigmaElectron → 0 ≤ p.dSigmadq2Electron U q v) := by
  have hpi := Real.pi_pos
  constructor
  · unfold dSigmadq2Nucleus
    split
    · rename_i ff qRef mMed _
      have hF := C10_nonneg ff qRef mMed q
      have : 1 / 4 / Real.pi / v / v = 1 / 4 / Real.pi / v ^ 2 := by rw [div_div _ v v, sq]
      simp only [this]
      rw [mul_assoc]
      exact mul_nonneg (by positivity) (mul_self_nonneg _)
    · split_ifs with h
      · exact le_rfl
      · have : 1 / Real.pi / v / v = 1 / Real.pi / v ^ 2 := by rw [div_div _ v v, sq]
        rw [this]; positivity
  · intro he
    unfold dSigmadq2Electron
    split
    · rename_i ff qRef mMed _
      have hF := C10_nonneg ff qRef mMed q
      have he : 0 ≤ p.sigmaElectronRef := he
      positivity
    · have he : 0 ≤ p.sigmaElectronRef := he
      positivity

end Obscura
