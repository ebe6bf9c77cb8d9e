import Verif.Lemmas.Particle

/-!
# Properties C01–C05: the DM particle as a state machine
-/

namespace Obscura
open DMParticle Spec

variable {U : Units}

/-! ## C01 — reading a cross section returns what was set -/

/-- C01 (proton). In every reachable state, after `Set_Sigma_Proton(s)` with `s ≥ 0` the proton cross section is
`s`, unless the requested ratio has no proton component; with a fixed ratio `a : b` the neutron cross section is
`s (b/a)²`; nothing else changes. -/
theorem C01_set_sigma_proton {p : DMParticle} {a b s : ℝ} (hp : ReachableWith U p (a, b)) (hs : 0 ≤ s)
    (ha : p.fixedRelation = true → a ≠ 0) :
    ∃ p', p.setSigmaProton U s = .ok p' ∧ p'.sigmaProton U = s ∧
      (p.fixedRelation = true → p'.sigmaNeutron U * a ^ 2 = s * b ^ 2) ∧
      (p.fixedRelation = false → p'.sigmaNeutron U = p.sigmaNeutron U) ∧
      p'.sigmaElectron = p.sigmaElectron ∧ p'.mass = p.mass ∧ p'.interaction = p.interaction := by
  obtain ⟨hb, hr⟩ := reachableWith_inv hp
  have hsq := cpl_sq (U := U) hb.pre hb.mass hs
  cases hf : p.fixedRelation with
  | true =>
    have ha0 := ha hf
    have h0 : p.fpRel ≠ 0 := fun h => ha0 ((hr.fpRel_eq_zero hb).1 h)
    refine ⟨_, setSigmaProton_fixed hb.pre hb.mass hs hf h0, ?_, fun _ => ?_, by simp, rfl, rfl, rfl⟩
    · exact hsq
    · have h2 := hr.1
      have h3 : p.fnRel / p.fpRel * a = b := by
        simp only at h2; field_simp; linarith
      simp only [sigmaNeutron]
      rw [← h3]
      calc _ = (p.prefactor * cpl U p s * cpl U p s * reducedMass p.mass U.mProton *
              reducedMass p.mass U.mProton / Real.pi) * (p.fnRel / p.fpRel * a) ^ 2 := by ring
        _ = _ := by rw [hsq]
  | false =>
    refine ⟨_, setSigmaProton_unfixed hb.pre hb.mass hs hf, hsq, by simp, fun _ => rfl, rfl, rfl, rfl⟩

/-- C01 (neutron). -/
theorem C01_set_sigma_neutron {p : DMParticle} {a b s : ℝ} (hp : ReachableWith U p (a, b)) (hs : 0 ≤ s)
    (hb' : p.fixedRelation = true → b ≠ 0) :
    ∃ p', p.setSigmaNeutron U s = .ok p' ∧ p'.sigmaNeutron U = s ∧
      (p.fixedRelation = true → p'.sigmaProton U * b ^ 2 = s * a ^ 2) ∧
      (p.fixedRelation = false → p'.sigmaProton U = p.sigmaProton U) ∧
      p'.sigmaElectron = p.sigmaElectron ∧ p'.mass = p.mass ∧ p'.interaction = p.interaction := by
  obtain ⟨hb, hr⟩ := reachableWith_inv hp
  have hsq := cpl_sq (U := U) hb.pre hb.mass hs
  cases hf : p.fixedRelation with
  | true =>
    have hb0 := hb' hf
    have h0 : p.fnRel ≠ 0 := fun h => hb0 ((hr.fnRel_eq_zero hb).1 h)
    refine ⟨_, setSigmaNeutron_fixed hb.pre hb.mass hs hf h0, ?_, fun _ => ?_, by simp, rfl, rfl, rfl⟩
    · exact hsq
    · have h2 := hr.1
      have h3 : p.fpRel / p.fnRel * b = a := by
        simp only at h2; field_simp; linarith
      simp only [sigmaProton]
      rw [← h3]
      calc _ = (p.prefactor * cpl U p s * cpl U p s * reducedMass p.mass U.mProton *
              reducedMass p.mass U.mProton / Real.pi) * (p.fpRel / p.fnRel * b) ^ 2 := by ring
        _ = _ := by rw [hsq]
  | false =>
    refine ⟨_, setSigmaNeutron_unfixed hb.pre hb.mass hs hf, hsq, by simp, fun _ => rfl, rfl, rfl, rfl⟩

/-- C01 (a nucleon excluded by the fixed ratio stays without interaction, whatever is requested). -/
theorem C01_excluded_nucleon_stays_zero {p : DMParticle} {b s : ℝ} (hp : ReachableWith U p (0, b))
    (hf : p.fixedRelation = true) :
    ∃ p', p.setSigmaProton U s = .ok p' ∧ p'.sigmaProton U = 0 ∧ p'.sigmaNeutron U = p.sigmaNeutron U := by
  obtain ⟨hb, hr⟩ := reachableWith_inv hp
  have h0 : p.fpRel = 0 := (hr.fpRel_eq_zero hb).2 rfl
  refine ⟨{ p with fp := 0 }, by simp [setSigmaProton, hf, h0], by simp [sigmaProton], rfl⟩

/-- C01 (electron). Holds in every state whatsoever. -/
theorem C01_set_sigma_electron (p : DMParticle) (s : ℝ) :
    (p.setSigmaElectron s).sigmaElectron = s ∧ (p.setSigmaElectron s).sigmaProton U = p.sigmaProton U ∧
      (p.setSigmaElectron s).sigmaNeutron U = p.sigmaNeutron U ∧ (p.setSigmaElectron s).mass = p.mass :=
  ⟨rfl, rfl, rfl, rfl⟩

/-- C01 (interaction parameter). In every reachable state and for both targets, `Set_Interaction_Parameter(s, t)`
succeeds for `s ≥ 0` and `Get_Interaction_Parameter(t)` then returns `s`. -/
theorem C01_interaction_parameter {p : DMParticle} {s : ℝ} (hp : Reachable U p) (hs : 0 ≤ s) {t : String}
    (ht : t = "Nuclei" ∨ t = "Electrons") :
    ∃ p', p.setInteractionParameter U s t = .ok p' ∧ p'.getInteractionParameter U t = .ok s := by
  have hb := reachable_inv hp
  have hsq := cpl_sq (U := U) hb.pre hb.mass hs
  rcases ht with rfl | rfl
  · by_cases h0 : 0 < p.fpRel
    · cases hf : p.fixedRelation with
      | true =>
        refine ⟨_, by simpa [setInteractionParameter, h0] using
          setSigmaProton_fixed hb.pre hb.mass hs hf h0.ne', ?_⟩
        simp [getInteractionParameter, h0, sigmaProton, hsq]
      | false =>
        refine ⟨_, by simpa [setInteractionParameter, h0] using setSigmaProton_unfixed hb.pre hb.mass hs hf, ?_⟩
        simp [getInteractionParameter, h0, sigmaProton, hsq]
    · have hn := hb.fn_ne h0
      cases hf : p.fixedRelation with
      | true =>
        refine ⟨_, by simpa [setInteractionParameter, h0] using
          setSigmaNeutron_fixed hb.pre hb.mass hs hf hn, ?_⟩
        simp [getInteractionParameter, h0, sigmaNeutron, hsq]
      | false =>
        refine ⟨_, by simpa [setInteractionParameter, h0] using setSigmaNeutron_unfixed hb.pre hb.mass hs hf, ?_⟩
        simp [getInteractionParameter, h0, sigmaNeutron, hsq]
  · exact ⟨p.setSigmaElectron s, by simp [setInteractionParameter],
      by simp [getInteractionParameter, sigmaElectron, setSigmaElectron]⟩

/-- C01 (error branch): any other target name is rejected by both functions, in every state. -/
theorem C01_unknown_target_exits (p : DMParticle) (s : ℝ) {t : String} (h1 : t ≠ "Nuclei") (h2 : t ≠ "Electrons") :
    p.setInteractionParameter U s t = .exit ∧ p.getInteractionParameter U t = .exit := by
  simp [setInteractionParameter, getInteractionParameter, h1, h2]

/-- C01 (error branch): a negative cross section is never accepted silently (the coupling becomes NaN). -/
theorem C01_negative_sigma_nonfinite {p : DMParticle} {a b s : ℝ} (hp : ReachableWith U p (a, b)) (hs : s < 0)
    (ha : p.fixedRelation = true → a ≠ 0) : p.setSigmaProton U s = .nonfinite := by
  obtain ⟨hb, hr⟩ := reachableWith_inv hp
  have h1 : Real.pi * s / p.prefactor < 0 :=
    div_neg_of_neg_of_pos (mul_neg_of_pos_of_neg Real.pi_pos hs) hb.pre
  have h2 : p.couplingOf U s = .nonfinite := by
    simp [couplingOf, fdiv_ok hb.pre.ne', fsqrt, h1]
  cases hf : p.fixedRelation with
  | true =>
    have h0 : p.fpRel ≠ 0 := fun h => ha hf ((hr.fpRel_eq_zero hb).1 h)
    simp [setSigmaProton, hf, h0, h2]
  | false => simp [setSigmaProton, hf, h2]

example : ∃ p : DMParticle, ReachableWith Units.sample p (1, 3) ∧ p.fixedRelation = true := by
  obtain ⟨p, ⟨p₀, ops, h1, h2, _, h3, h4⟩, hf, _⟩ := reachable_example (U := Units.sample) one_pos one_pos
  exact ⟨p, ⟨p₀, ops, h1, h2, h3, h4⟩, hf⟩

/-! ## C03 — a fixed coupling ratio is honoured -/

/-- C03, restricted to histories in which the ratio-fixing calls are made while the proton cross section is not
zero: then `fp : fn` is exactly the ratio `a : b` most recently requested (in particular
`σ_n a² = σ_p b²`), whatever other calls were made before or after. Missing for the full C03: ratio-fixing calls on
particles without proton interaction, for which it is false (`C03_fails`). -/
theorem C03_ratio_honoured_partial {p : DMParticle} {a b : ℝ} (hp : CleanReachable U p (a, b))
    (hf : p.fixedRelation = true) :
    p.fp * b = p.fn * a ∧ p.sigmaNeutron U * a ^ 2 = p.sigmaProton U * b ^ 2 := by
  have h := (cleanReachable_inv hp).requested hf
  simp only at h
  refine ⟨h, ?_⟩
  simp only [sigmaNeutron, sigmaProton]
  linear_combination (-(p.prefactor * reducedMass p.mass U.mProton * reducedMass p.mass U.mProton / Real.pi)
    * (p.fp * b + p.fn * a)) * h

example : ∃ p : DMParticle, CleanReachable Units.sample p (1, 3) ∧ p.fixedRelation = true := by
  obtain ⟨p, h, hf, _⟩ := reachable_example (U := Units.sample) one_pos one_pos
  exact ⟨p, h, hf⟩

/-- C03 is violated: fixing 0 : 1 and then 1 : 1 leaves a particle whose ratio is declared fixed at 1 : 1 but which
has no proton interaction at all (the branch at `src/DM_Particle_Standard.cpp:149` multiplies the wrong coupling). -/
theorem C03_fails {m s : ℝ} (hm : 0 < m) (hs : 0 < s) :
    ∃ p₀ p, makeSI U m s = .ok p₀ ∧
      p₀.run U [.fixCouplingRatio 0 1, .fixCouplingRatio 1 1] = .ok p ∧
      p.fixedRelation = true ∧ p.fpRel = p.fnRel ∧ p.sigmaProton U = 0 ∧ p.sigmaNeutron U = s := by
  obtain ⟨c, hc0, hc, h, hcs⟩ := makeSI_eq (U := U) hm hs.le
  have hc := hc hs
  have h01 : (0 : ℝ) + 1 ≠ 0 := by norm_num
  have h11 : (1 : ℝ) + 1 ≠ 0 := by norm_num
  have h12 : (1 : ℝ) / (1 + 1) ≠ 0 := by norm_num
  refine ⟨_, { standard U m 1 (.SI .contact (U.aEM * U.mElectron) 0) with
              fixedRelation := true, fpRel := 1 / (1 + 1), fnRel := 1 / (1 + 1), fp := 1 / (1 + 1) / (1 / (1 + 1)) * 0,
              fn := c }, h, ?_, rfl, rfl, ?_, ?_⟩
  · simp only [run, step, fixCouplingRatio, fdiv_ok h01, Outcome.bind_ok, if_true, fdiv_ok h11, one_ne_zero,
      if_false, ne_eq, not_true, hc.ne', not_false_eq_true, fdiv_ok h12]
  · simp [sigmaProton]
  · simpa [sigmaNeutron, standard] using hcs

/-! ## C02 — changing the mass keeps the cross sections -/

/-- C02, ratio fixed, clean histories: `Set_Mass(m)` succeeds for `m > 0`, sets the mass, keeps all three reference
cross sections, and keeps the couplings' mutual ratio and relative sign. -/
theorem C02_set_mass_fixed_partial {p : DMParticle} {r : ℝ × ℝ} {m : ℝ} (hp : CleanReachable U p r) (hm : 0 < m)
    (hf : p.fixedRelation = true) :
    ∃ p', p.setMass U m = .ok p' ∧ p'.mass = m ∧ p'.sigmaProton U = p.sigmaProton U ∧
      p'.sigmaNeutron U = p.sigmaNeutron U ∧ p'.sigmaElectron = p.sigmaElectron ∧
      p'.fp * p.fn = p'.fn * p.fp ∧ p'.interaction = p.interaction := by
  have hc := cleanReachable_inv hp
  have hb := hc.base
  have hb' : BaseInv { p with mass := m } := hb.withMass hm
  have hrel := hc.rel hf
  by_cases h0 : p.fpRel = 0
  · have hn : p.fnRel ≠ 0 := hb.fn_ne (by rw [h0]; exact lt_irrefl 0)
    have hfp : p.fp = 0 := by
      rw [h0] at hrel
      have : p.fp * p.fnRel = 0 := by linarith
      exact (mul_eq_zero.1 this).resolve_right hn
    have hs := sigmaNeutron_nonneg (U := U) hb.pre
    refine ⟨_, setMass_fixed_n hb.pre hm hf h0 hn, rfl, ?_, ?_, rfl, ?_, rfl⟩
    · simp [sigmaProton, h0, hfp]
    · exact cpl_sq hb'.pre hb'.mass hs
    · simp [h0, hfp]
  · have hs := sigmaProton_nonneg (U := U) hb.pre
    have hsq := cpl_sq (U := U) hb'.pre hb'.mass hs
    have hfn : p.fn = p.fnRel / p.fpRel * p.fp := by field_simp; linarith
    refine ⟨_, setMass_fixed_p hb.pre hm hf h0, rfl, hsq, ?_, rfl, ?_, rfl⟩
    · have h1 : p.sigmaNeutron U = p.sigmaProton U * (p.fnRel / p.fpRel) ^ 2 := by
        simp only [sigmaNeutron, sigmaProton, hfn]; ring
      rw [h1]
      simp only [sigmaNeutron]
      simp only at hsq
      calc _ = (p.prefactor * cpl U { p with mass := m } (p.sigmaProton U)
              * cpl U { p with mass := m } (p.sigmaProton U) * reducedMass m U.mProton *
              reducedMass m U.mProton / Real.pi) * (p.fnRel / p.fpRel) ^ 2 := by ring
        _ = _ := by rw [hsq]
    · simp only [hfn]; ring

/-- C02, ratio not fixed: in every reachable state the three reference cross sections survive `Set_Mass`. -/
theorem C02_set_mass_unfixed {p : DMParticle} {m : ℝ} (hp : Reachable U p) (hm : 0 < m)
    (hf : p.fixedRelation = false) :
    ∃ p', p.setMass U m = .ok p' ∧ p'.mass = m ∧ p'.sigmaProton U = p.sigmaProton U ∧
      p'.sigmaNeutron U = p.sigmaNeutron U ∧ p'.sigmaElectron = p.sigmaElectron ∧
      p'.interaction = p.interaction := by
  have hb := reachable_inv hp
  have hb' : BaseInv { p with mass := m } := hb.withMass hm
  have hs := sigmaProton_nonneg (U := U) hb.pre
  have hn := sigmaNeutron_nonneg (U := U) hb.pre
  refine ⟨_, setMass_unfixed hb.pre hm hf, rfl, ?_, ?_, rfl, rfl⟩
  · exact cpl_sq hb'.pre hb'.mass hs
  · exact cpl_sq hb'.pre hb'.mass hn

/-- C02 is violated after the defect of C03: for the particle of `C03_fails`, setting the mass to the value it already
has erases the neutron interaction. -/
theorem C02_fails_after_C03 {m s : ℝ} (hm : 0 < m) (hs : 0 < s) :
    ∃ p₀ p p', makeSI U m s = .ok p₀ ∧
      p₀.run U [.fixCouplingRatio 0 1, .fixCouplingRatio 1 1] = .ok p ∧ p.setMass U p.mass = .ok p' ∧
      p.sigmaNeutron U = s ∧ p'.sigmaNeutron U = 0 := by
  obtain ⟨c, hc0, hc, h, hcs⟩ := makeSI_eq (U := U) hm hs.le
  have hc := hc hs
  have h01 : (0 : ℝ) + 1 ≠ 0 := by norm_num
  have h11 : (1 : ℝ) + 1 ≠ 0 := by norm_num
  have h12 : (1 : ℝ) / (1 + 1) ≠ 0 := by norm_num
  let p : DMParticle := { standard U m 1 (.SI .contact (U.aEM * U.mElectron) 0) with
              fixedRelation := true, fpRel := 1 / (1 + 1), fnRel := 1 / (1 + 1), fp := 1 / (1 + 1) / (1 / (1 + 1)) * 0,
              fn := c }
  have hsp : p.sigmaProton U = 0 := by simp [p, sigmaProton]
  have hpre : 0 < p.prefactor := by simp [p, standard]
  refine ⟨_, p, { p with fp := cpl U p 0, fn := p.fnRel / p.fpRel * cpl U p 0 }, h, ?_, ?_, ?_, ?_⟩
  · simp only [p, run, step, fixCouplingRatio, fdiv_ok h01, Outcome.bind_ok, if_true, fdiv_ok h11, one_ne_zero,
      if_false, ne_eq, not_true, hc.ne', not_false_eq_true, fdiv_ok h12]
  · rw [setMass_fixed_p (p := p) (m := p.mass) hpre hm rfl h12, hsp]
  · simpa [p, sigmaNeutron, standard] using hcs
  · simp [sigmaNeutron, cpl]

/-- C02 and nuclear cross sections, violated for unfixed ratios: after `Fix_fn_over_fp(-1/2)` and
`Unfix_Coupling_Ratios()`, setting the mass to the value it already has turns the differential cross section on
tritium (Z=1, A=3) from zero into a positive number, because the relative sign of the couplings is lost. -/
theorem C02_fails_relative_sign {m s : ℝ} (hm : 0 < m) (hs : 0 < s) {iso : Isotope} (hZ : iso.Z = 1) (hA : iso.A = 3)
    {v : ℝ} (hv : v ≠ 0) :
    ∃ p₀ p p', makeSI U m s = .ok p₀ ∧
      p₀.run U [.setLowMassMode true, .fixFnOverFp (-1 / 2), .unfixCouplingRatios] = .ok p ∧
      p.setMass U p.mass = .ok p' ∧
      (∀ q, p.dSigmadq2Nucleus U q iso v = 0) ∧ (∀ q, 0 < p'.dSigmadq2Nucleus U q iso v) := by
  obtain ⟨c, hc0, hc, h, hcs⟩ := makeSI_eq (U := U) hm hs.le
  have hc := hc hs
  have h01 : (1 : ℝ) + -1 / 2 ≠ 0 := by norm_num
  have h12 : (1 : ℝ) / (1 + -1 / 2) ≠ 0 := by norm_num
  let p : DMParticle := { standard U m 1 (.SI .contact (U.aEM * U.mElectron) 0) with
              lowMass := true,
              fixedRelation := false, fpRel := 1 / (1 + -1 / 2), fnRel := -1 / 2 / (1 + -1 / 2), fp := c,
              fn := -1 / 2 / (1 + -1 / 2) / (1 / (1 + -1 / 2)) * c }
  have hfn : p.fn = - (c / 2) := by simp only [p]; norm_num; ring
  have hpre : 0 < p.prefactor := by simp [p, standard]
  have hc1 : cpl U p (p.sigmaProton U) = c := by
    rw [cpl_sigmaProton hpre hm]; exact abs_of_pos hc
  have hc2 : cpl U p (p.sigmaNeutron U) = c / 2 := by
    rw [cpl_sigmaNeutron hpre hm, hfn, abs_neg, abs_of_pos (half_pos hc)]
  have hneu : iso.neutrons = 2 := by simp [Isotope.neutrons, hZ, hA, usub32]
  refine ⟨_, p, { p with fp := c, fn := c / 2 }, h, ?_, ?_, ?_, ?_⟩
  · simp only [p, run, step, fixFnOverFp, fdiv_ok h01, Outcome.bind_ok, ne_eq, setLowMassMode,
      hc.ne', not_false_eq_true, fdiv_ok h12, unfixCouplingRatios, if_true]
  · rw [setMass_unfixed (p := p) (m := p.mass) hpre hm rfl]
    have e1 : ({ p with mass := p.mass } : DMParticle) = p := rfl
    rw [e1, hc1, hc2]
  · intro q
    have : p.fp * (iso.Z : ℝ) + p.fn * (iso.neutrons : ℝ) = 0 := by
      rw [hfn, hZ, hneu]; simp only [p]; push_cast; ring
    simp only [dSigmadq2Nucleus, this]
    simp [p, standard]
  · intro q
    have h5 : c * (iso.Z : ℝ) + c / 2 * (iso.neutrons : ℝ) = 2 * c := by
      rw [hZ, hneu]; push_cast; ring
    have : 0 < 1 / 4 / Real.pi / v / v * (2 * c) ^ 2 := by
      have h6 : 1 / 4 / Real.pi / v / v = 1 / 4 / Real.pi / v ^ 2 := by field_simp
      rw [h6]
      have := Real.pi_pos
      have : 0 < v ^ 2 := by positivity
      positivity
    simpa [dSigmadq2Nucleus, p, standard, formFactor2, h5] using this

/-! ## C04 — fixing the same ratio twice -/

/-- C04, ratios without a zero component, and the two other ratio-fixing calls for every argument: a second identical
call changes nothing, in every state. Missing for the full C04: ratios `a : 0` and `0 : b` in
`Fix_Coupling_Ratio`, for which it is false (`C04_fails`). -/
theorem C04_idempotent_partial {p p' : DMParticle} :
    (∀ a b, a ≠ 0 → b ≠ 0 → p.fixCouplingRatio a b = .ok p' → p'.fixCouplingRatio a b = .ok p') ∧
    (∀ r, p.fixFnOverFp r = .ok p' → p'.fixFnOverFp r = .ok p') ∧
    (∀ r, p.fixFpOverFn r = .ok p' → p'.fixFpOverFn r = .ok p') := by
  refine ⟨?_, ?_, ?_⟩
  · intro a b ha hb h
    unfold fixCouplingRatio fdiv at h
    by_cases h0 : a + b = 0
    · simp [h0] at h
    have e1 : a / (a + b) ≠ 0 := div_ne_zero ha h0
    have e2 : b / (a + b) ≠ 0 := div_ne_zero hb h0
    simp only [h0, if_false, Outcome.bind_ok, ha, hb, e1, e2] at h
    split_ifs at h with h3 h4
    · cases h
      simp only [fixCouplingRatio, fdiv_ok h0, Outcome.bind_ok, ha, hb, if_false, fdiv_ok e1]
      rw [if_pos h3]
    · cases h
      have h3 : p.fp = 0 := not_not.1 h3
      simp only [fixCouplingRatio, fdiv_ok h0, Outcome.bind_ok, ha, hb, if_false, h3, mul_zero, ne_eq,
        not_true, h4, not_false_eq_true, if_true, fdiv_ok e2]
  · intro r h
    unfold fixFnOverFp fdiv at h
    by_cases h0 : 1 + r = 0
    · simp [h0] at h
    have e1 : 1 / (1 + r) ≠ 0 := div_ne_zero one_ne_zero h0
    simp only [h0, if_false, Outcome.bind_ok, e1] at h
    split_ifs at h with h3 h4 h5
    · cases h
      simp only [fixFnOverFp, fdiv_ok h0, Outcome.bind_ok, h3, ne_eq, not_false_eq_true, if_true, fdiv_ok e1]
    · cases h
    · cases h
      have h3 : p.fp = 0 := not_not.1 h3
      simp only [fixFnOverFp, fdiv_ok h0, Outcome.bind_ok, h3, ne_eq, not_false_eq_true, if_true, fdiv_ok h5,
        mul_zero, not_true, if_false, h4]
  · intro r h
    unfold fixFpOverFn fdiv at h
    simp only [one_ne_zero, if_false, Outcome.bind_ok] at h
    split_ifs at h with h1 h2 h3
    · cases h
      simp [fixFpOverFn, h1]
    · cases h
      simp only [fixFpOverFn, h1, if_false, h2, ne_eq, not_false_eq_true, if_true, fdiv_ok h1, Outcome.bind_ok]
    · cases h
      have h2 : p.fp = 0 := not_not.1 h2
      simp only [fixFpOverFn, h1, if_false, h2, mul_zero, ne_eq, not_true, h3, not_false_eq_true, if_true,
        fdiv_ok one_ne_zero, Outcome.bind_ok]

example : ∃ p p' : DMParticle, Reachable Units.sample p ∧ p.fixCouplingRatio 1 3 = .ok p' := by
  obtain ⟨c, hc0, hc, h, _⟩ := makeSI_eq (U := Units.sample) (m := 1) (s := 1) one_pos zero_le_one
  have hc := hc one_pos
  have h4 : (1 : ℝ) + 3 ≠ 0 := by norm_num
  have h5 : (1 : ℝ) / (1 + 3) ≠ 0 := by norm_num
  exact ⟨_, { standard Units.sample 1 1 (.SI .contact (Units.sample.aEM * Units.sample.mElectron) 0) with
              fixedRelation := true, fpRel := 1 / (1 + 3), fnRel := 3 / (1 + 3), fp := c,
              fn := 3 / (1 + 3) / (1 / (1 + 3)) * c }, ⟨_, [], makeSI_built one_pos h, by simp, rfl⟩, by
    simp only [fixCouplingRatio, fdiv_ok h4, Outcome.bind_ok, one_ne_zero, if_false,
      OfNat.ofNat_ne_zero, hc.ne', ne_eq, not_false_eq_true, if_true, fdiv_ok h5]⟩

/-- C04 is violated: repeating `Fix_Coupling_Ratio(0, b)` or `Fix_Coupling_Ratio(a, 0)` erases the interaction with
protons *and* neutrons, for every particle. -/
theorem C04_fails (p : DMParticle) {a : ℝ} (ha : a ≠ 0) :
    (∃ p', p.run U [.fixCouplingRatio 0 a, .fixCouplingRatio 0 a] = .ok p' ∧
      p'.sigmaProton U = 0 ∧ p'.sigmaNeutron U = 0) ∧
    (∃ p', p.run U [.fixCouplingRatio a 0, .fixCouplingRatio a 0] = .ok p' ∧
      p'.sigmaProton U = 0 ∧ p'.sigmaNeutron U = 0) := by
  have h1 : (0 : ℝ) + a ≠ 0 := by simpa using ha
  have h2 : a + 0 ≠ 0 := by simpa using ha
  constructor
  · refine ⟨{ p with fixedRelation := true, fpRel := 0 / (0 + a), fnRel := a / (0 + a), fp := 0, fn := 0 },
      ?_, by simp [sigmaProton], by simp [sigmaNeutron]⟩
    simp only [run, step, fixCouplingRatio, fdiv_ok h1, Outcome.bind_ok, if_true]
  · refine ⟨{ p with fixedRelation := true, fpRel := a / (a + 0), fnRel := 0 / (a + 0), fp := 0, fn := 0 },
      ?_, by simp [sigmaProton], by simp [sigmaNeutron]⟩
    simp only [run, step, fixCouplingRatio, fdiv_ok h2, Outcome.bind_ok, if_true, ha, if_false]

/-- A first call with a one-sided ratio moves the full strength to the remaining nucleon. -/
theorem C04_first_call_moves_strength (p : DMParticle) {a : ℝ} (ha : a ≠ 0) :
    (∃ p', p.fixCouplingRatio 0 a = .ok p' ∧ p'.sigmaProton U = 0 ∧ p'.sigmaNeutron U = p.sigmaProton U) ∧
    (∃ p', p.fixCouplingRatio a 0 = .ok p' ∧ p'.sigmaNeutron U = 0 ∧ p'.sigmaProton U = p.sigmaNeutron U) := by
  have h1 : (0 : ℝ) + a ≠ 0 := by simpa using ha
  have h2 : a + 0 ≠ 0 := by simpa using ha
  constructor
  · refine ⟨{ p with fixedRelation := true, fpRel := 0 / (0 + a), fnRel := a / (0 + a), fp := 0, fn := p.fp },
      ?_, by simp [sigmaProton], rfl⟩
    simp only [fixCouplingRatio, fdiv_ok h1, Outcome.bind_ok, if_true]
  · refine ⟨{ p with fixedRelation := true, fpRel := a / (a + 0), fnRel := 0 / (a + 0), fp := p.fn, fn := 0 },
      ?_, by simp [sigmaNeutron], rfl⟩
    simp only [fixCouplingRatio, fdiv_ok h2, Outcome.bind_ok, if_true, ha, if_false]

/-- Opposite ratios `a : -a` (and `-1` for the other two-sided call) are not finite. -/
theorem C04_opposite_ratio_nonfinite (p : DMParticle) (a : ℝ) :
    p.fixCouplingRatio a (-a) = .nonfinite ∧ p.fixFnOverFp (-1) = .nonfinite := by
  constructor
  · simp [fixCouplingRatio, fdiv_zero]
  · have : (1 : ℝ) + -1 = 0 := by norm_num
    simp [fixFnOverFp, this, fdiv_zero]

/-! ## C05 — saving and restoring the interaction parameter -/

/-- The sign used below. -/
theorem exists_sign (x : ℝ) : ∃ e : ℝ, e * e = 1 ∧ |x| = e * x := by
  rcases le_total 0 x with h | h
  · exact ⟨1, by norm_num, by rw [abs_of_nonneg h, one_mul]⟩
  · exact ⟨-1, by norm_num, by rw [abs_of_nonpos h]; ring⟩

/-- C05 for fixed ratios (clean histories): reading the interaction parameter, setting anything `y ≥ 0` and setting the
old value back gives a particle with the same observables. Missing for the full C05: unfixed couplings of opposite
sign, for which it is false (`C05_fails`). -/
theorem C05_save_restore_fixed_partial {p : DMParticle} {r : ℝ × ℝ} {x y : ℝ} {t : String}
    (hp : CleanReachable U p r) (hf : p.fixedRelation = true)
    (hx : p.getInteractionParameter U t = .ok x) (hy : 0 ≤ y) :
    ∃ p₁ p₂, p.setInteractionParameter U y t = .ok p₁ ∧ p₁.setInteractionParameter U x t = .ok p₂ ∧
      SameObservables U p p₂ := by
  have hc := cleanReachable_inv hp
  have hb := hc.base
  have hrel := hc.rel hf
  unfold getInteractionParameter at hx
  split_ifs at hx with h1 h2 h3
  · injection hx with hx; subst hx
    have hs := sigmaProton_nonneg (U := U) hb.pre
    obtain ⟨e, he, hab⟩ := exists_sign p.fp
    have hfn : p.fn = p.fnRel / p.fpRel * p.fp := by field_simp; linarith
    let p₁ : DMParticle := { p with fp := cpl U p y, fn := p.fnRel / p.fpRel * cpl U p y }
    have e1 := setSigmaProton_fixed (U := U) (p := p) hb.pre hb.mass hy hf h2.ne'
    have e2 := setSigmaProton_fixed (U := U) (p := p₁) hb.pre hb.mass hs hf h2.ne'
    refine ⟨p₁, _, by simp only [setInteractionParameter, h1, if_true, h2]; exact e1,
      by simp only [setInteractionParameter, h1, if_true, p₁, h2]; exact e2, ?_⟩
    have e3 : cpl U p₁ (p.sigmaProton U) = e * p.fp := by
      rw [← hab]; exact cpl_of_sigma p.fp hb.pre hb.mass
    rw [e3]
    have e4 : p₁.fnRel / p₁.fpRel * (e * p.fp) = e * p.fn := by rw [hfn]; simp only [p₁]; ring
    rw [e4]
    exact sameObservables_of_sign he
  · injection hx with hx; subst hx
    have hs := sigmaNeutron_nonneg (U := U) hb.pre
    have hn := hb.fn_ne h2
    obtain ⟨e, he, hab⟩ := exists_sign p.fn
    have hfn : p.fp = p.fpRel / p.fnRel * p.fn := by field_simp; linarith
    let p₁ : DMParticle := { p with fn := cpl U p y, fp := p.fpRel / p.fnRel * cpl U p y }
    have e1 := setSigmaNeutron_fixed (U := U) (p := p) hb.pre hb.mass hy hf hn
    have e2 := setSigmaNeutron_fixed (U := U) (p := p₁) hb.pre hb.mass hs hf hn
    refine ⟨p₁, _, by simp only [setInteractionParameter, h1, if_true, h2, if_false]; exact e1,
      by simp only [setInteractionParameter, h1, if_true, p₁, h2, if_false]; exact e2, ?_⟩
    have e3 : cpl U p₁ (p.sigmaNeutron U) = e * p.fn := by
      rw [← hab]; exact cpl_of_sigma p.fn hb.pre hb.mass
    rw [e3]
    have e4 : p₁.fpRel / p₁.fnRel * (e * p.fn) = e * p.fp := by rw [hfn]; simp only [p₁]; ring
    rw [e4]
    exact sameObservables_of_sign he
  · injection hx with hx; subst hx
    refine ⟨p.setSigmaElectron y, p, by unfold setInteractionParameter; rw [if_neg h1, if_pos h3],
      by unfold setInteractionParameter; rw [if_neg h1, if_pos h3]; rfl, ?_⟩
    have := sameObservables_of_sign (U := U) (p := p) (e := 1) (by norm_num)
    simpa using this

/-- C05 for unfixed ratios, when the coupling that serves as interaction parameter is not negative: the state itself is
restored. -/
theorem C05_save_restore_unfixed_partial {p : DMParticle} {x y : ℝ} {t : String}
    (hp : Reachable U p) (hf : p.fixedRelation = false) (h1 : 0 < p.fpRel → 0 ≤ p.fp) (h2 : p.fpRel ≤ 0 → 0 ≤ p.fn)
    (hx : p.getInteractionParameter U t = .ok x) (hy : 0 ≤ y) :
    ∃ p₁, p.setInteractionParameter U y t = .ok p₁ ∧ p₁.setInteractionParameter U x t = .ok p := by
  have hb := reachable_inv hp
  unfold getInteractionParameter at hx
  split_ifs at hx with h3 h4 h5
  · injection hx with hx; subst hx
    have hs := sigmaProton_nonneg (U := U) hb.pre
    let p₁ : DMParticle := { p with fp := cpl U p y }
    have e1 := setSigmaProton_unfixed (U := U) (p := p) hb.pre hb.mass hy hf
    have e2 := setSigmaProton_unfixed (U := U) (p := p₁) hb.pre hb.mass hs hf
    refine ⟨p₁, by simp only [setInteractionParameter, h3, if_true, h4]; exact e1, ?_⟩
    simp only [setInteractionParameter, h3, if_true, p₁, h4]
    have e3 : cpl U p₁ (p.sigmaProton U) = p.fp := by
      rw [← abs_of_nonneg (h1 h4)]; exact cpl_of_sigma p.fp hb.pre hb.mass
    rw [e3] at e2
    exact e2
  · injection hx with hx; subst hx
    have hs := sigmaNeutron_nonneg (U := U) hb.pre
    let p₁ : DMParticle := { p with fn := cpl U p y }
    have e1 := setSigmaNeutron_unfixed (U := U) (p := p) hb.pre hb.mass hy hf
    have e2 := setSigmaNeutron_unfixed (U := U) (p := p₁) hb.pre hb.mass hs hf
    refine ⟨p₁, by simp only [setInteractionParameter, h3, if_true, h4, if_false]; exact e1, ?_⟩
    simp only [setInteractionParameter, h3, if_true, p₁, h4, if_false]
    have e3 : cpl U p₁ (p.sigmaNeutron U) = p.fn := by
      rw [← abs_of_nonneg (h2 (not_lt.1 h4))]; exact cpl_of_sigma p.fn hb.pre hb.mass
    rw [e3] at e2
    exact e2
  · injection hx with hx; subst hx
    exact ⟨p.setSigmaElectron y, by unfold setInteractionParameter; rw [if_neg h3, if_pos h5],
      by unfold setInteractionParameter; rw [if_neg h3, if_pos h5]; rfl⟩

example : ∃ (p : DMParticle) (r : ℝ × ℝ) (x : ℝ), CleanReachable Units.sample p r ∧ p.fixedRelation = true ∧
    p.getInteractionParameter Units.sample "Nuclei" = .ok x := by
  obtain ⟨p, h, hf, _⟩ := reachable_example (U := Units.sample) one_pos one_pos
  by_cases h0 : 0 < p.fpRel
  · exact ⟨p, _, p.sigmaProton Units.sample, h, hf, by simp only [getInteractionParameter, if_true, h0]⟩
  · exact ⟨p, _, p.sigmaNeutron Units.sample, h, hf, by simp only [getInteractionParameter, if_true, h0, if_false]⟩

/-- C05 is violated: after `Fix_fn_over_fp(-1/2)`, `Set_Sigma_Neutron(s)`, `Unfix_Coupling_Ratios()`, saving and restoring
the interaction parameter turns the differential cross section on tritium from zero into a positive number. -/
theorem C05_fails {m s y : ℝ} (hm : 0 < m) (hs : 0 < s) (hy : 0 ≤ y) {iso : Isotope} (hZ : iso.Z = 1)
    (hA : iso.A = 3) {v : ℝ} (hv : v ≠ 0) :
    ∃ p₀ p x p₁ p₂, makeSI U m s = .ok p₀ ∧
      p₀.run U [.setLowMassMode true, .fixFnOverFp (-1 / 2), .setSigmaNeutron s, .unfixCouplingRatios] = .ok p ∧
      p.getInteractionParameter U "Nuclei" = .ok x ∧
      p.setInteractionParameter U y "Nuclei" = .ok p₁ ∧ p₁.setInteractionParameter U x "Nuclei" = .ok p₂ ∧
      (∀ q, p.dSigmadq2Nucleus U q iso v = 0) ∧ (∀ q, 0 < p₂.dSigmadq2Nucleus U q iso v) := by
  obtain ⟨c, hc0, hc, h, hcs⟩ := makeSI_eq (U := U) hm hs.le
  have hc := hc hs
  have h01 : (1 : ℝ) + -1 / 2 ≠ 0 := by norm_num
  have h12 : (1 : ℝ) / (1 + -1 / 2) ≠ 0 := by norm_num
  have h13 : (-1 : ℝ) / 2 / (1 + -1 / 2) ≠ 0 := by norm_num
  let p' : DMParticle := { standard U m 1 (.SI .contact (U.aEM * U.mElectron) 0) with
              lowMass := true,
              fixedRelation := true, fpRel := 1 / (1 + -1 / 2), fnRel := -1 / 2 / (1 + -1 / 2), fp := c,
              fn := -1 / 2 / (1 + -1 / 2) / (1 / (1 + -1 / 2)) * c }
  have hpre : 0 < p'.prefactor := by simp [p', standard]
  have hd : cpl U p' s = c := by
    have := cpl_of_sigma (U := U) (p := p') c hpre hm
    have h9 : p'.prefactor * c * c * reducedMass p'.mass U.mProton * reducedMass p'.mass U.mProton / Real.pi = s := by
      simpa [p', standard] using hcs
    rw [h9, abs_of_pos hc] at this
    exact this
  have e0 := setSigmaNeutron_fixed (U := U) (p := p') hpre hm hs.le rfl h13
  rw [hd] at e0
  let p : DMParticle := { p' with fixedRelation := false, fn := c, fp := p'.fpRel / p'.fnRel * c }
  have hfp : p.fp = - (2 * c) := by simp only [p, p']; norm_num
  have hrel : 0 < p.fpRel := by simp only [p, p']; norm_num
  have hsp := sigmaProton_nonneg (U := U) (p := p) hpre
  have e1 := setSigmaProton_unfixed (U := U) (p := p) hpre hm hy rfl
  let p₁ : DMParticle := { p with fp := cpl U p y }
  have e2 := setSigmaProton_unfixed (U := U) (p := p₁) hpre hm hsp rfl
  have e3 : cpl U p₁ (p.sigmaProton U) = 2 * c := by
    rw [show cpl U p₁ (p.sigmaProton U) = cpl U p (p.sigmaProton U) from rfl, cpl_sigmaProton (p := p) hpre hm, hfp, abs_neg, abs_of_pos (by linarith)]
  rw [e3] at e2
  have hneu : iso.neutrons = 2 := by simp [Isotope.neutrons, hZ, hA, usub32]
  refine ⟨_, p, p.sigmaProton U, p₁, { p₁ with fp := 2 * c }, h, ?_, ?_, ?_, ?_, ?_, ?_⟩
  · have : p'.step U (.setSigmaNeutron s) = _ := e0
    have h7 : ({ standard U m 1 (.SI .contact (U.aEM * U.mElectron) 0) with lowMass := true, fp := c, fn := c } :
        DMParticle).step U (.fixFnOverFp (-1 / 2)) = .ok p' := by
      simp only [p', step, fixFnOverFp, fdiv_ok h01, Outcome.bind_ok, ne_eq,
        hc.ne', not_false_eq_true, fdiv_ok h12, if_true]
    simp only [run]
    simp only [show ({ standard U m 1 (.SI .contact (U.aEM * U.mElectron) 0) with fp := c, fn := c } :
        DMParticle).step U (.setLowMassMode true) = .ok { standard U m 1 (.SI .contact (U.aEM * U.mElectron) 0) with
          lowMass := true, fp := c, fn := c } from rfl, Outcome.bind_ok, h7, this]
    rfl
  · simp only [getInteractionParameter, if_true, hrel]
  · simp only [setInteractionParameter, if_true, hrel]; exact e1
  · simp only [setInteractionParameter, if_true, p₁, hrel]; exact e2
  · intro q
    have : p.fp * (iso.Z : ℝ) + p.fn * (iso.neutrons : ℝ) = 0 := by
      rw [hfp, hZ, hneu]; simp only [p]; push_cast; ring
    simp only [dSigmadq2Nucleus, this]
    simp [p, p', standard]
  · intro q
    have h5 : 2 * c * (iso.Z : ℝ) + c * (iso.neutrons : ℝ) = 4 * c := by
      rw [hZ, hneu]; push_cast; ring
    have : 0 < 1 / 4 / Real.pi / v / v * (4 * c) ^ 2 := by
      have h6 : 1 / 4 / Real.pi / v / v = 1 / 4 / Real.pi / v ^ 2 := by field_simp
      rw [h6]
      have := Real.pi_pos
      have : 0 < v ^ 2 := by positivity
      positivity
    simpa [dSigmadq2Nucleus, p₁, p, p', standard, formFactor2, h5] using this

end Obscura
