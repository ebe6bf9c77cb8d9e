import Verif.Lemmas.Continuity
import Verif.Props.LimitTrends
import Verif.Props.FallingSpectra
import Verif.Props.HaloGuards

/-!
# Property C116: small changes of the input do not make the results jump
-/

namespace Obscura

open Spec DMParticle MeasureTheory Filter Topology Set

variable {U : Units} {I : Integrator} {T : Tools} {p : DMParticle} {h : Distribution} {iso : Isotope} {c : Crystal} {d : Detector}
  {cd : CrystalDetector} {nd : NuclearDetector} {s : SHM}

/-! ## Speeds -/

/-- C116 (speeds). For every moving observer the density of speeds in the standard halo has no jumps, neither where the truncation sets in nor at the ends
of the domain, and neither has the distribution function. -/
theorem C116_speeds (hs : SHM.Reachable U s) (hp : s.Physical) (ho : 0 < s.vObs) (hoe : s.vObs ≤ s.vEsc) :
    Continuous s.pdfSpeed ∧ Continuous s.cdfSpeed := by
  have hw := SHM.WF.of_reachable hs hp
  have hcont : Continuous s.pdfSpeed := by
    set g : ℝ → ℝ := fun v => v / s.nEsc / s.v0 / √Real.pi / s.vObs *
      (gauss s.v0 (v - s.vObs) - gauss s.v0 (min (v + s.vObs) s.vEsc)) with hg
    have gc : Continuous g := by
      have h1 := continuous_gauss s.v0
      exact (by fun_prop : Continuous fun v : ℝ => v / s.nEsc / s.v0 / √Real.pi / s.vObs).mul
        ((h1.comp (by fun_prop)).sub (h1.comp (by fun_prop)))
    have hmax : 0 < s.vMax := by rw [hw.vMax]; linarith [hw.vEsc_pos]
    have hin : ∀ v, 0 ≤ v → v ≤ s.vMax → s.pdfSpeed v = g v := fun v h0 h1 => by
      rw [pdfSpeed_moving hw ho h0 h1, hg]
      dsimp only
      congr 2
      split_ifs with k
      · rw [min_eq_left k.le]
      · rw [min_eq_right (not_lt.1 k)]
    have : s.pdfSpeed = fun v => g (max 0 (min v s.vMax)) := by
      funext v
      rcases lt_or_ge v 0 with k | k
      · rw [C15_zero_outside s v (.inl (by rw [hw.vMin]; exact k)), max_eq_left ((min_le_left _ _).trans k.le), hg]
        simp
      · rcases lt_or_ge s.vMax v with l | l
        · rw [C15_zero_outside s v (.inr l), min_eq_right l.le, max_eq_right hmax.le, hg]
          dsimp only
          rw [hw.vMax, min_eq_right (by linarith)]
          simp
        · rw [min_eq_left l, max_eq_right k, hin v k l]
    rw [this]
    exact gc.comp (by fun_prop)
  refine ⟨hcont, ?_⟩
  rw [show s.cdfSpeed = fun v => ∫ x in (0 : ℝ)..v, s.pdfSpeed x from funext fun v => C16_cdf U s hs hp hoe v]
  exact intervalIntegral.continuous_primitive (fun a b => hcont.intervalIntegrable a b) 0

/-- C116 (mean inverse speed), up to the point `1e-8 v_0` below the maximal speed, and beyond it. At this point there is a jump, see `C116_fails_eta`. -/
theorem C116_eta_partial (hs : SHM.Reachable U s) (hp : s.Physical) (hoe : s.vObs ≤ s.vEsc) (ho : s.vObs = 0 ∨ 1e-8 * s.v0 ≤ s.vObs) :
    ContinuousOn s.eta (Icc 0 (s.vMax - 1e-8 * s.v0)) ∧ ContinuousOn s.eta (Ioi (s.vMax - 1e-8 * s.v0)) := by
  have hw := SHM.WF.of_reachable hs hp
  have ha := hw.v0_pos
  have hmax : 0 < s.vMax := by rw [hw.vMax]; linarith [hw.vEsc_pos, hw.vObs_nonneg]
  have hd : 0 < 1e-8 * s.v0 := by positivity
  constructor
  · have hint : IntervalIntegrable (fun x => s.pdfSpeed x / x) volume 0 s.vMax := by
      rcases hw.vObs_nonneg.lt_or_eq with ho | ho
      · exact (integral_eta_moving hw ho hoe le_rfl hmax.le).1
      · exact (integral_eta_rest hw ho.symm le_rfl hmax.le).1
    have hi : IntegrableOn (fun v => s.pdfSpeed v / v) (uIcc 0 s.vMax) volume := by
      rw [uIcc_of_le hmax.le]
      exact (intervalIntegrable_iff_integrableOn_Icc_of_le hmax.le).1 hint
    have := intervalIntegral.continuousOn_primitive_interval_left hi
    rw [uIcc_of_le hmax.le] at this
    refine (this.mono (Icc_subset_Icc le_rfl (by linarith))).congr fun v hv => ?_
    exact C17_eta_partial U s hs hp hoe ho v hv.1 hv.2
  · refine (continuousOn_const (c := (0 : ℝ))).congr fun v hv => eta_zero ?_
    have hv : s.vMax - 1e-8 * s.v0 < v := hv
    rw [hw.vMax] at hv
    rw [lt_div_iff₀ ha, sub_mul, add_mul, div_mul_cancel₀ _ ha.ne', div_mul_cancel₀ _ ha.ne']
    linarith

/-- C116 fails for `Eta_Function` of the standard halo at `1e-8 v_0` below the maximal speed: there it jumps from a positive number to zero. -/
theorem C116_fails_eta (hs : SHM.Reachable U s) (hp : s.Physical) (hoe : s.vObs ≤ s.vEsc) (ho : 1e-8 * s.v0 ≤ s.vObs) :
    0 < s.eta (s.vMax - 1e-8 * s.v0) ∧ (∀ v, s.vMax - 1e-8 * s.v0 < v → s.eta v = 0) ∧ ¬ContinuousAt s.eta (s.vMax - 1e-8 * s.v0) := by
  have hw := SHM.WF.of_reachable hs hp
  have ha := hw.v0_pos
  have hd : 0 < 1e-8 * s.v0 := by positivity
  have ho' : 0 < s.vObs := hd.trans_le ho
  have h0 : 0 ≤ s.vMax - 1e-8 * s.v0 := by rw [hw.vMax]; linarith [hw.vEsc_pos]
  have hpos : 0 < s.eta (s.vMax - 1e-8 * s.v0) := by
    rw [C17_eta_partial U s hs hp hoe (.inr ho) _ h0 le_rfl]
    refine intervalIntegral.intervalIntegral_pos_of_pos_on (integral_eta_moving hw ho' hoe h0 (by linarith)).1 (fun x hx => ?_) (by linarith)
    have hx0 : 0 < x := lt_of_le_of_lt h0 hx.1
    exact div_pos (C15_pos_partial U s hs hp hoe x hx0 (by rw [← hw.vMax]; exact hx.2)) hx0
  have hzero : ∀ v, s.vMax - 1e-8 * s.v0 < v → s.eta v = 0 := fun v hv => eta_zero (by
    rw [hw.vMax] at hv
    rw [lt_div_iff₀ ha, sub_mul, add_mul, div_mul_cancel₀ _ ha.ne', div_mul_cancel₀ _ ha.ne']
    linarith)
  refine ⟨hpos, hzero, fun hc => ?_⟩
  have h1 : Tendsto s.eta (𝓝[>] (s.vMax - 1e-8 * s.v0)) (𝓝 (s.eta (s.vMax - 1e-8 * s.v0))) := hc.tendsto.mono_left nhdsWithin_le_nhds
  have h2 : Tendsto s.eta (𝓝[>] (s.vMax - 1e-8 * s.v0)) (𝓝 0) :=
    tendsto_const_nhds.congr' (by filter_upwards [self_mem_nhdsWithin] with v hv using (hzero v hv).symm)
  exact hpos.ne' (tendsto_nhds_unique h1 h2)

/-! ## Recoil spectra -/

/-- C116 (recoil energies). The spectrum of recoils of every isotope depends continuously on the energy, if the nuclear form factor is not used, for every
halo with a density of speeds. -/
theorem C116_recoil (hI : I.Exact) (hm : 0 < p.mass) (hM : 0 < iso.mass) (hf : ProperSpeeds h) (hpt : p.interaction = .SD ∨ p.lowMass = true)
    (heta : p.useEtaFunction = true → h.useEta = true → ∀ v, 0 ≤ v → v ≤ h.vMax → EtaAt h v) :
    NoJumps (fun E => dRdERIsotope U I E p h iso) (Ioi 0) := by
  refine ⟨fun E => isotopeRate U p h iso E, fun E _ => C42_rate hI hm hM fun h1 h2 h3 => heta h1 h2 _ (Real.sqrt_nonneg _) h3, fun E hE => ?_⟩
  exact (isotopeRate_continuousAt hm hM hf hE (by tauto)).continuousWithinAt

/-- C116 (recoil energies, nuclear form factor): on either side of the energy at which the formula of the form factor begins. -/
theorem C116_recoil_partial (hI : I.Exact) (hm : 0 < p.mass) (hM : 0 < iso.mass) (hf : ProperSpeeds h)
    (heta : p.useEtaFunction = true → h.useEta = true → ∀ v, 0 ≤ v → v ≤ h.vMax → EtaAt h v) :
    NoJumps (fun E => dRdERIsotope U I E p h iso) {E | 0 < E ∧ 2 * iso.mass * E ≠ (1 / 10 ^ 6 * U.MeV) ^ 2} := by
  refine ⟨fun E => isotopeRate U p h iso E, fun E _ => C42_rate hI hm hM fun h1 h2 h3 => heta h1 h2 _ (Real.sqrt_nonneg _) h3, fun E hE => ?_⟩
  exact (isotopeRate_continuousAt hm hM hf hE.1 (.inr (.inr hE.2))).continuousWithinAt

/-- C116 (recoil energies, standard halo): up to the energy at which `Eta_Function` jumps, and beyond all energies the halo can cause. -/
theorem C116_standard_halo_partial (hI : I.Exact) (hs : SHM.Reachable U s) (hp : s.Physical) (hoe : s.vObs ≤ s.vEsc)
    (ho : s.vObs = 0 ∨ 1e-8 * s.v0 ≤ s.vObs) (hm : 0 < p.mass) (hM : 0 < iso.mass) (hpt : p.interaction = .SD ∨ p.lowMass = true) :
    NoJumps (fun E => dRdERIsotope U I E p (Distribution.ofSHM s) iso)
      {E | 0 < E ∧ (vMinimalNucleus E p.mass iso.mass ≤ s.vMax - 1e-8 * s.v0 ∨ s.vMax < vMinimalNucleus E p.mass iso.mass)} :=
  ⟨fun E => isotopeRate U p (Distribution.ofSHM s) iso E, fun _ hE => C42_standard_halo_partial hI hs hp hoe ho hm hM hE.2,
    fun _ hE => (isotopeRate_continuousAt hm hM (C96_standard_halo hs hp hoe).2 hE.1 (by tauto)).continuousWithinAt⟩

/-- The square of the form factor where its formula begins is below one. -/
theorem helm_at_switch : iso.helmFormFactor U (1 / 10 ^ 6 * U.MeV) ^ 2 < 1 := by
  have hMeV := U.MeV_pos
  have hfm := U.fm_pos
  have hq : 0 < 1 / 10 ^ 6 * U.MeV := by positivity
  have hx := mul_pos hq (C09_radius_positive (U := U) iso).2
  rw [sq_lt_one_iff_abs_lt_one]
  unfold Isotope.helmFormFactor
  rw [if_neg (lt_irrefl _)]
  dsimp only
  generalize 1 / 10 ^ 6 * U.MeV = q at *
  generalize q * iso.helmRadius U = x at hx
  have hexp : Real.exp (-q * q * (0.9 * U.fm) * (0.9 * U.fm) / 2) < 1 := by
    rw [← Real.exp_zero, Real.exp_lt_exp]
    have : 0 < q * q * (0.9 * U.fm) * (0.9 * U.fm) / 2 := by positivity
    linarith
  have h1 := abs_sin_sub_mul_cos_le hx.le
  have h2 : 3 * (Real.sin x / x ^ 3 - Real.cos x / x ^ 2) = 3 / x ^ 3 * (Real.sin x - x * Real.cos x) := by
    field_simp
  rw [abs_mul, h2, abs_mul, abs_of_pos (by positivity : 0 < 3 / x ^ 3), abs_of_pos (Real.exp_pos _)]
  have h3 : 3 / x ^ 3 * |Real.sin x - x * Real.cos x| ≤ 1 := by
    calc _ ≤ 3 / x ^ 3 * (x ^ 3 / 3) := by gcongr
      _ = 1 := by field_simp
  calc _ ≤ 1 * Real.exp (-q * q * (0.9 * U.fm) * (0.9 * U.fm) / 2) := mul_le_mul_of_nonneg_right h3 (Real.exp_pos _).le
    _ < 1 := by rwa [one_mul]

/-- C116 fails with the nuclear form factor: it is one below a momentum transfer of `1e-6 MeV` and strictly below one from there on, so every spectrum that
does not vanish there jumps. -/
theorem C116_fails_form_factor (hI : I.Exact) (hm : 0 < p.mass) (hM : 0 < iso.mass) (hf : ProperSpeeds h) (hi : p.interaction ≠ .SD)
    (hl : p.lowMass = false) (heta : p.useEtaFunction = true → h.useEta = true → ∀ v, 0 ≤ v → v ≤ h.vMax → EtaAt h v)
    {E r : ℝ} (hE : E = (1 / 10 ^ 6 * U.MeV) ^ 2 / (2 * iso.mass)) (hr : dRdERIsotope U I E p h iso = .ok r) (h0 : r ≠ 0) :
    ¬NoJumps (fun E => dRdERIsotope U I E p h iso) (Ioi 0) := by
  rintro ⟨f, hf1, hf2⟩
  have hMeV := U.MeV_pos
  have hE0 : 0 < E := by rw [hE]; positivity
  set p' := p.setLowMassMode true with hp'
  have hrate : ∀ x, dRdERIsotope U I x p h iso = .ok (isotopeRate U p h iso x) := fun x =>
    C42_rate hI hm hM fun h1 h2 h3 => heta h1 h2 _ (Real.sqrt_nonneg _) h3
  have hfac : ∀ x, isotopeRate U p h iso x = iso.helmFormFactor U (Real.sqrt (2 * iso.mass * x)) ^ 2 * isotopeRate U p' h iso x := fun x => by
    rw [isotopeRate_tail hm hM, isotopeRate_tail (p := p') hm hM]
    have : p.dSigmadERNucleus U x iso (1 / 1000) = iso.helmFormFactor U (Real.sqrt (2 * iso.mass * x)) ^ 2 * p'.dSigmadERNucleus U x iso (1 / 1000) := by
      unfold dSigmadERNucleus dSigmadq2Nucleus
      rw [hp']
      simp only [setLowMassMode]
      rcases hk : p.interaction with ⟨ff, qRef, mMed⟩ | _
      · simp only [hl, if_true]
        simp
        ring
      · exact absurd hk hi
    rw [this]
    have e : p'.mass = p.mass ∧ p'.fractionalDensity = p.fractionalDensity := ⟨rfl, rfl⟩
    rw [e.1, e.2]
    ring
  have hfeq : ∀ x, 0 < x → f x = isotopeRate U p h iso x := fun x hx => by
    have := hf1 x hx
    simp only [hrate] at this
    exact (Outcome.ok.inj this).symm
  -- both one-sided limits
  have hq : Real.sqrt (2 * iso.mass * E) = 1 / 10 ^ 6 * U.MeV := by
    rw [hE, mul_div_cancel₀ _ (by positivity), Real.sqrt_sq (by positivity)]
  have hcont := isotopeRate_continuousAt (U := U) (p := p') (h := h) hm hM hf hE0 (.inr (.inl rfl))
  have h1 : Tendsto f (𝓝[<] E) (𝓝 (f E)) := (hf2.continuousAt (Ioi_mem_nhds hE0)).tendsto.mono_left nhdsWithin_le_nhds
  have h2 : Tendsto f (𝓝[<] E) (𝓝 (isotopeRate U p' h iso E)) := by
    refine (hcont.tendsto.mono_left nhdsWithin_le_nhds).congr' ?_
    filter_upwards [self_mem_nhdsWithin, mem_nhdsWithin_of_mem_nhds (lt_mem_nhds hE0)] with x hx hx0
    have hx : x < E := hx
    rw [hfeq x hx0, hfac]
    have : iso.helmFormFactor U (Real.sqrt (2 * iso.mass * x)) = 1 := by
      unfold Isotope.helmFormFactor
      rw [if_pos]
      rw [← hq]
      exact Real.sqrt_lt_sqrt (by positivity) (by gcongr)
    rw [this]
    ring
  have h3 := tendsto_nhds_unique h1 h2
  rw [hfeq E hE0, hfac, hq] at h3
  have hlt := helm_at_switch (U := U) (iso := iso)
  have hz : isotopeRate U p' h iso E = 0 := by
    by_contra hne
    exact hlt.ne (mul_right_cancel₀ hne (h3.trans (one_mul _).symm))
  have := hrate E
  rw [hr, hfac, hz, mul_zero] at this
  exact h0 (Outcome.ok.inj this)

/-- C116 (masses). At every energy the rate of recoils depends continuously on the mass that is set, at constant cross sections, also with the nuclear form
factor. -/
theorem C116_recoil_mass (hI : I.Exact) (hp : Reachable U p) (hM : 0 < iso.mass) (hf : ProperSpeeds h)
    (heta : p.useEtaFunction = true → h.useEta = true → ∀ v, 0 ≤ v → v ≤ h.vMax → EtaAt h v) {E : ℝ} (hE : 0 < E) :
    NoJumps (fun m => p.setMass U m >>= fun q => dRdERIsotope U I E q h iso) (Ioi 0) := by
  refine ⟨fun m => isotopeRate U (withMass U p m) h iso E, fun m hm => ?_, isotopeRate_mass hp hM hf hE⟩
  obtain ⟨e1, -, -, -, e5⟩ := withMass_fields (U := U) hp hm
  show p.setMass U m >>= _ = _
  rw [setMass_ok (reachable_inv hp) hm, Outcome.bind_ok]
  exact C42_rate hI (by rw [e1]; exact hm) hM fun h1 h2 h3 => heta (by rw [← e5]; exact h1) h2 _ (Real.sqrt_nonneg _) h3

/-! ## Semiconductors -/

/-- C116 (semiconductors, energies). Inside the table the spectrum of electron recoils depends continuously on the energy, if the interpolation of the
table does. -/
theorem C116_crystal (hI : I.Exact) (hc : BuiltCrystal U c) (hm : 0 < p.mass) (hf : ProperSpeeds h)
    (heta : p.useEtaFunction = true → h.useEta = true → ∀ v, 0 ≤ v → v ≤ h.vMax → EtaAt h v)
    (hint : ∀ q, ContinuousOn (c.interpolation q) (Ioo (0.1 * U.eV) (50 * U.eV))) :
    NoJumps (fun E => dRdEeCrystal U I E p h c) (Ioo (0.1 * U.eV) (50 * U.eV)) := by
  have hfc := CrystalFacts.of_built hc
  have hdE := hfc.dE_pos
  have e1 : c.dE = 0.1 * U.eV := hfc.dE
  have e2 : c.eMax = 50 * U.eV := by rw [hfc.eMax, hfc.dE]; ring
  rw [← e1, ← e2] at hint ⊢
  exact ⟨_, fun E hE => C42_crystal hI hc hm (hdE.trans hE.1).le heta, crystalRate_energy hm hfc.dq_pos hdE hf hint⟩

/-- C116 fails at the end of the table: a spectrum that does not vanish at `50 eV` jumps to zero there. -/
theorem C116_fails_table_end (hc : BuiltCrystal U c) {r : ℝ} (hr : dRdEeCrystal U I (50 * U.eV) p h c = .ok r) (h0 : r ≠ 0) :
    ¬NoJumps (fun E => dRdEeCrystal U I E p h c) (Ioi 0) := by
  rintro ⟨f, hf1, hf2⟩
  have hfc := CrystalFacts.of_built hc
  have heV := U.eV_pos
  have e2 : c.eMax = 50 * U.eV := by rw [hfc.eMax, hfc.dE]; ring
  have hE : 0 < 50 * U.eV := by positivity
  have h1 : Tendsto f (𝓝[>] (50 * U.eV)) (𝓝 (f (50 * U.eV))) := (hf2.continuousAt (Ioi_mem_nhds hE)).tendsto.mono_left nhdsWithin_le_nhds
  have h2 : Tendsto f (𝓝[>] (50 * U.eV)) (𝓝 0) := by
    refine tendsto_const_nhds.congr' ?_
    filter_upwards [self_mem_nhdsWithin] with x hx
    have hx : 50 * U.eV < x := hx
    have := hf1 x (hE.trans hx)
    unfold dRdEeCrystal at this
    dsimp only at this
    rw [e2, if_pos hx] at this
    exact Outcome.ok.inj this
  have := hf1 _ hE
  simp only [hr] at this
  exact h0 ((Outcome.ok.inj this).trans (tendsto_nhds_unique h1 h2))

/-- C116 (semiconductors, masses). At every energy the rate of electron recoils depends continuously on the mass. -/
theorem C116_crystal_mass (hI : I.Exact) (hc : BuiltCrystal U c) (hp : Reachable U p) (hf : ProperSpeeds h)
    (heta : p.useEtaFunction = true → h.useEta = true → ∀ v, 0 ≤ v → v ≤ h.vMax → EtaAt h v) {E : ℝ} (hE : 0 < E) :
    NoJumps (fun m => p.setMass U m >>= fun q => dRdEeCrystal U I E q h c) (Ioi 0) := by
  have hfc := CrystalFacts.of_built hc
  refine ⟨fun m => crystalRate U (withMass U p m) h c E, fun m hm => ?_, crystalRate_mass hp hfc.dq_pos hfc.mCell_pos hf hE⟩
  obtain ⟨e1, -, -, -, e5⟩ := withMass_fields (U := U) hp hm
  show p.setMass U m >>= _ = _
  rw [setMass_ok (reachable_inv hp) hm, Outcome.bind_ok]
  exact C42_crystal hI hc (by rw [e1]; exact hm) hE.le (by rw [e5]; exact heta)

/-- C116 (semiconductors, events). The numbers of events with exactly, and with at least, `Q` electron-hole pairs depend continuously on the mass. -/
theorem C116_crystal_pairs (hI : I.Exact) (hc : BuiltCrystal U c) (hp : Reachable U p) (hf : ProperSpeeds h)
    (heta : p.useEtaFunction = true → h.useEta = true → ∀ v, 0 ≤ v → v ≤ h.vMax → EtaAt h v) {Q : ℕ} (hQ : 1 ≤ Q) (hQ' : Q ≤ 50000000) :
    NoJumps (fun m => p.setMass U m >>= fun q => rQCrystal U I Q q h c) (Ioi 0) ∧
      NoJumps (fun m => p.setMass U m >>= fun q => rTotalCrystal U I Q q h c) (Ioi 0) := by
  classical
  have hfc := CrystalFacts.of_built hc
  have hd := hfc.dE_pos
  have hg : ∀ j, 0 < gridEnergy c j := fun j => by unfold gridEnergy; positivity
  have hsum : ∀ cond : ℝ → Prop, ContinuousOn (fun m => gridSum c (fun E => crystalRate U (withMass U p m) h c E) cond) (Ioi 0) := fun cond => by
    unfold gridSum
    exact continuousOn_finsetSum _ fun j _ => continuousOn_const.mul (crystalRate_mass hp hfc.dq_pos hfc.mCell_pos hf (hg j))
  have hval : ∀ m, 0 < m → ∀ j < c.nE, dRdEeCrystal U I (gridEnergy c j) (withMass U p m) h c = .ok (crystalRate U (withMass U p m) h c (gridEnergy c j)) :=
    fun m hm j _ => by
      obtain ⟨e1, -, -, -, e5⟩ := withMass_fields (U := U) hp hm
      exact C42_crystal hI hc (by rw [e1]; exact hm) (hg j).le (by rw [e5]; exact heta)
  refine ⟨⟨_, fun m hm => ?_, hsum fun E => c.electronHolePairs E = .ok Q⟩,
    ⟨_, fun m hm => ?_, hsum fun E => ∃ n, c.electronHolePairs E = .ok n ∧ Q ≤ n⟩⟩ <;>
  · show p.setMass U m >>= _ = _
    rw [setMass_ok (reachable_inv hp) hm, Outcome.bind_ok]
    first
      | exact (C44_contents (rate := fun E => crystalRate U (withMass U p m) h c E) hc hQ hQ' (hval m hm)).1
      | exact (C44_contents (rate := fun E => crystalRate U (withMass U p m) h c E) hc hQ hQ' (hval m hm)).2

/-- C116 (events of a semiconductor detector). So does the number of events of a detector that asks for at least `Q` electron-hole pairs. -/
theorem C116_crystal_events (hI : T.integrate.Exact) (hc : BuiltCrystal U cd.crystal) (hp : Reachable U p) (hf : ProperSpeeds h)
    (heta : p.useEtaFunction = true → h.useEta = true → ∀ v, 0 ≤ v → v ≤ h.vMax → EtaAt h v) (hw : d.usingEnergyThreshold = false) {Q : ℕ} (hQ : 1 ≤ Q)
    (hQ' : Q ≤ 50000000) :
    NoJumps (fun m => p.setMass U m >>= fun q =>
      ((CrystalDetector.useQThreshold d cd Q).2.toClass U T h).signalsTotal (CrystalDetector.useQThreshold d cd Q).1 q) (Ioi 0) := by
  obtain ⟨-, r, hr, hrc⟩ := C116_crystal_pairs (U := U) hI hc hp hf heta hQ hQ'
  refine ⟨fun m => d.exposure * d.flatEfficiency * r m, fun m hm => ?_, continuousOn_const.mul hrc⟩
  have : (p.setMass U m >>= fun q => rTotalCrystal U T.integrate Q q h cd.crystal) = .ok (r m) := hr m hm
  show p.setMass U m >>= _ = _
  rw [setMass_ok (reachable_inv hp) hm, Outcome.bind_ok] at this ⊢
  have k := CrystalDetector.C38_crystal_q_threshold_partial (U := U) (T := T) (d := d) (cd := cd) (p := withMass U p m) (h := h) hw (Q := Q) (by omega)
  rw [this, Outcome.bind_ok] at k
  exact k

/-! ## Limits -/

/-- C116 (limits). Wherever the expected number of events of a counting experiment depends continuously on the mass and is positive, so does the upper limit:
the limits at all masses are those of one continuous curve, which is cut off where it leaves the range of interaction parameters that is searched. -/
theorem C116_limit {D : AnyDetector} {c₀ cert m₀ : ℝ} {s : ℝ → ℝ} {S : Set ℝ} {q : ℝ → DMParticle} {r₀ : Detector × DMParticle × ℝ}
    (hR : T.findRoot.Exact) (hq : ∀ m ∈ S, p.setMass U m = .ok (q m)) (hS : ∀ m ∈ S, Sees U T h D (q m) c₀ (s m)) (hs : ContinuousOn s S)
    (hm₀ : m₀ ∈ S) (g₀ : D.base.upperLimit U T (D.toClass U T h) (q m₀) cert = .ok r₀) (hx₀ : 0 < r₀.2.2) :
    ∃ lim : ℝ → ℝ, ContinuousOn lim S ∧ ∀ m ∈ S, 0 < lim m ∧ ∃ r, (p.setMass U m >>= fun q => D.base.upperLimit U T (D.toClass U T h) q cert) = .ok r ∧
      (InRange (lim m) → r.2.2 = lim m) ∧ (¬InRange (lim m) → r.2.2 = -1) := by
  have S₀ := hS m₀ hm₀
  have v0 := S₀.visible
  have c0 := S₀.positive
  refine ⟨fun m => r₀.2.2 * s m₀ / s m, ContinuousOn.div continuousOn_const hs fun m hm => (hS m hm).visible.ne', fun m hm => ?_⟩
  have S := hS m hm
  have v := S.visible
  have b0 := S.background
  obtain ⟨p', x, g, k⟩ := C87_value S hR cert
  refine ⟨by positivity, _, by rw [hq m hm, Outcome.bind_ok]; exact g, fun hr => ?_, fun hr => ?_⟩
  · obtain ⟨p₁, x₁, g₁, k₁⟩ := C87_value S₀ hR cert
    rw [g₀] at g₁
    cases g₁
    obtain ⟨-, e⟩ := LimitOf.pos (F := fun c => probAtMost (c / c₀ * s m₀ + D.base.background) D.base.observed) k₁ hx₀
    refine LimitOf.eq (b := D.base.background) (n := D.base.observed) c0 v b0 hr ?_ k
    have : x₁ * s m₀ / s m / c₀ * s m = x₁ / c₀ * s m₀ := by field_simp
    dsimp only at e ⊢
    rw [this, e]
    ring
  · rcases k with ⟨k, -⟩ | ⟨k, -⟩
    · exact k
    · have x0 : 0 < x := (Real.rpow_pos_of_pos (by norm_num) _).trans_le k.1
      have := C87_comparison S₀ S hR hR rfl rfl g₀ g hx₀ x0
      rw [mul_div_assoc', mul_div_assoc', div_left_inj' c0.ne'] at this
      refine absurd ?_ hr
      have hx : r₀.2.2 * s m₀ / s m = x := by rw [this]; field_simp
      show InRange (r₀.2.2 * s m₀ / s m)
      rwa [hx]

/-- C116 (limits of semiconductor detectors). If a semiconductor experiment that counts events with at least `Q` electron-hole pairs finds a limit at the mass
`m₀`, its limits at all larger masses are those of one continuous curve, as long as they are in the range of interaction parameters that is searched. -/
theorem C116_crystal_limit {c₀ s₀ cert m₀ : ℝ} {p₀ : DMParticle} {r₀ : Detector × DMParticle × ℝ} (hR : T.findRoot.Exact) (hI : T.integrate.Exact)
    (hc : BuiltCrystal U cd.crystal) (hcf : ∀ q E, 0 ≤ cd.crystal.formFactor q E) (hp : Reachable U p)
    (hr : 0 ≤ p.sigmaElectronRef) (hdens : 0 ≤ h.density) (hη : p.useEtaFunction = true → h.useEta = true → FallingEta h) (hf : ProperSpeeds h)
    (heta : p.useEtaFunction = true → h.useEta = true → ∀ v, 0 ≤ v → v ≤ h.vMax → EtaAt h v)
    (hw : d.usingEnergyThreshold = false) (hex : 0 ≤ d.exposure) (hfl : 0 ≤ d.flatEfficiency) {Q : ℕ} (hQ : 1 ≤ Q) (hQ' : Q ≤ 50000000) (hm₀ : 0 < m₀)
    (h0 : p.setMass U m₀ = .ok p₀) (hS : Sees U T h (.crystal (CrystalDetector.useQThreshold d cd Q).1 (CrystalDetector.useQThreshold d cd Q).2) p₀ c₀ s₀)
    (g₀ : (CrystalDetector.useQThreshold d cd Q).1.upperLimit U T ((CrystalDetector.useQThreshold d cd Q).2.toClass U T h) p₀ cert = .ok r₀) (hx₀ : 0 < r₀.2.2) :
    ∃ lim : ℝ → ℝ, ContinuousOn lim (Ici m₀) ∧ ∀ m, m₀ ≤ m → 0 < lim m ∧ ∃ r, (p.setMass U m >>= fun q =>
        (CrystalDetector.useQThreshold d cd Q).1.upperLimit U T ((CrystalDetector.useQThreshold d cd Q).2.toClass U T h) q cert) = .ok r ∧
      (InRange (lim m) → r.2.2 = lim m) ∧ (¬InRange (lim m) → r.2.2 = -1) := by
  have hb := reachable_inv hp
  obtain ⟨e, he, hec⟩ := C116_crystal_events (U := U) (T := T) (d := d) hI hc hp hf heta hw hQ hQ'
  have hsm : ∀ m, m₀ ≤ m → p.setMass U m = .ok (withMass U p m) := fun m hm => setMass_ok hb (hm₀.trans_le hm)
  have hp₀ : withMass U p m₀ = p₀ := by
    have := hsm m₀ le_rfl
    rw [h0] at this
    exact (Outcome.ok.inj this).symm
  have hsig : ∀ m, m₀ ≤ m → ((CrystalDetector.useQThreshold d cd Q).2.toClass U T h).signalsTotal (CrystalDetector.useQThreshold d cd Q).1 (withMass U p m) = .ok (e m) :=
    fun m hm => by
      have := he m (hm₀.trans_le hm)
      dsimp only at this
      rwa [hsm m hm, Outcome.bind_ok] at this
  have hle : ∀ m, m₀ ≤ m → massFactorElectron U m₀ * e m₀ ≤ massFactorElectron U m * e m := fun m hm => by
    obtain ⟨-, r₁, r₂, e1, e2, -, -, hle⟩ := C101_pairs (I := T.integrate) (Q := Q) hI hc hcf hp hr (hsm m₀ le_rfl) (hsm m hm) hm₀ hm hdens hη hf hQ hQ'
    have k1 := CrystalDetector.C38_crystal_q_threshold_partial (U := U) (T := T) (d := d) (cd := cd) (p := withMass U p m₀) (h := h) hw (Q := Q) (by omega)
    have k2 := CrystalDetector.C38_crystal_q_threshold_partial (U := U) (T := T) (d := d) (cd := cd) (p := withMass U p m) (h := h) hw (Q := Q) (by omega)
    rw [e1, Outcome.bind_ok] at k1
    rw [e2, Outcome.bind_ok] at k2
    rw [Outcome.ok.inj ((hsig m₀ le_rfl).symm.trans k1), Outcome.ok.inj ((hsig m hm).symm.trans k2)]
    have := mul_le_mul_of_nonneg_left hle (mul_nonneg hex hfl)
    linarith
  have es : e m₀ = s₀ := by
    have := hsig m₀ le_rfl
    rw [hp₀] at this
    exact Outcome.ok.inj (this.symm.trans hS.signal)
  have hpos : ∀ m, m₀ ≤ m → 0 < e m := fun m hm => by
    have := hle m hm
    rw [es] at this
    have := (mul_pos (massFactorElectron_pos (U := U) hm₀) hS.visible).trans_le this
    exact pos_of_mul_pos_right this (massFactorElectron_pos (hm₀.trans_le hm)).le
  refine C116_limit (q := fun m => withMass U p m)
    (D := .crystal (CrystalDetector.useQThreshold d cd Q).1 (CrystalDetector.useQThreshold d cd Q).2) (s := e) (c₀ := c₀) (m₀ := m₀) hR (fun m hm => hsm m hm)
    (fun m hm => ?_) (hec.mono fun m hm => hm₀.trans_le hm) self_mem_Ici (by rw [hp₀]; exact g₀) hx₀
  have hm : m₀ ≤ m := hm
  refine ⟨hS.detector, hS.counting, hS.background, reachable_step (op := .setMass m) hp (hm₀.trans_le hm) (hsm m hm), ?_, hS.positive, hsig m hm, hpos m hm⟩
  rw [setMass_parameter hb (hsm m hm) h0 (hm₀.trans_le hm) hm₀]
  exact hS.parameter

/-! ## The hypotheses can be met -/

/-- Non-vacuity: the standard halo with a moving observer. -/
example : Continuous SHM.sample.pdfSpeed ∧ Continuous SHM.sample.cdfSpeed ∧
    ContinuousOn SHM.sample.eta (Icc 0 (SHM.sample.vMax - 1e-8 * SHM.sample.v0)) ∧
    ¬ContinuousAt SHM.sample.eta (SHM.sample.vMax - 1e-8 * SHM.sample.v0) := by
  have hs : SHM.sample.Physical ∧ SHM.sample.vObs ≤ SHM.sample.vEsc ∧ 0 < SHM.sample.vObs ∧ 1e-8 * SHM.sample.v0 ≤ SHM.sample.vObs := by
    refine ⟨⟨?_, ?_⟩, ?_, ?_, ?_⟩ <;> norm_num [SHM.sample, SHM.makeSpeed, SHM.normalize]
  obtain ⟨h1, h2⟩ := C116_speeds SHM.sample_reachable hs.1 hs.2.2.1 hs.2.1
  exact ⟨h1, h2, (C116_eta_partial SHM.sample_reachable hs.1 hs.2.1 (.inr hs.2.2.2)).1, (C116_fails_eta SHM.sample_reachable hs.1 hs.2.1 hs.2.2.2).2.2⟩

/-- Particles whose density rises with the speed up to `v + 1`. -/
noncomputable def risingHalo (v : ℝ) : Distribution where
  density := 1
  vMin := 0
  vMax := v + 1
  useEta := true
  pdfSpeed := fun u => u
  cdfSpeed := fun u => u ^ 2 / 2
  eta := fun w => .ok (v + 1 - w)

theorem risingHalo_eta {v w : ℝ} (hw : 0 ≤ w) (hv : w ≤ v + 1) : EtaAt (risingHalo v) w := by
  show Outcome.ok (v + 1 - w) = .ok (∫ u in w..(v + 1), u / u)
  rw [intervalIntegral.integral_congr_ae (g := fun _ => (1 : ℝ)) (Filter.Eventually.of_forall fun u hu => ?_)]
  · simp
  · rw [uIoc_of_le hv] at hu
    exact div_self (hw.trans_lt hu.1).ne'

theorem risingHalo_proper (v : ℝ) : ProperSpeeds (risingHalo v) := ⟨fun _ h => h, continuous_id.intervalIntegrable _ _⟩

theorem risingHalo_falling (v : ℝ) : FallingEta (risingHalo v) := fun _ _ _ h1 h2 => ⟨_, _, rfl, rfl, sub_nonneg.2 h2, by linarith⟩

/-- Non-vacuity: recoils off hydrogen, as functions of the energy and of the mass. -/
example (U : Units) (hI : I.Exact) (hp : Reachable U p) (hm : 0 < p.mass) (hl : p.lowMass = true) :
    NoJumps (fun E => dRdERIsotope U I E p (risingHalo 1) (Isotope.default U)) (Ioi 0) ∧
      NoJumps (fun m => p.setMass U m >>= fun q => dRdERIsotope U I 1 q (risingHalo 1) (Isotope.default U)) (Ioi 0) := by
  have hM : 0 < (Isotope.default U).mass := U.mProton_pos
  have he : ∀ v, 0 ≤ v → v ≤ (risingHalo 1).vMax → EtaAt (risingHalo 1) v := fun v h0 h1 => risingHalo_eta h0 h1
  exact ⟨C116_recoil hI hm hM (risingHalo_proper _) (.inr hl) fun _ _ => he, C116_recoil_mass hI hp hM (risingHalo_proper _) (fun _ _ => he) one_pos⟩

/-- Non-vacuity: the spectrum of a particle with the coupling of the standard constructor jumps for hydrogen. -/
example (hI : I.Exact) : ∃ v p, Reachable Units.sample p ∧
    ¬NoJumps (fun E => dRdERIsotope Units.sample I E p (risingHalo v) (Isotope.default Units.sample)) (Ioi 0) := by
  set U := Units.sample with hU
  obtain ⟨f, -, hf, hp, hfs⟩ := makeSI_eq (U := U) (m := 1) (s := 1) one_pos zero_le_one
  have hf := hf one_pos
  set p : DMParticle := { standard U 1 1 (.SI .contact (U.aEM * U.mElectron) 0) with fp := f, fn := f } with hpd
  have hreach : Reachable U p := ⟨_, [], .inl ⟨1, 1, one_pos, hp⟩, by simp, rfl⟩
  have hM : 0 < (Isotope.default U).mass := U.mProton_pos
  have hm : 0 < p.mass := one_pos
  have hMeV := U.MeV_pos
  set E := (1 / 10 ^ 6 * U.MeV) ^ 2 / (2 * (Isotope.default U).mass) with hE
  have hE0 : 0 < E := by positivity
  set v := vMinimalNucleus E p.mass (Isotope.default U).mass with hv
  have v0 : 0 < v := vMinimalNucleus_pos hE0 hm hM
  have he : p.useEtaFunction = true → (risingHalo v).useEta = true → ∀ w, 0 ≤ w → w ≤ (risingHalo v).vMax → EtaAt (risingHalo v) w :=
    fun _ _ w h0 h1 => risingHalo_eta h0 h1
  have hF : 0 < (Isotope.default U).helmFormFactor U (1 / 10 ^ 6 * U.MeV) := by
    have hR := (C09_radius_positive (U := U) (Isotope.default U)).2
    have hR' : (Isotope.default U).helmRadius U ≤ 100 := by
      unfold Isotope.helmRadius
      apply Real.sqrt_le_iff.2
      refine ⟨by norm_num, ?_⟩
      have h1 := Real.pi_pos
      have h2 := Real.pi_lt_d2
      have h3 : Real.pi ^ 2 ≤ 10 := by nlinarith
      simp only [Isotope.default, hU, Units.sample, Nat.cast_one, Real.one_rpow]
      nlinarith
    have hx : 0 < 1 / 10 ^ 6 * U.MeV * (Isotope.default U).helmRadius U := by positivity
    have hx' : 1 / 10 ^ 6 * U.MeV * (Isotope.default U).helmRadius U < Real.pi / 2 := by
      have h1 := Real.pi_gt_three
      have h2 : U.MeV = 1 / 1000 := by norm_num [hU, Units.sample, Units.MeV]
      rw [h2]
      nlinarith
    unfold Isotope.helmFormFactor
    rw [if_neg (lt_irrefl _)]
    dsimp only
    generalize 1 / 10 ^ 6 * U.MeV * (Isotope.default U).helmRadius U = x at *
    have hc := Real.cos_pos_of_mem_Ioo (x := x) ⟨by linarith, hx'⟩
    have ht := Real.lt_tan hx hx'
    rw [Real.tan_eq_sin_div_cos, lt_div_iff₀ hc] at ht
    have h2 : 3 * (Real.sin x / x ^ 3 - Real.cos x / x ^ 2) = 3 / x ^ 3 * (Real.sin x - x * Real.cos x) := by
      field_simp
    rw [h2]
    have := sub_pos.2 ht
    positivity
  have hq : Real.sqrt (2 * (Isotope.default U).mass * E) = 1 / 10 ^ 6 * U.MeV := by
    rw [hE, mul_div_cancel₀ _ (by positivity), Real.sqrt_sq (by positivity)]
  refine ⟨v, p, hreach, C116_fails_form_factor hI hm hM (risingHalo_proper v) (by simp [p, standard]) rfl he hE
    (C42_rate hI hm hM fun h1 h2 h3 => he h1 h2 _ (Real.sqrt_nonneg _) h3) (ne_of_gt ?_)⟩
  rw [isotopeRate_tail hm hM, ← hv]
  have htail : speedTail (risingHalo v) v = 1 := by
    have := risingHalo_eta v0.le (by linarith : v ≤ v + 1)
    unfold EtaAt at this
    unfold speedTail
    rw [min_eq_left (by show v ≤ v + 1; linarith), ← Outcome.ok.inj this]
    ring
  have hs : 0 < p.dSigmadERNucleus U E (Isotope.default U) (1 / 1000) := by
    unfold dSigmadERNucleus dSigmadq2Nucleus
    rw [hq]
    have hpi := Real.pi_pos
    generalize (Isotope.default U).helmFormFactor U (1 / 10 ^ 6 * U.MeV) = F at hF
    have hpr := U.mProton_pos
    simp [p, standard, formFactor2, Isotope.neutrons, usub32, Isotope.default]
    positivity
  have hd : 0 < p.fractionalDensity * (risingHalo v).density := by norm_num [p, standard, risingHalo]
  rw [htail]
  positivity

/-- Non-vacuity: silicon with a table of ones: a jump at the end of the table. -/
example (U : Units) {T : Tools} (hI : T.integrate.Exact) : ∃ (v : ℝ) (p : DMParticle) (c : Crystal), BuiltCrystal U c ∧
    ¬NoJumps (fun E => dRdEeCrystal U T.integrate E p (risingHalo v) c) (Ioi 0) := by
  obtain ⟨v, p, p₀, cd, c₀, s₀, hp, hm, href, hc, htab, hv, ⟨r, hr, r0⟩, S⟩ := sees_silicon_of U hI (H := risingHalo) (fun v _ => risingHalo_falling v)
    (fun v _ => risingHalo_proper v) (fun _ => one_pos) (fun _ => rfl) (fun v => by show v ≤ v + 1; linarith)
    fun v _ => ⟨1, by show Outcome.ok (v + 1 - v) = _; simp, one_pos⟩
  exact ⟨v, p₀, cd.crystal, hc, C116_fails_table_end hc hr r0.ne'⟩

/-- Non-vacuity: inside this table there is none. -/
example (U : Units) (hI : I.Exact) (hm : 0 < p.mass) : ∃ c, BuiltCrystal U c ∧
    NoJumps (fun E => dRdEeCrystal U I E p (risingHalo 1) c) (Ioo (0.1 * U.eV) (50 * U.eV)) := by
  obtain ⟨c, hc, -, hint⟩ := builtCrystal_exists U
  refine ⟨c, hc, C116_crystal hI hc hm (risingHalo_proper 1) (fun _ _ w h0 h1 => risingHalo_eta h0 h1) fun q => ?_⟩
  exact (continuousOn_const (c := (1 : ℝ))).congr fun E _ => hint q E

/-- Non-vacuity: silicon with a table of ones, in which a limit is found at mass 1. -/
example (U : Units) {T : Tools} (hR : T.findRoot.Exact) (hI : T.integrate.Exact) : ∃ (v : ℝ) (p : DMParticle) (d : Detector) (cd : CrystalDetector) (cert : ℝ)
    (lim : ℝ → ℝ), ContinuousOn lim (Ici 1) ∧ lim 1 = 1 ∧ ∀ m, 1 ≤ m → ∃ r, (p.setMass U m >>= fun q =>
      d.upperLimit U T (cd.toClass U T (risingHalo v)) q cert) = .ok r ∧ (InRange (lim m) → r.2.2 = lim m) := by
  obtain ⟨v, p, p₀, cd, c₀, s₀, hp, hm, href, hc, htab, hv, -, S⟩ := sees_silicon_of U hI (H := risingHalo) (fun v _ => risingHalo_falling v)
    (fun v _ => risingHalo_proper v) (fun _ => one_pos) (fun _ => rfl) (fun v => by show v ≤ v + 1; linarith)
    fun v _ => ⟨1, by show Outcome.ok (v + 1 - v) = _; simp, one_pos⟩
  set d := Detector.make "Si" 1 "Electrons"
  set cert : ℝ := 1 - probAtMost (1 / c₀ * s₀ + (CrystalDetector.useQThreshold d cd 2).1.background) (CrystalDetector.useQThreshold d cd 2).1.observed with hcert
  obtain ⟨p', x, g, k⟩ := C87_value S hR cert
  have h1 : InRange (1 : ℝ) := inRange_of le_rfl (by norm_num)
  have hx : x = 1 := LimitOf.eq S.positive S.visible S.background h1 hcert k
  subst hx
  obtain ⟨lim, l1, l2⟩ := C116_crystal_limit (T := T) (h := risingHalo v) (d := d) hR hI hc htab hp href zero_le_one (fun _ _ => risingHalo_falling v)
    (risingHalo_proper v) (fun _ _ w h0 h1 => risingHalo_eta h0 h1) rfl zero_le_one zero_le_one (Q := 2) (by norm_num) (by norm_num) one_pos hm S g one_pos
  refine ⟨v, p, (CrystalDetector.useQThreshold d cd 2).1, (CrystalDetector.useQThreshold d cd 2).2, cert, lim, l1, ?_, fun m hm => ?_⟩
  · obtain ⟨l0, r, e, e1, e2⟩ := l2 1 le_rfl
    rw [hm, Outcome.bind_ok] at e
    have : Outcome.ok _ = Outcome.ok r := g.symm.trans e
    have hr := Outcome.ok.inj this
    by_cases hin : InRange (lim 1)
    · have := e1 hin
      rw [← hr] at this
      exact this.symm
    · have := e2 hin
      rw [← hr] at this
      norm_num at this
  · obtain ⟨-, r, e, e1, -⟩ := l2 m hm
    exact ⟨r, e, e1⟩

end Obscura
