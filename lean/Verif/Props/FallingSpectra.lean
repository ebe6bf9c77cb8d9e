import Verif.Spec.FallingSpectra
import Verif.Props.EtaBounds
import Verif.Props.EnergyBins

/-!
# C96: recoil spectra fall with the energy
-/

namespace Obscura

open Spec NuclearDetector MeasureTheory
open DMParticle (formFactor2)

variable {U : Units} {I : Integrator} {nd : NuclearDetector} {d : Detector} {p : DMParticle} {h : Distribution}

theorem formFactor2_abs (ff : FormFactor) (qRef mMed q : ℝ) : formFactor2 ff |qRef| mMed q = formFactor2 ff qRef mMed q := by
  cases ff <;> simp only [formFactor2, div_mul_div_comm, abs_mul_abs_self]

/-- For point-like nuclei the cross section is a falling function of the energy over the speed squared. -/
theorem pointCrossSection (hp : SeesPoints p) {iso : Isotope} (hi : PhysicalIsotope iso) :
    ∃ s : ℝ → ℝ, (∀ E v, p.dSigmadERNucleus U E iso v = s E / v ^ 2) ∧ ∀ E E', 0 < E → E ≤ E' → 0 ≤ s E' ∧ s E' ≤ s E := by
  obtain ⟨hM, hsp, -⟩ := hi
  have hpi := Real.pi_pos
  unfold DMParticle.dSigmadERNucleus DMParticle.dSigmadq2Nucleus
  cases hint : p.interaction with
  | SD =>
    simp only []
    by_cases h0 : iso.spin = 0
    · exact ⟨fun _ => 0, fun E v => by simp [h0], fun _ _ _ _ => ⟨le_rfl, le_rfl⟩⟩
    · have : 0 < iso.spin := lt_of_le_of_ne hsp (Ne.symm h0)
      refine ⟨fun _ => 2 * iso.mass * (1 / Real.pi * (iso.spin + 1) / iso.spin * (p.fp * iso.sp + p.fn * iso.sn) ^ 2), fun E v => ?_,
        fun _ _ _ _ => ⟨by positivity, le_rfl⟩⟩
      rw [if_neg h0]
      simp only [div_eq_mul_inv, mul_inv, sq, one_mul]
      ring
  | SI ff qRef mMed =>
    have hl : p.lowMass = true := by
      rcases hp with h1 | h1
      · rw [hint] at h1; cases h1
      · exact h1
    simp only [hl, if_true, mul_one]
    refine ⟨fun E => 2 * iso.mass * (1 / 4 / Real.pi * (p.fp * iso.Z + p.fn * iso.neutrons) ^ 2 *
      formFactor2 ff qRef mMed (Real.sqrt (2 * iso.mass * E))), fun E v => ?_, fun E E' hE hEE => ⟨?_, ?_⟩⟩
    · simp only [div_eq_mul_inv, mul_inv, sq, one_mul]
      ring
    · have := C10_nonneg ff qRef mMed (Real.sqrt (2 * iso.mass * E'))
      positivity
    · have h1 : 0 < Real.sqrt (2 * iso.mass * E) := Real.sqrt_pos.2 (by positivity)
      have h2 : Real.sqrt (2 * iso.mass * E) ≤ Real.sqrt (2 * iso.mass * E') := Real.sqrt_le_sqrt (by gcongr)
      have h3 := C10_antitone ff (mMed := mMed) h1 h2 (abs_nonneg qRef)
      rw [formFactor2_abs, formFactor2_abs] at h3
      dsimp only
      gcongr

/-- C96 (isotopes). For a particle that sees the nuclei as points the recoil spectrum of an isotope is defined, not negative, and falls with the
energy. -/
theorem C96_isotope (hI : I.Exact) {iso : Isotope} (hi : PhysicalIsotope iso) (hp : SeesPoints p) (hm : 0 < p.mass) (hdens : 0 ≤ h.density)
    (hfd : 0 ≤ p.fractionalDensity) (hη : p.useEtaFunction = true → h.useEta = true → FallingEta h) (hf : ProperSpeeds h) :
    FallingSpectrum fun E => dRdERIsotope U I E p h iso := by
  intro E E' hE hEE
  have hM := hi.1
  obtain ⟨s, hs, hs'⟩ := pointCrossSection (U := U) hp hi
  obtain ⟨s0, s1⟩ := hs' E E' hE hEE
  have hv : vMinimalNucleus E p.mass iso.mass ≤ vMinimalNucleus E' p.mass iso.mass :=
    (C12_strictMono hm hM).1.monotoneOn (Set.mem_Ici.2 hE.le) (Set.mem_Ici.2 (hE.le.trans hEE)) hEE
  have hv0 : 0 < vMinimalNucleus E p.mass iso.mass := by
    have := (C12_strictMono hm hM).1 (Set.mem_Ici.2 le_rfl) (Set.mem_Ici.2 hE.le) hE
    exact (Real.sqrt_nonneg _).trans_lt this
  unfold dRdERIsotope
  dsimp only
  simp only [hs]
  by_cases g : h.vMax < vMinimalNucleus E p.mass iso.mass
  · rw [if_pos g, if_pos (g.trans_le hv)]
    exact ⟨0, 0, rfl, rfl, le_rfl, le_rfl⟩
  rw [if_neg g]
  have g := not_lt.1 g
  by_cases u : p.useEtaFunction ∧ h.useEta
  · rw [if_pos u, if_pos u]
    by_cases g' : h.vMax < vMinimalNucleus E' p.mass iso.mass
    · obtain ⟨x, y, e1, -, y0, yx⟩ := hη u.1 u.2 _ _ hv0.le g le_rfl
      rw [if_pos g', e1]
      refine ⟨_, 0, rfl, rfl, le_rfl, ?_⟩
      have := y0.trans yx
      have := s0.trans s1
      positivity
    · obtain ⟨x, y, e1, e2, y0, yx⟩ := hη u.1 u.2 _ _ hv0.le hv (not_lt.1 g')
      rw [if_neg g', e1, e2]
      have := s0.trans s1
      refine ⟨_, _, rfl, rfl, by positivity, by gcongr⟩
  · rw [if_neg u, if_neg u]
    set a := vMinimalNucleus E p.mass iso.mass
    set b := vMinimalNucleus E' p.mass iso.mass
    have hint : IntervalIntegrable (fun v => h.density / p.mass * h.pdfSpeed v / v) volume a h.vMax := by
      refine ((hf.2.mono_set ?_).const_mul (h.density / p.mass)).mul_continuousOn (g := fun v => v⁻¹) ?_
      · rw [Set.uIcc_of_le g, Set.uIcc_of_le (hv0.le.trans g)]
        exact Set.Icc_subset_Icc hv0.le le_rfl
      · rw [Set.uIcc_of_le g]
        exact continuousOn_inv₀.mono fun v hv => (hv0.trans_le hv.1).ne'
    have hnn : ∀ v, a ≤ v → 0 ≤ h.density / p.mass * h.pdfSpeed v / v := fun v hv => by
      have := hf.1 v (hv0.le.trans hv)
      have := hv0.trans_le hv
      positivity
    have key : ∀ E₁ c, a ≤ c → c ≤ h.vMax → ∫ v in c..h.vMax, h.differentialFlux v p.mass * (s E₁ / v ^ 2) =
        s E₁ * ∫ v in c..h.vMax, h.density / p.mass * h.pdfSpeed v / v := fun E₁ c hc hc' => by
      rw [← intervalIntegral.integral_const_mul]
      refine intervalIntegral.integral_congr fun v hv => ?_
      rw [Set.uIcc_of_le hc'] at hv
      have : 0 < v := hv0.trans_le (hc.trans hv.1)
      simp only [Distribution.differentialFlux]
      field_simp
    have i0 : 0 ≤ ∫ v in a..h.vMax, h.density / p.mass * h.pdfSpeed v / v :=
      intervalIntegral.integral_nonneg g fun v hv => hnn v hv.1
    simp only [hI _ _ _]
    rw [key E a le_rfl g]
    by_cases g' : h.vMax < b
    · rw [if_pos g']
      refine ⟨_, 0, rfl, rfl, le_rfl, ?_⟩
      have := s0.trans s1
      positivity
    · have g' := not_lt.1 g'
      rw [if_neg (not_lt.2 g'), key E' b hv g']
      have i1 : 0 ≤ ∫ v in b..h.vMax, h.density / p.mass * h.pdfSpeed v / v :=
        intervalIntegral.integral_nonneg g' fun v hv' => hnn v (hv.trans hv'.1)
      have i2 : ∫ v in b..h.vMax, h.density / p.mass * h.pdfSpeed v / v ≤ ∫ v in a..h.vMax, h.density / p.mass * h.pdfSpeed v / v := by
        refine intervalIntegral.integral_mono_interval hv g' le_rfl ?_ hint
        refine (ae_restrict_iff' measurableSet_Ioc).2 (Filter.Eventually.of_forall fun v hv => hnn v hv.1.le)
      have := s0.trans s1
      refine ⟨_, _, rfl, rfl, by positivity, by gcongr⟩

theorem FallingSpectrum.value {f : ℝ → Outcome ℝ} (hf : FallingSpectrum f) {E : ℝ} (hE : 0 < E) :
    f E = .ok (f E).valueOr0 ∧ 0 ≤ (f E).valueOr0 ∧ ∀ E', E ≤ E' → (f E').valueOr0 ≤ (f E).valueOr0 := by
  obtain ⟨r, r', e1, e2, h0, -⟩ := hf E E hE le_rfl
  rw [e1] at e2
  cases e2
  refine ⟨by rw [e1]; rfl, by rw [e1]; exact h0, fun E' hEE => ?_⟩
  obtain ⟨r, r', e1, e2, -, h1⟩ := hf E E' hE hEE
  rw [e1, e2]
  exact h1

/-- C96 (detectors). So does the spectrum of a nuclear recoil detector without energy resolution and efficiency tables. -/
theorem C96_spectrum (hI : I.Exact) (hi : ∀ iso ∈ nd.isotopes, PhysicalIsotope iso) (hres : nd.resolution < 1 / 10 ^ 6 * U.eV)
    (htab : nd.usingTables = false) (hlen : nd.nuclei.length ≤ nd.fractions.length) (hfr : ∀ x ∈ nd.fractions, 0 ≤ x)
    (heff : 0 ≤ d.flatEfficiency) (hp : SeesPoints p) (hm : 0 < p.mass) (hdens : 0 ≤ h.density) (hfd : 0 ≤ p.fractionalDensity)
    (hη : p.useEtaFunction = true → h.useEta = true → FallingEta h) (hf : ProperSpeeds h) : FallingSpectrum fun E => nd.dRdE U I d E p h := by
  intro E E' hE hEE
  have key : ∀ E, 0 < E → nd.dRdE U I d E p h = .ok (∑ i : Fin nd.nuclei.length,
      efficiencyOf nd i E * d.flatEfficiency * nd.fractions.getD i 0 *
        (nd.nuclei[i].isotopes.map fun iso => iso.abundance * (dRdERIsotope U I E p h iso).valueOr0).sum) := fun E hE => by
    unfold NuclearDetector.dRdE
    rw [if_pos hres]
    exact theoryRate_eq_of hlen fun iso hiso => (FallingSpectrum.value (C96_isotope hI (hi iso hiso) hp hm hdens hfd hη hf) hE).1
  have he : ∀ i E, efficiencyOf nd i E = 1 := fun i E => by unfold efficiencyOf; simp [htab]
  have hfr' : ∀ i, 0 ≤ nd.fractions.getD i 0 := fun i => by
    rw [List.getD_eq_getElem?_getD]
    cases hx : nd.fractions[i]? with
    | none => exact le_rfl
    | some x => exact hfr x (List.mem_of_getElem? hx)
  dsimp only
  rw [key E hE, key E' (hE.trans_le hEE)]
  simp only [he]
  have hiso : ∀ (i : Fin nd.nuclei.length), ∀ iso ∈ nd.nuclei[i].isotopes, iso ∈ nd.isotopes := fun i iso hx =>
    mem_isotopes (List.getElem_mem _) hx
  refine ⟨_, _, rfl, rfl, Finset.sum_nonneg fun i _ => ?_, Finset.sum_le_sum fun i _ => ?_⟩
  · have := hfr' i
    have : 0 ≤ (nd.nuclei[i].isotopes.map fun iso => iso.abundance * (dRdERIsotope U I E' p h iso).valueOr0).sum :=
      List.sum_nonneg fun x hx => by
        obtain ⟨iso, hiso', rfl⟩ := List.mem_map.1 hx
        have hph := hi iso (hiso i iso hiso')
        exact mul_nonneg hph.2.2 (FallingSpectrum.value (C96_isotope hI hph hp hm hdens hfd hη hf) (hE.trans_le hEE)).2.1
    positivity
  · have := hfr' i
    have : (nd.nuclei[i].isotopes.map fun iso => iso.abundance * (dRdERIsotope U I E' p h iso).valueOr0).sum ≤
        (nd.nuclei[i].isotopes.map fun iso => iso.abundance * (dRdERIsotope U I E p h iso).valueOr0).sum :=
      List.sum_le_sum fun iso hiso' => by
        have hph := hi iso (hiso i iso hiso')
        exact mul_le_mul_of_nonneg_left ((FallingSpectrum.value (C96_isotope hI hph hp hm hdens hfd hη hf) hE).2.2 E' hEE) hph.2.2
    gcongr

/-- C96 (bins). In a binned analysis with a positive threshold and the same efficiency in all bins no bin expects more events than a bin at lower
energies. -/
theorem C96_bins {T : Tools} (hI : T.integrate.Exact) (hr : BaseReachable d) (hd : d.analysis = .binnedPoisson) (hn : d.bins + 1 < 2 ^ 32)
    {ε : ℝ} (hε : 0 ≤ ε) (he : ∀ i < d.bins, d.binEfficiencies.getD i 0 = ε) (hE : 0 < d.energyThreshold) (hexp : 0 ≤ d.exposure)
    (hsp : FallingSpectrum fun E => nd.dRdE U T.integrate d E p h) :
    ∃ ss, (nd.toClass U T h).signalsBinned d p = .ok ss ∧ ss.length = d.bins ∧
      ∀ i j, i ≤ j → j < d.bins → 0 ≤ ss.getD j 0 ∧ ss.getD j 0 ≤ ss.getD i 0 := by
  obtain ⟨ss, h1, h2, h3⟩ := C37_bin_signals (p := p) (C := nd.toClass U T h) hr hd hI hn
  refine ⟨ss, ?_, h2, fun i j hij hj => ?_⟩
  · rw [← h1]
    rfl
  obtain ⟨-, -, f3, -⟩ := (Detector.baseReachable_inv hr).energies hd
  rw [h3 i (hij.trans_lt hj), h3 j hj, he i (hij.trans_lt hj), he j hj]
  set f : ℝ → ℝ := fun E => (nd.dRdE U T.integrate d E p h).valueOr0
  have hfd : (fun E => (nd.toClass U T h).dRdE d E p) = f := rfl
  simp only [show ∀ E, (nd.toClass U T h).dRdE d E p = f E from fun _ => rfl]
  set w := (d.energyMax - d.energyThreshold) / d.bins
  have hw : 0 ≤ w := div_nonneg (sub_nonneg.2 f3) (Nat.cast_nonneg _)
  have hedge : ∀ k : ℕ, binEdge d.energyThreshold d.energyMax d.bins k = d.energyThreshold + k * w := fun _ => rfl
  have hanti : ∀ E E', 0 < E → E ≤ E' → f E' ≤ f E := fun E E' hE hEE => (FallingSpectrum.value hsp hE).2.2 E' hEE
  have hpos : ∀ k : ℕ, 0 < d.energyThreshold + k * w := fun k => by positivity
  have hj0 : (i : ℝ) * w ≤ j * w := by gcongr
  have hint : ∀ k : ℕ, IntervalIntegrable f volume (d.energyThreshold + k * w) (d.energyThreshold + k * w + w) := fun k =>
    AntitoneOn.intervalIntegrable fun x hx y _ hxy => by
      rw [Set.uIcc_of_le (by linarith)] at hx
      exact hanti x y ((hpos k).trans_le hx.1) hxy
  have e : ∀ k : ℕ, d.energyThreshold + ((k + 1 : ℕ) : ℝ) * w = d.energyThreshold + k * w + w := fun k => by push_cast; ring
  rw [hedge, hedge, hedge, hedge, e, e]
  have hshift : ∫ E in (d.energyThreshold + j * w)..(d.energyThreshold + j * w + w), f E =
      ∫ E in (d.energyThreshold + i * w)..(d.energyThreshold + i * w + w), f (E + (j * w - i * w)) := by
    rw [intervalIntegral.integral_comp_add_right]
    congr 1 <;> ring
  have hle : ∫ E in (d.energyThreshold + j * w)..(d.energyThreshold + j * w + w), f E ≤
      ∫ E in (d.energyThreshold + i * w)..(d.energyThreshold + i * w + w), f E := by
    rw [hshift]
    refine intervalIntegral.integral_mono_on (by linarith) ?_ (hint i) fun x hx => ?_
    · have := (hint j).comp_add_right (j * w - i * w)
      convert this using 1 <;> ring
    · exact hanti _ _ ((hpos i).trans_le hx.1) (by linarith)
  have hnn : 0 ≤ ∫ E in (d.energyThreshold + j * w)..(d.energyThreshold + j * w + w), f E :=
    intervalIntegral.integral_nonneg (by linarith) fun x hx => (FallingSpectrum.value hsp ((hpos j).trans_le hx.1)).2.1
  exact ⟨by positivity, by gcongr⟩

/-- C96 (standard halos). Every physical standard halo meets the conditions on the halo. -/
theorem C96_standard_halo {s : SHM} (hs : SHM.Reachable U s) (hp : s.Physical) (hoe : s.vObs ≤ s.vEsc) :
    FallingEta (Distribution.ofSHM s) ∧ ProperSpeeds (Distribution.ofSHM s) := by
  obtain ⟨-, -, h3, h4, -⟩ := C42_standard_halo_regular hs hp hoe
  refine ⟨fun v w hv hvw _ => ?_, fun v _ => h3 v, ?_⟩
  · have := C17_antitone U s hs hp hoe v w hv hvw
    exact ⟨_, _, rfl, rfl, this.1, this.2.1⟩
  · have := h4.mul_continuousOn (g := fun v => v) continuousOn_id
    refine this.congr fun v hv => ?_
    rw [Set.uIoc_of_le] at hv
    · have : v ≠ 0 := hv.1.ne'
      exact div_mul_cancel₀ _ this
    · have hw := SHM.WF.of_reachable hs hp
      show (0 : ℝ) ≤ s.vMax
      rw [hw.vMax]
      linarith [hw.vEsc_pos, hw.vObs_nonneg]

/-- Non-vacuity: a particle in the low-mass mode, a hydrogen detector with five bins, and the standard halo `SHM.sample`. -/
example {T : Tools} (hI : T.integrate.Exact) : ∃ (p : DMParticle) (d : Detector) (ss : List ℝ), Reachable U p ∧ BaseReachable d ∧ d.bins = 5 ∧
    (sampleNuclear 0).nuclei ≠ [] ∧ ((sampleNuclear 0).toClass U T (Distribution.ofSHM SHM.sample)).signalsBinned d p = .ok ss ∧
    ∀ i j, i ≤ j → j < 5 → ss.getD j 0 ≤ ss.getD i 0 := by
  obtain ⟨c, hc0, hc, hmk, _⟩ := makeSI_eq (U := U) (m := 1) (s := 1) one_pos zero_le_one
  obtain ⟨d, hd, -⟩ := (C27_use_energy_bins (Detector.make "x" 1 "Nuclei") 1 2 5 (by norm_num)).1 (by simp [Detector.make]) (by norm_num)
  obtain ⟨b1, b2, b3, b4, b5, b6⟩ := C37_configured (n := 5) ⟨Detector.make "x" 1 "Nuclei", [], ⟨_, _, _, rfl⟩, rfl⟩ (by norm_num) hd
  have hrest : d.exposure = 1 ∧ d.flatEfficiency = 1 := by
    unfold Detector.useEnergyBins at hd
    obtain ⟨d1, h1, h2⟩ := Outcome.bind_eq_ok.1 hd
    obtain ⟨_, rfl⟩ := Detector.initializeBinned_ok h1
    split_ifs at h2
    cases h2
    exact ⟨rfl, rfl⟩
  have hs : SHM.sample.Physical ∧ SHM.sample.vObs ≤ SHM.sample.vEsc ∧ 0 ≤ SHM.sample.density := by
    refine ⟨⟨?_, ?_⟩, ?_, ?_⟩ <;> norm_num [SHM.sample, SHM.makeSpeed, SHM.normalize]
  obtain ⟨g1, g2⟩ := C96_standard_halo (U := Units.sample) SHM.sample_reachable hs.1 hs.2.1
  have hp := makeSI_built one_pos hmk
  have hR : Reachable U (DMParticle.setLowMassMode { DMParticle.standard U 1 1 (.SI .contact (U.aEM * U.mElectron) 0) with fp := c, fn := c } true) :=
    ⟨_, [.setLowMassMode true], hp, by simp [ValidOp], rfl⟩
  have hiso : (sampleNuclear 0).isotopes = [sampleIsotope] := rfl
  obtain ⟨ss, e1, -, e3⟩ := C96_bins (nd := sampleNuclear 0) (h := Distribution.ofSHM SHM.sample) (p := DMParticle.setLowMassMode
    { DMParticle.standard U 1 1 (.SI .contact (U.aEM * U.mElectron) 0) with fp := c, fn := c } true) hI b1 b2
    (by rw [b3]; norm_num) zero_le_one (by rw [b3]; exact b6) (by rw [b4]; norm_num) (by rw [hrest.1]; norm_num)
    (C96_spectrum (U := U) hI (fun iso hi => by
        rw [hiso, List.mem_singleton] at hi
        subst hi
        norm_num [PhysicalIsotope, sampleIsotope])
      (show (0 : ℝ) < _ by have := U.eV_pos; positivity) rfl le_rfl (by simp [sampleNuclear]) (by rw [hrest.2]; norm_num) (.inr rfl)
      (show (0 : ℝ) < _ from one_pos) hs.2.2 zero_le_one (fun _ _ => g1) g2)
  exact ⟨_, d, ss, hR, b1, b3, by simp [sampleNuclear], e1, fun i j hij hj => (e3 i j hij (by rw [b3]; exact hj)).2⟩

end Obscura
