import Verif.Props.HaloMixture
import Verif.Props.HaloCurves

/-!
# C118: cases that meet the hypotheses of the theorems on mixtures of halos
-/

namespace Obscura

open Spec NuclearDetector DMParticle MeasureTheory

variable {U : Units} {I : Integrator} {T : Tools}

/-- A halo with a constant mean inverse speed and density 3 consists of one with density 1 and one with density 2. -/
theorem flat_mixture (v : ℝ) : HaloMixture 1 1 { flatHalo v with density := 3 } (flatHalo v) { flatHalo v with density := 2 } :=
  ⟨rfl, rfl, rfl, rfl, fun u _ _ => by simp [flatHalo], fun u _ _ => ⟨1, 1, 1, rfl, rfl, rfl, by norm_num [flatHalo]⟩⟩

/-- The SHM++ with the share 0.2 of the anisotropic component consists of the standard halo and of that component. -/
theorem sausage_mixture (N : Numerics) (hN : N.integrate2.Exact) : ∃ h₁ h₂, HaloMixture (1 - 0.2) 0.2
    (Distribution.ofSHMpp N ((⟨⟨1, 2, ![0, 3, 0], 7⟩, 0.2, 0.9⟩ : HaloPPParams).fresh N)) h₁ h₂ ∧ ProperSpeeds h₁ ∧ ProperSpeeds h₂ :=
  ⟨_, _, C118_sausage N hN ⟨⟨1, 2, ![0, 3, 0], 7⟩, 0.2, 0.9⟩ (by unfold HaloPPParams.Physical; norm_num) (by
    show vnorm ![0, 3, 0] ≤ 7
    rw [vnorm_y (by norm_num)]; norm_num)⟩

/-- Non-vacuity: a hydrogen detector with two bins, in halos with densities 1, 2 and 3. The numbers of events are not zero. -/
example (U : Units) {T : Tools} (hI : T.integrate.Exact) : ∃ (v : ℝ) (p : DMParticle) (ss ss₁ ss₂ : List ℝ),
    ((binnedHydrogen U).toClass U T { flatHalo v with density := 3 }).signalsBinned (binnedHydrogen U).base p = .ok ss ∧
    ((binnedHydrogen U).toClass U T (flatHalo v)).signalsBinned (binnedHydrogen U).base p = .ok ss₁ ∧
    ((binnedHydrogen U).toClass U T { flatHalo v with density := 2 }).signalsBinned (binnedHydrogen U).base p = .ok ss₂ ∧
    ∀ i < 2, 0 < ss₁.getD i 0 ∧ ss.getD i 0 = ss₁.getD i 0 + ss₂.getD i 0 := by
  obtain ⟨v, p, ss, ⟨-, -, -, hS⟩, hlow, hmass, hfd, hB, -⟩ := sees_bins_point U hI
  have ff : ∀ ρ, FallingEta { flatHalo v with density := ρ } := fun ρ v w _ _ _ => ⟨1, 1, rfl, rfl, zero_le_one, le_rfl⟩
  have fs : ∀ ρ, ProperSpeeds { flatHalo v with density := ρ } := fun ρ => ⟨fun _ _ => le_rfl, by simp [flatHalo]⟩
  have hev : (0 : ℝ) < 1 / 10 ^ 6 * U.eV := by have := U.eV_pos; positivity
  have P : ∀ ρ, 0 ≤ ρ → Proper U T.integrate { flatHalo v with density := ρ } (hydrogenTarget U) (binnedHydrogen U).base [p] := fun ρ hρ => by
    have hspec : FallingSpectrum fun E => (hydrogenTarget U).dRdE U T.integrate (binnedHydrogen U).base E p { flatHalo v with density := ρ } :=
      C96_spectrum hI (hydrogen_isotopes U) hev rfl le_rfl (by simp [hydrogenTarget]) zero_le_one (.inr hlow) (by rw [hmass]; exact one_pos)
        hρ (by rw [hfd]; exact zero_le_one) (fun _ _ => ff ρ) (fs ρ)
    have t0 : (0 : ℝ) < (binnedHydrogen U).base.energyThreshold := one_pos
    have t1 : (binnedHydrogen U).base.energyThreshold ≤ (binnedHydrogen U).base.energyMax := by norm_num [binnedHydrogen, AnyDetector.base]
    exact
      { fractions := le_rfl
        composition := by simp [hydrogenTarget]
        tables := by simp [hydrogenTarget]
        flat := zero_le_one
        isotopes := hydrogen_isotopes U
        exposure := zero_le_one
        threshold := t0
        efficiencies := fun i hi => by
          have : (binnedHydrogen U).base.binEfficiencies = [1, 1] := rfl
          have hi : i < 2 := hi
          rw [this]
          interval_cases i <;> simp
        resolution := fun hc => absurd hc (not_le.2 hev)
        spectra := fun q hq => AntitoneOn.intervalIntegrable fun x hx y _ hxy => by
          rw [List.mem_singleton.1 hq]
          rw [Set.uIcc_of_le t1] at hx
          exact (FallingSpectrum.value hspec (t0.trans_le hx.1)).2.2 y hxy }
  obtain ⟨ss0, ss1, ss2, k1, k2, k3, k4, k5⟩ := C118_bins (U := U) (flat_mixture v) (fs 1) (fs 2) hI (by rw [hmass]; exact one_pos)
    (P 1 zero_le_one) (P 2 zero_le_two) hB hS.binned (show 2 + 1 < 2 ^ 32 by norm_num)
  have e : ss1 = ss := Outcome.ok.inj (k2.symm.trans hS.signal)
  subst e
  exact ⟨v, p, ss0, ss1, ss2, k1, k2, k3, fun i hi => ⟨hS.visible i hi, by have := k5 i hi; linarith⟩⟩

/-- Non-vacuity: recoils of hydrogen between energies 1 and 2, in halos with densities 1, 2 and 3. The spectra are constant, so an interpolation by
constants is exact. -/
example (U : Units) : ∃ (v : ℝ) (d : Detector) (p : DMParticle) (s s₁ s₂ : ℝ), Reachable U p ∧ d.energyThreshold < d.energyMax ∧
    ((hydrogenTarget U).toClass U flatTools { flatHalo v with density := 3 }).signalsTotal d p = .ok s ∧
    ((hydrogenTarget U).toClass U flatTools (flatHalo v)).signalsTotal d p = .ok s₁ ∧
    ((hydrogenTarget U).toClass U flatTools { flatHalo v with density := 2 }).signalsTotal d p = .ok s₂ ∧ s = s₁ + s₂ := by
  obtain ⟨f, -, hf, hp, hfs⟩ := makeSI_eq (U := U) (m := 1) (s := 1) one_pos zero_le_one
  set p : DMParticle := { standard U 1 1 (.SI .contact (U.aEM * U.mElectron) 0) with fp := f, fn := f, lowMass := true } with hpd
  have hval : ∀ op ∈ [DMParticle.Op.setLowMassMode true], ValidOp op := fun op ho => by
    simp only [List.mem_cons, List.not_mem_nil, or_false] at ho
    rcases ho with rfl; trivial
  have hreach : Reachable U p := ⟨_, [.setLowMassMode true], .inl ⟨1, 1, one_pos, hp⟩, hval, rfl⟩
  set d : Detector := { Detector.make "x" 1 "Nuclei" with usingEnergyThreshold := true, energyThreshold := 1, energyMax := 2 } with hd
  set v := vMinimalNucleus 2 p.mass (Isotope.default U).mass with hv
  have hM : 0 < (Isotope.default U).mass := by simp [Isotope.default, U.mProton_pos]
  have hI : flatTools.integrate.Exact := exactIntegrator_exact
  have ff : ∀ ρ, FallingEta { flatHalo v with density := ρ } := fun ρ v w _ _ _ => ⟨1, 1, rfl, rfl, zero_le_one, le_rfl⟩
  have fs : ∀ ρ, ProperSpeeds { flatHalo v with density := ρ } := fun ρ => ⟨fun _ _ => le_rfl, by simp [flatHalo]⟩
  have hev : (0 : ℝ) < 1 / 10 ^ 6 * U.eV := by have := U.eV_pos; positivity
  have t1 : (1 : ℝ) ≤ 2 := by norm_num
  have P : ∀ ρ, 0 ≤ ρ → Proper U flatTools.integrate { flatHalo v with density := ρ } (hydrogenTarget U) d [p] := fun ρ hρ => by
    have hspec : FallingSpectrum fun E => (hydrogenTarget U).dRdE U flatTools.integrate d E p { flatHalo v with density := ρ } :=
      C96_spectrum hI (hydrogen_isotopes U) hev rfl le_rfl (by simp [hydrogenTarget]) zero_le_one (.inr rfl) one_pos
        hρ zero_le_one (fun _ _ => ff ρ) (fs ρ)
    exact
      { fractions := le_rfl
        composition := by simp [hydrogenTarget]
        tables := by simp [hydrogenTarget]
        flat := zero_le_one
        isotopes := hydrogen_isotopes U
        exposure := zero_le_one
        threshold := one_pos
        efficiencies := fun i hi => by simp [hd, Detector.make] at hi
        resolution := fun hc => absurd hc (not_le.2 hev)
        spectra := fun q hq => AntitoneOn.intervalIntegrable fun x hx y _ hxy => by
          rw [List.mem_singleton.1 hq]
          have hx : x ∈ Set.uIcc (1 : ℝ) 2 := hx
          rw [Set.uIcc_of_le t1] at hx
          exact (FallingSpectrum.value hspec (one_pos.trans_le hx.1)).2.2 y hxy }
  have flat : ∀ ρ E, 1 ≤ E → E ≤ 2 → ((hydrogenTarget U).dRdE U flatTools.integrate d E p { flatHalo v with density := ρ }).valueOr0 =
      ((hydrogenTarget U).dRdE U flatTools.integrate d 1 p { flatHalo v with density := ρ }).valueOr0 := by
    have iso : ∀ ρ E, E ≤ 2 → dRdERIsotope U flatTools.integrate E p { flatHalo v with density := ρ } (Isotope.default U) =
        .ok (1 / (Isotope.default U).mass * (ρ * 1) / p.mass * ((1 / 1000 : ℝ) * (1 / 1000) * p.dSigmadERNucleus U 1 (Isotope.default U) (1 / 1000)) * 1) := by
      intro ρ E hE
      unfold dRdERIsotope
      have hle : vMinimalNucleus E p.mass (Isotope.default U).mass ≤ v := by
        rw [hv]
        unfold vMinimalNucleus
        exact Real.sqrt_le_sqrt (by gcongr)
      rw [if_neg (by simpa [flatHalo] using hle), if_pos ⟨rfl, rfl⟩]
      have : p.dSigmadERNucleus U E (Isotope.default U) (1 / 1000) = p.dSigmadERNucleus U 1 (Isotope.default U) (1 / 1000) := by
        simp [dSigmadERNucleus, dSigmadq2Nucleus, p, standard, formFactor2]
      rw [← this]
      rfl
    intro ρ E h1 h2
    unfold NuclearDetector.dRdE
    rw [if_pos (by simp only [hydrogenTarget]; exact hev), if_pos (by simp only [hydrogenTarget]; exact hev)]
    unfold NuclearDetector.theoryRate dRdERNucleus
    simp [hydrogenTarget, sumOver, collect, vecGet, NuclearDetector.efficiency, iso ρ E h2, iso ρ 1 t1]
  have hl : logSpace 1 2 200 = 1 :: (logSpace 1 2 200).tail := by
    have : ∀ l : List ℝ, l.head? = some 1 → l = 1 :: l.tail := fun l hl => by cases l <;> simp_all
    apply this
    unfold logSpace
    rw [List.range_succ_eq_map (n := 199)]
    simp
  have exact : ∀ ρ, flatTools.interpolationIntegral (logSpace d.energyThreshold d.energyMax 200)
      ((logSpace d.energyThreshold d.energyMax 200).map fun E => ((hydrogenTarget U).toClass U flatTools { flatHalo v with density := ρ }).dRdE d E p)
        d.energyThreshold d.energyMax =
      ∫ E in d.energyThreshold..d.energyMax, ((hydrogenTarget U).toClass U flatTools { flatHalo v with density := ρ }).dRdE d E p := fun ρ => by
    show flatTools.interpolationIntegral (logSpace 1 2 200) ((logSpace 1 2 200).map fun E =>
      ((hydrogenTarget U).dRdE U flatTools.integrate d E p { flatHalo v with density := ρ }).valueOr0) 1 2 =
      ∫ E in (1 : ℝ)..2, ((hydrogenTarget U).dRdE U flatTools.integrate d E p { flatHalo v with density := ρ }).valueOr0
    rw [intervalIntegral.integral_congr (g := fun _ => ((hydrogenTarget U).dRdE U flatTools.integrate d 1 p { flatHalo v with density := ρ }).valueOr0)
      fun E hE => by rw [Set.uIcc_of_le t1] at hE; exact flat ρ E hE.1 hE.2]
    rw [hl, List.map_cons, intervalIntegral.integral_const]
    simp only [flatTools, List.headD_cons, smul_eq_mul]
    ring
  obtain ⟨s, s₁, s₂, k1, k2, k3, k4⟩ := C118_counting_partial (U := U) (T := flatTools) (flat_mixture v) (fs 1) (fs 2) hI
    (one_pos : (0 : ℝ) < p.mass) (P 1 zero_le_one) (P 2 zero_le_two) t1 (by simp [hd, Detector.make])
    (fun g hg => by
      rcases List.mem_cons.1 hg with rfl | hg
      · exact exact 3
      rcases List.mem_cons.1 hg with rfl | hg
      · exact exact 1
      · rw [List.mem_singleton.1 hg]; exact exact 2)
  exact ⟨v, d, p, s, s₁, s₂, hreach, by norm_num [hd], k1, k2, k3, by linarith⟩

/-- Non-vacuity: electrons of the Migdal effect in standard halos with densities 1, 2 and 3. -/
example (hI : T.integrate.Exact) : ∃ (p : DMParticle) (d : Detector) (x : IonizationDetector), ProperMigdal U d x p ∧ x.atoms ≠ [] ∧ ∀ s s₁ s₂,
    ((AnyDetector.migdal d x).toClass U T (Distribution.ofSHM (SHM.makeSpeed 3 2 3 7))).signalsTotal d p = .ok s →
    ((AnyDetector.migdal d x).toClass U T (Distribution.ofSHM (SHM.makeSpeed 1 2 3 7))).signalsTotal d p = .ok s₁ →
    ((AnyDetector.migdal d x).toClass U T (Distribution.ofSHM (SHM.makeSpeed 2 2 3 7))).signalsTotal d p = .ok s₂ → s = s₁ + s₂ := by
  obtain ⟨_, -, -, -, O⟩ := two_halos (rho := 1) (e := 7) one_pos le_rfl
  obtain ⟨_, -, -, -, O'⟩ := two_halos (rho := 2) (e := 7) two_pos le_rfl
  obtain ⟨p, p₁, p₂, d, x, hR, h1, h2, hP, hx, ⟨ha, ht⟩, -⟩ := migdal_sample (U := U) hI
  have hb := reachable_inv hR
  obtain ⟨-, -, -, e2, -⟩ := setMass_couplings hb h1 h2 one_pos (by norm_num)
  have q2 : p₂.mass = 3 ∧ p₂.useEtaFunction = true := by rw [e2]; exact ⟨rfl, hb.eta⟩
  have hv : 0 < (Distribution.ofSHM (SHM.makeSpeed 3 2 3 7)).vMax := by
    show 0 < (SHM.makeSpeed 3 2 3 7).vMax
    norm_num [SHM.makeSpeed, SHM.normalize]
  have A : HaloMixture 1 1 (Distribution.ofSHM (SHM.makeSpeed 3 2 3 7)) (Distribution.ofSHM (SHM.makeSpeed 1 2 3 7)) (Distribution.ofSHM (SHM.makeSpeed 2 2 3 7)) :=
    ⟨rfl, rfl, rfl, rfl, fun u _ _ => show 3 * (SHM.makeSpeed 3 2 3 7).pdfSpeed u = 1 * (1 * (SHM.makeSpeed 3 2 3 7).pdfSpeed u) + 1 * (2 * (SHM.makeSpeed 3 2 3 7).pdfSpeed u) by ring,
      fun u _ _ => ⟨_, _, _, rfl, rfl, rfl,
        show 3 * (SHM.makeSpeed 3 2 3 7).eta u = 1 * (1 * (SHM.makeSpeed 3 2 3 7).eta u) + 1 * (2 * (SHM.makeSpeed 3 2 3 7).eta u) by ring⟩⟩
  exact ⟨p₂, d, x, hP, hx, fun s s₁ s₂ g g1 g2 => by
    simpa using (C118_migdal_events A O.inverse O'.inverse hI rfl hv hP q2.2 (by rw [q2.1]; norm_num)).1 ha ht s s₁ s₂ g g1 g2⟩

/-- Non-vacuity: electrons from hydrogen in an SHM++ with the share 0.2 of the anisotropic component. -/
example (hI : T.integrate.Exact) (N : Numerics) (hN : N.integrate2.Exact) : ∃ (h₁ h₂ : Distribution) (p : DMParticle) (d : Detector) (x : IonizationDetector),
    ProperShells U d x ∧ x.atoms ≠ [] ∧ Reachable U p ∧ ∀ s s₁ s₂,
    ((AnyDetector.electronRecoil d x).toClass U T (Distribution.ofSHMpp N ((⟨⟨1, 2, ![0, 3, 0], 7⟩, 0.2, 0.9⟩ : HaloPPParams).fresh N))).signalsTotal d p = .ok s →
    ((AnyDetector.electronRecoil d x).toClass U T h₁).signalsTotal d p = .ok s₁ →
    ((AnyDetector.electronRecoil d x).toClass U T h₂).signalsTotal d p = .ok s₂ → s = (1 - 0.2) * s₁ + 0.2 * s₂ := by
  obtain ⟨h₁, h₂, A, p₁, p₂⟩ := sausage_mixture N hN
  obtain ⟨c, hc0, hc, hmk, _⟩ := makeSI_eq (U := U) (m := 1) (s := 1) one_pos zero_le_one
  set p := { DMParticle.standard U 1 1 (.SI .contact (U.aEM * U.mElectron) 0) with fp := c, fn := c }
  have hR : Reachable U p := ⟨_, [], makeSI_built one_pos hmk, by simp, rfl⟩
  set a : Atom := { nucleus := { name := "H", Z := some 1, isotopes := [sampleIsotope] }, electrons := [sampleShell], W := 1 }
  set x : IonizationDetector := { IonizationDetector.initial [a] [1] with usingElectronThreshold := true, neThreshold := 1, neMax := 3 }
  have hP : ProperShells U (Detector.make "H" 1 "Electrons") x :=
    { fractions := by simp [x, IonizationDetector.initial]
      exposure := zero_le_one
      flat := zero_le_one
      efficiencies := by simp [Detector.make]
      masses := by
        intro b hb
        have hb : b = a := by simpa [x, IonizationDetector.initial] using hb
        subst hb
        norm_num [a, Nucleus.averageMass, sampleIsotope]
      bound := by simp [x, IonizationDetector.initial, a, sampleShell]
      formFactors := by
        intro b hb e he q E
        have hb : b = a := by simpa [x, IonizationDetector.initial] using hb
        subst hb
        have he : e = sampleShell := by simpa [a] using he
        subst he
        rw [sampleShell_formFactor]
        split_ifs
        · exact le_rfl
        · exact zero_le_one
        · exact mul_self_nonneg q
      grid := by
        intro b hb e he
        have hb : b = a := by simpa [x, IonizationDetector.initial] using hb
        subst hb
        have he : e = sampleShell := by simpa [a] using he
        subst he
        simp [sampleShell] }
  have hv : 0 < (Distribution.ofSHMpp N ((⟨⟨1, 2, ![0, 3, 0], 7⟩, 0.2, 0.9⟩ : HaloPPParams).fresh N)).vMax := by
    show (0 : ℝ) < 7 + vnorm ![0, 3, 0]
    rw [vnorm_y (by norm_num)]; norm_num
  exact ⟨h₁, h₂, p, _, x, hP, by simp [x, IonizationDetector.initial], hR,
    (C118_electron_events A p₁ p₂ hI hv hP (show (0 : ℝ) < 1 from one_pos)).1 (by simp [Detector.make]) rfl⟩

/-- Non-vacuity: a silicon detector that asks for two electron-hole pairs, in the same SHM++. -/
example (hI : T.integrate.Exact) (N : Numerics) (hN : N.integrate2.Exact) : ∃ (h₁ h₂ : Distribution) (p : DMParticle) (d : Detector) (cd : CrystalDetector)
    (s s₁ s₂ : ℝ), Reachable U p ∧
    (cd.toClass U T (Distribution.ofSHMpp N ((⟨⟨1, 2, ![0, 3, 0], 7⟩, 0.2, 0.9⟩ : HaloPPParams).fresh N))).signalsTotal d p = .ok s ∧
    (cd.toClass U T h₁).signalsTotal d p = .ok s₁ ∧ (cd.toClass U T h₂).signalsTotal d p = .ok s₂ ∧ s = (1 - 0.2) * s₁ + 0.2 * s₂ := by
  obtain ⟨h₁, h₂, A, p₁, p₂⟩ := sausage_mixture N hN
  obtain ⟨x, hx0, hx, hmk, _⟩ := makeSI_eq (U := U) (m := 1) (s := 1) one_pos zero_le_one
  obtain ⟨c, hc, hname, hint⟩ := builtCrystal_exists U
  set p := { DMParticle.standard U 1 1 (.SI .contact (U.aEM * U.mElectron) 0) with fp := x, fn := x }
  have hR : Reachable U p := ⟨_, [], makeSI_built one_pos hmk, by simp, rfl⟩
  have hf := CrystalFacts.of_built hc
  have heps := hf.eps_pos
  have hgap := hf.gap_lt_eps
  have hp14 : c.pairsMax = 14 := (C43_qmax hc).2.1 hname
  have hgap0 : 0 < c.gap := by
    have := U.eV_pos
    rcases hf.target with ⟨_, h, _⟩ | ⟨_, h, _⟩ <;> rw [h] <;> positivity
  have htab : ∀ q E, 0 ≤ c.formFactor q E := fun q E => by
    unfold Crystal.formFactor
    split_ifs
    · exact le_rfl
    · rw [hint]; exact zero_le_one
  have href : 0 ≤ p.sigmaElectronRef := by
    have := U.cm_pos
    show 0 ≤ (DMParticle.standard U 1 1 (.SI .contact (U.aEM * U.mElectron) 0)).sigmaElectronRef
    simp only [DMParticle.standard]
    positivity
  set d := Detector.make "Si" 1 "Electrons"
  set cd : CrystalDetector := { crystal := c, usingQThreshold := none, usingQBins := none, qThreshold := none }
  have hP : ∀ h, ProperCrystal U T.integrate h (CrystalDetector.useQThreshold d cd 2).1 (CrystalDetector.useQThreshold d cd 2).2 [p] := fun h =>
    { built := hc
      table := htab
      exposure := zero_le_one
      flat := zero_le_one
      efficiencies := by simp [CrystalDetector.useQThreshold, Detector.initializePoisson, d, Detector.make]
      threshold := by
        show 0 < c.minimumElectronEnergy (toInt32 (2 : ℕ))
        rw [toInt32_small (by norm_num)]
        unfold Crystal.minimumElectronEnergy
        push_cast
        linarith
      window := by
        show c.minimumElectronEnergy (toInt32 (2 : ℕ)) ≤ c.minimumElectronEnergy (toInt32 c.pairsMax)
        rw [hp14, toInt32_small (by norm_num), toInt32_small (by norm_num)]
        unfold Crystal.minimumElectronEnergy
        push_cast
        linarith
      edges := by simp [CrystalDetector.useQThreshold, Detector.initializePoisson, d, Detector.make]
      pairs := by
        intro Q hQ
        simp only [CrystalDetector.useQThreshold, Option.some.injEq] at hQ
        subst hQ
        simp [CrystalDetector.useQThreshold, Detector.initializePoisson, d, Detector.make]
      spectra := by simp [CrystalDetector.useQThreshold, Detector.initializePoisson, d, Detector.make] }
  obtain ⟨r, r₁, r₂, e, e1, e2, -⟩ := (C118_crystal (U := U) (Q := 2) A p₁ p₂ hI hc htab href (show (0 : ℝ) < 1 from one_pos) (by norm_num) (by norm_num)).2.2
  have k : ∀ g, _ := fun g => CrystalDetector.C38_crystal_q_threshold_partial (U := U) (T := T) (d := d) (cd := cd) (p := p) (h := g) rfl (Q := 2) (by norm_num)
  have k0 := k (Distribution.ofSHMpp N ((⟨⟨1, 2, ![0, 3, 0], 7⟩, 0.2, 0.9⟩ : HaloPPParams).fresh N))
  have k1 := k h₁
  have k2 := k h₂
  rw [e, Outcome.bind_ok] at k0
  rw [e1, Outcome.bind_ok] at k1
  rw [e2, Outcome.bind_ok] at k2
  exact ⟨h₁, h₂, p, (CrystalDetector.useQThreshold d cd 2).1, (CrystalDetector.useQThreshold d cd 2).2, _, _, _, hR, k0, k1, k2,
    C118_crystal_events A p₁ p₂ hI href (show (0 : ℝ) < 1 from one_pos) (hP _) (hP _) (by simp [CrystalDetector.useQThreshold, Detector.initializePoisson]) k0 k1 k2⟩

end Obscura
