import Verif.Lemmas.EtaBounds
import Verif.Props.NuclearRange

/-!
# Properties C42, C40 and C68 for eta functions that are not exact

The standard halo model reports 0 for `Eta_Function` in the last `1e-8 v_0` below its maximal speed, and tabulated distributions
interpolate. The theorems below bound the rates for every eta function that lies between those of two densities of speeds.
-/

namespace Obscura

open Spec MeasureTheory

variable {U : Units} {I : Integrator} {p : DMParticle} {h : Distribution} {e : AtomicElectron} {c : Crystal} {l g : ℝ → ℝ}

/-- A halo with the exact eta function of a density of speeds. -/
noncomputable def exactEta (h : Distribution) (f : ℝ → ℝ) : Distribution :=
  { h with pdfSpeed := f, eta := fun v => .ok (∫ u in v..h.vMax, f u / u) }

theorem exactEta_at (f : ℝ → ℝ) (v : ℝ) : EtaAt (exactEta h f) v := rfl

theorem etaLe_lower (hh : h.useEta = true) (hη : ∀ v, 0 ≤ v → v ≤ h.vMax → EtaBetween h l g v) : EtaLe (exactEta h l) h :=
  ⟨rfl, rfl, hh, hh, fun v h0 h1 => by
    obtain ⟨x, hx, h2, _⟩ := hη v h0 h1
    exact ⟨_, x, rfl, hx, h2⟩⟩

theorem etaLe_upper (hh : h.useEta = true) (hη : ∀ v, 0 ≤ v → v ≤ h.vMax → EtaBetween h l g v) : EtaLe h (exactEta h g) :=
  ⟨rfl, rfl, hh, hh, fun v h0 h1 => by
    obtain ⟨x, hx, _, h2⟩ := hη v h0 h1
    exact ⟨x, _, hx, rfl, h2⟩⟩

theorem etaLe_zero (hh : h.useEta = true) (hη : ∀ v, 0 ≤ v → v ≤ h.vMax → EtaNonneg h v) : EtaLe (exactEta h fun _ => 0) h :=
  ⟨rfl, rfl, hh, hh, fun v h0 h1 => by
    obtain ⟨x, hx, h2⟩ := hη v h0 h1
    refine ⟨_, x, rfl, hx, ?_⟩
    simpa using h2⟩

theorem OkLe.squeeze {a b c : Outcome ℝ} {x y : ℝ} (h1 : OkLe a b) (h2 : OkLe b c) (ha : a = .ok x) (hc : c = .ok y) :
    ∃ r, b = .ok r ∧ x ≤ r ∧ r ≤ y := by
  obtain ⟨r, r', rfl, rfl, h3⟩ := h1
  obtain ⟨s, s', h4, rfl, h5⟩ := h2
  cases ha; cases hc; cases h4
  exact ⟨_, rfl, h3, h5⟩

theorem OkLe.lower {a b : Outcome ℝ} {x : ℝ} (h1 : OkLe a b) (ha : a = .ok x) : ∃ r, b = .ok r ∧ x ≤ r := by
  obtain ⟨r, r', rfl, rfl, h3⟩ := h1
  cases ha
  exact ⟨_, rfl, h3⟩

/-! ## C42 -/

/-- C42 (nuclear recoils, bounds): if the eta function lies between those of two densities of speeds, the computed rate lies between
their textbook rates. -/
theorem C42_rate_between (hI : I.Exact) (hp : p.useEtaFunction = true) (hh : h.useEta = true) {iso : Isotope} {E : ℝ} (hm : 0 < p.mass)
    (hi : PhysicalIsotope iso) (hdens : 0 ≤ h.density) (hfd : 0 ≤ p.fractionalDensity)
    (hη : ∀ v, 0 ≤ v → v ≤ h.vMax → EtaBetween h l g v) :
    ∃ r, dRdERIsotope U I E p h iso = .ok r ∧ isotopeRate U p (withSpeeds h l) iso E ≤ r ∧
      r ≤ isotopeRate U p (withSpeeds h g) iso E :=
  (dRdERIsotope_mono (etaLe_lower hh hη) hp hm hi.1 hi.2.1 hdens hfd).squeeze
    (dRdERIsotope_mono (etaLe_upper hh hη) hp hm hi.1 hi.2.1 hdens hfd)
    (dRdERIsotope_eq hI hm hi.1 fun _ _ _ => exactEta_at l _) (dRdERIsotope_eq hI hm hi.1 fun _ _ _ => exactEta_at g _)

/-- C42 (crystals, bounds). -/
theorem C42_crystal_between (hI : I.Exact) (hc : BuiltCrystal U c) (hp : p.useEtaFunction = true) (hh : h.useEta = true)
    (hm : 0 < p.mass) {E : ℝ} (hE : 0 ≤ E) (hdens : 0 ≤ h.density) (hcs : ∀ q v, 0 ≤ p.d2SigmaCrystal U q E v c)
    (hη : ∀ v, 0 ≤ v → v ≤ h.vMax → EtaBetween h l g v) :
    ∃ r, dRdEeCrystal U I E p h c = .ok r ∧ crystalRate U p (withSpeeds h l) c E ≤ r ∧ r ≤ crystalRate U p (withSpeeds h g) c E :=
  have hf := CrystalFacts.of_built hc
  (dRdEeCrystal_mono (etaLe_lower hh hη) hp hf hm hE hdens hcs).squeeze
    (dRdEeCrystal_mono (etaLe_upper hh hη) hp hf hm hE hdens hcs)
    (C42_crystal hI hc hm hE fun _ _ v _ _ => exactEta_at l v) (C42_crystal hI hc hm hE fun _ _ v _ _ => exactEta_at g v)

/-- C42 (electron recoils, bounds). -/
theorem C42_electron_recoil_between (hI : I.Exact) {d : Detector} {n : Nucleus} (hp : p.useEtaFunction = true) (hh : h.useEta = true)
    (hm : 0 < p.mass) (hv : 0 < h.vMax) (hB : 0 < e.binding) (hM : 0 < n.averageMass) {E lo hi : ℝ} (hE : 0 < E)
    (hlo : IsLeast {q | CanTransfer p.mass h.vMax q e.binding} lo)
    (hhi : IsGreatest {q | CanTransfer p.mass h.vMax q e.binding} hi) (htab : lo ≤ e.qMax) (hs : 0 ≤ p.sigmaElectron)
    (hF : ∀ q E, 0 ≤ e.ionizationFormFactor U q E) (hdens : 0 ≤ h.density) (hflat : 0 ≤ d.flatEfficiency)
    (hη : ∀ v, 0 ≤ v → v ≤ h.vMax → EtaBetween h l g v) :
    ∃ r, shellRateER U I h d E p n e = .ok r ∧
      d.flatEfficiency * ionizationRate U p (withSpeeds h l) n.averageMass e lo (min hi e.qMax) E ≤ r ∧
      r ≤ d.flatEfficiency * ionizationRate U p (withSpeeds h g) n.averageMass e lo (min hi e.qMax) E := by
  have hcs := fun q v => d2SigmaIonization_nonneg hs hF hE.le q v
  have hmono : Monotone fun x => d.flatEfficiency * x := fun x y hxy => mul_le_mul_of_nonneg_left hxy hflat
  exact (OkLe.map hmono (dRdEeER_mono (etaLe_lower hh hη) hp hm hv hB hM hE hdens hcs)).squeeze
    (OkLe.map hmono (dRdEeER_mono (etaLe_upper hh hη) hp hm hv hB hM hE hdens hcs))
    (C42_electron_recoil (h := exactEta h l) hI hm hv hB hE hlo hhi htab fun _ _ v _ _ => exactEta_at l v)
    (C42_electron_recoil (h := exactEta h g) hI hm hv hB hE hlo hhi htab fun _ _ v _ _ => exactEta_at g v)

/-- C42 (standard halo, bounds): the eta function of every standard halo lies between that of all of its particles and that of the
particles slower than `v_max - 1e-8 v_0`. -/
theorem C42_standard_halo_between {s : SHM} (hs : SHM.Reachable U s) (hp : s.Physical) (hoe : s.vObs ≤ s.vEsc)
    (ho : s.vObs = 0 ∨ 1e-8 * s.v0 ≤ s.vObs) (v : ℝ) (hv : 0 ≤ v) (hv' : v ≤ s.vMax) :
    EtaBetween (Distribution.ofSHM s) (slowerThan (s.vMax - 1e-8 * s.v0) s.pdfSpeed) s.pdfSpeed v := by
  have hw := SHM.WF.of_reachable hs hp
  have key : IntervalIntegrable (fun x => s.pdfSpeed x / x) volume v s.vMax := by
    rcases hw.vObs_nonneg.lt_or_eq with ho | ho
    · exact (integral_eta_moving hw ho hoe hv hv').1
    · exact (integral_eta_rest hw ho.symm hv hv').1
  have hpos : ∀ x ∈ Set.Icc v s.vMax, 0 ≤ s.pdfSpeed x / x := fun x hx => div_nonneg (pdf_nonneg_wf hw hoe x) (hv.trans hx.1)
  have hlow : ∫ u in v..s.vMax, slowerThan (s.vMax - 1e-8 * s.v0) s.pdfSpeed u / u ≤ ∫ u in v..s.vMax, s.pdfSpeed u / u := by
    have : (fun u => slowerThan (s.vMax - 1e-8 * s.v0) s.pdfSpeed u / u) =
        Set.indicator (Set.Iio (s.vMax - 1e-8 * s.v0)) fun u => s.pdfSpeed u / u := by
      funext u
      unfold slowerThan Set.indicator
      simp only [Set.mem_Iio]
      split_ifs <;> simp
    rw [this]
    refine intervalIntegral.integral_mono_on hv' ?_ key fun x hx => ?_
    · rw [intervalIntegrable_iff] at key ⊢
      exact key.indicator measurableSet_Iio
    · exact Set.indicator_le_self' (fun _ _ => hpos x hx) x
  rcases le_or_gt v (s.vMax - 1e-8 * s.v0) with hc | hc
  · have := C17_eta_partial U s hs hp hoe ho v hv hc
    exact ⟨s.eta v, rfl, by rw [this]; exact hlow, this.le⟩
  · have h0 : s.eta v = 0 := by
      apply eta_zero
      rw [lt_div_iff₀ hw.v0_pos, sub_mul, add_mul, div_mul_cancel₀ _ hw.v0_pos.ne', div_mul_cancel₀ _ hw.v0_pos.ne']
      rw [hw.vMax] at hc; linarith
    refine ⟨0, by simp [Distribution.ofSHM, h0], le_of_eq ?_, intervalIntegral.integral_nonneg hv' hpos⟩
    rw [intervalIntegral.integral_congr (g := fun _ => 0)]
    · simp
    · intro x hx
      rw [show (Distribution.ofSHM s).vMax = s.vMax from rfl, Set.uIcc_of_le hv'] at hx
      simp [slowerThan, not_lt.2 (hc.le.trans hx.1)]

/-- A density of speeds that is not negative and whose integral over `1/u` exists has a regular eta function. -/
theorem exactEta_regular {f : ℝ → ℝ} (hf : ∀ u, 0 ≤ u → u ≤ h.vMax → 0 ≤ f u)
    (hi : IntervalIntegrable (fun u => f u / u) volume 0 h.vMax) : EtaRegular (exactEta h f) fun v => ∫ u in v..h.vMax, f u / u := by
  have hnn : ∀ a b, 0 ≤ a → a ≤ b → b ≤ h.vMax → 0 ≤ ∫ u in a..b, f u / u := fun a b ha hab hb =>
    intervalIntegral.integral_nonneg hab fun u hu => div_nonneg (hf u (ha.trans hu.1) (hu.2.trans hb)) (ha.trans hu.1)
  refine ⟨fun v _ _ => rfl, fun v h0 h1 => hnn v _ h0 h1 le_rfl, fun v w h0 hvw hw => ?_⟩
  have hw : w ≤ h.vMax := hw
  have hv0 : (0 : ℝ) ≤ h.vMax := h0.trans (hvw.trans hw)
  have hsub : ∀ a b, 0 ≤ a → a ≤ b → b ≤ h.vMax → IntervalIntegrable (fun u => f u / u) volume a b := fun a b ha hab hb =>
    hi.mono_set (by rw [Set.uIcc_of_le hab, Set.uIcc_of_le hv0]; exact Set.Icc_subset_Icc ha hb)
  have := intervalIntegral.integral_add_adjacent_intervals (hsub v w h0 hvw hw) (hsub w h.vMax (h0.trans hvw) hw le_rfl)
  have := hnn v w h0 hvw hw
  linarith

/-- C42 (Migdal, bounds): as for electron recoils, if the integrals over recoil energies and speeds exist and the reported eta function
never increases. -/
theorem C42_migdal_between (hI : I.Exact) {d : Detector} {n : Nucleus} {E : ℝ} (hp : p.useEtaFunction = true) (hh : h.useEta = true)
    (hm : 0 < p.mass) (hM : ∀ iso ∈ n.isotopes, PhysicalIsotope iso) (hv : 0 < h.vMax) (hB : 0 < e.binding) (hE : 0 < E)
    (hF : ∀ q E, 0 ≤ e.ionizationFormFactor U q E) (hdens : 0 ≤ h.density) (hflat : 0 ≤ d.flatEfficiency)
    (hσ : ∀ iso ∈ n.isotopes, LocallyIntegrableOn (fun ER => migdalCrossSection U p iso e ER E (1 / 1000)) (Set.Ioi 0))
    (hl : ∀ u, 0 ≤ u → u ≤ h.vMax → 0 ≤ l u) (hli : IntervalIntegrable (fun u => l u / u) volume 0 h.vMax)
    (hg : ∀ u, 0 ≤ u → u ≤ h.vMax → 0 ≤ g u) (hgi : IntervalIntegrable (fun u => g u / u) volume 0 h.vMax)
    {x : ℝ → ℝ} (hx : ∀ v, 0 ≤ v → v ≤ h.vMax → h.eta v = .ok (x v)) (hanti : ∀ v w, 0 ≤ v → v ≤ w → w ≤ h.vMax → x w ≤ x v)
    (hη : ∀ v, 0 ≤ v → v ≤ h.vMax → EtaBetween h l g v) :
    ∃ r, shellRateMigdal U I h d E p n e = .ok r ∧
      d.flatEfficiency * (n.isotopes.map fun iso => iso.abundance * migdalRate U p (withSpeeds h l) iso e E).sum ≤ r ∧
      r ≤ d.flatEfficiency * (n.isotopes.map fun iso => iso.abundance * migdalRate U p (withSpeeds h g) iso e E).sum := by
  have hxr : EtaRegular h x := ⟨hx, fun v h0 h1 => by
    obtain ⟨y, e1, h2, _⟩ := hη v h0 h1
    rw [hx v h0 h1] at e1
    cases e1
    exact ((exactEta_regular hl hli).nonneg v h0 h1).trans h2, hanti⟩
  have key : ∀ iso ∈ n.isotopes, migdalRate U p (withSpeeds h l) iso e E ≤ dRdEeMigdalIsotope U I E p h iso e ∧
      dRdEeMigdalIsotope U I E p h iso e ≤ migdalRate U p (withSpeeds h g) iso e E := fun iso hiso => by
    have hMi := hM iso hiso
    have hcs : ∀ ER, 0 ≤ p.d2SigmaMigdal U ER E (1 / 1000) iso e := fun ER => by
      rw [← migdal_eq]; exact d2SigmaMigdal_nonneg hMi hF hE.le ER _
    obtain ⟨hlo, _⟩ := migdal_range_pos (h := h) (e := e) (p := p) hMi.1 hv hB hm
    have hσi : IntegrableOn (fun ER => p.d2SigmaMigdal U ER E (1 / 1000) iso e)
        (Set.Icc (erMinMigdal h.vMax iso.mass e.binding) (erMaxMigdal h.vMax p.mass iso.mass)) := by
      have := (hσ iso hiso).integrableOn_compact_subset (t := Set.Icc (erMinMigdal h.vMax iso.mass e.binding)
        (erMaxMigdal h.vMax p.mass iso.mass)) (fun y hy => hlo.trans_le hy.1) isCompact_Icc
      simpa only [migdal_eq] using this
    have e1 : dRdEeMigdalIsotope U I E p (exactEta h l) iso e = migdalRate U p (withSpeeds h l) iso e E :=
      dRdEeMigdalIsotope_eq hI hm hMi.1 hv hB hE.le fun _ _ _ _ _ => exactEta_at l _
    have e2 : dRdEeMigdalIsotope U I E p (exactEta h g) iso e = migdalRate U p (withSpeeds h g) iso e E :=
      dRdEeMigdalIsotope_eq hI hm hMi.1 hv hB hE.le fun _ _ _ _ _ => exactEta_at g _
    rw [← e1, ← e2]
    exact ⟨dRdEeMigdalIsotope_mono hI (etaLe_lower hh hη) hp hm hMi.1 hv hB hE hdens hcs (exactEta_regular hl hli) hxr hσi,
      dRdEeMigdalIsotope_mono hI (etaLe_upper hh hη) hp hm hMi.1 hv hB hE hdens hcs hxr (exactEta_regular hg hgi) hσi⟩
  refine ⟨_, rfl, mul_le_mul_of_nonneg_left ?_ hflat, mul_le_mul_of_nonneg_left ?_ hflat⟩
  all_goals
    unfold dRdEeMigdal
    rw [← List.foldl_map (f := fun iso : Isotope => iso.abundance * dRdEeMigdalIsotope U I E p h iso e), foldl_add_eq_sum]
    refine List.sum_le_sum fun iso hiso => mul_le_mul_of_nonneg_left ?_ (hM iso hiso).2.2
  · exact (key iso hiso).1
  · exact (key iso hiso).2

/-- C42 (standard halo, Migdal): the conditions on the eta function hold in every standard halo. -/
theorem C42_standard_halo_regular {s : SHM} (hs : SHM.Reachable U s) (hp : s.Physical) (hoe : s.vObs ≤ s.vEsc) :
    (∀ v, 0 ≤ v → v ≤ s.vMax → EtaNonneg (Distribution.ofSHM s) v) ∧
    (∀ v w, 0 ≤ v → v ≤ w → w ≤ s.vMax → s.eta w ≤ s.eta v) ∧
    (∀ u, 0 ≤ s.pdfSpeed u) ∧ IntervalIntegrable (fun u => s.pdfSpeed u / u) volume 0 s.vMax ∧
    IntervalIntegrable (fun u => slowerThan (s.vMax - 1e-8 * s.v0) s.pdfSpeed u / u) volume 0 s.vMax := by
  have hw := SHM.WF.of_reachable hs hp
  have hv : 0 ≤ s.vMax := by rw [hw.vMax]; linarith [hw.vEsc_pos, hw.vObs_nonneg]
  have key : IntervalIntegrable (fun x => s.pdfSpeed x / x) volume 0 s.vMax := by
    rcases hw.vObs_nonneg.lt_or_eq with ho | ho
    · exact (integral_eta_moving hw ho hoe le_rfl hv).1
    · exact (integral_eta_rest hw ho.symm le_rfl hv).1
  refine ⟨fun v h0 _ => ⟨s.eta v, rfl, (C17_antitone U s hs hp hoe v v h0 le_rfl).1⟩,
    fun v w h0 hvw _ => (C17_antitone U s hs hp hoe v w h0 hvw).2.1, pdf_nonneg_wf hw hoe, key, ?_⟩
  have : (fun u => slowerThan (s.vMax - 1e-8 * s.v0) s.pdfSpeed u / u) =
      Set.indicator (Set.Iio (s.vMax - 1e-8 * s.v0)) fun u => s.pdfSpeed u / u := by
    funext u
    unfold slowerThan Set.indicator
    simp only [Set.mem_Iio]
    split_ifs <;> simp
  rw [intervalIntegrable_iff] at key
  rw [this, intervalIntegrable_iff]
  exact key.indicator measurableSet_Iio

/-- Non-vacuity: the standard halo `SHM.sample`. Its rate on an isotope lies between the textbook rates of all particles and of those
that are slower than the window of the code; the window has the width `2e-8`. -/
example (hI : I.Exact) (hp : p.useEtaFunction = true) (hm : 0 < p.mass) (hfd : 0 ≤ p.fractionalDensity) (E : ℝ) :
    ∃ r, dRdERIsotope U I E p (Distribution.ofSHM SHM.sample) sampleIsotope = .ok r ∧
      isotopeRate U p (withSpeeds (Distribution.ofSHM SHM.sample) (slowerThan (10 - 1e-8 * 2) SHM.sample.pdfSpeed)) sampleIsotope E ≤ r ∧
      r ≤ isotopeRate U p (Distribution.ofSHM SHM.sample) sampleIsotope E := by
  have h1 : SHM.sample.Physical ∧ SHM.sample.vObs ≤ SHM.sample.vEsc ∧ 1e-8 * SHM.sample.v0 ≤ SHM.sample.vObs ∧ SHM.sample.v0 = 2 ∧
      SHM.sample.vMax = 10 ∧ 0 ≤ SHM.sample.density ∧ SHM.sample.useEta = true := by
    refine ⟨⟨?_, ?_⟩, ?_, ?_, ?_, ?_, ?_, ?_⟩ <;> norm_num [SHM.sample, SHM.makeSpeed, SHM.normalize]
  obtain ⟨h1, h2, h3, h4, h5, h6, h7⟩ := h1
  have := C42_rate_between (U := U) (I := I) (E := E) (h := Distribution.ofSHM SHM.sample) (iso := sampleIsotope) hI hp h7 hm
    (by norm_num [PhysicalIsotope, sampleIsotope]) h6 hfd (C42_standard_halo_between SHM.sample_reachable h1 h2 (.inr h3))
  rw [h4, h5] at this
  exact this

/-! ## C40 and C68: signs, for every eta function that is not negative -/

/-- C68 (nuclear recoils): the rate of an isotope is defined and not negative. -/
theorem C68_isotope (hI : I.Exact) {iso : Isotope} {E : ℝ} (hm : 0 < p.mass) (hi : PhysicalIsotope iso) (hdens : 0 ≤ h.density)
    (hfd : 0 ≤ p.fractionalDensity) (hpdf : ∀ v, 0 ≤ v → 0 ≤ h.pdfSpeed v)
    (hη : p.useEtaFunction = true → h.useEta = true → ∀ v, 0 ≤ v → v ≤ h.vMax → EtaNonneg h v) :
    ∃ r, dRdERIsotope U I E p h iso = .ok r ∧ 0 ≤ r := by
  have hnn : ∀ k : Distribution, k.density = h.density → (∀ v, 0 ≤ v → 0 ≤ k.pdfSpeed v) → 0 ≤ isotopeRate U p k iso E := fun k hk hkp => by
    unfold isotopeRate
    have h1 := hi.1
    rw [hk]
    refine mul_nonneg (by positivity) (setIntegral_nonneg_of_ae_restrict ?_)
    refine (ae_restrict_iff' ?_).2 ?_
    · rw [reach_set hm h1]; exact measurableSet_Icc
    · filter_upwards with v hv
      refine mul_nonneg (mul_nonneg hv.1 (hkp v hv.1)) ?_
      unfold DMParticle.dSigmadERNucleus
      have := (C09_dsigma_nonneg (U := U) (p := p) (q := Real.sqrt (2 * iso.mass * E)) (v := v) hi.2.1).1
      positivity
  by_cases hu : p.useEtaFunction = true ∧ h.useEta = true
  · obtain ⟨r, h1, h2⟩ := (dRdERIsotope_mono (U := U) (I := I) (E := E) (etaLe_zero hu.2 (hη hu.1 hu.2)) hu.1 hm hi.1 hi.2.1 hdens hfd).lower
      (dRdERIsotope_eq hI hm hi.1 fun _ _ _ => exactEta_at _ _)
    exact ⟨r, h1, (hnn (exactEta h fun _ => 0) rfl fun _ _ => le_rfl).trans h2⟩
  · exact ⟨_, dRdERIsotope_eq hI hm hi.1 fun h1 h2 => absurd ⟨h1, h2⟩ hu, hnn h rfl hpdf⟩

/-- C40, C68 (nuclear detectors): the rate of a detector is defined and not negative above the threshold, with and without energy
resolution. -/
theorem C68_nuclear_recoil {nd : NuclearDetector} {d : Detector} (hI : I.Exact) {E : ℝ} (hm : 0 < p.mass)
    (hM : ∀ iso ∈ nd.isotopes, PhysicalIsotope iso) (hf : nd.fractions.length = nd.nuclei.length)
    (hη : p.useEtaFunction = true → h.useEta = true → ∀ v, 0 ≤ v → v ≤ h.vMax → EtaNonneg h v)
    (hfr : ∀ x ∈ nd.fractions, 0 ≤ x) (hdens : 0 ≤ h.density) (hpdf : ∀ v, 0 ≤ v → 0 ≤ h.pdfSpeed v)
    (hfd : 0 ≤ p.fractionalDensity) (heff : ∀ e ∈ nd.efficiencies, ∀ E, 0 ≤ e E) (hflat : 0 ≤ d.flatEfficiency)
    (hres : 0 ≤ nd.resolution) (hE : 0 ≤ E) (hthr : d.energyThreshold ≤ E + 9 * nd.resolution) :
    ∃ r, nd.dRdE U I d E p h = .ok r ∧ 0 ≤ r := by
  have heo : ∀ i, 0 ≤ efficiencyOf nd i E := fun i => by
    have : ∀ j, 0 ≤ nd.efficiencies.getD j (fun _ => 1) E := fun j => by
      by_cases hj : j < nd.efficiencies.length
      · simpa [List.getD, hj] using heff _ (List.getElem_mem hj) E
      · simp [List.getD, not_lt.1 hj]
    unfold efficiencyOf
    split_ifs
    · exact this 0
    · exact this i
    · exact zero_le_one
  have ht : ∀ ER, ∃ r, nd.theoryRate U I d E ER p h = .ok r ∧ 0 ≤ r := fun ER => by
    have : ∀ iso, ∃ r, iso ∈ nd.isotopes → dRdERIsotope U I ER p h iso = .ok r ∧ 0 ≤ r := fun iso => by
      by_cases hi : iso ∈ nd.isotopes
      · obtain ⟨r, hr⟩ := C68_isotope (U := U) (E := ER) hI hm (hM iso hi) hdens hfd hpdf hη
        exact ⟨r, fun _ => hr⟩
      · exact ⟨0, fun h => absurd h hi⟩
    choose k hk using this
    refine ⟨_, NuclearDetector.theoryRate_eq_of hf.ge fun iso hiso => (hk iso hiso).1, ?_⟩
    refine Finset.sum_nonneg fun i _ => mul_nonneg (mul_nonneg (mul_nonneg (heo i) hflat) (getD_nonneg hfr i)) ?_
    refine List.sum_nonneg fun x hx => ?_
    obtain ⟨iso, hi, rfl⟩ := List.mem_map.1 hx
    have hmem := NuclearDetector.mem_isotopes (nd := nd) (List.getElem_mem i.2) hi
    exact mul_nonneg (hM iso hmem).2.2 (hk iso hmem).2
  unfold NuclearDetector.dRdE
  split_ifs with hr
  · exact ht E
  · dsimp only
    rw [hI]
    refine ⟨_, rfl, intervalIntegral.integral_nonneg ?_ fun ER _ => ?_⟩
    · refine max_le (max_le ?_ ?_) ?_ <;> linarith
    · obtain ⟨r, h1, h2⟩ := ht ER
      rw [h1]
      refine mul_nonneg ?_ h2
      unfold pdfGauss
      positivity

/-- C68 (crystals): the rate is defined and not negative. -/
theorem C68_crystal (hI : I.Exact) (hc : BuiltCrystal U c) (hm : 0 < p.mass) {E : ℝ} (hE : 0 ≤ E) (hdens : 0 ≤ h.density)
    (hcs : ∀ q v, 0 ≤ p.d2SigmaCrystal U q E v c)
    (hpdf : ¬ (p.useEtaFunction = true ∧ h.useEta = true) → ∀ v, 0 ≤ v → 0 ≤ h.pdfSpeed v)
    (hη : p.useEtaFunction = true → h.useEta = true → ∀ v, 0 ≤ v → v ≤ h.vMax → EtaNonneg h v) :
    ∃ r, dRdEeCrystal U I E p h c = .ok r ∧ 0 ≤ r := by
  have hf := CrystalFacts.of_built hc
  have hdq := hf.dq_pos
  have hM := hf.mCell_pos
  have hnn : ∀ k : Distribution, k.density = h.density → (∀ v, 0 ≤ v → 0 ≤ k.pdfSpeed v) → 0 ≤ crystalRate U p k c E := fun k hk hkp => by
    unfold crystalRate
    simp only [d2Sigma_eq]
    rw [hk]
    refine mul_nonneg (by positivity) (Finset.sum_nonneg fun i _ => mul_nonneg (by positivity) ?_)
    rw [reach_set_electron (by positivity) hm]
    refine setIntegral_nonneg measurableSet_Icc fun v hv => ?_
    have hv : 0 ≤ v := le_trans (by unfold vMinimalElectrons; positivity) hv.1
    exact mul_nonneg (mul_nonneg hv (hkp v hv)) (hcs _ _)
  by_cases hu : p.useEtaFunction = true ∧ h.useEta = true
  · obtain ⟨r, h1, h2⟩ := (dRdEeCrystal_mono (U := U) (I := I) (etaLe_zero hu.2 (hη hu.1 hu.2)) hu.1 hf hm hE hdens hcs).lower
      (C42_crystal hI hc hm hE fun _ _ _ _ _ => exactEta_at _ _)
    exact ⟨r, h1, (hnn (exactEta h fun _ => 0) rfl fun _ _ => le_rfl).trans h2⟩
  · exact ⟨_, C42_crystal hI hc hm hE fun h1 h2 => absurd ⟨h1, h2⟩ hu, hnn h rfl (hpdf hu)⟩

/-- C68 (electron recoils): the rate of a shell is defined and not negative for every eta function that is not negative. -/
theorem C68_electron_recoil_eta (hI : I.Exact) {d : Detector} {n : Nucleus} (hm : 0 < p.mass) (hv : 0 < h.vMax) (hB : 0 < e.binding)
    (hM : 0 < n.averageMass) {E : ℝ} (hE : 0 < E) (hs : 0 ≤ p.sigmaElectron)
    (hF : ∀ q E, 0 ≤ e.ionizationFormFactor U q E) (hdens : 0 ≤ h.density)
    (hpdf : ¬ (p.useEtaFunction = true ∧ h.useEta = true) → ∀ v, 0 ≤ v → 0 ≤ h.pdfSpeed v)
    (hflat : 0 ≤ d.flatEfficiency)
    (hη : p.useEtaFunction = true → h.useEta = true → ∀ v, 0 ≤ v → v ≤ h.vMax → EtaNonneg h v) :
    ∃ r, shellRateER U I h d E p n e = .ok r ∧ 0 ≤ r := by
  by_cases hu : p.useEtaFunction = true ∧ h.useEta = true
  · have hcs := fun q v => d2SigmaIonization_nonneg hs hF hE.le q v
    have hmono : Monotone fun x => d.flatEfficiency * x := fun x y hxy => mul_le_mul_of_nonneg_left hxy hflat
    obtain ⟨r0, h1, h2⟩ := C68_electron_recoil (h := exactEta h fun _ => 0) (U := U) (I := I) (n := n) (d := d) hI hm hv hB hM hE hs hF hdens
      (fun _ _ => le_rfl) hflat fun _ _ v _ _ => exactEta_at _ v
    obtain ⟨r, h3, h4⟩ := (OkLe.map hmono (dRdEeER_mono (U := U) (I := I) (etaLe_zero hu.2 (hη hu.1 hu.2)) hu.1 hm hv hB hM hE hdens hcs)).lower h1
    exact ⟨r, h3, h2.trans h4⟩
  · exact C68_electron_recoil hI hm hv hB hM hE hs hF hdens (hpdf hu) hflat fun h1 h2 => absurd ⟨h1, h2⟩ hu

/-- C68 (Migdal): the rate of a shell is defined and not negative for every eta function that is not negative. -/
theorem C68_migdal_eta (hI : I.Exact) {d : Detector} {n : Nucleus} (hm : 0 < p.mass) (hv : 0 < h.vMax) (hB : 0 < e.binding)
    (hM : ∀ iso ∈ n.isotopes, PhysicalIsotope iso) {E : ℝ} (hE : 0 < E)
    (hF : ∀ q E, 0 ≤ e.ionizationFormFactor U q E) (hdens : 0 ≤ h.density)
    (hpdf : ¬ (p.useEtaFunction = true ∧ h.useEta = true) → ∀ v, 0 ≤ v → 0 ≤ h.pdfSpeed v)
    (hflat : 0 ≤ d.flatEfficiency)
    (hη : p.useEtaFunction = true → h.useEta = true → ∀ v, 0 ≤ v → v ≤ h.vMax → EtaNonneg h v) :
    ∃ r, shellRateMigdal U I h d E p n e = .ok r ∧ 0 ≤ r := by
  by_cases hu : p.useEtaFunction = true ∧ h.useEta = true
  · refine ⟨_, rfl, mul_nonneg hflat ?_⟩
    unfold dRdEeMigdal
    rw [← List.foldl_map (f := fun iso : Isotope => iso.abundance * dRdEeMigdalIsotope U I E p h iso e), foldl_add_eq_sum]
    refine List.sum_nonneg fun y hy => ?_
    obtain ⟨iso, hiso, rfl⟩ := List.mem_map.1 hy
    refine mul_nonneg (hM iso hiso).2.2 (dRdEeMigdalIsotope_nonneg hI hu.1 hu.2 hm (hM iso hiso).1 hv hB hE hdens (fun ER => ?_) (hη hu.1 hu.2))
    rw [← migdal_eq]; exact d2SigmaMigdal_nonneg (hM iso hiso) hF hE.le ER _
  · exact C68_migdal hI hm hv hB hM hE hF hdens (hpdf hu) hflat fun h1 h2 => absurd ⟨h1, h2⟩ hu

end Obscura
