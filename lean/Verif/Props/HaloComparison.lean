import Verif.Lemmas.HaloComparison
import Verif.Props.ContinuousEvents

/-!
# C117: results in two halos
-/

namespace Obscura

open Spec NuclearDetector DMParticle MeasureTheory

variable {U : Units} {I : Integrator} {T : Tools} {p : DMParticle} {h h' : Distribution} {k : ℝ} {iso : Isotope} {c : Crystal} {E : ℝ} {nd : NuclearDetector}
  {cd : CrystalDetector} {d : Detector} {x : IonizationDetector} {D : AnyDetector}

/-- C117 (recoils). If one halo holds at every speed at most `k` times as many particles as another one, the rate of nuclear recoils with any isotope is at
most `k` times as large. -/
theorem C117_recoils (hk : 0 ≤ k) (A : AtMost k h h') (hh : Orderly h) (hh' : Orderly h') (hI : I.Exact) (hi : PhysicalIsotope iso) (hm : 0 < p.mass)
    (hfd : 0 ≤ p.fractionalDensity) (hE : 0 < E) :
    ∃ r r', dRdERIsotope U I E p h iso = .ok r ∧ dRdERIsotope U I E p h' iso = .ok r' ∧ 0 ≤ r ∧ r ≤ k * r' := by
  obtain ⟨r, r', e1, e2, r0, -, hle⟩ := dRdERIsotope_halos A hI hk hh hh' (U := U) hi hm hfd hE
  exact ⟨r, r', e1, e2, r0, by linarith⟩

theorem theoryRate_halos (hk : 0 ≤ k) (A : AtMost k h h') (hh : Orderly h) (hh' : Orderly h') (hI : I.Exact) (hm : 0 < p.mass) (hfd : 0 ≤ p.fractionalDensity)
    (hlen : nd.nuclei.length ≤ nd.fractions.length) (hfr : ∀ x ∈ nd.fractions, 0 ≤ x)
    (heff : ∀ e ∈ nd.efficiencies, ∀ E, 0 ≤ e E) (hflat : 0 ≤ d.flatEfficiency) (hi : ∀ iso ∈ nd.isotopes, PhysicalIsotope iso) {ER : ℝ} (hE : 0 < ER) :
    ∃ r r', nd.theoryRate U I d E ER p h = .ok r ∧ nd.theoryRate U I d E ER p h' = .ok r' ∧ r ≤ k * r' := by
  have hiso : ∀ iso ∈ nd.isotopes, dRdERIsotope U I ER p h iso = .ok (dRdERIsotope U I ER p h iso).valueOr0 ∧
      dRdERIsotope U I ER p h' iso = .ok (dRdERIsotope U I ER p h' iso).valueOr0 ∧
      (dRdERIsotope U I ER p h iso).valueOr0 ≤ k * (dRdERIsotope U I ER p h' iso).valueOr0 := fun iso hx => by
    obtain ⟨r, r', e1, e2, -, hle⟩ := C117_recoils hk A hh hh' (U := U) hI (hi iso hx) hm hfd hE
    rw [e1, e2]
    exact ⟨rfl, rfl, hle⟩
  have hfr' : ∀ i, 0 ≤ nd.fractions.getD i 0 := fun i => by
    rw [List.getD_eq_getElem?_getD]
    cases hx : nd.fractions[i]? with
    | none => exact le_rfl
    | some x => exact hfr x (List.mem_of_getElem? hx)
  have he : ∀ i, 0 ≤ efficiencyOf nd i E := fun i => by
    have : ∀ j, 0 ≤ nd.efficiencies.getD j (fun _ => 1) E := fun j => by
      by_cases hj : j < nd.efficiencies.length
      · simpa [List.getD, hj] using heff _ (List.getElem_mem hj) E
      · simp [List.getD, not_lt.1 hj]
    unfold efficiencyOf
    split_ifs
    · exact this 0
    · exact this i
    · exact zero_le_one
  refine ⟨_, _, theoryRate_eq_of hlen fun iso hx => (hiso iso hx).1, theoryRate_eq_of hlen fun iso hx => (hiso iso hx).2.1, ?_⟩
  rw [Finset.mul_sum]
  refine Finset.sum_le_sum fun i _ => ?_
  rw [mul_left_comm, ← sum_scale k]
  refine mul_le_mul_of_nonneg_left (List.sum_le_sum fun iso hx => ?_) (mul_nonneg (mul_nonneg (he i) hflat) (hfr' i))
  have hmem := Obscura.NuclearDetector.mem_isotopes (nd := nd) (List.getElem_mem i.2) hx
  exact mul_le_mul_of_nonneg_left (hiso iso hmem).2.2 (hi iso hmem).2.2

/-- C117 (detectors). So is the recoil rate of a detector, at every observed energy. With a finite energy resolution the rates it is folded with must be
integrable. -/
theorem C117_rate (hk : 0 ≤ k) (A : AtMost k h h') (hh : Orderly h) (hh' : Orderly h') (hI : I.Exact) (hm : 0 < p.mass) (hfd : 0 ≤ p.fractionalDensity)
    (hlen : nd.nuclei.length ≤ nd.fractions.length) (hfr : ∀ x ∈ nd.fractions, 0 ≤ x)
    (heff : ∀ e ∈ nd.efficiencies, ∀ E, 0 ≤ e E) (hflat : 0 ≤ d.flatEfficiency) (hi : ∀ iso ∈ nd.isotopes, PhysicalIsotope iso)
    (hE : 0 < E) (hwin : 1 / 10 ^ 6 * U.eV ≤ nd.resolution → d.energyThreshold ≤ E + 9 * nd.resolution ∧
      ∀ g ∈ [h, h'], ∀ a b, 0 < a → IntervalIntegrable (fun ER => (nd.theoryRate U I d E ER p g).valueOr0) volume a b) :
    ∃ r r', nd.dRdE U I d E p h = .ok r ∧ nd.dRdE U I d E p h' = .ok r' ∧ r ≤ k * r' := by
  unfold NuclearDetector.dRdE
  by_cases hres : nd.resolution < 1 / 10 ^ 6 * U.eV
  · rw [if_pos hres, if_pos hres]
    exact theoryRate_halos hk A hh hh' hI hm hfd hlen hfr heff hflat hi hE
  rw [if_neg hres, if_neg hres]
  dsimp only
  have hσ : 0 < nd.resolution := lt_of_lt_of_le (by have := U.eV_pos; positivity) (not_lt.1 hres)
  obtain ⟨hw, hint⟩ := hwin (not_lt.1 hres)
  set a := max (max (E - 6 * nd.resolution) (d.energyThreshold - 3 * nd.resolution)) (2 * nd.resolution)
  have ha : 0 < a := lt_of_lt_of_le (by positivity) (le_max_right _ _)
  have hab : a ≤ E + 6 * nd.resolution := max_le (max_le (by linarith) (by linarith)) (by linarith)
  have hg : ContinuousOn (fun ER => pdfGauss E ER nd.resolution) (Set.uIcc a (E + 6 * nd.resolution)) := by
    unfold pdfGauss
    fun_prop
  refine ⟨_, _, rfl, rfl, ?_⟩
  rw [hI, hI, ← intervalIntegral.integral_const_mul]
  refine intervalIntegral.integral_mono_on hab (((hint h (by simp) a _ ha).continuousOn_mul hg))
    ((((hint h' (by simp) a _ ha).continuousOn_mul hg)).const_mul _) fun ER hER => ?_
  obtain ⟨r₁, r₂, e1, e2, hle⟩ := theoryRate_halos (E := E) (d := d) (U := U) hk A hh hh' hI hm hfd hlen hfr heff hflat hi (ha.trans_le hER.1)
  rw [e1, e2]
  simp only [Outcome.valueOr0]
  rw [mul_left_comm]
  refine mul_le_mul_of_nonneg_left hle ?_
  unfold pdfGauss
  positivity

/-- C117 (bins). So are the events that a nuclear recoil detector expects in every bin. -/
theorem C117_bins (hk : 0 ≤ k) (A : AtMost k h h') (hh : Orderly h) (hh' : Orderly h') (hI : T.integrate.Exact) (hm : 0 < p.mass) (hfd : 0 ≤ p.fractionalDensity)
    (hP : Proper U T.integrate h nd d [p]) (hP' : Proper U T.integrate h' nd d [p])
    (hb : BaseReachable d) (hd : d.analysis = .binnedPoisson) (hn : d.bins + 1 < 2 ^ 32) :
    ∃ ss ss', (nd.toClass U T h).signalsBinned d p = .ok ss ∧ (nd.toClass U T h').signalsBinned d p = .ok ss' ∧ ss.length = d.bins ∧
      ss'.length = d.bins ∧ ∀ i < d.bins, ss.getD i 0 ≤ k * ss'.getD i 0 := by
  obtain ⟨ss₁, a1, a2, a3⟩ := C37_bin_signals (p := p) (C := nd.toClass U T h) hb hd hI hn
  obtain ⟨ss₂, b1, b2, b3⟩ := C37_bin_signals (p := p) (C := nd.toClass U T h') hb hd hI hn
  refine ⟨ss₁, ss₂, a1, b1, a2, b2, fun i hlt => ?_⟩
  obtain ⟨-, -, f3, -⟩ := (Detector.baseReachable_inv hb).energies hd
  rw [a3 i hlt, b3 i hlt]
  set w := (d.energyMax - d.energyThreshold) / d.bins
  have hbins : (0 : ℝ) < d.bins := Nat.cast_pos.2 (by omega)
  have hw : 0 ≤ w := div_nonneg (sub_nonneg.2 f3) (Nat.cast_nonneg _)
  have hedge : ∀ k : ℕ, binEdge d.energyThreshold d.energyMax d.bins k = d.energyThreshold + k * w := fun _ => rfl
  have hmax : d.energyThreshold + d.bins * w = d.energyMax := by
    simp only [w]
    field_simp
    ring
  rw [hedge, hedge]
  have l1 : d.energyThreshold + i * w ≤ d.energyThreshold + ((i + 1 : ℕ) : ℝ) * w := by push_cast; linarith
  have l0 : d.energyThreshold ≤ d.energyThreshold + i * w := le_add_of_nonneg_right (by positivity)
  have l2 : d.energyThreshold + ((i + 1 : ℕ) : ℝ) * w ≤ d.energyMax := by
    rw [← hmax]
    have : ((i + 1 : ℕ) : ℝ) ≤ d.bins := by exact_mod_cast hlt
    gcongr
  have sub : Set.uIcc (d.energyThreshold + i * w) (d.energyThreshold + ((i + 1 : ℕ) : ℝ) * w) ⊆ Set.uIcc d.energyThreshold d.energyMax := by
    rw [Set.uIcc_of_le l1, Set.uIcc_of_le f3]
    exact Set.Icc_subset_Icc l0 l2
  have := hP.efficiencies i hlt
  rw [mul_left_comm k, mul_left_comm k, ← intervalIntegral.integral_const_mul k]
  refine mul_le_mul_of_nonneg_left (mul_le_mul_of_nonneg_left ?_ hP.exposure) this
  refine intervalIntegral.integral_mono_on l1 ((hP.spectra p (by simp)).mono_set sub)
    (((hP'.spectra p (by simp)).mono_set sub).const_mul _) fun E hE' => ?_
  have hEpos : 0 < E := hP.threshold.trans_le (l0.trans hE'.1)
  obtain ⟨x, y, e1, e2, hxy⟩ := C117_rate (d := d) (U := U) hk A hh hh' hI hm hfd hP.fractions hP.composition hP.tables hP.flat hP.isotopes hEpos
    fun hres => ⟨by
      have : 0 < nd.resolution := lt_of_lt_of_le (by have := U.eV_pos; positivity) hres
      have := l0.trans hE'.1
      linarith, fun g hg a b ha => by
        rcases List.mem_cons.1 hg with rfl | hg
        · exact hP.resolution hres p (by simp) E a b ha
        · rw [List.mem_singleton.1 hg]; exact hP'.resolution hres p (by simp) E a b ha⟩
  show (nd.dRdE U T.integrate d E p h).valueOr0 ≤ k * (nd.dRdE U T.integrate d E p h').valueOr0
  rw [e1, e2]
  exact hxy

/-- C117 (crystals). So are the spectra of electrons in a crystal and the rates of events with `Q` or with at least `Q` electron-hole pairs. -/
theorem C117_crystal (hk : 0 ≤ k) (A : AtMost k h h') (hh : Orderly h) (hh' : Orderly h') (hI : I.Exact) (hc : BuiltCrystal U c)
    (hcf : ∀ q E, 0 ≤ c.formFactor q E) (hr : 0 ≤ p.sigmaElectronRef) (hm : 0 < p.mass) {Q : ℕ} (hQ : 1 ≤ Q) (hQ' : Q ≤ 50000000) :
    (∀ E, 0 < E → ∃ r r', dRdEeCrystal U I E p h c = .ok r ∧ dRdEeCrystal U I E p h' c = .ok r' ∧ 0 ≤ r ∧ 0 ≤ r' ∧ r ≤ k * r') ∧
    (∃ r r', rQCrystal U I Q p h c = .ok r ∧ rQCrystal U I Q p h' c = .ok r' ∧ 0 ≤ r ∧ r ≤ k * r') ∧
    ∃ r r', rTotalCrystal U I Q p h c = .ok r ∧ rTotalCrystal U I Q p h' c = .ok r' ∧ 0 ≤ r ∧ r ≤ k * r' := by
  have h0 : ∀ E, 0 < E → ∃ r r', dRdEeCrystal U I E p h c = .ok r ∧ dRdEeCrystal U I E p h' c = .ok r' ∧ 0 ≤ r ∧ 0 ≤ r' ∧ r ≤ k * r' := fun E hE => by
    obtain ⟨r, r', e1, e2, z1, z2, hle⟩ := dRdEeCrystal_halos A hI hk hh hh' hc (fun q => hcf q E) hr hm hE
    exact ⟨r, r', e1, e2, z1, z2, by linarith⟩
  have hd := (CrystalFacts.of_built hc).dE_pos
  have hg : ∀ j, 0 < gridEnergy c j := fun j => by unfold gridEnergy; positivity
  have key : ∀ j, dRdEeCrystal U I (gridEnergy c j) p h c = .ok (dRdEeCrystal U I (gridEnergy c j) p h c).valueOr0 ∧
      dRdEeCrystal U I (gridEnergy c j) p h' c = .ok (dRdEeCrystal U I (gridEnergy c j) p h' c).valueOr0 ∧
      0 ≤ (dRdEeCrystal U I (gridEnergy c j) p h c).valueOr0 ∧
      (dRdEeCrystal U I (gridEnergy c j) p h c).valueOr0 ≤ k * (dRdEeCrystal U I (gridEnergy c j) p h' c).valueOr0 := fun j => by
    obtain ⟨r₁, r₂, e1, e2, z1, -, hle⟩ := h0 _ (hg j)
    rw [e1, e2]
    exact ⟨rfl, rfl, z1, hle⟩
  have sums : ∀ cond : ℝ → Prop, 0 ≤ gridSum c (fun E => (dRdEeCrystal U I E p h c).valueOr0) cond ∧
      gridSum c (fun E => (dRdEeCrystal U I E p h c).valueOr0) cond ≤ k * gridSum c (fun E => (dRdEeCrystal U I E p h' c).valueOr0) cond := fun cond => by
    unfold gridSum
    refine ⟨Finset.sum_nonneg fun j _ => mul_nonneg hd.le (key j).2.2.1, ?_⟩
    rw [Finset.mul_sum]
    refine Finset.sum_le_sum fun j _ => ?_
    rw [mul_left_comm]
    exact mul_le_mul_of_nonneg_left (key j).2.2.2 hd.le
  obtain ⟨a1, a2⟩ := C44_contents (rate := fun E => (dRdEeCrystal U I E p h c).valueOr0) hc hQ hQ' fun j _ => (key j).1
  obtain ⟨b1, b2⟩ := C44_contents (rate := fun E => (dRdEeCrystal U I E p h' c).valueOr0) hc hQ hQ' fun j _ => (key j).2.1
  exact ⟨h0, ⟨_, _, a1, b1, sums _⟩, ⟨_, _, a2, b2, sums _⟩⟩

theorem crystal_window_halos (hk : 0 ≤ k) (A : AtMost k h h') (hh : Orderly h) (hh' : Orderly h') (hI : I.Exact) (hr : 0 ≤ p.sigmaElectronRef) (hm : 0 < p.mass)
    (hP : ProperCrystal U I h d cd [p]) (hP' : ProperCrystal U I h' d cd [p])
    (hw : d.usingEnergyThreshold = true ∨ d.analysis = .maximumGap ∨ d.usingEnergyBins = true) {a b : ℝ} (ha : 0 < a) (hab : a ≤ b) :
    I (fun E => (cd.dRdE U I d E p h).valueOr0) a b ≤ k * I (fun E => (cd.dRdE U I d E p h').valueOr0) a b := by
  rw [hI, hI, ← intervalIntegral.integral_const_mul k]
  refine intervalIntegral.integral_mono_on hab (hP.spectra hw p (by simp) a b ha) ((hP'.spectra hw p (by simp) a b ha).const_mul _) fun E hE => ?_
  obtain ⟨r₁, r₂, e1, e2, z1, z2, hle⟩ := dRdEeCrystal_halos A hI hk hh hh' hP.built (fun q => hP.table q E) hr hm (ha.trans_le hE.1)
  have := hP.flat
  unfold CrystalDetector.dRdE
  rw [e1, e2]
  show d.flatEfficiency * r₁ ≤ k * (d.flatEfficiency * r₂)
  nlinarith

/-- C117 (events in crystals). So are the events expected by a semiconductor detector, with a threshold in the energy or in the number of electron-hole
pairs. -/
theorem C117_crystal_events (hk : 0 ≤ k) (A : AtMost k h h') (hh : Orderly h) (hh' : Orderly h') (hI : T.integrate.Exact) (hr : 0 ≤ p.sigmaElectronRef)
    (hm : 0 < p.mass) (hP : ProperCrystal U T.integrate h d cd [p]) (hP' : ProperCrystal U T.integrate h' d cd [p]) (ha : d.analysis ≠ .binnedPoisson) {s s' : ℝ}
    (g1 : (cd.toClass U T h).signalsTotal d p = .ok s) (g2 : (cd.toClass U T h').signalsTotal d p = .ok s') : s ≤ k * s' := by
  have hex := hP.exposure
  have hfl := hP.flat
  have g1 : cd.signalsTotal U T d p h = .ok s := g1
  have g2 : cd.signalsTotal U T d p h' = .ok s' := g2
  unfold CrystalDetector.signalsTotal at g1 g2
  rw [if_neg ha] at g1 g2
  split_ifs at g1 g2 with hthr
  · cases g1
    cases g2
    have := crystal_window_halos hk A hh hh' hI hr hm hP hP' (by tauto) hP.threshold hP.window
    nlinarith
  · obtain ⟨u, hu, g1⟩ := Outcome.bind_eq_ok.1 g1
    rw [hu, Outcome.bind_ok] at g2
    split_ifs at g1 g2
    · obtain ⟨Q, hQ, g1⟩ := Outcome.bind_eq_ok.1 g1
      rw [hQ, Outcome.bind_ok] at g2
      have hQ : cd.qThreshold = some Q := by
        cases hq : cd.qThreshold with
        | none => rw [hq] at hQ; simp [readMember] at hQ
        | some x => rw [hq] at hQ; simp only [readMember, Outcome.ok.injEq] at hQ; rw [hQ]
      obtain ⟨k1, k2⟩ := hP.pairs Q hQ
      obtain ⟨r₁, r₂, e1, e2, -, hle⟩ := (C117_crystal hk A hh hh' hI hP.built hP.table hr hm k1 (by omega)).2.2
      rw [toInt32_small (by omega)] at g1 g2
      rw [e1] at g1
      rw [e2] at g2
      cases g1
      cases g2
      have := mul_le_mul_of_nonneg_left hle (mul_nonneg hex hfl)
      linarith
    · cases g1
      cases g2
      simp

/-- C117 (bins in crystals). So are the events it expects in every bin of the energy or of the number of electron-hole pairs. -/
theorem C117_crystal_bins (hk : 0 ≤ k) (A : AtMost k h h') (hh : Orderly h) (hh' : Orderly h') (hI : T.integrate.Exact) (hr : 0 ≤ p.sigmaElectronRef)
    (hm : 0 < p.mass) (hP : ProperCrystal U T.integrate h d cd [p]) (hP' : ProperCrystal U T.integrate h' d cd [p]) {ss ss' : List ℝ}
    (g1 : (cd.toClass U T h).signalsBinned d p = .ok ss) (g2 : (cd.toClass U T h').signalsBinned d p = .ok ss') (i : ℕ) : ss.getD i 0 ≤ k * ss'.getD i 0 := by
  have hex := hP.exposure
  have hfl := hP.flat
  have g1 : cd.signalsBinned U T d p h = .ok ss := g1
  have g2 : cd.signalsBinned U T d p h' = .ok ss' := g2
  rw [← one_mul (ss.getD i 0)]
  unfold CrystalDetector.signalsBinned at g1 g2
  split_ifs at g1 g2 with hb he
  · unfold Detector.signalsEnergyBins at g1 g2
    split_ifs at g1 g2
    refine collect_scaled g1 g2 (fun j _ x y hx hy => ?_) i
    obtain ⟨lo, hlo, hx⟩ := Outcome.bind_eq_ok.1 hx
    obtain ⟨hi, hhi, hx⟩ := Outcome.bind_eq_ok.1 hx
    obtain ⟨e, hef, hx⟩ := Outcome.bind_eq_ok.1 hx
    rw [hlo, Outcome.bind_ok, hhi, Outcome.bind_ok, hef, Outcome.bind_ok] at hy
    cases hx
    cases hy
    obtain ⟨l0, l1⟩ := hP.edges j lo hi (vecGet_some hlo) (vecGet_some hhi)
    have e0 := hP.efficiencies e (List.mem_of_getElem? (vecGet_some hef))
    have := mul_le_mul_of_nonneg_left (crystal_window_halos hk A hh hh' hI hr hm hP hP' (.inr (.inr he)) l0 l1) (mul_nonneg e0 hex)
    show 1 * (e * (d.exposure * T.integrate (fun E => (cd.dRdE U T.integrate d E p h).valueOr0) lo hi)) ≤
      k * (e * (d.exposure * T.integrate (fun E => (cd.dRdE U T.integrate d E p h').valueOr0) lo hi))
    linarith
  · obtain ⟨u, hu, g1⟩ := Outcome.bind_eq_ok.1 g1
    rw [hu, Outcome.bind_ok] at g2
    split_ifs at g1 g2 with hu'
    subst hu'
    unfold CrystalDetector.signalsQBins at g1 g2
    rw [hu, Outcome.bind_ok, if_neg (by simp)] at g1 g2
    obtain ⟨Q, hQ, g1⟩ := Outcome.bind_eq_ok.1 g1
    rw [hQ, Outcome.bind_ok] at g2
    have hQ : cd.qThreshold = some Q := by
      cases hq : cd.qThreshold with
      | none => rw [hq] at hQ; simp [readMember] at hQ
      | some x => rw [hq] at hQ; simp only [readMember, Outcome.ok.injEq] at hQ; rw [hQ]
    obtain ⟨k1, k2⟩ := hP.pairs Q hQ
    refine collect_scaled g1 g2 (fun j hj x y hx hy => ?_) i
    have hj : Q ≤ j ∧ j ≤ 50000000 := by
      rw [List.mem_range'_1, Nat.mod_eq_of_lt (by omega)] at hj
      omega
    obtain ⟨e, hef, hx⟩ := Outcome.bind_eq_ok.1 hx
    rw [hef, Outcome.bind_ok] at hy
    obtain ⟨r₁, r₂, e1, e2, -, hle⟩ := (C117_crystal hk A hh hh' hI hP.built hP.table hr hm (k1.trans hj.1) hj.2).2.1
    rw [toInt32_small (by omega)] at hx hy
    rw [e1] at hx
    rw [e2] at hy
    cases hx
    cases hy
    have e0 := hP.efficiencies e (List.mem_of_getElem? (vecGet_some hef))
    have := mul_le_mul_of_nonneg_left hle (mul_nonneg (mul_nonneg hex hfl) e0)
    linarith

/-- What the theorems require of a detector for electrons from atoms: bound shells with form factors that are not negative and with positive tabulated
momenta, positive masses, and mass fractions, efficiencies and an exposure that are not negative. -/
structure ProperShells (U : Units) (d : Detector) (x : IonizationDetector) : Prop where
  fractions : ∀ y ∈ x.fractions, 0 ≤ y
  exposure : 0 ≤ d.exposure
  flat : 0 ≤ d.flatEfficiency
  efficiencies : ∀ y ∈ d.binEfficiencies, 0 ≤ y
  masses : ∀ a ∈ x.atoms, 0 < a.nucleus.averageMass
  bound : ∀ a ∈ x.atoms, ∀ e ∈ a.electrons, 0 < e.binding
  formFactors : ∀ a ∈ x.atoms, ∀ e ∈ a.electrons, ∀ q E, 0 ≤ e.ionizationFormFactor U q E
  grid : ∀ a ∈ x.atoms, ∀ e ∈ a.electrons, 0 ≤ e.dlogk ∧ ∀ k ∈ e.kGrid, 0 < k

/-- C117 (electrons of an atom). So are the spectra of electrons from every shell of an atom, if both halos end at the same speed. -/
theorem C117_electrons (hk : 0 ≤ k) (A : AtMost k h h') (hh : Orderly h) (hh' : Orderly h') (hI : I.Exact) (hv : h.vMax = h'.vMax) (hv0 : 0 < h.vMax)
    (hP : ProperShells U d x) {a : Atom} (ha : a ∈ x.atoms) {e : AtomicElectron} (he : e ∈ a.electrons) (hr : 0 ≤ p.sigmaElectron) (hm : 0 < p.mass) (hE : 0 < E) :
    ∃ r r', shellRateER U I h d E p a.nucleus e = .ok r ∧ shellRateER U I h' d E p a.nucleus e = .ok r' ∧ 0 ≤ r ∧ r ≤ k * r' := by
  obtain ⟨r, r', e1, e2, z, -, hle⟩ := OkScaled.times hP.flat
    (dRdEeER_halos A hv hv0 hI hk hh hh' (U := U) (hP.masses a ha) (hP.bound a ha e he) (hP.formFactors a ha e he) hr hm hE)
  exact ⟨r, r', e1, e2, z, by linarith⟩

/-- C117 (electrons of the Migdal effect). So are the spectra of electrons of the Migdal effect. -/
theorem C117_migdal (hk : 0 ≤ k) (A : AtMost k h h') (hh : Orderly h) (hh' : Orderly h') (hI : I.Exact) (hu : h.useEta = true) (hv0 : 0 < h.vMax)
    (hP : ProperMigdal U d x p) {a : Atom} (ha : a ∈ x.atoms) {e : AtomicElectron} (he : e ∈ a.electrons) (hp : p.useEtaFunction = true) (hm : 0 < p.mass) (hE : 0 < E) :
    ∃ r r', shellRateMigdal U I h d E p a.nucleus e = .ok r ∧ shellRateMigdal U I h' d E p a.nucleus e = .ok r' ∧ r ≤ k * r' := by
  refine ⟨_, _, rfl, rfl, ?_⟩
  rw [mul_left_comm k]
  refine mul_le_mul_of_nonneg_left ?_ hP.flat
  unfold dRdEeMigdal
  rw [← List.foldl_map (f := fun iso : Isotope => iso.abundance * dRdEeMigdalIsotope U I E p h iso e), foldl_add_eq_sum,
    ← List.foldl_map (f := fun iso : Isotope => iso.abundance * dRdEeMigdalIsotope U I E p h' iso e), foldl_add_eq_sum, ← sum_scale]
  refine List.sum_le_sum fun iso hx => mul_le_mul_of_nonneg_left ?_ (hP.isotopes a ha iso hx).2.2
  exact migdal_halos A hI hk hh hh' hu hv0 hp hm (hP.isotopes a ha iso hx) (hP.bound a ha e he) hE (hP.formFactors a ha e he) (hP.integrable a ha e he iso hx E hE)

theorem ionization_total_halos {S S' : ShellRate} (hfr : ∀ y ∈ x.fractions, 0 ≤ y) (hex : 0 ≤ d.exposure)
    (hS : ScaledShells U x 1 k (fun E n e => S d E p n e) fun E n e => S' d E p n e) (ha : d.analysis ≠ .binnedPoisson)
    (hx : x.usingElectronThreshold = true) {s s' : ℝ} (g1 : x.signalsTotal U S T d p h = .ok s) (g2 : x.signalsTotal U S' T d p h' = .ok s') : s ≤ k * s' := by
  unfold IonizationDetector.signalsTotal at g1 g2
  rw [if_neg ha, if_pos hx] at g1 g2
  have := Scaled.sumOver (fun ne _ => Scaled.times hex (rNe_scaled hfr hS ne)) s s' g1 g2
  linarith

theorem ionization_bins_halos {S S' : ShellRate} (hfr : ∀ y ∈ x.fractions, 0 ≤ y) (hex : 0 ≤ d.exposure) (hef : ∀ y ∈ d.binEfficiencies, 0 ≤ y)
    (hS : ScaledShells U x 1 k (fun E n e => S d E p n e) fun E n e => S' d E p n e) (he : d.usingEnergyBins = false)
    (hx : x.usingElectronBins = true) {ss ss' : List ℝ} (g1 : x.signalsBinned U S T d p h = .ok ss) (g2 : x.signalsBinned U S' T d p h' = .ok ss') (i : ℕ) :
    ss.getD i 0 ≤ k * ss'.getD i 0 := by
  rw [← one_mul (ss.getD i 0)]
  unfold IonizationDetector.signalsBinned IonizationDetector.signalsElectronBins at g1 g2
  by_cases hb : d.analysis ≠ .binnedPoisson
  · rw [if_pos hb] at g1
    cases g1
  rw [if_neg hb, if_neg (by simp [he]), if_pos hx, if_neg (by simp [hx])] at g1 g2
  refine collect_scaled g1 g2 (fun j _ y z hy hz => ?_) i
  obtain ⟨r₁, k1, hy⟩ := Outcome.bind_eq_ok.1 hy
  obtain ⟨r₂, k2, hz⟩ := Outcome.bind_eq_ok.1 hz
  obtain ⟨f, hf, hy⟩ := Outcome.bind_eq_ok.1 hy
  rw [hf, Outcome.bind_ok] at hz
  cases hy
  cases hz
  have := rNe_scaled hfr hS _ _ _ k1 k2
  have f0 := hef f (List.mem_of_getElem? (vecGet_some hf))
  have := mul_le_mul_of_nonneg_left this (mul_nonneg f0 hex)
  linarith

theorem shells_halos (hk : 0 ≤ k) (A : AtMost k h h') (hh : Orderly h) (hh' : Orderly h') (hI : I.Exact) (hv : h.vMax = h'.vMax) (hv0 : 0 < h.vMax)
    (hP : ProperShells U d x) (hr : 0 ≤ p.sigmaElectron) (hm : 0 < p.mass) :
    ScaledShells U x 1 k (fun E n e => shellRateER U I h d E p n e) fun E n e => shellRateER U I h' d E p n e := by
  intro a ha e he
  refine ⟨(hP.grid a ha e he).1, fun q hq y z hy hz => ?_⟩
  have hq := (hP.grid a ha e he).2 q hq
  have hE : 0 < q * q / 2 / U.mElectron := by have := U.mElectron_pos; positivity
  obtain ⟨r₁, r₂, e1, e2, -, hle⟩ := C117_electrons hk A hh hh' hI hv hv0 hP ha he hr hm hE
  dsimp only at hy hz
  rw [e1] at hy
  rw [e2] at hz
  cases hy
  cases hz
  linarith

theorem migdal_shells_halos (hk : 0 ≤ k) (A : AtMost k h h') (hh : Orderly h) (hh' : Orderly h') (hI : I.Exact) (hu : h.useEta = true) (hv0 : 0 < h.vMax)
    (hP : ProperMigdal U d x p) (hp : p.useEtaFunction = true) (hm : 0 < p.mass) :
    ScaledShells U x 1 k (fun E n e => shellRateMigdal U I h d E p n e) fun E n e => shellRateMigdal U I h' d E p n e := by
  intro a ha e he
  refine ⟨(hP.grid a ha e he).1, fun q hq y z hy hz => ?_⟩
  have hq := (hP.grid a ha e he).2 q hq
  have hE : 0 < q * q / 2 / U.mElectron := by have := U.mElectron_pos; positivity
  obtain ⟨r₁, r₂, e1, e2, hle⟩ := C117_migdal hk A hh hh' hI hu hv0 hP ha he hp hm hE
  dsimp only at hy hz
  rw [e1] at hy
  rw [e2] at hz
  cases hy
  cases hz
  linarith

/-- C117 (events with electrons). So are the events expected by a detector that counts electrons from atoms, all together and in bins of the number of
electrons. -/
theorem C117_electron_events (hk : 0 ≤ k) (A : AtMost k h h') (hh : Orderly h) (hh' : Orderly h') (hI : T.integrate.Exact) (hv : h.vMax = h'.vMax)
    (hv0 : 0 < h.vMax) (hP : ProperShells U d x) (hr : 0 ≤ p.sigmaElectron) (hm : 0 < p.mass) :
    (d.analysis ≠ .binnedPoisson → x.usingElectronThreshold = true → ∀ s s', ((AnyDetector.electronRecoil d x).toClass U T h).signalsTotal d p = .ok s →
      ((AnyDetector.electronRecoil d x).toClass U T h').signalsTotal d p = .ok s' → s ≤ k * s') ∧
    (d.usingEnergyBins = false → x.usingElectronBins = true → ∀ ss ss', ((AnyDetector.electronRecoil d x).toClass U T h).signalsBinned d p = .ok ss →
      ((AnyDetector.electronRecoil d x).toClass U T h').signalsBinned d p = .ok ss' → ∀ i, ss.getD i 0 ≤ k * ss'.getD i 0) :=
  have hS := shells_halos hk A hh hh' hI hv hv0 hP hr hm
  ⟨fun ha hx _ _ g1 g2 => ionization_total_halos (S := shellRateER U T.integrate h) (S' := shellRateER U T.integrate h') hP.fractions hP.exposure hS ha hx g1 g2,
    fun he hx _ _ g1 g2 i => ionization_bins_halos (S := shellRateER U T.integrate h) (S' := shellRateER U T.integrate h') hP.fractions hP.exposure hP.efficiencies hS he hx g1 g2 i⟩

/-- C117 (events of the Migdal effect). So are the events expected by a detector that counts electrons of the Migdal effect. -/
theorem C117_migdal_events (hk : 0 ≤ k) (A : AtMost k h h') (hh : Orderly h) (hh' : Orderly h') (hI : T.integrate.Exact) (hu : h.useEta = true)
    (hv0 : 0 < h.vMax) (hP : ProperMigdal U d x p) (hp : p.useEtaFunction = true) (hm : 0 < p.mass) :
    (d.analysis ≠ .binnedPoisson → x.usingElectronThreshold = true → ∀ s s', ((AnyDetector.migdal d x).toClass U T h).signalsTotal d p = .ok s →
      ((AnyDetector.migdal d x).toClass U T h').signalsTotal d p = .ok s' → s ≤ k * s') ∧
    (d.usingEnergyBins = false → x.usingElectronBins = true → ∀ ss ss', ((AnyDetector.migdal d x).toClass U T h).signalsBinned d p = .ok ss →
      ((AnyDetector.migdal d x).toClass U T h').signalsBinned d p = .ok ss' → ∀ i, ss.getD i 0 ≤ k * ss'.getD i 0) :=
  have hS := migdal_shells_halos hk A hh hh' hI hu hv0 hP hp hm
  ⟨fun ha hx _ _ g1 g2 => ionization_total_halos (S := shellRateMigdal U T.integrate h) (S' := shellRateMigdal U T.integrate h') hP.fractions hP.exposure hS ha hx g1 g2,
    fun he hx _ _ g1 g2 i => ionization_bins_halos (S := shellRateMigdal U T.integrate h) (S' := shellRateMigdal U T.integrate h') hP.fractions hP.exposure hP.efficiencies hS he hx g1 g2 i⟩

/-- C117 (limits). Where the events expected in one halo are at most `k` times the events expected in another one, the limit found in the other halo is at
most `k` times the limit found in the first one: for counting analyses with any detector, whatever was observed and whatever background is expected. -/
theorem C117_limit {c c' cert s s' : ℝ} (hR : T.findRoot.Exact) (hS : Sees U T h D p c s) (hS' : Sees U T h' D p c' s') (hle : s ≤ k * s')
    {r r' : Detector × DMParticle × ℝ} (g1 : D.base.upperLimit U T (D.toClass U T h) p cert = .ok r) (g2 : D.base.upperLimit U T (D.toClass U T h') p cert = .ok r')
    (hx : 0 < r.2.2) (hx' : 0 < r'.2.2) : r'.2.2 ≤ k * r.2.2 := by
  have hpar : c = c' := Outcome.ok.inj (hS.parameter.symm.trans hS'.parameter)
  subst hpar
  have := C87_comparison hS hS' hR hR rfl rfl g1 g2 hx hx'
  rw [mul_div_assoc', mul_div_assoc', div_left_inj' hS.positive.ne'] at this
  have l := mul_le_mul_of_nonneg_left hle hx.le
  refine le_of_mul_le_mul_right ?_ hS'.visible
  linarith

/-- C117 (limits, bins). The same for binned analyses, if this holds in every bin. -/
theorem C117_limit_binned {c c' cert : ℝ} {ss ss' : List ℝ} (hR : T.findRoot.Exact) (hS : SeesInBins U T h D p c ss) (hS' : SeesInBins U T h' D p c' ss')
    (hle : ∀ i < D.base.bins, ss.getD i 0 ≤ k * ss'.getD i 0)
    {r r' : Detector × DMParticle × ℝ} (g1 : D.base.upperLimit U T (D.toClass U T h) p cert = .ok r) (g2 : D.base.upperLimit U T (D.toClass U T h') p cert = .ok r')
    (hx : 0 < r.2.2) (hx' : 0 < r'.2.2) : r'.2.2 ≤ k * r.2.2 := by
  have hpar : c = c' := Outcome.ok.inj (hS.parameter.symm.trans hS'.parameter)
  subst hpar
  refine C87_comparison_binned hS' hS hR hR rfl (fun _ _ => rfl) (fun _ _ => rfl) (fun i hi => ?_) g2 g1 hx' hx
  rw [mul_div_assoc']
  exact div_le_div_of_nonneg_right (hle i hi) hS.positive.le

theorem orderly_of_reachable {s : SHM} (hs : SHM.Reachable U s) (hp : s.Physical) (hoe : s.vObs ≤ s.vEsc) (hd : 0 ≤ s.density) : Orderly (Distribution.ofSHM s) :=
  ⟨hd, (C96_standard_halo hs hp hoe).2, (C96_standard_halo hs hp hoe).1⟩

/-- C117 (escape velocity). Two standard halos with the same velocity dispersion and observer: the one with the lower escape velocity holds at every speed
at most so many times the particles of the other one as its density over the share of particles below its escape velocity. -/
theorem C117_escape {s s' : SHM} (hs : SHM.Reachable U s) (hs' : SHM.Reachable U s') (hp : s.Physical) (hp' : s'.Physical) (hu : s.useEta = s'.useEta) (hoe : s.vObs ≤ s.vEsc)
    (ho : s.vObs = 0 ∨ 1e-8 * s.v0 ≤ s.vObs) (e0 : s.v0 = s'.v0) (e1 : s.vObs = s'.vObs) (he : s.vEsc ≤ s'.vEsc)
    (hd : 0 ≤ s.density) (hd' : 0 ≤ s'.density) (hk : s.density / s.nEsc ≤ k * (s'.density / s'.nEsc)) :
    AtMost k (Distribution.ofSHM s) (Distribution.ofSHM s') ∧ Orderly (Distribution.ofSHM s) ∧ Orderly (Distribution.ofSHM s') := by
  have hoe' : s'.vObs ≤ s'.vEsc := by rw [← e1]; exact hoe.trans he
  have O := orderly_of_reachable hs hp hoe hd
  have O' := orderly_of_reachable hs' hp' hoe' hd'
  have w := SHM.WF.of_reachable hs hp
  have w' := SHM.WF.of_reachable hs' hp'
  have N := w.nEsc_pos
  have N' := w'.nEsc_pos
  have v0 := w.v0_pos
  have hmax : s.vMax ≤ s'.vMax := by rw [w.vMax, w'.vMax, e1]; linarith
  have hπ := sqrt_pi_pos
  have hlow : 0 ≤ k * (s'.density / s'.nEsc) := (div_nonneg hd N.le).trans hk
  have hpt : ∀ v, 0 ≤ v → v ≤ s.vMax → s.density * s.pdfSpeed v ≤ k * (s'.density * s'.pdfSpeed v) := fun v hv hv' => by
    have hv2 := hv'.trans hmax
    rcases w.vObs_nonneg.eq_or_lt with o | o
    · rw [pdfSpeed_rest w o.symm hv hv', pdfSpeed_rest w' (e1 ▸ o.symm) hv hv2, ← e0]
      have g := gauss_pos s.v0 v
      have := mul_le_mul_of_nonneg_right hk (show 0 ≤ 4 * v * v / √Real.pi / s.v0 / s.v0 / s.v0 * gauss s.v0 v by positivity)
      calc _ = s.density / s.nEsc * (4 * v * v / √Real.pi / s.v0 / s.v0 / s.v0 * gauss s.v0 v) := by ring
        _ ≤ _ := this
        _ = _ := by ring
    · rw [pdfSpeed_moving w o hv hv', pdfSpeed_moving w' (e1 ▸ o) hv hv2, ← e0, ← e1]
      have l1 : (if v + s.vObs < s'.vEsc then gauss s.v0 (v + s.vObs) else gauss s.v0 s'.vEsc) ≤
          if v + s.vObs < s.vEsc then gauss s.v0 (v + s.vObs) else gauss s.v0 s.vEsc := by
        have p1 := w.vEsc_pos
        split_ifs with a b b
        · exact le_rfl
        · refine gauss_le_of_abs_le ?_
          rw [abs_of_pos p1, abs_of_nonneg (by linarith)]
          linarith
        · linarith
        · refine gauss_le_of_abs_le ?_
          rw [abs_of_pos p1, abs_of_pos (by linarith)]
          exact he
      have l2 : (if v + s.vObs < s.vEsc then gauss s.v0 (v + s.vObs) else gauss s.v0 s.vEsc) ≤ gauss s.v0 (v - s.vObs) := by
        rw [w.vMax] at hv'
        split_ifs with a
        · refine gauss_le_of_abs_le ?_
          rw [abs_of_nonneg (by linarith : 0 ≤ v + s.vObs), abs_le]
          constructor <;> linarith
        · refine gauss_le_of_abs_le ?_
          rw [abs_of_pos w.vEsc_pos, abs_le]
          constructor <;> linarith
      generalize (if v + s.vObs < s'.vEsc then gauss s.v0 (v + s.vObs) else gauss s.v0 s'.vEsc) = b' at *
      generalize (if v + s.vObs < s.vEsc then gauss s.v0 (v + s.vObs) else gauss s.v0 s.vEsc) = b at *
      have n : 0 ≤ v / s.v0 / √Real.pi / s.vObs := by positivity
      calc _ = s.density / s.nEsc * (v / s.v0 / √Real.pi / s.vObs * (gauss s.v0 (v - s.vObs) - b)) := by ring
        _ ≤ k * (s'.density / s'.nEsc) * (v / s.v0 / √Real.pi / s.vObs * (gauss s.v0 (v - s.vObs) - b)) :=
          mul_le_mul_of_nonneg_right hk (mul_nonneg n (by linarith))
        _ ≤ k * (s'.density / s'.nEsc) * (v / s.v0 / √Real.pi / s.vObs * (gauss s.v0 (v - s.vObs) - b')) :=
          mul_le_mul_of_nonneg_left (mul_le_mul_of_nonneg_left (by linarith) n) hlow
        _ = _ := by ring
  refine ⟨⟨hu, hmax, hpt, fun v hv hv' => ⟨_, _, rfl, rfl, ?_⟩⟩, O, O'⟩
  have hv' : v ≤ s.vMax := hv'
  show s.density * s.eta v ≤ k * (s'.density * s'.eta v)
  have nn : ∀ x, 0 ≤ x → 0 ≤ k * (s'.density * x) := fun x hx => by
    have := mul_nonneg hlow (mul_nonneg N'.le hx)
    have e : k * (s'.density / s'.nEsc) * (s'.nEsc * x) = k * (s'.density * x) := by field_simp
    rwa [e] at this
  rcases lt_or_ge (s.vMax - 1e-8 * s.v0) v with g | g
  · have : s.eta v = 0 := by
      apply eta_zero
      rw [lt_div_iff₀ v0, sub_mul, add_mul, div_mul_cancel₀ _ v0.ne', div_mul_cancel₀ _ v0.ne']
      rw [w.vMax] at g; linarith
    rw [this, mul_zero]
    exact nn _ (C17_antitone U s' hs' hp' hoe' v v hv le_rfl).1
  · have hv2 := hv'.trans hmax
    rw [C17_eta_partial U s hs hp hoe ho v hv g, C17_eta_partial U s' hs' hp' hoe' (by rw [← e0, ← e1]; exact ho) v hv (by rw [← e0]; linarith)]
    have reg := (C42_standard_halo_regular hs hp hoe).2.2.2.1
    have reg' := (C42_standard_halo_regular hs' hp' hoe').2.2.2.1
    have P' := (C42_standard_halo_regular hs' hp' hoe').2.2.1
    have i1 : IntervalIntegrable (fun x => s.pdfSpeed x / x) volume v s.vMax := reg.mono_set (by
      rw [Set.uIcc_of_le hv', Set.uIcc_of_le (hv.trans hv')]; exact Set.Icc_subset_Icc hv le_rfl)
    have i2 : IntervalIntegrable (fun x => s'.pdfSpeed x / x) volume v s.vMax := reg'.mono_set (by
      rw [Set.uIcc_of_le hv', Set.uIcc_of_le (hv.trans hv2)]; exact Set.Icc_subset_Icc hv hmax)
    have i3 : IntervalIntegrable (fun x => s'.pdfSpeed x / x) volume s.vMax s'.vMax := reg'.mono_set (by
      rw [Set.uIcc_of_le hmax, Set.uIcc_of_le (hv.trans hv2)]; exact Set.Icc_subset_Icc (hv.trans hv') le_rfl)
    have split := intervalIntegral.integral_add_adjacent_intervals i2 i3
    have rest : 0 ≤ ∫ x in s.vMax..s'.vMax, s'.pdfSpeed x / x := intervalIntegral.integral_nonneg hmax fun x hx =>
      div_nonneg (P' x) ((hv.trans hv').trans hx.1)
    have first : s.density * ∫ x in v..s.vMax, s.pdfSpeed x / x ≤ k * (s'.density * ∫ x in v..s.vMax, s'.pdfSpeed x / x) := by
      rw [← intervalIntegral.integral_const_mul, ← intervalIntegral.integral_const_mul, ← intervalIntegral.integral_const_mul]
      refine intervalIntegral.integral_mono_on hv' (i1.const_mul _) ((i2.const_mul _).const_mul _) fun x hx => ?_
      have := div_le_div_of_nonneg_right (hpt x (hv.trans hx.1) hx.2) (hv.trans hx.1)
      calc _ = s.density * s.pdfSpeed x / x := by ring
        _ ≤ _ := this
        _ = _ := by ring
    have := nn _ rest
    rw [← split]
    linarith

/-- Two standard halos: `SHM.sample` and one with another density and an escape velocity that is not smaller. -/
theorem two_halos {rho e : ℝ} (hr : 0 < rho) (he : 7 ≤ e) : ∃ k, 0 ≤ k ∧ AtMost k (Distribution.ofSHM SHM.sample) (Distribution.ofSHM (SHM.makeSpeed rho 2 3 e)) ∧
    Orderly (Distribution.ofSHM SHM.sample) ∧ Orderly (Distribution.ofSHM (SHM.makeSpeed rho 2 3 e)) := by
  have R' : SHM.Reachable Units.sample (SHM.makeSpeed rho 2 3 e) := ⟨_, [], .speed rho 2 3 e (by norm_num), rfl⟩
  have hs : SHM.sample.Physical ∧ SHM.sample.vObs ≤ SHM.sample.vEsc ∧ 0 ≤ SHM.sample.density ∧ 1e-8 * SHM.sample.v0 ≤ SHM.sample.vObs := by
    refine ⟨⟨?_, ?_⟩, ?_, ?_, ?_⟩ <;> norm_num [SHM.sample, SHM.makeSpeed, SHM.normalize]
  have hp' : (SHM.makeSpeed rho 2 3 e).Physical := ⟨by norm_num [SHM.makeSpeed, SHM.normalize], show 0 < e by linarith⟩
  have N := (SHM.WF.of_reachable SHM.sample_reachable hs.1).nEsc_pos
  have N' := (SHM.WF.of_reachable R' hp').nEsc_pos
  have d' : 0 < (SHM.makeSpeed rho 2 3 e).density := hr
  refine ⟨SHM.sample.density / SHM.sample.nEsc / ((SHM.makeSpeed rho 2 3 e).density / (SHM.makeSpeed rho 2 3 e).nEsc), ?_,
    C117_escape SHM.sample_reachable R' hs.1 hp' rfl hs.2.1 (.inr hs.2.2.2) rfl rfl he hs.2.2.1 d'.le ?_⟩
  · have := hs.2.2.1
    positivity
  · rw [div_mul_cancel₀ _ (by positivity)]

/-- Non-vacuity: a hydrogen detector with two bins, in a halo and in another one with twice its density. -/
example (U : Units) {T : Tools} (hI : T.integrate.Exact) (hR : T.findRoot.Exact) : ∃ (h h' : Distribution) (p : DMParticle) (ss ss' : List ℝ),
    AtMost (1 / 2) h h' ∧ SeesInBins U T h (binnedHydrogen U) p 1 ss ∧ SeesInBins U T h' (binnedHydrogen U) p 1 ss' ∧ ∀ cert r r',
    (binnedHydrogen U).base.upperLimit U T ((binnedHydrogen U).toClass U T h) p cert = .ok r →
    (binnedHydrogen U).base.upperLimit U T ((binnedHydrogen U).toClass U T h') p cert = .ok r' → 0 < r.2.2 → 0 < r'.2.2 → r'.2.2 ≤ 1 / 2 * r.2.2 := by
  obtain ⟨v, p, ss, ⟨-, -, -, hS⟩, hlow, hmass, hfd, hB, -⟩ := sees_bins_point U hI
  have ff : ∀ ρ, FallingEta { flatHalo v with density := ρ } := fun ρ v w _ _ _ => ⟨1, 1, rfl, rfl, zero_le_one, le_rfl⟩
  have fs : ∀ ρ, ProperSpeeds { flatHalo v with density := ρ } := fun ρ => ⟨fun _ _ => le_rfl, by simp [flatHalo]⟩
  have O : Orderly (flatHalo v) := ⟨zero_le_one, fs 1, ff 1⟩
  have O' : Orderly { flatHalo v with density := 2 } := ⟨by norm_num, fs 2, ff 2⟩
  have A : AtMost (1 / 2) (flatHalo v) { flatHalo v with density := 2 } :=
    ⟨rfl, le_rfl, fun u _ _ => by simp [flatHalo], fun u _ _ => ⟨1, 1, rfl, rfl, by norm_num [flatHalo]⟩⟩
  have hev : (0 : ℝ) < 1 / 10 ^ 6 * U.eV := by have := U.eV_pos; positivity
  have P : ∀ ρ, 0 ≤ ρ → Proper U T.integrate { flatHalo v with density := ρ } (hydrogenTarget U) (binnedHydrogen U).base [p] := fun ρ hρ => by
    have hspec : FallingSpectrum fun E => (hydrogenTarget U).dRdE U T.integrate (binnedHydrogen U).base E p { flatHalo v with density := ρ } :=
      C96_spectrum hI (hydrogen_isotopes U) hev rfl le_rfl (by simp [hydrogenTarget]) zero_le_one (.inr hlow) (by rw [hmass]; exact one_pos)
        hρ (by rw [hfd]; exact zero_le_one) (fun _ _ => ff ρ) (fs ρ)
    have t0 : (0 : ℝ) < (binnedHydrogen U).base.energyThreshold := one_pos
    have t1 : (binnedHydrogen U).base.energyThreshold ≤ (binnedHydrogen U).base.energyMax := by norm_num [binnedHydrogen, AnyDetector.base]
    exact
      { fractions := le_rfl
        composition := by simp [hydrogenTarget]
        tables := by simp [hydrogenTarget]
        flat := zero_le_one
        isotopes := hydrogen_isotopes U
        exposure := zero_le_one
        threshold := t0
        efficiencies := fun i hi => by
          have : (binnedHydrogen U).base.binEfficiencies = [1, 1] := rfl
          have hi : i < 2 := hi
          rw [this]
          interval_cases i <;> simp
        resolution := fun hc => absurd hc (not_le.2 hev)
        spectra := fun q hq => AntitoneOn.intervalIntegrable fun x hx y _ hxy => by
          rw [List.mem_singleton.1 hq]
          rw [Set.uIcc_of_le t1] at hx
          exact (FallingSpectrum.value hspec (t0.trans_le hx.1)).2.2 y hxy }
  obtain ⟨ss1, ss', k1, k2, k3, k4, k5⟩ := C117_bins (U := U) (by norm_num) A O O' hI (by rw [hmass]; exact one_pos) (by rw [hfd]; exact zero_le_one)
    (P 1 zero_le_one) (P 2 zero_le_two) hB hS.binned (show 2 + 1 < 2 ^ 32 by norm_num)
  have e : ss1 = ss := Outcome.ok.inj (k1.symm.trans hS.signal)
  subst e
  have hS' : SeesInBins U T { flatHalo v with density := 2 } (binnedHydrogen U) p 1 ss' :=
    ⟨hS.detector, hS.binned, hS.bins, hS.background, hS.particle, hS.parameter, hS.positive, k2, k4, fun i hi => by
      have := hS.visible i hi
      have := k5 i hi
      linarith⟩
  exact ⟨_, _, p, _, _, A, hS, hS', fun cert r r' g1 g2 z1 z2 => C117_limit_binned hR hS hS' k5 g1 g2 z1 z2⟩

/-- Non-vacuity: electrons of the Migdal effect in standard halos with escape velocities 7 and 8. -/
example (hI : T.integrate.Exact) : ∃ (k : ℝ) (p : DMParticle) (d : Detector) (x : IonizationDetector), ProperMigdal U d x p ∧ x.atoms ≠ [] ∧ ∀ s s',
    ((AnyDetector.migdal d x).toClass U T (Distribution.ofSHM SHM.sample)).signalsTotal d p = .ok s →
    ((AnyDetector.migdal d x).toClass U T (Distribution.ofSHM (SHM.makeSpeed 1 2 3 8))).signalsTotal d p = .ok s' → s ≤ k * s' := by
  obtain ⟨k, hk, A, O, O'⟩ := two_halos (rho := 1) (e := 8) one_pos (by norm_num)
  obtain ⟨p, p₁, p₂, d, x, hR, h1, h2, hP, hx, ⟨ha, ht⟩, -⟩ := migdal_sample (U := U) hI
  have hb := reachable_inv hR
  obtain ⟨-, -, -, e2, -⟩ := setMass_couplings hb h1 h2 one_pos (by norm_num)
  have q2 : p₂.mass = 3 ∧ p₂.useEtaFunction = true := by rw [e2]; exact ⟨rfl, hb.eta⟩
  have hv : 0 < (Distribution.ofSHM SHM.sample).vMax := by
    show 0 < SHM.sample.vMax
    norm_num [SHM.sample, SHM.makeSpeed, SHM.normalize]
  exact ⟨k, p₂, d, x, hP, hx, (C117_migdal_events hk A O O' hI rfl hv hP q2.2 (by rw [q2.1]; norm_num)).1 ha ht⟩

/-- Non-vacuity: electrons from hydrogen in two standard halos that end at the same speed, one with twice the density of the other one. -/
example (hI : T.integrate.Exact) : ∃ (k : ℝ) (p : DMParticle) (d : Detector) (x : IonizationDetector), ProperShells U d x ∧ x.atoms ≠ [] ∧ Reachable U p ∧ ∀ s s',
    ((AnyDetector.electronRecoil d x).toClass U T (Distribution.ofSHM SHM.sample)).signalsTotal d p = .ok s →
    ((AnyDetector.electronRecoil d x).toClass U T (Distribution.ofSHM (SHM.makeSpeed 2 2 3 7))).signalsTotal d p = .ok s' → s ≤ k * s' := by
  obtain ⟨k, hk, A, O, O'⟩ := two_halos (rho := 2) (e := 7) two_pos le_rfl
  obtain ⟨c, hc0, hc, hmk, _⟩ := makeSI_eq (U := U) (m := 1) (s := 1) one_pos zero_le_one
  set p := { DMParticle.standard U 1 1 (.SI .contact (U.aEM * U.mElectron) 0) with fp := c, fn := c }
  have hR : Reachable U p := ⟨_, [], makeSI_built one_pos hmk, by simp, rfl⟩
  set a : Atom := { nucleus := { name := "H", Z := some 1, isotopes := [sampleIsotope] }, electrons := [sampleShell], W := 1 }
  set x : IonizationDetector := { IonizationDetector.initial [a] [1] with usingElectronThreshold := true, neThreshold := 1, neMax := 3 }
  have hP : ProperShells U (Detector.make "H" 1 "Electrons") x :=
    { fractions := by simp [x, IonizationDetector.initial]
      exposure := zero_le_one
      flat := zero_le_one
      efficiencies := by simp [Detector.make]
      masses := by
        intro b hb
        have hb : b = a := by simpa [x, IonizationDetector.initial] using hb
        subst hb
        norm_num [a, Nucleus.averageMass, sampleIsotope]
      bound := by simp [x, IonizationDetector.initial, a, sampleShell]
      formFactors := by
        intro b hb e he q E
        have hb : b = a := by simpa [x, IonizationDetector.initial] using hb
        subst hb
        have he : e = sampleShell := by simpa [a] using he
        subst he
        rw [sampleShell_formFactor]
        split_ifs
        · exact le_rfl
        · exact zero_le_one
        · exact mul_self_nonneg q
      grid := by
        intro b hb e he
        have hb : b = a := by simpa [x, IonizationDetector.initial] using hb
        subst hb
        have he : e = sampleShell := by simpa [a] using he
        subst he
        simp [sampleShell] }
  have hv : 0 < (Distribution.ofSHM SHM.sample).vMax := by
    show 0 < SHM.sample.vMax
    norm_num [SHM.sample, SHM.makeSpeed, SHM.normalize]
  have href : 0 ≤ p.sigmaElectron := by
    have := U.cm_pos
    show 0 ≤ (DMParticle.standard U 1 1 (.SI .contact (U.aEM * U.mElectron) 0)).sigmaElectron
    simp only [DMParticle.standard, DMParticle.sigmaElectron]
    positivity
  exact ⟨k, p, _, x, hP, by simp [x, IonizationDetector.initial], hR,
    (C117_electron_events hk A O O' hI rfl hv hP href (show (0 : ℝ) < 1 from one_pos)).1 (by simp [Detector.make]) rfl⟩

/-- Non-vacuity: a silicon detector that asks for two electron-hole pairs, in standard halos with escape velocities 7 and 8. -/
example (hI : T.integrate.Exact) : ∃ (k : ℝ) (p : DMParticle) (d : Detector) (cd : CrystalDetector) (s s' : ℝ), Reachable U p ∧
    (cd.toClass U T (Distribution.ofSHM SHM.sample)).signalsTotal d p = .ok s ∧
    (cd.toClass U T (Distribution.ofSHM (SHM.makeSpeed 1 2 3 8))).signalsTotal d p = .ok s' ∧ s ≤ k * s' := by
  obtain ⟨k, hk, A, O, O'⟩ := two_halos (rho := 1) (e := 8) one_pos (by norm_num)
  obtain ⟨x, hx0, hx, hmk, _⟩ := makeSI_eq (U := U) (m := 1) (s := 1) one_pos zero_le_one
  obtain ⟨c, hc, hname, hint⟩ := builtCrystal_exists U
  set p := { DMParticle.standard U 1 1 (.SI .contact (U.aEM * U.mElectron) 0) with fp := x, fn := x }
  have hR : Reachable U p := ⟨_, [], makeSI_built one_pos hmk, by simp, rfl⟩
  have hf := CrystalFacts.of_built hc
  have heps := hf.eps_pos
  have hgap := hf.gap_lt_eps
  have hp14 : c.pairsMax = 14 := (C43_qmax hc).2.1 hname
  have hgap0 : 0 < c.gap := by
    have := U.eV_pos
    rcases hf.target with ⟨_, h, _⟩ | ⟨_, h, _⟩ <;> rw [h] <;> positivity
  have htab : ∀ q E, 0 ≤ c.formFactor q E := fun q E => by
    unfold Crystal.formFactor
    split_ifs
    · exact le_rfl
    · rw [hint]; exact zero_le_one
  have href : 0 ≤ p.sigmaElectronRef := by
    have := U.cm_pos
    show 0 ≤ (DMParticle.standard U 1 1 (.SI .contact (U.aEM * U.mElectron) 0)).sigmaElectronRef
    simp only [DMParticle.standard]
    positivity
  set d := Detector.make "Si" 1 "Electrons"
  set cd : CrystalDetector := { crystal := c, usingQThreshold := none, usingQBins := none, qThreshold := none }
  have hP : ∀ h, ProperCrystal U T.integrate h (CrystalDetector.useQThreshold d cd 2).1 (CrystalDetector.useQThreshold d cd 2).2 [p] := fun h =>
    { built := hc
      table := htab
      exposure := zero_le_one
      flat := zero_le_one
      efficiencies := by simp [CrystalDetector.useQThreshold, Detector.initializePoisson, d, Detector.make]
      threshold := by
        show 0 < c.minimumElectronEnergy (toInt32 (2 : ℕ))
        rw [toInt32_small (by norm_num)]
        unfold Crystal.minimumElectronEnergy
        push_cast
        linarith
      window := by
        show c.minimumElectronEnergy (toInt32 (2 : ℕ)) ≤ c.minimumElectronEnergy (toInt32 c.pairsMax)
        rw [hp14, toInt32_small (by norm_num), toInt32_small (by norm_num)]
        unfold Crystal.minimumElectronEnergy
        push_cast
        linarith
      edges := by simp [CrystalDetector.useQThreshold, Detector.initializePoisson, d, Detector.make]
      pairs := by
        intro Q hQ
        simp only [CrystalDetector.useQThreshold, Option.some.injEq] at hQ
        subst hQ
        simp [CrystalDetector.useQThreshold, Detector.initializePoisson, d, Detector.make]
      spectra := by simp [CrystalDetector.useQThreshold, Detector.initializePoisson, d, Detector.make] }
  obtain ⟨r₁, r₂, e1, e2, -⟩ := (C117_crystal (Q := 2) hk A O O' hI hc htab href (show (0 : ℝ) < 1 from one_pos) (by norm_num) (by norm_num)).2.2
  have k1 := CrystalDetector.C38_crystal_q_threshold_partial (U := U) (T := T) (d := d) (cd := cd) (p := p) (h := Distribution.ofSHM SHM.sample) rfl (Q := 2) (by norm_num)
  have k2 := CrystalDetector.C38_crystal_q_threshold_partial (U := U) (T := T) (d := d) (cd := cd) (p := p) (h := Distribution.ofSHM (SHM.makeSpeed 1 2 3 8)) rfl (Q := 2) (by norm_num)
  rw [e1, Outcome.bind_ok] at k1
  rw [e2, Outcome.bind_ok] at k2
  exact ⟨k, p, (CrystalDetector.useQThreshold d cd 2).1, (CrystalDetector.useQThreshold d cd 2).2, _, _, hR, k1, k2, C117_crystal_events hk A O O' hI href (show (0 : ℝ) < 1 from one_pos) (hP _) (hP _) (by
    simp [CrystalDetector.useQThreshold, Detector.initializePoisson]) k1 k2⟩

end Obscura
