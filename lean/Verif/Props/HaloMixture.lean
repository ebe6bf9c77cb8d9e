import Verif.Lemmas.HaloMixture
import Verif.Props.HaloComparison
import Verif.Props.HaloPP
import Verif.Props.Density

/-!
# C118: results in a mixture of two halos
-/

namespace Obscura

open Spec NuclearDetector DMParticle MeasureTheory

variable {U : Units} {I : Integrator} {T : Tools} {p : DMParticle} {h h₁ h₂ : Distribution} {a b : ℝ} {iso : Isotope} {c : Crystal} {E : ℝ} {nd : NuclearDetector}
  {cd : CrystalDetector} {d : Detector} {x : IonizationDetector} {D : AnyDetector}

/-- C118 (recoils). If a halo consists of two others, so does the rate of nuclear recoils with any isotope. -/
theorem C118_recoils (A : HaloMixture a b h h₁ h₂) (p₁ : ProperSpeeds h₁) (p₂ : ProperSpeeds h₂) (hI : I.Exact) (hi : PhysicalIsotope iso) (hm : 0 < p.mass)
    (hE : 0 < E) : ∃ r r₁ r₂, dRdERIsotope U I E p h iso = .ok r ∧ dRdERIsotope U I E p h₁ iso = .ok r₁ ∧ dRdERIsotope U I E p h₂ iso = .ok r₂ ∧ r = a * r₁ + b * r₂ :=
  dRdERIsotope_mix A hI p₁ p₂ hi hm hE

theorem theoryRate_mix (A : HaloMixture a b h h₁ h₂) (p₁ : ProperSpeeds h₁) (p₂ : ProperSpeeds h₂) (hI : I.Exact) (hm : 0 < p.mass)
    (hlen : nd.nuclei.length ≤ nd.fractions.length) (hi : ∀ iso ∈ nd.isotopes, PhysicalIsotope iso) {ER : ℝ} (hE : 0 < ER) :
    OkMix a b (nd.theoryRate U I d E ER p h) (nd.theoryRate U I d E ER p h₁) (nd.theoryRate U I d E ER p h₂) := by
  have hiso : ∀ iso ∈ nd.isotopes, dRdERIsotope U I ER p h iso = .ok (dRdERIsotope U I ER p h iso).valueOr0 ∧
      dRdERIsotope U I ER p h₁ iso = .ok (dRdERIsotope U I ER p h₁ iso).valueOr0 ∧
      dRdERIsotope U I ER p h₂ iso = .ok (dRdERIsotope U I ER p h₂ iso).valueOr0 ∧
      (dRdERIsotope U I ER p h iso).valueOr0 = a * (dRdERIsotope U I ER p h₁ iso).valueOr0 + b * (dRdERIsotope U I ER p h₂ iso).valueOr0 := fun iso hx => by
    obtain ⟨r, r₁, r₂, e, e1, e2, hle⟩ := C118_recoils A p₁ p₂ (U := U) hI (hi iso hx) hm hE
    rw [e, e1, e2]
    exact ⟨rfl, rfl, rfl, hle⟩
  refine ⟨_, _, _, theoryRate_eq_of hlen fun iso hx => (hiso iso hx).1, theoryRate_eq_of hlen fun iso hx => (hiso iso hx).2.1,
    theoryRate_eq_of hlen fun iso hx => (hiso iso hx).2.2.1, ?_⟩
  rw [Finset.mul_sum, Finset.mul_sum, ← Finset.sum_add_distrib]
  refine Finset.sum_congr rfl fun i _ => ?_
  rw [sum_mix (a := a) (b := b) nd.nuclei[i].isotopes _ (fun iso => iso.abundance * (dRdERIsotope U I ER p h₁ iso).valueOr0)
    (fun iso => iso.abundance * (dRdERIsotope U I ER p h₂ iso).valueOr0) fun iso hx => by
      rw [(hiso iso (Obscura.NuclearDetector.mem_isotopes (nd := nd) (List.getElem_mem i.2) hx)).2.2.2]; ring]
  ring

/-- C118 (detectors). So does the recoil rate of a detector, at every observed energy. With a finite energy resolution the rates it is folded with must be
integrable. -/
theorem C118_rate (A : HaloMixture a b h h₁ h₂) (p₁ : ProperSpeeds h₁) (p₂ : ProperSpeeds h₂) (hI : I.Exact) (hm : 0 < p.mass)
    (hlen : nd.nuclei.length ≤ nd.fractions.length) (hi : ∀ iso ∈ nd.isotopes, PhysicalIsotope iso)
    (hE : 0 < E) (hwin : 1 / 10 ^ 6 * U.eV ≤ nd.resolution → d.energyThreshold ≤ E + 9 * nd.resolution ∧
      ∀ g ∈ [h₁, h₂], ∀ a b, 0 < a → IntervalIntegrable (fun ER => (nd.theoryRate U I d E ER p g).valueOr0) volume a b) :
    ∃ r r₁ r₂, nd.dRdE U I d E p h = .ok r ∧ nd.dRdE U I d E p h₁ = .ok r₁ ∧ nd.dRdE U I d E p h₂ = .ok r₂ ∧ r = a * r₁ + b * r₂ := by
  unfold NuclearDetector.dRdE
  by_cases hres : nd.resolution < 1 / 10 ^ 6 * U.eV
  · rw [if_pos hres, if_pos hres, if_pos hres]
    exact theoryRate_mix A p₁ p₂ hI hm hlen hi hE
  rw [if_neg hres, if_neg hres, if_neg hres]
  dsimp only
  have hσ : 0 < nd.resolution := lt_of_lt_of_le (by have := U.eV_pos; positivity) (not_lt.1 hres)
  obtain ⟨hw, hint⟩ := hwin (not_lt.1 hres)
  set lo := max (max (E - 6 * nd.resolution) (d.energyThreshold - 3 * nd.resolution)) (2 * nd.resolution)
  have ha : 0 < lo := lt_of_lt_of_le (by positivity) (le_max_right _ _)
  have hab : lo ≤ E + 6 * nd.resolution := max_le (max_le (by linarith) (by linarith)) (by linarith)
  have hg : ContinuousOn (fun ER => pdfGauss E ER nd.resolution) (Set.uIcc lo (E + 6 * nd.resolution)) := by
    unfold pdfGauss
    fun_prop
  refine ⟨_, _, _, rfl, rfl, rfl, ?_⟩
  rw [hI, hI, hI, ← intervalIntegral.integral_const_mul a, ← intervalIntegral.integral_const_mul b, ← intervalIntegral.integral_add
    (((hint h₁ (by simp) lo _ ha).continuousOn_mul hg).const_mul _) (((hint h₂ (by simp) lo _ ha).continuousOn_mul hg).const_mul _)]
  refine intervalIntegral.integral_congr fun ER hER => ?_
  rw [Set.uIcc_of_le hab] at hER
  obtain ⟨r, r₁, r₂, e, e1, e2, hle⟩ := theoryRate_mix (E := E) (d := d) (U := U) A p₁ p₂ hI hm hlen hi (ha.trans_le hER.1)
  rw [e, e1, e2]
  simp only [Outcome.valueOr0]
  rw [hle]
  ring

theorem spectrum_mix (A : HaloMixture a b h h₁ h₂) (p₁ : ProperSpeeds h₁) (p₂ : ProperSpeeds h₂) (hI : I.Exact) (hm : 0 < p.mass)
    (P₁ : Proper U I h₁ nd d [p]) (P₂ : Proper U I h₂ nd d [p]) {lo hi : ℝ} (h0 : d.energyThreshold ≤ lo) (h1 : lo ≤ hi) (h2 : hi ≤ d.energyMax) :
    (∫ E in lo..hi, (nd.dRdE U I d E p h).valueOr0) =
      a * (∫ E in lo..hi, (nd.dRdE U I d E p h₁).valueOr0) + b * ∫ E in lo..hi, (nd.dRdE U I d E p h₂).valueOr0 := by
  have sub : Set.uIcc lo hi ⊆ Set.uIcc d.energyThreshold d.energyMax := by
    rw [Set.uIcc_of_le h1, Set.uIcc_of_le (h0.trans (h1.trans h2))]
    exact Set.Icc_subset_Icc h0 h2
  rw [← intervalIntegral.integral_const_mul a, ← intervalIntegral.integral_const_mul b, ← intervalIntegral.integral_add
    (((P₁.spectra p (by simp)).mono_set sub).const_mul _) (((P₂.spectra p (by simp)).mono_set sub).const_mul _)]
  refine intervalIntegral.integral_congr fun E hE => ?_
  rw [Set.uIcc_of_le h1] at hE
  have hEt := h0.trans hE.1
  obtain ⟨r, r₁, r₂, e, e1, e2, hle⟩ := C118_rate (d := d) (U := U) A p₁ p₂ hI hm P₁.fractions P₁.isotopes (P₁.threshold.trans_le hEt)
    fun hres => ⟨by
      have : 0 < nd.resolution := lt_of_lt_of_le (by have := U.eV_pos; positivity) hres
      linarith, fun g hg a b ha => by
        rcases List.mem_cons.1 hg with rfl | hg
        · exact P₁.resolution hres p (by simp) E a b ha
        · rw [List.mem_singleton.1 hg]; exact P₂.resolution hres p (by simp) E a b ha⟩
  rw [e, e1, e2]
  exact hle

/-- C118 (bins). So do the events that a nuclear recoil detector expects in every bin. -/
theorem C118_bins (A : HaloMixture a b h h₁ h₂) (p₁ : ProperSpeeds h₁) (p₂ : ProperSpeeds h₂) (hI : T.integrate.Exact) (hm : 0 < p.mass)
    (P₁ : Proper U T.integrate h₁ nd d [p]) (P₂ : Proper U T.integrate h₂ nd d [p])
    (hb : BaseReachable d) (hd : d.analysis = .binnedPoisson) (hn : d.bins + 1 < 2 ^ 32) :
    ∃ ss ss₁ ss₂, (nd.toClass U T h).signalsBinned d p = .ok ss ∧ (nd.toClass U T h₁).signalsBinned d p = .ok ss₁ ∧
      (nd.toClass U T h₂).signalsBinned d p = .ok ss₂ ∧ ss.length = d.bins ∧ ∀ i < d.bins, ss.getD i 0 = a * ss₁.getD i 0 + b * ss₂.getD i 0 := by
  obtain ⟨ss, a1, a2, a3⟩ := C37_bin_signals (p := p) (C := nd.toClass U T h) hb hd hI hn
  obtain ⟨ss₁, b1, b2, b3⟩ := C37_bin_signals (p := p) (C := nd.toClass U T h₁) hb hd hI hn
  obtain ⟨ss₂, c1, c2, c3⟩ := C37_bin_signals (p := p) (C := nd.toClass U T h₂) hb hd hI hn
  refine ⟨ss, ss₁, ss₂, a1, b1, c1, a2, fun i hlt => ?_⟩
  obtain ⟨-, -, f3, -⟩ := (Detector.baseReachable_inv hb).energies hd
  rw [a3 i hlt, b3 i hlt, c3 i hlt]
  set w := (d.energyMax - d.energyThreshold) / d.bins
  have hbins : (0 : ℝ) < d.bins := Nat.cast_pos.2 (by omega)
  have hw : 0 ≤ w := div_nonneg (sub_nonneg.2 f3) (Nat.cast_nonneg _)
  have hedge : ∀ k : ℕ, binEdge d.energyThreshold d.energyMax d.bins k = d.energyThreshold + k * w := fun _ => rfl
  have hmax : d.energyThreshold + d.bins * w = d.energyMax := by
    simp only [w]
    field_simp
    ring
  rw [hedge, hedge]
  have l1 : d.energyThreshold + i * w ≤ d.energyThreshold + ((i + 1 : ℕ) : ℝ) * w := by push_cast; linarith
  have l0 : d.energyThreshold ≤ d.energyThreshold + i * w := le_add_of_nonneg_right (by positivity)
  have l2 : d.energyThreshold + ((i + 1 : ℕ) : ℝ) * w ≤ d.energyMax := by
    rw [← hmax]
    have : ((i + 1 : ℕ) : ℝ) ≤ d.bins := by exact_mod_cast hlt
    gcongr
  have := spectrum_mix A p₁ p₂ hI hm P₁ P₂ l0 l1 l2
  rw [show (∫ E in d.energyThreshold + i * w..d.energyThreshold + ((i + 1 : ℕ) : ℝ) * w, (nd.toClass U T h).dRdE d E p) = _ from this]
  show _ = a * (_ * (_ * ∫ E in d.energyThreshold + i * w..d.energyThreshold + ((i + 1 : ℕ) : ℝ) * w, (nd.dRdE U T.integrate d E p h₁).valueOr0)) +
    b * (_ * (_ * ∫ E in d.energyThreshold + i * w..d.energyThreshold + ((i + 1 : ℕ) : ℝ) * w, (nd.dRdE U T.integrate d E p h₂).valueOr0))
  ring

/-- C118 (counted recoils). So do the recoils counted above a threshold, if the interpolation of the three spectra by 200 points is exact. -/
theorem C118_counting_partial (A : HaloMixture a b h h₁ h₂) (p₁ : ProperSpeeds h₁) (p₂ : ProperSpeeds h₂) (hI : T.integrate.Exact) (hm : 0 < p.mass)
    (P₁ : Proper U T.integrate h₁ nd d [p]) (P₂ : Proper U T.integrate h₂ nd d [p]) (hw : d.energyThreshold ≤ d.energyMax) (hd : d.analysis ≠ .binnedPoisson)
    (hT : ∀ g ∈ [h, h₁, h₂], T.interpolationIntegral (logSpace d.energyThreshold d.energyMax 200)
      ((logSpace d.energyThreshold d.energyMax 200).map fun E => (nd.toClass U T g).dRdE d E p) d.energyThreshold d.energyMax =
      ∫ E in d.energyThreshold..d.energyMax, (nd.toClass U T g).dRdE d E p) :
    ∃ s s₁ s₂, (nd.toClass U T h).signalsTotal d p = .ok s ∧ (nd.toClass U T h₁).signalsTotal d p = .ok s₁ ∧ (nd.toClass U T h₂).signalsTotal d p = .ok s₂ ∧
      s = a * s₁ + b * s₂ := by
  have ht := P₁.threshold
  have total : ∀ g ∈ [h, h₁, h₂], (nd.toClass U T g).signalsTotal d p = .ok (d.exposure * ∫ E in d.energyThreshold..d.energyMax, (nd.dRdE U T.integrate d E p g).valueOr0) :=
    fun g hg => by
      show d.baseSignalsTotal T _ _ = _
      unfold Detector.baseSignalsTotal
      rw [if_neg hd, if_neg (by push Not; exact ⟨ht, ht.trans_le hw⟩)]
      dsimp only
      exact congrArg (fun z => Outcome.ok (d.exposure * z)) (hT g hg)
  refine ⟨_, _, _, total h (by simp), total h₁ (by simp), total h₂ (by simp), ?_⟩
  rw [spectrum_mix A p₁ p₂ hI hm P₁ P₂ le_rfl hw le_rfl]
  ring

/-- C118 (crystals). So do the spectra of electrons in a crystal and the rates of events with `Q` or with at least `Q` electron-hole pairs. -/
theorem C118_crystal (A : HaloMixture a b h h₁ h₂) (p₁ : ProperSpeeds h₁) (p₂ : ProperSpeeds h₂) (hI : I.Exact) (hc : BuiltCrystal U c)
    (hcf : ∀ q E, 0 ≤ c.formFactor q E) (hr : 0 ≤ p.sigmaElectronRef) (hm : 0 < p.mass) {Q : ℕ} (hQ : 1 ≤ Q) (hQ' : Q ≤ 50000000) :
    (∀ E, 0 < E → ∃ r r₁ r₂, dRdEeCrystal U I E p h c = .ok r ∧ dRdEeCrystal U I E p h₁ c = .ok r₁ ∧ dRdEeCrystal U I E p h₂ c = .ok r₂ ∧ r = a * r₁ + b * r₂) ∧
    (∃ r r₁ r₂, rQCrystal U I Q p h c = .ok r ∧ rQCrystal U I Q p h₁ c = .ok r₁ ∧ rQCrystal U I Q p h₂ c = .ok r₂ ∧ r = a * r₁ + b * r₂) ∧
    ∃ r r₁ r₂, rTotalCrystal U I Q p h c = .ok r ∧ rTotalCrystal U I Q p h₁ c = .ok r₁ ∧ rTotalCrystal U I Q p h₂ c = .ok r₂ ∧ r = a * r₁ + b * r₂ := by
  have h0 : ∀ E, 0 < E → OkMix a b (dRdEeCrystal U I E p h c) (dRdEeCrystal U I E p h₁ c) (dRdEeCrystal U I E p h₂ c) := fun E hE =>
    dRdEeCrystal_mix A hI p₁ p₂ hc (fun q => hcf q E) hr hm hE
  have hd := (CrystalFacts.of_built hc).dE_pos
  have hg : ∀ j, 0 < gridEnergy c j := fun j => by unfold gridEnergy; positivity
  have key : ∀ j, dRdEeCrystal U I (gridEnergy c j) p h c = .ok (dRdEeCrystal U I (gridEnergy c j) p h c).valueOr0 ∧
      dRdEeCrystal U I (gridEnergy c j) p h₁ c = .ok (dRdEeCrystal U I (gridEnergy c j) p h₁ c).valueOr0 ∧
      dRdEeCrystal U I (gridEnergy c j) p h₂ c = .ok (dRdEeCrystal U I (gridEnergy c j) p h₂ c).valueOr0 ∧
      (dRdEeCrystal U I (gridEnergy c j) p h c).valueOr0 = a * (dRdEeCrystal U I (gridEnergy c j) p h₁ c).valueOr0 +
        b * (dRdEeCrystal U I (gridEnergy c j) p h₂ c).valueOr0 := fun j => by
    obtain ⟨r, r₁, r₂, e, e1, e2, hle⟩ := h0 _ (hg j)
    rw [e, e1, e2]
    exact ⟨rfl, rfl, rfl, hle⟩
  have sums : ∀ cond : ℝ → Prop, gridSum c (fun E => (dRdEeCrystal U I E p h c).valueOr0) cond =
      a * gridSum c (fun E => (dRdEeCrystal U I E p h₁ c).valueOr0) cond + b * gridSum c (fun E => (dRdEeCrystal U I E p h₂ c).valueOr0) cond := fun cond => by
    unfold gridSum
    rw [Finset.mul_sum, Finset.mul_sum, ← Finset.sum_add_distrib]
    refine Finset.sum_congr rfl fun j _ => ?_
    dsimp only
    rw [(key j).2.2.2]
    ring
  obtain ⟨a1, a2⟩ := C44_contents (rate := fun E => (dRdEeCrystal U I E p h c).valueOr0) hc hQ hQ' fun j _ => (key j).1
  obtain ⟨b1, b2⟩ := C44_contents (rate := fun E => (dRdEeCrystal U I E p h₁ c).valueOr0) hc hQ hQ' fun j _ => (key j).2.1
  obtain ⟨c1, c2⟩ := C44_contents (rate := fun E => (dRdEeCrystal U I E p h₂ c).valueOr0) hc hQ hQ' fun j _ => (key j).2.2.1
  exact ⟨h0, ⟨_, _, _, a1, b1, c1, sums _⟩, ⟨_, _, _, a2, b2, c2, sums _⟩⟩

theorem crystal_window_mix (A : HaloMixture a b h h₁ h₂) (p₁ : ProperSpeeds h₁) (p₂ : ProperSpeeds h₂) (hI : I.Exact) (hr : 0 ≤ p.sigmaElectronRef) (hm : 0 < p.mass)
    (P₁ : ProperCrystal U I h₁ d cd [p]) (P₂ : ProperCrystal U I h₂ d cd [p])
    (hw : d.usingEnergyThreshold = true ∨ d.analysis = .maximumGap ∨ d.usingEnergyBins = true) {lo hi : ℝ} (h0 : 0 < lo) (h1 : lo ≤ hi) :
    I (fun E => (cd.dRdE U I d E p h).valueOr0) lo hi =
      a * I (fun E => (cd.dRdE U I d E p h₁).valueOr0) lo hi + b * I (fun E => (cd.dRdE U I d E p h₂).valueOr0) lo hi := by
  rw [hI, hI, hI, ← intervalIntegral.integral_const_mul a, ← intervalIntegral.integral_const_mul b, ← intervalIntegral.integral_add
    ((P₁.spectra hw p (by simp) lo hi h0).const_mul _) ((P₂.spectra hw p (by simp) lo hi h0).const_mul _)]
  refine intervalIntegral.integral_congr fun E hE => ?_
  rw [Set.uIcc_of_le h1] at hE
  obtain ⟨r, r₁, r₂, e, e1, e2, hle⟩ := dRdEeCrystal_mix A hI p₁ p₂ P₁.built (fun q => P₁.table q E) hr hm (h0.trans_le hE.1)
  unfold CrystalDetector.dRdE
  rw [e, e1, e2]
  show d.flatEfficiency * r = a * (d.flatEfficiency * r₁) + b * (d.flatEfficiency * r₂)
  rw [hle]
  ring

/-- C118 (events in crystals). So do the events expected by a semiconductor detector, with a threshold in the energy or in the number of electron-hole
pairs. -/
theorem C118_crystal_events (A : HaloMixture a b h h₁ h₂) (p₁ : ProperSpeeds h₁) (p₂ : ProperSpeeds h₂) (hI : T.integrate.Exact) (hr : 0 ≤ p.sigmaElectronRef)
    (hm : 0 < p.mass) (P₁ : ProperCrystal U T.integrate h₁ d cd [p]) (P₂ : ProperCrystal U T.integrate h₂ d cd [p]) (ha : d.analysis ≠ .binnedPoisson) {s s₁ s₂ : ℝ}
    (g : (cd.toClass U T h).signalsTotal d p = .ok s) (g1 : (cd.toClass U T h₁).signalsTotal d p = .ok s₁) (g2 : (cd.toClass U T h₂).signalsTotal d p = .ok s₂) :
    s = a * s₁ + b * s₂ := by
  have g : cd.signalsTotal U T d p h = .ok s := g
  have g1 : cd.signalsTotal U T d p h₁ = .ok s₁ := g1
  have g2 : cd.signalsTotal U T d p h₂ = .ok s₂ := g2
  unfold CrystalDetector.signalsTotal at g g1 g2
  rw [if_neg ha] at g g1 g2
  split_ifs at g g1 g2 with hthr
  · cases g
    cases g1
    cases g2
    rw [crystal_window_mix A p₁ p₂ hI hr hm P₁ P₂ (by tauto) P₁.threshold P₁.window]
    ring
  · obtain ⟨u, hu, g⟩ := Outcome.bind_eq_ok.1 g
    rw [hu, Outcome.bind_ok] at g1 g2
    split_ifs at g g1 g2
    · obtain ⟨Q, hQ, g⟩ := Outcome.bind_eq_ok.1 g
      rw [hQ, Outcome.bind_ok] at g1 g2
      have hQ : cd.qThreshold = some Q := by
        cases hq : cd.qThreshold with
        | none => rw [hq] at hQ; simp [readMember] at hQ
        | some x => rw [hq] at hQ; simp only [readMember, Outcome.ok.injEq] at hQ; rw [hQ]
      obtain ⟨k1, k2⟩ := P₁.pairs Q hQ
      obtain ⟨r, r₁, r₂, e, e1, e2, hle⟩ := (C118_crystal A p₁ p₂ hI P₁.built P₁.table hr hm k1 (by omega)).2.2
      rw [toInt32_small (by omega)] at g g1 g2
      rw [e] at g
      rw [e1] at g1
      rw [e2] at g2
      cases g
      cases g1
      cases g2
      rw [hle]
      ring
    · cases g
      cases g1
      cases g2
      simp

/-- C118 (bins in crystals). So do the events it expects in every bin of the energy or of the number of electron-hole pairs. -/
theorem C118_crystal_bins (A : HaloMixture a b h h₁ h₂) (p₁ : ProperSpeeds h₁) (p₂ : ProperSpeeds h₂) (hI : T.integrate.Exact) (hr : 0 ≤ p.sigmaElectronRef)
    (hm : 0 < p.mass) (P₁ : ProperCrystal U T.integrate h₁ d cd [p]) (P₂ : ProperCrystal U T.integrate h₂ d cd [p]) {ss ss₁ ss₂ : List ℝ}
    (g : (cd.toClass U T h).signalsBinned d p = .ok ss) (g1 : (cd.toClass U T h₁).signalsBinned d p = .ok ss₁)
    (g2 : (cd.toClass U T h₂).signalsBinned d p = .ok ss₂) (i : ℕ) : ss.getD i 0 = a * ss₁.getD i 0 + b * ss₂.getD i 0 := by
  have g : cd.signalsBinned U T d p h = .ok ss := g
  have g1 : cd.signalsBinned U T d p h₁ = .ok ss₁ := g1
  have g2 : cd.signalsBinned U T d p h₂ = .ok ss₂ := g2
  unfold CrystalDetector.signalsBinned at g g1 g2
  split_ifs at g g1 g2 with hb he
  · unfold Detector.signalsEnergyBins at g g1 g2
    split_ifs at g g1 g2
    refine (collect_mix (fun j _ => ?_) g g1 g2).1 i
    refine Mix.after fun lo hlo => Mix.after fun hi hhi => Mix.after fun e hef => ?_
    intro x y z hx hy hz
    cases hx
    cases hy
    cases hz
    obtain ⟨l0, l1⟩ := P₁.edges j lo hi (vecGet_some hlo) (vecGet_some hhi)
    have := crystal_window_mix A p₁ p₂ hI hr hm P₁ P₂ (.inr (.inr he)) l0 l1
    show e * (d.exposure * T.integrate (fun E => (cd.dRdE U T.integrate d E p h).valueOr0) lo hi) =
      a * (e * (d.exposure * T.integrate (fun E => (cd.dRdE U T.integrate d E p h₁).valueOr0) lo hi)) +
      b * (e * (d.exposure * T.integrate (fun E => (cd.dRdE U T.integrate d E p h₂).valueOr0) lo hi))
    rw [this]
    ring
  · obtain ⟨u, hu, g⟩ := Outcome.bind_eq_ok.1 g
    rw [hu, Outcome.bind_ok] at g1 g2
    split_ifs at g g1 g2 with hu'
    subst hu'
    unfold CrystalDetector.signalsQBins at g g1 g2
    rw [hu, Outcome.bind_ok, if_neg (by simp)] at g g1 g2
    obtain ⟨Q, hQ, g⟩ := Outcome.bind_eq_ok.1 g
    rw [hQ, Outcome.bind_ok] at g1 g2
    have hQ : cd.qThreshold = some Q := by
      cases hq : cd.qThreshold with
      | none => rw [hq] at hQ; simp [readMember] at hQ
      | some x => rw [hq] at hQ; simp only [readMember, Outcome.ok.injEq] at hQ; rw [hQ]
    obtain ⟨k1, k2⟩ := P₁.pairs Q hQ
    refine (collect_mix (fun j hj => ?_) g g1 g2).1 i
    have hj : Q ≤ j ∧ j ≤ 50000000 := by
      rw [List.mem_range'_1, Nat.mod_eq_of_lt (by omega)] at hj
      omega
    refine Mix.after fun e hef => ?_
    intro x y z hx hy hz
    obtain ⟨r, r₁, r₂, e0, e1, e2, hle⟩ := (C118_crystal A p₁ p₂ hI P₁.built P₁.table hr hm (k1.trans hj.1) hj.2).2.1
    rw [toInt32_small (by omega)] at hx hy hz
    rw [e0] at hx
    rw [e1] at hy
    rw [e2] at hz
    cases hx
    cases hy
    cases hz
    rw [hle]
    ring

/-- C118 (electrons of an atom). So do the spectra of electrons from every shell of an atom. -/
theorem C118_electrons (A : HaloMixture a b h h₁ h₂) (p₁ : ProperSpeeds h₁) (p₂ : ProperSpeeds h₂) (hI : I.Exact) (hv0 : 0 < h.vMax) {n : Nucleus}
    {e : AtomicElectron} (hB : 0 < e.binding) (hm : 0 < p.mass) (hE : 0 < E) :
    ∃ r r₁ r₂, shellRateER U I h d E p n e = .ok r ∧ shellRateER U I h₁ d E p n e = .ok r₁ ∧ shellRateER U I h₂ d E p n e = .ok r₂ ∧ r = a * r₁ + b * r₂ :=
  OkMix.times _ (dRdEeER_mix A hv0 hI p₁ p₂ hB hm hE)

/-- C118 (electrons of the Migdal effect). So do the spectra of electrons of the Migdal effect. -/
theorem C118_migdal (A : HaloMixture a b h h₁ h₂) (g₁ : FallingEta h₁) (g₂ : FallingEta h₂) (hI : I.Exact) (hu : h.useEta = true) (hv0 : 0 < h.vMax)
    (hP : ProperMigdal U d x p) {at' : Atom} (ha : at' ∈ x.atoms) {e : AtomicElectron} (he : e ∈ at'.electrons) (hp : p.useEtaFunction = true) (hm : 0 < p.mass)
    (hE : 0 < E) : ∃ r r₁ r₂, shellRateMigdal U I h d E p at'.nucleus e = .ok r ∧ shellRateMigdal U I h₁ d E p at'.nucleus e = .ok r₁ ∧
      shellRateMigdal U I h₂ d E p at'.nucleus e = .ok r₂ ∧ r = a * r₁ + b * r₂ := by
  refine ⟨_, _, _, rfl, rfl, rfl, ?_⟩
  unfold dRdEeMigdal
  rw [← List.foldl_map (f := fun iso : Isotope => iso.abundance * dRdEeMigdalIsotope U I E p h iso e), foldl_add_eq_sum,
    ← List.foldl_map (f := fun iso : Isotope => iso.abundance * dRdEeMigdalIsotope U I E p h₁ iso e), foldl_add_eq_sum,
    ← List.foldl_map (f := fun iso : Isotope => iso.abundance * dRdEeMigdalIsotope U I E p h₂ iso e), foldl_add_eq_sum,
    sum_mix (a := a) (b := b) at'.nucleus.isotopes _ (fun iso => iso.abundance * dRdEeMigdalIsotope U I E p h₁ iso e)
      (fun iso => iso.abundance * dRdEeMigdalIsotope U I E p h₂ iso e) fun iso hx => by
        rw [migdal_mix A hI g₁ g₂ hu hv0 hp hm (hP.isotopes at' ha iso hx) (hP.bound at' ha e he) hE (hP.integrable at' ha e he iso hx E hE)]; ring]
  ring

theorem ionization_total_mix {S S₁ S₂ : ShellRate} (hS : MixShells U x a b (fun E n e => S d E p n e) (fun E n e => S₁ d E p n e) fun E n e => S₂ d E p n e)
    (ha : d.analysis ≠ .binnedPoisson) (hx : x.usingElectronThreshold = true) {s s₁ s₂ : ℝ} (g : x.signalsTotal U S T d p h = .ok s)
    (g1 : x.signalsTotal U S₁ T d p h₁ = .ok s₁) (g2 : x.signalsTotal U S₂ T d p h₂ = .ok s₂) : s = a * s₁ + b * s₂ := by
  unfold IonizationDetector.signalsTotal at g g1 g2
  rw [if_neg ha, if_pos hx] at g g1 g2
  exact Mix.sumOver (fun ne _ => Mix.times _ (rNe_mix hS ne)) s s₁ s₂ g g1 g2

theorem ionization_bins_mix {S S₁ S₂ : ShellRate} (hS : MixShells U x a b (fun E n e => S d E p n e) (fun E n e => S₁ d E p n e) fun E n e => S₂ d E p n e)
    (he : d.usingEnergyBins = false) (hx : x.usingElectronBins = true) {ss ss₁ ss₂ : List ℝ} (g : x.signalsBinned U S T d p h = .ok ss)
    (g1 : x.signalsBinned U S₁ T d p h₁ = .ok ss₁) (g2 : x.signalsBinned U S₂ T d p h₂ = .ok ss₂) (i : ℕ) : ss.getD i 0 = a * ss₁.getD i 0 + b * ss₂.getD i 0 := by
  unfold IonizationDetector.signalsBinned IonizationDetector.signalsElectronBins at g g1 g2
  by_cases hb : d.analysis ≠ .binnedPoisson
  · rw [if_pos hb] at g
    cases g
  rw [if_neg hb, if_neg (by simp [he]), if_pos hx, if_neg (by simp [hx])] at g g1 g2
  refine (collect_mix (fun j _ => ?_) g g1 g2).1 i
  intro y z w hy hz hw
  obtain ⟨r, k0, hy⟩ := Outcome.bind_eq_ok.1 hy
  obtain ⟨r₁, k1, hz⟩ := Outcome.bind_eq_ok.1 hz
  obtain ⟨r₂, k2, hw⟩ := Outcome.bind_eq_ok.1 hw
  obtain ⟨f, hf, hy⟩ := Outcome.bind_eq_ok.1 hy
  rw [hf, Outcome.bind_ok] at hz hw
  cases hy
  cases hz
  cases hw
  rw [rNe_mix hS _ _ _ _ k0 k1 k2]
  ring

/-- C118 (events with electrons). So do the events expected by a detector that counts electrons from atoms, all together and in bins of the number of
electrons. -/
theorem C118_electron_events (A : HaloMixture a b h h₁ h₂) (p₁ : ProperSpeeds h₁) (p₂ : ProperSpeeds h₂) (hI : T.integrate.Exact) (hv0 : 0 < h.vMax)
    (hP : ProperShells U d x) (hm : 0 < p.mass) :
    (d.analysis ≠ .binnedPoisson → x.usingElectronThreshold = true → ∀ s s₁ s₂, ((AnyDetector.electronRecoil d x).toClass U T h).signalsTotal d p = .ok s →
      ((AnyDetector.electronRecoil d x).toClass U T h₁).signalsTotal d p = .ok s₁ →
      ((AnyDetector.electronRecoil d x).toClass U T h₂).signalsTotal d p = .ok s₂ → s = a * s₁ + b * s₂) ∧
    (d.usingEnergyBins = false → x.usingElectronBins = true → ∀ ss ss₁ ss₂, ((AnyDetector.electronRecoil d x).toClass U T h).signalsBinned d p = .ok ss →
      ((AnyDetector.electronRecoil d x).toClass U T h₁).signalsBinned d p = .ok ss₁ →
      ((AnyDetector.electronRecoil d x).toClass U T h₂).signalsBinned d p = .ok ss₂ → ∀ i, ss.getD i 0 = a * ss₁.getD i 0 + b * ss₂.getD i 0) :=
  have hS : MixShells U x a b (fun E n e => shellRateER U T.integrate h d E p n e) (fun E n e => shellRateER U T.integrate h₁ d E p n e)
      fun E n e => shellRateER U T.integrate h₂ d E p n e := fun at' ha e he q hq => by
    have hq := (hP.grid at' ha e he).2 q hq
    have hE : 0 < q * q / 2 / U.mElectron := by have := U.mElectron_pos; positivity
    exact OkMix.mix (C118_electrons A p₁ p₂ hI hv0 (hP.bound at' ha e he) hm hE)
  ⟨fun ha hx _ _ _ g g1 g2 => ionization_total_mix (S := shellRateER U T.integrate h) (S₁ := shellRateER U T.integrate h₁)
      (S₂ := shellRateER U T.integrate h₂) hS ha hx g g1 g2,
    fun he hx _ _ _ g g1 g2 i => ionization_bins_mix (S := shellRateER U T.integrate h) (S₁ := shellRateER U T.integrate h₁)
      (S₂ := shellRateER U T.integrate h₂) hS he hx g g1 g2 i⟩

/-- C118 (events of the Migdal effect). So do the events expected by a detector that counts electrons of the Migdal effect. -/
theorem C118_migdal_events (A : HaloMixture a b h h₁ h₂) (g₁ : FallingEta h₁) (g₂ : FallingEta h₂) (hI : T.integrate.Exact) (hu : h.useEta = true)
    (hv0 : 0 < h.vMax) (hP : ProperMigdal U d x p) (hp : p.useEtaFunction = true) (hm : 0 < p.mass) :
    (d.analysis ≠ .binnedPoisson → x.usingElectronThreshold = true → ∀ s s₁ s₂, ((AnyDetector.migdal d x).toClass U T h).signalsTotal d p = .ok s →
      ((AnyDetector.migdal d x).toClass U T h₁).signalsTotal d p = .ok s₁ →
      ((AnyDetector.migdal d x).toClass U T h₂).signalsTotal d p = .ok s₂ → s = a * s₁ + b * s₂) ∧
    (d.usingEnergyBins = false → x.usingElectronBins = true → ∀ ss ss₁ ss₂, ((AnyDetector.migdal d x).toClass U T h).signalsBinned d p = .ok ss →
      ((AnyDetector.migdal d x).toClass U T h₁).signalsBinned d p = .ok ss₁ →
      ((AnyDetector.migdal d x).toClass U T h₂).signalsBinned d p = .ok ss₂ → ∀ i, ss.getD i 0 = a * ss₁.getD i 0 + b * ss₂.getD i 0) :=
  have hS : MixShells U x a b (fun E n e => shellRateMigdal U T.integrate h d E p n e) (fun E n e => shellRateMigdal U T.integrate h₁ d E p n e)
      fun E n e => shellRateMigdal U T.integrate h₂ d E p n e := fun at' ha e he q hq => by
    have hq := (hP.grid at' ha e he).2 q hq
    have hE : 0 < q * q / 2 / U.mElectron := by have := U.mElectron_pos; positivity
    exact OkMix.mix (C118_migdal A g₁ g₂ hI hu hv0 hP ha he hp hm hE)
  ⟨fun ha hx _ _ _ g g1 g2 => ionization_total_mix (S := shellRateMigdal U T.integrate h) (S₁ := shellRateMigdal U T.integrate h₁)
      (S₂ := shellRateMigdal U T.integrate h₂) hS ha hx g g1 g2,
    fun he hx _ _ _ g g1 g2 i => ionization_bins_mix (S := shellRateMigdal U T.integrate h) (S₁ := shellRateMigdal U T.integrate h₁)
      (S₂ := shellRateMigdal U T.integrate h₂) hS he hx g g1 g2 i⟩

/-- C118 (limits). Where the events in a halo consist of those in two others, the inverse of the limit does, too: for counting analyses with any detector,
whatever was observed and whatever background is expected. -/
theorem C118_limit {c c₁ c₂ cert s s₁ s₂ : ℝ} (hR : T.findRoot.Exact) (S : Sees U T h D p c s) (S₁ : Sees U T h₁ D p c₁ s₁) (S₂ : Sees U T h₂ D p c₂ s₂)
    (hs : s = a * s₁ + b * s₂) {r r₁ r₂ : Detector × DMParticle × ℝ} (g : D.base.upperLimit U T (D.toClass U T h) p cert = .ok r)
    (g1 : D.base.upperLimit U T (D.toClass U T h₁) p cert = .ok r₁) (g2 : D.base.upperLimit U T (D.toClass U T h₂) p cert = .ok r₂)
    (hx : 0 < r.2.2) (hx₁ : 0 < r₁.2.2) (hx₂ : 0 < r₂.2.2) : 1 / r.2.2 = a / r₁.2.2 + b / r₂.2.2 := by
  obtain rfl : c = c₁ := Outcome.ok.inj (S.parameter.symm.trans S₁.parameter)
  obtain rfl : c = c₂ := Outcome.ok.inj (S.parameter.symm.trans S₂.parameter)
  have k1 := C87_comparison S S₁ hR hR rfl rfl g g1 hx hx₁
  have k2 := C87_comparison S S₂ hR hR rfl rfl g g2 hx hx₂
  rw [mul_div_assoc', mul_div_assoc', div_left_inj' S.positive.ne'] at k1 k2
  have v := S.visible
  have e1 : a / r₁.2.2 = a * s₁ / (r.2.2 * s) := by
    rw [div_eq_div_iff hx₁.ne' (by positivity), k1]
    ring
  have e2 : b / r₂.2.2 = b * s₂ / (r.2.2 * s) := by
    rw [div_eq_div_iff hx₂.ne' (by positivity), k2]
    ring
  rw [e1, e2, ← add_div, ← hs]
  field_simp

/-- C118 (limits, weights). If the weights are shares that add up to one, as for the SHM++, the limit lies between the limits for the two components. -/
theorem C118_between {c c₁ c₂ cert s s₁ s₂ : ℝ} (hR : T.findRoot.Exact) (S : Sees U T h D p c s) (S₁ : Sees U T h₁ D p c₁ s₁) (S₂ : Sees U T h₂ D p c₂ s₂)
    (hs : s = a * s₁ + b * s₂) (ha : 0 ≤ a) (hb : 0 ≤ b) (hab : a + b = 1) {r r₁ r₂ : Detector × DMParticle × ℝ}
    (g : D.base.upperLimit U T (D.toClass U T h) p cert = .ok r)
    (g1 : D.base.upperLimit U T (D.toClass U T h₁) p cert = .ok r₁) (g2 : D.base.upperLimit U T (D.toClass U T h₂) p cert = .ok r₂)
    (hx : 0 < r.2.2) (hx₁ : 0 < r₁.2.2) (hx₂ : 0 < r₂.2.2) : min r₁.2.2 r₂.2.2 ≤ r.2.2 ∧ r.2.2 ≤ max r₁.2.2 r₂.2.2 := by
  have k := C118_limit hR S S₁ S₂ hs g g1 g2 hx hx₁ hx₂
  have hmin : 0 < min r₁.2.2 r₂.2.2 := lt_min hx₁ hx₂
  have hmax : 0 < max r₁.2.2 r₂.2.2 := hx₁.trans_le (le_max_left _ _)
  constructor
  · rw [← one_div_le_one_div hx hmin, k]
    calc a / r₁.2.2 + b / r₂.2.2 ≤ a / min r₁.2.2 r₂.2.2 + b / min r₁.2.2 r₂.2.2 :=
          add_le_add (div_le_div_of_nonneg_left ha hmin (min_le_left _ _)) (div_le_div_of_nonneg_left hb hmin (min_le_right _ _))
      _ = 1 / min r₁.2.2 r₂.2.2 := by rw [← add_div, hab]
  · rw [← one_div_le_one_div hmax hx, k]
    calc 1 / max r₁.2.2 r₂.2.2 = a / max r₁.2.2 r₂.2.2 + b / max r₁.2.2 r₂.2.2 := by rw [← add_div, hab]
      _ ≤ a / r₁.2.2 + b / r₂.2.2 := add_le_add (div_le_div_of_nonneg_left ha hx₁ (le_max_left _ _)) (div_le_div_of_nonneg_left hb hx₂ (le_max_right _ _))

/-- C118 (SHM++). A freshly constructed SHM++ whose anisotropic component has the share `e` consists of the standard halo with the same parameters, to the
share `1 - e`, and of the anisotropic component alone, to the share `e`. So all rates and expected events are this mixture. -/
theorem C118_sausage (N : Numerics) (hI : N.integrate2.Exact) (q : HaloPPParams) (hq : q.Physical) (ho : vnorm q.vel ≤ q.vesc) :
    HaloMixture (1 - q.e) q.e (Distribution.ofSHMpp N (q.fresh N)) (Distribution.ofSHM (SHM.makeVel q.rho q.v0 q.vel q.vesc))
      (Distribution.ofSHMpp N (({ q with e := 1 } : HaloPPParams).fresh N)) ∧
    ProperSpeeds (Distribution.ofSHM (SHM.makeVel q.rho q.v0 q.vel q.vesc)) ∧ ProperSpeeds (Distribution.ofSHMpp N (({ q with e := 1 } : HaloPPParams).fresh N)) := by
  obtain ⟨-, c2, -, c4⟩ := C20_combination N q
  obtain ⟨-, n2, -, n4⟩ := C20_no_sausage N ({ q with e := 0 } : HaloPPParams) rfl
  have n4 := n4 hq.1
  have w := fresh_wf N ({ q with e := 0 } : HaloPPParams) hq
  have int : ∀ q' : HaloPPParams, q'.Physical → vnorm q'.vel ≤ q'.vesc → ∀ x, IntervalIntegrable ((q'.fresh N).pdfSpeed N) volume 0 x := fun q' h' ho' x => by
    have i1 := pdf_intervalIntegrable (fresh_wf N q' h') ho' 0 x
    unfold SHM.pdfSpeed at i1
    exact (i1.const_mul _).add (((pdfSpeedS_props N hI q' h').2.1 0 x).const_mul _)
  refine ⟨⟨rfl, rfl, rfl, rfl, fun v _ _ => ?_, fun v hv _ => ?_⟩, ⟨fun v _ => ?_, ?_⟩, ⟨fun v _ => C59_nonneg N hI ({ q with e := 1 } : HaloPPParams) hq zero_le_one le_rfl ho v, int ({ q with e := 1 } : HaloPPParams) hq ho _⟩⟩
  · show q.rho * (q.fresh N).pdfSpeed N v = (1 - q.e) * (q.rho * (SHM.makeVel q.rho q.v0 q.vel q.vesc).pdfSpeed v) + q.e * (q.rho * _)
    rw [c2 v, ← n2]
    show _ = _ + q.e * (q.rho * (({ q with e := 1 } : HaloPPParams).fresh N).pdfSpeed N v)
    ring
  · obtain ⟨x, x₀, x₁, e, e0, e1, hx⟩ := c4 v hv
    rw [n4 v hv] at e0
    refine ⟨x, _, x₁, e, rfl, e1, ?_⟩
    cases e0
    show q.rho * x = (1 - q.e) * (q.rho * (SHM.makeVel q.rho q.v0 q.vel q.vesc).eta v) + q.e * (q.rho * x₁)
    rw [hx]
    ring
  · show 0 ≤ (SHM.makeVel q.rho q.v0 q.vel q.vesc).pdfSpeed v
    have := C59_nonneg N hI ({ q with e := 0 } : HaloPPParams) hq le_rfl zero_le_one ho v
    rwa [n2] at this
  · have := int ({ q with e := 0 } : HaloPPParams) hq ho (q.vesc + vnorm q.vel)
    rw [n2] at this
    exact this

/-- Non-vacuity: recoils of hydrogen in an SHM++ with the share 0.2 of the anisotropic component. -/
example (N : Numerics) (hN : N.integrate2.Exact) (hI : I.Exact) : ∃ q : HaloPPParams, q.e = 0.2 ∧ ∀ p : DMParticle, 0 < p.mass → ∀ E, 0 < E → ∃ r r₁ r₂,
    dRdERIsotope U I E p (Distribution.ofSHMpp N (q.fresh N)) (Isotope.default U) = .ok r ∧
    dRdERIsotope U I E p (Distribution.ofSHM (SHM.makeVel q.rho q.v0 q.vel q.vesc)) (Isotope.default U) = .ok r₁ ∧
    dRdERIsotope U I E p (Distribution.ofSHMpp N (({ q with e := 1 } : HaloPPParams).fresh N)) (Isotope.default U) = .ok r₂ ∧ r = (1 - 0.2) * r₁ + 0.2 * r₂ := by
  refine ⟨⟨⟨1, 2, ![0, 3, 0], 7⟩, 0.2, 0.9⟩, rfl, fun p hm E hE => ?_⟩
  obtain ⟨A, p₁, p₂⟩ := C118_sausage N hN ⟨⟨1, 2, ![0, 3, 0], 7⟩, 0.2, 0.9⟩ (by unfold HaloPPParams.Physical; norm_num) (by
    show vnorm ![0, 3, 0] ≤ 7
    rw [vnorm_y (by norm_num)]; norm_num)
  exact C118_recoils A p₁ p₂ hI (hydrogen_isotopes U _ (by simp [hydrogenTarget, NuclearDetector.isotopes])) hm hE

/-- Non-vacuity: a hydrogen detector in a halo, in another one with twice its density and in one that consists of both. -/
example (U : Units) {T : Tools} (hI : T.integrate.Homogeneous) (hT : T.interpolationIntegral = flatTools.interpolationIntegral) (hR : T.findRoot.Exact) :
    ∃ (h h₁ h₂ : Distribution) (p : DMParticle) (s s₁ s₂ : ℝ), HaloMixture 1 1 h h₁ h₂ ∧ Sees U T h (hydrogenDetector U) p 1 s ∧
    Sees U T h₁ (hydrogenDetector U) p 1 s₁ ∧ Sees U T h₂ (hydrogenDetector U) p 1 s₂ ∧ ∀ cert r r₁ r₂,
    (hydrogenDetector U).base.upperLimit U T ((hydrogenDetector U).toClass U T h) p cert = .ok r →
    (hydrogenDetector U).base.upperLimit U T ((hydrogenDetector U).toClass U T h₁) p cert = .ok r₁ →
    (hydrogenDetector U).base.upperLimit U T ((hydrogenDetector U).toClass U T h₂) p cert = .ok r₂ → 0 < r.2.2 → 0 < r₁.2.2 → 0 < r₂.2.2 →
    1 / r.2.2 = 1 / r₁.2.2 + 1 / r₂.2.2 := by
  obtain ⟨v, p, s, ⟨-, -, -, S⟩, -⟩ := sees_point U hT
  have hP : ∀ k xs (ys : List ℝ) x y, T.interpolationIntegral xs (ys.map fun z => k * z) x y = k * T.interpolationIntegral xs ys x y := fun k xs ys x y => by
    rw [hT]
    cases ys <;> simp [flatTools]
    ring
  have S' : ∀ k, 0 < k → Sees U T (denser k (flatHalo v)) (hydrogenDetector U) p 1 (k * s) := fun k hk => by
    have hs' := (C93_proportional (U := U) (T := T) (h := flatHalo v) (p := p) (k := k) (hydrogenDetector U) hI hP).2.1
    rw [S.signal, Outcome.bind_ok] at hs'
    exact ⟨S.detector, S.counting, S.background, S.particle, S.parameter, S.positive, hs', mul_pos hk S.visible⟩
  refine ⟨denser 3 (flatHalo v), flatHalo v, denser 2 (flatHalo v), p, 3 * s, s, 2 * s, ⟨rfl, rfl, rfl, rfl, fun u _ _ => ?_, fun u _ _ => ?_⟩,
    S' 3 (by norm_num), S, S' 2 (by norm_num), fun cert r r₁ r₂ g g1 g2 x x1 x2 => ?_⟩
  · simp only [denser]; ring
  · refine ⟨_, _, _, rfl, rfl, rfl, ?_⟩
    simp only [denser]; ring
  · simpa using C118_limit hR (S' 3 (by norm_num)) S (S' 2 (by norm_num)) (a := 1) (b := 1) (by ring) g g1 g2 x x1 x2

end Obscura
