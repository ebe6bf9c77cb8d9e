import Verif.Lemmas.ContinuousEvents
import Verif.Props.Continuity
import Verif.Props.LimitComparison
import Verif.Lemmas.Main

/-!
# Property C116 (continued): events and limits of detectors for nuclear recoils
-/

namespace Obscura

open Spec DMParticle MeasureTheory Filter Topology Set Interval

variable {U : Units} {I : Integrator} {T : Tools} {p : DMParticle} {h : Distribution} {iso : Isotope} {d : Detector} {nd : NuclearDetector} {q : ℝ → DMParticle}

/-- C116 (rates of nuclear detectors). At every energy the rate of a detector, with or without an energy resolution and efficiencies, depends continuously on
the mass. -/
theorem C116_rate (hI : I.Exact) (hp : Reachable U p) (hlen : nd.fractions.length = nd.nuclei.length) (hfr : ∀ x ∈ nd.fractions, 0 ≤ x)
    (heff : ∀ e ∈ nd.efficiencies, ∀ E, 0 ≤ e E ∧ e E ≤ 1) (hflat : 0 ≤ d.flatEfficiency) (hi : ∀ iso ∈ nd.isotopes, PhysicalIsotope iso)
    (hdens : 0 ≤ h.density) (hfd : 0 ≤ p.fractionalDensity) (hη : p.useEtaFunction = true → h.useEta = true → FallingEta h) (hf : ProperSpeeds h)
    (heta : p.useEtaFunction = true → h.useEta = true → ∀ v, 0 ≤ v → v ≤ h.vMax → EtaAt h v) {E : ℝ} (hE : 0 < E) :
    NoJumps (fun m => p.setMass U m >>= fun q => nd.dRdE U I d E q h) (Ioi 0) := by
  obtain ⟨r, h1, h2⟩ := dRdE_mass (d := d) hI hp hlen hfr heff hflat hi hdens hfd hη hf heta hE
  refine ⟨r, fun m hm => ?_, h2⟩
  show p.setMass U m >>= _ = _
  rw [setMass_ok (reachable_inv hp) hm, Outcome.bind_ok]
  exact h1 m hm

/-- C116 (bins). In every energy bin the expected number of events depends continuously on the mass. -/
theorem C116_bins (hI : T.integrate.Exact) (hp : Reachable U p) (hq : ∀ m, 0 < m → p.setMass U m = .ok (q m))
    (hlen : nd.fractions.length = nd.nuclei.length) (hP : ∀ m, 0 < m → Proper U T.integrate h nd d [q m]) (heff : ∀ e ∈ nd.efficiencies, ∀ E, e E ≤ 1)
    (hdens : 0 ≤ h.density) (hfd : 0 ≤ p.fractionalDensity) (hη : p.useEtaFunction = true → h.useEta = true → FallingEta h) (hf : ProperSpeeds h)
    (heta : p.useEtaFunction = true → h.useEta = true → ∀ v, 0 ≤ v → v ≤ h.vMax → EtaAt h v)
    (hb : BaseReachable d) (hd : d.analysis = .binnedPoisson) (hn : d.bins + 1 < 2 ^ 32) :
    ∃ events : ℝ → List ℝ, (∀ m, 0 < m → (nd.toClass U T h).signalsBinned d (q m) = .ok (events m) ∧ (events m).length = d.bins) ∧
      ∀ i < d.bins, ContinuousOn (fun m => (events m).getD i 0) (Ioi 0) := by
  have hbi := reachable_inv hp
  have hqw : ∀ m, 0 < m → q m = withMass U p m := fun m hm => Outcome.ok.inj ((hq m hm).symm.trans (setMass_ok hbi hm))
  have hP₁ := hP 1 one_pos
  have heff' : ∀ e ∈ nd.efficiencies, ∀ E, 0 ≤ e E ∧ e E ≤ 1 := fun e he E => ⟨hP₁.tables e he E, heff e he E⟩
  obtain ⟨B, B0, hB⟩ := dRdE_heavy (I := T.integrate) hI hp hP₁.fractions hP₁.composition heff' hP₁.flat hP₁.isotopes hdens hfd hη hf hP₁.threshold
  have hev : ∀ m, ∃ ss, 0 < m → (nd.toClass U T h).signalsBinned d (q m) = .ok ss ∧ ss.length = d.bins ∧ ∀ i < d.bins, ss.getD i 0 =
      d.binEfficiencies.getD i 0 * (d.exposure * ∫ E in (binEdge d.energyThreshold d.energyMax d.bins i)..(binEdge
        d.energyThreshold d.energyMax d.bins (i + 1)), (nd.toClass U T h).dRdE d E (q m)) := fun m => by
    obtain ⟨ss, a1, a2, a3⟩ := C37_bin_signals (p := q m) (C := nd.toClass U T h) hb hd hI hn
    exact ⟨ss, fun _ => ⟨a1, a2, a3⟩⟩
  choose events hev using hev
  refine ⟨events, fun m hm => ⟨(hev m hm).1, (hev m hm).2.1⟩, fun i hlt => ?_⟩
  refine ContinuousOn.congr (f := fun m => d.binEfficiencies.getD i 0 * (d.exposure * ∫ E in (binEdge d.energyThreshold d.energyMax d.bins i)..(binEdge
        d.energyThreshold d.energyMax d.bins (i + 1)), (nd.dRdE U T.integrate d E (withMass U p m) h).valueOr0)) ?_ fun m hm => ?_
  swap
  · rw [(hev m hm).2.2 i hlt, hqw m hm]
    rfl
  refine continuousOn_const.mul (continuousOn_const.mul fun m hm => ContinuousAt.continuousWithinAt ?_)
  have hm : 0 < m := hm
  obtain ⟨-, -, f3, -⟩ := (Detector.baseReachable_inv hb).energies hd
  set w := (d.energyMax - d.energyThreshold) / d.bins with hw
  have w0 : 0 ≤ w := div_nonneg (sub_nonneg.2 f3) (Nat.cast_nonneg _)
  have hedge : ∀ k : ℕ, binEdge d.energyThreshold d.energyMax d.bins k = d.energyThreshold + k * w := fun _ => rfl
  have hbins : (0 : ℝ) < d.bins := Nat.cast_pos.2 (by omega)
  have hmax : d.energyThreshold + d.bins * w = d.energyMax := by
    rw [hw]
    field_simp
    ring
  rw [hedge, hedge]
  have l1 : d.energyThreshold + i * w ≤ d.energyThreshold + ((i + 1 : ℕ) : ℝ) * w := by push_cast; linarith
  have l0 : d.energyThreshold ≤ d.energyThreshold + i * w := le_add_of_nonneg_right (by positivity)
  have l2 : d.energyThreshold + ((i + 1 : ℕ) : ℝ) * w ≤ d.energyMax := by
    rw [← hmax]
    have : ((i + 1 : ℕ) : ℝ) ≤ d.bins := by exact_mod_cast hlt
    have := mul_le_mul_of_nonneg_right this w0
    linarith
  have hsub : Ι (d.energyThreshold + i * w) (d.energyThreshold + ((i + 1 : ℕ) : ℝ) * w) ⊆ Ι d.energyThreshold d.energyMax := by
    rw [uIoc_of_le l1, uIoc_of_le f3]
    exact Ioc_subset_Ioc l0 l2
  have F := massFactor_pos (U := U) hm
  refine intervalIntegral.continuousAt_of_dominated_interval (bound := fun _ => B / (massFactor U m / 2)) ?_ ?_ intervalIntegrable_const ?_
  · filter_upwards [lt_mem_nhds hm] with x hx
    have := (hP x hx).spectra (q x) (by simp)
    rw [hqw x hx] at this
    exact (intervalIntegrable_iff.1 this).aestronglyMeasurable.mono_measure (Measure.restrict_mono hsub le_rfl)
  · filter_upwards [massFactor_below (U := U) hm] with x hx
    refine Eventually.of_forall fun E hE => ?_
    rw [uIoc_of_le l1] at hE
    have := hB x _ E hx.1 (setMass_ok hbi hx.1) (l0.trans hE.1.le)
    rw [Real.norm_eq_abs, le_div_iff₀ (by positivity)]
    have := mul_le_mul_of_nonneg_right hx.2.le (abs_nonneg (nd.dRdE U T.integrate d E (withMass U p x) h).valueOr0)
    linarith
  · refine Eventually.of_forall fun E hE => ?_
    rw [uIoc_of_le l1] at hE
    obtain ⟨r, h1, h2⟩ := dRdE_mass (d := d) hI hp hlen hP₁.composition heff' hP₁.flat hP₁.isotopes hdens hfd hη hf heta (hP₁.threshold.trans_le (l0.trans hE.1.le))
    refine (h2.continuousAt (Ioi_mem_nhds hm)).congr ?_
    filter_upwards [lt_mem_nhds hm] with x hx
    rw [h1 x hx]
    rfl

/-- The integral of an interpolation depends continuously on the interpolated values: an assumption on the library. -/
def ContinuousInterpolation (T : Tools) : Prop :=
  ∀ (xs : List ℝ) (f : ℝ → ℝ → ℝ) (a b : ℝ) (S : Set ℝ), (∀ x ∈ xs, ContinuousOn (f x) S) →
    ContinuousOn (fun m => T.interpolationIntegral xs (xs.map fun x => f x m) a b) S

/-- C116 (counting experiments). The number of events above the threshold of a counting experiment depends continuously on the mass. -/
theorem C116_counting (hI : T.integrate.Exact) (hT : ContinuousInterpolation T) (hp : Reachable U p) (hlen : nd.fractions.length = nd.nuclei.length)
    (hfr : ∀ x ∈ nd.fractions, 0 ≤ x) (heff : ∀ e ∈ nd.efficiencies, ∀ E, 0 ≤ e E ∧ e E ≤ 1) (hflat : 0 ≤ d.flatEfficiency)
    (hi : ∀ iso ∈ nd.isotopes, PhysicalIsotope iso) (hdens : 0 ≤ h.density) (hfd : 0 ≤ p.fractionalDensity)
    (hη : p.useEtaFunction = true → h.useEta = true → FallingEta h) (hf : ProperSpeeds h)
    (heta : p.useEtaFunction = true → h.useEta = true → ∀ v, 0 ≤ v → v ≤ h.vMax → EtaAt h v)
    (hd : d.analysis ≠ .binnedPoisson) (ht : 0 < d.energyThreshold) (hm : 0 < d.energyMax) :
    NoJumps (fun m => p.setMass U m >>= fun q => (nd.toClass U T h).signalsTotal d q) (Ioi 0) := by
  refine ⟨fun m => d.exposure * T.interpolationIntegral (logSpace d.energyThreshold d.energyMax 200)
    ((logSpace d.energyThreshold d.energyMax 200).map fun E => (nd.dRdE U T.integrate d E (withMass U p m) h).valueOr0) d.energyThreshold d.energyMax,
    fun m hm' => ?_, continuousOn_const.mul (hT _ (fun E m => (nd.dRdE U T.integrate d E (withMass U p m) h).valueOr0) _ _ _ fun E hE => ?_)⟩
  · show p.setMass U m >>= _ = _
    rw [setMass_ok (reachable_inv hp) hm', Outcome.bind_ok]
    show d.baseSignalsTotal T _ _ = _
    unfold Detector.baseSignalsTotal
    rw [if_neg hd, if_neg (by push Not; exact ⟨ht, hm⟩)]
  · have hE0 : 0 < E := logSpace_mem_pos ht hm hE
    obtain ⟨r, h1, h2⟩ := dRdE_mass (d := d) hI hp hlen hfr heff hflat hi hdens hfd hη hf heta hE0
    refine h2.congr fun m hm => ?_
    rw [h1 m hm]
    rfl

/-- C116 (limits of counting experiments). On every set of masses on which it sees the particle, the limits of a counting experiment are those of one
continuous curve, as long as they are in the range of interaction parameters that is searched. -/
theorem C116_nuclear_limit {c₀ cert m₀ : ℝ} {S : Set ℝ} {r₀ : Detector × DMParticle × ℝ} (hR : T.findRoot.Exact) (hI : T.integrate.Exact)
    (hT : ContinuousInterpolation T) (hp : Reachable U p) (hlen : nd.fractions.length = nd.nuclei.length)
    (hfr : ∀ x ∈ nd.fractions, 0 ≤ x) (heff : ∀ e ∈ nd.efficiencies, ∀ E, 0 ≤ e E ∧ e E ≤ 1) (hflat : 0 ≤ d.flatEfficiency)
    (hi : ∀ iso ∈ nd.isotopes, PhysicalIsotope iso) (hdens : 0 ≤ h.density) (hfd : 0 ≤ p.fractionalDensity)
    (hη : p.useEtaFunction = true → h.useEta = true → FallingEta h) (hf : ProperSpeeds h)
    (heta : p.useEtaFunction = true → h.useEta = true → ∀ v, 0 ≤ v → v ≤ h.vMax → EtaAt h v) (ht : 0 < d.energyThreshold) (hm : 0 < d.energyMax)
    (hS0 : S ⊆ Ioi 0) (hq : ∀ m ∈ S, p.setMass U m = .ok (q m)) (hS : ∀ m ∈ S, ∃ s, Sees U T h (.nuclear d nd) (q m) c₀ s)
    (hm₀ : m₀ ∈ S) (g₀ : d.upperLimit U T (nd.toClass U T h) (q m₀) cert = .ok r₀) (hx₀ : 0 < r₀.2.2) :
    ∃ lim : ℝ → ℝ, ContinuousOn lim S ∧ ∀ m ∈ S, 0 < lim m ∧ ∃ r, (p.setMass U m >>= fun q => d.upperLimit U T (nd.toClass U T h) q cert) = .ok r ∧
      (InRange (lim m) → r.2.2 = lim m) ∧ (¬InRange (lim m) → r.2.2 = -1) := by
  obtain ⟨_s, S₀⟩ := hS m₀ hm₀
  have hd : d.analysis ≠ .binnedPoisson := by
    have : d.analysis = .poisson := S₀.counting
    rw [this]
    simp
  obtain ⟨e, he, hec⟩ := C116_counting hI hT hp hlen hfr heff hflat hi hdens hfd hη hf heta hd ht hm
  refine C116_limit (D := .nuclear d nd) (c₀ := c₀) (s := e) hR hq (fun m hm => ?_) (hec.mono hS0) hm₀ g₀ hx₀
  obtain ⟨s, hs⟩ := hS m hm
  have h1 : (p.setMass U m >>= fun q => (nd.toClass U T h).signalsTotal d q) = .ok (e m) := he m (hS0 hm)
  rw [hq m hm, Outcome.bind_ok] at h1
  have : s = e m := Outcome.ok.inj (hs.signal.symm.trans h1)
  rwa [← this]

/-- C116 (limits in bins). Wherever the events in all bins depend continuously on the mass, so does the limit of a binned analysis, although different bins
decide at different masses. -/
theorem C116_binned_limit {D : AnyDetector} {c₀ cert m₀ : ℝ} {ss : ℝ → List ℝ} {S : Set ℝ} {r₀ : Detector × DMParticle × ℝ} (hR : T.findRoot.Exact)
    (hq : ∀ m ∈ S, p.setMass U m = .ok (q m)) (hS : ∀ m ∈ S, SeesInBins U T h D (q m) c₀ (ss m))
    (hs : ∀ i < D.base.bins, ContinuousOn (fun m => (ss m).getD i 0) S) (hm₀ : m₀ ∈ S)
    (g₀ : D.base.upperLimit U T (D.toClass U T h) (q m₀) cert = .ok r₀) (hx₀ : 0 < r₀.2.2) :
    ∃ lim : ℝ → ℝ, ContinuousOn lim S ∧ ∀ m ∈ S, 0 < lim m ∧ ∃ r, (p.setMass U m >>= fun q => D.base.upperLimit U T (D.toClass U T h) q cert) = .ok r ∧
      (InRange (lim m) → r.2.2 = lim m) ∧ (¬InRange (lim m) → r.2.2 = -1) := by
  have S₀ := hS m₀ hm₀
  have c0 := S₀.positive
  obtain ⟨p₁, x₁, g₁, k₁⟩ := C87_value_binned S₀ hR cert
  rw [g₀] at g₁
  cases g₁
  have hsm : SmallestP D.base (ss m₀) c₀ x₁ (1 - cert) := k₁.pos hx₀
  have hx₀ : 0 < x₁ := hx₀
  have hy : 0 < 1 - cert := by
    obtain ⟨i, hi, e⟩ := hsm.1
    rw [e]
    have := S₀.visible i hi
    have := S₀.background i hi
    exact (C29_range (by positivity) _).1
  -- the number of signal events that each bin allows
  have hex : ∀ i, ∃ κ, i < D.base.bins → 0 < κ ∧ probAtMost (κ + D.base.binBackground.getD i 0) (D.base.binObserved.getD i 0) = 1 - cert := fun i => by
    by_cases hi : i < D.base.bins
    · have h1 := S₀.visible i hi
      have h2 := S₀.background i hi
      obtain ⟨μ, m1, m2⟩ := probAtMost_reaches (n := D.base.binObserved.getD i 0) (by positivity) hy (hsm.2 ⟨i, hi, rfl⟩)
      refine ⟨μ - D.base.binBackground.getD i 0, fun _ => ⟨?_, by rw [sub_add_cancel]; exact m2⟩⟩
      have : 0 < x₁ / c₀ * (ss m₀).getD i 0 := by positivity
      linarith
    · exact ⟨0, fun hn => absurd hn hi⟩
  choose κ hκ using hex
  have hne : (Finset.range D.base.bins).Nonempty := ⟨0, Finset.mem_range.2 S₀.bins⟩
  refine ⟨fun m => (Finset.range D.base.bins).inf' hne fun i => c₀ * κ i / (ss m).getD i 0, ?_, fun m hm => ?_⟩
  · refine ContinuousOn.finset_inf'_apply hne fun i hi => ContinuousOn.div continuousOn_const (hs i (Finset.mem_range.1 hi)) fun m hm => ?_
    exact ((hS m hm).visible i (Finset.mem_range.1 hi)).ne'
  have Sm := hS m hm
  set L := (Finset.range D.base.bins).inf' hne fun i => c₀ * κ i / (ss m).getD i 0 with hL
  have L0 : 0 < L := by
    rw [hL, Finset.lt_inf'_iff]
    intro i hi
    have := Sm.visible i (Finset.mem_range.1 hi)
    have := (hκ i (Finset.mem_range.1 hi)).1
    positivity
  have hLs : SmallestP D.base (ss m) c₀ L (1 - cert) := by
    constructor
    · obtain ⟨i, hi, e⟩ := Finset.exists_mem_eq_inf' hne fun i => c₀ * κ i / (ss m).getD i 0
      have hi := Finset.mem_range.1 hi
      refine ⟨i, hi, ?_⟩
      have h1 := Sm.visible i hi
      unfold binProb
      rw [← (hκ i hi).2]
      congr 1
      rw [hL, e]
      field_simp
    · rintro _ ⟨i, hi, rfl⟩
      have h1 := Sm.visible i hi
      have h2 := Sm.background i hi
      have hle : L ≤ c₀ * κ i / (ss m).getD i 0 := Finset.inf'_le _ (Finset.mem_range.2 hi)
      unfold binProb
      rw [← (hκ i hi).2]
      have h3 : L / c₀ * (ss m).getD i 0 ≤ κ i := by
        rw [le_div_iff₀ h1] at hle
        rw [div_mul_eq_mul_div, div_le_iff₀ c0]
        linarith
      rcases h3.eq_or_lt with h3 | h3
      · rw [h3]
      · exact (probAtMost_lt (by positivity) (by linarith) _).le
  obtain ⟨p', x, g, k⟩ := C87_value_binned Sm hR cert
  refine ⟨L0, _, by rw [hq m hm, Outcome.bind_ok]; exact g, fun hr => ?_, fun hr => ?_⟩
  · rcases k with ⟨-, k⟩ | ⟨k1, k2⟩
    · exact absurd hLs (k L hr)
    · exact SmallestP.unique c0 Sm.visible Sm.background ((Real.rpow_pos_of_pos (by norm_num) _).le.trans k1.1) L0.le k2 hLs
  · rcases k with ⟨k, -⟩ | ⟨k1, k2⟩
    · exact k
    · refine absurd ?_ hr
      show InRange L
      rw [SmallestP.unique c0 Sm.visible Sm.background L0.le ((Real.rpow_pos_of_pos (by norm_num) _).le.trans k1.1) hLs k2]
      exact k1

/-! ## The hypotheses can be met -/

theorem hydrogen_isotopes (U : Units) : ∀ iso ∈ (hydrogenTarget U).isotopes, PhysicalIsotope iso := fun iso hi => by
  have : (hydrogenTarget U).isotopes = [Isotope.default U] := rfl
  rw [this, List.mem_singleton] at hi
  subst hi
  have := U.mProton_pos
  refine ⟨by simpa [Isotope.default], ?_, ?_⟩ <;> norm_num [Isotope.default]

/-- Hydrogen sees a particle of mass 1 at all energies up to two. -/
theorem hydrogen_rising (U : Units) (T : Tools) : ∃ v p r, Reachable U p ∧ p.getInteractionParameter U "Nuclei" = .ok 1 ∧ p.lowMass = true ∧
    p.mass = 1 ∧ p.fractionalDensity = 1 ∧ withMass U p 1 = p ∧ 0 < r ∧
    ∀ d : Detector, d.flatEfficiency = 1 → ∀ E : ℝ, E ≤ 2 → ∃ x, (hydrogenTarget U).dRdE U T.integrate d E p (risingHalo v) = .ok x ∧ r ≤ x := by
  obtain ⟨f, -, hf, hp, hfs⟩ := makeSI_eq (U := U) (m := 1) (s := 1) one_pos zero_le_one
  have hf := hf one_pos
  set p : DMParticle := { standard U 1 1 (.SI .contact (U.aEM * U.mElectron) 0) with fp := f, fn := f, lowMass := true } with hpd
  have hval : ∀ op ∈ [DMParticle.Op.setLowMassMode true], ValidOp op := fun op ho => by
    simp only [List.mem_cons, List.not_mem_nil, or_false] at ho
    rcases ho with rfl; trivial
  have hreach : Reachable U p := ⟨_, [.setLowMassMode true], .inl ⟨1, 1, one_pos, hp⟩, hval, rfl⟩
  have hreg : Regular U p := .inl ⟨⟨(1, 1), _, [.setLowMassMode true], .inl ⟨1, 1, one_pos, hp⟩, hval,
    ⟨fun h => by simp [requestedBy] at h, fun _ _ => trivial⟩, rfl, rfl⟩, rfl⟩
  have hM : 0 < (Isotope.default U).mass := by simp [Isotope.default, U.mProton_pos]
  have hself : withMass U p 1 = p := by
    obtain ⟨e, he, -, hw⟩ := withMass_self (U := U) hreg.good
    have h0 : 0 ≤ (withMass U p 1).fp := by
      unfold withMass
      rw [if_pos (show p.fixedRelation = true from rfl), if_pos (by simp [p, standard])]
      exact div_nonneg (Real.sqrt_nonneg _) (reducedMass_pos one_pos U.mProton_pos).le
    have hw : withMass U p 1 = { p with fp := e * p.fp, fn := e * p.fn } := hw
    rw [hw] at h0
    have e0 : 0 ≤ e := nonneg_of_mul_nonneg_left h0 hf
    have e1 : e = 1 := by nlinarith
    rw [hw, e1]
    simp only [one_mul]
  set v := vMinimalNucleus 2 p.mass (Isotope.default U).mass with hv
  have hdS : ∀ E, p.dSigmadERNucleus U E (Isotope.default U) (1 / 1000) =
      2 * (Isotope.default U).mass * (1 / 4 / Real.pi / (1 / 1000) / (1 / 1000) * f ^ 2) := by
    intro E
    unfold dSigmadERNucleus
    congr 1
    simp [dSigmadq2Nucleus, p, standard, formFactor2, Isotope.default, Isotope.neutrons, usub32]
  have hiso : ∀ E ≤ 2, ∃ y, 1 ≤ y ∧ dRdERIsotope U T.integrate E p (risingHalo v) (Isotope.default U) =
      .ok (1 / (Isotope.default U).mass * (1 * 1) / p.mass * ((1 / 1000 : ℝ) * (1 / 1000) *
        (2 * (Isotope.default U).mass * (1 / 4 / Real.pi / (1 / 1000) / (1 / 1000) * f ^ 2))) * y) := by
    intro E hE
    have hle : vMinimalNucleus E p.mass (Isotope.default U).mass ≤ v := by
      rw [hv]
      unfold vMinimalNucleus
      gcongr
    refine ⟨v + 1 - vMinimalNucleus E p.mass (Isotope.default U).mass, by linarith, ?_⟩
    unfold dRdERIsotope
    rw [if_neg (by show ¬(v + 1 < _); exact not_lt.2 (by linarith)), if_pos ⟨rfl, rfl⟩]
    dsimp only
    rw [hdS]
    rfl
  have hpi := Real.pi_pos
  have hm : 0 < p.mass := one_pos
  generalize hr0 : 1 / (Isotope.default U).mass * (1 * 1) / p.mass * ((1 / 1000 : ℝ) * (1 / 1000) *
    (2 * (Isotope.default U).mass * (1 / 4 / Real.pi / (1 / 1000) / (1 / 1000) * f ^ 2))) = r0 at hiso
  have r0pos : 0 < r0 := by rw [← hr0]; positivity
  refine ⟨v, p, r0, hreach, ?_, rfl, rfl, rfl, hself, r0pos, fun d hd E hE => ?_⟩
  · simp [getInteractionParameter, p, standard, sigmaProton] at *
    exact hfs
  obtain ⟨y, y1, hy⟩ := hiso E hE
  refine ⟨r0 * y, ?_, le_mul_of_one_le_right r0pos.le y1⟩
  unfold NuclearDetector.dRdE
  rw [if_pos (by have := U.eV_pos; simp only [hydrogenTarget]; positivity)]
  unfold NuclearDetector.theoryRate dRdERNucleus
  have hab : (Isotope.default U).abundance = 1 := rfl
  simp [hydrogenTarget, sumOver, collect, vecGet, NuclearDetector.efficiency, hy, hab, hd]

/-- A hydrogen target measures this particle at all masses properly. -/
theorem hydrogen_proper {d : Detector} {p : DMParticle} {v : ℝ} (hI : T.integrate.Exact) (hl : p.lowMass = true) (hfd : p.fractionalDensity = 1)
    (hflat : d.flatEfficiency = 1) (hex : 0 ≤ d.exposure) (ht : 0 < d.energyThreshold) (htm : d.energyThreshold ≤ d.energyMax)
    (hbe : ∀ i < d.bins, 0 ≤ d.binEfficiencies.getD i 0) {m : ℝ} (hm : 0 < m) :
    Proper U T.integrate (risingHalo v) (hydrogenTarget U) d [withMass U p m] := by
  have hev : (0 : ℝ) < 1 / 10 ^ 6 * U.eV := by have := U.eV_pos; positivity
  obtain ⟨x, y, hsh⟩ := withMass_shape (U := U) p m
  have hspec : FallingSpectrum fun E => (hydrogenTarget U).dRdE U T.integrate d E (withMass U p m) (risingHalo v) :=
    C96_spectrum hI (hydrogen_isotopes U) hev rfl le_rfl (by simp [hydrogenTarget]) (hflat ▸ zero_le_one) (.inr (by rw [hsh]; exact hl)) (by rw [hsh]; exact hm)
      zero_le_one (by rw [hsh]; exact hfd ▸ zero_le_one) (fun _ _ => risingHalo_falling v) (risingHalo_proper v)
  exact
    { fractions := le_rfl
      composition := by simp [hydrogenTarget]
      tables := by simp [hydrogenTarget]
      flat := hflat ▸ zero_le_one
      isotopes := hydrogen_isotopes U
      exposure := hex
      threshold := ht
      efficiencies := hbe
      resolution := fun hc => absurd hc (not_le.2 hev)
      spectra := fun q hq => by
        rw [List.mem_singleton] at hq
        subst hq
        exact AntitoneOn.intervalIntegrable fun x hx y _ hxy => by
          rw [Set.uIcc_of_le htm] at hx
          exact (FallingSpectrum.value hspec (ht.trans_le hx.1)).2.2 y hxy }

/-- It sees the heavier particles as well. -/
theorem hydrogen_heavier {d : Detector} {p : DMParticle} {v r : ℝ} (hI : T.integrate.Exact) (hp : Reachable U p) (hfd : p.fractionalDensity = 1)
    (hself : withMass U p 1 = p) (hr : 0 < r) (hflat : d.flatEfficiency = 1)
    (hx : ∀ E : ℝ, E ≤ 2 → ∃ x, (hydrogenTarget U).dRdE U T.integrate d E p (risingHalo v) = .ok x ∧ r ≤ x) {m E : ℝ} (hm : 1 ≤ m) (hE0 : 0 < E) (hE : E ≤ 2) :
    ∃ x, (hydrogenTarget U).dRdE U T.integrate d E (withMass U p m) (risingHalo v) = .ok x ∧ 0 < x := by
  have hb := reachable_inv hp
  have hev : (0 : ℝ) < 1 / 10 ^ 6 * U.eV := by have := U.eV_pos; positivity
  obtain ⟨r₁, r₂, e1, e2, hle⟩ := C100_rate (d := d) (E := E) hI hp (setMass_ok (U := U) hb (m := 1) one_pos) (setMass_ok hb (one_pos.trans_le hm)) one_pos hm
    (nd := hydrogenTarget U) (h := risingHalo v) le_rfl (by simp [hydrogenTarget]) (by simp [hydrogenTarget]) (hflat ▸ zero_le_one) (hydrogen_isotopes U)
    zero_le_one (hfd ▸ zero_le_one) (fun _ _ => risingHalo_falling v) (risingHalo_proper v) hE0 (fun hc => absurd hc (not_le.2 hev))
  obtain ⟨x, ex, hxr⟩ := hx E hE
  rw [hself, ex] at e1
  obtain rfl := Outcome.ok.inj e1
  have h1 := mul_pos (massFactor_pos (U := U) one_pos) (hr.trans_le hxr)
  exact ⟨r₂, e2, pos_of_mul_pos_right (h1.trans_le hle) (massFactor_pos (one_pos.trans_le hm)).le⟩

/-- Non-vacuity: a counting experiment with hydrogen finds the limit 1 at mass 1. -/
example (U : Units) : ∃ (T : Tools) (v : ℝ) (p : DMParticle) (d : Detector) (cert : ℝ) (lim : ℝ → ℝ), ContinuousOn lim (Ici 1) ∧ lim 1 = 1 ∧
    ∀ m, 1 ≤ m → ∃ r, (p.setMass U m >>= fun q => d.upperLimit U T ((hydrogenTarget U).toClass U T (risingHalo v)) q cert) = .ok r ∧
      (InRange (lim m) → r.2.2 = lim m) := by
  obtain ⟨R, hR⟩ := exists_exact_rootFinder
  set T : Tools := { flatTools with findRoot := R }
  have hI : T.integrate.Exact := exactIntegrator_exact
  have hTc : ContinuousInterpolation T := fun xs f a b S hf => by
    cases xs with
    | nil => exact (continuousOn_const (c := (0 : ℝ))).mul continuousOn_const
    | cons x xs => exact (hf x (by simp)).mul continuousOn_const
  obtain ⟨v, p, r, hp, hpar, hlow, hmass, hfd, hself, hr, hrate⟩ := hydrogen_rising U T
  have hb := reachable_inv hp
  set d := (hydrogenDetector U).base with hdd
  have hd : ReachableDetector d := .inl ⟨_, [.useEnergyThreshold 1 2, .setObserved 3, .setBackground 1], ⟨"x", 1, "Nuclei", rfl⟩,
    by simp [Detector.run, Detector.step, Detector.setObserved, Detector.setBackground, Detector.make, Detector.useEnergyThreshold, Detector.initializePoisson,
      hydrogenDetector, AnyDetector.base, d]⟩
  have hsee : ∀ m, 1 ≤ m → ∃ s, Sees U T (risingHalo v) (.nuclear d (hydrogenTarget U)) (withMass U p m) 1 s := fun m hm => by
    obtain ⟨x, ex, x0⟩ := hydrogen_heavier (d := d) hI hp hfd hself hr rfl (hrate d rfl) hm one_pos one_le_two
    refine ⟨x, hd, rfl, zero_le_one, reachable_step (op := .setMass m) hp (one_pos.trans_le hm) (setMass_ok hb (one_pos.trans_le hm)), ?_, one_pos, ?_, x0⟩
    · rw [← setMass_parameter hb (setMass_ok (U := U) hb (m := 1) one_pos) (setMass_ok hb (one_pos.trans_le hm)) one_pos (one_pos.trans_le hm), hself]
      exact hpar
    · show d.baseSignalsTotal T _ _ = _
      unfold Detector.baseSignalsTotal
      rw [if_neg (by simp [d, hydrogenDetector, AnyDetector.base, Detector.make]), if_neg (by simp [d, hydrogenDetector, AnyDetector.base])]
      have hl : logSpace d.energyThreshold d.energyMax 200 = 1 :: (logSpace d.energyThreshold d.energyMax 200).tail := by
        have : ∀ l : List ℝ, l.head? = some 1 → l = 1 :: l.tail := fun l hl => by cases l <;> simp_all
        apply this
        unfold logSpace
        rw [List.range_succ_eq_map (n := 199)]
        simp [d, hydrogenDetector, AnyDetector.base]
      dsimp only
      rw [hl, List.map_cons]
      show Outcome.ok (1 * (((hydrogenTarget U).dRdE U T.integrate d 1 (withMass U p m) (risingHalo v)).valueOr0 * (2 - 1))) = _
      rw [ex]
      simp only [Outcome.valueOr0]
      norm_num
  obtain ⟨s₀, S⟩ := hsee 1 le_rfl
  set cert : ℝ := 1 - probAtMost (1 / 1 * s₀ + d.background) d.observed with hcert
  obtain ⟨p', x, g, k⟩ := C87_value S hR cert
  have hx : x = 1 := LimitOf.eq S.positive S.visible S.background (inRange_of le_rfl (by norm_num)) hcert k
  subst hx
  obtain ⟨lim, l1, l2⟩ := C116_nuclear_limit (d := d) (nd := hydrogenTarget U) (q := fun m => withMass U p m) (S := Ici 1) (m₀ := 1) hR hI hTc hp rfl
    (by simp [hydrogenTarget]) (by simp [hydrogenTarget]) zero_le_one (hydrogen_isotopes U) zero_le_one (hfd ▸ zero_le_one) (fun _ _ => risingHalo_falling v)
    (risingHalo_proper v) (fun _ _ w h0 h1 => risingHalo_eta h0 h1) one_pos two_pos (fun m hm => mem_Ioi.2 (one_pos.trans_le (mem_Ici.1 hm)))
    (fun m hm => setMass_ok hb (one_pos.trans_le hm)) hsee self_mem_Ici g one_pos
  refine ⟨T, v, p, d, cert, lim, l1, ?_, fun m hm => ?_⟩
  · obtain ⟨l0, r, e, e1, e2⟩ := l2 1 self_mem_Ici
    rw [setMass_ok hb one_pos, Outcome.bind_ok] at e
    have hr := Outcome.ok.inj (g.symm.trans e)
    by_cases hin : InRange (lim 1)
    · have := e1 hin
      rw [← hr] at this
      exact this.symm
    · have := e2 hin
      rw [← hr] at this
      norm_num at this
  · obtain ⟨-, r, e, e1, -⟩ := l2 m hm
    exact ⟨r, e, e1⟩

/-- Non-vacuity: a binned analysis with hydrogen finds a limit at mass 1. -/
example (U : Units) : ∃ (T : Tools) (v : ℝ) (p : DMParticle) (d : Detector) (cert : ℝ) (lim : ℝ → ℝ), ContinuousOn lim (Ici 1) ∧ lim 1 = 1 ∧
    ∀ m, 1 ≤ m → ∃ r, (p.setMass U m >>= fun q => d.upperLimit U T ((hydrogenTarget U).toClass U T (risingHalo v)) q cert) = .ok r ∧
      (InRange (lim m) → r.2.2 = lim m) := by
  obtain ⟨R, hR⟩ := exists_exact_rootFinder
  set T : Tools := { flatTools with findRoot := R }
  have hI : T.integrate.Exact := exactIntegrator_exact
  obtain ⟨v, p, r, hp, hpar, hlow, hmass, hfd, hself, hr, hrate⟩ := hydrogen_rising U T
  obtain ⟨-, -, -, -, -, -, -, hbr, -⟩ := sees_bins_point U hI
  have hb := reachable_inv hp
  set d := (binnedHydrogen U).base with hdd
  have hbr : BaseReachable d := hbr
  have hP : ∀ m, 0 < m → Proper U T.integrate (risingHalo v) (hydrogenTarget U) d [withMass U p m] := fun m hm =>
    hydrogen_proper hI hlow hfd rfl zero_le_one one_pos one_le_two (fun i hi => by
      have hi : i < 2 := hi
      interval_cases i <;> exact zero_le_one) hm
  have hnb : d.bins + 1 < 2 ^ 32 := by norm_num [d, binnedHydrogen, AnyDetector.base]
  obtain ⟨events, hev, hec⟩ := C116_bins (q := fun m => withMass U p m) (d := d) hI hp (fun m hm => setMass_ok hb hm) (nd := hydrogenTarget U) rfl hP
    (by simp [hydrogenTarget]) zero_le_one (hfd ▸ zero_le_one) (fun _ _ => risingHalo_falling v) (risingHalo_proper v)
    (fun _ _ w h0 h1 => risingHalo_eta h0 h1) hbr rfl hnb
  have hsee : ∀ m, 1 ≤ m → SeesInBins U T (risingHalo v) (.nuclear d (hydrogenTarget U)) (withMass U p m) 1 (events m) := fun m hm => by
    have hm0 := one_pos.trans_le hm
    refine ⟨.inl hbr, rfl, two_pos, ?_, reachable_step (op := .setMass m) hp hm0 (setMass_ok hb hm0), ?_, one_pos, (hev m hm0).1, (hev m hm0).2, fun i hi => ?_⟩
    · intro i hi
      have hi : i < 2 := hi
      interval_cases i <;> simp [binnedHydrogen, AnyDetector.base, d]
    · rw [← setMass_parameter hb (setMass_ok (U := U) hb (m := 1) one_pos) (setMass_ok hb hm0) one_pos hm0, hself]
      exact hpar
    · obtain ⟨ss, a1, a2, a3⟩ := C37_bin_signals (p := withMass U p m) (C := (hydrogenTarget U).toClass U T (risingHalo v)) hbr rfl hI hnb
      have : ss = events m := Outcome.ok.inj (a1.symm.trans (hev m hm0).1)
      rw [← this, a3 i hi]
      have hedge : ∀ k : ℕ, binEdge d.energyThreshold d.energyMax d.bins k = 1 + k * ((2 - 1) / (2 : ℕ)) := fun _ => rfl
      rw [hedge, hedge]
      have hi : i < 2 := hi
      have i0 : (0 : ℝ) ≤ i := Nat.cast_nonneg _
      have i1 : (i : ℝ) ≤ 1 := by exact_mod_cast Nat.lt_succ_iff.1 hi
      have heff : d.binEfficiencies.getD i 0 = 1 := by interval_cases i <;> rfl
      have hex : d.exposure = 1 := rfl
      rw [heff, hex, one_mul, one_mul]
      refine intervalIntegral.intervalIntegral_pos_of_pos_on ?_ (fun E hE => ?_) (by push_cast; linarith)
      · refine IntervalIntegrable.mono_set ((hP m hm0).spectra _ (by simp)) ?_
        have h12 : [[d.energyThreshold, d.energyMax]] = Icc 1 2 := uIcc_of_le one_le_two
        rw [h12, uIcc_of_le (by push_cast; linarith)]
        refine Icc_subset_Icc (by push_cast; linarith) (by push_cast; linarith)
      · have h1 := hE.1
        have h2 := hE.2
        push_cast at h1 h2
        obtain ⟨x, ex, x0⟩ := hydrogen_heavier (d := d) (E := E) hI hp hfd hself hr rfl (hrate d rfl) hm (by linarith) (by linarith)
        show 0 < ((hydrogenTarget U).dRdE U T.integrate d E (withMass U p m) (risingHalo v)).valueOr0
        rw [ex]
        exact x0
  have S := hsee 1 le_rfl
  obtain ⟨y, hy⟩ : ∃ y, SmallestP d (events 1) 1 1 y := by
    obtain ⟨i, hi, hmin⟩ := (Finset.range d.bins).exists_min_image (binProb d (events 1) 1 1) ⟨0, Finset.mem_range.2 two_pos⟩
    refine ⟨_, ⟨i, Finset.mem_range.1 hi, rfl⟩, ?_⟩
    rintro _ ⟨j, hj, rfl⟩
    exact hmin j (Finset.mem_range.2 hj)
  obtain ⟨p', x, g, k⟩ := C87_value_binned S hR (1 - y)
  have h1 : InRange (1 : ℝ) := inRange_of le_rfl (by norm_num)
  have hx : x = 1 := by
    rcases k with ⟨-, k⟩ | ⟨k1, k2⟩
    · exact absurd (by rw [sub_sub_cancel]; exact hy) (k 1 h1)
    · rw [sub_sub_cancel] at k2
      exact SmallestP.unique one_pos S.visible S.background ((Real.rpow_pos_of_pos (by norm_num) _).le.trans k1.1) zero_le_one k2 hy
  subst hx
  obtain ⟨lim, l1, l2⟩ := C116_binned_limit (D := .nuclear d (hydrogenTarget U)) (p := p) (q := fun m => withMass U p m) (S := Ici 1) (m₀ := 1) hR
    (fun m hm => setMass_ok hb (one_pos.trans_le hm)) hsee (fun i hi => (hec i hi).mono fun m hm => mem_Ioi.2 (one_pos.trans_le (mem_Ici.1 hm))) self_mem_Ici g one_pos
  refine ⟨T, v, p, d, 1 - y, lim, l1, ?_, fun m hm => ?_⟩
  · obtain ⟨l0, r, e, e1, e2⟩ := l2 1 self_mem_Ici
    rw [setMass_ok hb one_pos, Outcome.bind_ok] at e
    have hr := Outcome.ok.inj (g.symm.trans e)
    by_cases hin : InRange (lim 1)
    · have := e1 hin
      rw [← hr] at this
      exact this.symm
    · have := e2 hin
      rw [← hr] at this
      norm_num at this
  · obtain ⟨-, r, e, e1, -⟩ := l2 m hm
    exact ⟨r, e, e1⟩

end Obscura
