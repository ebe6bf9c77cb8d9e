import Verif.Props.ForceRange
import Verif.Props.Masses
import Verif.Props.Pieces
import Verif.Props.ContinuousEvents

/-!
# C98 for detectors with an energy resolution
-/

namespace Obscura

open Spec NuclearDetector DMParticle MeasureTheory

variable {U : Units} {I : Integrator} {T : Tools} {nd : NuclearDetector} {d : Detector} {p p₀ p₁ p₂ : DMParticle} {h : Distribution} {iso : Isotope}
  {n₁ n₂ : String} {m₁ m₂ E ER : ℝ}

theorem theoryRate_range (hI : I.Homogeneous) (hp : Reachable U p)
    (h0 : p.setFormFactorDM "Contact" 1 = .ok p₀) (h1 : p.setFormFactorDM n₁ m₁ = .ok p₁)
    (h2 : p.setFormFactorDM n₂ m₂ = .ok p₂) (hm₁ : 0 < m₁) (hm₂ : 0 < m₂) (hr : LongerRange n₁ m₁ n₂ m₂)
    (hlen : nd.nuclei.length ≤ nd.fractions.length) (hfr : ∀ x ∈ nd.fractions, 0 ≤ x)
    (heff : ∀ e ∈ nd.efficiencies, ∀ E, 0 ≤ e E) (hflat : 0 ≤ d.flatEfficiency) (hi : ∀ iso ∈ nd.isotopes, PhysicalIsotope iso) (hE : 0 < ER)
    (hc : ∀ iso ∈ nd.isotopes, ∃ r, dRdERIsotope U I ER p₀ h iso = .ok r ∧ 0 ≤ r) :
    ((∀ iso ∈ nd.isotopes, (U.aEM * U.mElectron) ^ 2 ≤ 2 * iso.mass * ER) → NotMore (nd.theoryRate U I d E ER p₁ h) (nd.theoryRate U I d E ER p₂ h)) ∧
    ((∀ iso ∈ nd.isotopes, 2 * iso.mass * ER ≤ (U.aEM * U.mElectron) ^ 2) → NotMore (nd.theoryRate U I d E ER p₂ h) (nd.theoryRate U I d E ER p₁ h)) := by
  set q := U.aEM * U.mElectron
  have hv : ∀ iso ∈ nd.isotopes, dRdERIsotope U I ER p₀ h iso = .ok (dRdERIsotope U I ER p₀ h iso).valueOr0 ∧ 0 ≤ (dRdERIsotope U I ER p₀ h iso).valueOr0 :=
    fun iso hiso => by
      obtain ⟨r, e, hr⟩ := hc iso hiso
      rw [e]
      exact ⟨rfl, hr⟩
  have key : ∀ (n : String) (m : ℝ) (p' : DMParticle), 0 < m → p.setFormFactorDM n m = .ok p' → nd.theoryRate U I d E ER p' h =
      .ok (∑ i : Fin nd.nuclei.length, efficiencyOf nd i E * d.flatEfficiency * nd.fractions.getD i 0 *
        (nd.nuclei[i].isotopes.map fun iso => iso.abundance * (rangeFactor n q m iso.mass ER * (dRdERIsotope U I ER p₀ h iso).valueOr0)).sum) := by
    intro n m p' hm hp'
    refine theoryRate_eq_of hlen fun iso hiso => ?_
    rw [C98_isotope hI hp h0 hp' hm (hi iso hiso).1 hE, (hv iso hiso).1]
    simp [Outcome.scale, Outcome.valueOr0, q]
  have hfr' : ∀ i, 0 ≤ nd.fractions.getD i 0 := fun i => by
    rw [List.getD_eq_getElem?_getD]
    cases hx : nd.fractions[i]? with
    | none => exact le_rfl
    | some x => exact hfr x (List.mem_of_getElem? hx)
  have he : ∀ i, 0 ≤ efficiencyOf nd i E := fun i => by
    have : ∀ j, 0 ≤ nd.efficiencies.getD j (fun _ => 1) E := fun j => by
      by_cases hj : j < nd.efficiencies.length
      · simpa [List.getD, hj] using heff _ (List.getElem_mem hj) E
      · simp [List.getD, not_lt.1 hj]
    unfold efficiencyOf
    split_ifs
    · exact this 0
    · exact this i
    · exact zero_le_one
  have hord : ∀ iso ∈ nd.isotopes, _ := fun iso hiso => rangeFactor_order (q := q) (E := ER) (hi iso hiso).1 hE hm₁ hm₂
    (formFactor_call hp h1 hm₁ (hi iso hiso).1 hE).choose_spec.choose_spec.2.1
    (formFactor_call hp h2 hm₂ (hi iso hiso).1 hE).choose_spec.choose_spec.2.1 hr
  have comp : ∀ f g : Isotope → ℝ, (∀ iso ∈ nd.isotopes, f iso ≤ g iso) →
      ∑ i : Fin nd.nuclei.length, efficiencyOf nd i E * d.flatEfficiency * nd.fractions.getD i 0 *
        (nd.nuclei[i].isotopes.map fun iso => iso.abundance * (f iso * (dRdERIsotope U I ER p₀ h iso).valueOr0)).sum ≤
      ∑ i : Fin nd.nuclei.length, efficiencyOf nd i E * d.flatEfficiency * nd.fractions.getD i 0 *
        (nd.nuclei[i].isotopes.map fun iso => iso.abundance * (g iso * (dRdERIsotope U I ER p₀ h iso).valueOr0)).sum := by
    intro f g hfg
    refine Finset.sum_le_sum fun i _ => mul_le_mul_of_nonneg_left (List.sum_le_sum fun iso hiso => ?_)
      (mul_nonneg (mul_nonneg (he i) hflat) (hfr' i))
    have hmem := NuclearDetector.mem_isotopes (nd := nd) (List.getElem_mem i.2) hiso
    exact mul_le_mul_of_nonneg_left (mul_le_mul_of_nonneg_right (hfg iso hmem) (hv iso hmem).2) (hi iso hmem).2.2
  rw [key n₁ m₁ p₁ hm₁ h1, key n₂ m₂ p₂ hm₂ h2]
  exact ⟨fun hq => ⟨_, _, rfl, rfl, comp _ _ fun iso hiso => (hord iso hiso).1 (hq iso hiso)⟩,
    fun hq => ⟨_, _, rfl, rfl, comp _ _ fun iso hiso => (hord iso hiso).2 (hq iso hiso)⟩⟩

/-- C98 (resolution). A detector with an energy resolution `σ` integrates over recoil energies above `threshold - 3 σ` and `2 σ`. If these are above the
reference momentum of every isotope, then a force of longer range gives the smaller rate at every observed energy. -/
theorem C98_rate_resolution (hI : I.Exact) (hp : Reachable U p)
    (h0 : p.setFormFactorDM "Contact" 1 = .ok p₀) (h1 : p.setFormFactorDM n₁ m₁ = .ok p₁)
    (h2 : p.setFormFactorDM n₂ m₂ = .ok p₂) (hm₁ : 0 < m₁) (hm₂ : 0 < m₂) (hr : LongerRange n₁ m₁ n₂ m₂)
    (hlen : nd.nuclei.length ≤ nd.fractions.length) (hfr : ∀ x ∈ nd.fractions, 0 ≤ x)
    (heff : ∀ e ∈ nd.efficiencies, ∀ E, 0 ≤ e E) (hflat : 0 ≤ d.flatEfficiency) (hi : ∀ iso ∈ nd.isotopes, PhysicalIsotope iso)
    (hE : 0 < E) (hint : 1 / 10 ^ 6 * U.eV ≤ nd.resolution → ∀ p' ∈ [p₁, p₂], ∀ x y, 0 < x → x ≤ y →
      IntervalIntegrable (fun ER => (nd.theoryRate U I d E ER p' h).valueOr0) volume x y)
    (hwin : 1 / 10 ^ 6 * U.eV ≤ nd.resolution → d.energyThreshold ≤ E + 9 * nd.resolution)
    (hq : nd.resolution < 1 / 10 ^ 6 * U.eV → ∀ iso ∈ nd.isotopes, (U.aEM * U.mElectron) ^ 2 ≤ 2 * iso.mass * E)
    (hq' : 1 / 10 ^ 6 * U.eV ≤ nd.resolution → ∀ iso ∈ nd.isotopes,
      (U.aEM * U.mElectron) ^ 2 ≤ 2 * iso.mass * max (d.energyThreshold - 3 * nd.resolution) (2 * nd.resolution))
    (hc : ∀ E, 0 < E → ∀ iso ∈ nd.isotopes, ∃ r, dRdERIsotope U I E p₀ h iso = .ok r ∧ 0 ≤ r) :
    NotMore (nd.dRdE U I d E p₁ h) (nd.dRdE U I d E p₂ h) := by
  unfold NuclearDetector.dRdE
  by_cases hres : nd.resolution < 1 / 10 ^ 6 * U.eV
  · rw [if_pos hres, if_pos hres]
    exact (theoryRate_range hI.homogeneous hp h0 h1 h2 hm₁ hm₂ hr hlen hfr heff hflat hi hE (hc E hE)).1 (hq hres)
  rw [if_neg hres, if_neg hres]
  dsimp only
  have hσ : 0 < nd.resolution := lt_of_lt_of_le (by have := U.eV_pos; positivity) (not_lt.1 hres)
  have hw := hwin (not_lt.1 hres)
  have hint := hint (not_lt.1 hres)
  set a := max (max (E - 6 * nd.resolution) (d.energyThreshold - 3 * nd.resolution)) (2 * nd.resolution) with hadef
  have ha : 0 < a := lt_of_lt_of_le (by positivity) (le_max_right _ _)
  have hab : a ≤ E + 6 * nd.resolution := max_le (max_le (by linarith) (by linarith)) (by linarith)
  have hla : max (d.energyThreshold - 3 * nd.resolution) (2 * nd.resolution) ≤ a := max_le_max (le_max_right _ _) le_rfl
  have hg : ContinuousOn (fun ER => pdfGauss E ER nd.resolution) (Set.uIcc a (E + 6 * nd.resolution)) := by
    unfold pdfGauss
    fun_prop
  refine ⟨_, _, rfl, rfl, ?_⟩
  rw [hI, hI]
  refine intervalIntegral.integral_mono_on hab (((hint p₁ (by simp) a _ ha hab).continuousOn_mul hg))
    (((hint p₂ (by simp) a _ ha hab).continuousOn_mul hg)) fun ER hER => ?_
  have hER0 := ha.trans_le hER.1
  obtain ⟨r₁, r₂, e1, e2, hle⟩ := (theoryRate_range (E := E) (d := d) (U := U) hI.homogeneous hp h0 h1 h2 hm₁ hm₂ hr hlen hfr heff hflat hi hER0 (hc ER hER0)).1
    fun iso hiso => (hq' (not_lt.1 hres) iso hiso).trans (by
      have := (hi iso hiso).1
      have := hla.trans hER.1
      gcongr)
  rw [e1, e2]
  simp only [Outcome.valueOr0]
  refine mul_le_mul_of_nonneg_left hle ?_
  unfold pdfGauss
  positivity

/-- C98 (bins with a resolution). So a binned analysis expects no more events in any bin from a force of longer range. -/
theorem C98_bins_resolution (hI : T.integrate.Exact) (hp : Reachable U p)
    (h0 : p.setFormFactorDM "Contact" 1 = .ok p₀) (h1 : p.setFormFactorDM n₁ m₁ = .ok p₁)
    (h2 : p.setFormFactorDM n₂ m₂ = .ok p₂) (hm₁ : 0 < m₁) (hm₂ : 0 < m₂) (hr : LongerRange n₁ m₁ n₂ m₂)
    (hP : Proper U T.integrate h nd d [p₁, p₂]) (hb : BaseReachable d) (hd : d.analysis = .binnedPoisson) (hn : d.bins + 1 < 2 ^ 32)
    (hc : ∀ E, 0 < E → ∀ iso ∈ nd.isotopes, ∃ r, dRdERIsotope U T.integrate E p₀ h iso = .ok r ∧ 0 ≤ r)
    (hq : ∀ iso ∈ nd.isotopes, (U.aEM * U.mElectron) ^ 2 ≤ 2 * iso.mass * d.energyThreshold)
    (hq' : 1 / 10 ^ 6 * U.eV ≤ nd.resolution → ∀ iso ∈ nd.isotopes,
      (U.aEM * U.mElectron) ^ 2 ≤ 2 * iso.mass * max (d.energyThreshold - 3 * nd.resolution) (2 * nd.resolution)) :
    ∃ ss₁ ss₂, (nd.toClass U T h).signalsBinned d p₁ = .ok ss₁ ∧ (nd.toClass U T h).signalsBinned d p₂ = .ok ss₂ ∧ ss₁.length = d.bins ∧
      ss₂.length = d.bins ∧ ∀ i < d.bins, ss₁.getD i 0 ≤ ss₂.getD i 0 := by
  obtain ⟨ss₁, a1, a2, a3⟩ := C37_bin_signals (p := p₁) (C := nd.toClass U T h) hb hd hI hn
  obtain ⟨ss₂, b1, b2, b3⟩ := C37_bin_signals (p := p₂) (C := nd.toClass U T h) hb hd hI hn
  refine ⟨ss₁, ss₂, a1, b1, a2, b2, fun i hlt => ?_⟩
  obtain ⟨-, -, f3, -⟩ := (Detector.baseReachable_inv hb).energies hd
  rw [a3 i hlt, b3 i hlt]
  set w := (d.energyMax - d.energyThreshold) / d.bins
  have hbins : (0 : ℝ) < d.bins := Nat.cast_pos.2 (by omega)
  have hw : 0 ≤ w := div_nonneg (sub_nonneg.2 f3) (Nat.cast_nonneg _)
  have hedge : ∀ k : ℕ, binEdge d.energyThreshold d.energyMax d.bins k = d.energyThreshold + k * w := fun _ => rfl
  have hmax : d.energyThreshold + d.bins * w = d.energyMax := by
    simp only [w]
    field_simp
    ring
  rw [hedge, hedge]
  have l1 : d.energyThreshold + i * w ≤ d.energyThreshold + ((i + 1 : ℕ) : ℝ) * w := by push_cast; linarith
  have l0 : d.energyThreshold ≤ d.energyThreshold + i * w := le_add_of_nonneg_right (by positivity)
  have l2 : d.energyThreshold + ((i + 1 : ℕ) : ℝ) * w ≤ d.energyMax := by
    rw [← hmax]
    have : ((i + 1 : ℕ) : ℝ) ≤ d.bins := by exact_mod_cast hlt
    gcongr
  have sub : Set.uIcc (d.energyThreshold + i * w) (d.energyThreshold + ((i + 1 : ℕ) : ℝ) * w) ⊆ Set.uIcc d.energyThreshold d.energyMax := by
    rw [Set.uIcc_of_le l1, Set.uIcc_of_le f3]
    exact Set.Icc_subset_Icc l0 l2
  have := hP.efficiencies i hlt
  refine mul_le_mul_of_nonneg_left (mul_le_mul_of_nonneg_left ?_ hP.exposure) this
  refine intervalIntegral.integral_mono_on l1 ((hP.spectra p₁ (by simp)).mono_set sub) ((hP.spectra p₂ (by simp)).mono_set sub) fun E hE' => ?_
  have hEpos : 0 < E := hP.threshold.trans_le (l0.trans hE'.1)
  have hle := l0.trans hE'.1
  obtain ⟨x, y, e1, e2, hxy⟩ := C98_rate_resolution (d := d) (h := h) hI hp h0 h1 h2 hm₁ hm₂ hr hP.fractions hP.composition hP.tables hP.flat hP.isotopes
    hEpos (fun hs p' hp' x y hx _ => hP.resolution hs p' hp' E x y hx) (fun hs => by linarith [lt_of_lt_of_le (show (0 : ℝ) < 1 / 10 ^ 6 * U.eV by have := U.eV_pos; positivity) hs])
    (fun hs iso hiso => (hq iso hiso).trans (by
      have := (hP.isotopes iso hiso).1
      gcongr)) hq' hc
  show (nd.dRdE U T.integrate d E p₁ h).valueOr0 ≤ (nd.dRdE U T.integrate d E p₂ h).valueOr0
  rw [e1, e2]
  exact hxy

/-- C98 (limits with a resolution). So the limit on the reference cross section is not stronger for a force of longer range. -/
theorem C98_limit_resolution {c₁ c₂ cert : ℝ} {ss₁ ss₂ : List ℝ} (hR : T.findRoot.Exact) (hI : T.integrate.Exact) (hp : Reachable U p)
    (h0 : p.setFormFactorDM "Contact" 1 = .ok p₀) (h1 : p.setFormFactorDM n₁ m₁ = .ok p₁)
    (h2 : p.setFormFactorDM n₂ m₂ = .ok p₂) (hm₁ : 0 < m₁) (hm₂ : 0 < m₂) (hr : LongerRange n₁ m₁ n₂ m₂)
    (hP : Proper U T.integrate h nd d [p₁, p₂]) (hb : BaseReachable d) (hn : d.bins + 1 < 2 ^ 32)
    (hc : ∀ E, 0 < E → ∀ iso ∈ nd.isotopes, ∃ r, dRdERIsotope U T.integrate E p₀ h iso = .ok r ∧ 0 ≤ r)
    (hq : ∀ iso ∈ nd.isotopes, (U.aEM * U.mElectron) ^ 2 ≤ 2 * iso.mass * d.energyThreshold)
    (hq' : 1 / 10 ^ 6 * U.eV ≤ nd.resolution → ∀ iso ∈ nd.isotopes,
      (U.aEM * U.mElectron) ^ 2 ≤ 2 * iso.mass * max (d.energyThreshold - 3 * nd.resolution) (2 * nd.resolution))
    (hS₁ : SeesInBins U T h (.nuclear d nd) p₁ c₁ ss₁) (hS₂ : SeesInBins U T h (.nuclear d nd) p₂ c₂ ss₂)
    {r₁ r₂ : Detector × DMParticle × ℝ} (g1 : d.upperLimit U T (nd.toClass U T h) p₁ cert = .ok r₁)
    (g2 : d.upperLimit U T (nd.toClass U T h) p₂ cert = .ok r₂) (hx₁ : 0 < r₁.2.2) (hx₂ : 0 < r₂.2.2) : r₂.2.2 ≤ r₁.2.2 := by
  obtain ⟨t₁, t₂, e1, e2, -, -, hle⟩ := C98_bins_resolution hI hp h0 h1 h2 hm₁ hm₂ hr hP hb hS₁.binned hn hc hq hq'
  have s1 : (nd.toClass U T h).signalsBinned d p₁ = .ok ss₁ := hS₁.signal
  have s2 : (nd.toClass U T h).signalsBinned d p₂ = .ok ss₂ := hS₂.signal
  rw [s1] at e1
  rw [s2] at e2
  cases e1
  cases e2
  have hpar : c₁ = c₂ := by
    have a := hS₁.parameter
    have b := hS₂.parameter
    rw [formFactor_parameter hp h1] at a
    rw [formFactor_parameter hp h2, a] at b
    exact Outcome.ok.inj b
  subst hpar
  have hpos := hS₁.positive
  have := C87_comparison_binned (k := 1) hS₂ hS₁ hR hR rfl (fun _ _ => rfl) (fun _ _ => rfl) (fun i hlt => by
    rw [one_mul]
    have := hle i hlt
    gcongr) g2 g1 hx₂ hx₁
  rwa [one_mul] at this

/-- Setting the mass after choosing a force is choosing the force after setting the mass. -/
theorem setMass_formFactor (hp : Reachable U p) (h1 : p.setFormFactorDM n₁ m₁ = .ok p₁) {m : ℝ} (hm : 0 < m) {q₁ : DMParticle} (hq : p₁.setMass U m = .ok q₁) :
    ∃ q, p.setMass U m = .ok q ∧ Reachable U q ∧ q.setFormFactorDM n₁ m₁ = .ok q₁ := by
  refine ⟨_, setMass_ok (reachable_inv hp) hm, reachable_step (op := .setMass m) hp hm (setMass_ok (reachable_inv hp) hm), ?_⟩
  rw [setMass_ok (reachable_inv (reachable_step (op := .setFormFactorDM n₁ m₁) hp trivial h1)) hm] at hq
  cases hq
  unfold setFormFactorDM at h1 ⊢
  have hi : (withMass U p m).interaction = p.interaction := by
    unfold withMass
    split_ifs <;> rfl
  rw [hi]
  cases hk : p.interaction with
  | SD => simp [hk] at h1
  | SI f qr mo =>
    simp only [hk] at h1 ⊢
    cases hn : formFactorOfName n₁ with
    | none => simp [hn] at h1
    | some g =>
      simp only [hn, Outcome.ok.injEq] at h1 ⊢
      subst h1
      unfold withMass
      simp only
      split_ifs <;> rfl

/-- C98 (limit curves). So on the limit curves of a binned analysis: at every mass that has a point on both curves, the limit on the reference cross section is
not stronger for the force of longer range. -/
theorem C98_curve {cert : ℝ} {masses : List ℝ} {rows₁ rows₂ : List (ℝ × ℝ)} {d₁ d₂ : Detector} {p₁' p₂' : DMParticle} (hR : T.findRoot.Exact)
    (hI : T.integrate.Exact) (hp : Reachable U p) (h1 : p.setFormFactorDM n₁ m₁ = .ok p₁)
    (h2 : p.setFormFactorDM n₂ m₂ = .ok p₂) (hm₁ : 0 < m₁) (hm₂ : 0 < m₂) (hr : LongerRange n₁ m₁ n₂ m₂)
    (hm : ∀ m ∈ masses, 0 < m) (hb : BaseReachable d) (hn : d.bins + 1 < 2 ^ 32)
    (hP : ∀ m ∈ masses, ∀ q₁ q₂, p₁.setMass U m = .ok q₁ → p₂.setMass U m = .ok q₂ → Proper U T.integrate h nd d [q₁, q₂])
    (hc : ∀ m ∈ masses, ∀ q q₀, p.setMass U m = .ok q → q.setFormFactorDM "Contact" 1 = .ok q₀ → ∀ E, 0 < E → ∀ iso ∈ nd.isotopes,
      ∃ r, dRdERIsotope U T.integrate E q₀ h iso = .ok r ∧ 0 ≤ r)
    (hq : ∀ iso ∈ nd.isotopes, (U.aEM * U.mElectron) ^ 2 ≤ 2 * iso.mass * d.energyThreshold)
    (hq' : 1 / 10 ^ 6 * U.eV ≤ nd.resolution → ∀ iso ∈ nd.isotopes,
      (U.aEM * U.mElectron) ^ 2 ≤ 2 * iso.mass * max (d.energyThreshold - 3 * nd.resolution) (2 * nd.resolution))
    (hS : ∀ m ∈ masses, ∀ p' ∈ [p₁, p₂], ∀ q, p'.setMass U m = .ok q → ∃ c ss, SeesInBins U T h (.nuclear d nd) q c ss)
    (g1 : d.upperLimitCurve U T (nd.toClass U T h) p₁ masses cert = .ok (d₁, p₁', rows₁))
    (g2 : d.upperLimitCurve U T (nd.toClass U T h) p₂ masses cert = .ok (d₂, p₂', rows₂)) {m x₁ x₂ : ℝ} (k1 : (m, x₁) ∈ rows₁)
    (k2 : (m, x₂) ∈ rows₂) : x₂ ≤ x₁ := by
  have key : ∀ (p' : DMParticle) (rs : List (ℝ × ℝ)) (d' : Detector) (p'' : DMParticle) (z : ℝ), Reachable U p' →
      d.upperLimitCurve U T (nd.toClass U T h) p' masses cert = .ok (d', p'', rs) → (m, z) ∈ rs →
      m ∈ masses ∧ 0 < z ∧ ∃ q r, p'.setMass U m = .ok q ∧ d.upperLimit U T (nd.toClass U T h) q cert = .ok r ∧ r.2.2 = z := by
    intro p' rs d' p'' z hp' hcurve hz
    obtain ⟨low, lim, -, e1, e2⟩ := C33_curve (.inl hb) hp' hm hcurve
    subst e2
    obtain ⟨m', hm', hx⟩ := List.mem_filterMap.1 hz
    split_ifs at hx with hcond
    simp only [Option.some.injEq, Prod.mk.injEq] at hx
    obtain ⟨rfl, rfl⟩ := hx
    have hl := e1 m' hm' hcond.1
    unfold upperLimitAt at hl
    obtain ⟨q, hq, hl⟩ := Outcome.bind_eq_ok.1 hl
    obtain ⟨r, hr, hl⟩ := Outcome.bind_eq_ok.1 hl
    exact ⟨hm', hcond.2, q, r, hq, hr, Outcome.ok.inj hl⟩
  obtain ⟨hmem, z1, q₁, r₁, s1, u1, rfl⟩ := key p₁ _ _ _ _ (reachable_step (op := .setFormFactorDM n₁ m₁) hp trivial h1) g1 k1
  obtain ⟨-, z2, q₂, r₂, s2, u2, rfl⟩ := key p₂ _ _ _ _ (reachable_step (op := .setFormFactorDM n₂ m₂) hp trivial h2) g2 k2
  obtain ⟨q, t1, hqr, v1⟩ := setMass_formFactor hp h1 (hm m hmem) s1
  obtain ⟨q', t2, -, v2⟩ := setMass_formFactor hp h2 (hm m hmem) s2
  obtain rfl : q = q' := Outcome.ok.inj (t1.symm.trans t2)
  obtain ⟨q₀, v0⟩ : ∃ q₀, q.setFormFactorDM "Contact" 1 = .ok q₀ := by
    unfold setFormFactorDM at v1 ⊢
    cases hk : q.interaction with
    | SD => simp [hk] at v1
    | SI f qr mo => simp [formFactorOfName]
  obtain ⟨c₁, ss₁, S1⟩ := hS m hmem p₁ (by simp) q₁ s1
  obtain ⟨c₂, ss₂, S2⟩ := hS m hmem p₂ (by simp) q₂ s2
  exact C98_limit_resolution hR hI hqr v0 v1 v2 hm₁ hm₂ hr (hP m hmem q₁ q₂ s1 s2) hb hn (hc m hmem q q₀ t1 v0) hq hq' S1 S2 u1 u2 z1 z2

/-- Non-vacuity: mediators of masses 1 and 2, seen by hydrogen in the standard halo `SHM.sample` with a resolution of 1 and a threshold of 2, at every observed
energy above the threshold. -/
example (hI : I.Exact) (hU : 1 / 10 ^ 6 * U.eV ≤ 1) (hE : (U.aEM * U.mElectron) ^ 2 ≤ 4) :
    ∃ (p p₁ p₂ : DMParticle) (d : Detector), Reachable U p ∧ p.setFormFactorDM "General" 1 = .ok p₁ ∧ p.setFormFactorDM "General" 2 = .ok p₂ ∧
      d.energyThreshold = 2 ∧ ∀ E, 2 ≤ E → NotMore ((sampleNuclear 1).dRdE U I d E p₁ (Distribution.ofSHM SHM.sample))
        ((sampleNuclear 1).dRdE U I d E p₂ (Distribution.ofSHM SHM.sample)) := by
  obtain ⟨c, hc0, hc, hmk, _⟩ := makeSI_eq (U := U) (m := 1) (s := 1) one_pos zero_le_one
  have hs : SHM.sample.Physical ∧ SHM.sample.vObs ≤ SHM.sample.vEsc ∧ 0 ≤ SHM.sample.density := by
    refine ⟨⟨?_, ?_⟩, ?_, ?_⟩ <;> norm_num [SHM.sample, SHM.makeSpeed, SHM.normalize]
  obtain ⟨g1, g2⟩ := C96_standard_halo (U := Units.sample) SHM.sample_reachable hs.1 hs.2.1
  set p := DMParticle.setLowMassMode { DMParticle.standard U 1 1 (.SI .contact (U.aEM * U.mElectron) 0) with fp := c, fn := c } true
  have hR : Reachable U p := ⟨_, [.setLowMassMode true], makeSI_built one_pos hmk, by simp [ValidOp], rfl⟩
  have hisos : (sampleNuclear 1).isotopes = [sampleIsotope] := rfl
  have hiso : ∀ iso ∈ (sampleNuclear 1).isotopes, iso = sampleIsotope := fun iso hi => by
    rwa [hisos, List.mem_singleton] at hi
  have hphys : PhysicalIsotope sampleIsotope := by norm_num [PhysicalIsotope, sampleIsotope]
  have a0 : p.setFormFactorDM "Contact" 1 = .ok { p with interaction := .SI .contact (U.aEM * U.mElectron) 0 } := by
    simp [p, setFormFactorDM, formFactorOfName, setLowMassMode, standard]
  have a1 : p.setFormFactorDM "General" 1 = .ok { p with interaction := .SI .general (U.aEM * U.mElectron) 1 } := by
    simp [p, setFormFactorDM, formFactorOfName, setLowMassMode, standard]
  have a2 : p.setFormFactorDM "General" 2 = .ok { p with interaction := .SI .general (U.aEM * U.mElectron) 2 } := by
    simp [p, setFormFactorDM, formFactorOfName, setLowMassMode, standard]
  have hfall : ∀ ff m, FallingSpectrum fun E => dRdERIsotope U I E { p with interaction := .SI ff (U.aEM * U.mElectron) m } (Distribution.ofSHM SHM.sample) sampleIsotope :=
    fun ff m => C96_isotope (U := U) (h := Distribution.ofSHM SHM.sample) hI hphys (p := { p with interaction := .SI ff (U.aEM * U.mElectron) m })
      (.inr rfl) one_pos hs.2.2 zero_le_one (fun _ _ => g1) g2
  set d : Detector := { Detector.make "x" 1 "Nuclei" with usingEnergyThreshold := true, energyThreshold := 2, energyMax := 20 } with hd
  have hth : ∀ ff m E ER, 0 < ER → ((sampleNuclear 1).theoryRate U I d E ER { p with interaction := .SI ff (U.aEM * U.mElectron) m } (Distribution.ofSHM SHM.sample)).valueOr0 =
      (dRdERIsotope U I ER { p with interaction := .SI ff (U.aEM * U.mElectron) m } (Distribution.ofSHM SHM.sample) sampleIsotope).valueOr0 := fun ff m E ER h0 => by
    obtain ⟨r, -, e, -⟩ := hfall ff m ER ER h0 le_rfl
    unfold NuclearDetector.theoryRate dRdERNucleus
    have hab : sampleIsotope.abundance = 1 := rfl
    simp [sampleNuclear, sumOver, collect, vecGet, NuclearDetector.efficiency, e, d, Detector.make, hab, Outcome.valueOr0]
  have hint : ∀ ff m E x y, 0 < x → x ≤ y → IntervalIntegrable (fun ER => ((sampleNuclear 1).theoryRate U I d E ER
      { p with interaction := .SI ff (U.aEM * U.mElectron) m } (Distribution.ofSHM SHM.sample)).valueOr0) volume x y := fun ff m E x y hx hxy =>
    AntitoneOn.intervalIntegrable fun u hu w _ huw => by
      rw [Set.uIcc_of_le hxy] at hu
      have hu0 := hx.trans_le hu.1
      simp only [hth ff m E u hu0, hth ff m E w (hu0.trans_le huw)]
      exact (FallingSpectrum.value (hfall ff m) hu0).2.2 w huw
  refine ⟨p, _, _, d, hR, a1, a2, rfl, fun E hE2 => C98_rate_resolution hI hR a0 a1 a2 one_pos two_pos (.inr (.inr ⟨rfl, rfl, by norm_num⟩))
    le_rfl (by simp [sampleNuclear]) (by simp [sampleNuclear]) zero_le_one
    (fun iso hi => hiso iso hi ▸ hphys) (by linarith) (fun _ p' hp' => ?_) (fun _ => ?_) (fun hr => ?_) (fun _ iso hi => ?_) (fun E h0 iso hi => ?_)⟩
  · simp only [List.mem_cons, List.not_mem_nil, or_false] at hp'
    rcases hp' with rfl | rfl
    · exact hint _ _ E
    · exact hint _ _ E
  · show (2 : ℝ) ≤ E + 9 * 1
    linarith
  · exact absurd hU (not_le.2 hr)
  · rw [hiso iso hi]
    show (U.aEM * U.mElectron) ^ 2 ≤ 2 * 1 * max (2 - 3 * 1) (2 * 1)
    norm_num
    exact hE
  · rw [hiso iso hi]
    obtain ⟨r, r', e1, -, h3, h4⟩ := hfall .contact 0 E E h0 le_rfl
    exact ⟨r, e1, h3.trans h4⟩

/-- Non-vacuity of the limits and limit curves: a mediator of mass 1 and a contact interaction, seen by a hydrogen detector with two bins. -/
example (hI : T.integrate.Exact) (hR : T.findRoot.Exact) (hE : (U.aEM * U.mElectron) ^ 2 ≤ 2 * U.mProton) :
    ∃ (v : ℝ) (p p₁ : DMParticle) (ss ss₁ : List ℝ), p.setFormFactorDM "General" 1 = .ok p₁ ∧ p.setFormFactorDM "Contact" 1 = .ok p ∧
    SeesInBins U T (flatHalo v) (binnedHydrogen U) p₁ 1 ss₁ ∧ SeesInBins U T (flatHalo v) (binnedHydrogen U) p 1 ss ∧
    ∀ cert d₁ q₁ rows₁ d₂ q₂ rows₂ x₁ x₂,
      (binnedHydrogen U).base.upperLimitCurve U T ((binnedHydrogen U).toClass U T (flatHalo v)) p₁ [1] cert = .ok (d₁, q₁, rows₁) →
      (binnedHydrogen U).base.upperLimitCurve U T ((binnedHydrogen U).toClass U T (flatHalo v)) p [1] cert = .ok (d₂, q₂, rows₂) →
      (1, x₁) ∈ rows₁ → (1, x₂) ∈ rows₂ → x₂ ≤ x₁ := by
  obtain ⟨_, _, _, ⟨-, -, -, hS⟩, -, -, -, hB, -⟩ := sees_bins_point U hI
  obtain ⟨f, -, hf, hmk, hfs⟩ := makeSI_eq (U := U) (m := 1) (s := 1) one_pos zero_le_one
  have hf := hf one_pos
  set p : DMParticle := { standard U 1 1 (.SI .contact (U.aEM * U.mElectron) 0) with fp := f, fn := f, lowMass := true } with hpd
  have hval : ∀ op ∈ [DMParticle.Op.setLowMassMode true], ValidOp op := fun op ho => by
    simp only [List.mem_cons, List.not_mem_nil, or_false] at ho
    rcases ho with rfl; trivial
  have hp : Reachable U p := ⟨_, [.setLowMassMode true], .inl ⟨1, 1, one_pos, hmk⟩, hval, rfl⟩
  have hreg : Regular U p := .inl ⟨⟨(1, 1), _, [.setLowMassMode true], .inl ⟨1, 1, one_pos, hmk⟩, hval,
    ⟨fun h => by simp [requestedBy] at h, fun _ _ => trivial⟩, rfl, rfl⟩, rfl⟩
  have a0 : p.setFormFactorDM "Contact" 1 = .ok p := by
    simp [p, setFormFactorDM, formFactorOfName, standard]
  have a1 : p.setFormFactorDM "General" 1 = .ok { p with interaction := .SI .general (U.aEM * U.mElectron) 1 } := by
    simp [p, setFormFactorDM, formFactorOfName, standard]
  set p₁ : DMParticle := { p with interaction := .SI .general (U.aEM * U.mElectron) 1 }
  have hp₁ : Reachable U p₁ := reachable_step (op := .setFormFactorDM "General" 1) hp trivial a1
  have hself : p.setMass U 1 = .ok p := by
    rw [setMass_ok (reachable_inv hp) one_pos]
    obtain ⟨e, he, -, hw⟩ := withMass_self (U := U) hreg.good
    conv_lhs at hw => rw [show p.mass = 1 from rfl]
    have h0 : 0 ≤ (withMass U p 1).fp := by
      unfold withMass
      rw [if_pos (show p.fixedRelation = true from rfl), if_pos (by simp [p, standard])]
      exact div_nonneg (Real.sqrt_nonneg _) (reducedMass_pos one_pos U.mProton_pos).le
    rw [hw] at h0
    have e0 : 0 ≤ e := nonneg_of_mul_nonneg_left h0 hf
    have e1 : e = 1 := by nlinarith
    rw [hw, e1]
    simp only [one_mul]
  have hself₁ : ∀ q, p₁.setMass U 1 = .ok q → q = p₁ := fun q hq => by
    obtain ⟨q', t1, -, t2⟩ := setMass_formFactor hp a1 one_pos hq
    rw [hself] at t1
    obtain rfl := Outcome.ok.inj t1
    exact Outcome.ok.inj (t2.symm.trans a1)
  have hM : 0 < (Isotope.default U).mass := by simp [Isotope.default, U.mProton_pos]
  have hev : (0 : ℝ) < 1 / 10 ^ 6 * U.eV := by have := U.eV_pos; positivity
  set v := vMinimalNucleus 2 p.mass (Isotope.default U).mass with hv
  have hη : FallingEta (flatHalo v) := fun a b _ _ _ => ⟨1, 1, rfl, rfl, zero_le_one, le_rfl⟩
  have hspeed : ProperSpeeds (flatHalo v) := ⟨fun _ _ => le_rfl, intervalIntegrable_const⟩
  have hfall : FallingSpectrum fun E => dRdERIsotope U T.integrate E p (flatHalo v) (Isotope.default U) :=
    C96_isotope (U := U) (h := flatHalo v) hI (hydrogen_isotopes U _ (by simp [show (hydrogenTarget U).isotopes = [Isotope.default U] from rfl])) (p := p)
      (.inr rfl) one_pos zero_le_one zero_le_one (fun _ _ => hη) hspeed
  have hiso : ∃ r, 0 < r ∧ ∀ E ≤ 2, dRdERIsotope U T.integrate E p (flatHalo v) (Isotope.default U) = .ok r := by
    have hdS : ∀ E, p.dSigmadERNucleus U E (Isotope.default U) (1 / 1000) =
        2 * (Isotope.default U).mass * (1 / 4 / Real.pi / (1 / 1000) / (1 / 1000) * f ^ 2) := by
      intro E
      unfold dSigmadERNucleus
      congr 1
      simp [dSigmadq2Nucleus, p, standard, formFactor2, Isotope.default, Isotope.neutrons, usub32]
    have hpi := Real.pi_pos
    have hm : 0 < p.mass := one_pos
    refine ⟨1 / (Isotope.default U).mass * (1 * 1) / p.mass * ((1 / 1000 : ℝ) * (1 / 1000) *
          (2 * (Isotope.default U).mass * (1 / 4 / Real.pi / (1 / 1000) / (1 / 1000) * f ^ 2))) * 1, by positivity, fun E hE => ?_⟩
    have hle : vMinimalNucleus E p.mass (Isotope.default U).mass ≤ v := by
      rw [hv]
      unfold vMinimalNucleus
      gcongr
    unfold dRdERIsotope
    rw [if_neg (by simpa [flatHalo] using hle), if_pos ⟨rfl, rfl⟩]
    dsimp only
    rw [hdS]
    rfl
  obtain ⟨r, hr, hiso⟩ := hiso
  have hrate : ∀ n q, (n = "General" ∨ n = "Contact") → p.setFormFactorDM n 1 = .ok q → ∀ E, 0 < E → E ≤ 2 →
      ((hydrogenTarget U).dRdE U T.integrate (binnedHydrogen U).base E q (flatHalo v)).valueOr0 =
        rangeFactor n (U.aEM * U.mElectron) 1 (Isotope.default U).mass E * r := fun n q _ hq E h0 hE => by
    have e := C98_isotope (h := flatHalo v) (E := E) hI.homogeneous hp a0 hq one_pos hM h0
    rw [hiso E hE] at e
    unfold NuclearDetector.dRdE
    rw [if_pos (show (hydrogenTarget U).resolution < _ from hev)]
    unfold NuclearDetector.theoryRate dRdERNucleus
    have hab : (Isotope.default U).abundance = 1 := rfl
    simp [hydrogenTarget, sumOver, collect, vecGet, NuclearDetector.efficiency, e, binnedHydrogen, AnyDetector.base, Detector.make, hab, Outcome.scale,
      Outcome.valueOr0]
  have hpos : ∀ n, (n = "General" ∨ n = "Contact") → ∀ E, 0 < E → 0 < rangeFactor n (U.aEM * U.mElectron) 1 (Isotope.default U).mass E * r := by
    rintro n (rfl | rfl) E h0 <;> simp [rangeFactor] <;> positivity
  have hint : ∀ n q, (n = "General" ∨ n = "Contact") → p.setFormFactorDM n 1 = .ok q → ∀ a b, 0 < a → a ≤ b → b ≤ 2 →
      IntervalIntegrable (fun E => ((hydrogenTarget U).dRdE U T.integrate (binnedHydrogen U).base E q (flatHalo v)).valueOr0) volume a b :=
    fun n q hn hq a b ha hab hb => by
      have hc : ContinuousOn (fun E => rangeFactor n (U.aEM * U.mElectron) 1 (Isotope.default U).mass E * r) (Set.uIcc a b) := by
        rw [Set.uIcc_of_le hab]
        rcases hn with rfl | rfl
        · simp only [rangeFactor]
          norm_num
          refine ContinuousOn.mul ?_ continuousOn_const
          refine ContinuousOn.pow (ContinuousOn.div continuousOn_const (by fun_prop) fun E hE => ?_) 2
          have := ha.trans_le hE.1
          positivity
        · simp only [rangeFactor]
          norm_num
          exact continuousOn_const
      refine (hc.congr fun E hE => ?_).intervalIntegrable
      rw [Set.uIcc_of_le hab] at hE
      exact hrate n q hn hq E (ha.trans_le hE.1) (hE.2.trans hb)
  have hsee : ∀ n q, (n = "General" ∨ n = "Contact") → p.setFormFactorDM n 1 = .ok q → ∃ ss, SeesInBins U T (flatHalo v) (binnedHydrogen U) q 1 ss :=
    fun n q hn hq => by
      obtain ⟨ss, e1, e2, e3⟩ := C37_bin_signals (p := q) (C := (hydrogenTarget U).toClass U T (flatHalo v)) hB hS.binned hI (show 2 + 1 < 2 ^ 32 by norm_num)
      refine ⟨ss, {
        detector := hS.detector
        binned := hS.binned
        bins := hS.bins
        background := hS.background
        positive := one_pos
        particle := reachable_step (op := .setFormFactorDM n 1) hp trivial hq
        parameter := ?_
        signal := e1
        complete := e2
        visible := fun i hi => ?_ }⟩
      · rw [formFactor_parameter hp hq]
        simp [getInteractionParameter, binnedHydrogen, AnyDetector.base, Detector.make, p, standard, sigmaProton] at *
        exact hfs
      · rw [e3 i hi]
        have hi : i < 2 := hi
        have key : ∀ a b : ℝ, 0 < a → a < b → b ≤ 2 →
            0 < ∫ E in a..b, ((hydrogenTarget U).toClass U T (flatHalo v)).dRdE (binnedHydrogen U).base E q := fun a b ha hab hb => by
          refine intervalIntegral.intervalIntegral_pos_of_pos_on (hint n q hn hq a b ha hab.le hb) (fun E hE => ?_) hab
          have h0 := ha.trans hE.1
          show 0 < ((hydrogenTarget U).dRdE U T.integrate (binnedHydrogen U).base E q (flatHalo v)).valueOr0
          rw [hrate n q hn hq E h0 (hE.2.le.trans hb)]
          exact hpos n hn E h0
        have k1 := key 1 (3 / 2) (by norm_num) (by norm_num) (by norm_num)
        have k2 := key (3 / 2) 2 (by norm_num) (by norm_num) (by norm_num)
        have c0 : binEdge (binnedHydrogen U).base.energyThreshold (binnedHydrogen U).base.energyMax (binnedHydrogen U).base.bins 0 = 1 := by
          norm_num [binEdge, binnedHydrogen, AnyDetector.base]
        have c1 : binEdge (binnedHydrogen U).base.energyThreshold (binnedHydrogen U).base.energyMax (binnedHydrogen U).base.bins 1 = 3 / 2 := by
          norm_num [binEdge, binnedHydrogen, AnyDetector.base]
        have c2 : binEdge (binnedHydrogen U).base.energyThreshold (binnedHydrogen U).base.energyMax (binnedHydrogen U).base.bins 2 = 2 := by
          norm_num [binEdge, binnedHydrogen, AnyDetector.base]
        interval_cases i
        · rw [c0, c1]
          exact mul_pos one_pos (mul_pos one_pos k1)
        · rw [c1, c2]
          exact mul_pos one_pos (mul_pos one_pos k2)
  obtain ⟨ss₁, S₁⟩ := hsee "General" p₁ (.inl rfl) a1
  obtain ⟨ss, S⟩ := hsee "Contact" p (.inr rfl) a0
  have hat : ∀ m ∈ [(1 : ℝ)], ∀ q, p.setMass U m = .ok q → q = p := fun m hm q hq => by
    rw [List.mem_singleton.1 hm, hself] at hq
    exact (Outcome.ok.inj hq).symm
  have hat₁ : ∀ m ∈ [(1 : ℝ)], ∀ q, p₁.setMass U m = .ok q → q = p₁ := fun m hm q hq => by
    rw [List.mem_singleton.1 hm] at hq
    exact hself₁ q hq
  have hq : ∀ iso ∈ (hydrogenTarget U).isotopes, (U.aEM * U.mElectron) ^ 2 ≤ 2 * iso.mass * (binnedHydrogen U).base.energyThreshold := fun iso hi => by
    rw [show (hydrogenTarget U).isotopes = [Isotope.default U] from rfl, List.mem_singleton] at hi
    subst hi
    show _ ≤ 2 * U.mProton * 1
    linarith
  refine ⟨v, p, p₁, ss, ss₁, a1, a0, S₁, S, fun cert d₁ q₁ rows₁ d₂ q₂ rows₂ x₁ x₂ g1 g2 k1 k2 => C98_curve (U := U) (nd := hydrogenTarget U) (p := p) hR hI hp a1 a0
    one_pos one_pos (.inl rfl) (by simp) hB (show 2 + 1 < 2 ^ 32 by norm_num) (fun m hm q₁ q₂ s1 s2 => ?_) (fun m hm q q₀ s1 s2 E h0 iso hi => ?_) hq
    (fun hc => absurd hc (not_le.2 hev)) (fun m hm p' hp' q s => ?_) g1 g2 k1 k2⟩
  · rw [hat₁ m hm q₁ s1, hat m hm q₂ s2]
    exact {
      fractions := le_rfl
      composition := by simp [hydrogenTarget]
      tables := by simp [hydrogenTarget]
      flat := zero_le_one
      isotopes := hydrogen_isotopes U
      exposure := zero_le_one
      threshold := one_pos
      efficiencies := fun i hi => by
        have hi : i < 2 := hi
        interval_cases i <;> exact zero_le_one
      resolution := fun hr => absurd hr (not_le.2 hev)
      spectra := fun q hq => by
        simp only [List.mem_cons, List.not_mem_nil, or_false] at hq
        rcases hq with rfl | rfl
        · exact hint "General" _ (.inl rfl) a1 1 2 one_pos (by norm_num) le_rfl
        · exact hint "Contact" _ (.inr rfl) a0 1 2 one_pos (by norm_num) le_rfl }
  · rw [show (hydrogenTarget U).isotopes = [Isotope.default U] from rfl, List.mem_singleton] at hi
    obtain rfl := hat m hm q s1
    rw [a0] at s2
    obtain rfl := Outcome.ok.inj s2
    subst hi
    obtain ⟨x, y, e1, -, h3, h4⟩ := hfall E E h0 le_rfl
    exact ⟨x, e1, h3.trans h4⟩
  · simp only [List.mem_cons, List.not_mem_nil, or_false] at hp'
    rcases hp' with rfl | rfl
    · rw [hat₁ m hm q s]
      exact ⟨1, ss₁, S₁⟩
    · rw [hat m hm q s]
      exact ⟨1, ss, S⟩

end Obscura
