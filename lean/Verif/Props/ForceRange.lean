import Verif.Spec.ForceRange
import Verif.Props.LimitComparison
import Verif.Props.FallingSpectra

/-!
# C98: the range of the force
-/

namespace Obscura

open Spec NuclearDetector DMParticle MeasureTheory

variable {U : Units} {I : Integrator} {T : Tools} {nd : NuclearDetector} {d : Detector} {p p₀ p₁ p₂ : DMParticle} {h : Distribution} {iso : Isotope}
  {n₁ n₂ : String} {m₁ m₂ E : ℝ}

/-- C98 (reference momentum). The cross sections of every spin-independent particle, after any history of calls, are those at the momentum transfer
`α m_e`. -/
theorem C98_reference (hp : Reachable U p) {ff : FormFactor} {q mMed : ℝ} (hi : p.interaction = .SI ff q mMed) : q = U.aEM * U.mElectron := by
  rcases reachable_kind hp with ⟨h1, -⟩ | ⟨ff', m', h1, -⟩
  · rw [hi] at h1; cases h1
  · rw [hi] at h1; cases h1; rfl

/-- What a successful call of `Set_FormFactor_DM` does. -/
theorem formFactor_call (hp : Reachable U p) (h1 : p.setFormFactorDM n₁ m₁ = .ok p₁) (hm : 0 < m₁) {M : ℝ} (hM : 0 < M) (hE : 0 < E) :
    ∃ ff mMed, p₁ = { p with interaction := .SI ff (U.aEM * U.mElectron) mMed } ∧
      (n₁ = "Contact" ∨ n₁ = "General" ∨ n₁ = "Electric-Dipole" ∨ n₁ = "Long-Range") ∧
      formFactor2 ff (U.aEM * U.mElectron) mMed (Real.sqrt (2 * M * E)) = rangeFactor n₁ (U.aEM * U.mElectron) m₁ M E := by
  have hs : Real.sqrt (2 * M * E) * Real.sqrt (2 * M * E) = 2 * M * E := Real.mul_self_sqrt (by positivity)
  have hs2 : Real.sqrt (2 * M * E) ^ 2 = 2 * M * E := Real.sq_sqrt (by positivity)
  have hs0 : 0 < Real.sqrt (2 * M * E) := Real.sqrt_pos.2 (by positivity)
  unfold setFormFactorDM at h1
  rcases reachable_kind hp with ⟨h2, -⟩ | ⟨ff', m', h2, -⟩
  · simp only [h2] at h1
    cases h1
  simp only [h2] at h1
  unfold formFactorOfName at h1
  split_ifs at h1 with c1 c2 c3 c4
  · cases h1
    exact ⟨_, _, rfl, .inl c1, by simp [formFactor2, rangeFactor, c1]⟩
  · cases h1
    refine ⟨_, _, rfl, .inr (.inr (.inl c2)), ?_⟩
    have e : rangeFactor n₁ (U.aEM * U.mElectron) m₁ M E = (U.aEM * U.mElectron) ^ 2 / (2 * M * E) := by
      rw [rangeFactor, if_neg c1, if_neg (by rw [c2]; decide), if_pos c2]
    rw [e, formFactor2, div_mul_div_comm, hs, sq]
  · cases h1
    refine ⟨_, _, rfl, .inr (.inr (.inr c3)), ?_⟩
    have e : rangeFactor n₁ (U.aEM * U.mElectron) m₁ M E = ((U.aEM * U.mElectron) ^ 2 / (2 * M * E)) ^ 2 := by
      rw [rangeFactor, if_neg c1, if_neg (by rw [c3]; decide), if_neg c2]
    rw [e, formFactor2, div_div, hs]
    ring
  · cases h1
    refine ⟨_, _, rfl, .inr (.inl c4), ?_⟩
    have e : rangeFactor n₁ (U.aEM * U.mElectron) m₁ M E = (((U.aEM * U.mElectron) ^ 2 + m₁ ^ 2) / (2 * M * E + m₁ ^ 2)) ^ 2 := by
      rw [rangeFactor, if_neg c1, if_pos c4]
    rw [e, formFactor2]
    simp only [true_and, if_pos hm, hs]
    ring

/-- The rate on an isotope is that of a contact interaction times the form factor. -/
theorem rate_factor (hI : I.Homogeneous) {ff : FormFactor} {q mMed m0 : ℝ} :
    dRdERIsotope U I E { p with interaction := .SI ff q mMed } h iso =
      (dRdERIsotope U I E { p with interaction := .SI .contact q m0 } h iso).scale (formFactor2 ff q mMed (Real.sqrt (2 * iso.mass * E))) := by
  have hσ : ∀ v, dSigmadERNucleus U { p with interaction := .SI ff q mMed } E iso v =
      formFactor2 ff q mMed (Real.sqrt (2 * iso.mass * E)) * dSigmadERNucleus U { p with interaction := .SI .contact q m0 } E iso v := fun v => by
    simp only [dSigmadERNucleus, dSigmadq2Nucleus]
    have : formFactor2 .contact q m0 (Real.sqrt (2 * iso.mass * E)) = 1 := by simp [formFactor2]
    rw [this]
    ring
  unfold dRdERIsotope
  simp only [hσ]
  split_ifs
  · simp [Outcome.scale]
  · cases h.eta _ <;> simp [Outcome.scale]
    ring
  · simp only [Outcome.scale, Outcome.bind_ok, Outcome.ok.injEq]
    rw [show (fun v => h.differentialFlux v p.mass * (formFactor2 ff q mMed (Real.sqrt (2 * iso.mass * E)) *
        dSigmadERNucleus U { p with interaction := .SI .contact q m0 } E iso v)) = fun v => formFactor2 ff q mMed (Real.sqrt (2 * iso.mass * E)) *
        (h.differentialFlux v p.mass * dSigmadERNucleus U { p with interaction := .SI .contact q m0 } E iso v) from funext fun v => by ring, hI]
    ring

/-- C98 (isotopes). Whatever particle, halo and isotope: choosing a form factor multiplies the recoil spectrum of the contact interaction by a factor
that depends on the momentum transfer only. -/
theorem C98_isotope (hI : I.Homogeneous) (hp : Reachable U p) (h0 : p.setFormFactorDM "Contact" m₂ = .ok p₀)
    (h1 : p.setFormFactorDM n₁ m₁ = .ok p₁) (hm : 0 < m₁) (hM : 0 < iso.mass) (hE : 0 < E) :
    dRdERIsotope U I E p₁ h iso =
      (dRdERIsotope U I E p₀ h iso).scale (rangeFactor n₁ (U.aEM * U.mElectron) m₁ iso.mass E) := by
  obtain ⟨ff, mMed, rfl, -, e⟩ := formFactor_call hp h1 hm hM hE
  have : ∃ m0, p₀ = { p with interaction := .SI .contact (U.aEM * U.mElectron) m0 } := by
    unfold setFormFactorDM at h0
    rcases reachable_kind hp with ⟨h2, -⟩ | ⟨ff', m', h2, -⟩
    · simp only [h2] at h0
      cases h0
    · simp only [h2, formFactorOfName, if_true] at h0
      cases h0
      exact ⟨_, rfl⟩
  obtain ⟨m0, rfl⟩ := this
  rw [← e]
  exact rate_factor hI

theorem rangeFactor_nonneg {n : String} {q m M E : ℝ} (hM : 0 < M) (hE : 0 < E) : 0 ≤ rangeFactor n q m M E := by
  unfold rangeFactor
  split_ifs <;> positivity

/-- Above the reference momentum a force of longer range gives the smaller factor, below it the larger one. -/
theorem rangeFactor_order {q M : ℝ} (hM : 0 < M) (hE : 0 < E) (hm₁ : 0 < m₁) (hm₂ : 0 < m₂)
    (hn₁ : n₁ = "Contact" ∨ n₁ = "General" ∨ n₁ = "Electric-Dipole" ∨ n₁ = "Long-Range")
    (hn₂ : n₂ = "Contact" ∨ n₂ = "General" ∨ n₂ = "Electric-Dipole" ∨ n₂ = "Long-Range") (hr : LongerRange n₁ m₁ n₂ m₂) :
    (q ^ 2 ≤ 2 * M * E → rangeFactor n₁ q m₁ M E ≤ rangeFactor n₂ q m₂ M E) ∧
    (2 * M * E ≤ q ^ 2 → rangeFactor n₂ q m₂ M E ≤ rangeFactor n₁ q m₁ M E) := by
  have eC : ∀ m, rangeFactor "Contact" q m M E = 1 := fun m => by simp [rangeFactor]
  have eG : ∀ m, rangeFactor "General" q m M E = ((q ^ 2 + m ^ 2) / (2 * M * E + m ^ 2)) ^ 2 := fun m => by simp [rangeFactor]
  have eD : ∀ m, rangeFactor "Electric-Dipole" q m M E = q ^ 2 / (2 * M * E) := fun m => by simp [rangeFactor]
  have eL : ∀ m, rangeFactor "Long-Range" q m M E = (q ^ 2 / (2 * M * E)) ^ 2 := fun m => by simp [rangeFactor]
  have hQ : 0 < 2 * M * E := by positivity
  generalize hQe : 2 * M * E = Q at *
  have hq := sq_nonneg q
  generalize hqe : q ^ 2 = s at *
  have g1 : ∀ m : ℝ, 0 ≤ m → s ≤ Q → s / Q ≤ (s + m ^ 2) / (Q + m ^ 2) ∧ (s + m ^ 2) / (Q + m ^ 2) ≤ 1 := fun m hm hs => by
    have : 0 < Q + m ^ 2 := by positivity
    constructor
    · rw [div_le_div_iff₀ hQ this]
      nlinarith [sq_nonneg m]
    · rw [div_le_one this]
      linarith
  have g2 : ∀ m : ℝ, 0 ≤ m → Q ≤ s → (s + m ^ 2) / (Q + m ^ 2) ≤ s / Q ∧ 1 ≤ (s + m ^ 2) / (Q + m ^ 2) := fun m hm hs => by
    have : 0 < Q + m ^ 2 := by positivity
    constructor
    · rw [div_le_div_iff₀ this hQ]
      nlinarith [sq_nonneg m]
    · rw [le_div_iff₀ this]
      linarith
  have g3 : ∀ m m' : ℝ, 0 < m → m ≤ m' → (s ≤ Q → (s + m ^ 2) / (Q + m ^ 2) ≤ (s + m' ^ 2) / (Q + m' ^ 2)) ∧
      (Q ≤ s → (s + m' ^ 2) / (Q + m' ^ 2) ≤ (s + m ^ 2) / (Q + m ^ 2)) := fun m m' hm hmm => by
    have a : 0 < Q + m ^ 2 := by positivity
    have b : 0 < Q + m' ^ 2 := by positivity
    have c : m ^ 2 ≤ m' ^ 2 := by gcongr
    constructor
    · intro hs
      rw [div_le_div_iff₀ a b]
      nlinarith
    · intro hs
      rw [div_le_div_iff₀ b a]
      nlinarith
  have hsQ : 0 ≤ s / Q := by positivity
  have k1 : s ≤ Q → s / Q ≤ 1 := fun hs => (div_le_one hQ).2 hs
  have k2 : Q ≤ s → 1 ≤ s / Q := fun hs => (one_le_div hQ).2 hs
  rcases hr with rfl | rfl | ⟨rfl, rfl, hmm⟩
  · rw [eC]
    rcases hn₁ with rfl | rfl | rfl | rfl
    · rw [eC]; exact ⟨fun _ => le_rfl, fun _ => le_rfl⟩
    · rw [eG]
      exact ⟨fun hs => pow_le_one₀ (by positivity) (g1 m₁ hm₁.le hs).2, fun hs => one_le_pow₀ (g2 m₁ hm₁.le hs).2⟩
    · rw [eD]; exact ⟨k1, k2⟩
    · rw [eL]; exact ⟨fun hs => pow_le_one₀ hsQ (k1 hs), fun hs => one_le_pow₀ (k2 hs)⟩
  · rw [eL]
    rcases hn₂ with rfl | rfl | rfl | rfl
    · rw [eC]; exact ⟨fun hs => pow_le_one₀ hsQ (k1 hs), fun hs => one_le_pow₀ (k2 hs)⟩
    · rw [eG]
      exact ⟨fun hs => pow_le_pow_left₀ hsQ (g1 m₂ hm₂.le hs).1 2, fun hs => pow_le_pow_left₀ (by positivity) (g2 m₂ hm₂.le hs).1 2⟩
    · rw [eD]
      refine ⟨fun hs => ?_, fun hs => ?_⟩
      · have := k1 hs
        nlinarith
      · have := k2 hs
        nlinarith
    · rw [eL]; exact ⟨fun _ => le_rfl, fun _ => le_rfl⟩
  · rw [eG, eG]
    refine ⟨fun hs => pow_le_pow_left₀ (by positivity) ((g3 m₁ m₂ hm₁ hmm).1 hs) 2, fun hs => pow_le_pow_left₀ (by positivity) ((g3 m₁ m₂ hm₁ hmm).2 hs) 2⟩

/-- C98 (detectors). In a detector without energy resolution, a force of longer range gives the smaller rate at recoil energies above the reference
momentum of every isotope, `(α m_e)² ≤ 2 M E`, and the larger one below. -/
theorem C98_rate (hI : I.Homogeneous) (hp : Reachable U p) (h0 : p.setFormFactorDM "Contact" 1 = .ok p₀) (h1 : p.setFormFactorDM n₁ m₁ = .ok p₁)
    (h2 : p.setFormFactorDM n₂ m₂ = .ok p₂) (hm₁ : 0 < m₁) (hm₂ : 0 < m₂) (hr : LongerRange n₁ m₁ n₂ m₂)
    (hres : nd.resolution < 1 / 10 ^ 6 * U.eV) (hlen : nd.nuclei.length ≤ nd.fractions.length) (hfr : ∀ x ∈ nd.fractions, 0 ≤ x)
    (heff : ∀ e ∈ nd.efficiencies, ∀ E, 0 ≤ e E) (hflat : 0 ≤ d.flatEfficiency) (hi : ∀ iso ∈ nd.isotopes, PhysicalIsotope iso) (hE : 0 < E)
    (hc : ∀ iso ∈ nd.isotopes, ∃ r, dRdERIsotope U I E p₀ h iso = .ok r ∧ 0 ≤ r) :
    ((∀ iso ∈ nd.isotopes, (U.aEM * U.mElectron) ^ 2 ≤ 2 * iso.mass * E) → NotMore (nd.dRdE U I d E p₁ h) (nd.dRdE U I d E p₂ h)) ∧
    ((∀ iso ∈ nd.isotopes, 2 * iso.mass * E ≤ (U.aEM * U.mElectron) ^ 2) → NotMore (nd.dRdE U I d E p₂ h) (nd.dRdE U I d E p₁ h)) := by
  set q := U.aEM * U.mElectron
  have hv : ∀ iso ∈ nd.isotopes, dRdERIsotope U I E p₀ h iso = .ok (dRdERIsotope U I E p₀ h iso).valueOr0 ∧ 0 ≤ (dRdERIsotope U I E p₀ h iso).valueOr0 :=
    fun iso hiso => by
      obtain ⟨r, e, hr⟩ := hc iso hiso
      rw [e]
      exact ⟨rfl, hr⟩
  have key : ∀ (n : String) (m : ℝ) (p' : DMParticle), 0 < m → p.setFormFactorDM n m = .ok p' → nd.dRdE U I d E p' h =
      .ok (∑ i : Fin nd.nuclei.length, efficiencyOf nd i E * d.flatEfficiency * nd.fractions.getD i 0 *
        (nd.nuclei[i].isotopes.map fun iso => iso.abundance * (rangeFactor n q m iso.mass E * (dRdERIsotope U I E p₀ h iso).valueOr0)).sum) := by
    intro n m p' hm hp'
    unfold NuclearDetector.dRdE
    rw [if_pos hres]
    refine theoryRate_eq_of hlen fun iso hiso => ?_
    rw [C98_isotope hI hp h0 hp' hm (hi iso hiso).1 hE, (hv iso hiso).1]
    simp [Outcome.scale, Outcome.valueOr0, q]
  have hfr' : ∀ i, 0 ≤ nd.fractions.getD i 0 := fun i => by
    rw [List.getD_eq_getElem?_getD]
    cases hx : nd.fractions[i]? with
    | none => exact le_rfl
    | some x => exact hfr x (List.mem_of_getElem? hx)
  have he : ∀ i, 0 ≤ efficiencyOf nd i E := fun i => by
    have : ∀ j, 0 ≤ nd.efficiencies.getD j (fun _ => 1) E := fun j => by
      by_cases hj : j < nd.efficiencies.length
      · simpa [List.getD, hj] using heff _ (List.getElem_mem hj) E
      · simp [List.getD, not_lt.1 hj]
    unfold efficiencyOf
    split_ifs
    · exact this 0
    · exact this i
    · exact zero_le_one
  have hord : ∀ iso ∈ nd.isotopes, _ := fun iso hiso => rangeFactor_order (q := q) (E := E) (hi iso hiso).1 hE hm₁ hm₂
    (formFactor_call hp h1 hm₁ (hi iso hiso).1 hE).choose_spec.choose_spec.2.1
    (formFactor_call hp h2 hm₂ (hi iso hiso).1 hE).choose_spec.choose_spec.2.1 hr
  have comp : ∀ f g : Isotope → ℝ, (∀ iso ∈ nd.isotopes, f iso ≤ g iso) →
      ∑ i : Fin nd.nuclei.length, efficiencyOf nd i E * d.flatEfficiency * nd.fractions.getD i 0 *
        (nd.nuclei[i].isotopes.map fun iso => iso.abundance * (f iso * (dRdERIsotope U I E p₀ h iso).valueOr0)).sum ≤
      ∑ i : Fin nd.nuclei.length, efficiencyOf nd i E * d.flatEfficiency * nd.fractions.getD i 0 *
        (nd.nuclei[i].isotopes.map fun iso => iso.abundance * (g iso * (dRdERIsotope U I E p₀ h iso).valueOr0)).sum := by
    intro f g hfg
    refine Finset.sum_le_sum fun i _ => mul_le_mul_of_nonneg_left (List.sum_le_sum fun iso hiso => ?_)
      (mul_nonneg (mul_nonneg (he i) hflat) (hfr' i))
    have hmem := mem_isotopes (nd := nd) (List.getElem_mem i.2) hiso
    exact mul_le_mul_of_nonneg_left (mul_le_mul_of_nonneg_right (hfg iso hmem) (hv iso hmem).2) (hi iso hmem).2.2
  rw [key n₁ m₁ p₁ hm₁ h1, key n₂ m₂ p₂ hm₂ h2]
  exact ⟨fun hq => ⟨_, _, rfl, rfl, comp _ _ fun iso hiso => (hord iso hiso).1 (hq iso hiso)⟩,
    fun hq => ⟨_, _, rfl, rfl, comp _ _ fun iso hiso => (hord iso hiso).2 (hq iso hiso)⟩⟩

/-- C98 (bins). A binned analysis with a threshold above the reference momentum of every isotope expects no more events in any bin from a force of longer
range. -/
theorem C98_bins (hI : T.integrate.Exact) (hp : Reachable U p) (h0 : p.setFormFactorDM "Contact" 1 = .ok p₀) (h1 : p.setFormFactorDM n₁ m₁ = .ok p₁)
    (h2 : p.setFormFactorDM n₂ m₂ = .ok p₂) (hm₁ : 0 < m₁) (hm₂ : 0 < m₂) (hr : LongerRange n₁ m₁ n₂ m₂)
    (hres : nd.resolution < 1 / 10 ^ 6 * U.eV) (hlen : nd.nuclei.length ≤ nd.fractions.length) (hfr : ∀ x ∈ nd.fractions, 0 ≤ x)
    (heff : ∀ e ∈ nd.efficiencies, ∀ E, 0 ≤ e E) (hflat : 0 ≤ d.flatEfficiency) (hi : ∀ iso ∈ nd.isotopes, PhysicalIsotope iso)
    (hb : BaseReachable d) (hd : d.analysis = .binnedPoisson) (hn : d.bins + 1 < 2 ^ 32) (hbe : ∀ i < d.bins, 0 ≤ d.binEfficiencies.getD i 0)
    (hex : 0 ≤ d.exposure) (hE : 0 < d.energyThreshold)
    (hc : ∀ E, 0 < E → ∀ iso ∈ nd.isotopes, ∃ r, dRdERIsotope U T.integrate E p₀ h iso = .ok r ∧ 0 ≤ r)
    (hq : ∀ iso ∈ nd.isotopes, (U.aEM * U.mElectron) ^ 2 ≤ 2 * iso.mass * d.energyThreshold)
    (hint : ∀ p' ∈ [p₁, p₂], IntervalIntegrable (fun E => (nd.toClass U T h).dRdE d E p') volume d.energyThreshold d.energyMax) :
    ∃ ss₁ ss₂, (nd.toClass U T h).signalsBinned d p₁ = .ok ss₁ ∧ (nd.toClass U T h).signalsBinned d p₂ = .ok ss₂ ∧ ss₁.length = d.bins ∧
      ss₂.length = d.bins ∧ ∀ i < d.bins, ss₁.getD i 0 ≤ ss₂.getD i 0 := by
  obtain ⟨ss₁, a1, a2, a3⟩ := C37_bin_signals (p := p₁) (C := nd.toClass U T h) hb hd hI hn
  obtain ⟨ss₂, b1, b2, b3⟩ := C37_bin_signals (p := p₂) (C := nd.toClass U T h) hb hd hI hn
  refine ⟨ss₁, ss₂, a1, b1, a2, b2, fun i hlt => ?_⟩
  obtain ⟨-, -, f3, -⟩ := (Detector.baseReachable_inv hb).energies hd
  rw [a3 i hlt, b3 i hlt]
  set w := (d.energyMax - d.energyThreshold) / d.bins
  have hbins : (0 : ℝ) < d.bins := Nat.cast_pos.2 (by omega)
  have hw : 0 ≤ w := div_nonneg (sub_nonneg.2 f3) (Nat.cast_nonneg _)
  have hedge : ∀ k : ℕ, binEdge d.energyThreshold d.energyMax d.bins k = d.energyThreshold + k * w := fun _ => rfl
  have hmax : d.energyThreshold + d.bins * w = d.energyMax := by
    simp only [w]
    field_simp
    ring
  rw [hedge, hedge]
  have l1 : d.energyThreshold + i * w ≤ d.energyThreshold + ((i + 1 : ℕ) : ℝ) * w := by push_cast; linarith
  have l0 : d.energyThreshold ≤ d.energyThreshold + i * w := le_add_of_nonneg_right (by positivity)
  have l2 : d.energyThreshold + ((i + 1 : ℕ) : ℝ) * w ≤ d.energyMax := by
    rw [← hmax]
    have : ((i + 1 : ℕ) : ℝ) ≤ d.bins := by exact_mod_cast hlt
    gcongr
  have sub : Set.uIcc (d.energyThreshold + i * w) (d.energyThreshold + ((i + 1 : ℕ) : ℝ) * w) ⊆ Set.uIcc d.energyThreshold d.energyMax := by
    rw [Set.uIcc_of_le l1, Set.uIcc_of_le f3]
    exact Set.Icc_subset_Icc l0 l2
  have := hbe i hlt
  refine mul_le_mul_of_nonneg_left (mul_le_mul_of_nonneg_left ?_ hex) this
  refine intervalIntegral.integral_mono_on l1 ((hint p₁ (by simp)).mono_set sub) ((hint p₂ (by simp)).mono_set sub) fun E hE' => ?_
  have hEpos : 0 < E := hE.trans_le (l0.trans hE'.1)
  obtain ⟨x, y, e1, e2, hxy⟩ := (C98_rate (d := d) (h := h) hI.homogeneous hp h0 h1 h2 hm₁ hm₂ hr hres hlen hfr heff hflat hi hEpos (hc E hEpos)).1 fun iso hiso =>
    (hq iso hiso).trans (by
      have := (hi iso hiso).1
      have := l0.trans hE'.1
      gcongr)
  show (nd.dRdE U T.integrate d E p₁ h).valueOr0 ≤ (nd.dRdE U T.integrate d E p₂ h).valueOr0
  rw [e1, e2]
  exact hxy

theorem formFactor_parameter (hp : Reachable U p) (h1 : p.setFormFactorDM n₁ m₁ = .ok p₁) (t : String) :
    p₁.getInteractionParameter U t = p.getInteractionParameter U t := by
  unfold setFormFactorDM at h1
  rcases reachable_kind hp with ⟨h2, -⟩ | ⟨ff', m', h2, -⟩
  · simp only [h2] at h1
    cases h1
  · simp only [h2] at h1
    split at h1
    · cases h1
    · cases h1
      rfl

/-- C98 (limits). So the limit on the reference cross section is not stronger for a force of longer range: for a binned analysis under the conditions of
`C98_bins`, whatever was observed and whatever background is expected. -/
theorem C98_limit {c₁ c₂ cert : ℝ} {ss₁ ss₂ : List ℝ} (hR : T.findRoot.Exact) (hI : T.integrate.Exact) (hp : Reachable U p)
    (h0 : p.setFormFactorDM "Contact" 1 = .ok p₀) (h1 : p.setFormFactorDM n₁ m₁ = .ok p₁)
    (h2 : p.setFormFactorDM n₂ m₂ = .ok p₂) (hm₁ : 0 < m₁) (hm₂ : 0 < m₂) (hr : LongerRange n₁ m₁ n₂ m₂)
    (hres : nd.resolution < 1 / 10 ^ 6 * U.eV) (hlen : nd.nuclei.length ≤ nd.fractions.length) (hfr : ∀ x ∈ nd.fractions, 0 ≤ x)
    (heff : ∀ e ∈ nd.efficiencies, ∀ E, 0 ≤ e E) (hflat : 0 ≤ d.flatEfficiency) (hi : ∀ iso ∈ nd.isotopes, PhysicalIsotope iso)
    (hb : BaseReachable d) (hn : d.bins + 1 < 2 ^ 32) (hbe : ∀ i < d.bins, 0 ≤ d.binEfficiencies.getD i 0)
    (hex : 0 ≤ d.exposure) (hE : 0 < d.energyThreshold)
    (hc : ∀ E, 0 < E → ∀ iso ∈ nd.isotopes, ∃ r, dRdERIsotope U T.integrate E p₀ h iso = .ok r ∧ 0 ≤ r)
    (hq : ∀ iso ∈ nd.isotopes, (U.aEM * U.mElectron) ^ 2 ≤ 2 * iso.mass * d.energyThreshold)
    (hint : ∀ p' ∈ [p₁, p₂], IntervalIntegrable (fun E => (nd.toClass U T h).dRdE d E p') volume d.energyThreshold d.energyMax)
    (hS₁ : SeesInBins U T h (.nuclear d nd) p₁ c₁ ss₁) (hS₂ : SeesInBins U T h (.nuclear d nd) p₂ c₂ ss₂)
    {r₁ r₂ : Detector × DMParticle × ℝ} (g1 : d.upperLimit U T (nd.toClass U T h) p₁ cert = .ok r₁)
    (g2 : d.upperLimit U T (nd.toClass U T h) p₂ cert = .ok r₂) (hx₁ : 0 < r₁.2.2) (hx₂ : 0 < r₂.2.2) : r₂.2.2 ≤ r₁.2.2 := by
  obtain ⟨t₁, t₂, e1, e2, -, -, hle⟩ := C98_bins hI hp h0 h1 h2 hm₁ hm₂ hr hres hlen hfr heff hflat hi hb hS₁.binned hn hbe hex hE hc hq hint
  have s1 : (nd.toClass U T h).signalsBinned d p₁ = .ok ss₁ := hS₁.signal
  have s2 : (nd.toClass U T h).signalsBinned d p₂ = .ok ss₂ := hS₂.signal
  rw [s1] at e1
  rw [s2] at e2
  cases e1
  cases e2
  have hpar : c₁ = c₂ := by
    have a := hS₁.parameter
    have b := hS₂.parameter
    rw [formFactor_parameter hp h1] at a
    rw [formFactor_parameter hp h2, a] at b
    exact Outcome.ok.inj b
  subst hpar
  have hpos := hS₁.positive
  have := C87_comparison_binned (k := 1) hS₂ hS₁ hR hR rfl (fun _ _ => rfl) (fun _ _ => rfl) (fun i hlt => by
    rw [one_mul]
    have := hle i hlt
    gcongr) g2 g1 hx₂ hx₁
  rwa [one_mul] at this

/-- Non-vacuity: for the same particle a mediator of mass 1, one of mass 2, and a contact interaction, seen by hydrogen in the standard halo `SHM.sample`. -/
example (hI : I.Exact) (hE : (U.aEM * U.mElectron) ^ 2 ≤ 2 * E) (hE0 : 0 < E) :
    ∃ p p₁ p₂ : DMParticle, Reachable U p ∧ p.setFormFactorDM "General" 1 = .ok p₁ ∧ p.setFormFactorDM "General" 2 = .ok p₂ ∧ p₁ ≠ p₂ ∧
      NotMore ((sampleNuclear 0).dRdE U I (Detector.make "x" 1 "Nuclei") E p₁ (Distribution.ofSHM SHM.sample))
        ((sampleNuclear 0).dRdE U I (Detector.make "x" 1 "Nuclei") E p₂ (Distribution.ofSHM SHM.sample)) := by
  obtain ⟨c, hc0, hc, hmk, _⟩ := makeSI_eq (U := U) (m := 1) (s := 1) one_pos zero_le_one
  have hs : SHM.sample.Physical ∧ SHM.sample.vObs ≤ SHM.sample.vEsc ∧ 0 ≤ SHM.sample.density := by
    refine ⟨⟨?_, ?_⟩, ?_, ?_⟩ <;> norm_num [SHM.sample, SHM.makeSpeed, SHM.normalize]
  obtain ⟨g1, g2⟩ := C96_standard_halo (U := Units.sample) SHM.sample_reachable hs.1 hs.2.1
  set p := DMParticle.setLowMassMode { DMParticle.standard U 1 1 (.SI .contact (U.aEM * U.mElectron) 0) with fp := c, fn := c } true
  have hR : Reachable U p := ⟨_, [.setLowMassMode true], makeSI_built one_pos hmk, by simp [ValidOp], rfl⟩
  have hiso : ∀ iso ∈ (sampleNuclear 0).isotopes, iso = sampleIsotope := fun iso hi => by
    have : (sampleNuclear 0).isotopes = [sampleIsotope] := rfl
    rwa [this, List.mem_singleton] at hi
  have hphys : PhysicalIsotope sampleIsotope := by norm_num [PhysicalIsotope, sampleIsotope]
  have a0 : p.setFormFactorDM "Contact" 1 = .ok { p with interaction := .SI .contact (U.aEM * U.mElectron) 0 } := by
    simp [p, setFormFactorDM, formFactorOfName, setLowMassMode, standard]
  have a1 : p.setFormFactorDM "General" 1 = .ok { p with interaction := .SI .general (U.aEM * U.mElectron) 1 } := by
    simp [p, setFormFactorDM, formFactorOfName, setLowMassMode, standard]
  have a2 : p.setFormFactorDM "General" 2 = .ok { p with interaction := .SI .general (U.aEM * U.mElectron) 2 } := by
    simp [p, setFormFactorDM, formFactorOfName, setLowMassMode, standard]
  refine ⟨p, _, _, hR, a1, a2, fun e => ?_, (C98_rate hI.homogeneous hR a0 a1 a2 one_pos two_pos (.inr (.inr ⟨rfl, rfl, by norm_num⟩))
    (show (0 : ℝ) < _ by have := U.eV_pos; positivity) le_rfl (by simp [sampleNuclear]) (by simp [sampleNuclear]) (by simp [Detector.make])
    (fun iso hi => hiso iso hi ▸ hphys) hE0 fun iso hi => ?_).1 fun iso hi => ?_⟩
  · have := congrArg DMParticle.interaction e
    simp at this
  · rw [hiso iso hi]
    obtain ⟨r, r', e1, -, h3, h4⟩ := C96_isotope (U := U) (h := Distribution.ofSHM SHM.sample) hI hphys (p := { p with interaction := .SI .contact (U.aEM * U.mElectron) 0 })
      (.inr rfl) one_pos hs.2.2 zero_le_one (fun _ _ => g1) g2 E E hE0 le_rfl
    exact ⟨r, e1, h3.trans h4⟩
  · rw [hiso iso hi]
    simpa [sampleIsotope] using hE

end Obscura
