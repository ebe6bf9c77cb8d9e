import Verif.Lemmas.ScaledRates
import Verif.Props.EtaBounds

/-!
# C100: rates of the Migdal effect at different masses
-/

namespace Obscura

open Spec DMParticle MeasureTheory

variable {U : Units} {I : Integrator} {T : Tools} {d : Detector} {x : IonizationDetector} {p p₁ p₂ : DMParticle} {h : Distribution} {iso : Isotope} {e : AtomicElectron} {n : Nucleus}
  {m₁ m₂ E : ℝ}

theorem etaRegular_of_falling (hη : FallingEta h) : EtaRegular h fun v => (h.eta v).valueOr0 := by
  refine ⟨fun v h0 h1 => ?_, fun v h0 h1 => ?_, fun v w h0 hvw h1 => ?_⟩
  · obtain ⟨x, y, e1, -⟩ := hη v v h0 le_rfl h1
    rw [e1]; rfl
  · obtain ⟨x, y, e1, e2, y0, -⟩ := hη v v h0 le_rfl h1
    rw [e2]; exact y0
  · obtain ⟨x, y, e1, e2, -, hle⟩ := hη v w h0 hvw h1
    rw [e1, e2]; exact hle

theorem reducedMass_le {M : ℝ} (hM : 0 < M) (hm₁ : 0 < m₁) (hmm : m₁ ≤ m₂) : reducedMass m₁ M ≤ reducedMass m₂ M := by
  have hm₂ := hm₁.trans_le hmm
  unfold reducedMass
  rw [div_le_div_iff₀ (by positivity) (by positivity)]
  nlinarith [mul_pos hM hM]

theorem vMinimalMigdal_anti {ER M B : ℝ} (hM : 0 < M) (hER : 0 < ER) (hm₁ : 0 < m₁) (hmm : m₁ ≤ m₂) : vMinimalMigdal ER E m₂ M B ≤ vMinimalMigdal ER E m₁ M B := by
  have a1 := reducedMass_pos hm₁ hM
  have a2 := reducedMass_le hM hm₁ hmm
  unfold vMinimalMigdal
  gcongr

theorem migdal_masses (hI : I.Exact) (hi : PhysicalIsotope iso) (hp : Reachable U p) (h1 : p.setMass U m₁ = .ok p₁) (h2 : p.setMass U m₂ = .ok p₂)
    (hm₁ : 0 < m₁) (hmm : m₁ ≤ m₂) (hh : h.useEta = true) (hv : 0 < h.vMax) (hdens : 0 ≤ h.density) (hη : FallingEta h) (hB : 0 < e.binding) (hE : 0 < E)
    (hF : ∀ q E, 0 ≤ e.ionizationFormFactor U q E)
    (hσ : LocallyIntegrableOn (fun ER => migdalCrossSection U p₂ iso e ER E (1 / 1000)) (Set.Ioi 0)) :
    massFactor U m₁ * dRdEeMigdalIsotope U I E p₁ h iso e ≤ massFactor U m₂ * dRdEeMigdalIsotope U I E p₂ h iso e := by
  have hm₂ := hm₁.trans_le hmm
  have hb := reachable_inv hp
  have hM := hi.1
  have u1 := reducedMass_pos hm₁ U.mProton_pos
  have u2 := reducedMass_pos hm₂ U.mProton_pos
  obtain ⟨fp, fn, e1, e2, -⟩ := setMass_couplings hb h1 h2 hm₁ hm₂
  have q1 : p₁.mass = m₁ ∧ p₁.useEtaFunction = true := by rw [e1]; exact ⟨rfl, hb.eta⟩
  have q2 : p₂.mass = m₂ ∧ p₂.useEtaFunction = true := by rw [e2]; exact ⟨rfl, hb.eta⟩
  clear e1 e2
  have hx : ∀ ER, reducedMass m₁ U.mProton ^ 2 * p₁.d2SigmaMigdal U ER E (1 / 1000) iso e = reducedMass m₂ U.mProton ^ 2 * p₂.d2SigmaMigdal U ER E (1 / 1000) iso e := fun ER => by
    have := setMass_crossSection (U := U) (E := ER) (iso := iso) hb h1 h2 hm₁ hm₂ (1 / 1000)
    unfold d2SigmaMigdal
    linear_combination (1 / 4 / E * e.ionizationFormFactor U (U.mElectron / iso.mass * Real.sqrt (2 * iso.mass * ER)) E) * this
  have hcs : ∀ p' : DMParticle, ∀ ER, 0 ≤ p'.d2SigmaMigdal U ER E (1 / 1000) iso e := fun p' ER => by
    rw [← migdal_eq]; exact d2SigmaMigdal_nonneg hi hF hE.le ER _
  have hσ2 : ∀ a b, 0 < a → IntegrableOn (fun ER => p₂.d2SigmaMigdal U ER E (1 / 1000) iso e) (Set.Icc a b) := fun a b ha => by
    have := hσ.integrableOn_compact_subset (t := Set.Icc a b) (fun y hy => ha.trans_le hy.1) isCompact_Icc
    simpa only [migdal_eq] using this
  have hσ1 : ∀ a b, 0 < a → IntegrableOn (fun ER => p₁.d2SigmaMigdal U ER E (1 / 1000) iso e) (Set.Icc a b) := fun a b ha => by
    have e : (fun ER => p₁.d2SigmaMigdal U ER E (1 / 1000) iso e) =
        fun ER => reducedMass m₂ U.mProton ^ 2 / reducedMass m₁ U.mProton ^ 2 * p₂.d2SigmaMigdal U ER E (1 / 1000) iso e := by
      funext ER
      have := hx ER
      field_simp
      linarith
    rw [e]
    exact (hσ2 a b ha).const_mul _
  have hreg := etaRegular_of_falling hη
  have p1m : 0 < p₁.mass := by rw [q1.1]; exact hm₁
  have p2m : 0 < p₂.mass := by rw [q2.1]; exact hm₂
  obtain ⟨hlo, hhi1⟩ := migdal_range_pos (h := h) (e := e) (p := p₁) hM hv hB p1m
  obtain ⟨-, hhi2⟩ := migdal_range_pos (h := h) (e := e) (p := p₂) hM hv hB p2m
  have int1 : ∀ a b, 0 < a → IntegrableOn (migdalIntegrand U I E p₁ h iso e) (Set.Icc a b) := fun a b ha =>
    migdalIntegrand_integrable q1.2 hh p1m hM hv hB hE hreg ha (hσ1 a b ha)
  have int2 : ∀ a b, 0 < a → IntegrableOn (migdalIntegrand U I E p₂ h iso e) (Set.Icc a b) := fun a b ha =>
    migdalIntegrand_integrable q2.2 hh p2m hM hv hB hE hreg ha (hσ2 a b ha)
  have nn : ∀ p' : DMParticle, p'.useEtaFunction = true → 0 < p'.mass → ∀ ER, 0 < ER → 0 ≤ migdalIntegrand U I E p' h iso e ER := fun p' hp' hm' ER hER => by
    rw [migdalIntegrand_value hp' hh hER]
    split_ifs with g
    · exact le_rfl
    · have := hcs p' ER
      have := hreg.nonneg _ (vMinimalMigdal_pos hm' hM hER (by linarith : 0 < e.binding + E)).le (not_le.1 g).le
      positivity
  have pt : ∀ ER, 0 < ER → massFactor U m₁ * migdalIntegrand U I E p₁ h iso e ER ≤ massFactor U m₂ * migdalIntegrand U I E p₂ h iso e ER := fun ER hER => by
    have hvv := vMinimalMigdal_anti (E := E) (B := e.binding) hM hER hm₁ hmm
    have v2 := (vMinimalMigdal_pos (m := m₂) hm₂ hM hER (by linarith : 0 < e.binding + E)).le
    by_cases g : h.vMax ≤ vMinimalMigdal ER E p₁.mass iso.mass e.binding
    · rw [migdalIntegrand_value q1.2 hh hER, if_pos g, mul_zero]
      exact mul_nonneg (massFactor_pos hm₂).le (nn _ q2.2 p2m _ hER)
    · have g' : ¬ h.vMax ≤ vMinimalMigdal ER E p₂.mass iso.mass e.binding := by
        rw [q1.1] at g
        rw [q2.1]
        exact fun hc => g (hc.trans hvv)
      rw [migdalIntegrand_value q1.2 hh hER, migdalIntegrand_value q2.2 hh hER, if_neg g, if_neg g', massFactor_eq, massFactor_eq, q1.1, q2.1]
      rw [q1.1] at g
      have a1 := hreg.antitone _ _ v2 hvv (not_le.1 g).le
      have a0 := hreg.nonneg _ (v2.trans hvv) (not_le.1 g).le
      set X := (h.eta (vMinimalMigdal ER E m₂ iso.mass e.binding)).valueOr0
      set Y := (h.eta (vMinimalMigdal ER E m₁ iso.mass e.binding)).valueOr0
      have l1 : m₁ * reducedMass m₁ U.mProton ^ 2 * (h.density / m₁ * Y * p₁.d2SigmaMigdal U ER E (1 / 1000) iso e * (1 / 1000) * (1 / 1000)) =
          h.density * (reducedMass m₁ U.mProton ^ 2 * p₁.d2SigmaMigdal U ER E (1 / 1000) iso e) * (1 / 1000) * (1 / 1000) * Y := by
        field_simp
      have l2 : m₂ * reducedMass m₂ U.mProton ^ 2 * (h.density / m₂ * X * p₂.d2SigmaMigdal U ER E (1 / 1000) iso e * (1 / 1000) * (1 / 1000)) =
          h.density * (reducedMass m₁ U.mProton ^ 2 * p₁.d2SigmaMigdal U ER E (1 / 1000) iso e) * (1 / 1000) * (1 / 1000) * X := by
        rw [hx]
        field_simp
      rw [l1, l2]
      have := hcs p₁ ER
      gcongr
  have hmax : erMaxMigdal h.vMax p₁.mass iso.mass ≤ erMaxMigdal h.vMax p₂.mass iso.mass := by
    rw [q1.1, q2.1]
    have a1 := reducedMass_pos hm₁ hM
    have a2 := reducedMass_le hM hm₁ hmm
    have a3 := reducedMass_pos hm₂ hM
    unfold erMaxMigdal
    gcongr
  have F2 := massFactor_pos (U := U) hm₂
  unfold dRdEeMigdalIsotope
  rw [hI, hI, mul_left_comm, mul_left_comm (massFactor U m₂)]
  refine mul_le_mul_of_nonneg_left ?_ (by positivity)
  set a := erMinMigdal h.vMax iso.mass e.binding
  set b₁ := erMaxMigdal h.vMax p₁.mass iso.mass
  set b₂ := erMaxMigdal h.vMax p₂.mass iso.mass
  have zero1 : b₁ < a → ∫ x in a..b₁, migdalIntegrand U I E p₁ h iso e x = 0 := fun hr => by
    rw [intervalIntegral.integral_congr (g := fun _ => 0), intervalIntegral.integral_zero]
    intro ER hER
    rw [Set.uIcc_of_ge hr.le] at hER
    refine migdalIntegrand_zero q1.2 hh p1m hM hv hB hE (hhi1.trans_le hER.1) ?_
    rcases hER.2.lt_or_eq with h1 | h1
    · exact .inl h1
    · exact .inr (by rw [h1]; exact hr)
  have zero2 : b₂ < a → ∫ x in a..b₂, migdalIntegrand U I E p₂ h iso e x = 0 := fun hr => by
    rw [intervalIntegral.integral_congr (g := fun _ => 0), intervalIntegral.integral_zero]
    intro ER hER
    rw [Set.uIcc_of_ge hr.le] at hER
    refine migdalIntegrand_zero q2.2 hh p2m hM hv hB hE (hhi2.trans_le hER.1) ?_
    rcases hER.2.lt_or_eq with h1 | h1
    · exact .inl h1
    · exact .inr (by rw [h1]; exact hr)
  rcases lt_or_ge b₂ a with g2 | g2
  · rw [zero1 (hmax.trans_lt g2), zero2 g2]
    simp
  have pos2 : ∀ x y, 0 < x → x ≤ y → 0 ≤ ∫ z in x..y, migdalIntegrand U I E p₂ h iso e z := fun x y hx hxy =>
    intervalIntegral.integral_nonneg hxy fun z hz => nn _ q2.2 p2m _ (hx.trans_le hz.1)
  rcases lt_or_ge b₁ a with g1 | g1
  · rw [zero1 g1, mul_zero]
    exact mul_nonneg F2.le (pos2 _ _ hlo g2)
  have ii : ∀ f : ℝ → ℝ, (∀ a b, 0 < a → IntegrableOn f (Set.Icc a b)) → ∀ x y, 0 < x → x ≤ y → IntervalIntegrable f volume x y := fun f hf x y hx hxy => by
    rw [intervalIntegrable_iff_integrableOn_Icc_of_le hxy]
    exact hf x y hx
  have split := intervalIntegral.integral_add_adjacent_intervals (ii _ int2 a b₁ hlo g1) (ii _ int2 b₁ b₂ hhi1 hmax)
  have rest := pos2 _ _ hhi1 hmax
  have first : massFactor U m₁ * ∫ x in a..b₁, migdalIntegrand U I E p₁ h iso e x ≤ massFactor U m₂ * ∫ x in a..b₁, migdalIntegrand U I E p₂ h iso e x := by
    rw [← intervalIntegral.integral_const_mul (massFactor U m₁), ← intervalIntegral.integral_const_mul (massFactor U m₂)]
    exact intervalIntegral.integral_mono_on g1 ((ii _ int1 a b₁ hlo g1).const_mul _) ((ii _ int2 a b₁ hlo g1).const_mul _) fun x hx => pt x (hlo.trans_le hx.1)
  rw [← split]
  nlinarith

/-- C100 (Migdal effect). The same holds for the ionization of every shell by the Migdal effect, at every electron energy. -/
theorem C100_migdal (hI : I.Exact) (hi : ∀ iso ∈ n.isotopes, PhysicalIsotope iso) (hp : Reachable U p) (h1 : p.setMass U m₁ = .ok p₁) (h2 : p.setMass U m₂ = .ok p₂)
    (hm₁ : 0 < m₁) (hmm : m₁ ≤ m₂) (hh : h.useEta = true) (hv : 0 < h.vMax) (hdens : 0 ≤ h.density) (hη : FallingEta h) (hB : 0 < e.binding) (hE : 0 < E)
    (hF : ∀ q E, 0 ≤ e.ionizationFormFactor U q E) (hflat : 0 ≤ d.flatEfficiency)
    (hσ : ∀ iso ∈ n.isotopes, LocallyIntegrableOn (fun ER => migdalCrossSection U p₂ iso e ER E (1 / 1000)) (Set.Ioi 0)) :
    ∃ r₁ r₂, shellRateMigdal U I h d E p₁ n e = .ok r₁ ∧ shellRateMigdal U I h d E p₂ n e = .ok r₂ ∧ massFactor U m₁ * r₁ ≤ massFactor U m₂ * r₂ := by
  refine ⟨_, _, rfl, rfl, ?_⟩
  rw [mul_left_comm, mul_left_comm (massFactor U m₂)]
  refine mul_le_mul_of_nonneg_left ?_ hflat
  unfold dRdEeMigdal
  rw [← List.foldl_map (f := fun iso : Isotope => iso.abundance * dRdEeMigdalIsotope U I E p₁ h iso e), foldl_add_eq_sum,
    ← List.foldl_map (f := fun iso : Isotope => iso.abundance * dRdEeMigdalIsotope U I E p₂ h iso e), foldl_add_eq_sum, ← sum_scale, ← sum_scale]
  refine List.sum_le_sum fun iso hx => mul_le_mul_of_nonneg_left ?_ (hi iso hx).2.2
  exact migdal_masses hI (hi iso hx) hp h1 h2 hm₁ hmm hh hv hdens hη hB hE hF (hσ iso hx)

/-- A detector for the Migdal effect with sensible settings: physical isotopes, bound shells with form factors that are not negative and with positive
tabulated momenta, mass fractions, efficiencies and an exposure that are not negative, and cross sections that can be integrated over recoil energies. -/
structure ProperMigdal (U : Units) (d : Detector) (x : IonizationDetector) (p : DMParticle) : Prop where
  fractions : ∀ y ∈ x.fractions, 0 ≤ y
  exposure : 0 ≤ d.exposure
  flat : 0 ≤ d.flatEfficiency
  efficiencies : ∀ y ∈ d.binEfficiencies, 0 ≤ y
  isotopes : ∀ a ∈ x.atoms, ∀ iso ∈ a.nucleus.isotopes, PhysicalIsotope iso
  bound : ∀ a ∈ x.atoms, ∀ e ∈ a.electrons, 0 < e.binding
  formFactors : ∀ a ∈ x.atoms, ∀ e ∈ a.electrons, ∀ q E, 0 ≤ e.ionizationFormFactor U q E
  grid : ∀ a ∈ x.atoms, ∀ e ∈ a.electrons, 0 ≤ e.dlogk ∧ ∀ k ∈ e.kGrid, 0 < k
  integrable : ∀ a ∈ x.atoms, ∀ e ∈ a.electrons, ∀ iso ∈ a.nucleus.isotopes, ∀ E, 0 < E →
    LocallyIntegrableOn (fun ER => migdalCrossSection U p iso e ER E (1 / 1000)) (Set.Ioi 0)

theorem migdal_shells (hI : I.Exact) (hp : Reachable U p) (h1 : p.setMass U m₁ = .ok p₁) (h2 : p.setMass U m₂ = .ok p₂)
    (hm₁ : 0 < m₁) (hmm : m₁ ≤ m₂) (hh : h.useEta = true) (hv : 0 < h.vMax) (hdens : 0 ≤ h.density) (hη : FallingEta h) (hP : ProperMigdal U d x p₂) :
    ScaledShells U x (massFactor U m₁) (massFactor U m₂) (fun E n e => shellRateMigdal U I h d E p₁ n e) fun E n e => shellRateMigdal U I h d E p₂ n e := by
  intro a ha e he
  refine ⟨(hP.grid a ha e he).1, fun k hk y z hy hz => ?_⟩
  have hk := (hP.grid a ha e he).2 k hk
  have hE : 0 < k * k / 2 / U.mElectron := by have := U.mElectron_pos; positivity
  obtain ⟨r₁, r₂, e1, e2, hle⟩ := C100_migdal (d := d) hI (hP.isotopes a ha) hp h1 h2 hm₁ hmm hh hv hdens hη (hP.bound a ha e he) hE (hP.formFactors a ha e he) hP.flat
    fun iso hi => hP.integrable a ha e he iso hi _ hE
  dsimp only at hy hz
  rw [e1] at hy
  rw [e2] at hz
  cases hy
  cases hz
  exact hle

/-- C100 (Migdal effect, events). So do the events expected by a detector that counts the electrons of the Migdal effect. -/
theorem C100_migdal_events (hI : T.integrate.Exact) (hp : Reachable U p) (h1 : p.setMass U m₁ = .ok p₁) (h2 : p.setMass U m₂ = .ok p₂)
    (hm₁ : 0 < m₁) (hmm : m₁ ≤ m₂) (hh : h.useEta = true) (hv : 0 < h.vMax) (hdens : 0 ≤ h.density) (hη : FallingEta h) (hP : ProperMigdal U d x p₂)
    (ha : d.analysis ≠ .binnedPoisson) (hx : x.usingElectronThreshold = true) {s₁ s₂ : ℝ}
    (g1 : ((AnyDetector.migdal d x).toClass U T h).signalsTotal d p₁ = .ok s₁) (g2 : ((AnyDetector.migdal d x).toClass U T h).signalsTotal d p₂ = .ok s₂) :
    massFactor U m₁ * s₁ ≤ massFactor U m₂ * s₂ := by
  have g1 : x.signalsTotal U (shellRateMigdal U T.integrate h) T d p₁ h = .ok s₁ := g1
  have g2 : x.signalsTotal U (shellRateMigdal U T.integrate h) T d p₂ h = .ok s₂ := g2
  unfold IonizationDetector.signalsTotal at g1 g2
  rw [if_neg ha, if_pos hx] at g1 g2
  exact Scaled.sumOver (fun ne _ => Scaled.times hP.exposure
    (rNe_scaled hP.fractions (migdal_shells hI hp h1 h2 hm₁ hmm hh hv hdens hη hP) ne)) s₁ s₂ g1 g2

/-- C100 (Migdal effect, bins). So do the events expected in every bin of the number of electrons. -/
theorem C100_migdal_bins (hI : T.integrate.Exact) (hp : Reachable U p) (h1 : p.setMass U m₁ = .ok p₁) (h2 : p.setMass U m₂ = .ok p₂)
    (hm₁ : 0 < m₁) (hmm : m₁ ≤ m₂) (hh : h.useEta = true) (hv : 0 < h.vMax) (hdens : 0 ≤ h.density) (hη : FallingEta h) (hP : ProperMigdal U d x p₂)
    (he : d.usingEnergyBins = false) (hx : x.usingElectronBins = true) {ss₁ ss₂ : List ℝ}
    (g1 : ((AnyDetector.migdal d x).toClass U T h).signalsBinned d p₁ = .ok ss₁) (g2 : ((AnyDetector.migdal d x).toClass U T h).signalsBinned d p₂ = .ok ss₂) (i : ℕ) :
    massFactor U m₁ * ss₁.getD i 0 ≤ massFactor U m₂ * ss₂.getD i 0 := by
  have g1 : x.signalsBinned U (shellRateMigdal U T.integrate h) T d p₁ h = .ok ss₁ := g1
  have g2 : x.signalsBinned U (shellRateMigdal U T.integrate h) T d p₂ h = .ok ss₂ := g2
  unfold IonizationDetector.signalsBinned IonizationDetector.signalsElectronBins at g1 g2
  by_cases hb : d.analysis ≠ .binnedPoisson
  · rw [if_pos hb] at g1
    cases g1
  rw [if_neg hb, if_neg (by simp [he]), if_pos hx, if_neg (by simp [hx])] at g1 g2
  refine collect_scaled g1 g2 (fun j _ y z hy hz => ?_) i
  obtain ⟨r₁, k1, hy⟩ := Outcome.bind_eq_ok.1 hy
  obtain ⟨r₂, k2, hz⟩ := Outcome.bind_eq_ok.1 hz
  obtain ⟨f, hf, hy⟩ := Outcome.bind_eq_ok.1 hy
  rw [hf, Outcome.bind_ok] at hz
  cases hy
  cases hz
  have := rNe_scaled hP.fractions (migdal_shells hI hp h1 h2 hm₁ hmm hh hv hdens hη hP) _ _ _ k1 k2
  have f0 := hP.efficiencies f (List.mem_of_getElem? (vecGet_some hf))
  have := mul_le_mul_of_nonneg_left this (mul_nonneg f0 hP.exposure)
  linarith

/-- C100 (Migdal effect, limits). So limits from counting electrons of the Migdal effect weaken with the mass at most like the mass times the square of
the reduced mass with the proton. -/
theorem C100_migdal_limit {c₁ c₂ cert s₁ s₂ : ℝ} (hR : T.findRoot.Exact) (hI : T.integrate.Exact) (hp : Reachable U p) (h1 : p.setMass U m₁ = .ok p₁)
    (h2 : p.setMass U m₂ = .ok p₂) (hm₁ : 0 < m₁) (hmm : m₁ ≤ m₂) (hh : h.useEta = true) (hv : 0 < h.vMax) (hdens : 0 ≤ h.density) (hη : FallingEta h)
    (hP : ProperMigdal U d x p₂) (hx : x.usingElectronThreshold = true)
    (hS₁ : Sees U T h (.migdal d x) p₁ c₁ s₁) (hS₂ : Sees U T h (.migdal d x) p₂ c₂ s₂) {r₁ r₂ : Detector × DMParticle × ℝ}
    (g1 : d.upperLimit U T ((AnyDetector.migdal d x).toClass U T h) p₁ cert = .ok r₁)
    (g2 : d.upperLimit U T ((AnyDetector.migdal d x).toClass U T h) p₂ cert = .ok r₂) (hx₁ : 0 < r₁.2.2) (hx₂ : 0 < r₂.2.2) :
    r₂.2.2 / massFactor U m₂ ≤ r₁.2.2 / massFactor U m₁ := by
  have hm₂ := hm₁.trans_le hmm
  have hle := C100_migdal_events hI hp h1 h2 hm₁ hmm hh hv hdens hη hP (fun hb => by have : d.analysis = .poisson := hS₁.counting; rw [hb] at this; cases this)
    hx hS₁.signal hS₂.signal
  have hpar : c₁ = c₂ := by
    have a := hS₁.parameter
    have b := hS₂.parameter
    rw [setMass_parameter (reachable_inv hp) h1 h2 hm₁ hm₂, b] at a
    exact (Outcome.ok.inj a).symm
  subst hpar
  have hpos := hS₁.positive
  have v1 := hS₁.visible
  have v2 := hS₂.visible
  have F1 := massFactor_pos (U := U) hm₁
  have F2 := massFactor_pos (U := U) hm₂
  have := C87_comparison hS₂ hS₁ hR hR rfl rfl g2 g1 hx₂ hx₁
  rw [mul_div_assoc', mul_div_assoc', div_left_inj' hpos.ne'] at this
  rw [div_le_div_iff₀ F2 F1]
  by_contra hlt
  have hlt := not_le.1 hlt
  have l1 : r₁.2.2 * massFactor U m₂ * s₂ < r₂.2.2 * massFactor U m₁ * s₂ := mul_lt_mul_of_pos_right hlt v2
  have l2 : r₁.2.2 * (massFactor U m₁ * s₁) ≤ r₁.2.2 * (massFactor U m₂ * s₂) := mul_le_mul_of_nonneg_left hle hx₁.le
  have l3 : r₂.2.2 * s₂ * massFactor U m₁ = r₁.2.2 * s₁ * massFactor U m₁ := by rw [this]
  linarith

/-- A shell with three tabulated momenta and constant response functions. -/
noncomputable def sampleShell : AtomicElectron :=
  { name := "1s", n := 1, l := 0, binding := 1, secondaries := 0, kMin := 1, kMax := 4, qMin := 1, qMax := 8, dlogk := 1, dlogq := 1,
    kGrid := [1, 2, 4], qGrid := [1, 8], responses := List.replicate 4 fun _ _ => 1 }

theorem sampleShell_formFactor (q E : ℝ) : sampleShell.ionizationFormFactor U q E =
    if 1.000001 * 8 < q ∨ 1.000001 * 4 < Real.sqrt (2 * U.mElectron * E) ∨ Real.sqrt (2 * U.mElectron * E) < 0.999999 * 1 then 0 else if 1 < q then 1 else q * q := by
  have hget : vecGet sampleShell.responses 0 = .ok fun _ _ => 1 := rfl
  unfold AtomicElectron.ionizationFormFactor AtomicElectron.response
  dsimp only
  rw [hget]
  by_cases h1 : 1.000001 * sampleShell.qMax < q ∨ 1.000001 * sampleShell.kMax < Real.sqrt (2 * U.mElectron * E) ∨ Real.sqrt (2 * U.mElectron * E) < 0.999999 * sampleShell.kMin
  · have h1' : 1.000001 * 8 < q ∨ 1.000001 * 4 < Real.sqrt (2 * U.mElectron * E) ∨ Real.sqrt (2 * U.mElectron * E) < 0.999999 * 1 := h1
    rw [if_pos h1, if_pos h1']; rfl
  · rw [if_neg h1, if_pos rfl, Outcome.bind_ok]
    have h1 : ¬ (1.000001 * 8 < q ∨ 1.000001 * 4 < Real.sqrt (2 * U.mElectron * E) ∨ Real.sqrt (2 * U.mElectron * E) < 0.999999 * 1) := h1
    rw [if_neg h1]
    by_cases h2 : sampleShell.qMin < q
    · have h2' : 1 < q := h2
      rw [if_pos h2, if_pos h2']; rfl
    · have h2' : ¬ 1 < q := h2
      rw [if_neg h2, if_neg h2']
      simp [Outcome.valueOr0, sampleShell]

/-- Non-vacuity: particles of mass 1 and 3 in the low-mass mode, the standard halo `SHM.sample`, and a detector that counts the electrons that hydrogen
loses from `sampleShell`. -/
theorem migdal_sample (hI : T.integrate.Exact) : ∃ (p p₁ p₂ : DMParticle) (d : Detector) (x : IonizationDetector), Reachable U p ∧ p.setMass U 1 = .ok p₁ ∧
    p.setMass U 3 = .ok p₂ ∧ ProperMigdal U d x p₂ ∧ x.atoms ≠ [] ∧ (d.analysis ≠ .binnedPoisson ∧ x.usingElectronThreshold = true) ∧ ∀ s₁ s₂,
    ((AnyDetector.migdal d x).toClass U T (Distribution.ofSHM SHM.sample)).signalsTotal d p₁ = .ok s₁ →
    ((AnyDetector.migdal d x).toClass U T (Distribution.ofSHM SHM.sample)).signalsTotal d p₂ = .ok s₂ → massFactor U 1 * s₁ ≤ massFactor U 3 * s₂ := by
  obtain ⟨c, hc0, hc, hmk, _⟩ := makeSI_eq (U := U) (m := 1) (s := 1) one_pos zero_le_one
  have hs : SHM.sample.Physical ∧ SHM.sample.vObs ≤ SHM.sample.vEsc ∧ 0 ≤ SHM.sample.density ∧ 0 < SHM.sample.vMax := by
    refine ⟨⟨?_, ?_⟩, ?_, ?_, ?_⟩ <;> norm_num [SHM.sample, SHM.makeSpeed, SHM.normalize]
  obtain ⟨g1, g2⟩ := C96_standard_halo (U := Units.sample) SHM.sample_reachable hs.1 hs.2.1
  set p := DMParticle.setLowMassMode { DMParticle.standard U 1 1 (.SI .contact (U.aEM * U.mElectron) 0) with fp := c, fn := c } true
  have hR : Reachable U p := ⟨_, [.setLowMassMode true], makeSI_built one_pos hmk, by simp [ValidOp], rfl⟩
  have hb := reachable_inv hR
  have hm3 := setMass_ok (U := U) hb (m := 3) (by norm_num)
  have hm1 := setMass_ok (U := U) hb (m := 1) one_pos
  obtain ⟨-, -, e1, e2, -⟩ := setMass_couplings hb hm1 hm3 one_pos (by norm_num)
  have hphys : PhysicalIsotope sampleIsotope := by norm_num [PhysicalIsotope, sampleIsotope]
  set a : Atom := { nucleus := { name := "H", Z := some 1, isotopes := [sampleIsotope] }, electrons := [sampleShell], W := 1 }
  set x : IonizationDetector := { IonizationDetector.initial [a] [1] with usingElectronThreshold := true, neThreshold := 1, neMax := 3 }
  set d := Detector.make "H" 1 "Nuclei"
  have hff : ∀ q E, 0 ≤ sampleShell.ionizationFormFactor U q E := fun q E => by
    rw [sampleShell_formFactor]
    split_ifs
    · exact le_rfl
    · exact zero_le_one
    · exact mul_self_nonneg q
  have hP : ProperMigdal U d x (withMass U p 3) :=
    { fractions := by simp [x, IonizationDetector.initial]
      exposure := zero_le_one
      flat := zero_le_one
      efficiencies := by simp [d, Detector.make]
      isotopes := by simpa [x, IonizationDetector.initial, a] using hphys
      bound := by simp [x, IonizationDetector.initial, a, sampleShell]
      formFactors := by
        intro b hb e he
        have hb : b = a := by simpa [x, IonizationDetector.initial] using hb
        subst hb
        have he : e = sampleShell := by simpa [a] using he
        subst he
        exact hff
      grid := by
        intro b hb e he
        have hb : b = a := by simpa [x, IonizationDetector.initial] using hb
        subst hb
        have he : e = sampleShell := by simpa [a] using he
        subst he
        simp [sampleShell]
      integrable := by
        intro b hb e he iso hi E hE
        have hb : b = a := by simpa [x, IonizationDetector.initial] using hb
        subst hb
        have he : e = sampleShell := by simpa [a] using he
        subst he
        have hi : iso = sampleIsotope := by simpa [a] using hi
        subst hi
        obtain ⟨K, hK⟩ : ∃ K, ∀ ER, (withMass U p 3).dSigmadERNucleus U ER sampleIsotope (1 / 1000) = K := by
          refine ⟨(withMass U p 3).dSigmadERNucleus U 0 sampleIsotope (1 / 1000), fun ER => ?_⟩
          rw [e2]
          unfold dSigmadERNucleus dSigmadq2Nucleus
          simp [p, DMParticle.setLowMassMode, DMParticle.standard, formFactor2]
        unfold migdalCrossSection
        simp only [hK]
        refine LocallyIntegrable.locallyIntegrableOn ?_ _
        refine (locallyIntegrable_const (1 / (4 * E) * K)).mono ?_ (Filter.Eventually.of_forall fun ER => ?_)
        · refine Measurable.aestronglyMeasurable ?_
          refine Measurable.const_mul ?_ _
          have : (fun ER => sampleShell.ionizationFormFactor U (U.mElectron / sampleIsotope.mass * Real.sqrt (2 * sampleIsotope.mass * ER)) E) =
              (fun q => sampleShell.ionizationFormFactor U q E) ∘ fun ER => U.mElectron / sampleIsotope.mass * Real.sqrt (2 * sampleIsotope.mass * ER) := rfl
          rw [this]
          refine Measurable.comp ?_ (by fun_prop)
          simp only [sampleShell_formFactor]
          by_cases hk : 1.000001 * 4 < Real.sqrt (2 * U.mElectron * E) ∨ Real.sqrt (2 * U.mElectron * E) < 0.999999 * 1
          · simp only [hk, or_true, if_true]
            exact measurable_const
          · simp only [hk, or_false]
            exact Measurable.ite measurableSet_Ioi measurable_const (Measurable.ite measurableSet_Ioi measurable_const (by fun_prop))
        · rw [norm_mul]
          refine mul_le_of_le_one_right (norm_nonneg _) ?_
          rw [Real.norm_of_nonneg (hff _ _), sampleShell_formFactor]
          have hq : 0 ≤ U.mElectron / sampleIsotope.mass * Real.sqrt (2 * sampleIsotope.mass * ER) := by
            have := U.mElectron_pos
            have := hphys.1
            positivity
          split_ifs with k1 k2
          · exact zero_le_one
          · exact le_rfl
          · nlinarith }
  exact ⟨p, _, _, d, x, hR, hm1, hm3, hP, by simp [x, IonizationDetector.initial], ⟨by simp [d, Detector.make], rfl⟩, fun s₁ s₂ k1 k2 =>
    C100_migdal_events hI hR hm1 hm3 one_pos (by norm_num) rfl hs.2.2.2 hs.2.2.1 g1 hP (by simp [d, Detector.make]) rfl k1 k2⟩

end Obscura
