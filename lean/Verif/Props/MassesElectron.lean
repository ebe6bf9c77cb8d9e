import Verif.Props.Masses
import Verif.Lemmas.EtaBounds

/-!
# C101: how fast limits from electron scattering weaken with the mass
-/

namespace Obscura

open Spec DMParticle MeasureTheory

variable {U : Units} {I : Integrator} {T : Tools} {cd : CrystalDetector} {d : Detector} {p p₁ p₂ : DMParticle} {h : Distribution} {c : Crystal}
  {m₁ m₂ E : ℝ}

/-- Two computations that succeed with results of at least zero, ordered after multiplication with `k` and `k'`. -/
def OkScaled (k k' : ℝ) (a b : Outcome ℝ) : Prop := ∃ r r', a = .ok r ∧ b = .ok r' ∧ 0 ≤ r ∧ 0 ≤ r' ∧ k * r ≤ k' * r'

theorem OkScaled.zero (k k' : ℝ) : OkScaled k k' (.ok 0) (.ok 0) := ⟨0, 0, rfl, rfl, le_rfl, le_rfl, by simp⟩

theorem OkScaled.times {k k' s : ℝ} {a b : Outcome ℝ} (hs : 0 ≤ s) (hab : OkScaled k k' a b) :
    OkScaled k k' (a >>= fun r => .ok (s * r)) (b >>= fun r => .ok (s * r)) := by
  obtain ⟨r, r', rfl, rfl, h1, h2, hle⟩ := hab
  exact ⟨_, _, rfl, rfl, by positivity, by positivity, by nlinarith⟩

theorem OkScaled.sumOver {k k' : ℝ} {α : Type} {f g : α → Outcome ℝ} {l : List α} (hfg : ∀ y ∈ l, OkScaled k k' (f y) (g y)) :
    OkScaled k k' (sumOver f l) (sumOver g l) := by
  have : ∀ y, ∃ r r', y ∈ l → f y = .ok r ∧ g y = .ok r' ∧ 0 ≤ r ∧ 0 ≤ r' ∧ k * r ≤ k' * r' := fun y => by
    by_cases hy : y ∈ l
    · obtain ⟨r, r', h⟩ := hfg y hy; exact ⟨r, r', fun _ => h⟩
    · exact ⟨0, 0, fun h => absurd h hy⟩
  choose r r' hr using this
  refine ⟨_, _, sumOver_ok fun y hy => (hr y hy).1, sumOver_ok fun y hy => (hr y hy).2.1, ?_, ?_, ?_⟩
  · exact List.sum_nonneg (by simpa using fun y hy => (hr y hy).2.2.1)
  · exact List.sum_nonneg (by simpa using fun y hy => (hr y hy).2.2.2.1)
  · rw [← List.sum_map_mul_left, ← List.sum_map_mul_left]
    exact List.sum_le_sum fun y hy => (hr y hy).2.2.2.2

theorem massFactorElectron_eq (m : ℝ) : massFactorElectron U m = m * reducedMass m U.mElectron ^ 2 := rfl

theorem massFactorElectron_pos {m : ℝ} (hm : 0 < m) : 0 < massFactorElectron U m := by
  have := reducedMass_pos hm U.mElectron_pos
  rw [massFactorElectron_eq]
  positivity

/-- The minimal speed falls with the mass. -/
theorem vMinimalElectrons_anti {q : ℝ} (hq : 0 < q) (hm₁ : 0 < m₁) (hmm : m₁ ≤ m₂) : vMinimalElectrons q E m₂ ≤ vMinimalElectrons q E m₁ := by
  unfold vMinimalElectrons
  gcongr

/-- The cross section in a crystal. -/
theorem d2SigmaCrystal_eq (hr : 0 ≤ p.sigmaElectronRef) {q : ℝ} (hq : 0 < q) (hcf : 0 ≤ c.formFactor q E) :
    ∃ s, 0 ≤ s ∧ ∀ p' : DMParticle, p'.interaction = p.interaction → p'.sigmaElectronRef = p.sigmaElectronRef → ∀ v,
      p'.d2SigmaCrystal U q E v c = s / reducedMass p'.mass U.mElectron ^ 2 / v ^ 2 := by
  have ha := U.aEM_pos
  have hme := U.mElectron_pos
  cases hint : p.interaction with
  | SD => exact ⟨0, le_rfl, fun p' h1 _ v => by unfold DMParticle.d2SigmaCrystal; rw [h1]; simp⟩
  | SI ff qRef mMed =>
    refine ⟨2 * U.aEM * U.mElectron * U.mElectron / q / q / q * (p.sigmaElectronRef / 4 * formFactor2 ff qRef mMed q) * c.formFactor q E, ?_, fun p' h1 h2 v => ?_⟩
    · have := C10_nonneg ff qRef mMed q
      positivity
    · unfold DMParticle.d2SigmaCrystal dSigmadq2Electron
      rw [h1, h2]
      simp only [div_eq_mul_inv, mul_inv, mul_pow]
      norm_num
      ring

/-- C101 (spectra). In a crystal, at constant cross section with electrons, the spectrum times the mass and the square of the reduced mass with the electron
does not fall with the mass of the particle. -/
theorem C101_crystal (hI : I.Exact) (hc : BuiltCrystal U c) (hcf : ∀ q, 0 ≤ c.formFactor q E) (hp : Reachable U p) (hr : 0 ≤ p.sigmaElectronRef)
    (h1 : p.setMass U m₁ = .ok p₁) (h2 : p.setMass U m₂ = .ok p₂)
    (hm₁ : 0 < m₁) (hmm : m₁ ≤ m₂) (hdens : 0 ≤ h.density)
    (hη : p.useEtaFunction = true → h.useEta = true → FallingEta h) (hf : ProperSpeeds h) (hE : 0 < E) :
    ∃ r₁ r₂, dRdEeCrystal U I E p₁ h c = .ok r₁ ∧ dRdEeCrystal U I E p₂ h c = .ok r₂ ∧ 0 ≤ r₁ ∧ 0 ≤ r₂ ∧
      massFactorElectron U m₁ * r₁ ≤ massFactorElectron U m₂ * r₂ := by
  have hm₂ := hm₁.trans_le hmm
  have hb := reachable_inv hp
  have hfacts := CrystalFacts.of_built hc
  have hdq := hfacts.dq_pos
  have hM := hfacts.mCell_pos
  obtain ⟨fp, fn, e1, e2, -⟩ := setMass_couplings hb h1 h2 hm₁ hm₂
  have q1 : p₁.mass = m₁ ∧ p₁.interaction = p.interaction ∧ p₁.sigmaElectronRef = p.sigmaElectronRef ∧ p₁.useEtaFunction = p.useEtaFunction := by
    rw [e1]; exact ⟨rfl, rfl, rfl, rfl⟩
  have q2 : p₂.mass = m₂ ∧ p₂.interaction = p.interaction ∧ p₂.sigmaElectronRef = p.sigmaElectronRef ∧ p₂.useEtaFunction = p.useEtaFunction := by
    rw [e2]; exact ⟨rfl, rfl, rfl, rfl⟩
  clear e1 e2
  have μ1 := reducedMass_pos hm₁ U.mElectron_pos
  have μ2 := reducedMass_pos hm₂ U.mElectron_pos
  show OkScaled _ _ _ _
  unfold dRdEeCrystal
  split_ifs with hmax
  · exact .zero _ _
  refine OkScaled.times (by positivity) (OkScaled.sumOver fun i _ => ?_)
  have hq : 0 < ((i : ℝ) + 1) * c.dq := by positivity
  obtain ⟨s, hs, hx⟩ := d2SigmaCrystal_eq (U := U) (E := E) (c := c) hr hq (hcf _)
  have c1 := hx p₁ q1.2.1 q1.2.2.1
  have c2 := hx p₂ q2.2.1 q2.2.2.1
  rw [q1.1] at c1
  rw [q2.1] at c2
  have hv := vMinimalElectrons_anti (E := E) hq hm₁ hmm
  have hv0 : 0 < vMinimalElectrons (((i : ℝ) + 1) * c.dq) E m₂ := by unfold vMinimalElectrons; positivity
  unfold dRdEeCrystalTerm
  dsimp only
  simp only [c1, c2, q1.1, q2.1, q1.2.2.2, q2.2.2.2]
  set q := ((i : ℝ) + 1) * c.dq
  set a := vMinimalElectrons q E m₂
  set b := vMinimalElectrons q E m₁
  have fin : ∀ x y : ℝ, 0 ≤ y → y ≤ x → massFactorElectron U m₁ * (2 * q * c.dq * (s / reducedMass m₁ U.mElectron ^ 2 * (h.density / m₁ * y))) ≤
      massFactorElectron U m₂ * (2 * q * c.dq * (s / reducedMass m₂ U.mElectron ^ 2 * (h.density / m₂ * x))) := fun x y hy hyx => by
    rw [massFactorElectron_eq, massFactorElectron_eq]
    have l : ∀ m z : ℝ, 0 < m → 0 < reducedMass m U.mElectron → m * reducedMass m U.mElectron ^ 2 * (2 * q * c.dq * (s / reducedMass m U.mElectron ^ 2 * (h.density / m * z))) =
        2 * q * c.dq * (s * (h.density * z)) := fun m z hm hμ => by
      field_simp
    rw [l _ _ hm₁ μ1, l _ _ hm₂ μ2]
    gcongr
  by_cases g : h.vMax < a
  · rw [if_pos g, if_pos (g.trans_le hv)]
    exact .zero _ _
  rw [if_neg g]
  have g := not_lt.1 g
  have M2 := (massFactorElectron_pos (U := U) hm₂).le
  by_cases u : p.useEtaFunction ∧ h.useEta
  · rw [if_pos u, if_pos u]
    have sc : ∀ (t m e : ℝ), 2 * q * c.dq * h.density / m * e * (1 / 1000) * (1 / 1000) * (t / (1 / 1000) ^ 2) =
        2 * q * c.dq * (t * (h.density / m * e)) := fun t m e => by
      simp only [div_eq_mul_inv]
      norm_num
      ring
    by_cases g' : h.vMax < b
    · obtain ⟨x, y, k1, -, y0, yx⟩ := hη u.1 u.2 _ _ hv0.le g le_rfl
      have x0 := y0.trans yx
      rw [if_pos g', k1]
      refine ⟨0, _, rfl, rfl, le_rfl, by positivity, ?_⟩
      rw [mul_zero]
      positivity
    · obtain ⟨x, y, k1, k2, y0, yx⟩ := hη u.1 u.2 _ _ hv0.le hv (not_lt.1 g')
      have x0 := y0.trans yx
      rw [if_neg g', k1, k2]
      refine ⟨_, _, rfl, rfl, by positivity, by positivity, ?_⟩
      rw [sc, sc]
      exact fin x y y0 yx
  · rw [if_neg u, if_neg u]
    have hint : IntervalIntegrable (fun v => h.pdfSpeed v / v) volume a h.vMax := by
      refine (hf.2.mono_set ?_).mul_continuousOn (g := fun v => v⁻¹) ?_
      · rw [Set.uIcc_of_le g, Set.uIcc_of_le (hv0.le.trans g)]
        exact Set.Icc_subset_Icc hv0.le le_rfl
      · rw [Set.uIcc_of_le g]
        exact continuousOn_inv₀.mono fun v hv => (hv0.trans_le hv.1).ne'
    have hnn : ∀ v, a ≤ v → 0 ≤ h.pdfSpeed v / v := fun v hv => by
      have := hf.1 v (hv0.le.trans hv)
      have := hv0.trans_le hv
      positivity
    have key : ∀ s m c, a ≤ c → c ≤ h.vMax → ∫ v in c..h.vMax, h.differentialFlux v m * (s / v ^ 2) =
        s * (h.density / m * ∫ v in c..h.vMax, h.pdfSpeed v / v) := fun s m c hc hc' => by
      rw [← intervalIntegral.integral_const_mul, ← intervalIntegral.integral_const_mul]
      refine intervalIntegral.integral_congr fun v hv => ?_
      rw [Set.uIcc_of_le hc'] at hv
      have : 0 < v := hv0.trans_le (hc.trans hv.1)
      simp only [Distribution.differentialFlux]
      field_simp
    have i0 : 0 ≤ ∫ v in a..h.vMax, h.pdfSpeed v / v := intervalIntegral.integral_nonneg g fun v hv => hnn v hv.1
    simp only [hI _ _ _]
    rw [key _ m₂ a le_rfl g]
    by_cases g' : h.vMax < b
    · rw [if_pos g']
      refine ⟨0, _, rfl, rfl, le_rfl, by positivity, ?_⟩
      rw [mul_zero]
      positivity
    · have g' := not_lt.1 g'
      rw [if_neg (not_lt.2 g'), key _ m₁ b hv g']
      have i1 : 0 ≤ ∫ v in b..h.vMax, h.pdfSpeed v / v := intervalIntegral.integral_nonneg g' fun v hv' => hnn v (hv.trans hv'.1)
      have i2 : ∫ v in b..h.vMax, h.pdfSpeed v / v ≤ ∫ v in a..h.vMax, h.pdfSpeed v / v := by
        refine intervalIntegral.integral_mono_interval hv g' le_rfl ?_ hint
        refine (ae_restrict_iff' measurableSet_Ioc).2 (Filter.Eventually.of_forall fun v hv => hnn v hv.1.le)
      exact ⟨_, _, rfl, rfl, by positivity, by positivity, fin _ _ i1 i2⟩

/-- C101 (electron-hole pairs). So do the rates of events with `Q` and with at least `Q` electron-hole pairs. -/
theorem C101_pairs (hI : I.Exact) (hc : BuiltCrystal U c) (hcf : ∀ q E, 0 ≤ c.formFactor q E) (hp : Reachable U p) (hr : 0 ≤ p.sigmaElectronRef)
    (h1 : p.setMass U m₁ = .ok p₁) (h2 : p.setMass U m₂ = .ok p₂) (hm₁ : 0 < m₁) (hmm : m₁ ≤ m₂) (hdens : 0 ≤ h.density)
    (hη : p.useEtaFunction = true → h.useEta = true → FallingEta h) (hf : ProperSpeeds h) {Q : ℕ} (hQ : 1 ≤ Q) (hQ' : Q ≤ 50000000) :
    (∃ r₁ r₂, rQCrystal U I Q p₁ h c = .ok r₁ ∧ rQCrystal U I Q p₂ h c = .ok r₂ ∧ 0 ≤ r₁ ∧ 0 ≤ r₂ ∧
      massFactorElectron U m₁ * r₁ ≤ massFactorElectron U m₂ * r₂) ∧
    ∃ r₁ r₂, rTotalCrystal U I Q p₁ h c = .ok r₁ ∧ rTotalCrystal U I Q p₂ h c = .ok r₂ ∧ 0 ≤ r₁ ∧ 0 ≤ r₂ ∧
      massFactorElectron U m₁ * r₁ ≤ massFactorElectron U m₂ * r₂ := by
  have hd := (CrystalFacts.of_built hc).dE_pos
  have hg : ∀ j, 0 < gridEnergy c j := fun j => by unfold gridEnergy; positivity
  have key : ∀ j, dRdEeCrystal U I (gridEnergy c j) p₁ h c = .ok (dRdEeCrystal U I (gridEnergy c j) p₁ h c).valueOr0 ∧
      dRdEeCrystal U I (gridEnergy c j) p₂ h c = .ok (dRdEeCrystal U I (gridEnergy c j) p₂ h c).valueOr0 ∧
      0 ≤ (dRdEeCrystal U I (gridEnergy c j) p₁ h c).valueOr0 ∧ 0 ≤ (dRdEeCrystal U I (gridEnergy c j) p₂ h c).valueOr0 ∧
      massFactorElectron U m₁ * (dRdEeCrystal U I (gridEnergy c j) p₁ h c).valueOr0 ≤
        massFactorElectron U m₂ * (dRdEeCrystal U I (gridEnergy c j) p₂ h c).valueOr0 := fun j => by
    obtain ⟨r₁, r₂, e1, e2, z1, z2, hle⟩ := C101_crystal hI hc (fun q => hcf q _) hp hr h1 h2 hm₁ hmm hdens hη hf (hg j)
    rw [e1, e2]
    exact ⟨rfl, rfl, z1, z2, hle⟩
  have sums : ∀ cond : ℝ → Prop, 0 ≤ gridSum c (fun E => (dRdEeCrystal U I E p₁ h c).valueOr0) cond ∧
      0 ≤ gridSum c (fun E => (dRdEeCrystal U I E p₂ h c).valueOr0) cond ∧
      massFactorElectron U m₁ * gridSum c (fun E => (dRdEeCrystal U I E p₁ h c).valueOr0) cond ≤
        massFactorElectron U m₂ * gridSum c (fun E => (dRdEeCrystal U I E p₂ h c).valueOr0) cond := fun cond => by
    unfold gridSum
    refine ⟨Finset.sum_nonneg fun j _ => mul_nonneg hd.le (key j).2.2.1, Finset.sum_nonneg fun j _ => mul_nonneg hd.le (key j).2.2.2.1, ?_⟩
    rw [Finset.mul_sum, Finset.mul_sum]
    refine Finset.sum_le_sum fun j _ => ?_
    rw [mul_left_comm, mul_left_comm (massFactorElectron U m₂)]
    exact mul_le_mul_of_nonneg_left (key j).2.2.2.2 hd.le
  obtain ⟨a1, a2⟩ := C44_contents (rate := fun E => (dRdEeCrystal U I E p₁ h c).valueOr0) hc hQ hQ' fun j _ => (key j).1
  obtain ⟨b1, b2⟩ := C44_contents (rate := fun E => (dRdEeCrystal U I E p₂ h c).valueOr0) hc hQ hQ' fun j _ => (key j).2.1
  exact ⟨⟨_, _, a1, b1, sums _⟩, ⟨_, _, a2, b2, sums _⟩⟩

/-- A semiconductor detector with sensible settings: a crystal that was built from a table whose form factor is not negative, efficiencies and exposure that
are not negative, a positive threshold below the maximum, rising bin edges, at least one and at most `50000000` electron-hole pairs, and (where they are
integrated over energies) spectra that are integrable. -/
structure ProperCrystal (U : Units) (I : Integrator) (h : Distribution) (d : Detector) (cd : CrystalDetector) (ps : List DMParticle) : Prop where
  built : BuiltCrystal U cd.crystal
  table : ∀ q E, 0 ≤ cd.crystal.formFactor q E
  exposure : 0 ≤ d.exposure
  flat : 0 ≤ d.flatEfficiency
  efficiencies : ∀ e ∈ d.binEfficiencies, 0 ≤ e
  threshold : 0 < d.energyThreshold
  window : d.energyThreshold ≤ d.energyMax
  edges : ∀ i lo hi, d.binEnergies[i]? = some lo → d.binEnergies[i + 1]? = some hi → 0 < lo ∧ lo ≤ hi
  pairs : ∀ Q, cd.qThreshold = some Q → 1 ≤ Q ∧ Q + d.bins ≤ 50000000
  spectra : d.usingEnergyThreshold = true ∨ d.analysis = .maximumGap ∨ d.usingEnergyBins = true → ∀ p' ∈ ps, ∀ a b, 0 < a → IntervalIntegrable (fun E => (cd.dRdE U I d E p' h).valueOr0) volume a b

theorem crystal_window (hI : I.Exact) (hp : Reachable U p) (hr : 0 ≤ p.sigmaElectronRef) (h1 : p.setMass U m₁ = .ok p₁) (h2 : p.setMass U m₂ = .ok p₂)
    (hm₁ : 0 < m₁) (hmm : m₁ ≤ m₂) (hdens : 0 ≤ h.density) (hη : p.useEtaFunction = true → h.useEta = true → FallingEta h) (hf : ProperSpeeds h)
    (hP : ProperCrystal U I h d cd [p₁, p₂])
    (hw : d.usingEnergyThreshold = true ∨ d.analysis = .maximumGap ∨ d.usingEnergyBins = true) {a b : ℝ} (ha : 0 < a) (hab : a ≤ b) :
    massFactorElectron U m₁ * I (fun E => (cd.dRdE U I d E p₁ h).valueOr0) a b ≤ massFactorElectron U m₂ * I (fun E => (cd.dRdE U I d E p₂ h).valueOr0) a b := by
  rw [hI, hI, ← intervalIntegral.integral_const_mul (massFactorElectron U m₁), ← intervalIntegral.integral_const_mul (massFactorElectron U m₂)]
  refine intervalIntegral.integral_mono_on hab ((hP.spectra hw p₁ (by simp) a b ha).const_mul _) ((hP.spectra hw p₂ (by simp) a b ha).const_mul _) fun E hE => ?_
  obtain ⟨r₁, r₂, e1, e2, z1, z2, hle⟩ := C101_crystal hI hP.built (fun q => hP.table q E) hp hr h1 h2 hm₁ hmm hdens hη hf (ha.trans_le hE.1)
  have := hP.flat
  unfold CrystalDetector.dRdE
  rw [e1, e2]
  show massFactorElectron U m₁ * (d.flatEfficiency * r₁) ≤ massFactorElectron U m₂ * (d.flatEfficiency * r₂)
  nlinarith

/-- C101 (events). So do the events expected by a semiconductor detector, with a threshold in the energy or in the number of electron-hole pairs. -/
theorem C101_events (hI : T.integrate.Exact) (hp : Reachable U p) (hr : 0 ≤ p.sigmaElectronRef) (h1 : p.setMass U m₁ = .ok p₁) (h2 : p.setMass U m₂ = .ok p₂)
    (hm₁ : 0 < m₁) (hmm : m₁ ≤ m₂) (hdens : 0 ≤ h.density) (hη : p.useEtaFunction = true → h.useEta = true → FallingEta h) (hf : ProperSpeeds h)
    (hP : ProperCrystal U T.integrate h d cd [p₁, p₂]) (ha : d.analysis ≠ .binnedPoisson) {s₁ s₂ : ℝ}
    (g1 : (cd.toClass U T h).signalsTotal d p₁ = .ok s₁) (g2 : (cd.toClass U T h).signalsTotal d p₂ = .ok s₂) :
    massFactorElectron U m₁ * s₁ ≤ massFactorElectron U m₂ * s₂ := by
  have hex := hP.exposure
  have hfl := hP.flat
  have g1 : cd.signalsTotal U T d p₁ h = .ok s₁ := g1
  have g2 : cd.signalsTotal U T d p₂ h = .ok s₂ := g2
  unfold CrystalDetector.signalsTotal at g1 g2
  rw [if_neg ha] at g1 g2
  split_ifs at g1 g2 with hthr
  · cases g1
    cases g2
    have := crystal_window hI hp hr h1 h2 hm₁ hmm hdens hη hf hP (by tauto) hP.threshold hP.window
    nlinarith
  · obtain ⟨u, hu, g1⟩ := Outcome.bind_eq_ok.1 g1
    rw [hu, Outcome.bind_ok] at g2
    split_ifs at g1 g2
    · obtain ⟨Q, hQ, g1⟩ := Outcome.bind_eq_ok.1 g1
      rw [hQ, Outcome.bind_ok] at g2
      have hQ : cd.qThreshold = some Q := by
        cases hq : cd.qThreshold with
        | none => rw [hq] at hQ; simp [readMember] at hQ
        | some x => rw [hq] at hQ; simp only [readMember, Outcome.ok.injEq] at hQ; rw [hQ]
      obtain ⟨k1, k2⟩ := hP.pairs Q hQ
      obtain ⟨r₁, r₂, e1, e2, -, -, hle⟩ := (C101_pairs hI hP.built hP.table hp hr h1 h2 hm₁ hmm hdens hη hf k1 (by omega)).2
      rw [toInt32_small (by omega)] at g1 g2
      rw [e1] at g1
      rw [e2] at g2
      cases g1
      cases g2
      have := mul_le_mul_of_nonneg_left hle (mul_nonneg hex hfl)
      linarith
    · cases g1
      cases g2
      simp

theorem vecGet_some {α : Type} {l : List α} {i : ℕ} {x : α} (hx : vecGet l i = .ok x) : l[i]? = some x := by
  unfold vecGet at hx
  split at hx
  · next y hy => rw [hy, Outcome.ok.inj hx]
  · cases hx

theorem collect_scaled {α : Type} {f g : α → Outcome ℝ} {l : List α} {xs ys : List ℝ} {k k' : ℝ} (hx : collect f l = .ok xs) (hy : collect g l = .ok ys)
    (hfg : ∀ a ∈ l, ∀ x y, f a = .ok x → g a = .ok y → k * x ≤ k' * y) (i : ℕ) : k * xs.getD i 0 ≤ k' * ys.getD i 0 := by
  obtain ⟨a1, a2⟩ := collect_eq_ok_length hx
  obtain ⟨b1, b2⟩ := collect_eq_ok_length hy
  by_cases hi : i < l.length
  · obtain ⟨x, fx, ex⟩ := a2 i l[i] (List.getElem?_eq_getElem hi)
    obtain ⟨y, gy, ey⟩ := b2 i l[i] (List.getElem?_eq_getElem hi)
    rw [List.getD_eq_getElem?_getD, List.getD_eq_getElem?_getD, ex, ey]
    exact hfg _ (List.getElem_mem hi) x y fx gy
  · rw [List.getD_eq_getElem?_getD, List.getD_eq_getElem?_getD, List.getElem?_eq_none (by omega), List.getElem?_eq_none (by omega)]
    simp

/-- C101 (bins). So do the events expected in every bin, with bins in the energy or in the number of electron-hole pairs. -/
theorem C101_bins (hI : T.integrate.Exact) (hp : Reachable U p) (hr : 0 ≤ p.sigmaElectronRef) (h1 : p.setMass U m₁ = .ok p₁) (h2 : p.setMass U m₂ = .ok p₂)
    (hm₁ : 0 < m₁) (hmm : m₁ ≤ m₂) (hdens : 0 ≤ h.density) (hη : p.useEtaFunction = true → h.useEta = true → FallingEta h) (hf : ProperSpeeds h)
    (hP : ProperCrystal U T.integrate h d cd [p₁, p₂]) {ss₁ ss₂ : List ℝ}
    (g1 : (cd.toClass U T h).signalsBinned d p₁ = .ok ss₁) (g2 : (cd.toClass U T h).signalsBinned d p₂ = .ok ss₂) (i : ℕ) :
    massFactorElectron U m₁ * ss₁.getD i 0 ≤ massFactorElectron U m₂ * ss₂.getD i 0 := by
  have hex := hP.exposure
  have hfl := hP.flat
  have g1 : cd.signalsBinned U T d p₁ h = .ok ss₁ := g1
  have g2 : cd.signalsBinned U T d p₂ h = .ok ss₂ := g2
  unfold CrystalDetector.signalsBinned at g1 g2
  split_ifs at g1 g2 with hb he
  · unfold Detector.signalsEnergyBins at g1 g2
    split_ifs at g1 g2
    refine collect_scaled g1 g2 (fun j _ x y hx hy => ?_) i
    obtain ⟨lo, hlo, hx⟩ := Outcome.bind_eq_ok.1 hx
    obtain ⟨hi, hhi, hx⟩ := Outcome.bind_eq_ok.1 hx
    obtain ⟨e, hef, hx⟩ := Outcome.bind_eq_ok.1 hx
    rw [hlo, Outcome.bind_ok, hhi, Outcome.bind_ok, hef, Outcome.bind_ok] at hy
    cases hx
    cases hy
    obtain ⟨l0, l1⟩ := hP.edges j lo hi (vecGet_some hlo) (vecGet_some hhi)
    have e0 := hP.efficiencies e (List.mem_of_getElem? (vecGet_some hef))
    have := mul_le_mul_of_nonneg_left (crystal_window hI hp hr h1 h2 hm₁ hmm hdens hη hf hP (.inr (.inr he)) l0 l1) (mul_nonneg e0 hex)
    show massFactorElectron U m₁ * (e * (d.exposure * T.integrate (fun E => (cd.dRdE U T.integrate d E p₁ h).valueOr0) lo hi)) ≤
      massFactorElectron U m₂ * (e * (d.exposure * T.integrate (fun E => (cd.dRdE U T.integrate d E p₂ h).valueOr0) lo hi))
    linarith
  · obtain ⟨u, hu, g1⟩ := Outcome.bind_eq_ok.1 g1
    rw [hu, Outcome.bind_ok] at g2
    split_ifs at g1 g2 with hu'
    subst hu'
    unfold CrystalDetector.signalsQBins at g1 g2
    rw [hu, Outcome.bind_ok, if_neg (by simp)] at g1 g2
    obtain ⟨Q, hQ, g1⟩ := Outcome.bind_eq_ok.1 g1
    rw [hQ, Outcome.bind_ok] at g2
    have hQ : cd.qThreshold = some Q := by
      cases hq : cd.qThreshold with
      | none => rw [hq] at hQ; simp [readMember] at hQ
      | some x => rw [hq] at hQ; simp only [readMember, Outcome.ok.injEq] at hQ; rw [hQ]
    obtain ⟨k1, k2⟩ := hP.pairs Q hQ
    refine collect_scaled g1 g2 (fun j hj x y hx hy => ?_) i
    have hj : Q ≤ j ∧ j ≤ 50000000 := by
      rw [List.mem_range'_1, Nat.mod_eq_of_lt (by omega)] at hj
      omega
    obtain ⟨e, hef, hx⟩ := Outcome.bind_eq_ok.1 hx
    rw [hef, Outcome.bind_ok] at hy
    obtain ⟨r₁, r₂, e1, e2, -, -, hle⟩ := (C101_pairs hI hP.built hP.table hp hr h1 h2 hm₁ hmm hdens hη hf (k1.trans hj.1) hj.2).1
    rw [toInt32_small (by omega)] at hx hy
    rw [e1] at hx
    rw [e2] at hy
    cases hx
    cases hy
    have e0 := hP.efficiencies e (List.mem_of_getElem? (vecGet_some hef))
    have := mul_le_mul_of_nonneg_left hle (mul_nonneg (mul_nonneg hex hfl) e0)
    linarith

/-- C101 (limits). Limits on the cross section with electrons weaken with the mass at most like the mass times the square of the reduced mass with the
electron: for counting analyses, whatever was observed and whatever background is expected. -/
theorem C101_limit {c₁ c₂ cert s₁ s₂ : ℝ} (hR : T.findRoot.Exact) (hI : T.integrate.Exact) (hp : Reachable U p) (hr : 0 ≤ p.sigmaElectronRef)
    (h1 : p.setMass U m₁ = .ok p₁) (h2 : p.setMass U m₂ = .ok p₂) (hm₁ : 0 < m₁) (hmm : m₁ ≤ m₂) (hdens : 0 ≤ h.density)
    (hη : p.useEtaFunction = true → h.useEta = true → FallingEta h) (hf : ProperSpeeds h) (hP : ProperCrystal U T.integrate h d cd [p₁, p₂])
    (hS₁ : Sees U T h (.crystal d cd) p₁ c₁ s₁) (hS₂ : Sees U T h (.crystal d cd) p₂ c₂ s₂)
    {r₁ r₂ : Detector × DMParticle × ℝ} (g1 : d.upperLimit U T (cd.toClass U T h) p₁ cert = .ok r₁)
    (g2 : d.upperLimit U T (cd.toClass U T h) p₂ cert = .ok r₂) (hx₁ : 0 < r₁.2.2) (hx₂ : 0 < r₂.2.2) :
    r₂.2.2 / massFactorElectron U m₂ ≤ r₁.2.2 / massFactorElectron U m₁ := by
  have hm₂ := hm₁.trans_le hmm
  have hle := C101_events hI hp hr h1 h2 hm₁ hmm hdens hη hf hP (fun hb => by have : d.analysis = .poisson := hS₁.counting; rw [hb] at this; cases this) hS₁.signal hS₂.signal
  have hpar : c₁ = c₂ := by
    have a := hS₁.parameter
    have b := hS₂.parameter
    rw [setMass_parameter (reachable_inv hp) h1 h2 hm₁ hm₂, b] at a
    exact (Outcome.ok.inj a).symm
  subst hpar
  have hpos := hS₁.positive
  have v1 := hS₁.visible
  have v2 := hS₂.visible
  have F1 := massFactorElectron_pos (U := U) hm₁
  have F2 := massFactorElectron_pos (U := U) hm₂
  have := C87_comparison hS₂ hS₁ hR hR rfl rfl g2 g1 hx₂ hx₁
  rw [mul_div_assoc', mul_div_assoc', div_left_inj' hpos.ne'] at this
  rw [div_le_div_iff₀ F2 F1]
  by_contra hlt
  have hlt := not_le.1 hlt
  have l1 : r₁.2.2 * massFactorElectron U m₂ * s₂ < r₂.2.2 * massFactorElectron U m₁ * s₂ := mul_lt_mul_of_pos_right hlt v2
  have l2 : r₁.2.2 * (massFactorElectron U m₁ * s₁) ≤ r₁.2.2 * (massFactorElectron U m₂ * s₂) := mul_le_mul_of_nonneg_left hle hx₁.le
  have l3 : r₂.2.2 * s₂ * massFactorElectron U m₁ = r₁.2.2 * s₁ * massFactorElectron U m₁ := by rw [this]
  linarith

/-- C101 (limits, bins). The same for binned analyses. -/
theorem C101_limit_binned {c₁ c₂ cert : ℝ} {ss₁ ss₂ : List ℝ} (hR : T.findRoot.Exact) (hI : T.integrate.Exact) (hp : Reachable U p) (hr : 0 ≤ p.sigmaElectronRef)
    (h1 : p.setMass U m₁ = .ok p₁) (h2 : p.setMass U m₂ = .ok p₂) (hm₁ : 0 < m₁) (hmm : m₁ ≤ m₂) (hdens : 0 ≤ h.density)
    (hη : p.useEtaFunction = true → h.useEta = true → FallingEta h) (hf : ProperSpeeds h) (hP : ProperCrystal U T.integrate h d cd [p₁, p₂])
    (hS₁ : SeesInBins U T h (.crystal d cd) p₁ c₁ ss₁) (hS₂ : SeesInBins U T h (.crystal d cd) p₂ c₂ ss₂)
    {r₁ r₂ : Detector × DMParticle × ℝ} (g1 : d.upperLimit U T (cd.toClass U T h) p₁ cert = .ok r₁)
    (g2 : d.upperLimit U T (cd.toClass U T h) p₂ cert = .ok r₂) (hx₁ : 0 < r₁.2.2) (hx₂ : 0 < r₂.2.2) :
    r₂.2.2 / massFactorElectron U m₂ ≤ r₁.2.2 / massFactorElectron U m₁ := by
  have hm₂ := hm₁.trans_le hmm
  have hle := C101_bins hI hp hr h1 h2 hm₁ hmm hdens hη hf hP hS₁.signal hS₂.signal
  have hpar : c₁ = c₂ := by
    have a := hS₁.parameter
    have b := hS₂.parameter
    rw [setMass_parameter (reachable_inv hp) h1 h2 hm₁ hm₂, b] at a
    exact (Outcome.ok.inj a).symm
  subst hpar
  have hpos := hS₁.positive
  have F1 := massFactorElectron_pos (U := U) hm₁
  have F2 := massFactorElectron_pos (U := U) hm₂
  have := C87_comparison_binned (k := massFactorElectron U m₂ / massFactorElectron U m₁) hS₂ hS₁ hR hR rfl (fun _ _ => rfl) (fun _ _ => rfl) (fun i _ => by
    have := hle i
    rw [div_mul_div_comm, div_le_div_iff₀ hpos (by positivity)]
    nlinarith) g2 g1 hx₂ hx₁
  rw [div_le_div_iff₀ F2 F1]
  rw [div_mul_eq_mul_div, le_div_iff₀ F1] at this
  linarith

/-- Non-vacuity: particles of mass 1 and 3, a silicon detector that asks for two electron-hole pairs, and the standard halo `SHM.sample`. -/
example (hI : T.integrate.Exact) : ∃ (p p₁ p₂ : DMParticle) (d : Detector) (cd : CrystalDetector) (s₁ s₂ : ℝ), Reachable U p ∧ p.setMass U 1 = .ok p₁ ∧
    p.setMass U 3 = .ok p₂ ∧ ProperCrystal U T.integrate (Distribution.ofSHM SHM.sample) d cd [p₁, p₂] ∧
    (cd.toClass U T (Distribution.ofSHM SHM.sample)).signalsTotal d p₁ = .ok s₁ ∧ (cd.toClass U T (Distribution.ofSHM SHM.sample)).signalsTotal d p₂ = .ok s₂ ∧
    massFactorElectron U 1 * s₁ ≤ massFactorElectron U 3 * s₂ := by
  obtain ⟨x, hx0, hx, hmk, _⟩ := makeSI_eq (U := U) (m := 1) (s := 1) one_pos zero_le_one
  obtain ⟨c, hc, hname, hint⟩ := builtCrystal_exists U
  have hs : SHM.sample.Physical ∧ SHM.sample.vObs ≤ SHM.sample.vEsc ∧ 0 ≤ SHM.sample.density := by
    refine ⟨⟨?_, ?_⟩, ?_, ?_⟩ <;> norm_num [SHM.sample, SHM.makeSpeed, SHM.normalize]
  obtain ⟨g1, g2⟩ := C96_standard_halo (U := Units.sample) SHM.sample_reachable hs.1 hs.2.1
  set p := { DMParticle.standard U 1 1 (.SI .contact (U.aEM * U.mElectron) 0) with fp := x, fn := x }
  have hR : Reachable U p := ⟨_, [], makeSI_built one_pos hmk, by simp, rfl⟩
  have hb := reachable_inv hR
  have hm3 := setMass_ok (U := U) hb (m := 3) (by norm_num)
  have hm1 := setMass_ok (U := U) hb (m := 1) one_pos
  have hf := CrystalFacts.of_built hc
  have heps := hf.eps_pos
  have hgap := hf.gap_lt_eps
  have hp14 : c.pairsMax = 14 := (C43_qmax hc).2.1 hname
  have hgap0 : 0 < c.gap := by
    have := U.eV_pos
    rcases hf.target with ⟨_, h, _⟩ | ⟨_, h, _⟩ <;> rw [h] <;> positivity
  have htab : ∀ q E, 0 ≤ c.formFactor q E := fun q E => by
    unfold Crystal.formFactor
    split_ifs
    · exact le_rfl
    · rw [hint]; exact zero_le_one
  have href : 0 ≤ p.sigmaElectronRef := by
    have := U.cm_pos
    show 0 ≤ (DMParticle.standard U 1 1 (.SI .contact (U.aEM * U.mElectron) 0)).sigmaElectronRef
    simp only [DMParticle.standard]
    positivity
  set d := Detector.make "Si" 1 "Electrons"
  set cd : CrystalDetector := { crystal := c, usingQThreshold := none, usingQBins := none, qThreshold := none }
  have hP : ProperCrystal U T.integrate (Distribution.ofSHM SHM.sample) (CrystalDetector.useQThreshold d cd 2).1 (CrystalDetector.useQThreshold d cd 2).2
      [withMass U p 1, withMass U p 3] :=
    { built := hc
      table := htab
      exposure := zero_le_one
      flat := zero_le_one
      efficiencies := by simp [CrystalDetector.useQThreshold, Detector.initializePoisson, d, Detector.make]
      threshold := by
        show 0 < c.minimumElectronEnergy (toInt32 (2 : ℕ))
        rw [toInt32_small (by norm_num)]
        unfold Crystal.minimumElectronEnergy
        push_cast
        linarith
      window := by
        show c.minimumElectronEnergy (toInt32 (2 : ℕ)) ≤ c.minimumElectronEnergy (toInt32 c.pairsMax)
        rw [hp14, toInt32_small (by norm_num), toInt32_small (by norm_num)]
        unfold Crystal.minimumElectronEnergy
        push_cast
        linarith
      edges := by simp [CrystalDetector.useQThreshold, Detector.initializePoisson, d, Detector.make]
      pairs := by
        intro Q hQ
        simp only [CrystalDetector.useQThreshold, Option.some.injEq] at hQ
        subst hQ
        simp [CrystalDetector.useQThreshold, Detector.initializePoisson, d, Detector.make]
      spectra := by simp [CrystalDetector.useQThreshold, Detector.initializePoisson, d, Detector.make] }
  obtain ⟨r₁, r₂, e1, e2, -⟩ := (C101_pairs (h := Distribution.ofSHM SHM.sample) (Q := 2) hI hc htab hR href hm1 hm3 one_pos (by norm_num) hs.2.2 (fun _ _ => g1) g2
    (by norm_num) (by norm_num)).2
  have k1 := CrystalDetector.C38_crystal_q_threshold_partial (U := U) (T := T) (d := d) (cd := cd) (p := withMass U p 1) (h := Distribution.ofSHM SHM.sample) rfl (Q := 2) (by norm_num)
  have k2 := CrystalDetector.C38_crystal_q_threshold_partial (U := U) (T := T) (d := d) (cd := cd) (p := withMass U p 3) (h := Distribution.ofSHM SHM.sample) rfl (Q := 2) (by norm_num)
  rw [e1, Outcome.bind_ok] at k1
  rw [e2, Outcome.bind_ok] at k2
  exact ⟨p, _, _, _, _, _, _, hR, hm1, hm3, hP, k1, k2, C101_events hI hR href hm1 hm3 one_pos (by norm_num) hs.2.2 (fun _ _ => g1) g2 hP (by
    simp [CrystalDetector.useQThreshold, Detector.initializePoisson]) k1 k2⟩

end Obscura
