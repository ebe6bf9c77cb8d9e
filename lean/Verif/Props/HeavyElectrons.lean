import Verif.Lemmas.HeavyMasses
import Verif.Props.MassesElectron
import Verif.Props.LimitComparison
import Verif.Props.Pieces

/-!
# C113: heavy particles in semiconductors
-/

namespace Obscura

open Spec DMParticle MeasureTheory Filter
open scoped Topology

variable {U : Units} {I : Integrator} {T : Tools} {cd : CrystalDetector} {d : Detector} {p : DMParticle} {q : ℝ → DMParticle} {h : Distribution} {c : Crystal}
  {m₀ E : ℝ}

/-- A function that times the mass factor rises and stays bounded falls like the inverse of the mass. -/
theorem heavyElectron_of_mono {r : ℝ → ℝ} {m₀ B : ℝ} (hm₀ : 0 < m₀)
    (hmono : ∀ a b, m₀ ≤ a → a ≤ b → massFactorElectron U a * r a ≤ massFactorElectron U b * r b) (hB : ∀ a, m₀ ≤ a → massFactorElectron U a * r a ≤ B) :
    ∃ K, Tendsto (fun m => m * r m) atTop (𝓝 K) ∧ ∀ a, m₀ ≤ a → massFactorElectron U a * r a ≤ U.mElectron ^ 2 * K := by
  have hp := U.mElectron_pos
  set f : ℝ → ℝ := fun a => massFactorElectron U (max a m₀) * r (max a m₀)
  have f1 : Monotone f := fun a b hab => hmono _ _ (le_max_right _ _) (max_le_max_right _ hab)
  have f2 : BddAbove (Set.range f) := ⟨B, by rintro _ ⟨a, rfl⟩; exact hB _ (le_max_right _ _)⟩
  have f3 := tendsto_atTop_ciSup f1 f2
  have f4 : ∀ a, m₀ ≤ a → f a = massFactorElectron U a * r a := fun a ha => by simp only [f, max_eq_left ha]
  refine ⟨(⨆ i, f i) / U.mElectron ^ 2, ?_, fun a ha => ?_⟩
  · have := f3.div ((reducedMass_lim hp).pow 2) (by positivity)
    refine this.congr' ?_
    filter_upwards [eventually_ge_atTop m₀] with a ha
    have := reducedMass_pos (hm₀.trans_le ha) hp
    simp only [Pi.div_apply, f4 a ha, massFactorElectron_eq]
    field_simp
  · rw [mul_div_cancel₀ _ (by positivity), ← f4 a ha]
    exact le_ciSup f2 a

/-- The largest mean inverse speed above a positive speed. -/
theorem meanInverse_bound {v₀ : ℝ} (v0 : 0 < v₀) (u : Prop) (hη : u → FallingEta h) (hf : ProperSpeeds h) :
    ∃ H, 0 ≤ H ∧ ∀ a, v₀ ≤ a → a ≤ h.vMax → (u → ∃ x, h.eta a = .ok x ∧ 0 ≤ x ∧ x ≤ H) ∧
      (¬u → 0 ≤ ∫ v in a..h.vMax, h.pdfSpeed v / v ∧ ∫ v in a..h.vMax, h.pdfSpeed v / v ≤ H) := by
  by_cases g : v₀ ≤ h.vMax
  · by_cases hu : u
    · obtain ⟨x, y, e1, e2, y0, yx⟩ := hη hu v₀ v₀ v0.le le_rfl g
      refine ⟨x, y0.trans yx, fun a ha ha' => ⟨fun _ => ?_, fun hn => absurd hu hn⟩⟩
      obtain ⟨x', y', f1, f2, y0', yx'⟩ := hη hu v₀ a v0.le ha ha'
      rw [e1] at f1
      cases f1
      exact ⟨y', f2, y0', yx'⟩
    · have hint : IntervalIntegrable (fun v => h.pdfSpeed v / v) volume v₀ h.vMax := by
        refine (hf.2.mono_set ?_).mul_continuousOn (g := fun v => v⁻¹) ?_
        · rw [Set.uIcc_of_le g, Set.uIcc_of_le (v0.le.trans g)]
          exact Set.Icc_subset_Icc v0.le le_rfl
        · rw [Set.uIcc_of_le g]
          exact continuousOn_inv₀.mono fun v hv => (v0.trans_le hv.1).ne'
      have hnn : ∀ v, v₀ ≤ v → 0 ≤ h.pdfSpeed v / v := fun v hv => by
        have := hf.1 v (v0.le.trans hv)
        have := v0.trans_le hv
        positivity
      refine ⟨∫ v in v₀..h.vMax, h.pdfSpeed v / v, intervalIntegral.integral_nonneg g fun v hv => hnn v hv.1,
        fun a ha ha' => ⟨fun hn => absurd hn hu, fun _ => ⟨intervalIntegral.integral_nonneg ha' fun v hv => hnn v (ha.trans hv.1), ?_⟩⟩⟩
      refine intervalIntegral.integral_mono_interval ha ha' le_rfl ?_ hint
      exact (ae_restrict_iff' measurableSet_Ioc).2 (Filter.Eventually.of_forall fun v hv => hnn v hv.1.le)
  · exact ⟨0, le_rfl, fun a ha ha' => absurd (ha.trans ha') g⟩

/-- One bound for one momentum transfer and all masses. -/
theorem crystalTerm_heavy (hI : I.Exact) (hdq : 0 < c.dq) (hcf : ∀ q, 0 ≤ c.formFactor q E) (hp : Reachable U p) (hr : 0 ≤ p.sigmaElectronRef)
    (hdens : 0 ≤ h.density) (hη : p.useEtaFunction = true → h.useEta = true → FallingEta h) (hf : ProperSpeeds h) (hE : 0 < E) (i : ℕ) :
    ∃ B, 0 ≤ B ∧ ∀ m q, 0 < m → p.setMass U m = .ok q →
      ∃ r, dRdEeCrystalTerm U I E q h c i = .ok r ∧ 0 ≤ r ∧ massFactorElectron U m * r ≤ B := by
  have hb := reachable_inv hp
  have hk : 0 < ((i : ℝ) + 1) * c.dq := by positivity
  obtain ⟨s, hs, hx⟩ := d2SigmaCrystal_eq (U := U) (E := E) (c := c) hr hk (hcf _)
  set k := ((i : ℝ) + 1) * c.dq with hkd
  have v0 : 0 < E / k := by positivity
  obtain ⟨H, H0, hH⟩ := meanInverse_bound (h := h) v0 (p.useEtaFunction ∧ h.useEta) (fun u => hη u.1 u.2) hf
  refine ⟨2 * k * c.dq * (s * (h.density * H)), by positivity, fun m q hm hq => ?_⟩
  obtain ⟨fp, fn, e1, -⟩ := setMass_couplings hb hq hq hm hm
  have q1 : q.mass = m ∧ q.interaction = p.interaction ∧ q.sigmaElectronRef = p.sigmaElectronRef ∧ q.useEtaFunction = p.useEtaFunction := by
    rw [e1]; exact ⟨rfl, rfl, rfl, rfl⟩
  clear e1
  have μ := reducedMass_pos hm U.mElectron_pos
  have c1 := hx q q1.2.1 q1.2.2.1
  rw [q1.1] at c1
  have hv : E / k ≤ vMinimalElectrons k E m := by
    unfold vMinimalElectrons
    have : 0 ≤ k / 2 / m := by positivity
    linarith
  unfold dRdEeCrystalTerm
  dsimp only
  simp only [← hkd, c1, q1.1, q1.2.2.2]
  set a := vMinimalElectrons k E m
  have fin : ∀ x : ℝ, x ≤ H → massFactorElectron U m * (2 * k * c.dq * (s / reducedMass m U.mElectron ^ 2 * (h.density / m * x))) ≤
      2 * k * c.dq * (s * (h.density * H)) := fun x hxH => by
    rw [massFactorElectron_eq]
    have l : m * reducedMass m U.mElectron ^ 2 * (2 * k * c.dq * (s / reducedMass m U.mElectron ^ 2 * (h.density / m * x))) =
        2 * k * c.dq * (s * (h.density * x)) := by field_simp
    rw [l]
    gcongr
  by_cases g : h.vMax < a
  · rw [if_pos g]
    exact ⟨0, rfl, le_rfl, by rw [mul_zero]; positivity⟩
  rw [if_neg g]
  have g := not_lt.1 g
  obtain ⟨hH1, hH2⟩ := hH a hv g
  by_cases u : p.useEtaFunction ∧ h.useEta
  · rw [if_pos u]
    obtain ⟨x, k1, x0, xH⟩ := hH1 u
    rw [k1]
    have sc : ∀ (t m e : ℝ), 2 * k * c.dq * h.density / m * e * (1 / 1000) * (1 / 1000) * (t / (1 / 1000) ^ 2) =
        2 * k * c.dq * (t * (h.density / m * e)) := fun t m e => by
      simp only [div_eq_mul_inv]
      norm_num
      ring
    refine ⟨_, rfl, by positivity, ?_⟩
    rw [sc]
    exact fin x xH
  · rw [if_neg u]
    obtain ⟨i0, iH⟩ := hH2 u
    have key : ∀ s m, ∫ v in a..h.vMax, h.differentialFlux v m * (s / v ^ 2) = s * (h.density / m * ∫ v in a..h.vMax, h.pdfSpeed v / v) := fun s m => by
      rw [← intervalIntegral.integral_const_mul, ← intervalIntegral.integral_const_mul]
      refine intervalIntegral.integral_congr fun v hv' => ?_
      rw [Set.uIcc_of_le g] at hv'
      have : 0 < v := v0.trans_le (hv.trans hv'.1)
      simp only [Distribution.differentialFlux]
      field_simp
    simp only [hI _ _ _]
    rw [key]
    exact ⟨_, rfl, by positivity, fin _ iH⟩

/-- One bound for the spectrum at an energy and all masses. -/
theorem crystal_heavy (hI : I.Exact) (hc : BuiltCrystal U c) (hcf : ∀ q, 0 ≤ c.formFactor q E) (hp : Reachable U p) (hr : 0 ≤ p.sigmaElectronRef)
    (hdens : 0 ≤ h.density) (hη : p.useEtaFunction = true → h.useEta = true → FallingEta h) (hf : ProperSpeeds h) (hE : 0 < E) :
    ∃ B, 0 ≤ B ∧ ∀ m q, 0 < m → p.setMass U m = .ok q → ∃ r, dRdEeCrystal U I E q h c = .ok r ∧ 0 ≤ r ∧ massFactorElectron U m * r ≤ B := by
  have hfacts := CrystalFacts.of_built hc
  have hM := hfacts.mCell_pos
  choose B B0 hB using crystalTerm_heavy (U := U) (I := I) (c := c) hI hfacts.dq_pos hcf hp hr hdens hη hf hE
  have s0 : 0 ≤ ((List.range c.nq).map B).sum := List.sum_nonneg (by simpa using fun a _ => B0 a)
  refine ⟨1 / c.mCell * ((List.range c.nq).map B).sum, by positivity, fun m q hm hq => ?_⟩
  unfold dRdEeCrystal
  split_ifs with hmax
  · exact ⟨0, rfl, le_rfl, by rw [mul_zero]; positivity⟩
  have := fun i => hB i m q hm hq
  choose r e r0 hle using this
  rw [sumOver_ok fun i _ => e i, Outcome.bind_ok]
  have t0 : 0 ≤ ((List.range c.nq).map r).sum := List.sum_nonneg (by simpa using fun a _ => r0 a)
  refine ⟨_, rfl, by positivity, ?_⟩
  rw [mul_left_comm, ← List.sum_map_mul_left]
  exact mul_le_mul_of_nonneg_left (List.sum_le_sum fun i _ => hle i) (by positivity)

/-- C113 (spectra). At constant cross section with electrons the spectrum in a crystal falls, at every energy, like the inverse of the mass of a heavy
particle: the mass times the rate approaches a number `K`, and the rates at all masses stay below what `K` says. -/
theorem C113_crystal (hI : I.Exact) (hc : BuiltCrystal U c) (hcf : ∀ q, 0 ≤ c.formFactor q E) (hp : Reachable U p) (hr : 0 ≤ p.sigmaElectronRef)
    (hdens : 0 ≤ h.density) (hη : p.useEtaFunction = true → h.useEta = true → FallingEta h) (hf : ProperSpeeds h) (hE : 0 < E) :
    ∃ (rate : ℝ → ℝ) (K : ℝ), (∀ m, 0 < m → ∃ q, p.setMass U m = .ok q ∧ dRdEeCrystal U I E q h c = .ok (rate m)) ∧
      Tendsto (fun m => m * rate m) atTop (𝓝 K) ∧ ∀ m, 0 < m → 0 ≤ rate m ∧ massFactorElectron U m * rate m ≤ U.mElectron ^ 2 * K := by
  obtain ⟨B, B0, hB⟩ := crystal_heavy hI hc hcf hp hr hdens hη hf hE
  have hb := reachable_inv hp
  have hs : ∀ m, 0 < m → p.setMass U m = .ok (withMass U p m) := fun m hm => setMass_ok hb hm
  set rate : ℝ → ℝ := fun m => (dRdEeCrystal U I E (withMass U p m) h c).valueOr0
  have hr' : ∀ m, 0 < m → dRdEeCrystal U I E (withMass U p m) h c = .ok (rate m) ∧ 0 ≤ rate m ∧ massFactorElectron U m * rate m ≤ B := fun m hm => by
    obtain ⟨r, e, r0, rB⟩ := hB m _ hm (hs m hm)
    have : rate m = r := by simp only [rate, e]; rfl
    rw [this]
    exact ⟨e, r0, rB⟩
  have hmono : ∀ a b, 0 < a → a ≤ b → massFactorElectron U a * rate a ≤ massFactorElectron U b * rate b := fun a b ha hab => by
    obtain ⟨r₁, r₂, e1, e2, -, -, hle⟩ := C101_crystal hI hc hcf hp hr (hs a ha) (hs b (ha.trans_le hab)) ha hab hdens hη hf hE
    have k1 := (hr' a ha).1
    have k2 := (hr' b (ha.trans_le hab)).1
    rw [e1] at k1
    rw [e2] at k2
    cases k1
    cases k2
    exact hle
  obtain ⟨K, k1, k2⟩ := heavyElectron_of_mono (U := U) (r := rate) one_pos (fun a b ha => hmono a b (one_pos.trans_le ha))
    fun a ha => (hr' a (one_pos.trans_le ha)).2.2
  refine ⟨rate, K, fun m hm => ⟨_, hs m hm, (hr' m hm).1⟩, k1, fun m hm => ⟨(hr' m hm).2.1, ?_⟩⟩
  exact (hmono m (max m 1) hm (le_max_left _ _)).trans (k2 _ (le_max_right _ _))

/-- One bound for the rates of electron-hole pairs at all masses. -/
theorem pairs_heavy (hI : I.Exact) (hc : BuiltCrystal U c) (hcf : ∀ q E, 0 ≤ c.formFactor q E) (hp : Reachable U p) (hr : 0 ≤ p.sigmaElectronRef)
    (hdens : 0 ≤ h.density) (hη : p.useEtaFunction = true → h.useEta = true → FallingEta h) (hf : ProperSpeeds h) {Q : ℕ} (hQ : 1 ≤ Q) (hQ' : Q ≤ 50000000) :
    ∃ B, ∀ m q, 0 < m → p.setMass U m = .ok q →
      (∃ r, rQCrystal U I Q q h c = .ok r ∧ 0 ≤ r ∧ massFactorElectron U m * r ≤ B) ∧
      ∃ r, rTotalCrystal U I Q q h c = .ok r ∧ 0 ≤ r ∧ massFactorElectron U m * r ≤ B := by
  classical
  have hd := (CrystalFacts.of_built hc).dE_pos
  have hg : ∀ j, 0 < gridEnergy c j := fun j => by unfold gridEnergy; positivity
  choose B B0 hB using fun j => crystal_heavy (U := U) (I := I) (c := c) hI hc (fun q => hcf q _) hp hr hdens hη hf (hg j)
  refine ⟨∑ j ∈ Finset.range c.nE, c.dE * B j, fun m q hm hq => ?_⟩
  have key : ∀ j, dRdEeCrystal U I (gridEnergy c j) q h c = .ok (dRdEeCrystal U I (gridEnergy c j) q h c).valueOr0 ∧
      0 ≤ (dRdEeCrystal U I (gridEnergy c j) q h c).valueOr0 ∧
      massFactorElectron U m * (dRdEeCrystal U I (gridEnergy c j) q h c).valueOr0 ≤ B j := fun j => by
    obtain ⟨r, e, z, hle⟩ := hB j m q hm hq
    rw [e]
    exact ⟨rfl, z, hle⟩
  have sums : ∀ cond : ℝ → Prop, 0 ≤ gridSum c (fun E => (dRdEeCrystal U I E q h c).valueOr0) cond ∧
      massFactorElectron U m * gridSum c (fun E => (dRdEeCrystal U I E q h c).valueOr0) cond ≤ ∑ j ∈ Finset.range c.nE, c.dE * B j := fun cond => by
    unfold gridSum
    refine ⟨Finset.sum_nonneg fun j _ => mul_nonneg hd.le (key j).2.1, ?_⟩
    rw [Finset.mul_sum]
    refine (Finset.sum_le_sum fun j _ => ?_).trans (Finset.sum_le_sum_of_subset_of_nonneg (Finset.filter_subset _ _) fun j _ _ => mul_nonneg hd.le (B0 j))
    rw [mul_left_comm]
    exact mul_le_mul_of_nonneg_left (key j).2.2 hd.le
  obtain ⟨a1, a2⟩ := C44_contents (rate := fun E => (dRdEeCrystal U I E q h c).valueOr0) hc hQ hQ' fun j _ => (key j).1
  exact ⟨⟨_, a1, sums _⟩, ⟨_, a2, sums _⟩⟩

/-- C113 (electron-hole pairs). So do the rates of events with `Q`, and with at least `Q`, electron-hole pairs. -/
theorem C113_pairs (hI : I.Exact) (hc : BuiltCrystal U c) (hcf : ∀ q E, 0 ≤ c.formFactor q E) (hp : Reachable U p) (hr : 0 ≤ p.sigmaElectronRef)
    (hdens : 0 ≤ h.density) (hη : p.useEtaFunction = true → h.useEta = true → FallingEta h) (hf : ProperSpeeds h) {Q : ℕ} (hQ : 1 ≤ Q) (hQ' : Q ≤ 50000000) :
    ∃ (exactly atLeast : ℝ → ℝ) (K K' : ℝ),
      (∀ m, 0 < m → ∃ q, p.setMass U m = .ok q ∧ rQCrystal U I Q q h c = .ok (exactly m) ∧ rTotalCrystal U I Q q h c = .ok (atLeast m)) ∧
      Tendsto (fun m => m * exactly m) atTop (𝓝 K) ∧ Tendsto (fun m => m * atLeast m) atTop (𝓝 K') ∧
      ∀ m, 0 < m → 0 ≤ exactly m ∧ 0 ≤ atLeast m ∧ massFactorElectron U m * exactly m ≤ U.mElectron ^ 2 * K ∧
        massFactorElectron U m * atLeast m ≤ U.mElectron ^ 2 * K' := by
  obtain ⟨B, hB⟩ := pairs_heavy hI hc hcf hp hr hdens hη hf hQ hQ'
  have hb := reachable_inv hp
  have hs : ∀ m, 0 < m → p.setMass U m = .ok (withMass U p m) := fun m hm => setMass_ok hb hm
  have : ∀ m, ∃ e a, 0 < m → rQCrystal U I Q (withMass U p m) h c = .ok e ∧ rTotalCrystal U I Q (withMass U p m) h c = .ok a ∧ 0 ≤ e ∧ 0 ≤ a ∧
      massFactorElectron U m * e ≤ B ∧ massFactorElectron U m * a ≤ B := fun m => by
    by_cases hm : 0 < m
    · obtain ⟨⟨e, e1, e2, e3⟩, a, a1, a2, a3⟩ := hB m _ hm (hs m hm)
      exact ⟨e, a, fun _ => ⟨e1, a1, e2, a2, e3, a3⟩⟩
    · exact ⟨0, 0, fun h => absurd h hm⟩
  choose e a hea using this
  have hmono : ∀ x y, 0 < x → x ≤ y → massFactorElectron U x * e x ≤ massFactorElectron U y * e y ∧
      massFactorElectron U x * a x ≤ massFactorElectron U y * a y := fun x y hx hxy => by
    obtain ⟨⟨r₁, r₂, e1, e2, -, -, hle⟩, r₁', r₂', e1', e2', -, -, hle'⟩ :=
      C101_pairs hI hc hcf hp hr (hs x hx) (hs y (hx.trans_le hxy)) hx hxy hdens hη hf hQ hQ'
    obtain ⟨k1, k2, -⟩ := hea x hx
    obtain ⟨l1, l2, -⟩ := hea y (hx.trans_le hxy)
    rw [e1] at k1
    rw [e2] at l1
    rw [e1'] at k2
    rw [e2'] at l2
    cases k1
    cases k2
    cases l1
    cases l2
    exact ⟨hle, hle'⟩
  obtain ⟨K, k1, k2⟩ := heavyElectron_of_mono (U := U) (r := e) one_pos (fun x y hx hxy => (hmono x y (one_pos.trans_le hx) hxy).1)
    fun x hx => (hea x (one_pos.trans_le hx)).2.2.2.2.1
  obtain ⟨K', l1, l2⟩ := heavyElectron_of_mono (U := U) (r := a) one_pos (fun x y hx hxy => (hmono x y (one_pos.trans_le hx) hxy).2)
    fun x hx => (hea x (one_pos.trans_le hx)).2.2.2.2.2
  refine ⟨e, a, K, K', fun m hm => ⟨_, hs m hm, (hea m hm).1, (hea m hm).2.1⟩, k1, l1, fun m hm => ⟨(hea m hm).2.2.1, (hea m hm).2.2.2.1, ?_, ?_⟩⟩
  · exact (hmono m (max m 1) hm (le_max_left _ _)).1.trans (k2 _ (le_max_right _ _))
  · exact (hmono m (max m 1) hm (le_max_left _ _)).2.trans (l2 _ (le_max_right _ _))

/-- C113 (events). So does the number of events in a detector that counts events with at least `Q` electron-hole pairs. -/
theorem C113_events (hI : T.integrate.Exact) (hc : BuiltCrystal U cd.crystal) (hcf : ∀ q E, 0 ≤ cd.crystal.formFactor q E) (hp : Reachable U p)
    (hr : 0 ≤ p.sigmaElectronRef) (hdens : 0 ≤ h.density) (hη : p.useEtaFunction = true → h.useEta = true → FallingEta h) (hf : ProperSpeeds h)
    (hw : d.usingEnergyThreshold = false) (hex : 0 ≤ d.exposure) (hfl : 0 ≤ d.flatEfficiency) {Q : ℕ} (hQ : 1 ≤ Q) (hQ' : Q ≤ 50000000) :
    ∃ (events : ℝ → ℝ) (K : ℝ), (∀ m, 0 < m → ∃ q, p.setMass U m = .ok q ∧
        ((CrystalDetector.useQThreshold d cd Q).2.toClass U T h).signalsTotal (CrystalDetector.useQThreshold d cd Q).1 q = .ok (events m)) ∧
      Tendsto (fun m => m * events m) atTop (𝓝 K) ∧ ∀ m, 0 < m → 0 ≤ events m ∧ massFactorElectron U m * events m ≤ U.mElectron ^ 2 * K := by
  obtain ⟨_e, a, _K, K, h1, _h, h2, h3⟩ := C113_pairs hI hc hcf hp hr hdens hη hf hQ hQ'
  refine ⟨fun m => d.exposure * d.flatEfficiency * a m, d.exposure * d.flatEfficiency * K, fun m hm => ?_, ?_, fun m hm => ?_⟩
  · obtain ⟨q, e1, -, e2⟩ := h1 m hm
    refine ⟨q, e1, ?_⟩
    have := CrystalDetector.C38_crystal_q_threshold_partial (U := U) (T := T) (d := d) (cd := cd) (p := q) (h := h) hw (Q := Q) (by omega)
    rw [e2, Outcome.bind_ok] at this
    exact this
  · refine (h2.const_mul (d.exposure * d.flatEfficiency)).congr fun m => ?_
    ring
  · obtain ⟨-, a0, -, hle⟩ := h3 m hm
    have := mul_le_mul_of_nonneg_left hle (mul_nonneg hex hfl)
    exact ⟨by positivity, by linarith⟩

/-- If the events fall like the inverse of the mass, the limits of a counting experiment rise like the mass, as long as they are in the searched range. -/
theorem limit_heavy {D : AnyDetector} {c₀ cert K : ℝ} {s : ℝ → ℝ} {r₀ : Detector × DMParticle × ℝ} (hR : T.findRoot.Exact)
    (hS : ∀ m, m₀ ≤ m → Sees U T h D (q m) c₀ (s m)) (hK : 0 < K) (ht : Tendsto (fun m => m * s m) atTop (𝓝 K))
    (g₀ : D.base.upperLimit U T (D.toClass U T h) (q m₀) cert = .ok r₀) (hx₀ : 0 < r₀.2.2) :
    ∃ (lim : ℝ → ℝ) (L : ℝ), 0 < L ∧ Tendsto (fun m => lim m / m) atTop (𝓝 L) ∧ ∀ m, m₀ ≤ m → lim m * s m = r₀.2.2 * s m₀ ∧
      ∃ r, D.base.upperLimit U T (D.toClass U T h) (q m) cert = .ok r ∧ (InRange (lim m) → r.2.2 = lim m) ∧ (¬InRange (lim m) → r.2.2 = -1) := by
  have S₀ := hS m₀ le_rfl
  have v0 := S₀.visible
  have c0 := S₀.positive
  refine ⟨fun m => r₀.2.2 * s m₀ / s m, r₀.2.2 * s m₀ / K, by positivity, ?_, fun m hm => ?_⟩
  · refine (tendsto_const_nhds.div ht hK.ne').congr' ?_
    filter_upwards with m
    show _ / (m * s m) = _
    rw [div_div, mul_comm m]
  have S := hS m hm
  have v := S.visible
  have b0 := S.background
  obtain ⟨p', x, g, k⟩ := C87_value S hR cert
  refine ⟨by field_simp, _, g, fun hr => ?_, fun hr => ?_⟩
  · obtain ⟨p₁, x₁, g₁, k₁⟩ := C87_value S₀ hR cert
    rw [g₀] at g₁
    cases g₁
    obtain ⟨-, e⟩ := LimitOf.pos (F := fun c => probAtMost (c / c₀ * s m₀ + D.base.background) D.base.observed) k₁ hx₀
    refine LimitOf.eq (b := D.base.background) (n := D.base.observed) c0 v b0 hr ?_ k
    have : x₁ * s m₀ / s m / c₀ * s m = x₁ / c₀ * s m₀ := by field_simp
    dsimp only at e ⊢
    rw [this, e]
    ring
  · rcases k with ⟨k, -⟩ | ⟨k, -⟩
    · exact k
    · have x0 : 0 < x := (Real.rpow_pos_of_pos (by norm_num) _).trans_le k.1
      have := C87_comparison S₀ S hR hR rfl rfl g₀ g hx₀ x0
      rw [mul_div_assoc', mul_div_assoc', div_left_inj' c0.ne'] at this
      refine absurd ?_ hr
      have hx : r₀.2.2 * s m₀ / s m = x := by rw [this]; field_simp
      show InRange (r₀.2.2 * s m₀ / s m)
      rwa [hx]

/-- C113 (limits). If a semiconductor experiment that counts events with at least `Q` electron-hole pairs finds a limit at a mass `m₀`, its limits at all
larger masses are those of a curve that rises like the mass in the end, and nowhere faster than the mass factor says; where this curve leaves the range of
interaction parameters that is searched, from 10⁻³⁰ to 10¹⁰, the result is -1. -/
theorem C113_limit {c₀ s₀ cert : ℝ} {p₀ : DMParticle} {r₀ : Detector × DMParticle × ℝ} (hR : T.findRoot.Exact) (hI : T.integrate.Exact)
    (hc : BuiltCrystal U cd.crystal) (hcf : ∀ q E, 0 ≤ cd.crystal.formFactor q E) (hp : Reachable U p)
    (hr : 0 ≤ p.sigmaElectronRef) (hdens : 0 ≤ h.density) (hη : p.useEtaFunction = true → h.useEta = true → FallingEta h) (hf : ProperSpeeds h)
    (hw : d.usingEnergyThreshold = false) (hex : 0 ≤ d.exposure) (hfl : 0 ≤ d.flatEfficiency) {Q : ℕ} (hQ : 1 ≤ Q) (hQ' : Q ≤ 50000000) (hm₀ : 0 < m₀)
    (h0 : p.setMass U m₀ = .ok p₀) (hS : Sees U T h (.crystal (CrystalDetector.useQThreshold d cd Q).1 (CrystalDetector.useQThreshold d cd Q).2) p₀ c₀ s₀)
    (g₀ : (CrystalDetector.useQThreshold d cd Q).1.upperLimit U T ((CrystalDetector.useQThreshold d cd Q).2.toClass U T h) p₀ cert = .ok r₀) (hx₀ : 0 < r₀.2.2) :
    ∃ (lim : ℝ → ℝ) (L : ℝ), 0 < L ∧ Tendsto (fun m => lim m / m) atTop (𝓝 L) ∧ ∀ m, m₀ ≤ m →
      0 < lim m ∧ lim m / massFactorElectron U m ≤ r₀.2.2 / massFactorElectron U m₀ ∧
      ∃ q r, p.setMass U m = .ok q ∧
        (CrystalDetector.useQThreshold d cd Q).1.upperLimit U T ((CrystalDetector.useQThreshold d cd Q).2.toClass U T h) q cert = .ok r ∧
        (InRange (lim m) → r.2.2 = lim m) ∧ (¬InRange (lim m) → r.2.2 = -1) := by
  have hb := reachable_inv hp
  obtain ⟨e, K, h1, h2, h3, h4⟩ : ∃ (events : ℝ → ℝ) (K : ℝ), (∀ m, 0 < m → ∃ q, p.setMass U m = .ok q ∧
        ((CrystalDetector.useQThreshold d cd Q).2.toClass U T h).signalsTotal (CrystalDetector.useQThreshold d cd Q).1 q = .ok (events m)) ∧
      Tendsto (fun m => m * events m) atTop (𝓝 K) ∧ (∀ m, 0 < m → 0 ≤ events m ∧ massFactorElectron U m * events m ≤ U.mElectron ^ 2 * K) ∧
      ∀ a b, 0 < a → a ≤ b → massFactorElectron U a * events a ≤ massFactorElectron U b * events b := by
    obtain ⟨e, K, h1, h2, h3⟩ := C113_events (T := T) (d := d) hI hc hcf hp hr hdens hη hf hw hex hfl hQ hQ'
    refine ⟨e, K, h1, h2, h3, fun a b ha hab => ?_⟩
    obtain ⟨q₁, a1, a2⟩ := h1 a ha
    obtain ⟨q₂, b1, b2⟩ := h1 b (ha.trans_le hab)
    obtain ⟨-, r₁, r₂, e1, e2, -, -, hle⟩ := C101_pairs hI hc hcf hp hr a1 b1 ha hab hdens hη hf hQ hQ'
    have k1 := CrystalDetector.C38_crystal_q_threshold_partial (U := U) (T := T) (d := d) (cd := cd) (p := q₁) (h := h) hw (Q := Q) (by omega)
    have k2 := CrystalDetector.C38_crystal_q_threshold_partial (U := U) (T := T) (d := d) (cd := cd) (p := q₂) (h := h) hw (Q := Q) (by omega)
    rw [e1, Outcome.bind_ok] at k1
    rw [e2, Outcome.bind_ok] at k2
    rw [Outcome.ok.inj (a2.symm.trans k1), Outcome.ok.inj (b2.symm.trans k2)]
    have := mul_le_mul_of_nonneg_left hle (mul_nonneg hex hfl)
    linarith
  have F₀ := massFactorElectron_pos (U := U) hm₀
  have es : e m₀ = s₀ := by
    obtain ⟨q', a1, a2⟩ := h1 m₀ hm₀
    rw [h0] at a1
    cases a1
    have := hS.signal
    exact Outcome.ok.inj (a2.symm.trans this)
  have v0 := hS.visible
  have K0 : 0 < K := by
    have := (h3 m₀ hm₀).2
    rw [es] at this
    have : 0 < U.mElectron ^ 2 * K := (mul_pos F₀ v0).trans_le this
    have he := U.mElectron_pos
    exact pos_of_mul_pos_right this (by positivity)
  have hpos : ∀ m, m₀ ≤ m → 0 < e m := fun m hm => by
    have := h4 m₀ m hm₀ hm
    rw [es] at this
    have := (mul_pos F₀ v0).trans_le this
    exact pos_of_mul_pos_right this (massFactorElectron_pos (hm₀.trans_le hm)).le
  have hsm : ∀ m, m₀ ≤ m → p.setMass U m = .ok (withMass U p m) := fun m hm => setMass_ok hb (hm₀.trans_le hm)
  have hp₀ : withMass U p m₀ = p₀ := by
    have := hsm m₀ le_rfl
    rw [h0] at this
    exact (Outcome.ok.inj this).symm
  have hSm : ∀ m, m₀ ≤ m → Sees U T h (.crystal (CrystalDetector.useQThreshold d cd Q).1 (CrystalDetector.useQThreshold d cd Q).2) (withMass U p m) c₀ (e m) :=
    fun m hm => by
      obtain ⟨q', a1, a2⟩ := h1 m (hm₀.trans_le hm)
      have a3 := hsm m hm
      rw [a1] at a3
      cases a3
      refine ⟨hS.detector, hS.counting, hS.background, ?_, ?_, hS.positive, a2, hpos m hm⟩
      · exact reachable_step (op := .setMass m) hp (hm₀.trans_le hm) a1
      · rw [setMass_parameter hb a1 h0 (hm₀.trans_le hm) hm₀]
        exact hS.parameter
  obtain ⟨lim, L, L0, ht, hl⟩ := limit_heavy (q := fun m => withMass U p m) hR hSm K0 h2 (by rw [hp₀]; exact g₀) hx₀
  refine ⟨lim, L, L0, ht, fun m hm => ?_⟩
  obtain ⟨e1, r, g, k⟩ := hl m hm
  have F := massFactorElectron_pos (U := U) (hm₀.trans_le hm)
  have v := hpos m hm
  have l0 : 0 < lim m := pos_of_mul_pos_left (by rw [e1, es]; positivity) v.le
  refine ⟨l0, ?_, _, r, hsm m hm, g, k⟩
  rw [div_le_div_iff₀ F F₀]
  have := h4 m₀ m hm₀ hm
  have h5 : lim m * massFactorElectron U m₀ * e m₀ ≤ r₀.2.2 * massFactorElectron U m * e m₀ := by
    have := mul_le_mul_of_nonneg_left this l0.le
    nlinarith
  exact le_of_mul_le_mul_right h5 (by rw [es]; exact v0)

/-- C113 (the end of limit curves). So beyond some mass no limit is found, and limit curves have no points there. -/
theorem C113_end {c₀ s₀ cert : ℝ} {p₀ : DMParticle} {r₀ : Detector × DMParticle × ℝ} (hR : T.findRoot.Exact) (hI : T.integrate.Exact)
    (hc : BuiltCrystal U cd.crystal) (hcf : ∀ q E, 0 ≤ cd.crystal.formFactor q E) (hp : Reachable U p)
    (hr : 0 ≤ p.sigmaElectronRef) (hdens : 0 ≤ h.density) (hη : p.useEtaFunction = true → h.useEta = true → FallingEta h) (hf : ProperSpeeds h)
    (hw : d.usingEnergyThreshold = false) (hex : 0 ≤ d.exposure) (hfl : 0 ≤ d.flatEfficiency) {Q : ℕ} (hQ : 1 ≤ Q) (hQ' : Q ≤ 50000000) (hm₀ : 0 < m₀)
    (h0 : p.setMass U m₀ = .ok p₀) (hS : Sees U T h (.crystal (CrystalDetector.useQThreshold d cd Q).1 (CrystalDetector.useQThreshold d cd Q).2) p₀ c₀ s₀)
    (g₀ : (CrystalDetector.useQThreshold d cd Q).1.upperLimit U T ((CrystalDetector.useQThreshold d cd Q).2.toClass U T h) p₀ cert = .ok r₀) (hx₀ : 0 < r₀.2.2) :
    ∃ M, (∀ m, M ≤ m → ∃ q r, p.setMass U m = .ok q ∧
        (CrystalDetector.useQThreshold d cd Q).1.upperLimit U T ((CrystalDetector.useQThreshold d cd Q).2.toClass U T h) q cert = .ok r ∧ r.2.2 = -1) ∧
      ∀ masses d' p' rows, (∀ m ∈ masses, 0 < m) → (CrystalDetector.useQThreshold d cd Q).1.upperLimitCurve U T
          ((CrystalDetector.useQThreshold d cd Q).2.toClass U T h) p masses cert = .ok (d', p', rows) → ∀ row ∈ rows, row.1 < M := by
  obtain ⟨lim, L, L0, ht, hl⟩ := C113_limit hR hI hc hcf hp hr hdens hη hf hw hex hfl hQ hQ' hm₀ h0 hS g₀ hx₀
  obtain ⟨M, M0, hM⟩ : ∃ M, m₀ ≤ M ∧ ∀ m, M ≤ m → (10 : ℝ) ^ (10 : ℝ) < lim m := by
    have h1 : Tendsto (fun m : ℝ => m * (lim m / m)) atTop atTop := tendsto_id.atTop_mul_pos L0 ht
    obtain ⟨M, hM⟩ := (h1.eventually_gt_atTop ((10 : ℝ) ^ (10 : ℝ))).exists_forall_of_atTop
    refine ⟨max m₀ M, le_max_left _ _, fun m hm => ?_⟩
    have := hM m ((le_max_right _ _).trans hm)
    have hm' : 0 < m := hm₀.trans_le ((le_max_left _ _).trans hm)
    rwa [mul_div_cancel₀ _ hm'.ne'] at this
  have hnone : ∀ m, M ≤ m → ∃ q r, p.setMass U m = .ok q ∧
      (CrystalDetector.useQThreshold d cd Q).1.upperLimit U T ((CrystalDetector.useQThreshold d cd Q).2.toClass U T h) q cert = .ok r ∧ r.2.2 = -1 := fun m hm => by
    obtain ⟨-, -, q, r, a1, a2, -, a3⟩ := hl m (M0.trans hm)
    exact ⟨q, r, a1, a2, a3 fun hin => absurd (hM m hm) (not_lt.2 hin.2)⟩
  refine ⟨M, hnone, fun masses d' p' rows hm hc row hrow => ?_⟩
  by_contra hge
  have hge : M ≤ row.1 := not_lt.1 hge
  obtain ⟨low, lim, -, e1, e2⟩ := C33_curve hS.detector hp hm hc
  subst e2
  obtain ⟨m, hm', hx⟩ := List.mem_filterMap.1 hrow
  split_ifs at hx with hcond
  obtain rfl := Option.some.inj hx
  have h1 := e1 m hm' hcond.1
  unfold upperLimitAt at h1
  obtain ⟨q', hq', k1⟩ := Outcome.bind_eq_ok.1 h1
  obtain ⟨r, hr, k2⟩ := Outcome.bind_eq_ok.1 k1
  obtain ⟨q'', r', hq'', hr', h2⟩ := hnone m hge
  rw [hq''] at hq'
  obtain rfl := Outcome.ok.inj hq'
  have hr : (CrystalDetector.useQThreshold d cd Q).1.upperLimit U T ((CrystalDetector.useQThreshold d cd Q).2.toClass U T h) q'' cert = .ok r := hr
  rw [hr'] at hr
  obtain rfl := Outcome.ok.inj hr
  have := hcond.2
  rw [← Outcome.ok.inj k2, h2] at this
  norm_num at this

/-- A silicon detector with a table of ones that asks for two electron-hole pairs sees a particle in a halo with sufficiently fast particles. -/
theorem sees_silicon_of (U : Units) {T : Tools} (hI : T.integrate.Exact) {H : ℝ → Distribution} (hη : ∀ v, 0 < v → FallingEta (H v))
    (hf : ∀ v, 0 < v → ProperSpeeds (H v)) (hden : ∀ v, 0 < (H v).density) (huse : ∀ v, (H v).useEta = true) (hmax : ∀ v, v ≤ (H v).vMax)
    (hpos : ∀ v, 0 < v → ∃ x, (H v).eta v = .ok x ∧ 0 < x) : ∃ (v : ℝ) (p p₀ : DMParticle) (cd : CrystalDetector) (c₀ s₀ : ℝ),
    Reachable U p ∧ p.setMass U 1 = .ok p₀ ∧ 0 ≤ p.sigmaElectronRef ∧ BuiltCrystal U cd.crystal ∧ (∀ q E, 0 ≤ cd.crystal.formFactor q E) ∧
      0 < v ∧ (∃ r, dRdEeCrystal U T.integrate (50 * U.eV) p₀ (H v) cd.crystal = .ok r ∧ 0 < r) ∧
      Sees U T (H v) (.crystal (CrystalDetector.useQThreshold (Detector.make "Si" 1 "Electrons") cd 2).1
        (CrystalDetector.useQThreshold (Detector.make "Si" 1 "Electrons") cd 2).2) p₀ c₀ s₀ := by
  classical
  obtain ⟨x, hx0, hx, hmk, _⟩ := makeSI_eq (U := U) (m := 1) (s := 1) one_pos zero_le_one
  obtain ⟨c, hc, hname, hint⟩ := builtCrystal_exists U
  set p := { DMParticle.standard U 1 1 (.SI .contact (U.aEM * U.mElectron) 0) with fp := x, fn := x } with hpd
  have hp : Reachable U p := ⟨_, [], makeSI_built one_pos hmk, by simp, rfl⟩
  have hb := reachable_inv hp
  have hm1 := setMass_ok (U := U) hb (m := 1) one_pos
  have hfc := CrystalFacts.of_built hc
  have hd := hfc.dE_pos
  have hdq := hfc.dq_pos
  have hM := hfc.mCell_pos
  have hcm := U.cm_pos
  have ha := U.aEM_pos
  have hme := U.mElectron_pos
  have hev := U.eV_pos
  have href : 0 < p.sigmaElectronRef := by
    show 0 < (DMParticle.standard U 1 1 (.SI .contact (U.aEM * U.mElectron) 0)).sigmaElectronRef
    simp only [DMParticle.standard]
    positivity
  have htab : ∀ q E, 0 ≤ c.formFactor q E := fun q E => by
    unfold Crystal.formFactor
    split_ifs
    · exact le_rfl
    · rw [hint]; exact zero_le_one
  obtain ⟨fp, fn, e1, -⟩ := setMass_couplings hb hm1 hm1 one_pos one_pos
  have q1 : (withMass U p 1).mass = 1 ∧ (withMass U p 1).interaction = .SI .contact (U.aEM * U.mElectron) 0 ∧
      (withMass U p 1).sigmaElectronRef = p.sigmaElectronRef ∧ (withMass U p 1).useEtaFunction = true := by
    rw [e1]; exact ⟨rfl, rfl, rfl, rfl⟩
  set p₀ := withMass U p 1
  clear e1
  have μ := reducedMass_pos one_pos hme
  set v := vMinimalElectrons c.dq (gridEnergy c 499) 1
  have hg : ∀ j, 0 < gridEnergy c j := fun j => by unfold gridEnergy; positivity
  have v0 : 0 < v := by
    have := hg 499
    show 0 < vMinimalElectrons c.dq (gridEnergy c 499) 1
    unfold vMinimalElectrons
    positivity
  replace hη := hη v v0
  replace hf := hf v v0
  have hden' := hden v
  obtain ⟨x, hx, x0⟩ := hpos v v0
  -- every grid energy contributes, the last one something
  have hrate : ∀ j, ∃ r, dRdEeCrystal U T.integrate (gridEnergy c j) p₀ (H v) c = .ok r ∧ 0 ≤ r := fun j => by
    obtain ⟨B, -, hB⟩ := crystal_heavy (U := U) (I := T.integrate) (c := c) (E := gridEnergy c j) hI hc (fun q => htab q _) hp href.le (hden v).le
      (fun _ _ => hη) hf (hg j)
    obtain ⟨r, e, r0, -⟩ := hB 1 p₀ one_pos hm1
    exact ⟨r, e, r0⟩
  have hlast : ∃ r, dRdEeCrystal U T.integrate (gridEnergy c 499) p₀ (H v) c = .ok r ∧ 0 < r := by
    have hE : gridEnergy c 499 = c.eMax := by unfold gridEnergy; rw [hfc.eMax]; norm_num
    have : ∀ i, ∃ r, dRdEeCrystalTerm U T.integrate (gridEnergy c 499) p₀ (H v) c i = .ok r ∧ 0 ≤ r := fun i => by
      obtain ⟨B, -, hB⟩ := crystalTerm_heavy (U := U) (I := T.integrate) (c := c) (E := gridEnergy c 499) hI hdq (fun q => htab q _) hp href.le
        (h := H v) (hden v).le (fun _ _ => hη) hf (hg 499) i
      obtain ⟨r, e, r0, -⟩ := hB 1 p₀ one_pos hm1
      exact ⟨r, e, r0⟩
    choose r e r0 using this
    have h0 : 0 < r 0 := by
      have := e 0
      unfold dRdEeCrystalTerm at this
      dsimp only at this
      rw [if_neg (by
        rw [q1.1, Nat.cast_zero, zero_add, one_mul]
        exact not_lt.2 (hmax v)), if_pos ⟨q1.2.2.2, huse v⟩] at this
      have hff : c.formFactor (((0 : ℕ) + 1 : ℝ) * c.dq) (gridEnergy c 499) = 1 := by
        unfold Crystal.formFactor
        rw [Nat.cast_zero, zero_add, one_mul, if_neg, hint]
        rw [hfc.qMax, ← hE]
        unfold gridEnergy
        rintro (h | h | h | h) <;> first | linarith | (norm_num at h; linarith)
      have hsig : 0 < p₀.d2SigmaCrystal U (((0 : ℕ) + 1 : ℝ) * c.dq) (gridEnergy c 499) (1 / 1000) c := by
        unfold DMParticle.d2SigmaCrystal dSigmadq2Electron
        rw [q1.2.1, q1.2.2.1, q1.1]
        dsimp only
        rw [hff]
        simp only [formFactor2]
        positivity
      have k : (H v).eta (vMinimalElectrons (((0 : ℕ) + 1 : ℝ) * c.dq) (gridEnergy c 499) p₀.mass) = .ok x := by
        rw [q1.1, Nat.cast_zero, zero_add, one_mul]
        exact hx
      rw [k, Outcome.bind_ok] at this
      rw [← Outcome.ok.inj this, q1.1]
      positivity
    unfold dRdEeCrystal
    rw [if_neg (by rw [hE]; exact lt_irrefl _), sumOver_ok fun i _ => e i, Outcome.bind_ok]
    have t0 : 0 < ((List.range c.nq).map r).sum := by
      have : r 0 ≤ ((List.range c.nq).map r).sum := List.single_le_sum (by simpa using fun a _ => r0 a) _
        (List.mem_map.2 ⟨0, by rw [hfc.nq]; simp, rfl⟩)
      linarith
    exact ⟨_, rfl, by positivity⟩
  have key : ∀ j, dRdEeCrystal U T.integrate (gridEnergy c j) p₀ (H v) c = .ok (dRdEeCrystal U T.integrate (gridEnergy c j) p₀ (H v) c).valueOr0 ∧
      0 ≤ (dRdEeCrystal U T.integrate (gridEnergy c j) p₀ (H v) c).valueOr0 := fun j => by
    obtain ⟨r, e, z⟩ := hrate j
    rw [e]
    exact ⟨rfl, z⟩
  have a2 := (C44_contents (Q := 2) (rate := fun E => (dRdEeCrystal U T.integrate E p₀ (H v) c).valueOr0) hc (by norm_num) (by norm_num) fun j _ => (key j).1).2
  have s0 : 0 < gridSum c (fun E => (dRdEeCrystal U T.integrate E p₀ (H v) c).valueOr0) (fun E => ∃ n, c.electronHolePairs E = .ok n ∧ 2 ≤ n) := by
    unfold gridSum
    refine Finset.sum_pos' (fun j _ => mul_nonneg hd.le (key j).2) ⟨499, ?_, ?_⟩
    · have h499 : 499 < c.nE := by rw [hfc.nE]; norm_num
      obtain ⟨n, n1, n2⟩ := grid_pairs hc h499
      refine Finset.mem_filter.2 ⟨Finset.mem_range.2 h499, n, n1, (n2 2 (by norm_num)).2 ?_⟩
      unfold Crystal.minimumElectronEnergy gridEnergy
      rw [hfc.dE]
      rcases hfc.target with ⟨_, h1, h2, _⟩ | ⟨_, h1, h2, _⟩ <;> rw [h1, h2] <;> push_cast <;> linarith
    · obtain ⟨r, e, z⟩ := hlast
      show 0 < c.dE * (dRdEeCrystal U T.integrate (gridEnergy c 499) p₀ (H v) c).valueOr0
      rw [e]
      exact mul_pos hd z
  set cd : CrystalDetector := { crystal := c, usingQThreshold := none, usingQBins := none, qThreshold := none }
  have k1 := CrystalDetector.C38_crystal_q_threshold_partial (U := U) (T := T) (d := Detector.make "Si" 1 "Electrons") (cd := cd) (p := p₀) (h := H v) rfl
    (Q := 2) (by norm_num)
  rw [show rTotalCrystal U T.integrate ((2 : ℕ) : ℤ) p₀ (H v) cd.crystal = _ from a2, Outcome.bind_ok] at k1
  refine ⟨v, p, p₀, cd, p.sigmaElectronRef, (Detector.make "Si" 1 "Electrons").exposure * (Detector.make "Si" 1 "Electrons").flatEfficiency *
    gridSum c (fun E => (dRdEeCrystal U T.integrate E p₀ (H v) c).valueOr0) (fun E => ∃ n, c.electronHolePairs E = .ok n ∧ 2 ≤ n),
    hp, hm1, href.le, hc, htab, v0, ?_, ?_⟩
  · have hE : 50 * U.eV = gridEnergy c 499 := by unfold gridEnergy; rw [hfc.dE]; norm_num; ring
    rw [hE]
    exact hlast
  refine ⟨.inr (.inr ⟨_, cd, _, [.useQThreshold 2], ⟨_, _, _, rfl⟩, rfl⟩), rfl, le_rfl, reachable_step (op := .setMass 1) hp one_pos hm1, ?_, href, k1, ?_⟩
  · show p₀.getInteractionParameter U "Electrons" = _
    unfold getInteractionParameter
    rw [if_neg (by decide), if_pos rfl]
    exact congrArg _ q1.2.2.1
  · show 0 < (1 : ℝ) * 1 * _
    rw [one_mul, one_mul]
    exact s0

/-- In particular if the mean inverse speed is reported as one. -/
theorem sees_silicon (U : Units) {T : Tools} (hI : T.integrate.Exact) : ∃ (v : ℝ) (p p₀ : DMParticle) (cd : CrystalDetector) (c₀ s₀ : ℝ),
    Reachable U p ∧ p.setMass U 1 = .ok p₀ ∧ 0 ≤ p.sigmaElectronRef ∧ BuiltCrystal U cd.crystal ∧ (∀ q E, 0 ≤ cd.crystal.formFactor q E) ∧
      Sees U T (flatHalo v) (.crystal (CrystalDetector.useQThreshold (Detector.make "Si" 1 "Electrons") cd 2).1
        (CrystalDetector.useQThreshold (Detector.make "Si" 1 "Electrons") cd 2).2) p₀ c₀ s₀ := by
  obtain ⟨v, p, p₀, cd, c₀, s₀, h1, h2, h3, h4, h5, -, -, h6⟩ := sees_silicon_of U hI (H := flatHalo)
    (fun _ _ _ _ _ _ _ => ⟨1, 1, rfl, rfl, zero_le_one, le_rfl⟩) (fun _ _ => ⟨fun _ _ => le_rfl, intervalIntegrable_const⟩) (fun _ => one_pos) (fun _ => rfl)
    (fun _ => le_rfl) fun _ _ => ⟨1, rfl, one_pos⟩
  exact ⟨v, p, p₀, cd, c₀, s₀, h1, h2, h3, h4, h5, h6⟩

/-- Non-vacuity: at some certainty this detector finds the limit 1 at mass 1, and the hypotheses of the C113 theorems are met. -/
example (U : Units) : ∃ (T : Tools) (h : Distribution) (p p₀ : DMParticle) (cert M : ℝ) (d : Detector) (cd : CrystalDetector), Reachable U p ∧
    p.setMass U 1 = .ok p₀ ∧ (∃ r, d.upperLimit U T (cd.toClass U T h) p₀ cert = .ok r ∧ r.2.2 = 1) ∧
    ∀ m, M ≤ m → ∃ q r, p.setMass U m = .ok q ∧ d.upperLimit U T (cd.toClass U T h) q cert = .ok r ∧ r.2.2 = -1 := by
  obtain ⟨R, hR⟩ := exists_exact_rootFinder
  set T : Tools := { flatTools with findRoot := R }
  have hI : T.integrate.Exact := exactIntegrator_exact
  obtain ⟨v, p, p₀, cd, c₀, s₀, hp, hm, href, hc, htab, S⟩ := sees_silicon U hI
  set d := Detector.make "Si" 1 "Electrons"
  set cert : ℝ := 1 - probAtMost (1 / c₀ * s₀ + (CrystalDetector.useQThreshold d cd 2).1.background) (CrystalDetector.useQThreshold d cd 2).1.observed with hcert
  obtain ⟨p', x, g, k⟩ := C87_value S hR cert
  have hx : x = 1 := LimitOf.eq S.positive S.visible S.background (inRange_of le_rfl (by norm_num)) hcert k
  subst hx
  have hη : FallingEta (flatHalo v) := fun a b _ _ _ => ⟨1, 1, rfl, rfl, zero_le_one, le_rfl⟩
  have hf : ProperSpeeds (flatHalo v) := ⟨fun _ _ => le_rfl, intervalIntegrable_const⟩
  obtain ⟨M, hM, -⟩ := C113_end (T := T) (h := flatHalo v) (d := d) hR hI hc htab hp href zero_le_one (fun _ _ => hη) hf rfl zero_le_one zero_le_one (Q := 2)
    (by norm_num) (by norm_num) one_pos hm S g one_pos
  exact ⟨T, flatHalo v, p, p₀, cert, M, _, _, hp, hm, ⟨_, g, rfl⟩, hM⟩

end Obscura
