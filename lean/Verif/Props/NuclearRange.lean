import Verif.Props.NuclearDetector

/-!
# Properties C41 and C61: kinematic range and efficiencies of nuclear recoil experiments
-/

namespace Obscura

open Spec MeasureTheory DMParticle NuclearDetector

variable {U : Units} {I : Integrator} {nd : NuclearDetector} {d : Detector} {p : DMParticle} {h : Distribution}

/-- If no isotope contributes between the lowest and highest recoil energy that enters, the rate is zero. -/
theorem dRdE_zero (hx : I.Exact) (hf : nd.fractions.length = nd.nuclei.length) {E E₀ : ℝ}
    (hres : 0 ≤ nd.resolution)
    (hz : ∀ iso ∈ nd.isotopes, ∀ ER, E₀ ≤ ER → dRdERIsotope U I ER p h iso = .ok 0)
    (hE : E₀ ≤ E) (hs : 1 / 10 ^ 6 * U.eV ≤ nd.resolution → E₀ ≤ E - 6 * nd.resolution) :
    nd.dRdE U I d E p h = .ok 0 := by
  have ht : ∀ ER, E₀ ≤ ER → nd.theoryRate U I d E ER p h = .ok 0 := fun ER hER => by
    rw [theoryRate_eq_of (g := fun _ => 0) hf.ge fun iso hi => hz iso hi ER hER]
    simp
  unfold NuclearDetector.dRdE
  split_ifs with h1
  · exact ht E hE
  · have h1 := not_lt.1 h1
    dsimp only
    rw [hx, Outcome.ok.injEq]
    rw [intervalIntegral.integral_congr (g := fun _ => (0 : ℝ)), intervalIntegral.integral_zero]
    intro ER hER
    have hlo : E₀ ≤ ER := by
      have h2 := hER.1
      refine le_trans ?_ h2
      refine le_min ((hs h1).trans ((le_max_left _ _).trans (le_max_left _ _))) ?_
      have := hs h1
      linarith
    simp only [ht ER hlo, Outcome.valueOr0, mul_zero]

/-! ## C41 — no signal outside the kinematic range -/

/-- C41 (energies). Above `Maximum_Energy_Deposit` the rate vanishes. -/
theorem C41_above_deposit (hI : I.Exact) (hm : 0 < p.mass) (hM : ∀ iso ∈ nd.isotopes, PhysicalIsotope iso)
    (hf : nd.fractions.length = nd.nuclei.length) (hv : 0 < h.vMax) (heta : ∀ v, 0 ≤ v → ∃ x, h.eta v = .ok x)
    (hres : 0 ≤ nd.resolution) (hmed : MassiveMediator p) {Emax E : ℝ} (hd : nd.maximumEnergyDeposit U I p h = .ok Emax)
    (hE : Emax < E) : nd.dRdE U I d E p h = .ok 0 := by
  unfold maximumEnergyDeposit at hd
  obtain ⟨E₁, h1, h2⟩ := Outcome.bind_eq_ok.1 hd
  cases h2
  obtain ⟨_, hall, _⟩ := depositLoop_spec h1
  refine dRdE_zero hI hf (E₀ := E - 6 * nd.resolution) hres (fun iso hi ER hER => ?_) (by linarith) fun _ => le_rfl
  refine dRdERIsotope_zero hI.homogeneous heta ?_
  obtain ⟨hMi, hJ, _⟩ := hM iso hi
  rcases hall iso hi with h3 | ⟨s, hs, h0⟩
  · left
    by_contra hc
    have := (C12_galois hm hMi hv.le).1 (not_lt.1 hc)
    linarith
  · exact .inr fun q w => dSigma_zero_of_total hI hm hMi hJ hv hmed hs h0 q w

/-- C41 (energies, sharp). Without the allowance of six times the resolution, `Maximum_Energy_Deposit` is the largest recoil energy
the fastest halo particle can cause on a target isotope it scatters on (or zero if there is none). -/
theorem C41_deposit_attained {Emax : ℝ} (hd : nd.maximumEnergyDeposit U I p h = .ok Emax) :
    (Emax = 6 * nd.resolution ∨ ∃ iso ∈ nd.isotopes,
      Emax = maximumNuclearRecoilEnergy h.vMax p.mass iso.mass + 6 * nd.resolution ∧
      ∃ s, p.sigmaTotalNucleus U I iso h.vMax = .ok s ∧ 0 < s) ∧
    ∀ iso ∈ nd.isotopes, (∃ s, p.sigmaTotalNucleus U I iso h.vMax = .ok s ∧ 0 < s) →
      maximumNuclearRecoilEnergy h.vMax p.mass iso.mass + 6 * nd.resolution ≤ Emax := by
  unfold maximumEnergyDeposit at hd
  obtain ⟨E₁, h1, h2⟩ := Outcome.bind_eq_ok.1 hd
  cases h2
  obtain ⟨_, hall, hatt⟩ := depositLoop_spec h1
  constructor
  · rcases hatt with h | ⟨iso, hi, h, hs⟩
    · left; rw [h, zero_add]
    · exact .inr ⟨iso, hi, by rw [h], hs⟩
  · rintro iso hi ⟨s, hs, h0⟩
    rcases hall iso hi with h | ⟨s', hs', h0'⟩
    · linarith
    · rw [hs] at hs'; cases hs'; exact absurd h0 h0'

/-- C41 (masses), guarded. Below `Minimum_DM_Mass` a detector without energy resolution predicts no event above threshold; with a
resolution `σ` this holds for energies from `E_threshold + 4 σ`. Missing: energies in between, see `C41_fails_resolution`. -/
theorem C41_below_minimum_mass_partial (hI : I.Exact) (hm : 0 < p.mass) (hM : ∀ iso ∈ nd.isotopes, PhysicalIsotope iso)
    (hf : nd.fractions.length = nd.nuclei.length) (hv : 0 < h.vMax) (heta : ∀ v, 0 ≤ v → ∃ x, h.eta v = .ok x)
    (hres : 0 ≤ nd.resolution) (hmed : MassiveMediator p) (hthr : 0 ≤ d.energyThreshold - 2 * nd.resolution) {m₀ E : ℝ}
    (hd : nd.minimumDMMass U I d p h = .ok m₀) (hlt : p.mass < m₀)
    (hE : nd.resolution < 1 / 10 ^ 6 * U.eV ∧ d.energyThreshold ≤ E ∨ d.energyThreshold + 4 * nd.resolution ≤ E) :
    nd.dRdE U I d E p h = .ok 0 := by
  unfold minimumDMMass at hd
  obtain ⟨aux, h1, h2⟩ := Outcome.bind_eq_ok.1 hd
  obtain ⟨hall, _⟩ := massLoop_spec h1
  have hne : aux ≠ [] := by rintro rfl; cases h2
  obtain ⟨x, hx, hleast⟩ := minElement_isLeast hne
  rw [hx] at h2; cases h2
  refine dRdE_zero hI hf (E₀ := d.energyThreshold - 2 * nd.resolution) hres (fun iso hi ER hER => ?_) ?_ ?_
  · refine dRdERIsotope_zero hI.homogeneous heta ?_
    obtain ⟨hMi, hJ, _⟩ := hM iso hi
    obtain ⟨s, hs, hpos⟩ := hall iso hi
    by_cases h0 : 0 < s
    · obtain ⟨m, hmem, hmi⟩ := hpos h0
      have : p.mass < m := hlt.trans_le (hleast.2 hmem)
      exact .inl (too_light hm hMi hv hthr hmi this hER)
    · exact .inr fun q w => dSigma_zero_of_total hI hm hMi hJ hv hmed hs h0 q w
  · rcases hE with ⟨_, h⟩ | h <;> linarith
  · intro h3
    rcases hE with ⟨h4, _⟩ | h4
    · exact absurd h4 (not_lt.2 h3)
    · linarith

/-- C41 (masses, sharp). `Minimum_DM_Mass`, unless negative, is the mass at which the fastest halo particle can just deposit the
threshold energy less twice the resolution on some isotope it scatters on (zero if that energy is zero). -/
theorem C41_minimum_mass_attained (hM : ∀ iso ∈ nd.isotopes, PhysicalIsotope iso) (hv : 0 < h.vMax)
    (hthr : 0 ≤ d.energyThreshold - 2 * nd.resolution) {m₀ : ℝ}
    (hd : nd.minimumDMMass U I d p h = .ok m₀) (hnn : 0 ≤ m₀) :
    ∃ iso ∈ nd.isotopes, (∃ s, p.sigmaTotalNucleus U I iso h.vMax = .ok s ∧ 0 < s) ∧
      maximumNuclearRecoilEnergy h.vMax m₀ iso.mass = d.energyThreshold - 2 * nd.resolution := by
  unfold minimumDMMass at hd
  obtain ⟨aux, h1, h2⟩ := Outcome.bind_eq_ok.1 hd
  obtain ⟨_, hall⟩ := massLoop_spec h1
  have hne : aux ≠ [] := by rintro rfl; cases h2
  obtain ⟨x, hx, hleast⟩ := minElement_isLeast hne
  rw [hx] at h2; cases h2
  obtain ⟨iso, hi, hmi, hs⟩ := hall _ hleast.1
  refine ⟨iso, hi, hs, ?_⟩
  have hMi := (hM iso hi).1
  generalize d.energyThreshold - 2 * nd.resolution = E at *
  unfold minimumMassIsotope at hmi
  split_ifs at hmi with g0
  · cases hmi
    rw [g0.1]
    simp [maximumNuclearRecoilEnergy, reducedMass]
  obtain ⟨x, hx, hmi⟩ := Outcome.bind_eq_ok.1 hmi
  obtain ⟨r, hr, hmi⟩ := Outcome.bind_eq_ok.1 hmi
  unfold fdiv at hx hmi
  unfold fsqrt at hr
  split_ifs at hx with g1
  split_ifs at hr with g2
  split_ifs at hmi with g3
  cases hx; cases hr; cases hmi
  have hpos := lt_of_le_of_ne hnn (Ne.symm (div_ne_zero hMi.ne' g3))
  have hEp : 0 < E := lt_of_le_of_ne hthr (Ne.symm g1)
  set r := Real.sqrt (2 * iso.mass / E) with hr
  have hr0 : 0 < r := Real.sqrt_pos.2 (by positivity)
  have hr2 : r * r = 2 * iso.mass / E := Real.mul_self_sqrt (by positivity)
  have hE : E = 2 * iso.mass / (r * r) := by rw [hr2]; field_simp
  unfold maximumNuclearRecoilEnergy reducedMass
  have g4 : iso.mass / (r * h.vMax - 1) + iso.mass ≠ 0 := by positivity
  have g5 : iso.mass / (r * h.vMax - 1) * iso.mass / (iso.mass / (r * h.vMax - 1) + iso.mass) = iso.mass / (r * h.vMax) := by
    rw [div_eq_div_iff g4 (by positivity)]
    field_simp
    ring
  rw [g5, hE]
  field_simp

/-- C41 (speeds). A DM particle slower than `Minimum_DM_Speed` cannot deposit the threshold energy less twice the resolution on any
isotope it scatters on; the value is attained by such an isotope unless it is the speed of light. -/
theorem C41_minimum_speed (hm : 0 < p.mass) (hM : ∀ iso ∈ nd.isotopes, PhysicalIsotope iso) {v₀ : ℝ}
    (hd : nd.minimumDMSpeed U I d p = .ok v₀) :
    (∀ iso ∈ nd.isotopes, (∃ s, p.sigmaTotalNucleus U I iso (1 / 1000) = .ok s ∧ 0 < s) →
      ∀ v, 0 ≤ v → v < v₀ → maximumNuclearRecoilEnergy v p.mass iso.mass < d.energyThreshold - 2 * nd.resolution) ∧
    (v₀ = 1 ∨ ∃ iso ∈ nd.isotopes, (∃ s, p.sigmaTotalNucleus U I iso (1 / 1000) = .ok s ∧ 0 < s) ∧
      v₀ ≤ 1 ∧ (0 ≤ d.energyThreshold - 2 * nd.resolution →
        maximumNuclearRecoilEnergy v₀ p.mass iso.mass = d.energyThreshold - 2 * nd.resolution)) := by
  obtain ⟨hle, hall, hatt⟩ := speedLoop_spec hd
  constructor
  · rintro iso hi ⟨s, hs, h0⟩ v hv hlt
    have hMi := (hM iso hi).1
    rcases hall iso hi with h1 | ⟨s', hs', h0'⟩
    · by_contra hc
      have := (C12_galois hm hMi hv).2 (not_lt.1 hc)
      linarith
    · rw [hs] at hs'; cases hs'; exact absurd h0 h0'
  · rcases hatt with h1 | ⟨iso, hi, h1, hs⟩
    · exact .inl h1
    · refine .inr ⟨iso, hi, hs, hle, fun h0 => ?_⟩
      rw [← h1]
      exact (C12_inverse hm (hM iso hi).1).1 _ h0

/-! ### Negations -/

/-- A target used below: one isotope with one proton, mass 1 and spin 1/2. -/
noncomputable def sampleIsotope : Isotope := ⟨1, 1, 1, 1 / 2, 1 / 2, 0, 1⟩

/-- A detector of it. -/
noncomputable def sampleNuclear (res : ℝ) : NuclearDetector := ⟨[⟨some 1, [sampleIsotope], "H"⟩], [1], res, false, []⟩

/-- A normalised halo with `f(v) = 2 v` up to the speed 1. -/
noncomputable def sampleHalo : Distribution where
  density := 1
  vMin := 0
  vMax := 1
  useEta := true
  pdfSpeed := fun u => if 0 ≤ u ∧ u ≤ 1 then 2 * u else 0
  cdfSpeed := fun u => if u < 0 then 0 else if 1 < u then 1 else u ^ 2
  eta := fun v => .ok (if v ≤ 1 then 2 * (1 - v) else 0)

/-- `sampleHalo` meets the contract of C42. -/
theorem sampleHalo_eta (v : ℝ) (hv : 0 ≤ v) (hv1 : v ≤ 1) : EtaAt sampleHalo v := by
  unfold EtaAt sampleHalo
  simp only [hv1, if_true, Outcome.ok.injEq]
  rw [intervalIntegral.integral_congr_ae (g := fun _ => (2 : ℝ))]
  · simp; ring
  · filter_upwards with u hu
    rw [Set.uIoc_of_le hv1] at hu
    have : 0 < u := hv.trans_lt hu.1
    rw [if_pos ⟨this.le, hu.2⟩]
    field_simp

/-- The particle used below: built by the constructor, in low-mass mode. -/
theorem sampleParticle {m : ℝ} (hm : 0 < m) : ∃ p, Reachable U p ∧ p.mass = m ∧ MassiveMediator p ∧
    (∀ I v, ∃ s, p.sigmaTotalNucleus U I sampleIsotope v = .ok s ∧ 0 < s) ∧
    ∃ C, 0 < C ∧ ∀ I ER, dRdERIsotope U I ER p sampleHalo sampleIsotope =
      .ok (if 1 < vMinimalNucleus ER m 1 then 0 else C * (1 - vMinimalNucleus ER m 1)) := by
  obtain ⟨c, hc0, hc, hmk, _⟩ := makeSI_eq (U := U) (m := m) (s := 1) hm zero_le_one
  have hc := hc one_pos
  have hpi := Real.pi_pos
  have hmu := reducedMass_pos hm (one_pos)
  refine ⟨_, ⟨_, [.setLowMassMode true], makeSI_built hm hmk, by simp [ValidOp], rfl⟩, rfl, ?_, ?_, ?_⟩
  · intro q; simp [setLowMassMode, standard]
  · intro I v
    refine ⟨_, by simp only [sigmaTotalNucleus, setLowMassMode, standard]; rfl, ?_⟩
    simp only [sampleIsotope, Isotope.neutrons, usub32]
    norm_num
    positivity
  · refine ⟨2 / m * (2 * (1 / 4 / Real.pi * c ^ 2)), by positivity, fun I ER => ?_⟩
    unfold dRdERIsotope
    simp only [setLowMassMode, standard, sampleHalo, sampleIsotope, dSigmadERNucleus, dSigmadq2Nucleus, formFactor2,
      Isotope.neutrons, usub32]
    norm_num
    split_ifs with h1 h2
    · rfl
    · rw [Outcome.ok.injEq]; field_simp; norm_num
    · linarith

/-- Integral of the smeared spectrum of the sample detector. -/
theorem sample_dRdE {m res E : ℝ} {p : DMParticle} {C : ℝ} (hI : I.Exact) (hres : 1 / 10 ^ 6 * U.eV ≤ res)
    (hd : d.flatEfficiency = 1)
    (hr : ∀ ER, dRdERIsotope U I ER p sampleHalo sampleIsotope =
      .ok (if 1 < vMinimalNucleus ER m 1 then 0 else C * (1 - vMinimalNucleus ER m 1))) :
    (sampleNuclear res).dRdE U I d E p sampleHalo =
      .ok (∫ ER in (max (max (E - 6 * res) (d.energyThreshold - 3 * res)) (2 * res))..(E + 6 * res),
        pdfGauss E ER res * (if 1 < vMinimalNucleus ER m 1 then 0 else C * (1 - vMinimalNucleus ER m 1))) := by
  unfold NuclearDetector.dRdE
  rw [if_neg (show ¬(sampleNuclear res).resolution < 1 / 10 ^ 6 * U.eV from not_lt.2 hres)]
  dsimp only
  rw [hI]
  congr 1
  refine intervalIntegral.integral_congr fun ER _ => ?_
  rw [theoryRate_eq_of (g := fun _ => if 1 < vMinimalNucleus ER m 1 then 0 else C * (1 - vMinimalNucleus ER m 1))
    (by simp [sampleNuclear])]
  · simp only [sampleNuclear, efficiencyOf, hd, sampleIsotope, Outcome.valueOr0]
    congr 1
    refine (Fin.sum_univ_one _).trans ?_
    simp
  · intro iso hi
    simp only [sampleNuclear, NuclearDetector.isotopes, List.flatMap_cons, List.flatMap_nil, List.append_nil, List.mem_cons,
      List.not_mem_nil, or_false] at hi
    subst hi
    exact hr ER

theorem continuous_sample (C m res E : ℝ) :
    Continuous fun ER => pdfGauss E ER res * (if 1 < vMinimalNucleus ER m 1 then 0 else C * (1 - vMinimalNucleus ER m 1)) := by
  have h : ∀ ER, (if 1 < vMinimalNucleus ER m 1 then 0 else C * (1 - vMinimalNucleus ER m 1)) =
      C * max 0 (1 - vMinimalNucleus ER m 1) := fun ER => by
    split_ifs with h
    · rw [max_eq_left (by linarith), mul_zero]
    · rw [max_eq_right (by linarith)]
  simp only [h]
  unfold pdfGauss vMinimalNucleus
  fun_prop

theorem sample_integral_pos {C m res E a b : ℝ} (hC : 0 < C) (hm : 0 < m) (hres : 0 < res) (hab : a < b) (ha : 0 ≤ a)
    (hlt : a < maximumNuclearRecoilEnergy 1 m 1) :
    0 < ∫ ER in a..b, pdfGauss E ER res * (if 1 < vMinimalNucleus ER m 1 then 0 else C * (1 - vMinimalNucleus ER m 1)) := by
  have hc := continuous_sample C m res E
  have hg : ∀ ER, 0 < pdfGauss E ER res := fun ER => by
    unfold pdfGauss
    have := Real.pi_pos
    positivity
  refine intervalIntegral.integral_pos hab hc.continuousOn (fun x _ => ?_) ⟨a, ⟨le_rfl, hab.le⟩, ?_⟩
  · refine mul_nonneg (hg x).le ?_
    split_ifs with h1
    · exact le_rfl
    · exact mul_nonneg hC.le (by linarith)
  · have h1 : vMinimalNucleus a m 1 < 1 := by
      have h2 := (C12_strictMono hm one_pos).1 (Set.mem_Ici.2 ha) (Set.mem_Ici.2 (ha.trans hlt.le)) hlt
      simp only [(C12_inverse hm one_pos).2 1 zero_le_one] at h2
      exact h2
    rw [if_neg (not_lt.2 h1.le)]
    exact mul_pos (hg a) (mul_pos hC (by linarith))

/-- C41 fails with an energy resolution: a particle lighter than `Minimum_DM_Mass` gives a positive rate at the threshold, because
the rate includes recoils down to three (or six) times the resolution below the threshold and the mass only two. -/
theorem C41_fails_resolution (hI : I.Exact) (hU : U.eV ≤ 1) :
    ∃ p m₀ r, Reachable U p ∧
      (sampleNuclear (1 / 8)).minimumDMMass U I { Detector.make "x" 1 "Nuclei" with energyThreshold := 3 / 4 } p sampleHalo = .ok m₀ ∧
      p.mass < m₀ ∧
      (sampleNuclear (1 / 8)).dRdE U I { Detector.make "x" 1 "Nuclei" with energyThreshold := 3 / 4 } (3 / 4) p sampleHalo = .ok r ∧
      0 < r := by
  obtain ⟨p, hp, hmass, _, hs, C, hC, hr⟩ := sampleParticle (U := U) (m := 9 / 11) (by norm_num)
  refine ⟨p, 1, _, hp, ?_, by rw [hmass]; norm_num, sample_dRdE hI (by linarith) rfl (hr I), ?_⟩
  · obtain ⟨s, hs1, hs2⟩ := hs I 1
    have hE : (3 : ℝ) / 4 - 2 * (1 / 8) = 1 / 2 := by norm_num
    have h4 : Real.sqrt (2 * 1 / (1 / 2)) = 2 := by
      rw [show (2 : ℝ) * 1 / (1 / 2) = 2 ^ 2 by norm_num, Real.sqrt_sq (by norm_num)]
    have hmi : minimumMassIsotope (1 / 2) 1 sampleIsotope = .ok 1 := by
      unfold minimumMassIsotope sampleIsotope
      rw [fdiv_ok (by norm_num), Outcome.bind_ok, fsqrt_ok (by norm_num), Outcome.bind_ok, h4, fdiv_ok (by norm_num)]
      norm_num
    have hs1 : p.sigmaTotalNucleus U I sampleIsotope sampleHalo.vMax = .ok s := hs1
    have hmi : minimumMassIsotope (1 / 2) sampleHalo.vMax sampleIsotope = .ok 1 := hmi
    unfold minimumDMMass
    simp only [sampleNuclear, NuclearDetector.isotopes, List.flatMap_cons, List.flatMap_nil, List.append_nil, hE]
    simp only [massLoop, hs1, hs2, hmi, Outcome.bind_ok, if_true]
    rfl
  · have e : max (max ((3 : ℝ) / 4 - 6 * (1 / 8)) (3 / 4 - 3 * (1 / 8))) (2 * (1 / 8)) = 3 / 8 := by norm_num
    rw [e]
    refine sample_integral_pos hC (by norm_num) (by norm_num) (by norm_num) (by norm_num) ?_
    norm_num [maximumNuclearRecoilEnergy, reducedMass]

/-- C41 fails: `Minimum_DM_Mass` is negative when even an infinitely heavy particle could not reach the threshold. -/
theorem C41_fails_negative_mass :
    ∃ p, Reachable U p ∧
      (sampleNuclear 0).minimumDMMass U I { Detector.make "x" 1 "Nuclei" with energyThreshold := 8 } p sampleHalo = .ok (-2) := by
  obtain ⟨p, hp, hmass, _, hs, _⟩ := sampleParticle (U := U) (m := 1) one_pos
  refine ⟨p, hp, ?_⟩
  obtain ⟨s, hs1, hs2⟩ := hs I 1
  have h4 : Real.sqrt (2 * 1 / 8) = 1 / 2 := by
    rw [show (2 : ℝ) * 1 / 8 = (1 / 2) ^ 2 by norm_num, Real.sqrt_sq (by norm_num)]
  have hmi : minimumMassIsotope 8 sampleHalo.vMax sampleIsotope = .ok (-2) := by
    unfold minimumMassIsotope sampleIsotope sampleHalo
    rw [fdiv_ok (by norm_num), Outcome.bind_ok, fsqrt_ok (by norm_num), Outcome.bind_ok, h4, fdiv_ok (by norm_num)]
    norm_num
  have hs1 : p.sigmaTotalNucleus U I sampleIsotope sampleHalo.vMax = .ok s := hs1
  unfold minimumDMMass
  simp only [sampleNuclear, NuclearDetector.isotopes, List.flatMap_cons, List.flatMap_nil, List.append_nil, mul_zero, sub_zero]
  simp only [massLoop, hs1, hs2, hmi, Outcome.bind_ok, if_true]
  rfl

/-- C41 fails: for a spin-dependent interaction and a target without spin `Minimum_DM_Mass` dereferences an empty range. -/
theorem C41_fails_no_target {p : DMParticle} (hp : p.interaction = .SD) (hiso : ∀ iso ∈ nd.isotopes, iso.spin = 0) :
    nd.minimumDMMass U I d p h = .ub := by
  have : ∀ l : List Isotope, (∀ iso ∈ l, iso.spin = 0) → ∀ E v, massLoop U I p E v l = .ok [] := by
    intro l
    induction l with
    | nil => intro _ E v; rfl
    | cons iso l ih =>
      intro hl E v
      have h0 : p.sigmaTotalNucleus U I iso v = .ok 0 := by
        simp [sigmaTotalNucleus, hp, hl iso (by simp)]
      simp only [massLoop, h0, Outcome.bind_ok, lt_irrefl, if_false]
      exact ih (fun i hi => hl i (by simp [hi])) E v
  simp only [minimumDMMass, this _ hiso, Outcome.bind_ok]
  rfl

/-- C40 fails: far below the threshold the limits of the convolution are in the wrong order and the rate is negative. -/
theorem C40_fails_below_threshold (hI : I.Exact) (hU : U.eV ≤ 1) :
    ∃ p r, Reachable U p ∧
      (sampleNuclear (1 / 8)).dRdE U I { Detector.make "x" 1 "Nuclei" with energyThreshold := 2 } 0 p sampleHalo = .ok r ∧ r < 0 := by
  obtain ⟨p, hp, hmass, _, hs, C, hC, hr⟩ := sampleParticle (U := U) (m := 2) (by norm_num)
  refine ⟨p, _, hp, sample_dRdE hI (by linarith) rfl (hr I), ?_⟩
  have e : max (max ((0 : ℝ) - 6 * (1 / 8)) (2 - 3 * (1 / 8))) (2 * (1 / 8)) = 13 / 8 := by norm_num
  rw [e, intervalIntegral.integral_symm, neg_lt_zero]
  refine sample_integral_pos hC (by norm_num) (by norm_num) (by norm_num) (by norm_num) ?_
  norm_num [maximumNuclearRecoilEnergy, reducedMass]

/-- Non-vacuity for C40–C42: the sample detector, halo and particle meet the hypotheses, and the rate is positive below the
kinematic limit and zero above. -/
example : ∃ p : DMParticle, 0 < p.mass ∧ MassiveMediator p ∧
    (∀ iso ∈ (sampleNuclear 0).isotopes, PhysicalIsotope iso) ∧ (sampleNuclear 0).fractions.length = (sampleNuclear 0).nuclei.length ∧
    (∀ v, 0 ≤ v → v ≤ sampleHalo.vMax → EtaAt sampleHalo v) ∧ (∀ v, 0 ≤ v → ∃ x, sampleHalo.eta v = .ok x) ∧
    (∃ Emax, (sampleNuclear 0).maximumEnergyDeposit U I p sampleHalo = .ok Emax ∧ 0 < Emax ∧
      ∃ r, dRdERIsotope U I (Emax / 4) p sampleHalo sampleIsotope = .ok r ∧ 0 < r) := by
  obtain ⟨p, hp, hmass, hmed, hs, C, hC, hr⟩ := sampleParticle (U := U) (m := 1) one_pos
  refine ⟨p, by rw [hmass]; norm_num, hmed, ?_, rfl, sampleHalo_eta, fun v _ => ⟨_, rfl⟩, 1 / 2, ?_, by norm_num, ?_⟩
  · intro iso hi
    simp only [sampleNuclear, NuclearDetector.isotopes, List.flatMap_cons, List.flatMap_nil, List.append_nil, List.mem_cons,
      List.not_mem_nil, or_false] at hi
    subst hi
    norm_num [PhysicalIsotope, sampleIsotope]
  · obtain ⟨s, hs1, hs2⟩ := hs I 1
    have hs1 : p.sigmaTotalNucleus U I sampleIsotope sampleHalo.vMax = .ok s := hs1
    have hmax : maximumNuclearRecoilEnergy sampleHalo.vMax p.mass sampleIsotope.mass = 1 / 2 := by
      rw [hmass]; norm_num [maximumNuclearRecoilEnergy, reducedMass, sampleHalo, sampleIsotope]
    unfold maximumEnergyDeposit
    simp only [sampleNuclear, NuclearDetector.isotopes, List.flatMap_cons, List.flatMap_nil, List.append_nil]
    unfold depositLoop
    simp only [hmax, hs1, Outcome.bind_ok, hs2, if_true]
    norm_num [depositLoop]
  · refine ⟨_, hr I _, ?_⟩
    have h1 : vMinimalNucleus (1 / 2 / 4) 1 1 < 1 := by
      unfold vMinimalNucleus
      rw [Real.sqrt_lt' one_pos]
      norm_num [reducedMass]
    rw [if_neg (not_lt.2 h1.le)]
    exact mul_pos hC (by linarith)

/-! ## C61 — efficiencies -/

/-- C61: without tables the efficiency is the flat one; one table applies to every target; one table per target applies target by
target. The tables are evaluated at the observed energy and multiply the flat efficiency. -/
theorem C61_efficiency (i : ℕ) (hi : i < nd.nuclei.length) (E : ℝ) :
    (nd.usingTables = false → nd.efficiency i E = .ok 1) ∧
    (∀ e, (nd.importEfficiencies [e]).efficiency i E = .ok (e E)) ∧
    (∀ es : List (ℝ → ℝ), es.length = nd.nuclei.length → ∀ hi' : i < es.length,
      (nd.importEfficiencies es).efficiency i E = .ok (es[i] E)) := by
  have himp : ∀ es : List (ℝ → ℝ), es ≠ [] → nd.importEfficiencies es = { nd with usingTables := true, efficiencies := es } := by
    have aux : ∀ (es : List (ℝ → ℝ)) (n : NuclearDetector), n.usingTables = true →
        es.foldl importEfficiency n = { n with usingTables := true, efficiencies := n.efficiencies ++ es } := by
      intro es
      induction es with
      | nil => intro n hn; cases n; simp at hn; simp [hn]
      | cons e es ih => intro n hn; rw [List.foldl_cons, ih _ rfl]; simp [importEfficiency]
    intro es hes
    obtain ⟨e, es, rfl⟩ := List.exists_cons_of_ne_nil hes
    unfold importEfficiencies
    rw [List.foldl_cons, aux _ _ rfl]
    simp [importEfficiency]
  refine ⟨fun h => by simp [NuclearDetector.efficiency, h], fun e => ?_, fun es hl hi' => ?_⟩
  · rw [himp _ (by simp)]
    simp [NuclearDetector.efficiency, vecGet]
  · have hne : es ≠ [] := by rintro rfl; simp at hi'
    rw [himp _ hne]
    simp only [NuclearDetector.efficiency, if_true]
    by_cases h1 : es.length = 1
    · have : i = 0 := by omega
      subst this
      rw [if_pos h1, vecGet_lt hi']; rfl
    · rw [if_neg h1, if_pos hl, vecGet_lt hi']; rfl

/-- C61 fails: importing a single table appends to the tables already there. A second single table on a detector with three targets
(or a single table after one table per target) makes all tables ineffective, silently. -/
theorem C61_fails_second_table (hn : nd.nuclei.length ≠ 2) (h0 : nd.efficiencies = []) (e₁ e₂ : ℝ → ℝ) (i : ℕ) (E : ℝ) :
    ((nd.importEfficiency e₁).importEfficiency e₂).efficiency i E = .ok 1 := by
  simp only [NuclearDetector.efficiency, importEfficiency, h0]
  simp [hn.symm]

end Obscura
