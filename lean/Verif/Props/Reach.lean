import Verif.Spec.Reach
import Verif.Props.NuclearRange
import Verif.Props.AnnualModulation
import Verif.Model.Ionization
import Verif.Model.Crystal

/-!
# C95: faster halos reach further
-/

namespace Obscura

open Spec NuclearDetector

variable {U : Units} {I : Integrator} {nd : NuclearDetector} {d d' : Detector} {p p' : DMParticle} {h h' : Distribution}

theorem recoil_mono {v v' m m' M : ℝ} (hv : 0 ≤ v) (hvv : v ≤ v') (hm : 0 < m) (hmm : m ≤ m') (hM : 0 < M) :
    maximumNuclearRecoilEnergy v m M ≤ maximumNuclearRecoilEnergy v' m' M := by
  have hm' : 0 < m' := hm.trans_le hmm
  have h1 : reducedMass m M ≤ reducedMass m' M := by
    unfold reducedMass
    rw [div_le_div_iff₀ (by positivity) (by positivity)]
    nlinarith [mul_pos hM hM]
  have h0 := (reducedMass_pos hm hM).le
  have hv' : 0 ≤ v' := hv.trans hvv
  unfold maximumNuclearRecoilEnergy
  gcongr

/-- C95 (energies, nuclear recoils). In a halo with faster particles, and for a heavier particle, the largest energy deposit is not smaller. -/
theorem C95_deposit_nuclear (hM : ∀ iso ∈ nd.isotopes, PhysicalIsotope iso) (hv : 0 ≤ h.vMax) (hvv : h.vMax ≤ h'.vMax) (hm : 0 < p.mass)
    (hmm : p.mass ≤ p'.mass) (hs : ScattersOnTheSame U I nd p h p' h') {E E' : ℝ} (h1 : nd.maximumEnergyDeposit U I p h = .ok E)
    (h2 : nd.maximumEnergyDeposit U I p' h' = .ok E') : E ≤ E' := by
  obtain ⟨a1, -⟩ := C41_deposit_attained h1
  obtain ⟨b1, b2⟩ := C41_deposit_attained h2
  rcases a1 with e | ⟨iso, hi, e, hsc⟩
  · rcases b1 with e' | ⟨iso, hi, e', -⟩
    · rw [e, e']
    · rw [e, e']
      have hMi := (hM iso hi).1
      unfold maximumNuclearRecoilEnergy
      have : 0 ≤ h'.vMax := hv.trans hvv
      linarith [show 0 ≤ 2 * h'.vMax * h'.vMax * reducedMass p'.mass iso.mass ^ 2 / iso.mass by positivity]
  · rw [e]
    have := b2 iso hi (hs iso hi hsc)
    linarith [recoil_mono hv hvv hm hmm (hM iso hi).1]

/-- C95 (masses, nuclear recoils). In a halo with faster particles, and with a lower threshold, lighter particles are within reach. -/
theorem C95_mass_nuclear (hM : ∀ iso ∈ nd.isotopes, PhysicalIsotope iso) (hv : 0 < h.vMax) (hvv : h.vMax ≤ h'.vMax)
    (ht : d'.energyThreshold ≤ d.energyThreshold) (ht0 : 0 ≤ d'.energyThreshold - 2 * nd.resolution)
    (hs : ScattersOnTheSame U I nd p h p' h') {m m' : ℝ} (h1 : nd.minimumDMMass U I d p h = .ok m) (hm : 0 ≤ m)
    (h2 : nd.minimumDMMass U I d' p' h' = .ok m') : m' ≤ m := by
  unfold minimumDMMass at h1 h2
  obtain ⟨aux, g1, g2⟩ := Outcome.bind_eq_ok.1 h1
  obtain ⟨aux', g1', g2'⟩ := Outcome.bind_eq_ok.1 h2
  obtain ⟨-, hall⟩ := massLoop_spec g1
  obtain ⟨hall', -⟩ := massLoop_spec g1'
  have hne : aux ≠ [] := by rintro rfl; cases g2
  have hne' : aux' ≠ [] := by rintro rfl; cases g2'
  obtain ⟨x, hx, hleast⟩ := minElement_isLeast hne
  obtain ⟨x', hx', hleast'⟩ := minElement_isLeast hne'
  rw [hx] at g2; cases g2
  rw [hx'] at g2'; cases g2'
  obtain ⟨iso, hi, hmi, hsc⟩ := hall _ hleast.1
  obtain ⟨s, es, hs0⟩ := hs iso hi hsc
  obtain ⟨s', es', hpos⟩ := hall' iso hi
  rw [es] at es'; cases es'
  obtain ⟨y, hy, hyi⟩ := hpos hs0
  refine (hleast'.2 hy).trans ?_
  have hMi := (hM iso hi).1
  have hE : d'.energyThreshold - 2 * nd.resolution ≤ d.energyThreshold - 2 * nd.resolution := by linarith
  generalize d.energyThreshold - 2 * nd.resolution = E at *
  generalize d'.energyThreshold - 2 * nd.resolution = E' at *
  have hv' : 0 < h'.vMax := hv.trans_le hvv
  unfold minimumMassIsotope at hmi hyi
  by_cases z' : E' = 0
  · rw [if_pos ⟨z', hMi, hv'⟩] at hyi
    cases hyi
    exact hm
  have hE' : 0 < E' := lt_of_le_of_ne ht0 (Ne.symm z')
  have hE0 : 0 < E := hE'.trans_le hE
  rw [if_neg (fun c => z' c.1)] at hyi
  rw [if_neg (fun c => hE0.ne' c.1)] at hmi
  unfold fdiv fsqrt at hmi hyi
  rw [if_neg hE0.ne', Outcome.bind_ok, if_neg (not_lt.2 (by positivity)), Outcome.bind_ok] at hmi
  rw [if_neg hE'.ne', Outcome.bind_ok, if_neg (not_lt.2 (by positivity)), Outcome.bind_ok] at hyi
  split_ifs at hmi with g
  split_ifs at hyi with g'
  cases hmi
  cases hyi
  have hp : 0 < √(2 * iso.mass / E) * h.vMax - 1 := by
    rcases lt_or_gt_of_ne g with l | l
    · exact absurd hm (not_le.2 (div_neg_of_pos_of_neg hMi l))
    · exact l
  have hle : √(2 * iso.mass / E) * h.vMax - 1 ≤ √(2 * iso.mass / E') * h'.vMax - 1 := by gcongr
  gcongr

/-- C95 (energies, electrons). The same for the electron recoil, Migdal and crystal detectors. -/
theorem C95_deposit_electrons (hv : 0 ≤ h.vMax) (hvv : h.vMax ≤ h'.vMax) (hm : 0 ≤ p.mass) (hmm : p.mass ≤ p'.mass) {E E' : ℝ} :
    (IonizationDetector.maximumEnergyDeposit p h = .ok E → IonizationDetector.maximumEnergyDeposit p' h' = .ok E' → E ≤ E') ∧
    (CrystalDetector.maximumEnergyDeposit p h = .ok E → CrystalDetector.maximumEnergyDeposit p' h' = .ok E' → E ≤ E') := by
  constructor
  · intro h1 h2
    simp only [IonizationDetector.maximumEnergyDeposit, Outcome.ok.injEq] at h1 h2
    subst h1 h2
    have : 0 ≤ h'.vMax := hv.trans hvv
    have : 0 ≤ p'.mass := hm.trans hmm
    gcongr
  · intro h1 h2
    simp only [CrystalDetector.maximumEnergyDeposit, Outcome.ok.injEq] at h1 h2
    subst h1 h2
    have : 0 ≤ p'.mass := hm.trans hmm
    gcongr

/-- C95 (masses, electrons). For the same detector in a halo with faster particles, lighter particles are within reach; and for crystals with a
lower threshold as well. -/
theorem C95_mass_electrons (hv : 0 < h.vMax) (hvv : h.vMax ≤ h'.vMax) {m m' : ℝ} (hm : 0 ≤ m) :
    (∀ x : IonizationDetector, x.minimumDMMass d h = .ok m → x.minimumDMMass d h' = .ok m' → m' ≤ m) ∧
    (d'.energyThreshold ≤ d.energyThreshold → CrystalDetector.minimumDMMass d h = .ok m → CrystalDetector.minimumDMMass d' h' = .ok m' →
      m' ≤ m) := by
  have hv' : 0 < h'.vMax := hv.trans_le hvv
  constructor
  · intro x h1 h2
    unfold IonizationDetector.minimumDMMass fdiv at h1 h2
    dsimp only at h1 h2
    generalize (if d.usingEnergyThreshold = true then d.energyThreshold
      else if x.usingElectronBins = true ∨ x.usingElectronThreshold = true then x.energyGap + ((x.neThreshold : ℝ) - 1) * x.lowestW
      else x.energyGap) = E at *
    rw [if_neg (by positivity)] at h1 h2
    simp only [Outcome.ok.injEq] at h1 h2
    subst h1 h2
    have hE : 0 ≤ 2 * E := by
      have := mul_nonneg hm (by positivity : 0 ≤ h.vMax * h.vMax)
      rwa [div_mul_cancel₀ _ (by positivity)] at this
    gcongr
  · intro ht h1 h2
    unfold CrystalDetector.minimumDMMass fdiv at h1 h2
    rw [if_neg (by positivity)] at h1 h2
    simp only [Outcome.ok.injEq] at h1 h2
    subst h1 h2
    have hE : 0 ≤ 2 * d.energyThreshold := by
      have := mul_nonneg hm (by positivity : 0 ≤ h.vMax ^ 2)
      rwa [div_mul_cancel₀ _ (by positivity)] at this
    calc 2 * d'.energyThreshold / h'.vMax ^ 2 ≤ 2 * d.energyThreshold / h'.vMax ^ 2 := by gcongr
      _ ≤ 2 * d.energyThreshold / h.vMax ^ 2 := by gcongr

/-- Particles whose cross section does not depend on the speed scatter on the same isotopes in all halos. -/
theorem scattersOnTheSame_of_v_independent (hp : p.isSigmaTotalVDependent = false) : ScattersOnTheSame U I nd p h p h' :=
  fun iso _ ⟨s, e, hs⟩ => ⟨s, by rw [← e]; exact (C06_v_independence_sound hp _ _).1, hs⟩

/-- C95 (seasons). For a particle whose cross section does not depend on the speed, in the standard halo model of any year from 1901 to 2099: a
nuclear recoil detector receives at least as large recoils in the first half of June as in the first half of December, and lighter particles are
within its reach. -/
theorem C95_seasons (s : SHM) (hesc : 0 ≤ s.vEsc) {day day' year year' hour hour' minute minute' : ℤ} (hd : 1 ≤ day ∧ day ≤ 15)
    (hd' : 1 ≤ day' ∧ day' ≤ 15) (hy : 1901 ≤ year ∧ year ≤ 2099) (hy' : 1901 ≤ year' ∧ year' ≤ 2099) (hh : 0 ≤ hour ∧ hour ≤ 23)
    (hh' : 0 ≤ hour' ∧ hour' ≤ 23) (hmi : 0 ≤ minute ∧ minute ≤ 59) (hmi' : 0 ≤ minute' ∧ minute' ≤ 59)
    (hM : ∀ iso ∈ nd.isotopes, PhysicalIsotope iso) (hp : p.isSigmaTotalVDependent = false) (hm : 0 < p.mass) :
    let june := Distribution.ofSHM (s.setObserverDate U day 6 year hour minute)
    let december := Distribution.ofSHM (s.setObserverDate U day' 12 year' hour' minute')
    december.vMax + 22 * U.km / U.sec ≤ june.vMax ∧
    (∀ E E', nd.maximumEnergyDeposit U I p december = .ok E → nd.maximumEnergyDeposit U I p june = .ok E' → E ≤ E') ∧
    (0 ≤ d.energyThreshold - 2 * nd.resolution →
      ∀ m m', nd.minimumDMMass U I d p december = .ok m → 0 ≤ m → nd.minimumDMMass U I d p june = .ok m' → m' ≤ m) := by
  intro june december
  have hk := U.km_pos
  have hs := U.sec_pos
  have e1 : june.vMax = s.vEsc + (s.setObserverDate U day 6 year hour minute).vObs := rfl
  have e2 : december.vMax = s.vEsc + (s.setObserverDate U day' 12 year' hour' minute').vObs := rfl
  have h1 : 245 * U.km / U.sec ≤ (s.setObserverDate U day 6 year hour minute).vObs := earth_speed_june U hd hy hh hmi
  have h2 : (s.setObserverDate U day' 12 year' hour' minute').vObs ≤ 223 * U.km / U.sec := earth_speed_december U hd' hy' hh' hmi'
  have h3 := (earth_speed U (fractionalDaysSinceJ2000 day' 12 year' hour' minute' 0)).1
  have h4 : (s.setObserverDate U day' 12 year' hour' minute').vObs =
    vnorm (earthVelocity U (fractionalDaysSinceJ2000 day' 12 year' hour' minute' 0)) := rfl
  have hu : 0 < U.km / U.sec := by positivity
  rw [mul_div_assoc] at h1 h2 h3
  have hle : december.vMax + 22 * U.km / U.sec ≤ june.vMax := by
    rw [e1, e2, mul_div_assoc]
    linarith
  have hpos : 0 < december.vMax := by
    rw [e2, h4]
    linarith
  have hlt : december.vMax ≤ june.vMax := by
    rw [mul_div_assoc] at hle
    linarith
  refine ⟨hle, fun E E' a b => ?_, fun ht m m' a c b => ?_⟩
  · exact C95_deposit_nuclear hM hpos.le hlt hm le_rfl (scattersOnTheSame_of_v_independent hp) a b
  · exact C95_mass_nuclear hM hpos hlt le_rfl ht (scattersOnTheSame_of_v_independent hp) a c b

/-- Non-vacuity: a hydrogen detector with threshold 1/2 and a particle of mass 2 built by the constructor, in the halo `sampleHalo` and in one
with twice the largest speed; the reach improves from mass 1 to 1/3. -/
example : ∃ (p : DMParticle) (E E' m m' : ℝ), Reachable U p ∧ (∀ iso ∈ (sampleNuclear 0).isotopes, PhysicalIsotope iso) ∧ p.mass = 2 ∧
    ScattersOnTheSame U I (sampleNuclear 0) p sampleHalo p { sampleHalo with vMax := 2 } ∧
    (sampleNuclear 0).maximumEnergyDeposit U I p sampleHalo = .ok E ∧
    (sampleNuclear 0).maximumEnergyDeposit U I p { sampleHalo with vMax := 2 } = .ok E' ∧
    (sampleNuclear 0).minimumDMMass U I { Detector.make "x" 1 "Nuclei" with energyThreshold := 1 / 2 } p sampleHalo = .ok m ∧
    (sampleNuclear 0).minimumDMMass U I { Detector.make "x" 1 "Nuclei" with energyThreshold := 1 / 2 } p { sampleHalo with vMax := 2 } = .ok m' ∧
    E < E' ∧ 0 ≤ m ∧ m' < m := by
  obtain ⟨p, hp, hmass, _, hs, _⟩ := sampleParticle (U := U) (m := 2) (by norm_num)
  obtain ⟨s, hs1, hs2⟩ := hs I 1
  obtain ⟨s', hs1', hs2'⟩ := hs I 2
  have h4 : Real.sqrt (2 * 1 / (1 / 2)) = 2 := by
    rw [show (2 : ℝ) * 1 / (1 / 2) = 2 ^ 2 by norm_num, Real.sqrt_sq (by norm_num)]
  have hmi : minimumMassIsotope (1 / 2) 1 sampleIsotope = .ok 1 := by
    unfold minimumMassIsotope sampleIsotope
    rw [fdiv_ok (by norm_num), Outcome.bind_ok, fsqrt_ok (by norm_num), Outcome.bind_ok, h4, fdiv_ok (by norm_num)]
    norm_num
  have hmi' : minimumMassIsotope (1 / 2) 2 sampleIsotope = .ok (1 / 3) := by
    unfold minimumMassIsotope sampleIsotope
    rw [fdiv_ok (by norm_num), Outcome.bind_ok, fsqrt_ok (by norm_num), Outcome.bind_ok, h4, fdiv_ok (by norm_num)]
    norm_num
  have g1 : p.sigmaTotalNucleus U I sampleIsotope sampleHalo.vMax = .ok s := hs1
  have gm : minimumMassIsotope (1 / 2) sampleHalo.vMax sampleIsotope = .ok 1 := hmi
  have hiso : (sampleNuclear 0).isotopes = [sampleIsotope] := rfl
  refine ⟨p, 8 / 9, 32 / 9, 1, 1 / 3, hp, ?_, hmass, ?_, ?_, ?_, ?_, ?_, by norm_num, by norm_num, by norm_num⟩
  rotate_left
  · intro iso hi _
    rw [hiso, List.mem_singleton] at hi
    subst hi
    exact ⟨s', hs1', hs2'⟩
  · unfold maximumEnergyDeposit
    rw [hiso]
    simp only [depositLoop, g1, hs2, Outcome.bind_ok, if_true]
    norm_num [hmass, sampleHalo, sampleIsotope, sampleNuclear, maximumNuclearRecoilEnergy, reducedMass]
  · unfold maximumEnergyDeposit
    rw [hiso]
    simp only [depositLoop, hs1', hs2', Outcome.bind_ok, if_true]
    norm_num [hmass, sampleIsotope, sampleNuclear, maximumNuclearRecoilEnergy, reducedMass]
  · unfold minimumDMMass
    rw [hiso]
    simp only [sampleNuclear, mul_zero, sub_zero]
    simp only [massLoop, g1, hs2, gm, Outcome.bind_ok, if_true]
    rfl
  · unfold minimumDMMass
    rw [hiso]
    simp only [sampleNuclear, mul_zero, sub_zero]
    simp only [massLoop, hs1', hs2', hmi', Outcome.bind_ok, if_true]
    rfl
  · intro iso hi
    rw [hiso, List.mem_singleton] at hi
    subst hi
    norm_num [PhysicalIsotope, sampleIsotope]

end Obscura
