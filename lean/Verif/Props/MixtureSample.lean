import Verif.Props.MixtureRange
import Verif.Props.LimitTrends

/-!
# C92 — hydrogen and helium, seen by a particle with a flat spectrum

The conditions of the theorems about mixtures are met together, and all numbers are positive.
-/

open MeasureTheory

namespace Obscura

open Spec NuclearDetector Mixture DMParticle

variable {U : Units}

/-- A light particle with equal couplings and contact interaction, in the mode without nuclear form factors. -/
noncomputable def flatParticle (U : Units) : DMParticle :=
  { standard U 1 1 (.SI .contact (U.aEM * U.mElectron) 0) with fp := 1, fn := 1, lowMass := true }

/-- An element with one isotope. -/
noncomputable def oneIsotope (U : Units) (z a : ℕ) : Nucleus where
  Z := none
  isotopes := [{ Z := z, A := a, abundance := 1, spin := 0, sp := 0, sn := 0, mass := a * U.mNucleon }]
  name := "x"

/-- The rate of an isotope, up to the largest energy it can get. -/
noncomputable def flatRate (iso : Isotope) : ℝ :=
  1 / iso.mass * (1 * 1) / 1 * ((1 / 1000 : ℝ) * (1 / 1000) *
    (2 * iso.mass * (1 / 4 / Real.pi / (1 / 1000) / (1 / 1000) * (1 * iso.Z + 1 * iso.neutrons) ^ 2 * 1 * 1 * 1))) * 1

theorem flat_isotope (I : Integrator) (v E : ℝ) (iso : Isotope) : dRdERIsotope U I E (flatParticle U) (flatHalo v) iso =
    .ok (open Classical in if v < vMinimalNucleus E 1 iso.mass then 0 else flatRate iso) := by
  classical
  unfold dRdERIsotope
  dsimp only
  have hm : (flatParticle U).mass = 1 := rfl
  have hd : (flatParticle U).dSigmadERNucleus U E iso (1 / 1000) =
      2 * iso.mass * (1 / 4 / Real.pi / (1 / 1000) / (1 / 1000) * (1 * iso.Z + 1 * iso.neutrons) ^ 2 * 1 * 1 * 1) := by
    unfold dSigmadERNucleus
    congr 1
    simp [dSigmadq2Nucleus, flatParticle, standard, formFactor2]
  rw [hm, show (flatHalo v).vMax = v from rfl]
  split_ifs with h1 h2
  · rfl
  · rw [hd]; rfl
  · exact absurd ⟨rfl, rfl⟩ h2

theorem oneIsotope_mass (z a : ℕ) : (oneIsotope U z a).averageMass = a * U.mNucleon := by
  simp [oneIsotope, Nucleus.averageMass]

theorem oneIsotope_alone {z a : ℕ} (ha : 0 < a) : Alone (oneIsotope U z a) (compound [(oneIsotope U z a, 1)] 0 none) := by
  refine ⟨"x", 1, Detector.make "x" 1 "Nuclei", ?_⟩
  have hm : (oneIsotope U z a).averageMass ≠ 0 := by
    rw [oneIsotope_mass]
    have := U.mNucleon_pos
    positivity
  unfold NuclearDetector.make massFractions
  rw [if_pos (.inl rfl)]
  simp [collect, vecGet, hm, fdiv, List.range_succ, compound]

theorem oneIsotope_rate (I : Integrator) (d : Detector) (v E : ℝ) (z a : ℕ) :
    (compound [(oneIsotope U z a, 1)] 0 none).dRdE U I d E (flatParticle U) (flatHalo v) =
      .ok (open Classical in if v < vMinimalNucleus E 1 (a * U.mNucleon) then 0 else d.flatEfficiency * flatRate ((oneIsotope U z a).isotopes.headD (Isotope.default U))) := by
  classical
  rw [dRdE_small (by have := U.eV_pos; positivity), theoryRate_compound]
  unfold dRdERNucleus
  simp only [oneIsotope, sumOver, collect, flat_isotope, Outcome.bind_ok, List.foldl_cons, List.foldl_nil, Option.elim_none]
  split_ifs <;> simp

theorem flatRate_nonneg {iso : Isotope} (hm : 0 ≤ iso.mass) : 0 ≤ flatRate iso := by
  unfold flatRate
  have := Real.pi_pos
  positivity

theorem oneIsotope_spectrum (I : Integrator) {d : Detector} (hd : 0 ≤ d.flatEfficiency) (v : ℝ) (z a : ℕ) :
    SpectrumDefined U I d (flatParticle U) (flatHalo v) (compound [(oneIsotope U z a, 1)] 0 none) := by
  classical
  refine ⟨_, fun E _ => oneIsotope_rate I d v E z a, fun x y hx hy => AntitoneOn.intervalIntegrable ?_⟩
  intro E hE E' hE' hle
  have h0 : 0 < E := lt_of_lt_of_le (lt_min hx hy) hE.1
  have hN := U.mNucleon_pos
  have hr : 0 ≤ d.flatEfficiency * flatRate ((oneIsotope U z a).isotopes.headD (Isotope.default U)) := by
    refine mul_nonneg hd (flatRate_nonneg ?_)
    simp only [oneIsotope, List.headD_cons]
    positivity
  have hv : vMinimalNucleus E 1 (a * U.mNucleon) ≤ vMinimalNucleus E' 1 (a * U.mNucleon) := by
    unfold vMinimalNucleus
    gcongr
  dsimp only
  split_ifs with h1 h2 h2
  · exact le_rfl
  · exact hr
  · exact absurd (h2.trans_le hv) h1
  · exact le_rfl

/-- A detector of energies between one and two. -/
noncomputable def flatWindow : Detector :=
  { Detector.make "x" 1 "Nuclei" with usingEnergyThreshold := true, energyThreshold := 1, energyMax := 2 }

/-- Spectra that do not change between one and two are interpolated exactly. -/
theorem flat_interpolated {k : NuclearDetector} {p : DMParticle} {h : Distribution} {r : ℝ}
    (hk : ∀ E, 1 ≤ E → E ≤ 2 → (k.toClass U flatTools h).dRdE flatWindow E p = r) : InterpolatedExactly U flatTools flatWindow p h k := by
  unfold InterpolatedExactly
  have e1 : flatWindow.energyThreshold = 1 := rfl
  have e2 : flatWindow.energyMax = 2 := rfl
  rw [e1, e2]
  have hl : logSpace 1 2 200 = 1 :: (logSpace 1 2 200).tail := by
    have : ∀ l : List ℝ, l.head? = some 1 → l = 1 :: l.tail := fun l hl => by cases l <;> simp_all
    apply this
    unfold logSpace
    rw [List.range_succ_eq_map (n := 199)]
    simp
  rw [hl, List.map_cons]
  have hc : ∫ E in (1:ℝ)..2, (k.toClass U flatTools h).dRdE flatWindow E p = r := by
    rw [intervalIntegral.integral_congr (g := fun _ => r) fun E hE => ?_]
    · norm_num
    · rw [Set.uIcc_of_le (by norm_num)] at hE
      exact hk E hE.1 hE.2
  rw [hc]
  simp only [flatTools, List.headD_cons]
  refine (mul_comm _ _).trans ?_
  norm_num
  exact hk 1 le_rfl (by norm_num)

/-- Two hydrogen atoms for each helium atom, fast particles: all conditions of `C92_spectrum`, `C92_resolution`, `C92_events` and `C92_bins`, and of
`C92_largest_energy`, `C92_smallest_speed` and `C92_smallest_mass`. -/
example (U : Units) : ∃ (l : List (Nucleus × ℝ)) (c : Nucleus → NuclearDetector) (e : Detector) (nd : NuclearDetector) (v : ℝ),
    l = [(oneIsotope U 1 1, 2), (oneIsotope U 2 4, 1)] ∧ NuclearDetector.make "x" 1 (l.map Prod.fst) (l.map Prod.snd) = .ok (e, nd) ∧
    (∀ n ∈ l.map Prod.fst, Alone n (c n)) ∧
    (∀ n ∈ l.map Prod.fst, SpectrumDefined U flatTools.integrate flatWindow (flatParticle U) (flatHalo v) (c n)) ∧
    (∀ n ∈ l.map Prod.fst, SpectrumDefined U flatTools.integrate flatWindow (flatParticle U) (flatHalo v) (equipped (c n) 0 none)) ∧
    InterpolatedExactly U flatTools flatWindow (flatParticle U) (flatHalo v) (equipped nd 0 none) ∧
    (∀ n ∈ l.map Prod.fst, InterpolatedExactly U flatTools flatWindow (flatParticle U) (flatHalo v) (equipped (c n) 0 none)) ∧
    (∀ n ∈ l.map Prod.fst, ∃ E m w, (equipped (c n) 0 none).maximumEnergyDeposit U flatTools.integrate (flatParticle U) (flatHalo v) = .ok E ∧
      (equipped (c n) 0 none).minimumDMMass U flatTools.integrate flatWindow (flatParticle U) (flatHalo v) = .ok m ∧
      (equipped (c n) 0 none).minimumDMSpeed U flatTools.integrate flatWindow (flatParticle U) = .ok w) := by
  classical
  have hN := U.mNucleon_pos
  have hpi := Real.pi_pos
  set l : List (Nucleus × ℝ) := [(oneIsotope U 1 1, 2), (oneIsotope U 2 4, 1)] with hl
  set v : ℝ := max (vMinimalNucleus 2 1 ((1 : ℕ) * U.mNucleon)) (vMinimalNucleus 2 1 ((4 : ℕ) * U.mNucleon)) with hv
  have hv1 : ∀ a : ℕ, a = 1 ∨ a = 4 → vMinimalNucleus 2 1 (a * U.mNucleon) ≤ v := by
    rintro a (rfl | rfl)
    · exact le_max_left _ _
    · exact le_max_right _ _
  have hpos : ∀ a : ℕ, a = 1 ∨ a = 4 → 0 < a := by omega
  have hmem : ∀ n ∈ l.map Prod.fst, ∃ z a, n = oneIsotope U z a ∧ (a = 1 ∨ a = 4) ∧ 1 ≤ z ∧ z ≤ a := by
    intro n hn
    simp only [hl, List.map_cons, List.map_nil, List.mem_cons, List.not_mem_nil, or_false] at hn
    rcases hn with rfl | rfl
    · exact ⟨1, 1, rfl, .inl rfl, le_rfl, le_rfl⟩
    · exact ⟨2, 4, rfl, .inr rfl, by norm_num, by norm_num⟩
  have hmake : NuclearDetector.make "x" 1 (l.map Prod.fst) (l.map Prod.snd) =
      .ok (Detector.make "x" 1 "Nuclei", compound (l.map fun x => (x.1, share l x)) 0 none) := by
    rw [make_pairs, if_neg]
    rintro ⟨-, h2⟩
    simp only [hl, List.map_cons, List.map_nil, List.sum_cons, List.sum_nil, oneIsotope_mass] at h2
    push_cast at h2
    linarith
  have halone : ∀ n ∈ l.map Prod.fst, Alone n (compound [(n, 1)] 0 none) := by
    intro n hn
    obtain ⟨z, a, rfl, ha, -⟩ := hmem n hn
    exact oneIsotope_alone (hpos a ha)
  have hspec : ∀ n ∈ l.map Prod.fst, SpectrumDefined U flatTools.integrate flatWindow (flatParticle U) (flatHalo v) (compound [(n, 1)] 0 none) := by
    intro n hn
    obtain ⟨z, a, rfl, -⟩ := hmem n hn
    exact oneIsotope_spectrum _ (by simp [flatWindow, Detector.make]) v z a
  have hflat : ∀ n ∈ l.map Prod.fst, ∃ r, ∀ E, 1 ≤ E → E ≤ 2 →
      (compound [(n, 1)] 0 none).dRdE U flatTools.integrate flatWindow E (flatParticle U) (flatHalo v) = .ok r := by
    intro n hn
    obtain ⟨z, a, rfl, ha, -⟩ := hmem n hn
    refine ⟨flatWindow.flatEfficiency * flatRate ((oneIsotope U z a).isotopes.headD (Isotope.default U)), fun E h1 h2 => ?_⟩
    rw [oneIsotope_rate, if_neg]
    refine not_lt.2 (le_trans ?_ (hv1 a ha))
    unfold vMinimalNucleus
    gcongr
  choose! r hr using hflat
  refine ⟨l, fun n => compound [(n, 1)] 0 none, _, _, v, rfl, hmake, halone, hspec, ?_, ?_, ?_, ?_⟩
  · exact fun n hn => by rw [equipped_compound]; exact hspec n hn
  · refine flat_interpolated (r := weighted (compound (l.map fun x => (x.1, share l x)) 0 none) r) fun E h1 h2 => ?_
    exact congrArg Outcome.valueOr0 (C92_spectrum (c := fun n => compound [(n, 1)] 0 none) hmake halone (res := 0)
      (by have := U.eV_pos; positivity) none fun n hn => by rw [equipped_compound]; exact hr n hn E h1 h2)
  · exact fun n hn => flat_interpolated (r := r n) fun E h1 h2 => by
      rw [equipped_compound]
      exact congrArg Outcome.valueOr0 (hr n hn E h1 h2)
  · intro n hn
    obtain ⟨z, a, rfl, ha, hz, hza⟩ := hmem n hn
    have ha0 : (0 : ℝ) < a := by exact_mod_cast hpos a ha
    have hs : ∀ w, ∃ s, (flatParticle U).sigmaTotalNucleus U flatTools.integrate
        ((oneIsotope U z a).isotopes.headD (Isotope.default U)) w = .ok s ∧ 0 < s := by
      intro w
      refine ⟨_, rfl, ?_⟩
      have hm : 0 < reducedMass (flatParticle U).mass ((oneIsotope U z a).isotopes.headD (Isotope.default U)).mass := by
        refine reducedMass_pos one_pos ?_
        simp only [oneIsotope, List.headD_cons]
        positivity
      have hz' : (0 : ℝ) < z := by exact_mod_cast hz
      simp only [flatParticle] at hm ⊢
      have : (0 : ℝ) < 1 * z + 1 * (Isotope.neutrons { Z := z, A := a, abundance := 1, spin := 0, sp := 0, sn := 0, mass := a * U.mNucleon } : ℕ) := by
        positivity
      positivity
    simp only [oneIsotope, List.headD_cons] at hs
    rw [equipped_compound]
    have hE : ∃ E, (compound [(oneIsotope U z a, 1)] 0 none).maximumEnergyDeposit U flatTools.integrate (flatParticle U) (flatHalo v) = .ok E := by
      unfold maximumEnergyDeposit
      rw [isotopes_pure]
      obtain ⟨s, h1, h2⟩ := hs v
      simp only [oneIsotope, depositLoop, show (flatHalo v).vMax = v from rfl, h1, Outcome.bind_ok, if_pos h2]
      split_ifs <;> exact ⟨_, rfl⟩
    have hw : ∃ w, (compound [(oneIsotope U z a, 1)] 0 none).minimumDMSpeed U flatTools.integrate flatWindow (flatParticle U) = .ok w := by
      unfold minimumDMSpeed
      rw [isotopes_pure]
      obtain ⟨s, h1, h2⟩ := hs (1 / 1000)
      simp only [oneIsotope, speedLoop, h1, Outcome.bind_ok, if_pos h2]
      split_ifs <;> exact ⟨_, rfl⟩
    have hm : ∃ m, (compound [(oneIsotope U z a, 1)] 0 none).minimumDMMass U flatTools.integrate flatWindow (flatParticle U) (flatHalo v) = .ok m := by
      unfold minimumDMMass
      rw [isotopes_pure, show (compound [(oneIsotope U z a, 1)] 0 none).resolution = 0 from rfl]
      obtain ⟨s, h1, h2⟩ := hs v
      have hfast : 0 < √(2 * (a * U.mNucleon) / 1) * v - 1 := by
        have h3 := hv1 a ha
        have h4 : 1 < √(2 * (a * U.mNucleon) / 1) * vMinimalNucleus 2 1 (a * U.mNucleon) := by
          unfold vMinimalNucleus reducedMass
          rw [← Real.sqrt_mul (by positivity)]
          apply Real.lt_sqrt_of_sq_lt
          have : 0 < (a : ℝ) * U.mNucleon := by positivity
          rw [div_one, ← mul_div_assoc, lt_div_iff₀ (by positivity)]
          field_simp
          nlinarith
        have h5 := mul_le_mul_of_nonneg_left h3 (Real.sqrt_nonneg (2 * (a * U.mNucleon) / 1))
        linarith
      have hmi : ∃ m, minimumMassIsotope (flatWindow.energyThreshold - 2 * 0) v { Z := z, A := a, abundance := 1, spin := 0, sp := 0, sn := 0, mass := a * U.mNucleon } = .ok m := by
        unfold minimumMassIsotope
        rw [show flatWindow.energyThreshold - 2 * 0 = 1 by simp [flatWindow], if_neg (by simp), fdiv_ok one_ne_zero, Outcome.bind_ok,
          fsqrt_ok (by positivity), Outcome.bind_ok, fdiv_ok hfast.ne']
        exact ⟨_, rfl⟩
      obtain ⟨m, hm⟩ := hmi
      simp only [oneIsotope, massLoop, show (flatHalo v).vMax = v from rfl, h1, Outcome.bind_ok, if_pos h2, hm]
      exact ⟨_, rfl⟩
    obtain ⟨E, hE⟩ := hE
    obtain ⟨m, hm⟩ := hm
    obtain ⟨w, hw⟩ := hw
    exact ⟨E, m, w, hE, hm, hw⟩

end Obscura
