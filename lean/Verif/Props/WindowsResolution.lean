import Verif.Props.Windows
import Verif.Props.MixtureSample

/-!
# C91 — narrower energy windows of nuclear recoil detectors with a finite resolution
-/

open MeasureTheory

namespace Obscura

open Spec

variable {U : Units} {T : Tools} {p : DMParticle} {h : Distribution} {d : Detector}

namespace NuclearDetector

variable {nd : NuclearDetector}

/-- The integrand of the smeared spectrum at `E`: the density of observing `E` for a recoil of energy `ER`. -/
noncomputable def smearing (U : Units) (T : Tools) (nd : NuclearDetector) (d : Detector) (p : DMParticle) (h : Distribution) (E ER : ℝ) : ℝ :=
  pdfGauss E ER nd.resolution * (nd.theoryRate U T.integrate d E ER p h).valueOr0

/-- C91 (nuclear recoils with a finite resolution). An energy window inside another one does not predict more events: neither the window nor
the cut on true energies three standard deviations below its threshold lets anything in that the wider window keeps out. For exact integrals,
rates that are not negative, and spectra whose interpolation in their own window is exact. -/
theorem C91_nuclear_resolution (hI : T.integrate.Exact) (hres : 1 / 10 ^ 6 * U.eV ≤ nd.resolution) (hex : 0 ≤ d.exposure) {a a' b b' : ℝ}
    (ha : 0 < a) (haa : a ≤ a') (hbb : b' ≤ b) {d₁ d₂ : Detector} (h1 : d.useEnergyThreshold a b = .ok d₁) (h2 : d.useEnergyThreshold a' b' = .ok d₂)
    (hT1 : T.interpolationIntegral (logSpace a b 200) ((logSpace a b 200).map fun E => (nd.toClass U T h).dRdE d₁ E p) a b =
      ∫ E in a..b, (nd.toClass U T h).dRdE d₁ E p)
    (hT2 : T.interpolationIntegral (logSpace a' b' 200) ((logSpace a' b' 200).map fun E => (nd.toClass U T h).dRdE d₂ E p) a' b' =
      ∫ E in a'..b', (nd.toClass U T h).dRdE d₂ E p)
    (h0 : ∀ E ER, 0 < E → 0 < ER → 0 ≤ (nd.theoryRate U T.integrate d E ER p h).valueOr0)
    (hs : ∀ E x y, 0 < E → 0 < x → x ≤ y → IntervalIntegrable (smearing U T nd d p h E) volume x y)
    (hi1 : IntervalIntegrable (fun E => (nd.toClass U T h).dRdE d₁ E p) volume a b)
    (hi2 : IntervalIntegrable (fun E => (nd.toClass U T h).dRdE d₂ E p) volume a' b') :
    NotMore ((nd.toClass U T h).signalsTotal d₂ p) ((nd.toClass U T h).signalsTotal d₁ p) := by
  have hres0 : 0 < nd.resolution := lt_of_lt_of_le (by have := U.eV_pos; positivity) hres
  have window : ∀ {e : Detector} {x y : ℝ}, 0 < x → d.useEnergyThreshold x y = .ok e →
      x ≤ y ∧ (∀ E, (nd.toClass U T h).dRdE e E p = ∫ ER in (max (max (E - 6 * nd.resolution) (x - 3 * nd.resolution)) (2 * nd.resolution))..(E + 6 * nd.resolution), smearing U T nd d p h E ER) ∧
      (nd.toClass U T h).signalsTotal e p = .ok (d.exposure * T.interpolationIntegral (logSpace x y 200)
        ((logSpace x y 200).map fun E => (nd.toClass U T h).dRdE e E p) x y) := by
    intro e x y hx hu
    unfold Detector.useEnergyThreshold at hu
    dsimp only at hu
    split_ifs at hu with c
    cases hu
    refine ⟨not_lt.1 c, fun E => ?_, ?_⟩
    · change (NuclearDetector.dRdE U _ nd _ E p h).valueOr0 = _
      unfold NuclearDetector.dRdE
      rw [if_neg (not_lt.2 hres)]
      dsimp only
      rw [hI]
      rfl
    · unfold toClass DetectorClass.base Detector.baseSignalsTotal
      dsimp only
      rw [if_neg (by simp [Detector.initializePoisson]), if_neg (by
        rintro (h | h)
        · exact absurd hx (not_lt.2 h)
        · exact absurd (lt_of_lt_of_le hx (not_lt.1 c)) (not_lt.2 h))]
      rfl
  obtain ⟨-, r1, e1⟩ := window ha h1
  obtain ⟨g2, r2, e2⟩ := window (lt_of_lt_of_le ha haa) h2
  have hpos : ∀ E ER, 0 < E → 0 < ER → 0 ≤ smearing U T nd d p h E ER := fun E ER hE hER =>
    mul_nonneg (by unfold pdfGauss; positivity) (h0 E ER hE hER)
  have hnn : ∀ E, a ≤ E → 0 ≤ (nd.toClass U T h).dRdE d₁ E p ∧ (a' ≤ E → (nd.toClass U T h).dRdE d₂ E p ≤ (nd.toClass U T h).dRdE d₁ E p) := by
    intro E hE
    have hE0 : 0 < E := ha.trans_le hE
    rw [r1, r2]
    set m₁ := max (max (E - 6 * nd.resolution) (a - 3 * nd.resolution)) (2 * nd.resolution) with hm₁
    set m₂ := max (max (E - 6 * nd.resolution) (a' - 3 * nd.resolution)) (2 * nd.resolution) with hm₂
    have hm₁0 : 0 < m₁ := lt_of_lt_of_le (by linarith) (le_max_right _ _)
    have hm : m₁ ≤ m₂ := max_le_max (max_le_max le_rfl (by linarith)) le_rfl
    have hM : m₁ ≤ E + 6 * nd.resolution := max_le (max_le (by linarith) (by linarith)) (by linarith)
    refine ⟨intervalIntegral.integral_nonneg hM fun ER hER => hpos E ER hE0 (hm₁0.trans_le hER.1), fun hE' => ?_⟩
    have hM₂ : m₂ ≤ E + 6 * nd.resolution := max_le (max_le (by linarith) (by linarith)) (by linarith)
    exact integral_part_le hm hM₂ le_rfl (hs E _ _ hE0 hm₁0 hM) fun ER hER _ => hpos E ER hE0 (hm₁0.trans hER)
  have hwide := integral_part_le haa g2 hbb hi1 fun E hE _ => (hnn E hE.le).1
  have hsub : IntervalIntegrable (fun E => (nd.toClass U T h).dRdE d₁ E p) volume a' b' :=
    hi1.mono_set (by rw [Set.uIcc_of_le g2, Set.uIcc_of_le (haa.trans (g2.trans hbb))]; exact Set.Icc_subset_Icc haa hbb)
  have hnarrow : ∫ E in a'..b', (nd.toClass U T h).dRdE d₂ E p ≤ ∫ E in a'..b', (nd.toClass U T h).dRdE d₁ E p :=
    intervalIntegral.integral_mono_on g2 hi2 hsub fun E hE => (hnn E (haa.trans hE.1)).2 hE.1
  refine ⟨_, _, e2, e1, mul_le_mul_of_nonneg_left ?_ hex⟩
  rw [hT1, hT2]
  exact hnarrow.trans hwide

/-- The hypotheses can be met: hydrogen with a rate that does not depend on the energy up to beyond both windows, and a resolution. -/
example : ∃ (T : Tools) (nd : NuclearDetector) (p : DMParticle) (h : Distribution) (d₁ d₂ : Detector) (r : ℝ), 0 < r ∧
    T.integrate.Exact ∧ 1 / 10 ^ 6 * U.eV ≤ nd.resolution ∧
    (Detector.make "H" 1 "Nuclei").useEnergyThreshold 1 3 = .ok d₁ ∧ (Detector.make "H" 1 "Nuclei").useEnergyThreshold (3 / 2) 2 = .ok d₂ ∧
    nd.theoryRate U T.integrate (Detector.make "H" 1 "Nuclei") 2 2 p h = .ok r ∧
    NotMore ((nd.toClass U T h).signalsTotal d₂ p) ((nd.toClass U T h).signalsTotal d₁ p) := by
  classical
  set d := Detector.make "H" 1 "Nuclei" with hd
  set σ := U.eV with hσ
  have hσ0 : 0 < σ := U.eV_pos
  have hN := U.mNucleon_pos
  set v := vMinimalNucleus (3 + 6 * σ) 1 U.mNucleon with hv
  set iso : Isotope := { Z := 1, A := 1, abundance := 1, spin := 0, sp := 0, sn := 0, mass := 1 * U.mNucleon } with hiso
  set nd : NuclearDetector := compound [(oneIsotope U 1 1, 1)] σ none with hnd
  set r := flatRate iso with hr
  have hr0 : 0 < r := by
    have h1 : iso.neutrons = 0 := by simp [hiso, Isotope.neutrons, usub32]
    have := Real.pi_pos
    rw [hr]; unfold flatRate
    rw [h1]
    simp only [hiso]
    positivity
  have htheory : ∀ I E ER, nd.theoryRate U I d E ER (flatParticle U) (flatHalo v) =
      .ok (if v < vMinimalNucleus ER 1 (1 * U.mNucleon) then 0 else r) := by
    intro I E ER
    rw [hnd, theoryRate_compound]
    unfold dRdERNucleus
    simp only [oneIsotope, sumOver, collect, flat_isotope, Outcome.bind_ok, List.foldl_cons, List.foldl_nil, Option.elim_none]
    have : d.flatEfficiency = 1 := rfl
    rw [this]
    simp only [Nat.cast_one]
    split_ifs <;> simp [hr, hiso]
  have hrate : ∀ ER, 0 < ER → ER ≤ 3 + 6 * σ → ¬ v < vMinimalNucleus ER 1 (1 * U.mNucleon) := by
    intro ER h0 h1
    rw [not_lt, hv, one_mul]
    unfold vMinimalNucleus
    gcongr
  obtain ⟨d₁, h1⟩ : ∃ d₁, d.useEnergyThreshold 1 3 = .ok d₁ := ⟨_, by unfold Detector.useEnergyThreshold; rw [if_neg (by norm_num)]⟩
  obtain ⟨d₂, h2⟩ : ∃ d₂, d.useEnergyThreshold (3 / 2) 2 = .ok d₂ := ⟨_, by unfold Detector.useEnergyThreshold; rw [if_neg (by norm_num)]⟩
  set F : Detector → ℝ → ℝ := fun e E => (nd.dRdE U exactIntegrator e E (flatParticle U) (flatHalo v)).valueOr0 with hF
  set T : Tools := { flatTools with interpolationIntegral := fun _ _ a b => if b = 3 then ∫ E in a..b, F d₁ E else ∫ E in a..b, F d₂ E } with hT
  have hvalue : ∀ x y e, d.useEnergyThreshold x y = .ok e → 0 < x → ∀ E, x ≤ E → E ≤ 3 →
      F e E = ∫ u in (max (max (E - 6 * σ) (x - 3 * σ)) (2 * σ) - E)..(6 * σ), pdfGauss 0 u σ * r := by
    intro x y e he hx E hE hE3
    unfold Detector.useEnergyThreshold at he
    dsimp only at he
    split_ifs at he
    cases he
    simp only [hF]
    unfold NuclearDetector.dRdE
    have hres : nd.resolution = σ := rfl
    rw [hres, if_neg (by have : 1 / 10 ^ 6 * U.eV = 1 / 10 ^ 6 * σ := rfl; rw [this]; norm_num; linarith)]
    simp only [exactIntegrator]
    change ∫ ER in _.._, _ = _
    set m := max (max (E - 6 * σ) (x - 3 * σ)) (2 * σ) with hm
    have hm0 : 0 < m := lt_of_lt_of_le (by linarith) (le_max_right _ _)
    have hM : m ≤ E + 6 * σ := max_le (max_le (by linarith) (by linarith)) (by linarith)
    have e1 : m = E + (m - E) := by ring
    rw [intervalIntegral.integral_congr (g := fun ER => pdfGauss E ER σ * r) fun ER hER => ?_]
    · rw [show (∫ ER in m..(E + 6 * σ), pdfGauss E ER σ * r) = ∫ ER in (E + (m - E))..(E + 6 * σ), pdfGauss E ER σ * r by rw [← e1],
        ← intervalIntegral.integral_comp_add_left (fun ER => pdfGauss E ER σ * r)]
      refine intervalIntegral.integral_congr fun u _ => ?_
      simp only [pdfGauss]
      rw [show E - (E + u) = 0 - u by ring]
    · rw [Set.uIcc_of_le hM] at hER
      have hER0 : 0 < ER := hm0.trans_le hER.1
      have := htheory exactIntegrator E ER
      rw [if_neg (hrate ER hER0 (by linarith [hER.2]))] at this
      change pdfGauss E ER σ * Outcome.valueOr0 (nd.theoryRate U exactIntegrator d E ER (flatParticle U) (flatHalo v)) = _
      rw [this]
      rfl
  have hint : ∀ x y e, d.useEnergyThreshold x y = .ok e → 0 < x → x ≤ y → y ≤ 3 → IntervalIntegrable (F e) volume x y := by
    intro x y e he hx hxy hy
    have hcont : Continuous fun E => ∫ u in (max (max (E - 6 * σ) (x - 3 * σ)) (2 * σ) - E)..(6 * σ), pdfGauss 0 u σ * r := by
      have hg : Continuous fun u => pdfGauss 0 u σ * r := by unfold pdfGauss; fun_prop
      have hflip : (fun E => ∫ u in (max (max (E - 6 * σ) (x - 3 * σ)) (2 * σ) - E)..(6 * σ), pdfGauss 0 u σ * r) =
          fun E => -∫ u in (6 * σ)..(max (max (E - 6 * σ) (x - 3 * σ)) (2 * σ) - E), pdfGauss 0 u σ * r :=
        funext fun E => intervalIntegral.integral_symm _ _
      rw [hflip]
      refine Continuous.neg ?_
      exact (intervalIntegral.continuous_primitive (fun a b => hg.intervalIntegrable a b) (6 * σ)).comp (by fun_prop)
    refine (hcont.intervalIntegrable x y).congr_uIoo fun E hE => ?_
    rw [Set.uIoo_of_le hxy] at hE
    exact (hvalue x y e he hx E hE.1.le (hE.2.le.trans hy)).symm
  refine ⟨T, nd, flatParticle U, flatHalo v, d₁, d₂, r, hr0, exactIntegrator_exact, ?_, h1, h2, ?_, ?_⟩
  · have : nd.resolution = σ := rfl
    rw [this]
    norm_num
    linarith
  · rw [htheory, if_neg (hrate 2 (by norm_num) (by linarith))]
  · refine C91_nuclear_resolution exactIntegrator_exact ?_ (by simp [hd, Detector.make]) one_pos (by norm_num) (by norm_num) h1 h2 ?_ ?_ ?_ ?_
      (hint 1 3 d₁ h1 one_pos (by norm_num) le_rfl) (hint (3 / 2) 2 d₂ h2 (by norm_num) (by norm_num) (by norm_num))
    · have : nd.resolution = σ := rfl
      rw [this]
      norm_num
      linarith
    · simp [hT]; rfl
    · simp [hT]; norm_num; rfl
    · intro E ER _ _
      have : T.integrate = exactIntegrator := rfl
      rw [htheory]
      change 0 ≤ ite _ _ _
      split_ifs
      · exact le_rfl
      · exact hr0.le
    · intro E x y _ hx hxy
      unfold smearing
      have hg : Continuous fun u => pdfGauss E u nd.resolution := by unfold pdfGauss; fun_prop
      refine IntervalIntegrable.continuousOn_mul ?_ hg.continuousOn
      refine AntitoneOn.intervalIntegrable fun u hu w hw huw => ?_
      rw [Set.uIcc_of_le hxy] at hu hw
      simp only [htheory, Outcome.valueOr0]
      have hle : vMinimalNucleus u 1 (1 * U.mNucleon) ≤ vMinimalNucleus w 1 (1 * U.mNucleon) := by
        have := hx.trans_le hu.1
        unfold vMinimalNucleus
        gcongr
      split_ifs with k1 k2 k2
      · exact le_rfl
      · exact hr0.le
      · exact absurd (k2.trans_le hle) k1
      · exact le_rfl

end NuclearDetector

end Obscura
