import Mathlib.Topology.Order.MonotoneConvergence
import Verif.Props.Masses
import Verif.Props.ParticleSettings

/-!
# Lemmas: rates at large masses
-/

namespace Obscura

open Spec NuclearDetector DMParticle MeasureTheory Filter
open scoped Topology

variable {U : Units} {I : Integrator} {T : Tools} {nd : NuclearDetector} {d : Detector} {p q : DMParticle} {h : Distribution} {iso : Isotope} {m E E₀ : ℝ}

theorem reducedMass_lim {M : ℝ} (hM : 0 < M) : Tendsto (fun m => reducedMass m M) atTop (𝓝 M) := by
  have : Tendsto (fun m : ℝ => M - M ^ 2 / (m + M)) atTop (𝓝 (M - 0)) :=
    tendsto_const_nhds.sub (tendsto_const_nhds.div_atTop (tendsto_atTop_add_const_right _ _ tendsto_id))
  rw [sub_zero] at this
  refine this.congr' ?_
  filter_upwards [eventually_gt_atTop 0] with m hm
  unfold reducedMass
  field_simp
  ring

theorem reducedMass_below {M : ℝ} (hM : 0 < M) (hm : 0 < m) : reducedMass m M ≤ M := by
  unfold reducedMass
  rw [div_le_iff₀ (by positivity)]
  nlinarith

/-- A function that times the mass factor rises and stays bounded falls like the inverse of the mass. -/
theorem heavy_of_mono {r : ℝ → ℝ} {m₀ B : ℝ} (hm₀ : 0 < m₀) (hmono : ∀ a b, m₀ ≤ a → a ≤ b → massFactor U a * r a ≤ massFactor U b * r b)
    (hB : ∀ a, m₀ ≤ a → massFactor U a * r a ≤ B) :
    ∃ K, Tendsto (fun m => m * r m) atTop (𝓝 K) ∧ ∀ a, m₀ ≤ a → massFactor U a * r a ≤ U.mProton ^ 2 * K := by
  have hp := U.mProton_pos
  set f : ℝ → ℝ := fun a => massFactor U (max a m₀) * r (max a m₀)
  have f1 : Monotone f := fun a b hab => hmono _ _ (le_max_right _ _) (max_le_max_right _ hab)
  have f2 : BddAbove (Set.range f) := ⟨B, by rintro _ ⟨a, rfl⟩; exact hB _ (le_max_right _ _)⟩
  have f3 := tendsto_atTop_ciSup f1 f2
  have f4 : ∀ a, m₀ ≤ a → f a = massFactor U a * r a := fun a ha => by simp only [f, max_eq_left ha]
  refine ⟨(⨆ i, f i) / U.mProton ^ 2, ?_, fun a ha => ?_⟩
  · have := f3.div ((reducedMass_lim hp).pow 2) (by positivity)
    refine this.congr' ?_
    filter_upwards [eventually_ge_atTop m₀] with a ha
    have := reducedMass_pos (hm₀.trans_le ha) hp
    simp only [Pi.div_apply, f4 a ha, massFactor_eq]
    field_simp
  · rw [mul_div_cancel₀ _ (by positivity), ← f4 a ha]
    exact le_ciSup f2 a

/-- A function that divided by the mass factor falls and stays above a positive number grows like the mass. -/
theorem heavy_of_anti {r : ℝ → ℝ} {m₀ B : ℝ} (hm₀ : 0 < m₀) (hanti : ∀ a b, m₀ ≤ a → a ≤ b → r b / massFactor U b ≤ r a / massFactor U a)
    (hB : ∀ a, m₀ ≤ a → B ≤ r a / massFactor U a) :
    ∃ L, Tendsto (fun m => r m / m) atTop (𝓝 L) ∧ U.mProton ^ 2 * B ≤ L ∧ ∀ a, m₀ ≤ a → L / U.mProton ^ 2 ≤ r a / massFactor U a := by
  have hp := U.mProton_pos
  set f : ℝ → ℝ := fun a => r (max a m₀) / massFactor U (max a m₀)
  have f1 : Antitone f := fun a b hab => hanti _ _ (le_max_right _ _) (max_le_max_right _ hab)
  have f2 : BddBelow (Set.range f) := ⟨B, by rintro _ ⟨a, rfl⟩; exact hB _ (le_max_right _ _)⟩
  have f3 := tendsto_atTop_ciInf f1 f2
  have f4 : ∀ a, m₀ ≤ a → f a = r a / massFactor U a := fun a ha => by simp only [f, max_eq_left ha]
  refine ⟨U.mProton ^ 2 * ⨅ i, f i, ?_, ?_, fun a ha => ?_⟩
  · have := ((reducedMass_lim hp).pow 2).mul f3
    refine this.congr' ?_
    filter_upwards [eventually_ge_atTop m₀] with a ha
    have := reducedMass_pos (hm₀.trans_le ha) hp
    have := hm₀.trans_le ha
    simp only [f4 a ha, massFactor_eq]
    field_simp
  · have : B ≤ ⨅ i, f i := le_ciInf fun a => hB _ (le_max_right _ _)
    gcongr
  · rw [mul_div_cancel_left₀ _ (by positivity), ← f4 a ha]
    exact ciInf_le f2 a

/-- The nuclear form factor can only reduce the cross section. -/
theorem crossSection_point (q : DMParticle) (hM : 0 ≤ iso.mass) (hsp : 0 ≤ iso.spin) (E v : ℝ) :
    q.dSigmadERNucleus U E iso v ≤ (q.setLowMassMode true).dSigmadERNucleus U E iso v := by
  obtain ⟨s, hs, hsv⟩ := crossSection_speed (U := U) hM hsp (q.setLowMassMode true) E
  obtain ⟨-, -, -, -, -, c1, c2⟩ := C62_low_mass (U := U) q true
  by_cases hl : q.lowMass = true
  · rw [show q.setLowMassMode true = q by unfold setLowMassMode; rw [← hl]]
  have hl : q.lowMass = false := by simpa using hl
  unfold dSigmadERNucleus at hsv ⊢
  by_cases hi : q.interaction = .SD
  · rw [(c1 hi).1]
  · have := c2 hi (Real.sqrt (2 * iso.mass * E)) iso v
    rw [show q.setLowMassMode false = q by unfold setLowMassMode; rw [← hl]] at this
    rw [this, ← mul_assoc, hsv]
    exact mul_le_of_le_one_right (by positivity) (C09_helm_bounded (U := U) iso _).2.2

/-- One bound for the cross sections at all masses and all energies above a threshold. -/
theorem crossSection_heavy (hp : Reachable U p) (hi : PhysicalIsotope iso) (hE₀ : 0 < E₀) :
    ∃ B, 0 ≤ B ∧ ∀ m q E, 0 < m → p.setMass U m = .ok q → E₀ ≤ E →
      ∃ s, 0 ≤ s ∧ (∀ v, q.dSigmadERNucleus U E iso v = s / v ^ 2) ∧ reducedMass m U.mProton ^ 2 * s ≤ B := by
  have hb := reachable_inv hp
  have h1 := setMass_ok (U := U) hb one_pos
  set q₁ := withMass U p 1
  obtain ⟨s, c, hs⟩ := pointCrossSection (U := U) (p := q₁.setLowMassMode true) (.inr rfl) hi
  have μ1 := reducedMass_pos one_pos U.mProton_pos
  have s0 := (hs E₀ E₀ hE₀ le_rfl).1
  refine ⟨reducedMass 1 U.mProton ^ 2 * s E₀, by positivity, fun m q E hm hq hE => ?_⟩
  obtain ⟨t, t0, ht⟩ := crossSection_speed (U := U) hi.1.le hi.2.1 q E
  refine ⟨t, t0, ht, ?_⟩
  have e1 := setMass_crossSection (U := U) (E := E) (iso := iso) hb hq h1 hm one_pos 1
  rw [ht, one_pow, div_one] at e1
  rw [e1]
  have e2 := crossSection_point (U := U) q₁ hi.1.le hi.2.1 E 1
  rw [c, one_pow, div_one] at e2
  exact mul_le_mul_of_nonneg_left (e2.trans (hs E₀ E hE₀ hE).2) (by positivity)

/-- One bound for the recoil rates of an isotope at all masses and all energies above a threshold. -/
theorem isotope_heavy (hI : I.Exact) (hi : PhysicalIsotope iso) (hp : Reachable U p) (hdens : 0 ≤ h.density) (hfd : 0 ≤ p.fractionalDensity)
    (hη : p.useEtaFunction = true → h.useEta = true → FallingEta h) (hf : ProperSpeeds h) (hE₀ : 0 < E₀) :
    ∃ B, 0 ≤ B ∧ ∀ m q E, 0 < m → p.setMass U m = .ok q → E₀ ≤ E →
      ∃ r, dRdERIsotope U I E q h iso = .ok r ∧ 0 ≤ r ∧ massFactor U m * r ≤ B := by
  obtain ⟨C, C0, hC⟩ := crossSection_heavy hp hi hE₀
  have hM := hi.1
  set v₀ := Real.sqrt (E₀ / (2 * iso.mass)) with hv₀
  have v0 : 0 < v₀ := Real.sqrt_pos.2 (by positivity)
  -- the largest mean inverse speed
  obtain ⟨H, H0, hH⟩ : ∃ H, 0 ≤ H ∧ ∀ a, v₀ ≤ a → a ≤ h.vMax →
      ((p.useEtaFunction ∧ h.useEta) → ∃ x, h.eta a = .ok x ∧ 0 ≤ x ∧ x ≤ H) ∧
      (¬(p.useEtaFunction ∧ h.useEta) → 0 ≤ ∫ v in a..h.vMax, h.pdfSpeed v / v ∧ ∫ v in a..h.vMax, h.pdfSpeed v / v ≤ H) := by
    by_cases g : v₀ ≤ h.vMax
    · by_cases u : p.useEtaFunction ∧ h.useEta
      · obtain ⟨x, y, e1, e2, y0, yx⟩ := hη u.1 u.2 v₀ v₀ v0.le le_rfl g
        refine ⟨x, y0.trans yx, fun a ha ha' => ⟨fun _ => ?_, fun hn => absurd u hn⟩⟩
        obtain ⟨x', y', f1, f2, y0', yx'⟩ := hη u.1 u.2 v₀ a v0.le ha ha'
        rw [e1] at f1
        cases f1
        exact ⟨y', f2, y0', yx'⟩
      · have hint : IntervalIntegrable (fun v => h.pdfSpeed v / v) volume v₀ h.vMax := by
          refine (hf.2.mono_set ?_).mul_continuousOn (g := fun v => v⁻¹) ?_
          · rw [Set.uIcc_of_le g, Set.uIcc_of_le (v0.le.trans g)]
            exact Set.Icc_subset_Icc v0.le le_rfl
          · rw [Set.uIcc_of_le g]
            exact continuousOn_inv₀.mono fun v hv => (v0.trans_le hv.1).ne'
        have hnn : ∀ v, v₀ ≤ v → 0 ≤ h.pdfSpeed v / v := fun v hv => by
          have := hf.1 v (v0.le.trans hv)
          have := v0.trans_le hv
          positivity
        refine ⟨∫ v in v₀..h.vMax, h.pdfSpeed v / v, intervalIntegral.integral_nonneg g fun v hv => hnn v hv.1,
          fun a ha ha' => ⟨fun hn => absurd hn u, fun _ => ⟨intervalIntegral.integral_nonneg ha' fun v hv => hnn v (ha.trans hv.1), ?_⟩⟩⟩
        refine intervalIntegral.integral_mono_interval ha ha' le_rfl ?_ hint
        exact (ae_restrict_iff' measurableSet_Ioc).2 (Filter.Eventually.of_forall fun v hv => hnn v hv.1.le)
    · exact ⟨0, le_rfl, fun a ha ha' => absurd (ha.trans ha') g⟩
  refine ⟨p.fractionalDensity / iso.mass * h.density * C * H, by positivity, fun m q E hm hq hE => ?_⟩
  obtain ⟨s, s0, hs, hsC⟩ := hC m q E hm hq hE
  have hb := reachable_inv hp
  obtain ⟨fp, fn, e1, -⟩ := setMass_couplings hb hq hq hm hm
  have q1 : q.mass = m ∧ q.fractionalDensity = p.fractionalDensity ∧ q.useEtaFunction = p.useEtaFunction := by rw [e1]; exact ⟨rfl, rfl, rfl⟩
  clear e1
  have hμ := reducedMass_pos hm U.mProton_pos
  have hva : v₀ ≤ vMinimalNucleus E m iso.mass := by
    have k1 := reducedMass_pos hm hM
    have k2 := reducedMass_below hM hm
    unfold vMinimalNucleus
    rw [hv₀]
    refine Real.sqrt_le_sqrt ?_
    rw [div_div, div_le_div_iff₀ (by positivity) (by positivity)]
    have : reducedMass m iso.mass ^ 2 ≤ iso.mass ^ 2 := by gcongr
    nlinarith [mul_le_mul hE this (by positivity) (hE₀.le.trans hE)]
  unfold dRdERIsotope
  dsimp only
  simp only [hs, q1.1, q1.2.1, q1.2.2]
  set a := vMinimalNucleus E m iso.mass
  have fin : ∀ y : ℝ, 0 ≤ y → y ≤ H → massFactor U m * (p.fractionalDensity / iso.mass * (s * (h.density / m * y))) ≤
      p.fractionalDensity / iso.mass * h.density * C * H := fun y y0 hy => by
    have : massFactor U m * (p.fractionalDensity / iso.mass * (s * (h.density / m * y))) =
        p.fractionalDensity / iso.mass * h.density * (reducedMass m U.mProton ^ 2 * s) * y := by
      rw [massFactor_eq]
      field_simp
    rw [this]
    gcongr
  by_cases g : h.vMax < a
  · rw [if_pos g]
    exact ⟨0, rfl, le_rfl, by rw [mul_zero]; positivity⟩
  rw [if_neg g]
  obtain ⟨g1, g2⟩ := hH a hva (not_lt.1 g)
  by_cases u : p.useEtaFunction ∧ h.useEta
  · obtain ⟨x, hx, x0, xH⟩ := g1 u
    rw [if_pos u, hx]
    refine ⟨_, rfl, by positivity, ?_⟩
    convert fin x x0 xH using 2
    simp only [div_eq_mul_inv]
    norm_num
    ring
  · obtain ⟨i0, i1⟩ := g2 u
    rw [if_neg u, hI]
    have key : ∫ v in a..h.vMax, h.differentialFlux v m * (s / v ^ 2) = s * (h.density / m * ∫ v in a..h.vMax, h.pdfSpeed v / v) := by
      rw [← intervalIntegral.integral_const_mul, ← intervalIntegral.integral_const_mul]
      refine intervalIntegral.integral_congr fun v hv => ?_
      rw [Set.uIcc_of_le (not_lt.1 g)] at hv
      have : 0 < v := v0.trans_le (hva.trans hv.1)
      simp only [Distribution.differentialFlux]
      field_simp
    rw [key]
    exact ⟨_, rfl, by positivity, fin _ i0 i1⟩

end Obscura
