import Verif.Lemmas.Continuity
import Verif.Props.HeavyMasses
import Verif.Props.LimitTrendsBinned
import Verif.Lemmas.Poisson
import Mathlib.Topology.Order.Lattice

/-!
# Lemmas for C116: detectors for nuclear recoils
-/

namespace Obscura

open Spec DMParticle MeasureTheory Filter Topology Set Interval

variable {U : Units} {I : Integrator} {T : Tools} {p : DMParticle} {h : Distribution} {iso : Isotope} {d : Detector} {nd : NuclearDetector}

theorem list_sum_continuousOn {α : Type*} {l : List α} {f : α → ℝ → ℝ} {S : Set ℝ} (hf : ∀ a ∈ l, ContinuousOn (f a) S) :
    ContinuousOn (fun m => (l.map fun a => f a m).sum) S := by
  induction l with
  | nil => exact continuousOn_const
  | cons a l ih =>
    simp only [List.map_cons, List.sum_cons]
    exact (hf a (by simp)).add (ih fun b hb => hf b (by simp [hb]))

theorem list_sum_aestronglyMeasurable {α : Type*} {l : List α} {f : α → ℝ → ℝ} {μ : Measure ℝ} (hf : ∀ a ∈ l, AEStronglyMeasurable (f a) μ) :
    AEStronglyMeasurable (fun m => (l.map fun a => f a m).sum) μ := by
  induction l with
  | nil => exact aestronglyMeasurable_const
  | cons a l ih =>
    simp only [List.map_cons, List.sum_cons]
    exact (hf a (by simp)).add (ih fun b hb => hf b (by simp [hb]))

theorem mem_isotopes {i : Fin nd.nuclei.length} (hi : iso ∈ nd.nuclei[i].isotopes) : iso ∈ nd.isotopes := by
  unfold NuclearDetector.isotopes
  exact List.mem_flatMap.2 ⟨_, List.getElem_mem _, hi⟩

theorem targetRate_mass (hp : Reachable U p) (hM : ∀ iso ∈ nd.isotopes, 0 < iso.mass) (hf : ProperSpeeds h) (E : ℝ) {ER : ℝ} (hE : 0 < ER) :
    ContinuousOn (fun m => targetRate U nd d (withMass U p m) h E ER) (Ioi 0) := by
  unfold targetRate nucleusRate
  refine continuousOn_finsetSum _ fun i _ => continuousOn_const.mul (list_sum_continuousOn fun iso hiso => continuousOn_const.mul ?_)
  exact isotopeRate_mass hp (hM iso (mem_isotopes hiso)) hf hE

theorem isotopeRate_measurable (hm : 0 < p.mass) (hM : 0 < iso.mass) (hf : ProperSpeeds h) :
    AEStronglyMeasurable (fun E => isotopeRate U p h iso E) (volume.restrict (Ioi 0)) := by
  set x := (1 / 10 ^ 6 * U.MeV) ^ 2 / (2 * iso.mass) with hx
  have h1 : ContinuousOn (fun E => isotopeRate U p h iso E) (Ioi 0 \ {x}) := fun E hE => by
    refine (isotopeRate_continuousAt hm hM hf hE.1 (.inr (.inr fun h2 => hE.2 ?_))).continuousWithinAt
    rw [mem_singleton_iff, hx, ← h2, mul_div_cancel_left₀ _ (by positivity)]
  have h2 := h1.aestronglyMeasurable (μ := volume) (measurableSet_Ioi.diff (measurableSet_singleton x))
  rwa [Measure.restrict_congr_set (sdiff_null_ae_eq_self (measure_singleton x))] at h2

theorem targetRate_measurable (hm : 0 < p.mass) (hM : ∀ iso ∈ nd.isotopes, 0 < iso.mass) (hf : ProperSpeeds h) (E : ℝ) :
    AEStronglyMeasurable (fun ER => targetRate U nd d p h E ER) (volume.restrict (Ioi 0)) := by
  unfold targetRate nucleusRate
  refine Finset.aestronglyMeasurable_fun_sum _ fun i _ => AEStronglyMeasurable.const_mul (list_sum_aestronglyMeasurable fun iso hiso =>
    AEStronglyMeasurable.const_mul ?_ _) _
  exact isotopeRate_measurable hm (hM iso (mem_isotopes hiso)) hf

theorem massFactor_continuousAt {m : ℝ} (hm : 0 < m) : ContinuousAt (massFactor U) m := by
  have := (continuousOn_reducedMass U.mProton_pos).continuousAt (Ioi_mem_nhds hm)
  exact continuousAt_id.mul (this.pow 2)

/-- Near every positive mass the mass factor stays above a positive number. -/
theorem massFactor_below {m : ℝ} (hm : 0 < m) : ∀ᶠ x in 𝓝 m, 0 < x ∧ massFactor U m / 2 < massFactor U x := by
  have F := massFactor_pos (U := U) hm
  filter_upwards [lt_mem_nhds hm, (massFactor_continuousAt (U := U) hm).eventually (lt_mem_nhds (by linarith : massFactor U m / 2 < massFactor U m))]
    with x h1 h2 using ⟨h1, h2⟩

theorem dRdE_mass (hI : I.Exact) (hp : Reachable U p) (hlen : nd.fractions.length = nd.nuclei.length) (hfr : ∀ x ∈ nd.fractions, 0 ≤ x)
    (heff : ∀ e ∈ nd.efficiencies, ∀ E, 0 ≤ e E ∧ e E ≤ 1) (hflat : 0 ≤ d.flatEfficiency) (hi : ∀ iso ∈ nd.isotopes, PhysicalIsotope iso)
    (hdens : 0 ≤ h.density) (hfd : 0 ≤ p.fractionalDensity) (hη : p.useEtaFunction = true → h.useEta = true → FallingEta h) (hf : ProperSpeeds h)
    (heta : p.useEtaFunction = true → h.useEta = true → ∀ v, 0 ≤ v → v ≤ h.vMax → EtaAt h v) {E : ℝ} (hE : 0 < E) :
    ∃ r : ℝ → ℝ, (∀ m, 0 < m → nd.dRdE U I d E (withMass U p m) h = .ok (r m)) ∧ ContinuousOn r (Ioi 0) := by
  have hM : ∀ iso ∈ nd.isotopes, 0 < iso.mass := fun iso hiso => (hi iso hiso).1
  have hfields := fun m (hm : 0 < m) => withMass_fields (U := U) hp hm
  have hrate := fun m (hm : 0 < m) => C40_rate (U := U) (d := d) (nd := nd) (h := h) (p := withMass U p m) (E := E) hI (by rw [(hfields m hm).1]; exact hm) hM hlen
    (by rw [(hfields m hm).2.2.2.2]; exact heta)
  by_cases hres : nd.resolution < 1 / 10 ^ 6 * U.eV
  · exact ⟨_, fun m hm => (hrate m hm).1 hres, targetRate_mass hp hM hf E hE⟩
  · refine ⟨_, fun m hm => (hrate m hm).2 (not_lt.1 hres), fun m hm => ContinuousAt.continuousWithinAt ?_⟩
    have hm : 0 < m := hm
    have hσ : 0 < nd.resolution := lt_of_lt_of_le (by have := U.eV_pos; positivity) (not_lt.1 hres)
    obtain ⟨B, B0, hB⟩ := theoryRate_heavy (nd := nd) (d := d) (E₀ := 2 * nd.resolution) hI hp hlen.ge hfr heff hflat hi hdens hfd hη hf (by positivity)
    have hbound : ∀ x, 0 < x → ∀ ER, 2 * nd.resolution ≤ ER → 0 ≤ targetRate U nd d (withMass U p x) h E ER ∧
        massFactor U x * targetRate U nd d (withMass U p x) h E ER ≤ B := fun x hx ER hER => by
      obtain ⟨r, e, r0, hr⟩ := hB x _ E ER hx (setMass_ok (reachable_inv hp) hx) hER
      have ht : nd.theoryRate U I d E ER (withMass U p x) h = .ok (targetRate U nd d (withMass U p x) h E ER) :=
        NuclearDetector.theoryRate_eq_of hlen.ge fun iso hiso => dRdERIsotope_eq hI (by rw [(hfields x hx).1]; exact hx) (hM iso hiso) fun h1 h2 h3 =>
          heta (by rw [← (hfields x hx).2.2.2.2]; exact h1) h2 _ (Real.sqrt_nonneg _) h3
      rw [ht] at e
      rw [Outcome.ok.inj e]
      exact ⟨r0, hr⟩
    set a := max (max (E - 6 * nd.resolution) (d.energyThreshold - 3 * nd.resolution)) (2 * nd.resolution) with ha
    set b := E + 6 * nd.resolution
    have a1 : 2 * nd.resolution ≤ a := le_max_right _ _
    have b1 : 2 * nd.resolution ≤ b := by
      show _ ≤ E + 6 * nd.resolution
      linarith
    have hpos : ∀ ER ∈ Ι a b, 2 * nd.resolution ≤ ER := fun ER hER => by
      rw [uIoc, mem_Ioc] at hER
      exact (le_min a1 b1).trans hER.1.le
    have hsub : Ι a b ⊆ Ioi 0 := fun ER hER => lt_of_lt_of_le (by positivity) (hpos ER hER)
    have F := massFactor_pos (U := U) hm
    have hcg : Continuous fun ER => ProbabilityTheory.gaussianPDFReal ER (Real.toNNReal (nd.resolution ^ 2)) E := by
      unfold ProbabilityTheory.gaussianPDFReal
      fun_prop
    refine intervalIntegral.continuousAt_of_dominated_interval
      (bound := fun ER => ProbabilityTheory.gaussianPDFReal ER (Real.toNNReal (nd.resolution ^ 2)) E * (B / (massFactor U m / 2))) ?_ ?_ ?_ ?_
    · filter_upwards [lt_mem_nhds hm] with x hx
      refine hcg.aestronglyMeasurable.mul ?_
      exact (targetRate_measurable (by rw [(hfields x hx).1]; exact hx) hM hf E).mono_measure (Measure.restrict_mono hsub le_rfl)
    · filter_upwards [massFactor_below (U := U) hm] with x hx
      refine Eventually.of_forall fun ER hER => ?_
      obtain ⟨t0, t1⟩ := hbound x hx.1 ER (hpos ER hER)
      have g0 := ProbabilityTheory.gaussianPDFReal_nonneg ER (Real.toNNReal (nd.resolution ^ 2)) E
      rw [Real.norm_eq_abs, abs_of_nonneg (mul_nonneg g0 t0)]
      refine mul_le_mul_of_nonneg_left ?_ g0
      rw [le_div_iff₀ (by positivity)]
      have := mul_le_mul_of_nonneg_right hx.2.le t0
      linarith
    · exact (hcg.mul continuous_const).intervalIntegrable _ _
    · refine Eventually.of_forall fun ER hER => ?_
      exact continuousAt_const.mul ((targetRate_mass hp hM hf E (hsub hER)).continuousAt (Ioi_mem_nhds hm))

/-! ## Poisson probabilities -/

theorem cdfPoisson_tendsto (n : ℕ) : Tendsto (fun x => cdfPoisson x n) atTop (𝓝 0) := by
  have h1 : Tendsto (fun x : ℝ => ∑ k ∈ Finset.range (n + 1), x ^ k * Real.exp (-x) / (k.factorial : ℝ)) atTop (𝓝 (∑ k ∈ Finset.range (n + 1), 0 / (k.factorial : ℝ))) :=
    tendsto_finsetSum _ fun k _ => (Real.tendsto_pow_mul_exp_neg_atTop_nhds_zero k).div_const _
  simp only [zero_div, Finset.sum_const_zero] at h1
  refine h1.congr fun x => ?_
  unfold cdfPoisson
  exact Finset.sum_congr rfl fun k _ => by ring

/-- Every probability between zero and that of a mean is the probability of a larger mean. -/
theorem probAtMost_reaches {a y : ℝ} (ha : 0 ≤ a) {n : ℕ} (hy : 0 < y) (h1 : y ≤ probAtMost a n) : ∃ μ, a ≤ μ ∧ probAtMost μ n = y := by
  rw [← cdfPoisson_eq_probAtMost ha] at h1
  obtain ⟨b, hab, hb⟩ := ((eventually_ge_atTop a).and ((cdfPoisson_tendsto n).eventually (gt_mem_nhds hy))).exists
  obtain ⟨μ, hμ, e⟩ := intermediate_value_Icc' hab (continuous_cdfPoisson n).continuousOn ⟨hb.le, h1⟩
  exact ⟨μ, hμ.1, by rw [← cdfPoisson_eq_probAtMost (ha.trans hμ.1)]; exact e⟩

theorem SmallestP.unique {ss : List ℝ} {c₀ c c' y : ℝ} (h0 : 0 < c₀) (hs : ∀ i < d.bins, 0 < ss.getD i 0) (hb : ∀ i < d.bins, 0 ≤ d.binBackground.getD i 0)
    (hc : 0 ≤ c) (hc' : 0 ≤ c') (h1 : SmallestP d ss c₀ c y) (h2 : SmallestP d ss c₀ c' y) : c = c' := by
  have key : ∀ {c c'}, 0 ≤ c → SmallestP d ss c₀ c y → SmallestP d ss c₀ c' y → ¬c < c' := fun hc h1 h2 hlt => by
    obtain ⟨i, hi, e⟩ := h1.1
    have := binProb_lt (d := d) (ss := ss) h0 hc hlt (hs i hi) (hb i hi)
    have := h2.2 ⟨i, hi, rfl⟩
    linarith
  exact le_antisymm (not_lt.1 (key hc' h2 h1)) (not_lt.1 (key hc h1 h2))

end Obscura
