import Verif.Spec.Coverage
import Verif.Props.MoreBins

/-!
# C109 — the truth is rarely excluded
-/

namespace Obscura

open Spec Detector MeasureTheory ProbabilityTheory

variable {U : Units} {T : Tools} {h : Distribution} {D : AnyDetector} {p : DMParticle} {c0 s cert α : ℝ} {ss : List ℝ}

/-! ## Distributions on the natural numbers -/

/-- A number with the distribution `ν` has a cumulative probability of at most `α` with probability at most `α`. -/
theorem cdf_rare (ν : Measure ℕ) [IsProbabilityMeasure ν] (hα : 0 ≤ α) : ν.real {n | ν.real (Set.Iic n) ≤ α} ≤ α := by
  by_cases hall : ∀ n, ν.real (Set.Iic n) ≤ α
  · have ht : Filter.Tendsto (fun n => ν.real (Set.Iic n)) Filter.atTop (nhds (ν.real Set.univ)) := by
      have := tendsto_measure_Iic_atTop (μ := ν)
      exact (ENNReal.tendsto_toReal (measure_ne_top _ _)).comp this
    exact (measureReal_mono (Set.subset_univ _)).trans (le_of_tendsto' ht hall)
  · push Not at hall
    have hex : ∃ n, α < ν.real (Set.Iic n) := hall
    classical
    let k := Nat.find hex
    have hk : α < ν.real (Set.Iic k) := Nat.find_spec hex
    have hset : {n | ν.real (Set.Iic n) ≤ α} ⊆ Set.Iio k := by
      intro n hn
      by_contra hle
      have hle : k ≤ n := not_lt.1 hle
      have : ν.real (Set.Iic k) ≤ ν.real (Set.Iic n) := measureReal_mono (Set.Iic_subset_Iic.2 hle)
      have hn : ν.real (Set.Iic n) ≤ α := hn
      linarith
    refine (measureReal_mono hset).trans ?_
    rcases Nat.eq_zero_or_pos k with h0 | h0
    · rw [h0]
      simpa using hα
    · have hk1 : Set.Iio k = Set.Iic (k - 1) := by
        ext n; simp only [Set.mem_Iio, Set.mem_Iic]; omega
      rw [hk1]
      exact not_lt.1 (Nat.find_min hex (Nat.sub_lt h0 one_pos))

theorem probAtMost_rare (mu : ℝ) (hα : 0 ≤ α) : (poissonMeasure mu.toNNReal).real {n | probAtMost mu n ≤ α} ≤ α := cdf_rare _ hα

/-! ## Entering data -/

theorem sound_run {d d' : Detector} {ops : List Detector.Op} (hs : d.Sound) (hr : d.run ops = .ok d') : d'.Sound := by
  induction ops generalizing d with
  | nil => cases hr; exact hs
  | cons o l ih =>
    obtain ⟨d₃, k3, k4⟩ := Outcome.bind_eq_ok.1 hr
    exact ih (hs.step k3) k4

theorem observed_run {d : Detector} {n : ℕ} (ha : d.analysis = .poisson) : d.run [.setObserved n] = .ok { d with observed := n } := by
  simp [Detector.run, Detector.step, setObserved, ha]

theorem run_observed {d d' : Detector} {n : ℕ} (ha : d.analysis = .poisson) (hr : d.run [.setObserved n] = .ok d') :
    d' = { d with observed := n } := by
  rw [observed_run ha] at hr
  exact (Outcome.ok.inj hr).symm

theorem observedBins_run {d : Detector} (N : Fin d.bins → ℕ) (ha : d.analysis = .binnedPoisson) :
    d.run [.setObservedBins (List.ofFn N)] = .ok { d with binObserved := List.ofFn N, observed := toUInt64 (accumulateInt (List.ofFn N)) } := by
  simp [Detector.run, Detector.step, setObservedBins, ha]

/-- The p-value with other data. -/
theorem count_pValue (hS : Sees U T h D p c0 s) (n : ℕ) :
    Detector.pValue U T (D.toClass U T h) { D.base with observed := n } p = .ok (probAtMost (s + D.base.background) n) := by
  have hr := observed_run (d := D.base) (n := n) hS.counting
  have hs := (C79_predictions (U := U) (T := T) (h := h) (p := p) D (by simp [EntersData]) hr).1
  have hsound := sound_run (reachable_sound hS.detector) hr
  have hb := hS.background
  have hv := hS.visible
  exact (pValue_poisson (d := { D.base with observed := n }) hS.counting hsound.fiducial.1 (hs.trans hS.signal)).trans
    (congrArg _ (cdfPoisson_eq_probAtMost (by positivity) n))

/-- C109 (counting, p-values). If the particle is the truth, its p-value is at most `α` with probability at most `α`, for every `α`. -/
theorem C109_counting_p_value (hS : Sees U T h D p c0 s) (hα : 0 ≤ α) :
    (countLaw D.base s).real {n | Rejects U T (D.toClass U T h) D.base p α (.setObserved n)} ≤ α := by
  refine (measureReal_mono (h₂ := by unfold countLaw; exact measure_ne_top _ _) ?_).trans (probAtMost_rare (s + D.base.background) hα)
  rintro n ⟨d', x, h1, h2, h3⟩
  rw [run_observed hS.counting h1, count_pValue hS n] at h2
  cases h2
  exact h3

/-- C109 (counting, p-values are not too large). All values the p-value can have are taken at their own frequency. -/
theorem C109_counting_exact (hS : Sees U T h D p c0 s) (k : ℕ) :
    (countLaw D.base s).real {n | Rejects U T (D.toClass U T h) D.base p (probAtMost (s + D.base.background) k) (.setObserved n)} =
      probAtMost (s + D.base.background) k := by
  refine le_antisymm (C109_counting_p_value hS measureReal_nonneg) ?_
  refine measureReal_mono (h₂ := measure_ne_top _ _) ?_
  intro n hn
  exact ⟨_, _, observed_run hS.counting, count_pValue hS n, probAtMost_mono hn⟩

/-- **C109** (counting). If the particle is the truth, `Upper_Limit` excludes it with a probability of at most one minus the certainty level. -/
theorem C109_counting (hS : Sees U T h D p c0 s) (hR : T.findRoot.Exact) (hc : cert ≤ 1) :
    (countLaw D.base s).real {n | Excludes U T (D.toClass U T h) D.base p c0 cert (.setObserved n)} ≤ 1 - cert := by
  refine (measureReal_mono (h₂ := by unfold countLaw; exact measure_ne_top _ _) ?_).trans
    (probAtMost_rare (s + D.base.background) (sub_nonneg.2 hc))
  rintro n ⟨d', r, h1, h2, h3, h4⟩
  have hs := (C79_predictions (U := U) (T := T) (h := h) (p := p) D (by simp [EntersData]) h1).1
  have hsound := sound_run (reachable_sound hS.detector) h1
  rw [run_observed hS.counting h1] at hs hsound h2
  obtain ⟨p', x, g1, k1⟩ := hS.limit hR hsound hS.counting hS.background rfl hS.visible (hs.trans hS.signal) cert
  rw [g1] at h2; cases h2
  obtain ⟨-, e1⟩ := k1.pos h3
  have hpos := hS.positive
  have hb := hS.background
  have hv := hS.visible
  have h3 : 0 < x := h3
  have h4 : x < c0 := h4
  have hlt : x / c0 * s + D.base.background < s + D.base.background := by
    have : x / c0 < 1 := (div_lt_one hpos).2 h4
    nlinarith
  have := probAtMost_lt (by positivity) hlt n
  show probAtMost _ n ≤ _
  rw [← e1]
  exact this.le

/-! ## Bins -/

instance (d : Detector) (ss : List ℝ) : IsProbabilityMeasure (binLaw d ss) := by unfold binLaw; infer_instance

/-- The probability that some bin has a p-value of at most `α`: the bins are independent. -/
theorem bins_formula (d : Detector) (ss : List ℝ) (α : ℝ) :
    (binLaw d ss).real {N | ∃ i : Fin d.bins, probAtMost (ss.getD i 0 + d.binBackground.getD i 0) (N i) ≤ α} =
      1 - ∏ i : Fin d.bins, (1 - (poissonMeasure (ss.getD i 0 + d.binBackground.getD i 0).toNNReal).real
        {n | probAtMost (ss.getD i 0 + d.binBackground.getD i 0) n ≤ α}) := by
  let G : Set (Fin d.bins → ℕ) := Set.univ.pi fun i => {n | probAtMost (ss.getD i 0 + d.binBackground.getD i 0) n ≤ α}ᶜ
  have hG : (binLaw d ss).real G = ∏ i : Fin d.bins, (1 - (poissonMeasure (ss.getD i 0 + d.binBackground.getD i 0).toNNReal).real
        {n | probAtMost (ss.getD i 0 + d.binBackground.getD i 0) n ≤ α}) := by
    unfold binLaw
    rw [measureReal_def, Measure.pi_pi, ENNReal.toReal_prod]
    refine Finset.prod_congr rfl fun i _ => ?_
    rw [← measureReal_def, measureReal_compl MeasurableSet.of_discrete, probReal_univ]
  have hset : {N : Fin d.bins → ℕ | ∃ i : Fin d.bins, probAtMost (ss.getD i 0 + d.binBackground.getD i 0) (N i) ≤ α} = Gᶜ := by
    ext N
    simp [G, Set.mem_pi]
  rw [hset, measureReal_compl MeasurableSet.of_discrete, hG, probReal_univ]

theorem bins_rare {d : Detector} (hc0 : 0 ≤ cert) (hc1 : cert ≤ 1) :
    (binLaw d ss).real {N | ∃ i : Fin d.bins, probAtMost (ss.getD i 0 + d.binBackground.getD i 0) (N i) ≤ 1 - cert} ≤ 1 - cert ^ d.bins := by
  rw [bins_formula]
  have hone : ∀ i : Fin d.bins, cert ≤ 1 - (poissonMeasure (ss.getD i 0 + d.binBackground.getD i 0).toNNReal).real
        {n | probAtMost (ss.getD i 0 + d.binBackground.getD i 0) n ≤ 1 - cert} := fun i => by
    have := probAtMost_rare (ss.getD i 0 + d.binBackground.getD i 0) (sub_nonneg.2 hc1)
    linarith
  have := Finset.prod_le_prod (s := Finset.univ) (fun i _ => hc0) (fun (i : Fin d.bins) _ => hone i)
  simp only [Finset.prod_const, Finset.card_univ, Fintype.card_fin] at this
  linarith

theorem probAtMost_exact (mu : ℝ) (k : ℕ) : (poissonMeasure mu.toNNReal).real {n | probAtMost mu n ≤ probAtMost mu k} = probAtMost mu k := by
  refine le_antisymm (probAtMost_rare mu measureReal_nonneg) ?_
  exact measureReal_mono fun n hn => probAtMost_mono hn

/-- The p-value of binned data is at most `α` if that of a bin is. -/
theorem bins_pValue (hS : SeesInBins U T h D p c0 ss) (N : Fin D.base.bins → ℕ) :
    Rejects U T (D.toClass U T h) D.base p α (.setObservedBins (List.ofFn N)) ↔
      ∃ i : Fin D.base.bins, probAtMost (ss.getD i 0 + D.base.binBackground.getD i 0) (N i) ≤ α := by
  have hr := observedBins_run N hS.binned
  have hs := (C79_predictions (U := U) (T := T) (h := h) (p := p) D (by simp [EntersData]) hr).2.1
  have hsound := sound_run (reachable_sound hS.detector) hr
  obtain ⟨x, hx, hm⟩ := minElement_isLeast (l := (List.range D.base.bins).map
    (binP { D.base with binObserved := List.ofFn N, observed := toUInt64 (accumulateInt (List.ofFn N)) } ss)) (by simp; have := hS.bins; omega)
  have hv := (pValue_binned (U := U) (T := T) hsound.entries hS.binned hsound.fiducial.1 (hs.trans hS.signal) hS.complete.ge).trans hx
  have hbin : ∀ i : Fin D.base.bins, binP { D.base with binObserved := List.ofFn N, observed := toUInt64 (accumulateInt (List.ofFn N)) } ss i =
      probAtMost (ss.getD i 0 + D.base.binBackground.getD i 0) (N i) := by
    intro i
    have h1 := hS.visible i i.2
    have h2 := hS.background i i.2
    have h3 : (List.ofFn N).getD i 0 = N i := by simp
    unfold binP
    rw [h3]
    exact cdfPoisson_eq_probAtMost (by positivity) _
  constructor
  · rintro ⟨d', y, k1, k2, k3⟩
    rw [hr] at k1
    cases k1
    rw [hv] at k2
    cases k2
    obtain ⟨i, hi, he⟩ := List.mem_map.1 hm.1
    exact ⟨⟨i, List.mem_range.1 hi⟩, by rw [← hbin, he]; exact k3⟩
  · rintro ⟨i, hi⟩
    exact ⟨_, x, hr, hv, (hm.2 (List.mem_map.2 ⟨i, List.mem_range.2 i.2, rfl⟩)).trans ((hbin i).trans_le hi)⟩

/-- C109 (bins, p-values; partial: the bound is that of independent tests of all bins, see `C109_fails_bins`). -/
theorem C109_bins_p_value_partial (hS : SeesInBins U T h D p c0 ss) (h0 : 0 ≤ α) (h1 : α ≤ 1) :
    (binLaw D.base ss).real {N | Rejects U T (D.toClass U T h) D.base p α (.setObservedBins (List.ofFn N))} ≤ 1 - (1 - α) ^ D.base.bins := by
  have := bins_rare (d := D.base) (ss := ss) (cert := 1 - α) (by linarith) (by linarith)
  rw [sub_sub_cancel] at this
  simpa only [bins_pValue hS] using this

/-- C109 (bins; partial). If the particle is the truth, `Upper_Limit` of a binned analysis excludes it with a probability of at most `1 - CL ^ bins`. With
one bin this is one minus the certainty level; with more bins it is not, see `C109_fails_bins`. -/
theorem C109_bins_partial (hS : SeesInBins U T h D p c0 ss) (hR : T.findRoot.Exact) (hc0 : 0 ≤ cert) (hc1 : cert ≤ 1) :
    (binLaw D.base ss).real {N | Excludes U T (D.toClass U T h) D.base p c0 cert (.setObservedBins (List.ofFn N))} ≤ 1 - cert ^ D.base.bins := by
  refine (measureReal_mono ?_).trans (bins_rare hc0 hc1)
  rintro N ⟨d', r, h1, h2, h3, h4⟩
  have hr := observedBins_run N hS.binned
  have hs := (C79_predictions (U := U) (T := T) (h := h) (p := p) D (by simp [EntersData]) hr).2.1
  have hsound := sound_run (reachable_sound hS.detector) hr
  rw [hr] at h1
  cases h1
  obtain ⟨p2, y, g2, k2⟩ := limit_binned (U := U) (T := T) (C := D.toClass U T h) (p := p) (c0 := c0) (ss := ss) hR hsound
    (reachable_inv hS.particle) (fun u c t ts => (class_config D _ p u c t ts).2) hS.parameter hS.positive
    hS.binned hS.bins (hs.trans hS.signal) hS.complete hS.visible hS.background cert
  rw [g2] at h2; cases h2
  obtain ⟨i, hi, he⟩ := (k2.pos h3).1
  refine ⟨⟨i, hi⟩, ?_⟩
  have hpos := hS.positive
  have hb := hS.background i hi
  have hv := hS.visible i hi
  have h3 : 0 < y := h3
  have h4 : y < c0 := h4
  unfold binProb at he
  have h5 : (List.ofFn N).getD i 0 = N ⟨i, hi⟩ := by
    rw [List.getD_eq_getElem?_getD, List.getElem?_ofFn]
    have hi : i < D.base.bins := hi
    simp [hi]
  have he : 1 - cert = probAtMost (y / c0 * ss.getD i 0 + D.base.binBackground.getD i 0) (N ⟨i, hi⟩) := by
    rw [← h5]; exact he
  have hlt : y / c0 * ss.getD i 0 + D.base.binBackground.getD i 0 < ss.getD i 0 + D.base.binBackground.getD i 0 := by
    have : y / c0 < 1 := (div_lt_one hpos).2 h4
    nlinarith
  rw [he]
  exact (probAtMost_lt (by positivity) hlt _).le

/-- C109 (the bound for bins is sharp). If `μ` events are expected in every bin, then for each value the p-value of a bin can have the truth is
rejected with exactly the probability that one of so many independent tests fails. -/
theorem C109_bins_sharp (hS : SeesInBins U T h D p c0 ss) {μ : ℝ} (hμ : ∀ i < D.base.bins, ss.getD i 0 + D.base.binBackground.getD i 0 = μ)
    (k : ℕ) : (binLaw D.base ss).real {N | Rejects U T (D.toClass U T h) D.base p (probAtMost μ k) (.setObservedBins (List.ofFn N))} =
      1 - (1 - probAtMost μ k) ^ D.base.bins := by
  simp only [bins_pValue hS]
  rw [bins_formula]
  congr 1
  rw [Finset.prod_congr rfl fun (i : Fin D.base.bins) _ => by rw [hμ i i.2, probAtMost_exact]]
  simp

/-- **C109 fails with several bins**: whatever is expected in the bins, with two bins or more there is a level `α` such that the p-value of the truth is
at most `α` with a probability greater than `α`. -/
theorem C109_fails_bins (hS : SeesInBins U T h D p c0 ss) (h2 : 2 ≤ D.base.bins) :
    ∃ α, 0 < α ∧ α < 1 ∧
      α < (binLaw D.base ss).real {N | Rejects U T (D.toClass U T h) D.base p α (.setObservedBins (List.ofFn N))} := by
  -- the bin in which the fewest events are expected
  let m : Fin D.base.bins → ℝ := fun i => ss.getD i 0 + D.base.binBackground.getD i 0
  have hm : ∀ i, 0 < m i := fun i => add_pos_of_pos_of_nonneg (hS.visible i i.2) (hS.background i i.2)
  have : Nonempty (Fin D.base.bins) := ⟨⟨0, hS.bins⟩⟩
  obtain ⟨j, hj⟩ := Finite.exists_min m
  obtain ⟨l, hl⟩ : ∃ l : Fin D.base.bins, l ≠ j := by
    have : Nontrivial (Fin D.base.bins) := Fin.nontrivial_iff_two_le.2 h2
    exact exists_ne j
  have hp : ∀ i, 0 < probAtMost (m i) 0 ∧ probAtMost (m i) 0 < 1 := fun i => by
    have h0 : probAtMost 0 0 = 1 := by
      rw [← cdfPoisson_eq_probAtMost le_rfl]; simp [cdfPoisson]
    exact ⟨(C29_range (hm i).le 0).1, h0 ▸ probAtMost_lt le_rfl (hm i) 0⟩
  refine ⟨probAtMost (m j) 0, (hp j).1, (hp j).2, ?_⟩
  simp only [bins_pValue hS]
  rw [bins_formula]
  let P : Fin D.base.bins → ℝ := fun i => (poissonMeasure (m i).toNNReal).real {n | probAtMost (m i) n ≤ probAtMost (m j) 0}
  have hPj : P j = probAtMost (m j) 0 := probAtMost_exact (m j) 0
  have hPl : 0 < P l := by
    refine (hp l).1.trans_le ?_
    refine measureReal_mono fun n hn => ?_
    have : n = 0 := by simpa using hn
    subst this
    rcases (hj l).eq_or_lt with e | e
    · show probAtMost (m l) 0 ≤ _
      rw [e]
    · exact (probAtMost_lt (hm j).le e 0).le
  have hP1 : ∀ i, 0 ≤ 1 - P i ∧ 1 - P i ≤ 1 := fun i => ⟨sub_nonneg.2 measureReal_le_one, by have : 0 ≤ P i := measureReal_nonneg; linarith⟩
  have hprod : ∏ i, (1 - P i) ≤ (1 - P j) * (1 - P l) := by
    rw [← Finset.mul_prod_erase Finset.univ _ (Finset.mem_univ j)]
    refine mul_le_mul_of_nonneg_left ?_ (hP1 j).1
    rw [← Finset.mul_prod_erase _ _ (Finset.mem_erase.2 ⟨hl, Finset.mem_univ l⟩)]
    exact mul_le_of_le_one_right (hP1 l).1 (Finset.prod_le_one (fun i _ => (hP1 i).1) fun i _ => (hP1 i).2)
  have : 0 < (1 - P j) * P l := mul_pos (by rw [hPj]; linarith [(hp j).2]) hPl
  show _ < 1 - ∏ i, (1 - P i)
  rw [← hPj]
  linarith

theorem probAtMost_zero {μ : ℝ} (h : 0 ≤ μ) : probAtMost μ 0 = Real.exp (-μ) := by
  rw [← cdfPoisson_eq_probAtMost h]; simp [cdfPoisson]

theorem zero_of_le {μ : ℝ} (h : 0 < μ) {n : ℕ} (hn : probAtMost μ n ≤ probAtMost μ 0) : n = 0 := by
  by_contra hne
  have h1 : probAtMost μ 1 ≤ probAtMost μ n := probAtMost_mono (by omega)
  have h2 : probAtMost μ 1 = Real.exp (-μ) * (1 + μ) := by
    rw [← cdfPoisson_eq_probAtMost h.le]
    simp [cdfPoisson, Finset.sum_range_succ]
    ring
  rw [probAtMost_zero h.le] at hn
  have := Real.exp_pos (-μ)
  nlinarith

/-- **C109 fails with several bins** (limits): if the same number of events is expected in every bin and there is no background, there is a certainty level at
which `Upper_Limit` excludes the truth more often than announced. -/
theorem C109_fails_bins_limit (hS : SeesInBins U T h D p c0 ss) (hR : T.findRoot.Exact) (h2 : 2 ≤ D.base.bins)
    (hc : (10 : ℝ) ^ (-30 : ℝ) < c0 ∧ c0 ≤ (10 : ℝ) ^ (10 : ℝ)) {μ : ℝ} (hμ : ∀ i < D.base.bins, ss.getD i 0 = μ)
    (hb : ∀ i < D.base.bins, D.base.binBackground.getD i 0 = 0) :
    ∃ cert, 0 < cert ∧ cert < 1 ∧
      1 - cert < (binLaw D.base ss).real {N | Excludes U T (D.toClass U T h) D.base p c0 cert (.setObservedBins (List.ofFn N))} := by
  have hμ0 : 0 < μ := by have := hS.visible 0 hS.bins; rwa [hμ 0 hS.bins] at this
  have hc0 := hS.positive
  set q := Real.exp (-μ) with hq
  have hq0 : 0 < q := Real.exp_pos _
  have hq1 : q < 1 := Real.exp_lt_one_iff.2 (by linarith)
  set P := 1 - (1 - q) ^ D.base.bins with hP
  have hqP : q < P := by
    have h3 : (1 - q) ^ D.base.bins ≤ (1 - q) ^ 2 := pow_le_pow_of_le_one (by linarith) (by linarith) h2
    nlinarith
  -- the measure of the data without events in some bin
  have hmeas : (binLaw D.base ss).real {N | ∃ i : Fin D.base.bins, N i = 0} = P := by
    have hsharp := C109_bins_sharp hS (μ := μ) (fun i hi => by rw [hμ i hi, hb i hi, add_zero]) 0
    rw [probAtMost_zero hμ0.le] at hsharp
    rw [hP, ← hsharp]
    congr 1
    ext N
    simp only [Set.mem_ofPred_eq]
    rw [bins_pValue hS]
    constructor
    · rintro ⟨i, hi⟩
      exact ⟨i, by rw [hμ i i.2, hb i i.2, add_zero, hi, probAtMost_zero hμ0.le]⟩
    · rintro ⟨i, hi⟩
      rw [hμ i i.2, hb i i.2, add_zero, ← probAtMost_zero hμ0.le] at hi
      exact ⟨i, zero_of_le hμ0 hi⟩
  -- a parameter below the truth
  have hP1 : P ≤ 1 := by have : 0 ≤ (1 - q) ^ D.base.bins := pow_nonneg (by linarith) _; linarith
  have hlogP : -Real.log P < μ := by
    have := Real.log_lt_log hq0 hqP
    rw [hq, Real.log_exp] at this
    linarith
  obtain ⟨x, hx1, hx2⟩ : ∃ x, max ((10 : ℝ) ^ (-30 : ℝ)) (c0 * (-Real.log P) / μ) < x ∧ x < c0 := by
    refine exists_between (max_lt hc.1 ?_)
    rw [div_lt_iff₀ hμ0]
    exact mul_lt_mul_of_pos_left hlogP hc0
  have hxl : (10 : ℝ) ^ (-30 : ℝ) < x := (le_max_left _ _).trans_lt hx1
  have hx0 : 0 < x := (Real.rpow_pos_of_pos (by norm_num) _).trans hxl
  have hm0 : 0 < x / c0 * μ := by positivity
  have hαP : Real.exp (-(x / c0 * μ)) < P := by
    have h3 := (le_max_right ((10 : ℝ) ^ (-30 : ℝ)) (c0 * (-Real.log P) / μ)).trans_lt hx1
    rw [div_lt_iff₀ hμ0] at h3
    have h4 : -Real.log P < x / c0 * μ := by
      rw [div_mul_eq_mul_div, lt_div_iff₀ hc0]
      linarith
    calc Real.exp (-(x / c0 * μ)) < Real.exp (Real.log P) := Real.exp_lt_exp.2 (by linarith)
      _ = P := Real.exp_log (hq0.trans hqP)
  refine ⟨1 - Real.exp (-(x / c0 * μ)), ?_, by linarith [Real.exp_pos (-(x / c0 * μ))], ?_⟩
  · have : Real.exp (-(x / c0 * μ)) < 1 := Real.exp_lt_one_iff.2 (by linarith)
    linarith
  rw [sub_sub_cancel]
  refine hαP.trans_le (hmeas.symm.le.trans (measureReal_mono ?_))
  rintro N ⟨j, hj⟩
  have hr := observedBins_run N hS.binned
  have hs := (C79_predictions (U := U) (T := T) (h := h) (p := p) D (by simp [EntersData]) hr).2.1
  have hsound := sound_run (reachable_sound hS.detector) hr
  obtain ⟨p2, y, g2, k2⟩ := limit_binned (U := U) (T := T) (C := D.toClass U T h) (p := p) (c0 := c0) (ss := ss) hR hsound
    (reachable_inv hS.particle) (fun u c t ts => (class_config D _ p u c t ts).2) hS.parameter hS.positive
    hS.binned hS.bins (hs.trans hS.signal) hS.complete hS.visible hS.background (1 - Real.exp (-(x / c0 * μ)))
  have hbin : ∀ c (i : Fin D.base.bins), binProb { D.base with binObserved := List.ofFn N, observed := toUInt64 (accumulateInt (List.ofFn N)) } ss c0 c i =
      probAtMost (c / c0 * μ) (N i) := by
    intro c i
    have h3 : (List.ofFn N).getD i 0 = N i := by simp
    unfold binProb
    show probAtMost (c / c0 * ss.getD i 0 + D.base.binBackground.getD i 0) ((List.ofFn N).getD i 0) = _
    rw [h3, hμ i i.2, hb i i.2, add_zero]
  unfold LimitInBins at k2
  rw [sub_sub_cancel] at k2
  have hj' : ∀ c, 0 ≤ c → binProb { D.base with binObserved := List.ofFn N, observed := toUInt64 (accumulateInt (List.ofFn N)) } ss c0 c j =
      Real.exp (-(c / c0 * μ)) := fun c hc => by
    rw [hbin, hj, probAtMost_zero (by positivity)]
  have hy : InRange y ∧ SmallestP { D.base with binObserved := List.ofFn N, observed := toUInt64 (accumulateInt (List.ofFn N)) } ss c0 y
      (Real.exp (-(x / c0 * μ))) := by
    rcases k2 with ⟨-, hno⟩ | hy
    · refine absurd ⟨⟨j, j.2, (hj' x hx0.le).symm⟩, ?_⟩ (hno x ⟨hxl.le, hx2.le.trans hc.2⟩)
      rintro z ⟨i, hi, rfl⟩
      have hi : i < D.base.bins := hi
      rw [hbin x ⟨i, hi⟩, ← probAtMost_zero hm0.le]
      exact probAtMost_mono (Nat.zero_le _)
    · exact hy
  have hy0 : 0 < y := (Real.rpow_pos_of_pos (by norm_num) _).trans_le hy.1.1
  refine ⟨_, _, hr, g2, hy0, ?_⟩
  show y < c0
  by_contra hle
  have hle : c0 ≤ y := not_lt.1 hle
  have h3 := hy.2.2 ⟨j, j.2, rfl⟩
  rw [hj' y hy0.le, Real.exp_le_exp] at h3
  have h4 : x / c0 * μ < y / c0 * μ := by gcongr; linarith
  linarith

/-- Non-vacuity: experiments that see a particle, by counting and in two bins. -/
example (U : Units) : ∃ (T : Tools) (h : Distribution) (p : DMParticle) (s : ℝ),
    (countLaw (countingHydrogen U).base s).real {n | Excludes U T ((countingHydrogen U).toClass U T h) (countingHydrogen U).base p 1 (9 / 10)
      (.setObserved n)} ≤ 1 / 10 ∧
    (∃ α, 0 < α ∧ α < 1 ∧ α < (binLaw (binnedHydrogen U).base [s, s]).real {N | Rejects U T ((binnedHydrogen U).toClass U T h)
      (binnedHydrogen U).base p α (.setObservedBins (List.ofFn N))}) := by
  obtain ⟨R, hR⟩ := exists_exact_rootFinder
  obtain ⟨v, p, s, h1, h2, h3, h4, h5⟩ := more_bins_example U (T := { flatTools with findRoot := R }) exactIntegrator_exact rfl
  refine ⟨_, _, p, s, ?_, C109_fails_bins h1 le_rfl⟩
  have := C109_counting (cert := 9 / 10) h3 hR (by norm_num)
  norm_num at this ⊢
  exact this

/-- The hydrogen detector with two bins, without background. -/
noncomputable def quietHydrogen (U : Units) : AnyDetector :=
  .nuclear { (binnedHydrogen U).base with binBackground := [0, 0], background := 0 } (hydrogenTarget U)

/-- Non-vacuity: an experiment with two equally filled bins and no background excludes the truth too often. -/
example (U : Units) : ∃ (T : Tools) (h : Distribution) (p : DMParticle) (s : ℝ), SeesInBins U T h (quietHydrogen U) p 1 [s, s] ∧
    ∃ cert, 0 < cert ∧ cert < 1 ∧ 1 - cert < (binLaw (quietHydrogen U).base [s, s]).real {N | Excludes U T ((quietHydrogen U).toClass U T h)
      (quietHydrogen U).base p 1 cert (.setObservedBins (List.ofFn N))} := by
  obtain ⟨R, hR⟩ := exists_exact_rootFinder
  obtain ⟨v, p, s, h1, -⟩ := more_bins_example U (T := { flatTools with findRoot := R }) exactIntegrator_exact rfl
  have hd : ReachableDetector (quietHydrogen U).base := .inl ⟨_, [.useEnergyBins 1 2 2, .setObservedBins [3, 1], .setBackgroundBins [0, 0]],
    ⟨"x", 1, "Nuclei", rfl⟩, by
      have hl : linearSpace 1 2 3 = [1, 3 / 2, 2] := by
        simp [linearSpace, List.range_succ]; norm_num
      have ht : toUInt32 2 = 2 := by decide
      have ha : toUInt64 (accumulateInt [3, 1]) = 4 := by decide
      simp [Detector.run, Detector.step, setObservedBins, setBackgroundBins, make, useEnergyBins, initializeBinned, quietHydrogen, binnedHydrogen,
        AnyDetector.base, ht, hl, ha]⟩
  have hb : ∀ i < (quietHydrogen U).base.bins, (quietHydrogen U).base.binBackground.getD i 0 = 0 := by
    intro i hi
    have hi : i < 2 := hi
    interval_cases i <;> simp [quietHydrogen, AnyDetector.base]
  have hS : SeesInBins U { flatTools with findRoot := R } (flatHalo v) (quietHydrogen U) p 1 [s, s] :=
    ⟨hd, rfl, two_pos, fun i hi => (hb i hi).ge, h1.particle, h1.parameter, one_pos, h1.signal, rfl, h1.visible⟩
  refine ⟨_, _, p, s, hS, C109_fails_bins_limit hS hR le_rfl ⟨?_, ?_⟩ (μ := s) ?_ hb⟩
  · exact Real.rpow_lt_one_of_one_lt_of_neg (by norm_num) (by norm_num)
  · exact Real.one_le_rpow (by norm_num) (by norm_num)
  · intro i hi
    have hi : i < 2 := hi
    interval_cases i <;> simp

end Obscura
