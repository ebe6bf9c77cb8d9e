import Verif.Lemmas.Poisson
import Verif.Props.Detector
import Mathlib.MeasureTheory.Integral.IntervalIntegral.Basic

/-!
# C37 — energy bins partition the energy range
-/

namespace Obscura

open Spec Detector

variable {T : Tools} {C : DetectorClass}

/-- The lower edge of energy bin `i` when `[Emin, Emax]` is cut into `n` equal bins. -/
noncomputable def binEdge (Emin Emax : ℝ) (n i : ℕ) : ℝ := Emin + i * ((Emax - Emin) / n)

theorem binEdge_zero (a b : ℝ) (n : ℕ) : binEdge a b n 0 = a := by simp [binEdge]

theorem binEdge_last (a b : ℝ) {n : ℕ} (h : 0 < n) : binEdge a b n n = b := by
  have : (n : ℝ) ≠ 0 := by exact_mod_cast h.ne'
  unfold binEdge; field_simp; ring

theorem binEdge_mono {a b : ℝ} (h : a ≤ b) (n : ℕ) {i j : ℕ} (hij : i ≤ j) : binEdge a b n i ≤ binEdge a b n j := by
  unfold binEdge
  have h1 : (0 : ℝ) ≤ (b - a) / n := div_nonneg (sub_nonneg.2 h) (Nat.cast_nonneg n)
  have h2 : (i : ℝ) ≤ j := by exact_mod_cast hij
  nlinarith

theorem list_sum_getD (l : List ℝ) : l.sum = ∑ i ∈ Finset.range l.length, l.getD i 0 := by
  induction l with
  | nil => simp
  | cons a l ih =>
    rw [List.sum_cons, List.length_cons, Finset.sum_range_succ', ih, add_comm]
    simp

/-- C37 (each bin). In binned mode the signal of bin `i` is its efficiency times the exposure times the integral of the spectrum
from edge `i` to edge `i + 1`; there is one signal per bin. (The number of bins plus one must fit into an `unsigned int`.) -/
theorem C37_bin_signals {d : Detector} {p : DMParticle} (hr : BaseReachable d) (hd : d.analysis = .binnedPoisson)
    (hI : T.integrate.Exact) (hn : d.bins + 1 < 2 ^ 32) :
    ∃ ss, d.baseSignalsBinned T C p = .ok ss ∧ ss.length = d.bins ∧ ∀ i < d.bins, ss.getD i 0 =
      d.binEfficiencies.getD i 0 * (d.exposure * ∫ E in (binEdge d.energyThreshold d.energyMax d.bins i)..(binEdge
        d.energyThreshold d.energyMax d.bins (i + 1)), C.dRdE d E p) := by
  have hi := baseReachable_inv hr
  obtain ⟨e1, e2, e3⟩ := hi.entries hd
  obtain ⟨f1, f2, f3, f4⟩ := hi.energies hd
  rw [Nat.mod_eq_of_lt hn] at f2
  have hlen : d.binEnergies.length = d.bins + 1 := by rw [f2]; simp [linearSpace]
  have hedge : ∀ i ≤ d.bins, vecGet d.binEnergies i = .ok (binEdge d.energyThreshold d.energyMax d.bins i) := by
    intro i hi
    rw [vecGet_lt (by omega)]
    simp only [f2, linearSpace, binEdge, List.getElem_map, List.getElem_range]
    push_cast
    rw [add_sub_cancel_right]
  refine ⟨(List.range d.bins).map fun i => d.binEfficiencies.getD i 0 * (d.exposure * ∫ E in (binEdge d.energyThreshold
    d.energyMax d.bins i)..(binEdge d.energyThreshold d.energyMax d.bins (i + 1)), C.dRdE d E p), ?_, by simp, fun i hi => ?_⟩
  · unfold baseSignalsBinned signalsEnergyBins
    rw [if_neg (by rw [hd]; simp), if_pos f1, if_neg (by rw [f1]; decide)]
    refine collect_ok fun i hi => ?_
    have hi := List.mem_range.1 hi
    rw [hedge i hi.le, hedge (i + 1) hi, vecGet_getD (a := 0) (by omega)]
    simp only [Outcome.bind_ok]
    rw [hI]
  · simp [List.getD, hi]

/-- C37 (partition). With unit efficiencies and at least one bin the signals add up to the exposure times the integral over the
whole energy range: nothing is missed and nothing is counted twice. -/
theorem C37_partition {d : Detector} {p : DMParticle} (hr : BaseReachable d) (hd : d.analysis = .binnedPoisson)
    (hI : T.integrate.Exact) (hn : d.bins + 1 < 2 ^ 32) (h0 : 0 < d.bins) (he : ∀ i < d.bins, d.binEfficiencies.getD i 0 = 1)
    (hint : IntervalIntegrable (fun E => C.dRdE d E p) MeasureTheory.volume d.energyThreshold d.energyMax) :
    ∃ ss, d.baseSignalsBinned T C p = .ok ss ∧
      ss.sum = d.exposure * ∫ E in d.energyThreshold..d.energyMax, C.dRdE d E p := by
  obtain ⟨ss, h1, h2, h3⟩ := C37_bin_signals (p := p) (C := C) hr hd hI hn
  refine ⟨ss, h1, ?_⟩
  obtain ⟨-, -, f3, -⟩ := (baseReachable_inv hr).energies hd
  have hsum : ss.sum = ∑ i ∈ Finset.range d.bins, ss.getD i 0 := by
    rw [← h2, list_sum_getD]
  have hint' : ∀ i < d.bins, IntervalIntegrable (fun E => C.dRdE d E p) MeasureTheory.volume
      (binEdge d.energyThreshold d.energyMax d.bins i) (binEdge d.energyThreshold d.energyMax d.bins (i + 1)) := by
    intro i hi
    have a1 := binEdge_mono f3 d.bins (Nat.zero_le i)
    have a2 := binEdge_mono f3 d.bins (Nat.le_succ i)
    have a3 := binEdge_mono f3 d.bins hi
    rw [binEdge_zero] at a1
    rw [Nat.succ_eq_add_one, binEdge_last _ _ h0] at a3
    refine hint.mono_set ?_
    rw [Set.uIcc_of_le a2, Set.uIcc_of_le f3]
    exact Set.Icc_subset_Icc a1 a3
  have htel := intervalIntegral.sum_integral_adjacent_intervals hint'
  rw [binEdge_zero, binEdge_last _ _ h0] at htel
  rw [hsum, ← htel, Finset.mul_sum]
  refine Finset.sum_congr rfl fun i hi => ?_
  have hi := Finset.mem_range.1 hi
  rw [h3 i hi, he i hi, one_mul]

/-- C37 (total). In binned mode `DM_Signals_Total` is the sum of the bins. -/
theorem C37_total_is_sum {d : Detector} {p : DMParticle} {ss : List ℝ} (hd : d.analysis = .binnedPoisson)
    (hs : C.signalsBinned d p = .ok ss) : d.baseSignalsTotal T C p = .ok ss.sum := by
  unfold baseSignalsTotal
  rw [if_pos hd, hs]
  simp only [Outcome.bind_ok]
  rw [foldl_add_eq_sum]

/-- C37 (the range asked for). A detector on which `Use_Energy_Bins(Emin, Emax, n)` succeeds has `n` bins covering `[Emin, Emax]`
with unit efficiencies, so that the two theorems above apply. -/
theorem C37_configured {d d' : Detector} {Emin Emax : ℝ} {n : ℕ} (hr : BaseReachable d) (hn : n < 2 ^ 31)
    (h : d.useEnergyBins Emin Emax n = .ok d') :
    BaseReachable d' ∧ d'.analysis = .binnedPoisson ∧ d'.bins = n ∧ d'.energyThreshold = Emin ∧ d'.energyMax = Emax ∧
      ∀ i < n, d'.binEfficiencies.getD i 0 = 1 := by
  obtain ⟨d₀, ops, hb, hrun⟩ := hr
  have hrun' : ∀ (ops : List Detector.Op) (d₀ d : Detector), Detector.run d₀ ops = .ok d →
      d.useEnergyBins Emin Emax n = .ok d' → Detector.run d₀ (ops ++ [.useEnergyBins Emin Emax n]) = .ok d' := by
    intro ops
    induction ops with
    | nil => intro d₀ d h1 h2; cases h1; simp only [List.nil_append, run, step]; rw [h2]; rfl
    | cons op ops ih =>
      intro d₀ d h1 h2
      simp only [List.cons_append, run] at h1 ⊢
      obtain ⟨d1, g1, g2⟩ := Outcome.bind_eq_ok.1 h1
      rw [g1]
      exact ih d1 d g2 h2
  refine ⟨⟨d₀, _, hb, hrun' ops d₀ d hrun h⟩, ?_⟩
  unfold useEnergyBins at h
  obtain ⟨d1, h1, h2⟩ := Outcome.bind_eq_ok.1 h
  obtain ⟨_, rfl⟩ := initializeBinned_ok h1
  split_ifs at h2
  cases h2
  have hN : toUInt32 (n : ℤ) = n := by
    unfold toUInt32; omega
  refine ⟨rfl, hN, rfl, rfl, fun i hi => ?_⟩
  simp only [hN]
  simp [List.getD, hi]

/-- Five bins on `[1, 2]` with a constant spectrum. -/
example : ∃ d, (make "x" 1 "Nuclei").useEnergyBins 1 2 (5 : ℕ) = .ok d ∧ BaseReachable d ∧ d.bins = 5 := by
  obtain ⟨d, h, ha, hb, _⟩ := (C27_use_energy_bins (Detector.make "x" 1 "Nuclei") 1 2 5 (by norm_num)).1 (by simp [make]) (by norm_num)
  exact ⟨d, h, ⟨_, [.useEnergyBins 1 2 (5 : ℕ)], ⟨_, _, _, rfl⟩, by simp only [run, step]; rw [h]; rfl⟩, hb⟩

end Obscura
