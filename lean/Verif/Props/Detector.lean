import Verif.Lemmas.Detector

/-!
# C27, C28 — configuring a detector
-/

namespace Obscura

open Spec Detector

/-! ## C27 — per-bin data match the number of bins -/

/-- C27 (invariant). After any history of configuration calls that does not exit, binned mode has exactly one observed count,
background and efficiency per bin. -/
theorem C27_one_entry_per_bin {d : Detector} (h : ReachableDetector d) : OneEntryPerBin d := (reachable_sound h).entries

/-- C27 (calls for an unbinned analysis). They exit unless the analysis is unbinned Poisson, and then change nothing but their
value. -/
theorem C27_unbinned_calls (d : Detector) (n : ℕ) (B : ℝ) :
    (d.analysis ≠ .poisson → d.setObserved n = .exit ∧ d.setBackground B = .exit) ∧
    (d.analysis = .poisson → d.setObserved n = .ok { d with observed := n } ∧
      d.setBackground B = .ok { d with background := B }) := by
  constructor
  · intro h; simp [setObserved, setBackground, h]
  · intro h; simp [setObserved, setBackground, h]

/-- C27 (calls for a binned analysis, rejected). In the wrong mode or with the wrong number of entries they exit. -/
theorem C27_binned_calls_rejected (d : Detector) (N : List ℕ) (x : List ℝ) :
    (d.analysis ≠ .binnedPoisson ∨ N.length ≠ d.bins → d.setObservedBins N = .exit) ∧
    (d.analysis ≠ .binnedPoisson ∨ x.length ≠ d.bins → d.setBackgroundBins x = .exit ∧ d.setBinEfficiencies x = .exit) := by
  constructor
  · rintro (h | h)
    · simp [setObservedBins, h]
    · simp [setObservedBins, h]
  · rintro (h | h)
    · simp [setBackgroundBins, setBinEfficiencies, h]
    · simp [setBackgroundBins, setBinEfficiencies, h]

/-- C27 (calls for a binned analysis, accepted). Otherwise they store the entries; the mode, the number of bins and the other
per-bin data stay the same. -/
theorem C27_binned_calls_accepted (d : Detector) (N : List ℕ) (x : List ℝ) (hd : d.analysis = .binnedPoisson) :
    (N.length = d.bins → ∃ d', d.setObservedBins N = .ok d' ∧ d'.binObserved = N ∧ d'.analysis = .binnedPoisson ∧
      d'.bins = d.bins ∧ d'.binBackground = d.binBackground ∧ d'.binEfficiencies = d.binEfficiencies ∧
      d'.background = d.background ∧ d'.binEnergies = d.binEnergies) ∧
    (x.length = d.bins → ∃ d', d.setBackgroundBins x = .ok d' ∧ d'.binBackground = x ∧ d'.analysis = .binnedPoisson ∧
      d'.bins = d.bins ∧ d'.binObserved = d.binObserved ∧ d'.binEfficiencies = d.binEfficiencies ∧
      d'.observed = d.observed ∧ d'.binEnergies = d.binEnergies) ∧
    (x.length = d.bins → d.setBinEfficiencies x = .ok { d with binEfficiencies := x }) := by
  refine ⟨fun h => ⟨{ d with binObserved := N, observed := toUInt64 (accumulateInt N) }, by simp [setObservedBins, hd, h],
      rfl, hd, rfl, rfl, rfl, rfl, rfl⟩,
    fun h => ⟨{ d with binBackground := x, background := x.foldl (· + ·) 0 }, by simp [setBackgroundBins, hd, h],
      rfl, hd, rfl, rfl, rfl, rfl, rfl⟩, fun h => by simp [setBinEfficiencies, hd, h]⟩

/-- C27 (choosing energy bins). For `n` bins (not yet in binned mode, `Emin ≤ Emax`) the call succeeds and starts with zero
observed events, zero background and unit efficiency in each of the `n` bins. In binned mode, or for `Emax < Emin`, it exits. -/
theorem C27_use_energy_bins (d : Detector) (Emin Emax : ℝ) (n : ℕ) (hn : n < 2 ^ 31) :
    (d.analysis ≠ .binnedPoisson → Emin ≤ Emax → ∃ d', d.useEnergyBins Emin Emax n = .ok d' ∧ d'.analysis = .binnedPoisson ∧
      d'.bins = n ∧ d'.binObserved = List.replicate n 0 ∧ d'.binBackground = List.replicate n 0 ∧
      d'.binEfficiencies = List.replicate n 1 ∧ d'.usingEnergyBins = true ∧ d'.energyThreshold = Emin ∧ d'.energyMax = Emax ∧
      d'.exposure = d.exposure ∧ d'.flatEfficiency = d.flatEfficiency ∧ d'.targets = d.targets) ∧
    (d.analysis = .binnedPoisson ∨ Emax < Emin → d.useEnergyBins Emin Emax n = .exit) := by
  have h32 : toUInt32 (n : ℤ) = n := by unfold toUInt32; omega
  constructor
  · intro hd hE
    refine ⟨_, by simp only [useEnergyBins, initializeBinned, hd, if_false, Outcome.bind_ok, not_lt.2 hE]; rfl, ?_⟩
    simp [h32]
  · intro h
    by_cases hd : d.analysis = .binnedPoisson
    · simp [useEnergyBins, initializeBinned, hd]
    · have hE := h.resolve_left hd
      simp [useEnergyBins, initializeBinned, hd, hE]

/-- C27 (choosing an energy window). The call succeeds iff `Ethr ≤ Emax`; it switches to unbinned Poisson statistics with no
observed event and no background. -/
theorem C27_use_energy_threshold (d : Detector) (Ethr Emax : ℝ) :
    (Ethr ≤ Emax → ∃ d', d.useEnergyThreshold Ethr Emax = .ok d' ∧ d'.analysis = .poisson ∧ d'.observed = 0 ∧
      d'.background = 0 ∧ d'.usingEnergyThreshold = true ∧ d'.energyThreshold = Ethr ∧ d'.energyMax = Emax ∧
      d'.exposure = d.exposure ∧ d'.flatEfficiency = d.flatEfficiency ∧ d'.targets = d.targets) ∧
    (Emax < Ethr → d.useEnergyThreshold Ethr Emax = .exit) := by
  constructor
  · intro h
    refine ⟨_, by simp only [useEnergyThreshold, not_lt.2 h, if_false]; rfl, ?_⟩
    simp [initializePoisson]
  · intro h; simp [useEnergyThreshold, h]

/-- C27 (choosing the maximum gap). For a non-empty list the energies are stored in ascending order and the energy range is
exactly from the smallest to the largest of them. -/
theorem C27_use_maximum_gap (d : Detector) {es : List ℝ} (h : es ≠ []) :
    ∃ d', d.useMaximumGap es = .ok d' ∧ d'.analysis = .maximumGap ∧ d'.gapData.Perm es ∧
      d'.gapData.Pairwise (· ≤ ·) ∧ d'.energyThreshold ∈ es ∧ d'.energyMax ∈ es ∧
      (∀ e ∈ es, d'.energyThreshold ≤ e ∧ e ≤ d'.energyMax) := by
  have hp := List.perm_insertionSort (· ≤ ·) es
  have hs := List.pairwise_insertionSort (· ≤ ·) es
  have hne : es.insertionSort (· ≤ ·) ≠ [] := fun h0 => h (by rw [h0] at hp; exact hp.symm.eq_nil)
  have h1 := List.head?_eq_some_head hne
  have h2 := List.getLast?_eq_some_getLast hne
  refine ⟨_, by simp only [useMaximumGap, h1, h2]; rfl, rfl, hp, hs, hp.subset (List.head_mem hne),
    hp.subset (List.getLast_mem hne), fun e he => ?_⟩
  have he' := hp.symm.subset he
  constructor
  · obtain ⟨a, l, hl⟩ := List.exists_cons_of_ne_nil hne
    simp only [hl, List.head_cons]
    rw [hl] at he' hs
    rcases List.mem_cons.1 he' with rfl | he'
    · exact le_rfl
    · exact (List.pairwise_cons.1 hs).1 e he'
  · have hl := List.dropLast_append_getLast hne
    rw [← hl] at he' hs
    rcases List.mem_append.1 he' with he' | he'
    · exact (List.pairwise_append.1 hs).2.2 e he' _ (by simp)
    · exact le_of_eq (by simpa using he')

/-- C27 (no undefined behaviour). A history of configuration calls never has undefined behaviour and never computes with
non-finite numbers, provided every list given to `Use_Maximum_Gap` is non-empty. Missing for the full C27: the empty list
(`C27_fails`). -/
theorem C27_no_undefined_behaviour_partial (d : Detector) {ops : List Op} (h : ∀ es, Op.useMaximumGap es ∈ ops → es ≠ []) :
    d.run ops ≠ .ub ∧ d.run ops ≠ .nonfinite := by
  induction ops generalizing d with
  | nil => simp [run]
  | cons op ops ih =>
    have key : (∃ d', d.step op = .ok d') ∨ d.step op = .exit := by
      cases op with
      | setObserved n => simp only [Detector.step, setObserved]; split_ifs <;> simp
      | setBackground n => simp only [Detector.step, setBackground]; split_ifs <;> simp
      | setObservedBins n => simp only [Detector.step, setObservedBins]; split_ifs <;> simp
      | setBinEfficiencies n => simp only [Detector.step, setBinEfficiencies]; split_ifs <;> simp
      | setBackgroundBins n => simp only [Detector.step, setBackgroundBins]; split_ifs <;> simp
      | useMaximumGap es =>
        obtain ⟨d', h', _⟩ := C27_use_maximum_gap d (h es (by simp))
        exact .inl ⟨d', h'⟩
      | setFlatEfficiency e => exact .inl ⟨_, rfl⟩
      | useEnergyThreshold a b => simp only [Detector.step, useEnergyThreshold]; split_ifs <;> simp
      | useEnergyBins a b n =>
        simp only [Detector.step, useEnergyBins, initializeBinned]
        split_ifs <;> simp
    rcases key with ⟨d', h'⟩ | h'
    · have := ih d' (fun es hes => h es (by simp [hes]))
      simpa [run, h'] using this
    · simp [run, h']

/-- C27 is violated: `Use_Maximum_Gap` with no events reads the first element of an empty vector. -/
theorem C27_fails (d : Detector) : d.useMaximumGap [] = .ub := by simp [useMaximumGap]

/-- C27 (a second finding). `Use_Energy_Bins` accepts a negative number of bins; `-1` asks for `2^32 - 1` bins while the list of
bin boundaries stays empty, so that evaluating the signals reads out of bounds. -/
theorem C27_negative_bins (d : Detector) {Emin Emax : ℝ} (hd : d.analysis ≠ .binnedPoisson) (hE : Emin ≤ Emax) (T : Tools)
    (C : DetectorClass) (p : DMParticle) :
    ∃ d', d.useEnergyBins Emin Emax (-1) = .ok d' ∧ d'.bins = 2 ^ 32 - 1 ∧ d'.binEnergies = [] ∧
      d'.signalsEnergyBins T C p = .ub := by
  have h1 : toUInt32 (-1) = 2 ^ 32 - 1 := by decide
  generalize hN : toUInt32 (-1) = N at h1
  have h2 : (N + 1) % 2 ^ 32 = 0 := by omega
  obtain ⟨M, hM⟩ : ∃ M, N = M + 1 := ⟨N - 1, by omega⟩
  have h3 : linearSpace Emin Emax ((N + 1) % 2 ^ 32) = [] := by rw [h2]; rfl
  refine ⟨_, by simp only [useEnergyBins, initializeBinned, hd, if_false, Outcome.bind_ok, not_lt.2 hE, hN]; rfl, h1, h3, ?_⟩
  simp only [signalsEnergyBins, Bool.true_eq_false, if_false, h3]
  rw [hM, List.range_succ_eq_map]
  rfl

example : ReachableDetector { Detector.make "x" 1 "Nuclei" with observed := 3 } :=
  .inl ⟨_, [.setObserved 3], ⟨"x", 1, "Nuclei", rfl⟩, by simp [run, step, setObserved, make]⟩

/-- A crystal detector that counts electron hole pairs. -/
example (x : CrystalDetector) : ∃ d, ReachableDetector d ∧ d.energyThreshold = x.crystal.minimumElectronEnergy (toInt32 2) :=
  ⟨_, .inr (.inr ⟨_, x, _, [.useQThreshold 2], ⟨"x", 1, "Electrons", rfl⟩, rfl⟩), rfl⟩

/-- A history that reaches binned mode with two bins, sets counts, and is rejected when given three. -/
example : ∃ d, (Detector.make "x" 1 "Nuclei").run [.useEnergyBins 0 1 2, .setObservedBins [4, 5]] = .ok d ∧
    d.analysis = .binnedPoisson ∧ d.observed = 9 ∧ d.step (.setObservedBins [1, 2, 3]) = .exit := by
  obtain ⟨d, h, ha, hb, _⟩ := (C27_use_energy_bins (Detector.make "x" 1 "Nuclei") 0 1 2 (by norm_num)).1 (by simp [make]) zero_le_one
  have h' : (Detector.make "x" 1 "Nuclei").step (.useEnergyBins 0 1 2) = .ok d := h
  refine ⟨{ d with binObserved := [4, 5], observed := 9 }, ?_, ha, rfl, ?_⟩
  · have : toUInt64 (accumulateInt [4, 5]) = 9 := by decide
    simp only [run, h', Outcome.bind_ok]
    simp [step, setObservedBins, ha, hb, this]
  · simp [step, setObservedBins, ha, hb]

/-! ## C28 — the totals are the sums over the bins -/

/-- C28 (exact condition). After a successful `Set_Observed_Events(vector)` the total number of observed events equals the sum of
the entries iff that sum is below `2^31` (or so close to `2^64` that the sign extension happens to give it back). -/
theorem C28_observed_total_iff {d d' : Detector} {N : List ℕ} (h : d.setObservedBins N = .ok d') :
    d'.observed = N.sum ↔ N.sum < 2 ^ 31 ∨ (2 ^ 64 - 2 ^ 31 ≤ N.sum ∧ N.sum < 2 ^ 64) := by
  unfold setObservedBins at h
  split_ifs at h with h1 h2
  cases h
  simp only [accumulateInt_eq, toUInt64, toInt32]
  omega

/-- C28 for fewer than `2^31` events. Missing for the full C28: larger totals, where it is false (`C28_fails`). -/
theorem C28_observed_total_partial {d d' : Detector} {N : List ℕ} (h : d.setObservedBins N = .ok d') (hN : N.sum < 2 ^ 31) :
    d'.observed = N.sum := (C28_observed_total_iff h).2 (.inl hN)

/-- C28 is violated: with two bins of `2^30` events each the total is `2^64 - 2^31`. -/
theorem C28_fails {d : Detector} (hd : d.analysis = .binnedPoisson) (hb : d.bins = 2) :
    ∃ d', d.setObservedBins [2 ^ 30, 2 ^ 30] = .ok d' ∧ d'.observed = 2 ^ 64 - 2 ^ 31 := by
  refine ⟨{ d with binObserved := [2 ^ 30, 2 ^ 30], observed := toUInt64 (accumulateInt [2 ^ 30, 2 ^ 30]) }, ?_, ?_⟩
  · simp [setObservedBins, hd, hb]
  · have h : ([2 ^ 30, 2 ^ 30] : List ℕ).sum = 2 ^ 31 := by norm_num
    simp only [accumulateInt_eq, h, toUInt64, toInt32]
    omega

/-- C28 (background). The total expected background is the sum of the entries. -/
theorem C28_background_total {d d' : Detector} {B : List ℝ} (h : d.setBackgroundBins B = .ok d') : d'.background = B.sum := by
  unfold setBackgroundBins at h
  split_ifs at h with h1 h2
  cases h
  exact foldl_add_eq_sum B

example : ∃ d : Detector, d.analysis = .binnedPoisson ∧ d.bins = 2 :=
  ⟨{ Detector.make "x" 1 "Nuclei" with analysis := .binnedPoisson, bins := 2 }, rfl, rfl⟩

end Obscura
