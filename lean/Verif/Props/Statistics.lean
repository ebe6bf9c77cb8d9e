import Verif.Lemmas.Poisson
import Verif.Props.Detector
import Mathlib.Analysis.SpecialFunctions.Log.Basic

/-!
# C29, C34 — p-values and likelihoods
-/

namespace Obscura

open Spec Detector

variable {U : Units} {T : Tools} {C : DetectorClass}

/-! ## C29 — p-values -/

/-- C29 (meaning, unbinned). With Poisson statistics the p-value is the probability of at most the observed number of events,
given the expected signal plus background. -/
theorem C29_poisson_value {d : Detector} {p : DMParticle} {s : ℝ} (hr : ReachableDetector d) (hd : d.analysis = .poisson)
    (hs : C.signalsTotal d p = .ok s) (h0 : 0 ≤ s) (hb : 0 ≤ d.background) :
    d.pValue U T C p = .ok (probAtMost (s + d.background) d.observed) := by
  rw [pValue_poisson hd (reachable_sound hr).fiducial.1 hs, cdfPoisson_eq_probAtMost (add_nonneg h0 hb)]

/-- C29 (meaning, binned). With binned Poisson statistics (at least one bin) the p-value is the smallest of the p-values of the
bins. -/
theorem C29_binned_value {d : Detector} {p : DMParticle} {ss : List ℝ} (hr : ReachableDetector d)
    (hd : d.analysis = .binnedPoisson) (hn : 0 < d.bins) (hs : C.signalsBinned d p = .ok ss) (hl : ss.length = d.bins)
    (h0 : ∀ s ∈ ss, 0 ≤ s) (hb : ∀ b ∈ d.binBackground, 0 ≤ b) :
    ∃ x, d.pValue U T C p = .ok x ∧
      IsLeast {y | ∃ i, i < d.bins ∧ y = probAtMost (ss.getD i 0 + d.binBackground.getD i 0) (d.binObserved.getD i 0)} x := by
  have hi := reachable_sound hr
  obtain ⟨x, hx, hm⟩ := minElement_isLeast (l := (List.range d.bins).map (d.binP ss)) (by simp; omega)
  refine ⟨x, (pValue_binned hi.entries hd hi.fiducial.1 hs hl.ge).trans hx, ?_⟩
  convert hm using 1
  ext y
  constructor
  · rintro ⟨i, hi, rfl⟩
    refine List.mem_map.2 ⟨i, List.mem_range.2 hi, ?_⟩
    refine cdfPoisson_eq_probAtMost (add_nonneg ?_ ?_) _
    · exact getD_nonneg h0 i
    · exact getD_nonneg hb i
  · intro hy
    obtain ⟨i, hi, rfl⟩ := List.mem_map.1 hy
    have hi := List.mem_range.1 hi
    refine ⟨i, hi, cdfPoisson_eq_probAtMost (add_nonneg ?_ ?_) _⟩
    · exact getD_nonneg h0 i
    · exact getD_nonneg hb i

/-- C29 (range). The probability is positive and at most one, so every p-value of the two theorems above lies in `(0, 1]`. -/
theorem C29_range {mu : ℝ} (h : 0 ≤ mu) (n : ℕ) : 0 < probAtMost mu n ∧ probAtMost mu n ≤ 1 := by
  rw [← cdfPoisson_eq_probAtMost h]
  exact ⟨cdfPoisson_pos h n, cdfPoisson_le_one h n⟩

/-- C29 (range, binned). -/
theorem C29_binned_range {d : Detector} {p : DMParticle} {ss : List ℝ} {x : ℝ} (hr : ReachableDetector d)
    (hd : d.analysis = .binnedPoisson) (hn : 0 < d.bins) (hs : C.signalsBinned d p = .ok ss) (hl : ss.length = d.bins)
    (h0 : ∀ s ∈ ss, 0 ≤ s) (hb : ∀ b ∈ d.binBackground, 0 ≤ b) (hx : d.pValue U T C p = .ok x) : 0 < x ∧ x ≤ 1 := by
  obtain ⟨y, hy, ⟨i, hi, rfl⟩, _⟩ := C29_binned_value (U := U) (T := T) hr hd hn hs hl h0 hb
  rw [hx] at hy
  cases hy
  refine C29_range (add_nonneg ?_ ?_) _
  · exact getD_nonneg h0 i
  · exact getD_nonneg hb i

/-- C29 (monotonicity, unbinned): a particle with a larger expected signal has a strictly smaller p-value. -/
theorem C29_poisson_strictly_decreasing {d : Detector} {p p' : DMParticle} {s s' : ℝ} (hr : ReachableDetector d)
    (hd : d.analysis = .poisson) (hs : C.signalsTotal d p = .ok s) (hs' : C.signalsTotal d p' = .ok s') (h0 : 0 ≤ s)
    (h : s < s') (hb : 0 ≤ d.background) :
    ∃ x x', d.pValue U T C p = .ok x ∧ d.pValue U T C p' = .ok x' ∧ x' < x := by
  refine ⟨_, _, pValue_poisson hd (reachable_sound hr).fiducial.1 hs, pValue_poisson hd (reachable_sound hr).fiducial.1 hs', ?_⟩
  exact cdfPoisson_strictAnti d.observed (Set.mem_Ici.2 (add_nonneg h0 hb)) (Set.mem_Ici.2 (by linarith)) (by linarith)

/-- C29 (monotonicity, binned): if no bin's signal decreases the p-value does not increase, and if every bin's signal increases
it strictly decreases. -/
theorem C29_binned_decreasing {d : Detector} {p p' : DMParticle} {ss ss' : List ℝ} (hr : ReachableDetector d)
    (hd : d.analysis = .binnedPoisson) (hn : 0 < d.bins) (hs : C.signalsBinned d p = .ok ss)
    (hs' : C.signalsBinned d p' = .ok ss') (hl : ss.length = d.bins) (hl' : ss'.length = d.bins)
    (h0 : ∀ i < d.bins, 0 ≤ ss.getD i 0) (hb : ∀ i < d.bins, 0 ≤ d.binBackground.getD i 0)
    (h : ∀ i < d.bins, ss.getD i 0 ≤ ss'.getD i 0) :
    ∃ x x', d.pValue U T C p = .ok x ∧ d.pValue U T C p' = .ok x' ∧ x' ≤ x ∧
      ((∀ i < d.bins, ss.getD i 0 < ss'.getD i 0) → x' < x) := by
  have hi := reachable_sound hr
  obtain ⟨x, hx, hm, _⟩ := minElement_isLeast (l := (List.range d.bins).map (d.binP ss)) (by simp; omega)
  obtain ⟨x', hx', _, hm'⟩ := minElement_isLeast (l := (List.range d.bins).map (d.binP ss')) (by simp; omega)
  obtain ⟨i, hir, hie⟩ := List.mem_map.1 hm
  have hib := List.mem_range.1 hir
  have h1 : x' ≤ d.binP ss' i := hm' (List.mem_map.2 ⟨i, hir, rfl⟩)
  have m1 : ss.getD i 0 + d.binBackground.getD i 0 ∈ Set.Ici (0 : ℝ) := Set.mem_Ici.2 (add_nonneg (h0 i hib) (hb i hib))
  have m2 : ss'.getD i 0 + d.binBackground.getD i 0 ∈ Set.Ici (0 : ℝ) :=
    Set.mem_Ici.2 (add_nonneg ((h0 i hib).trans (h i hib)) (hb i hib))
  refine ⟨x, x', (pValue_binned hi.entries hd hi.fiducial.1 hs hl.ge).trans hx,
    (pValue_binned hi.entries hd hi.fiducial.1 hs' hl'.ge).trans hx', ?_, fun hlt => ?_⟩
  · refine h1.trans (hie ▸ ?_)
    exact (cdfPoisson_strictAnti _).antitoneOn m1 m2 (by linarith [h i hib])
  · refine lt_of_le_of_lt h1 (hie ▸ ?_)
    exact cdfPoisson_strictAnti _ m1 m2 (by linarith [hlt i hib])

/-- C29 (error branch): with zero bins the p-value dereferences the end of an empty vector. -/
theorem C29_fails_without_bins {d : Detector} {p : DMParticle} {ss : List ℝ} (hr : ReachableDetector d)
    (hd : d.analysis = .binnedPoisson) (hn : d.bins = 0) (hs : C.signalsBinned d p = .ok ss) : d.pValue U T C p = .ub := by
  have hi := reachable_sound hr
  rw [pValue_binned hi.entries hd hi.fiducial.1 hs (by omega), hn]
  rfl

/-- Zero bins are reachable: `Use_Energy_Bins` accepts them. -/
example : ∃ d, ReachableDetector d ∧ d.analysis = .binnedPoisson ∧ d.bins = 0 := by
  obtain ⟨d, h, ha, hb, _⟩ := (C27_use_energy_bins (Detector.make "x" 1 "Nuclei") 0 1 0 (by norm_num)).1 (by simp [make]) zero_le_one
  exact ⟨d, .inl ⟨_, [.useEnergyBins 0 1 0], ⟨_, _, _, rfl⟩, by simp only [run, step]; rw [show (0 : ℤ) = ((0 : ℕ) : ℤ) from rfl, h]; rfl⟩,
    ha, hb⟩

/-! ## C34 — likelihoods -/

/-- What the likelihood of `n` events should be when `s` signals and `b` background events are expected: with (practically) no
background and more events than signals, the largest probability any background could give; otherwise the probability with the
given background. -/
def BestFit (s : ℝ) (n : ℕ) (b x : ℝ) : Prop :=
  (b < 1 / 10 ^ 4 ∧ s < n → IsGreatest {y | ∃ b' : ℝ, 0 ≤ b' ∧ y = probExactly (s + b') n} x) ∧
  (¬(b < 1 / 10 ^ 4 ∧ s < n) → x = probExactly (s + b) n)

theorem probExactly_eq {mu : ℝ} (h : 0 ≤ mu) (n : ℕ) :
    probExactly mu n = Real.exp (-mu) * mu ^ n / (n.factorial : ℝ) := by
  unfold probExactly
  rw [ProbabilityTheory.poissonMeasure_real_singleton, Real.coe_toNNReal _ h]

/-- The Poisson probability of `n` events is largest at `mu = n`, and decreasing beyond. -/
theorem probExactly_le {lam mu : ℝ} {n : ℕ} (h0 : 0 < lam) (hl : (n : ℝ) ≤ lam) (hm : 0 ≤ mu)
    (h : lam ≤ mu ∨ lam = n) : probExactly mu n ≤ probExactly lam n := by
  rw [probExactly_eq hm, probExactly_eq h0.le]
  refine div_le_div_of_nonneg_right ?_ (by positivity)
  rcases hm.eq_or_lt with rfl | hm'
  · rcases Nat.eq_zero_or_pos n with rfl | hn
    · rcases h with h | h
      · exact absurd h (not_le.2 h0)
      · simp at h; exact absurd h h0.ne'
    · rw [zero_pow hn.ne', mul_zero]; positivity
  have e1 : Real.exp (-mu) * mu ^ n = Real.exp (-mu + n * Real.log mu) := by
    rw [Real.exp_add, mul_comm (n : ℝ), Real.exp_mul, Real.exp_log hm', Real.rpow_natCast]
  have e2 : Real.exp (-lam) * lam ^ n = Real.exp (-lam + n * Real.log lam) := by
    rw [Real.exp_add, mul_comm (n : ℝ), Real.exp_mul, Real.exp_log h0, Real.rpow_natCast]
  rw [e1, e2, Real.exp_le_exp]
  have h1 : Real.log mu - Real.log lam ≤ mu / lam - 1 := by
    rw [← Real.log_div hm'.ne' h0.ne']; exact Real.log_le_sub_one_of_pos (by positivity)
  have h2 : (n : ℝ) * (Real.log mu - Real.log lam) ≤ n * (mu / lam - 1) :=
    mul_le_mul_of_nonneg_left h1 (Nat.cast_nonneg n)
  have h3 : (n : ℝ) * (mu / lam - 1) ≤ mu - lam := by
    rcases h with h | h
    · have h4 : 0 ≤ mu / lam - 1 := by rw [sub_nonneg, le_div_iff₀ h0]; linarith
      calc (n : ℝ) * (mu / lam - 1) ≤ lam * (mu / lam - 1) := mul_le_mul_of_nonneg_right hl h4
        _ = mu - lam := by field_simp
    · rw [← h]; apply le_of_eq; field_simp
  nlinarith

theorem bestFit_profiled {s b : ℝ} {n : ℕ} (hs : 0 ≤ s) (h : 0 < s + profiledBackground s n b) :
    BestFit s n b (Real.exp (logLikelihoodPoisson s n (profiledBackground s n b))) := by
  rw [exp_logLikelihood h]
  unfold profiledBackground at h ⊢
  constructor
  · intro hc
    rw [if_pos hc]
    refine ⟨⟨n - s, by linarith [hc.2], rfl⟩, ?_⟩
    rintro y ⟨b', hb', rfl⟩
    have e : s + ((n : ℝ) - s) = n := by ring
    rw [e]
    exact probExactly_le (by linarith [hc.2]) le_rfl (by linarith) (.inr rfl)
  · intro hc
    rw [if_neg hc]

/-- C34 (unbinned). `Log_Likelihood` is the logarithm of the best-fit probability described by `BestFit`. -/
theorem C34_log_likelihood {d : Detector} {p : DMParticle} {s : ℝ} (hd : d.analysis = .poisson)
    (hs : C.signalsTotal d p = .ok s) (h0 : 0 ≤ s) (hb : 0 ≤ d.background) (h : 0 < s + d.background ∨ 0 < d.observed) :
    ∃ l, d.logLikelihood T C p = .ok l ∧ BestFit s d.observed d.background (Real.exp l) := by
  have hpos : 0 < s + profiledBackground s d.observed d.background := by
    unfold profiledBackground
    split_ifs with hc
    · linarith [hc.2]
    · rcases h with h | h
      · exact h
      · have h1 : (0 : ℝ) < d.observed := by exact_mod_cast h
        by_contra hn
        push Not at hc hn
        have hb0 : d.background = 0 := by linarith
        have hs0 : s = 0 := by linarith
        have := hc (by rw [hb0]; norm_num)
        linarith
  refine ⟨_, ?_, bestFit_profiled h0 hpos⟩
  unfold logLikelihood
  rw [hd]
  simp [hs, flogLikelihood, not_le.2 hpos]

/-- C34 (profiling). If exactly no background is expected, the likelihood is the maximum over all backgrounds `b ≥ 0`. -/
theorem C34_profiled {d : Detector} {p : DMParticle} {s : ℝ} (hd : d.analysis = .poisson)
    (hs : C.signalsTotal d p = .ok s) (h0 : 0 ≤ s) (hb : d.background = 0) (h : 0 < s ∨ 0 < d.observed) :
    ∃ l, d.logLikelihood T C p = .ok l ∧
      IsGreatest {y | ∃ b : ℝ, 0 ≤ b ∧ y = probExactly (s + b) d.observed} (Real.exp l) := by
  obtain ⟨l, hl, h1, h2⟩ := C34_log_likelihood (T := T) hd hs h0 hb.ge (by rw [hb, add_zero]; exact h)
  refine ⟨l, hl, ?_⟩
  by_cases hc : d.background < 1 / 10 ^ 4 ∧ s < d.observed
  · exact h1 hc
  · rw [h2 hc, hb, add_zero]
    have hn : (d.observed : ℝ) ≤ s := by
      by_contra hlt; exact hc ⟨by rw [hb]; norm_num, not_le.1 hlt⟩
    have hs' : 0 < s := by
      rcases h with h | h
      · exact h
      · have : (0 : ℝ) < d.observed := by exact_mod_cast h
        linarith
    refine ⟨⟨0, le_rfl, by rw [add_zero]⟩, ?_⟩
    rintro y ⟨b, hb, rfl⟩
    exact probExactly_le hs' hn (by linarith) (.inl (by linarith))

/-- C34 (given background). A background of at least `1e-4` is used as given. -/
theorem C34_given_background {d : Detector} {p : DMParticle} {s : ℝ} (hd : d.analysis = .poisson)
    (hs : C.signalsTotal d p = .ok s) (h0 : 0 ≤ s) (hb : 1 / 10 ^ 4 ≤ d.background) :
    ∃ l, d.logLikelihood T C p = .ok l ∧ Real.exp l = probExactly (s + d.background) d.observed := by
  have hb' : 0 < d.background := lt_of_lt_of_le (by norm_num) hb
  obtain ⟨l, hl, _, h2⟩ := C34_log_likelihood (T := T) hd hs h0 hb'.le (.inl (by linarith))
  exact ⟨l, hl, h2 fun hc => absurd hc.1 (not_lt.2 hb)⟩

/-- C34 (binned). The binned log-likelihood is the sum over all bins of the logarithms of the best-fit probabilities. -/
theorem C34_log_likelihood_binned {d : Detector} {p : DMParticle} {ss : List ℝ} (hr : ReachableDetector d)
    (hd : d.analysis = .binnedPoisson) (hs : C.signalsBinned d p = .ok ss) (hl : ss.length = d.bins)
    (h0 : ∀ i < d.bins, 0 ≤ ss.getD i 0) (hb : ∀ i < d.bins, 0 ≤ d.binBackground.getD i 0)
    (h : ∀ i < d.bins, 0 < ss.getD i 0 + d.binBackground.getD i 0 ∨ 0 < d.binObserved.getD i 0) :
    ∃ (l : ℝ) (li : ℕ → ℝ), d.logLikelihood T C p = .ok l ∧ l = ∑ i ∈ Finset.range d.bins, li i ∧
      ∀ i < d.bins, BestFit (ss.getD i 0) (d.binObserved.getD i 0) (d.binBackground.getD i 0) (Real.exp (li i)) := by
  obtain ⟨e1, e2, e3⟩ := (reachable_sound hr).entries hd
  have hpos : ∀ i < d.bins, 0 < ss.getD i 0 +
      profiledBackground (ss.getD i 0) (d.binObserved.getD i 0) (d.binBackground.getD i 0) := by
    intro i hi
    unfold profiledBackground
    split_ifs with hc
    · linarith [hc.2, h0 i hi]
    · rcases h i hi with h | h
      · exact h
      · have h1 : (0 : ℝ) < d.binObserved.getD i 0 := by exact_mod_cast h
        by_contra hn
        push Not at hc hn
        have hb0 : d.binBackground.getD i 0 = 0 := by linarith [hb i hi, h0 i hi]
        have hs0 : ss.getD i 0 = 0 := by linarith [h0 i hi]
        have := hc (by rw [hb0]; norm_num)
        linarith
  let li : ℕ → ℝ := fun i => logLikelihoodPoisson (ss.getD i 0) (d.binObserved.getD i 0)
    (profiledBackground (ss.getD i 0) (d.binObserved.getD i 0) (d.binBackground.getD i 0))
  refine ⟨((List.range d.bins).map li).foldl (· + ·) 0, li, ?_, ?_, fun i hi => bestFit_profiled (h0 i hi) (hpos i hi)⟩
  · have hc : collect (fun i => do
        let s ← vecGet ss i
        let n ← vecGet d.binObserved i
        let b ← vecGet d.binBackground i
        flogLikelihood s n (profiledBackground s n b)) (List.range d.binBackground.length)
          = .ok ((List.range d.binBackground.length).map li) := by
      refine collect_ok fun i hi => ?_
      have hi : i < d.bins := by rw [← e2]; exact List.mem_range.1 hi
      rw [vecGet_getD (a := 0) (hi.trans_eq hl.symm), vecGet_getD (a := 0) (hi.trans_eq e1.symm),
        vecGet_getD (a := 0) (hi.trans_eq e2.symm)]
      simp only [Outcome.bind_ok, flogLikelihood, if_neg (not_le.2 (hpos i hi)), li]
    unfold logLikelihood
    rw [hd]
    simp only [hs, Outcome.bind_ok]
    rw [hc, e2]
    rfl
  · rw [foldl_add_eq_sum, ← List.sum_toFinset _ (List.nodup_range), List.toFinset_range]

/-- C34 (maximum gap). The likelihood is the p-value. -/
theorem C34_maximum_gap {d : Detector} {p : DMParticle} {x : ℝ} (hd : d.analysis = .maximumGap)
    (hx : d.pValue U T C p = .ok x) (h : 0 < x) : d.likelihood T C p = .ok x := by
  have h1 : d.pValueMaximumGap T C p = .ok x := by
    unfold pValue at hx; rw [hd] at hx; exact hx
  unfold likelihood logLikelihood
  rw [hd]
  simp [h1, not_le.2 h, Real.exp_log h]

/-- C34 (`Likelihood`). It is the exponential of `Log_Likelihood`. -/
theorem C34_likelihood {d : Detector} {p : DMParticle} {l : ℝ} (h : d.logLikelihood T C p = .ok l) :
    d.likelihood T C p = .ok (Real.exp l) := by unfold likelihood; rw [h]; rfl

/-- C34 (error branch). Nothing expected and nothing observed: the code takes the logarithm of zero, although the probability
of that observation is one. -/
theorem C34_fails_nothing_expected {d : Detector} {p : DMParticle} (hd : d.analysis = .poisson)
    (hs : C.signalsTotal d p = .ok 0) (hb : d.background = 0) (hn : d.observed = 0) :
    d.logLikelihood T C p = .nonfinite ∧ probExactly (0 + d.background) d.observed = 1 := by
  constructor
  · unfold logLikelihood
    rw [hd]
    simp [hs, flogLikelihood, profiledBackground, hb, hn]
  · rw [hb, hn, probExactly_eq (by norm_num)]; simp

/-- A class whose signals are those asked for (for the examples). -/
noncomputable def constantClass (s : ℝ) (ss : List ℝ) : DetectorClass where
  maximumEnergyDeposit := fun _ => .ok 0
  minimumDMMass := fun _ _ => .ok 0
  dRdE := fun _ _ _ => 0
  signalsTotal := fun _ _ => .ok s
  signalsBinned := fun _ _ => .ok ss

example (p : DMParticle) : ∃ (C : DetectorClass) (d : Detector), ReachableDetector d ∧ d.analysis = .poisson ∧
    C.signalsTotal d p = .ok 3 ∧ d.background = 1 ∧ d.observed = 2 :=
  ⟨constantClass 3 [], { Detector.make "x" 1 "Nuclei" with observed := 2, background := 1 },
    .inl ⟨_, [.setObserved 2, .setBackground 1], ⟨"x", 1, "Nuclei", rfl⟩, by simp [run, step, setObserved, setBackground, make]⟩,
    rfl, rfl, rfl, rfl⟩

end Obscura
