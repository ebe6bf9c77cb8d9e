import Verif.Spec.BestFit
import Verif.Props.LimitTrends
import Verif.Props.LimitTrendsBinned
import Verif.Props.Statistics
import Verif.Props.Pieces
import Mathlib.Analysis.Convex.SpecificFunctions.Basic
import Mathlib.Analysis.SpecialFunctions.Log.Basic

/-!
# C106 — the likelihood singles out one cross section
-/

namespace Obscura

open Spec DMParticle Detector

variable {U : Units} {T : Tools} {h : Distribution} {D : AnyDetector} {p : DMParticle} {c0 s : ℝ} {ss : List ℝ}

/-! ## The Poisson log-likelihood as a function of the expected number of events -/

/-- `n log μ - μ` rises until `μ = n`. -/
theorem poissonLog_rises {n x y : ℝ} (hx : 0 < x) (hxy : x < y) (hy : y ≤ n) : n * Real.log x - x < n * Real.log y - y := by
  have hy0 : 0 < y := hx.trans hxy
  have h1 : Real.log x - Real.log y < x / y - 1 := by
    rw [← Real.log_div hx.ne' hy0.ne']
    exact Real.log_lt_sub_one_of_pos (by positivity) (by rw [ne_eq, div_eq_one_iff_eq hy0.ne']; exact hxy.ne)
  have h2 : n * (Real.log x - Real.log y) < n * (x / y - 1) := mul_lt_mul_of_pos_left h1 (hy0.trans_le hy)
  have h3 : n * (x / y - 1) ≤ x - y := by
    have : x / y - 1 ≤ 0 := by rw [sub_nonpos, div_le_one hy0]; exact hxy.le
    calc n * (x / y - 1) ≤ y * (x / y - 1) := mul_le_mul_of_nonpos_right hy this
      _ = x - y := by field_simp
  linarith

/-- and falls beyond. -/
theorem poissonLog_falls {n x y : ℝ} (hn : 0 ≤ n) (hx : 0 < x) (hxy : x < y) (hn' : n ≤ x) : n * Real.log y - y < n * Real.log x - x := by
  have hy0 : 0 < y := hx.trans hxy
  have h1 : Real.log y - Real.log x < y / x - 1 := by
    rw [← Real.log_div hy0.ne' hx.ne']
    exact Real.log_lt_sub_one_of_pos (by positivity) (by rw [ne_eq, div_eq_one_iff_eq hx.ne']; exact hxy.ne')
  rcases hn.eq_or_lt with rfl | hn0
  · linarith
  have h2 : n * (Real.log y - Real.log x) < n * (y / x - 1) := mul_lt_mul_of_pos_left h1 hn0
  have h3 : n * (y / x - 1) ≤ y - x := by
    have : 0 ≤ y / x - 1 := by rw [sub_nonneg, one_le_div hx]; exact hxy.le
    calc n * (y / x - 1) ≤ x * (y / x - 1) := mul_le_mul_of_nonneg_right hn' this
      _ = y - x := by field_simp
  linarith

theorem poissonLog_concave {n x y a b : ℝ} (hn : 0 ≤ n) (hx : 0 < x) (hy : 0 < y) (ha : 0 ≤ a) (hb : 0 ≤ b) (hab : a + b = 1) :
    a * (n * Real.log x - x) + b * (n * Real.log y - y) ≤ n * Real.log (a * x + b * y) - (a * x + b * y) := by
  have := strictConcaveOn_log_Ioi.concaveOn.2 hx hy ha hb hab
  simp only [smul_eq_mul] at this
  have := mul_le_mul_of_nonneg_left this hn
  nlinarith

/-- What a bin (or the whole experiment) contributes when `x` signal events are expected. -/
noncomputable def binLog (x : ℝ) (n : ℕ) (b : ℝ) : ℝ := logLikelihoodPoisson x n (profiledBackground x n b)

theorem binLog_given {x b : ℝ} {n : ℕ} (hb : 1 / 10 ^ 4 ≤ b) : binLog x n b = n * Real.log (x + b) - (x + b) - Real.log n.factorial := by
  unfold binLog profiledBackground logLikelihoodPoisson
  rw [if_neg (fun hc => absurd hc.1 (not_lt.2 hb))]
  ring

theorem binLog_below {x b : ℝ} {n : ℕ} (hb : b < 1 / 10 ^ 4) (hx : x < n) : binLog x n b = n * Real.log n - n - Real.log n.factorial := by
  unfold binLog profiledBackground logLikelihoodPoisson
  rw [if_pos ⟨hb, hx⟩, add_sub_cancel]
  ring

theorem binLog_above {x b : ℝ} {n : ℕ} (hx : (n : ℝ) ≤ x) : binLog x n b = n * Real.log (x + b) - (x + b) - Real.log n.factorial := by
  unfold binLog profiledBackground logLikelihoodPoisson
  rw [if_neg (fun hc => absurd hc.2 (not_lt.2 hx))]
  ring

theorem binLog_zero {x : ℝ} {n : ℕ} : binLog x n 0 = n * Real.log (max x n) - max x n - Real.log n.factorial := by
  rcases lt_or_ge x n with hx | hx
  · rw [binLog_below (by norm_num) hx, max_eq_right hx.le]
  · rw [binLog_above hx, max_eq_left hx, add_zero]

theorem binLog_concave {x y a b β : ℝ} {n : ℕ} (hβ : β = 0 ∨ 1 / 10 ^ 4 ≤ β) (hx : 0 < x) (hy : 0 < y) (ha : 0 ≤ a) (hb : 0 ≤ b) (hab : a + b = 1) :
    a * binLog x n β + b * binLog y n β ≤ binLog (a * x + b * y) n β := by
  have hn : (0 : ℝ) ≤ n := n.cast_nonneg
  have hb' : b = 1 - a := by linarith
  rcases hβ with rfl | hβ
  · rw [binLog_zero, binLog_zero, binLog_zero]
    have hx' : 0 < max x (n : ℝ) := hx.trans_le (le_max_left _ _)
    have hy' : 0 < max y (n : ℝ) := hy.trans_le (le_max_left _ _)
    have h1 := poissonLog_concave hn hx' hy' ha hb hab
    have h0 : 0 < a * x + b * y := by
      rcases ha.eq_or_lt with rfl | ha'
      · rw [zero_add] at hab; subst hab; simpa using hy
      · have := mul_pos ha' hx; have := mul_nonneg hb hy.le; linarith
    have h2 : max (a * x + b * y) (n : ℝ) ≤ a * max x n + b * max y n := by
      refine max_le ?_ ?_
      · gcongr <;> exact le_max_left _ _
      · calc (n : ℝ) = a * n + b * n := by rw [hb']; ring
          _ ≤ _ := by gcongr <;> exact le_max_right _ _
    have h3 : n * Real.log (a * max x n + b * max y n) - (a * max x n + b * max y n) ≤
        n * Real.log (max (a * x + b * y) n) - max (a * x + b * y) n := by
      rcases h2.eq_or_lt with e | e
      · rw [e]
      · exact (poissonLog_falls hn (h0.trans_le (le_max_left _ _)) e (le_max_right _ _)).le
    have e : a * Real.log (n.factorial : ℝ) + b * Real.log n.factorial = Real.log n.factorial := by rw [hb']; ring
    linarith
  · rw [binLog_given hβ, binLog_given hβ, binLog_given hβ]
    have hβ0 : 0 < β := lt_of_lt_of_le (by norm_num) hβ
    have h1 := poissonLog_concave hn (add_pos hx hβ0) (add_pos hy hβ0) ha hb hab
    have e1 : a * (x + β) + b * (y + β) = a * x + b * y + β := by rw [hb']; ring
    have e : a * Real.log (n.factorial : ℝ) + b * Real.log n.factorial = Real.log n.factorial := by rw [hb']; ring
    rw [e1] at h1
    linarith

/-! ## The likelihood of an experiment -/

theorem curve_poisson (hT : Typed D) (hS : Sees U T h D p c0 s) (hg : Regular U p)
    (hf : p.fixedRelation = true ∨ D.base.targets = "Electrons") (hI : T.integrate.Homogeneous)
    (hP : ∀ k xs (ys : List ℝ) x y, T.interpolationIntegral xs (ys.map fun z => k * z) x y = k * T.interpolationIntegral xs ys x y)
    {c : ℝ} (hc : 0 ≤ c) (hpos : 0 < c ∨ 0 < D.base.background ∨ 0 < D.base.observed) :
    logLikelihoodCurve U T h D D.base p c = .ok (binLog (c / c0 * s) D.base.observed D.base.background) := by
  have hb := reachable_inv hS.particle
  have ht := target_of_get hS.parameter
  have h0 := hS.positive
  have hs := hS.visible
  have hsig : (D.toClass U T h).signalsTotal D.base (withParam U p D.base.targets c) = .ok (c / c0 * s) := by
    rw [(hT.linear hI hP h).total D.base _ _ _ rfl (by positivity) (scaledBy_withParam hg.good hS.parameter hf h0 hc), hS.signal]
    rfl
  have hx : 0 ≤ c / c0 * s := by positivity
  have hgt : 0 < c / c0 * s + profiledBackground (c / c0 * s) D.base.observed D.base.background := by
    unfold profiledBackground
    split_ifs with hc'
    · linarith [hc'.2]
    · have hb0 := hS.background
      rcases hpos with hp | hp | hp
      · have : 0 < c / c0 * s := by positivity
        linarith
      · linarith
      · have h1 : (0 : ℝ) < D.base.observed := by exact_mod_cast hp
        by_contra hn
        push Not at hc' hn
        have hb0 : D.base.background = 0 := by linarith
        have hs0 : c / c0 * s = 0 := by linarith
        have := hc' (by rw [hb0]; norm_num)
        linarith
  unfold logLikelihoodCurve
  rw [setParam_ok hb ht (fun _ => hc), Outcome.bind_ok]
  unfold logLikelihood
  rw [hS.counting]
  simp only [hsig, Outcome.bind_ok, flogLikelihood, if_neg (not_le.2 hgt)]
  rfl

theorem curve_binned (hT : Typed D) (hg : Regular U p) (hS : SeesInBins U T h D p c0 ss)
    (hf : p.fixedRelation = true ∨ D.base.targets = "Electrons") (hI : T.integrate.Homogeneous)
    (hP : ∀ k xs (ys : List ℝ) x y, T.interpolationIntegral xs (ys.map fun z => k * z) x y = k * T.interpolationIntegral xs ys x y)
    {d : Detector} {ops : List Detector.Op} (ho : ∀ op ∈ ops, EntersData op) (hr : D.base.run ops = .ok d)
    (hbg : ∀ i < d.bins, 0 ≤ d.binBackground.getD i 0) {c : ℝ} (hc : 0 < c) :
    logLikelihoodCurve U T h D d p c =
      .ok (∑ i ∈ Finset.range d.bins, binLog (c / c0 * ss.getD i 0) (d.binObserved.getD i 0) (d.binBackground.getD i 0)) := by
  have hb := reachable_inv hS.particle
  have ht := target_of_get hS.parameter
  have h0 := hS.positive
  obtain ⟨n, b, N, B, hd⟩ := data_run ho hr
  have htg : d.targets = D.base.targets := by rw [hd]
  have hbins : d.bins = D.base.bins := by rw [hd]
  have hana : d.analysis = .binnedPoisson := by rw [hd]; exact hS.binned
  have hsound : d.Sound := by
    have : ∀ (l : List Detector.Op) (d₁ d₂ : Detector), d₁.Sound → d₁.run l = .ok d₂ → d₂.Sound := by
      intro l
      induction l with
      | nil => intro d₁ d₂ k1 k2; cases k2; exact k1
      | cons o l ih =>
        intro d₁ d₂ k1 k2
        obtain ⟨d₃, k3, k4⟩ := Outcome.bind_eq_ok.1 k2
        exact ih d₃ d₂ (k1.step k3) k4
    exact this ops _ _ (reachable_sound hS.detector) hr
  have hsig : (D.toClass U T h).signalsBinned d (withParam U p D.base.targets c) = .ok (ss.map fun s => c / c0 * s) := by
    rw [(C79_predictions (U := U) (T := T) (h := h) (p := withParam U p D.base.targets c) D ho hr).2.1,
      (hT.linear hI hP h).binned D.base _ _ _ rfl (by positivity) (scaledBy_withParam hg.good hS.parameter hf h0 hc.le), hS.signal]
    rfl
  obtain ⟨e1, e2, -⟩ := hsound.entries hana
  have hget : ∀ i, (ss.map fun s => c / c0 * s).getD i 0 = c / c0 * ss.getD i 0 := getD_map_mul ss (c / c0)
  have hcol : collect (fun i => do
      let s ← vecGet (ss.map fun s => c / c0 * s) i
      let n ← vecGet d.binObserved i
      let b ← vecGet d.binBackground i
      flogLikelihood s n (profiledBackground s n b)) (List.range d.binBackground.length)
        = .ok ((List.range d.binBackground.length).map fun i =>
            binLog (c / c0 * ss.getD i 0) (d.binObserved.getD i 0) (d.binBackground.getD i 0)) := by
    refine collect_ok fun i hi => ?_
    have hi : i < d.bins := by rw [← e2]; exact List.mem_range.1 hi
    have hl : i < (ss.map fun s => c / c0 * s).length := by rw [List.length_map, hS.complete, ← hbins]; exact hi
    rw [vecGet_getD (a := 0) hl, vecGet_getD (a := 0) (hi.trans_eq e1.symm), vecGet_getD (a := 0) (hi.trans_eq e2.symm), hget]
    have hsi := hS.visible i (hbins ▸ hi)
    have hx : 0 < c / c0 * ss.getD i 0 := by positivity
    have hgt : 0 < c / c0 * ss.getD i 0 +
        profiledBackground (c / c0 * ss.getD i 0) (d.binObserved.getD i 0) (d.binBackground.getD i 0) := by
      unfold profiledBackground
      split_ifs with hc'
      · linarith [hc'.2]
      · linarith [hbg i hi]
    simp only [Outcome.bind_ok, flogLikelihood, if_neg (not_le.2 hgt)]
    rfl
  unfold logLikelihoodCurve
  rw [htg, setParam_ok hb ht (fun _ => hc.le), Outcome.bind_ok]
  unfold logLikelihood
  rw [hana]
  simp only [hsig, Outcome.bind_ok]
  rw [hcol, e2, Outcome.bind_ok, foldl_add_eq_sum, ← List.sum_toFinset _ (List.nodup_range), List.toFinset_range]

/-! ## C106 -/

section
variable (hT : Typed D) (hg : Regular U p) (hf : p.fixedRelation = true ∨ D.base.targets = "Electrons") (hI : T.integrate.Homogeneous)
  (hP : ∀ k xs (ys : List ℝ) x y, T.interpolationIntegral xs (ys.map fun z => k * z) x y = k * T.interpolationIntegral xs ys x y)
include hT hg hf hI hP

/-- C106 (given background). In a counting experiment with an expected background of at least `1e-4` events, `Log_Likelihood` is defined for every
interaction parameter, rises strictly as long as fewer signal events are expected than the excess over the background, and falls strictly beyond. -/
theorem C106_given_background (hS : Sees U T h D p c0 s) (hb : 1 / 10 ^ 4 ≤ D.base.background) :
    ∃ L : ℝ → ℝ, (∀ c, 0 ≤ c → logLikelihoodCurve U T h D D.base p c = .ok (L c)) ∧
      (∀ c c', 0 ≤ c → c < c' → c' / c0 * s + D.base.background ≤ D.base.observed → L c < L c') ∧
      (∀ c c', 0 ≤ c → c < c' → (D.base.observed : ℝ) ≤ c / c0 * s + D.base.background → L c' < L c) := by
  have h0 := hS.positive
  have hs := hS.visible
  have hb0 : 0 < D.base.background := lt_of_lt_of_le (by norm_num) hb
  have hlt : ∀ c c', c < c' → c / c0 * s + D.base.background < c' / c0 * s + D.base.background := fun c c' hcc => by gcongr
  refine ⟨fun c => binLog (c / c0 * s) D.base.observed D.base.background, fun c hc => curve_poisson hT hS hg hf hI hP hc (.inr (.inl hb0)),
    fun c c' hc hcc hle => ?_, fun c c' hc hcc hle => ?_⟩
  · simp only [binLog_given hb]
    have := poissonLog_rises (by positivity) (hlt c c' hcc) hle
    linarith
  · simp only [binLog_given hb]
    have := poissonLog_falls (Nat.cast_nonneg _) (by positivity) (hlt c c' hcc) hle
    linarith

/-- C106 (the best fit). Under the same conditions exactly one interaction parameter fits best: the one at which as many signal events are expected as
were seen above the background, or zero if there is no excess. Every other one has a smaller likelihood. -/
theorem C106_best_fit (hS : Sees U T h D p c0 s) (hb : 1 / 10 ^ 4 ≤ D.base.background) :
    ∃ l, logLikelihoodCurve U T h D D.base p (bestParameter c0 s D.base.observed D.base.background) = .ok l ∧
      ∀ c, 0 ≤ c → c ≠ bestParameter c0 s D.base.observed D.base.background →
        ∃ l', logLikelihoodCurve U T h D D.base p c = .ok l' ∧ l' < l := by
  have h0 := hS.positive
  have hs := hS.visible
  obtain ⟨L, h1, h2, h3⟩ := C106_given_background hT hg hf hI hP hS hb
  set c1 := bestParameter c0 s D.base.observed D.base.background with hc1
  have hc1' : 0 ≤ c1 := by
    have := le_max_left (0 : ℝ) (D.base.observed - D.base.background)
    rw [hc1]; unfold bestParameter; positivity
  have hx : c1 / c0 * s = max 0 (D.base.observed - D.base.background) := by
    rw [hc1]; unfold bestParameter; field_simp
  refine ⟨_, h1 _ hc1', fun c hc hne => ⟨_, h1 c hc, ?_⟩⟩
  rcases hne.lt_or_gt with hlt | hlt
  · refine h2 c c1 hc hlt ?_
    rw [hx]
    have : 0 < c1 := hc.trans_lt hlt
    have h5 : 0 < max (0 : ℝ) (D.base.observed - D.base.background) := by rw [← hx]; positivity
    rcases le_total (D.base.observed - D.base.background : ℝ) 0 with h6 | h6
    · rw [max_eq_left h6] at h5; exact absurd h5 (lt_irrefl _)
    · rw [max_eq_right h6]; linarith
  · refine h3 c1 c hc1' hlt ?_
    rw [hx]
    have := le_max_right (0 : ℝ) (D.base.observed - D.base.background)
    linarith

/-- C106 (no background estimate). If practically no background is expected, all interaction parameters that predict fewer events than were seen are
equally likely, the larger ones are less likely the larger they are, and nowhere does the likelihood rise. -/
theorem C106_no_background (hS : Sees U T h D p c0 s) (hb : D.base.background < 1 / 10 ^ 4) :
    ∃ L : ℝ → ℝ, (∀ c, 0 < c → logLikelihoodCurve U T h D D.base p c = .ok (L c)) ∧
      (∀ c c', 0 < c → c < c' → c' / c0 * s < D.base.observed → L c = L c') ∧
      (∀ c c', 0 < c → c < c' → (D.base.observed : ℝ) < c' / c0 * s → L c' < L c) ∧
      (∀ c c', 0 < c → c ≤ c' → L c' ≤ L c) := by
  have h0 := hS.positive
  have hs := hS.visible
  have hb0 := hS.background
  have hlt : ∀ c c', c < c' → c / c0 * s < c' / c0 * s := fun c c' hcc => by gcongr
  set n := D.base.observed
  set b := D.base.background
  have hn : (0 : ℝ) ≤ n := n.cast_nonneg
  have key1 : ∀ c c', c < c' → c' / c0 * s < n → binLog (c / c0 * s) n b = binLog (c' / c0 * s) n b := fun c c' hcc hle => by
    rw [binLog_below hb hle, binLog_below hb ((hlt c c' hcc).trans hle)]
  have key2 : ∀ c c', 0 < c → c < c' → (n : ℝ) ≤ c / c0 * s → binLog (c' / c0 * s) n b < binLog (c / c0 * s) n b := fun c c' hc hcc hle => by
    rw [binLog_above hle, binLog_above (hle.trans (hlt c c' hcc).le)]
    have hx : 0 < c / c0 * s := by positivity
    have := poissonLog_falls (x := c / c0 * s + b) (y := c' / c0 * s + b) hn (by positivity) (by linarith [hlt c c' hcc]) (by linarith)
    linarith
  have key3 : ∀ c c', 0 < c → c < c' → c / c0 * s < n → (n : ℝ) ≤ c' / c0 * s →
      binLog (c' / c0 * s) n b ≤ binLog (c / c0 * s) n b ∧ ((n : ℝ) < c' / c0 * s → binLog (c' / c0 * s) n b < binLog (c / c0 * s) n b) := by
    intro c c' hc hcc h1 h2
    rw [binLog_below hb h1, binLog_above h2]
    have hn0 : (0 : ℝ) < n := lt_trans (by positivity) h1
    rcases (show (n : ℝ) ≤ c' / c0 * s + b by linarith).eq_or_lt with e | e
    · rw [← e]
      exact ⟨le_rfl, fun h3 => by linarith⟩
    · have := poissonLog_falls hn hn0 e le_rfl
      exact ⟨by linarith, fun _ => by linarith⟩
  refine ⟨fun c => binLog (c / c0 * s) n b, fun c hc => curve_poisson hT hS hg hf hI hP hc.le (.inl hc),
    fun c c' hc hcc hle => key1 c c' hcc hle, fun c c' hc hcc hle => ?_, fun c c' hc hcc => ?_⟩
  · rcases lt_or_ge (c / c0 * s) n with h1 | h1
    · exact (key3 c c' hc hcc h1 hle.le).2 hle
    · exact key2 c c' hc hcc h1
  · rcases hcc.eq_or_lt with rfl | hcc
    · exact le_rfl
    rcases lt_or_ge (c / c0 * s) n with h1 | h1
    · rcases lt_or_ge (c' / c0 * s) n with h2 | h2
      · exact (key1 c c' hcc h2).ge
      · exact (key3 c c' hc hcc h1 h2).1
    · exact (key2 c c' hc hcc h1).le

/-- C106 (bins). If in every bin either no background or one of at least `1e-4` events is expected, whatever was observed, the log-likelihood is a
concave function of the interaction parameter. -/
theorem C106_binned_partial (hS : SeesInBins U T h D p c0 ss)
    (hb : ∀ i < D.base.bins, D.base.binBackground.getD i 0 = 0 ∨ 1 / 10 ^ 4 ≤ D.base.binBackground.getD i 0) :
    ∃ L : ℝ → ℝ, (∀ c, 0 < c → logLikelihoodCurve U T h D D.base p c = .ok (L c)) ∧ ConcaveOn ℝ (Set.Ioi 0) L := by
  have h0 := hS.positive
  refine ⟨_, fun c hc => curve_binned hT hg hS hf hI hP (d := D.base) (ops := []) (by simp) rfl hS.background hc, convex_Ioi 0, ?_⟩
  intro x hx y hy a b ha hb' hab
  simp only [smul_eq_mul]
  rw [Finset.mul_sum, Finset.mul_sum, ← Finset.sum_add_distrib]
  refine Finset.sum_le_sum fun i hi => ?_
  have hi := Finset.mem_range.1 hi
  have hsi := hS.visible i hi
  have hx : (0 : ℝ) < x := hx
  have hy : (0 : ℝ) < y := hy
  have := binLog_concave (x := x / c0 * ss.getD i 0) (y := y / c0 * ss.getD i 0) (n := D.base.binObserved.getD i 0) (hb i hi)
    (by positivity) (by positivity) ha hb' hab
  rwa [show (a * x + b * y) / c0 * ss.getD i 0 = a * (x / c0 * ss.getD i 0) + b * (y / c0 * ss.getD i 0) by ring]

/-- C106 (one peak, bins). Under the same conditions there are never two separate peaks: between two interaction parameters the log-likelihood is at
least the smaller of the two values. -/
theorem C106_one_peak_partial (hS : SeesInBins U T h D p c0 ss)
    (hb : ∀ i < D.base.bins, D.base.binBackground.getD i 0 = 0 ∨ 1 / 10 ^ 4 ≤ D.base.binBackground.getD i 0)
    {c₁ c₂ c₃ l₁ l₂ l₃ : ℝ} (h0 : 0 < c₁) (h12 : c₁ ≤ c₂) (h23 : c₂ ≤ c₃) (e1 : logLikelihoodCurve U T h D D.base p c₁ = .ok l₁)
    (e2 : logLikelihoodCurve U T h D D.base p c₂ = .ok l₂) (e3 : logLikelihoodCurve U T h D D.base p c₃ = .ok l₃) : min l₁ l₃ ≤ l₂ := by
  obtain ⟨L, hL, hc⟩ := C106_binned_partial hT hg hf hI hP hS hb
  have k2 : 0 < c₂ := h0.trans_le h12
  have k3 : 0 < c₃ := k2.trans_le h23
  rw [hL _ h0] at e1; rw [hL _ k2] at e2; rw [hL _ k3] at e3
  rw [← Outcome.ok.inj e1, ← Outcome.ok.inj e2, ← Outcome.ok.inj e3]
  exact hc.min_le_of_mem_Icc h0 k3 ⟨h12, h23⟩

omit hf in
/-- C106 (scan of a counting experiment). In the rows of `Log_Likelihood_Scan` for one mass, with interaction parameters above zero, the log-likelihood
never falls and rises again: of three parameters in ascending order, the middle one has at least the smaller of the two outer values. -/
theorem C106_scan (hfix : p.fixedRelation = true) {masses couplings : List ℝ} {q : DMParticle} {rows : List (ℝ × ℝ × ℝ)}
    (hp : Reachable U p) (hm : ∀ m ∈ masses, 0 < m) (hc : ∀ c ∈ couplings, 0 < c)
    (hS : ∀ m ∈ masses, ∀ p', p.setMass U m = .ok p' → ∃ c s, Sees U T h D p' c s)
    (hscan : D.base.logLikelihoodScan U T (D.toClass U T h) p masses couplings = .ok (q, rows)) {m c₁ c₂ c₃ l₁ l₂ l₃ : ℝ}
    (r1 : (m, c₁, l₁) ∈ rows) (r2 : (m, c₂, l₂) ∈ rows) (r3 : (m, c₃, l₃) ∈ rows) (h12 : c₁ ≤ c₂) (h23 : c₂ ≤ c₃) : min l₁ l₃ ≤ l₂ := by
  obtain ⟨ll, hll, rfl⟩ := C35_scan hp hm (fun c k => (hc c k).le) hscan
  have get : ∀ c l, (m, c, l) ∈ (masses.flatMap fun m => couplings.map fun c => (m, c, ll m c)) → m ∈ masses ∧ c ∈ couplings ∧ l = ll m c := by
    intro c l k
    obtain ⟨m', k1, k2⟩ := List.mem_flatMap.1 k
    obtain ⟨c', k3, k4⟩ := List.mem_map.1 k2
    cases k4
    exact ⟨k1, k3, rfl⟩
  obtain ⟨hm1, m1, rfl⟩ := get _ _ r1
  obtain ⟨-, m2, rfl⟩ := get _ _ r2
  obtain ⟨-, m3, rfl⟩ := get _ _ r3
  have hm0 := hm m hm1
  have hset := setMass_ok (U := U) (reachable_inv hp) hm0
  obtain ⟨hg', hf'⟩ := regular_withMass (U := U) hg hfix hm0
  obtain ⟨c0, s, hS⟩ := hS m hm1 _ hset
  have hcur : ∀ c ∈ couplings, logLikelihoodCurve U T h D D.base (withMass U p m) c = .ok (ll m c) := fun c k => by
    have := hll m hm1 c k
    unfold logLikelihoodAt at this
    rwa [hset, Outcome.bind_ok] at this
  have k1 := hc _ m1
  rcases le_or_gt (1 / 10 ^ 4) D.base.background with hb | hb
  · obtain ⟨L, hL, hup, hdown⟩ := C106_given_background hT hg' (.inl hf') hI hP hS hb
    have e : ∀ c ∈ couplings, ll m c = L c := fun c k => Outcome.ok.inj ((hcur c k).symm.trans (hL c (hc c k).le))
    rw [e _ m1, e _ m2, e _ m3]
    rcases h12.eq_or_lt with rfl | h12
    · exact min_le_left _ _
    rcases h23.eq_or_lt with rfl | h23
    · exact min_le_right _ _
    rcases le_total (c₂ / c0 * s + D.base.background) D.base.observed with k | k
    · exact (min_le_left _ _).trans (hup _ _ k1.le h12 k).le
    · exact (min_le_right _ _).trans (hdown _ _ (k1.trans h12).le h23 k).le
  · obtain ⟨L, hL, -, -, hdown⟩ := C106_no_background hT hg' (.inl hf') hI hP hS hb
    have e : ∀ c ∈ couplings, ll m c = L c := fun c k => Outcome.ok.inj ((hcur c k).symm.trans (hL c (hc c k)))
    rw [e _ m1, e _ m2, e _ m3]
    exact (min_le_right _ _).trans (hdown _ _ (k1.trans_le h12) h23)

/-- C106 (finding). With a background between zero and `1e-4` in one bin this is false. Take any experiment with two bins that sees the particle:
data can be entered for which the log-likelihood falls and rises again, because at the parameter where the second bin predicts the one event it has
seen, the code switches from the fitted background to the given one. -/
theorem C106_fails_tiny_background (hS : SeesInBins U T h D p c0 ss) (h2 : D.base.bins = 2) :
    ∃ (n : ℕ) (d : Detector) (c₁ c₂ c₃ l₁ l₂ l₃ : ℝ),
      D.base.run [.setObservedBins [n, 1], .setBackgroundBins [1, 1 / 20000]] = .ok d ∧ 0 < c₁ ∧ c₁ < c₂ ∧ c₂ < c₃ ∧
      logLikelihoodCurve U T h D d p c₁ = .ok l₁ ∧ logLikelihoodCurve U T h D d p c₂ = .ok l₂ ∧ logLikelihoodCurve U T h D d p c₃ = .ok l₃ ∧
      l₂ < l₁ ∧ l₂ < l₃ := by
  have h0 := hS.positive
  have hs1 := hS.visible 0 (by omega)
  have hs2 := hS.visible 1 (by omega)
  set s1 := ss.getD 0 0
  set s2 := ss.getD 1 0
  have hk : 0 < s1 / s2 := by positivity
  set k := s1 / s2 with hkd
  have hlog : 0 < Real.log (2 * k + 1) - Real.log (k + 1) := by
    rw [sub_pos]; exact Real.log_lt_log (by positivity) (by linarith)
  obtain ⟨n, hn⟩ := exists_nat_gt ((k + 1) / (Real.log (2 * k + 1) - Real.log (k + 1)))
  have hn : k + 1 < n * (Real.log (2 * k + 1) - Real.log (k + 1)) := by rwa [div_lt_iff₀ hlog] at hn
  have hrun : ∃ d, D.base.run [.setObservedBins [n, 1], .setBackgroundBins [1, 1 / 20000]] = .ok d ∧ d.bins = 2 ∧ d.binObserved = [n, 1] ∧
      d.binBackground = [1, 1 / 20000] := by
    simp [Detector.run, Detector.step, setObservedBins, setBackgroundBins, hS.binned, h2]
  obtain ⟨d, hr, hbins, hobs, hbg⟩ := hrun
  have hcurve : ∀ c, 0 < c → logLikelihoodCurve U T h D d p c = .ok (binLog (c / c0 * s1) n 1 + binLog (c / c0 * s2) 1 (1 / 20000)) := by
    intro c hc
    rw [curve_binned hT hg hS hf hI hP (ops := [.setObservedBins [n, 1], .setBackgroundBins [1, 1 / 20000]]) (by simp [EntersData]) hr
      (by rw [hbins, hbg]; intro i hi; interval_cases i <;> simp) hc, hbins, hobs, hbg]
    simp [Finset.sum_range_succ, s1, s2]
  have hg1 : ∀ x : ℝ, binLog x n 1 = n * Real.log (x + 1) - (x + 1) - Real.log n.factorial := fun x => binLog_given (by norm_num)
  have hc2 : 0 < c0 / s2 := by positivity
  have e2 : ∀ t : ℝ, t * (c0 / s2) / c0 * s2 = t := fun t => by field_simp
  have e1 : ∀ t : ℝ, t * (c0 / s2) / c0 * s1 = t * k := fun t => by rw [hkd]; field_simp
  have jump : Real.log (1 + 1 / 20000) < 1 / 20000 := by
    have := Real.log_lt_sub_one_of_pos (x := 1 + 1 / 20000) (by norm_num) (by norm_num)
    linarith
  have hcont : ContinuousAt (fun t : ℝ => n * Real.log (t * k + 1) - (t * k + 1)) 1 := by
    have : (1 : ℝ) * k + 1 ≠ 0 := by positivity
    fun_prop (disch := assumption)
  obtain ⟨δ, hδ, hnear⟩ := Metric.continuousAt_iff.1 hcont (1 / 20000 - Real.log (1 + 1 / 20000)) (by linarith)
  set t := max (1 / 2) (1 - δ / 2) with ht
  have ht0 : 0 < t := lt_of_lt_of_le (by norm_num) (le_max_left _ _)
  have ht1 : t < 1 := max_lt (by norm_num) (by linarith)
  have hclose := hnear (show dist t 1 < δ by
    rw [Real.dist_eq, abs_sub_comm, abs_of_pos (by linarith)]
    have := le_max_right (1 / 2) (1 - δ / 2)
    linarith)
  rw [Real.dist_eq] at hclose
  have hclose := (abs_lt.1 hclose).1
  refine ⟨n, d, t * (c0 / s2), 1 * (c0 / s2), 2 * (c0 / s2), _, _, _, hr, by positivity, by gcongr, by gcongr; norm_num,
    hcurve _ (by positivity), hcurve _ (by positivity), hcurve _ (by positivity), ?_, ?_⟩
  · rw [e1, e1, e2, e2, hg1, hg1, binLog_below (x := t) (by norm_num) (by exact_mod_cast ht1), binLog_above (x := 1) (by simp)]
    norm_num at hclose jump ⊢
    linarith
  · rw [e1, e1, e2, e2, hg1, hg1, binLog_above (x := 1) (by simp), binLog_above (x := 2) (by norm_num)]
    have h5 : Real.log (1 + 1 / 20000) < Real.log (2 + 1 / 20000) := Real.log_lt_log (by norm_num) (by norm_num)
    norm_num at h5 hn ⊢
    nlinarith

end

/-- Non-vacuity of the theorems about counting experiments: one that expects one background event and has seen three, for which the best parameter
is positive. -/
example (U : Units) : ∃ (T : Tools) (v : ℝ) (p : DMParticle) (s : ℝ), Typed (hydrogenDetector U) ∧ Regular U p ∧ p.fixedRelation = true ∧
    T.integrate.Homogeneous ∧ Sees U T (flatHalo v) (hydrogenDetector U) p 1 s ∧ 1 / 10 ^ 4 ≤ (hydrogenDetector U).base.background ∧
    0 < bestParameter 1 s (hydrogenDetector U).base.observed (hydrogenDetector U).base.background := by
  obtain ⟨T, hI, -, hT, hP⟩ := exists_tools
  obtain ⟨v, p, s, h1, h2, h3, hS⟩ := sees_example U hT
  have hs := hS.visible
  refine ⟨T, v, p, s, h1, h2, h3, hI, hS, by norm_num [hydrogenDetector, AnyDetector.base], ?_⟩
  have : (0 : ℝ) < max 0 (((3 : ℕ) : ℝ) - 1) := lt_max_of_lt_right (by norm_num)
  simp only [bestParameter, hydrogenDetector, AnyDetector.base]
  positivity

/-- Non-vacuity of `C106_scan`: a scan of this experiment at the mass of the particle, with three interaction parameters. -/
example (U : Units) : ∃ (T : Tools) (v : ℝ) (p q : DMParticle) (rows : List (ℝ × ℝ × ℝ)), Regular U p ∧ p.fixedRelation = true ∧ Reachable U p ∧
    (∀ p', p.setMass U p.mass = .ok p' → ∃ c s, Sees U T (flatHalo v) (hydrogenDetector U) p' c s) ∧
    (hydrogenDetector U).base.logLikelihoodScan U T ((hydrogenDetector U).toClass U T (flatHalo v)) p [p.mass] [1, 2, 3] = .ok (q, rows) ∧
    rows.length = 3 := by
  obtain ⟨T, hI, -, hT, hP⟩ := exists_tools
  obtain ⟨v, p, s, h1, h2, h3, hS⟩ := sees_example U hT
  have hb := reachable_inv hS.particle
  have hm := hb.mass
  have hset := setMass_ok (U := U) hb hm
  have hsame := sameObservables_withMass (U := U) h2.good
  have hsc : ScaledBy U "Nuclei" 1 p (withMass U p p.mass) :=
    { mass := hsame.mass, spin := hsame.spin, fraction := hsame.fraction, lowMass := hsame.lowMass, useEta := hsame.useEta
      interaction := by obtain ⟨x, y, hs⟩ := withMass_shape (U := U) p p.mass; rw [hs]
      nuclei := fun q iso v => by rw [hsame.dsN]; simp
      electrons := fun q v => by rw [hsame.dsE]; simp }
  have hsig : ((hydrogenDetector U).toClass U T (flatHalo v)).signalsTotal (hydrogenDetector U).base (withMass U p p.mass) = .ok s := by
    rw [(h1.linear hI hP (flatHalo v)).total (hydrogenDetector U).base 1 p _ rfl zero_le_one hsc, hS.signal]
    simp
  have hS' : Sees U T (flatHalo v) (hydrogenDetector U) (withMass U p p.mass) 1 s := by
    refine ⟨hS.detector, hS.counting, hS.background, ?_, (hsame.param _).trans hS.parameter, one_pos, hsig, hS.visible⟩
    exact reachable_step hS.particle (op := .setMass p.mass) hm hset
  obtain ⟨hg', hf'⟩ := regular_withMass (U := U) h2 h3 hm
  obtain ⟨q, rows, hr⟩ := C35_scan_exists (U := U) (T := T) (C := (hydrogenDetector U).toClass U T (flatHalo v)) (d := (hydrogenDetector U).base)
    (masses := [p.mass]) (couplings := [1, 2, 3]) hS.particle (.inl rfl) (by simpa using hm) (by simp)
    (fun m k c k' => by
      cases List.mem_singleton.1 k
      have hc : 0 < c := by
        simp only [List.mem_cons, List.not_mem_nil, or_false] at k'
        rcases k' with rfl | rfl | rfl <;> norm_num
      have := curve_poisson h1 hS' hg' (.inl hf') hI hP hc.le (.inl hc)
      refine ⟨_, Eq.trans ?_ this⟩
      unfold logLikelihoodAt
      rw [hset, Outcome.bind_ok]
      rfl)
  refine ⟨T, v, p, q, rows, h2, h3, hS.particle, fun p' k => ?_, hr, ?_⟩
  · rw [hset] at k
    cases k
    exact ⟨1, s, hS'⟩
  · rw [C35_scan_length hS.particle (by simpa using hm) (by simp) hr]
    rfl

/-- The same experiment after a background of zero was entered meets the hypotheses of `C106_no_background`. -/
example (U : Units) : ∃ (T : Tools) (v : ℝ) (p : DMParticle) (s : ℝ) (d : Detector), Typed (.nuclear d (hydrogenTarget U)) ∧ Regular U p ∧
    p.fixedRelation = true ∧ T.integrate.Homogeneous ∧ (hydrogenDetector U).base.run [.setBackground 0] = .ok d ∧
    Sees U T (flatHalo v) (.nuclear d (hydrogenTarget U)) p 1 s ∧ d.background < 1 / 10 ^ 4 ∧ d.observed = 3 := by
  obtain ⟨T, hI, -, hT, hP⟩ := exists_tools
  obtain ⟨v, p, s, h1, h2, h3, hS⟩ := sees_example U hT
  have hr : (hydrogenDetector U).base.run [.setBackground 0] = .ok { (hydrogenDetector U).base with background := 0 } := rfl
  have hsig := (C79_predictions (U := U) (T := T) (h := flatHalo v) (p := p) (hydrogenDetector U)
    (ops := [.setBackground 0]) (by simp [EntersData]) hr).1
  have hd : ReachableDetector { (hydrogenDetector U).base with background := 0 } := .inl ⟨_,
    [.useEnergyThreshold 1 2, .setObserved 3, .setBackground 1, .setBackground 0], ⟨"x", 1, "Nuclei", rfl⟩,
    by simp [Detector.run, Detector.step, setObserved, setBackground, make, useEnergyThreshold, initializePoisson, hydrogenDetector, AnyDetector.base]⟩
  exact ⟨T, v, p, s, _, ⟨hd, rfl⟩, h2, h3, hI, hr, ⟨hd, rfl, le_rfl, hS.particle, hS.parameter, hS.positive, hsig.trans hS.signal, hS.visible⟩,
    by norm_num, rfl⟩

/-- Non-vacuity of the theorems about bins: two bins, one with a background of one event and one without background. -/
example (U : Units) : ∃ (T : Tools) (v : ℝ) (p : DMParticle) (ss : List ℝ), Typed (binnedHydrogen U) ∧ Regular U p ∧ p.fixedRelation = true ∧
    T.integrate.Homogeneous ∧ SeesInBins U T (flatHalo v) (binnedHydrogen U) p 1 ss ∧ (binnedHydrogen U).base.bins = 2 ∧
    ∀ i < (binnedHydrogen U).base.bins, (binnedHydrogen U).base.binBackground.getD i 0 = 0 ∨
      1 / 10 ^ 4 ≤ (binnedHydrogen U).base.binBackground.getD i 0 := by
  obtain ⟨v, p, ss, h1, h2, h3, hS⟩ := sees_bins_example U (T := flatTools) exactIntegrator_exact
  refine ⟨flatTools, v, p, ss, h1, h2, h3, exactIntegrator_exact.homogeneous, hS, rfl, fun i hi => ?_⟩
  have hi : i < 2 := hi
  interval_cases i
  · exact .inr (by norm_num [binnedHydrogen, AnyDetector.base])
  · exact .inl rfl

end Obscura
