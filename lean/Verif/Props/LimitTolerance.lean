import Verif.Spec.LimitTolerance
import Verif.Props.Limits
import Verif.Props.MaximumGap
import Verif.Lemmas.GapTrend

/-!
# Limits found with a finite tolerance, and limits of maximum-gap analyses (C29, C30)
-/

namespace Obscura

open Detector DMParticle Spec MaximumGap

variable {U : Units} {T : Tools} {C : DetectorClass}

namespace LimitTolerance

/-- The analytic core: a function that falls, up to `ε`. -/
theorem separates {F : ℝ → ℝ} {L ε δ : ℝ} {R : RootFinder} (hR : FindsWithin R δ) (hε : 0 ≤ ε) (hF : ∀ a b, 0 < a → a < b → F b < F a + ε) :
    let x := if 0 < (F ((10 : ℝ) ^ (-30 : ℝ)) - L) * (F ((10 : ℝ) ^ (10 : ℝ)) - L) then -1
      else (10 : ℝ) ^ R (fun l => F ((10 : ℝ) ^ l) - L) (-30) 10
    (x = -1 ∧ ((∀ c, (10 : ℝ) ^ (-30 : ℝ) ≤ c → c ≤ (10 : ℝ) ^ (10 : ℝ) → L - ε < F c) ∨
      ∀ c, (10 : ℝ) ^ (-30 : ℝ) ≤ c → c ≤ (10 : ℝ) ^ (10 : ℝ) → F c < L + ε)) ∨
    ((10 : ℝ) ^ (-30 : ℝ) ≤ x ∧ x ≤ (10 : ℝ) ^ (10 : ℝ) ∧
      ∀ c, 0 < c → (c * 10 ^ δ < x → L - ε < F c) ∧ (x * 10 ^ δ < c → F c < L + ε)) := by
  intro x
  have p0 : (0 : ℝ) < (10 : ℝ) ^ (-30 : ℝ) := ten_pow_pos _
  have p1 : (0 : ℝ) < (10 : ℝ) ^ (10 : ℝ) := ten_pow_pos _
  by_cases h : 0 < (F ((10 : ℝ) ^ (-30 : ℝ)) - L) * (F ((10 : ℝ) ^ (10 : ℝ)) - L)
  · left
    refine ⟨if_pos h, ?_⟩
    rcases mul_pos_iff.1 h with ⟨-, h2⟩ | ⟨h1, -⟩
    · refine .inl fun c g1 g2 => ?_
      rcases g2.eq_or_lt with rfl | g2
      · linarith
      · have := hF c _ (p0.trans_le g1) g2; linarith
    · refine .inr fun c g1 g2 => ?_
      rcases g1.eq_or_lt with rfl | g1
      · linarith
      · have := hF _ c p0 g1; linarith
  · right
    have hx : x = (10 : ℝ) ^ R (fun l => F ((10 : ℝ) ^ l) - L) (-30) 10 := if_neg h
    obtain ⟨l, r, h1, h2, h3, h4, h5, h6⟩ := hR (fun l : ℝ => F ((10 : ℝ) ^ l) - L) (-30) 10 (by norm_num) (not_lt.1 h)
    have mono : ∀ {a b : ℝ}, a ≤ b → (10 : ℝ) ^ a ≤ (10 : ℝ) ^ b := fun h => Real.rpow_le_rpow_of_exponent_le (by norm_num) h
    refine ⟨hx ▸ mono (h1.trans h2), hx ▸ mono (h3.trans h4), fun c hc => ⟨fun g => ?_, fun g => ?_⟩⟩
    · have hl : c < (10 : ℝ) ^ l := by
        have e1 : x ≤ (10 : ℝ) ^ l * 10 ^ δ := by
          rw [hx, ← Real.rpow_add (by norm_num)]; exact mono (by linarith)
        exact lt_of_mul_lt_mul_right (g.trans_le e1) (ten_pow_pos δ).le
      have hr : c < (10 : ℝ) ^ r := hl.trans_le (mono (h2.trans h3))
      have := hF c _ hc hl
      have := hF c _ hc hr
      rcases le_or_gt 0 (F ((10 : ℝ) ^ l) - L) with k | k
      · linarith
      · have : 0 ≤ F ((10 : ℝ) ^ r) - L := by
          by_contra k'; push Not at k'
          have := mul_pos_of_neg_of_neg k k'
          linarith
        linarith
    · have hr : (10 : ℝ) ^ r < c := by
        have e1 : (10 : ℝ) ^ r ≤ x * 10 ^ δ := by
          rw [hx, ← Real.rpow_add (by norm_num)]; exact mono (by linarith)
        exact e1.trans_lt g
      have hl : (10 : ℝ) ^ l < c := (mono (h2.trans h3)).trans_lt hr
      have := hF _ c (ten_pow_pos _) hl
      have := hF _ c (ten_pow_pos _) hr
      rcases le_or_gt (F ((10 : ℝ) ^ l) - L) 0 with k | k
      · linarith
      · have : F ((10 : ℝ) ^ r) - L ≤ 0 := by
          by_contra k'; push Not at k'
          have := mul_pos k k'
          linarith
        linarith

theorem limit_within {d d' : Detector} {p : DMParticle} {cert c0 δ ε : ℝ} {F : ℝ → ℝ} (hi : d.Sound)
    (hp : Regular U p) (hc0 : p.getInteractionParameter U d.targets = .ok c0) (hd : d.setFiducial C c0 p = .ok d')
    (hsame : ∀ c, 0 < c → pValueAt U T C d' p c = pValueAt U T C d p c)
    (hR : FindsWithin T.findRoot δ) (hF : ∀ c, 0 < c → pValueAt U T C d p c = .ok (F c)) (hε : 0 ≤ ε)
    (ha : ∀ a b, 0 < a → a < b → F b < F a + ε) :
    ∃ p' x, d.upperLimit U T C p cert = .ok (d, p', x) ∧ LimitWithin U T C d p cert δ ε x := by
  have hg := hp.good
  have ht := target_of_get hc0
  have ht' : d'.targets = d.targets := by
    obtain ⟨u, c, s, ss, rfl, _⟩ := setFiducial_shape hd; rfl
  obtain ⟨p', hv⟩ := upperLimit_value (T := T) (cert := cert) (F := F) hi hg.base hc0 hd (fun c hc => by
    have h1 := hsame c hc
    rw [hF c hc] at h1
    unfold pValueAt at h1
    rw [ht', setParam_ok hg.base ht (fun _ => hc.le)] at h1
    exact h1)
  refine ⟨p', _, hv, ?_⟩
  rcases separates hR hε ha with ⟨h1, h2⟩ | ⟨h1, h2, h3⟩
  · refine .inl ⟨h1, h2.imp (fun h c g1 g2 => ⟨F c, hF c ((ten_pow_pos _).trans_le g1), h c g1 g2⟩)
      fun h c g1 g2 => ⟨F c, hF c ((ten_pow_pos _).trans_le g1), h c g1 g2⟩⟩
  · exact .inr ⟨h1, h2, fun c hc => ⟨F c, hF c hc, h3 c hc⟩⟩

end LimitTolerance

open LimitTolerance

/-! ## Poisson statistics -/

/-- C30 (tolerance; partial: Poisson statistics, fixed coupling ratio or electron target, positive signal). With a root finder that stops
at a bracket of width `δ` the limit is correct up to a factor `10^δ`. -/
theorem C30_poisson_tolerance_partial {d : Detector} {p : DMParticle} {cert c0 s δ : ℝ} (hr : ReachableDetector d) (hp : Regular U p)
    (hf : p.fixedRelation = true ∨ d.targets = "Electrons") (hC : LinearClass U C d.targets) (hR : FindsWithin T.findRoot δ)
    (hc0 : p.getInteractionParameter U d.targets = .ok c0) (h0 : 0 < c0) (hd : d.analysis = .poisson)
    (hs : C.signalsTotal d p = .ok s) (hs0 : 0 < s) (hb : 0 ≤ d.background) :
    ∃ p' x, d.upperLimit U T C p cert = .ok (d, p', x) ∧ LimitWithin U T C d p cert δ 0 x := by
  have hg := hp.good
  have ht := target_of_get hc0
  have hi := Detector.reachable_sound hr
  have hfid : d.setFiducial C c0 p = .ok { d with usingFiducial := true, fiducialCoupling := c0, fiducialSignals := s } := by
    unfold setFiducial
    rw [hd]
    simp only [← hd]
    rw [(hC.config d p true c0 d.fiducialSignals d.fiducialSpectrum).1, hs]
    rfl
  refine limit_within (F := fun c => cdfPoisson (c / c0 * s + d.background) d.observed) hi hp hc0 hfid
    (fun c hc => C32_rescaling_exact_partial (T := T) hr hp hf hC hc0 h0 hfid hc.le) hR (fun c hc => ?_) le_rfl fun a b ha hab => ?_
  · unfold pValueAt
    rw [setParam_ok hg.base ht (fun _ => hc.le)]
    refine pValue_poisson hd hi.fiducial.1 ?_
    rw [hC.total d _ _ _ rfl (by positivity) (scaledBy_withParam hg hc0 hf h0 hc.le), hs]
    rfl
  · rw [add_zero]
    refine cdfPoisson_strictAnti d.observed (Set.mem_Ici.2 (by positivity)) (Set.mem_Ici.2 ?_) ?_
    · have := ha.trans hab; positivity
    · have : a / c0 * s < b / c0 * s := by gcongr
      linarith

/-- C30 (tolerance; partial: binned Poisson statistics, fixed coupling ratio or electron target, a positive signal in every bin). -/
theorem C30_binned_tolerance_partial {d : Detector} {p : DMParticle} {cert c0 δ : ℝ} {ss : List ℝ} (hr : ReachableDetector d)
    (hp : Regular U p) (hf : p.fixedRelation = true ∨ d.targets = "Electrons") (hC : LinearClass U C d.targets)
    (hR : FindsWithin T.findRoot δ) (hc0 : p.getInteractionParameter U d.targets = .ok c0) (h0 : 0 < c0) (hd : d.analysis = .binnedPoisson)
    (hn : 0 < d.bins) (hs : C.signalsBinned d p = .ok ss) (hl : ss.length = d.bins) (hs0 : ∀ i < d.bins, 0 < ss.getD i 0)
    (hb : ∀ i < d.bins, 0 ≤ d.binBackground.getD i 0) :
    ∃ p' x, d.upperLimit U T C p cert = .ok (d, p', x) ∧ LimitWithin U T C d p cert δ 0 x := by
  have hg := hp.good
  have ht := target_of_get hc0
  have hi := Detector.reachable_sound hr
  have hfid : d.setFiducial C c0 p = .ok { d with usingFiducial := true, fiducialCoupling := c0, fiducialSpectrum := ss } := by
    unfold setFiducial
    rw [hd]
    simp only [← hd]
    rw [(hC.config d p true c0 d.fiducialSignals d.fiducialSpectrum).2.1, hs]
    rfl
  have hbin : ∀ c i, d.binP (ss.map fun s => c / c0 * s) i =
      cdfPoisson (c / c0 * ss.getD i 0 + d.binBackground.getD i 0) (d.binObserved.getD i 0) := by
    intro c i; unfold binP; rw [getD_map_mul]
  have hmem : ∀ i < d.bins, ∀ c : ℝ, 0 ≤ c → c / c0 * ss.getD i 0 + d.binBackground.getD i 0 ∈ Set.Ici (0 : ℝ) :=
    fun i hi c hc => Set.mem_Ici.2 (by have := hs0 i hi; have := hb i hi; positivity)
  have hlt : ∀ i < d.bins, ∀ c c' : ℝ, 0 ≤ c → c < c' →
      d.binP (ss.map fun s => c' / c0 * s) i < d.binP (ss.map fun s => c / c0 * s) i := by
    intro i hi c c' hc hcc
    rw [hbin, hbin]
    refine cdfPoisson_strictAnti _ (hmem i hi c hc) (hmem i hi c' (hc.trans hcc.le)) ?_
    have := hs0 i hi
    have : c / c0 * ss.getD i 0 < c' / c0 * ss.getD i 0 := by gcongr
    linarith
  have hleast : ∀ c, IsLeast {y | ∃ i < d.bins, y = d.binP (ss.map fun s => c / c0 * s) i} (binnedF d ss c0 c) := by
    intro c
    have h1 := foldl_min_isLeast ((List.range d.bins).map (d.binP (ss.map fun s => c / c0 * s)))
      (d.binP (ss.map fun s => c / c0 * s) 0)
    refine ⟨?_, ?_⟩
    · rcases List.mem_cons.1 h1.1 with h | h
      · exact ⟨0, hn, h⟩
      · obtain ⟨i, hi, h⟩ := List.mem_map.1 h
        exact ⟨i, List.mem_range.1 hi, h.symm⟩
    · rintro y ⟨i, hi, rfl⟩
      exact h1.2 (List.mem_cons_of_mem _ (List.mem_map.2 ⟨i, List.mem_range.2 hi, rfl⟩))
  refine limit_within (F := binnedF d ss c0) hi hp hc0 hfid
    (fun c hc => C32_rescaling_exact_partial (T := T) hr hp hf hC hc0 h0 hfid hc.le) hR (fun c hc => ?_) le_rfl fun a b ha hab => ?_
  · unfold pValueAt
    rw [setParam_ok hg.base ht (fun _ => hc.le)]
    have hsig : C.signalsBinned d (withParam U p d.targets c) = .ok (ss.map fun s => c / c0 * s) := by
      rw [hC.binned d _ _ _ rfl (by positivity) (scaledBy_withParam hg hc0 hf h0 hc.le), hs]
      rfl
    refine (pValue_binned hi.entries hd hi.fiducial.1 hsig (by rw [List.length_map, hl])).trans ?_
    obtain ⟨x, hx, hm⟩ := minElement_isLeast (l := (List.range d.bins).map (d.binP (ss.map fun s => c / c0 * s))) (by simp; omega)
    rw [hx]
    congr 1
    refine le_antisymm ?_ ?_
    · obtain ⟨i, hi, h⟩ := (hleast c).1
      rw [h]
      exact hm.2 (List.mem_map.2 ⟨i, List.mem_range.2 hi, rfl⟩)
    · obtain ⟨i, hi, h⟩ := List.mem_map.1 hm.1
      exact (hleast c).2 ⟨i, List.mem_range.1 hi, h.symm⟩
  · obtain ⟨j, hj, he⟩ := (hleast a).1
    rw [add_zero, he]
    exact ((hleast b).2 ⟨j, hj, rfl⟩).trans_lt (hlt j hj a b ha.le hab)

/-! ## The maximum-gap analysis -/

/-- The data `es` were entered into `d`, at least two different energies, `s` are the same data in order, `M` and `μ` the largest and the
total number of events expected between neighbours, `μ` no proper multiple of `M`; the interpolation resolves the spectrum and its
multiples, and the largest energy a particle can deposit, which exceeds some of the data, does not depend on the strength of its
interactions. -/
structure GapAnalysis (U : Units) (T : Tools) (C : DetectorClass) (d : Detector) (p : DMParticle) (es s : List ℝ) (M μ : ℝ) : Prop where
  entered : ∃ d₀ : Detector, d₀.useMaximumGap es = .ok d
  perm : s.Perm es
  sorted : s.Pairwise (· ≤ ·)
  different : ∃ a ∈ es, ∃ b ∈ es, a < b
  few : es.length < 2 ^ 31
  deposit : ∃ Edep, (∃ e ∈ es, e < Edep) ∧ ∀ k p', 0 < k → ScaledBy U d.targets k p p' → C.maximumEnergyDeposit p' = .ok Edep
  resolved : ∀ k, 0 < k → Resolves T fun E => k * (d.exposure * C.dRdE d E p)
  nonneg : ∀ g ∈ countsBetween (fun E => d.exposure * C.dRdE d E p) s, 0 ≤ g
  largest : IsGreatest {g | g ∈ countsBetween (fun E => d.exposure * C.dRdE d E p) s} M
  positive : 0 < M
  sum : (countsBetween (fun E => d.exposure * C.dRdE d E p) s).sum = μ
  proper : ∀ k : ℕ, 2 ≤ k → μ ≠ k * M

namespace MaximumGap

theorem countsBetween_scaled (f : ℝ → ℝ) (k : ℝ) (s : List ℝ) : countsBetween (fun E => k * f E) s = (countsBetween f s).map (k * ·) := by
  unfold countsBetween
  rw [List.map_zipWith]
  simp only [intervalIntegral.integral_const_mul]

theorem sum_scaled (k : ℝ) (l : List ℝ) : (l.map (k * ·)).sum = k * l.sum := by
  induction l with
  | nil => simp
  | cons a l ih => simp only [List.map_cons, List.sum_cons, ih]; ring

theorem scaled_p {d : Detector} {p p' : DMParticle} {es s : List ℝ} {M μ k : ℝ} (hG : GapAnalysis U T C d p es s M μ)
    (hC : LinearClass U C d.targets) (hk : 0 < k) (hp : ScaledBy U d.targets k p p') :
    ∃ P, d.pValue U T C p' = .ok P ∧ |P - (1 - total (k * M) (k * μ))| ≤ 2 ^ 31 / 10 ^ 20 := by
  obtain ⟨d₀, hd⟩ := hG.entered
  obtain ⟨a, ha, b, hb, hab⟩ := hG.different
  obtain ⟨Edep, he, hE⟩ := hG.deposit
  have hf : (fun E => d.exposure * C.dRdE d E p') = fun E => k * (d.exposure * C.dRdE d E p) := by
    ext E; rw [hC.rate d E k p p' rfl hk.le hp]; ring
  have hsum : (countsBetween (fun E => d.exposure * C.dRdE d E p') s).sum = k * μ := by
    rw [hf, countsBetween_scaled, sum_scaled, hG.sum]
  have h := C36_p_value_partial (U := U) (T := T) (C := C) (p := p') (M := k * M) hd hG.perm hG.sorted ha hb hab hG.few
    (hE k p' hk hp) he (by rw [hf]; exact hG.resolved k hk) ?_ ?_ (mul_pos hk hG.positive) ?_ (isMaxGapCDF (mul_pos hk hG.positive))
  · rwa [hsum] at h
  · rw [hf, countsBetween_scaled]
    intro g hg
    obtain ⟨g', hg', rfl⟩ := List.mem_map.1 hg
    exact mul_nonneg hk.le (hG.nonneg g' hg')
  · rw [hf, countsBetween_scaled]
    refine ⟨List.mem_map.2 ⟨M, hG.largest.1, rfl⟩, fun g hg => ?_⟩
    obtain ⟨g', hg', rfl⟩ := List.mem_map.1 hg
    exact mul_le_mul_of_nonneg_left (hG.largest.2 hg') hk.le
  · intro n hn h
    rw [hsum] at h
    refine hG.proper n hn (mul_left_cancel₀ hk.ne' ?_)
    rw [h]; ring

theorem mean_nonneg {d : Detector} {p : DMParticle} {es s : List ℝ} {M μ : ℝ} (hG : GapAnalysis U T C d p es s M μ) : 0 ≤ μ := by
  rw [← hG.sum]; exact List.sum_nonneg hG.nonneg

end MaximumGap

/-- C29 (maximum gap). Also in a maximum-gap analysis stronger interactions are less compatible with the data: if all cross sections are
multiplied by a factor `k`, at least as large as another one, the p-value is not larger, up to the truncation of the series at `4.3e-11`. -/
theorem C29_maximum_gap {d : Detector} {p p₁ p₂ : DMParticle} {es s : List ℝ} {M μ k₁ k₂ : ℝ} (hG : GapAnalysis U T C d p es s M μ)
    (hC : LinearClass U C d.targets) (h0 : 0 < k₁) (hk : k₁ ≤ k₂) (hp₁ : ScaledBy U d.targets k₁ p p₁) (hp₂ : ScaledBy U d.targets k₂ p p₂) :
    ∃ P₁ P₂, d.pValue U T C p₁ = .ok P₁ ∧ d.pValue U T C p₂ = .ok P₂ ∧ P₂ ≤ P₁ + 2 * (2 ^ 31 / 10 ^ 20) := by
  obtain ⟨P₁, h1, h2⟩ := scaled_p hG hC h0 hp₁
  obtain ⟨P₂, h3, h4⟩ := scaled_p hG hC (h0.trans_le hk) hp₂
  refine ⟨P₁, P₂, h1, h3, ?_⟩
  have := total_mono hG.positive (mean_nonneg hG) h0 hk
  have := (abs_le.1 h2).1
  have := (abs_le.1 h4).2
  linarith

/-- C29 (maximum gap, distribution). Without the truncation the statement is exact: for the distribution that the specification describes,
more expected events, all gaps growing alike, make it more likely that all gaps are smaller. -/
theorem C29_maximum_gap_distribution {x μ k : ℝ} (hx : 0 < x) (hμ : 0 ≤ μ) (hk : 1 ≤ k) {F G : ℝ → ℝ} (hF : IsMaxGapCDF x F)
    (hG : IsMaxGapCDF (k * x) G) : F μ ≤ G (k * μ) := by
  have hk0 : 0 < k := by linarith
  rw [unique hx hF hμ, unique (mul_pos hk0 hx) hG (by positivity)]
  simpa using total_mono hx hμ one_pos hk

/-- C30 (maximum gap; partial: fixed coupling ratio or electron target, up to the tolerance `δ` of the root finder and `5e-11` in the
p-value). `Upper_Limit` of a maximum-gap analysis separates the excluded from the allowed couplings. -/
theorem C30_maximum_gap_partial {d : Detector} {p : DMParticle} {es s : List ℝ} {M μ cert c0 δ : ℝ} (hr : ReachableDetector d)
    (hp : Regular U p) (hf : p.fixedRelation = true ∨ d.targets = "Electrons") (hC : LinearClass U C d.targets)
    (hR : FindsWithin T.findRoot δ) (hc0 : p.getInteractionParameter U d.targets = .ok c0) (h0 : 0 < c0)
    (hG : GapAnalysis U T C d p es s M μ) :
    ∃ p' x, d.upperLimit U T C p cert = .ok (d, p', x) ∧ LimitWithin U T C d p cert δ (5 / 10 ^ 11) x := by
  have hg := hp.good
  have ht := target_of_get hc0
  have hi := Detector.reachable_sound hr
  have hana : d.analysis = .maximumGap := by
    obtain ⟨d₀, hd⟩ := hG.entered
    obtain ⟨a, ha, -⟩ := hG.different
    obtain ⟨d₁, h1, h2, -⟩ := C27_use_maximum_gap d₀ (List.ne_nil_of_mem ha)
    rw [h1] at hd
    rw [← Outcome.ok.inj hd]; exact h2
  have hfid : d.setFiducial C c0 p = .ok d := by unfold setFiducial; rw [hana]
  have hP : ∀ c : ℝ, ∃ P, 0 < c → pValueAt U T C d p c = .ok P ∧ |P - (1 - total (c / c0 * M) (c / c0 * μ))| ≤ 2 ^ 31 / 10 ^ 20 := by
    intro c
    by_cases hc : 0 < c
    · obtain ⟨P, h1, h2⟩ := scaled_p hG hC (div_pos hc h0) (scaledBy_withParam hg hc0 hf h0 hc.le)
      refine ⟨P, fun _ => ⟨?_, h2⟩⟩
      unfold pValueAt
      rw [setParam_ok hg.base ht (fun _ => hc.le)]
      exact h1
    · exact ⟨0, fun h => absurd h hc⟩
  choose F hF using hP
  refine limit_within (F := F) hi hp hc0 hfid (fun _ _ => rfl) hR (fun c hc => (hF c hc).1) (by norm_num) fun a b ha hab => ?_
  have hb := ha.trans hab
  have h1 := total_mono hG.positive (mean_nonneg hG) (div_pos ha h0) (c' := b / c0) (by gcongr)
  have h2 := (abs_le.1 (hF a ha).2).1
  have h3 := (abs_le.1 (hF b hb).2).2
  norm_num at h2 h3 ⊢
  linarith

/-! ## The hypotheses can be met -/

/-- There are root finders with every tolerance. -/
theorem exists_findsWithin {δ : ℝ} (hδ : 0 < δ) : ∃ R : RootFinder, FindsWithin R δ := by
  classical
  have key : ∀ (f : ℝ → ℝ) (a b : ℝ), a ≤ b → 0 ≤ f a → f b ≤ 0 →
      ∃ l r, a ≤ l ∧ l ≤ r ∧ r ≤ b ∧ r - l ≤ δ ∧ 0 ≤ f l ∧ f r ≤ 0 := by
    intro f a b hab ha hb
    set S := {l | l ∈ Set.Icc a b ∧ 0 ≤ f l} with hS
    have hne : S.Nonempty := ⟨a, ⟨le_rfl, hab⟩, ha⟩
    have hbd : BddAbove S := ⟨b, fun l hl => hl.1.2⟩
    obtain ⟨l, hl, hlt⟩ := exists_lt_of_lt_csSup hne (show sSup S - δ / 2 < sSup S by linarith)
    have hle : l ≤ sSup S := le_csSup hbd hl
    by_cases h : l + δ ≤ b
    · refine ⟨l, l + δ, hl.1.1, by linarith, h, by linarith, hl.2, ?_⟩
      by_contra hc
      push Not at hc
      have := le_csSup hbd (show l + δ ∈ S from ⟨⟨by linarith [hl.1.1], h⟩, hc.le⟩)
      linarith
    · exact ⟨l, b, hl.1.1, hl.1.2, le_rfl, by linarith, hl.2, hb⟩
  have h : ∀ (f : ℝ → ℝ) (a b : ℝ), ∃ x, a ≤ b → f a * f b ≤ 0 → ∃ l r, a ≤ l ∧ l ≤ x ∧ x ≤ r ∧ r ≤ b ∧ r - l ≤ δ ∧ f l * f r ≤ 0 := by
    intro f a b
    by_cases hab : a ≤ b ∧ f a * f b ≤ 0
    · rcases le_total 0 (f a) with h1 | h1
      · rcases le_total (f b) 0 with h2 | h2
        · obtain ⟨l, r, g1, g2, g3, g4, g5, g6⟩ := key f a b hab.1 h1 h2
          exact ⟨l, fun _ _ => ⟨l, r, g1, le_rfl, g2, g3, g4, mul_nonpos_of_nonneg_of_nonpos g5 g6⟩⟩
        · rcases mul_eq_zero.1 (le_antisymm hab.2 (mul_nonneg h1 h2)) with h3 | h3
          · exact ⟨a, fun _ _ => ⟨a, a, le_rfl, le_rfl, le_rfl, hab.1, by linarith, by simp [h3]⟩⟩
          · exact ⟨b, fun _ _ => ⟨b, b, hab.1, le_rfl, le_rfl, le_rfl, by linarith, by simp [h3]⟩⟩
      · rcases le_total 0 (f b) with h2 | h2
        · obtain ⟨l, r, g1, g2, g3, g4, g5, g6⟩ := key (fun x => -f x) a b hab.1 (by simpa using h1) (by simpa using h2)
          refine ⟨l, fun _ _ => ⟨l, r, g1, le_rfl, g2, g3, g4, ?_⟩⟩
          exact mul_nonpos_of_nonpos_of_nonneg (by linarith) (by linarith)
        · rcases mul_eq_zero.1 (le_antisymm hab.2 (mul_nonneg_of_nonpos_of_nonpos h1 h2)) with h3 | h3
          · exact ⟨a, fun _ _ => ⟨a, a, le_rfl, le_rfl, le_rfl, hab.1, by linarith, by simp [h3]⟩⟩
          · exact ⟨b, fun _ _ => ⟨b, b, hab.1, le_rfl, le_rfl, le_rfl, by linarith, by simp [h3]⟩⟩
    · exact ⟨0, fun h1 h2 => absurd ⟨h1, h2⟩ hab⟩
  choose R hR using h
  exact ⟨R, hR⟩

/-- A detector of scatterings on hydrogen with a constant spectrum up to the energy 3. -/
noncomputable def flatCounting (U : Units) : DetectorClass := { countingClass U (Isotope.default U) 1 1 with maximumEnergyDeposit := fun _ => .ok 3 }

/-- The hypotheses of the theorems on maximum-gap analyses can be met: three observed events in a constant spectrum, and a root finder with
the tolerance `10^-4`. There is then a limit within this tolerance. -/
example : ∃ (T : Tools) (d : Detector) (p : DMParticle) (M μ : ℝ), ReachableDetector d ∧ Regular U p ∧ p.fixedRelation = true ∧
    LinearClass U (flatCounting U) d.targets ∧ FindsWithin T.findRoot (1 / 10 ^ 4) ∧ p.getInteractionParameter U d.targets = .ok 1 ∧
    GapAnalysis U T (flatCounting U) d p [4, 1, 2] [1, 2, 4] M μ ∧
    ∃ p' x, d.upperLimit U T (flatCounting U) p (9 / 10) = .ok (d, p', x) ∧
      LimitWithin U T (flatCounting U) d p (9 / 10) (1 / 10 ^ 4) (5 / 10 ^ 11) x := by
  obtain ⟨R, hR⟩ := exists_findsWithin (δ := 1 / 10 ^ 4) (by positivity)
  obtain ⟨f, hf0, hf, h, hfs⟩ := makeSI_eq (U := U) (m := 1) (s := 1) one_pos one_pos.le
  have hf := hf one_pos
  set p₀ : DMParticle := _ with hp₀
  change makeSI U 1 1 = .ok p₀ at h
  set p : DMParticle := { p₀ with lowMass := true } with hp
  have hreg : Regular U p := .inl ⟨⟨(1, 1), p₀, [.setLowMassMode true], .inl ⟨1, 1, one_pos, h⟩, by simp [ValidOp], ⟨by simp [requestedBy], fun _ _ => trivial⟩, rfl, rfl⟩, rfl⟩
  obtain ⟨d, hd, hana, -⟩ := C27_use_maximum_gap (Detector.make "x" 1 "Nuclei") (es := [4, 1, 2]) (by simp)
  have hd2 : d.exposure = 1 ∧ d.targets = "Nuclei" := by
    simp only [useMaximumGap] at hd
    split at hd
    · rw [← Outcome.ok.inj hd]; exact ⟨rfl, rfl⟩
    · cases hd
  obtain ⟨hexp, htar⟩ := hd2
  have hr : ReachableDetector d := .inl ⟨_, [.useMaximumGap [4, 1, 2]], ⟨"x", 1, "Nuclei", rfl⟩, by simp [Detector.run, Detector.step, hd]⟩
  have hC : LinearClass U (flatCounting U) d.targets := by
    rw [htar]
    obtain ⟨h1, h2, h3, h4⟩ := countingClass_linear U (Isotope.default U) 1 1
    exact ⟨h1, h2, h3, h4⟩
  have hget : p.getInteractionParameter U d.targets = .ok 1 := by
    rw [htar, ← hfs]
    simp [getInteractionParameter, sigmaProton, hp, hp₀, standard]
  set σ := p.dSigmadq2Nucleus U 1 (Isotope.default U) 1 with hσ
  have hrate : ∀ E, (flatCounting U).dRdE d E p = σ := fun E => by simp [flatCounting, countingClass, htar, hσ]
  have hpos : 0 < σ := by
    have hpi := Real.pi_pos
    have hN : (Isotope.default U).neutrons = 0 := by simp [Isotope.neutrons, Isotope.default, usub32]
    have : σ = 1 / 4 / Real.pi * f ^ 2 := by
      simp only [hσ, dSigmadq2Nucleus, hp, hp₀, standard, hN, formFactor2]
      simp only [if_true, Isotope.default]
      field_simp
      push_cast
      ring
    rw [this]
    positivity
  have hc : countsBetween (fun E => d.exposure * (flatCounting U).dRdE d E p) [1, 2, 4] = [σ, 2 * σ] := by
    simp [countsBetween, hexp, hrate]; norm_num
  have hG : GapAnalysis U { flatTools with findRoot := R } (flatCounting U) d p [4, 1, 2] [1, 2, 4] (2 * σ) (3 * σ) :=
    { entered := ⟨_, hd⟩
      perm := List.perm_middle (l₁ := [1, 2]) (l₂ := []) (a := 4)
      sorted := by simp; norm_num
      different := ⟨1, by simp, 2, by simp, by norm_num⟩
      few := by simp
      deposit := ⟨3, ⟨1, by simp, by norm_num⟩, fun _ _ _ _ => rfl⟩
      resolved := fun k _ => by
        simp only [hrate]
        exact flatTools_resolves _
      nonneg := by rw [hc]; simp [hpos.le]
      largest := by rw [hc]; constructor <;> simp [upperBounds]; linarith
      positive := by linarith
      sum := by rw [hc]; simp; ring
      proper := fun k hk h => by
        have h2 : (2 : ℝ) ≤ k := by exact_mod_cast hk
        nlinarith }
  exact ⟨_, d, p, _, _, hr, hreg, rfl, hC, hR, hget, hG, C30_maximum_gap_partial hr hreg (.inl rfl) hC hR hget one_pos hG⟩

end Obscura
