import Verif.Lemmas.LimitSearch
import Verif.Props.Statistics
import Verif.Props.Particle

/-!
# C30, C31, C32, C33, C35 — upper limits, limit curves and likelihood scans
-/

namespace Obscura

open Spec DMParticle Detector

variable {U : Units} {T : Tools} {C : DetectorClass}

/-! ## C32 — the rescaling is exact -/

theorem collect_map {α β : Type} (f : α → β) (l : List α) : collect (fun a => Outcome.ok (f a)) l = .ok (l.map f) :=
  collect_ok fun _ _ => rfl

/-- C32 (partial: only for a fixed coupling ratio, or an electron target). While a limit is searched, the detector `d'` computes
p-values by rescaling the signals saved for the original particle. For every coupling `c ≥ 0` this gives exactly the outcome of
the direct computation with the original detector `d`. -/
theorem C32_rescaling_exact_partial {d d' : Detector} {p : DMParticle} {c0 c : ℝ} (hr : ReachableDetector d) (hp : Regular U p)
    (hf : p.fixedRelation = true ∨ d.targets = "Electrons") (hC : LinearClass U C d.targets)
    (hc0 : p.getInteractionParameter U d.targets = .ok c0) (h0 : 0 < c0) (hd : d.setFiducial C c0 p = .ok d') (hc : 0 ≤ c) :
    pValueAt U T C d' p c = pValueAt U T C d p c := by
  have hi := Detector.reachable_sound hr
  have hg := hp.good
  have ht := target_of_get hc0
  obtain ⟨hu, _⟩ := hi.fiducial
  have hsc := scaledBy_withParam hg hc0 hf h0 hc
  have hget := withParam_get (U := U) hg.base ht (fun _ => hc)
  have hxs : (withParam U p d.targets c).usingCrossSection = true := (withParam_base hg.base d.targets c).xs
  have hk : 0 ≤ c / c0 := by positivity
  have ht' : d'.targets = d.targets := by
    obtain ⟨u, c, s, ss, rfl, _⟩ := setFiducial_shape hd; rfl
  unfold pValueAt
  rw [ht', setParam_ok hg.base ht (fun _ => hc)]
  simp only [Outcome.bind_ok]
  unfold setFiducial at hd
  split at hd
  · rename_i ha
    obtain ⟨s, h1, h2⟩ := Outcome.bind_eq_ok.1 hd
    cases h2
    have h3 : C.signalsTotal d p = .ok s := by
      rw [← (hC.config d p true c0 d.fiducialSignals d.fiducialSpectrum).1]; exact h1
    unfold pValue
    simp only [ha, hu, if_true, Bool.false_eq_true, if_false, rescaling, hget, hxs, fdiv_ok h0.ne', Outcome.bind_ok, pow_one]
    rw [hC.total d _ _ _ rfl hk hsc, h3]
    rfl
  · rename_i ha
    obtain ⟨ss, h1, h2⟩ := Outcome.bind_eq_ok.1 hd
    cases h2
    have h3 : C.signalsBinned d p = .ok ss := by
      rw [← (hC.config d p true c0 d.fiducialSignals d.fiducialSpectrum).2.1]; exact h1
    unfold pValue
    simp only [ha, hu, if_true, Bool.false_eq_true, if_false, rescaling, hget, hxs, fdiv_ok h0.ne', Outcome.bind_ok, pow_one]
    rw [hC.binned d _ _ _ rfl hk hsc, h3, collect_map]
    rfl
  · cases hd; rfl

/-- C32, violated when the particle has coupling zero: the very first p-value of the search divides by zero. -/
theorem C32_fails_zero_coupling {d d' : Detector} {p : DMParticle} {c : ℝ} (hp : Regular U p) (hd : d.analysis = .poisson)
    (hc0 : p.getInteractionParameter U d.targets = .ok 0) (h : d.setFiducial C 0 p = .ok d') (hc : 0 ≤ c) :
    pValueAt U T C d' p c = .nonfinite := by
  have hg := hp.good
  have ht := target_of_get hc0
  have hget := withParam_get (U := U) hg.base ht (fun _ => hc)
  unfold setFiducial at h
  rw [hd] at h
  obtain ⟨s, h1, h2⟩ := Outcome.bind_eq_ok.1 h
  cases h2
  unfold pValueAt
  simp only [setParam_ok hg.base ht (fun _ => hc), Outcome.bind_ok]
  unfold pValue
  simp only [if_true, rescaling, hget, Outcome.bind_ok, fdiv_zero]
  rfl

/-- A detector that counts scatterings on one isotope at one momentum transfer and speed (a class meeting `LinearClass`). -/
noncomputable def countingClass (U : Units) (iso : Isotope) (q v : ℝ) : DetectorClass where
  maximumEnergyDeposit := fun _ => .ok 0
  minimumDMMass := fun _ _ => .ok 0
  dRdE := fun d _ p => if d.targets = "Nuclei" then p.dSigmadq2Nucleus U q iso v else 0
  signalsTotal := fun d p => .ok (if d.targets = "Nuclei" then p.dSigmadq2Nucleus U q iso v else 0)
  signalsBinned := fun d p => .ok (List.replicate d.bins (if d.targets = "Nuclei" then p.dSigmadq2Nucleus U q iso v else 0))

theorem countingClass_linear (U : Units) (iso : Isotope) (q v : ℝ) : LinearClass U (countingClass U iso q v) "Nuclei" := by
  have key : ∀ (d : Detector) (k : ℝ) p p', d.targets = "Nuclei" → ScaledBy U "Nuclei" k p p' →
      (if d.targets = "Nuclei" then p'.dSigmadq2Nucleus U q iso v else 0) =
        k * (if d.targets = "Nuclei" then p.dSigmadq2Nucleus U q iso v else 0) := by
    intro d k p p' hd h
    have := h.nuclei q iso v
    rw [if_pos hd, if_pos hd, this, if_pos rfl]
  refine ⟨fun d E k p p' hd _ h => key d k p p' hd h, fun d k p p' hd _ h => ?_,
    fun d k p p' hd _ h => ?_, fun _ _ _ _ _ _ => ⟨rfl, rfl, fun _ => rfl⟩⟩
  · show Outcome.ok _ = Outcome.ok _
    rw [key d k p p' hd h]
  · show Outcome.ok _ = Outcome.ok _
    rw [key d k p p' hd h, List.map_replicate]

/-- C32, violated for unfixed coupling ratios: on a target that only the neutron coupling sees, the signal does not depend on
the proton cross section, but the limit search rescales it. After `Unfix_Coupling_Ratios`, for a target isotope without protons,
the two p-values differ at every coupling other than the original one. -/
theorem C32_fails_unfixed {m s c v q : ℝ} (hm : 0 < m) (hs : 0 < s) (hc : 0 ≤ c) (hcs : c ≠ s) (hv : v ≠ 0) {iso : Isotope}
    (hZ : iso.Z = 0) (hA : iso.A = 1) :
    ∃ (d d' : Detector) (p : DMParticle) (x x' : ℝ), ReachableDetector d ∧ Regular U p ∧
      p.getInteractionParameter U d.targets = .ok s ∧
      d.setFiducial (countingClass U iso q v) s p = .ok d' ∧ pValueAt U T (countingClass U iso q v) d p c = .ok x ∧
      pValueAt U T (countingClass U iso q v) d' p c = .ok x' ∧ x ≠ x' := by
  obtain ⟨f, hf0, hf, h, hfs⟩ := makeSI_eq (U := U) hm hs.le
  have hf := hf hs
  let p : DMParticle := { standard U m 1 (.SI .contact (U.aEM * U.mElectron) 0) with
    fp := f, fn := f, lowMass := true, fixedRelation := false }
  let d : Detector := Detector.make "x" 1 "Nuclei"
  have hd : ReachableDetector d := .inl ⟨d, [], ⟨_, _, _, rfl⟩, rfl⟩
  have hreach : Reachable U p := ⟨_, [.setLowMassMode true, .unfixCouplingRatios], .inl ⟨m, s, hm, h⟩,
    fun op ho => by
      simp only [List.mem_cons, List.not_mem_nil, or_false] at ho
      rcases ho with rfl | rfl <;> trivial, rfl⟩
  have hreg : Regular U p := .inr ⟨hreach, rfl, hf.le, hf.le⟩
  have hg := hreg.good
  have hget : p.getInteractionParameter U d.targets = .ok s := by
    have : (0 : ℝ) < p.fpRel := by simp [p, standard]
    simp only [getInteractionParameter, d, make, if_true, if_pos this, sigmaProton]
    rw [← hfs]
    simp [p, standard]
  have hfp : (0 : ℝ) < p.fpRel := by simp [p, standard]
  have hN : iso.neutrons = 1 := by simp [Isotope.neutrons, hZ, hA, usub32]
  have hset : ∀ c, 0 ≤ c → p.setInteractionParameter U c "Nuclei" = .ok { p with fp := cpl U p c } := by
    intro c hc
    rw [setParam_ok hg.base (.inl rfl) (fun _ => hc)]
    have hff : p.fixedRelation = false := rfl
    unfold withParam
    rw [if_pos rfl, if_pos hfp, hff]
    rfl
  have hsig : ∀ x : ℝ, ({ p with fp := x } : DMParticle).dSigmadq2Nucleus U q iso v = p.dSigmadq2Nucleus U q iso v := by
    intro x
    simp [dSigmadq2Nucleus, hZ, p, standard]
  have hpos : 0 < p.dSigmadq2Nucleus U q iso v := by
    have hpi := Real.pi_pos
    have hv2 : 0 < v * v := mul_self_pos.2 hv
    have : p.dSigmadq2Nucleus U q iso v = 1 / 4 / Real.pi / (v * v) * f ^ 2 := by
      simp only [dSigmadq2Nucleus, p, standard, hZ, hN, formFactor2]
      simp only [if_true]
      field_simp
      push_cast
      ring
    rw [this]
    positivity
  set sig := p.dSigmadq2Nucleus U q iso v with hsd
  have hgc : ({ p with fp := cpl U p c } : DMParticle).getInteractionParameter U "Nuclei" = .ok c := by
    have h1 := hset c hc
    rw [setParam_ok hg.base (.inl rfl) (fun _ => hc)] at h1
    rw [← Outcome.ok.inj h1]
    exact withParam_get (U := U) (t := "Nuclei") hg.base (.inl rfl) (fun _ => hc)
  refine ⟨d, { d with usingFiducial := true, fiducialCoupling := s, fiducialSignals := sig }, p,
    cdfPoisson (sig + 0) 0, cdfPoisson (c / s * sig + 0) 0, hd, hreg, hget, ?_, ?_, ?_, ?_⟩
  · simp [setFiducial, d, make, countingClass, hsd]
  · unfold pValueAt
    simp only [d, make]
    rw [hset c hc]
    simp only [Outcome.bind_ok]
    simp [pValue, countingClass, hsig]
  · unfold pValueAt
    simp only [d, make]
    rw [hset c hc]
    simp only [Outcome.bind_ok]
    have hxs : p.usingCrossSection = true := rfl
    simp only [pValue, rescaling, if_true, hgc, Outcome.bind_ok, fdiv_ok hs.ne']
    simp only [hxs, if_true, pow_one]
  · have hne : sig + 0 ≠ c / s * sig + 0 := by
      intro h
      have h2 : sig * (1 - c / s) = 0 := by linarith
      rcases mul_eq_zero.1 h2 with h3 | h3
      · exact hpos.ne' h3
      · apply hcs; field_simp at h3; linarith
    exact (cdfPoisson_strictAnti 0).injOn.ne (Set.mem_Ici.2 (by linarith)) (Set.mem_Ici.2 (by positivity)) hne

/-! ## C30 — the limit separates -/

/-- What a correct result `x` of `Upper_Limit` is: either a coupling in the searched range `[10^-30, 10^10]` such that all
couplings below it have a p-value above `1 - CL` and all couplings above it have a p-value below `1 - CL`; or `-1`, and then no
coupling in the range has the p-value `1 - CL`. -/
def CorrectLimit (U : Units) (T : Tools) (C : DetectorClass) (d : Detector) (p : DMParticle) (certainty x : ℝ) : Prop :=
  (x = -1 ∧ ∀ c, (10 : ℝ) ^ (-30 : ℝ) ≤ c → c ≤ (10 : ℝ) ^ (10 : ℝ) →
    ∃ y, pValueAt U T C d p c = .ok y ∧ y ≠ 1 - certainty) ∨
  ((10 : ℝ) ^ (-30 : ℝ) ≤ x ∧ x ≤ (10 : ℝ) ^ (10 : ℝ) ∧ ∀ c, 0 ≤ c → ∃ y, pValueAt U T C d p c = .ok y ∧
    (c < x → 1 - certainty < y) ∧ (x < c → y < 1 - certainty) ∧ (c = x → y = 1 - certainty))

theorem upperLimit_correct {d d' : Detector} {p : DMParticle} {cert c0 : ℝ} {F : ℝ → ℝ} (hr : ReachableDetector d)
    (hp : Regular U p) (hf : p.fixedRelation = true ∨ d.targets = "Electrons") (hC : LinearClass U C d.targets)
    (hc0 : p.getInteractionParameter U d.targets = .ok c0) (h0 : 0 < c0) (hd : d.setFiducial C c0 p = .ok d')
    (hR : T.findRoot.Exact) (hF : ∀ c, 0 ≤ c → pValueAt U T C d p c = .ok (F c)) (hc : ContinuousOn F (Set.Ici 0))
    (ha : AntitoneOn F (Set.Ici 0))
    (hs : ∀ x c, 0 ≤ x → 0 ≤ c → F x = 1 - cert → (c < x → 1 - cert < F c) ∧ (x < c → F c < 1 - cert)) :
    ∃ p' x, d.upperLimit U T C p cert = .ok (d, p', x) ∧ CorrectLimit U T C d p cert x := by
  have hg := hp.good
  have ht := target_of_get hc0
  have ht' : d'.targets = d.targets := by
    obtain ⟨u, c, s, ss, rfl, _⟩ := setFiducial_shape hd; rfl
  obtain ⟨p', hv⟩ := upperLimit_value (T := T) (cert := cert) (F := F) (Detector.reachable_sound hr) hg.base hc0 hd (fun c hc => by
    have h1 := C32_rescaling_exact_partial (T := T) hr hp hf hC hc0 h0 hd hc.le
    rw [hF c hc.le] at h1
    unfold pValueAt at h1
    rw [ht', setParam_ok hg.base ht (fun _ => hc.le)] at h1
    exact h1)
  refine ⟨p', _, hv, ?_⟩
  rcases limit_separates hR hc ha hs with ⟨h1, h2⟩ | ⟨h1, h2, h3, h4⟩
  · refine .inl ⟨h1, fun c g1 g2 => ⟨F c, hF c ((ten_pow_pos _).le.trans g1), h2 c g1 g2⟩⟩
  · refine .inr ⟨h1, h2, fun c hc => ⟨F c, hF c hc, (h4 c hc).1, (h4 c hc).2, fun h => ?_⟩⟩
    rw [h, h3]

/-- C30 (partial: Poisson statistics, fixed coupling ratio or electron target, exact root finder). `Upper_Limit` returns a
correct limit, provided that the particle's current cross section is positive and the expected signal is positive (without any
signal: provided that the background alone does not have a p-value of exactly `1 - CL`). -/
theorem C30_poisson_partial {d : Detector} {p : DMParticle} {cert c0 s : ℝ} (hr : ReachableDetector d) (hp : Regular U p)
    (hf : p.fixedRelation = true ∨ d.targets = "Electrons") (hC : LinearClass U C d.targets) (hR : T.findRoot.Exact)
    (hc0 : p.getInteractionParameter U d.targets = .ok c0) (h0 : 0 < c0) (hd : d.analysis = .poisson)
    (hs : C.signalsTotal d p = .ok s) (hs0 : 0 ≤ s) (hb : 0 ≤ d.background)
    (hpos : 0 < s ∨ probAtMost d.background d.observed ≠ 1 - cert) :
    ∃ p' x, d.upperLimit U T C p cert = .ok (d, p', x) ∧ CorrectLimit U T C d p cert x := by
  have hg := hp.good
  have ht := target_of_get hc0
  have hi := Detector.reachable_sound hr
  have hfid : d.setFiducial C c0 p = .ok { d with usingFiducial := true, fiducialCoupling := c0, fiducialSignals := s } := by
    unfold setFiducial
    rw [hd]
    simp only [← hd]
    rw [(hC.config d p true c0 d.fiducialSignals d.fiducialSpectrum).1, hs]
    rfl
  have hmem : ∀ c : ℝ, 0 ≤ c → c / c0 * s + d.background ∈ Set.Ici (0 : ℝ) := fun c hc => Set.mem_Ici.2 (by positivity)
  have hanti : AntitoneOn (fun c => cdfPoisson (c / c0 * s + d.background) d.observed) (Set.Ici 0) := by
    intro a ha b hb' hab
    refine (cdfPoisson_strictAnti d.observed).antitoneOn (hmem a ha) (hmem b hb') ?_
    have : a / c0 * s ≤ b / c0 * s := by gcongr
    linarith
  refine upperLimit_correct (F := fun c => cdfPoisson (c / c0 * s + d.background) d.observed) hr hp hf hC hc0 h0 hfid hR
    (fun c hc => ?_) ?_ hanti ?_
  · unfold pValueAt
    rw [setParam_ok hg.base ht (fun _ => hc)]
    refine pValue_poisson hd hi.fiducial.1 ?_
    rw [hC.total d _ _ _ rfl (by positivity) (scaledBy_withParam hg hc0 hf h0 hc), hs]
    rfl
  · exact ((continuous_cdfPoisson d.observed).comp (by fun_prop)).continuousOn
  · intro x c hx hc hFx
    have hs' : 0 < s := by
      rcases hpos with h | h
      · exact h
      · rcases hs0.eq_or_lt with h1 | h1
        · exfalso; apply h
          rw [← cdfPoisson_eq_probAtMost hb, ← hFx, ← h1]; simp
        · exact h1
    rw [← hFx]
    constructor
    · intro h
      refine cdfPoisson_strictAnti d.observed (hmem c hc) (hmem x hx) ?_
      have : c / c0 * s < x / c0 * s := by gcongr
      linarith
    · intro h
      refine cdfPoisson_strictAnti d.observed (hmem x hx) (hmem c hc) ?_
      have : x / c0 * s < c / c0 * s := by gcongr
      linarith

/-- The smallest bin p-value at coupling `c`. -/
noncomputable def binnedF (d : Detector) (ss : List ℝ) (c0 c : ℝ) : ℝ :=
  ((List.range d.bins).map (d.binP (ss.map fun s => c / c0 * s))).foldl min
    (d.binP (ss.map fun s => c / c0 * s) 0)

theorem continuous_foldl_min {X : Type} [TopologicalSpace X] (gs : List (X → ℝ)) (f : X → ℝ) (hf : Continuous f)
    (hg : ∀ g ∈ gs, Continuous g) : Continuous fun x => (gs.map fun g => g x).foldl min (f x) := by
  induction gs generalizing f with
  | nil => exact hf
  | cons g gs ih =>
    simp only [List.map_cons, List.foldl_cons]
    exact ih _ (hf.min (hg g (by simp))) (fun g' h => hg g' (by simp [h]))

theorem getD_map_mul (ss : List ℝ) (k : ℝ) (i : ℕ) : (ss.map fun s => k * s).getD i 0 = k * ss.getD i 0 := by
  simp only [List.getD, List.getElem?_map]
  cases ss[i]? <;> simp

/-- C30 (partial, as above) for binned Poisson statistics with at least one bin. -/
theorem C30_binned_partial {d : Detector} {p : DMParticle} {cert c0 : ℝ} {ss : List ℝ} (hr : ReachableDetector d)
    (hp : Regular U p) (hf : p.fixedRelation = true ∨ d.targets = "Electrons") (hC : LinearClass U C d.targets) (hR : T.findRoot.Exact)
    (hc0 : p.getInteractionParameter U d.targets = .ok c0) (h0 : 0 < c0) (hd : d.analysis = .binnedPoisson) (hn : 0 < d.bins)
    (hs : C.signalsBinned d p = .ok ss) (hl : ss.length = d.bins) (hs0 : ∀ i < d.bins, 0 ≤ ss.getD i 0)
    (hb : ∀ i < d.bins, 0 ≤ d.binBackground.getD i 0)
    (hpos : ∀ i < d.bins, 0 < ss.getD i 0 ∨ probAtMost (d.binBackground.getD i 0) (d.binObserved.getD i 0) ≠ 1 - cert) :
    ∃ p' x, d.upperLimit U T C p cert = .ok (d, p', x) ∧ CorrectLimit U T C d p cert x := by
  have hg := hp.good
  have ht := target_of_get hc0
  have hi := Detector.reachable_sound hr
  have hfid : d.setFiducial C c0 p = .ok { d with usingFiducial := true, fiducialCoupling := c0, fiducialSpectrum := ss } := by
    unfold setFiducial
    rw [hd]
    simp only [← hd]
    rw [(hC.config d p true c0 d.fiducialSignals d.fiducialSpectrum).2.1, hs]
    rfl
  have hbin : ∀ c i, d.binP (ss.map fun s => c / c0 * s) i =
      cdfPoisson (c / c0 * ss.getD i 0 + d.binBackground.getD i 0) (d.binObserved.getD i 0) := by
    intro c i; unfold binP; rw [getD_map_mul]
  have hmem : ∀ i < d.bins, ∀ c : ℝ, 0 ≤ c → c / c0 * ss.getD i 0 + d.binBackground.getD i 0 ∈ Set.Ici (0 : ℝ) :=
    fun i hi c hc => Set.mem_Ici.2 (by have := hs0 i hi; have := hb i hi; positivity)
  have hle : ∀ i < d.bins, ∀ c c' : ℝ, 0 ≤ c → c ≤ c' →
      d.binP (ss.map fun s => c' / c0 * s) i ≤ d.binP (ss.map fun s => c / c0 * s) i := by
    intro i hi c c' hc hcc
    rw [hbin, hbin]
    refine (cdfPoisson_strictAnti _).antitoneOn (hmem i hi c hc) (hmem i hi c' (hc.trans hcc)) ?_
    have h1 := hs0 i hi
    have : c / c0 * ss.getD i 0 ≤ c' / c0 * ss.getD i 0 := by gcongr
    linarith
  have hlt : ∀ i < d.bins, 0 < ss.getD i 0 → ∀ c c' : ℝ, 0 ≤ c → c < c' →
      d.binP (ss.map fun s => c' / c0 * s) i < d.binP (ss.map fun s => c / c0 * s) i := by
    intro i hi h1 c c' hc hcc
    rw [hbin, hbin]
    refine cdfPoisson_strictAnti _ (hmem i hi c hc) (hmem i hi c' (hc.trans hcc.le)) ?_
    have : c / c0 * ss.getD i 0 < c' / c0 * ss.getD i 0 := by gcongr
    linarith
  have hflat : ∀ i < d.bins, ¬ 0 < ss.getD i 0 → ∀ c, d.binP (ss.map fun s => c / c0 * s) i ≠ 1 - cert := by
    intro i hi h c
    have h1 : ss.getD i 0 = 0 := le_antisymm (not_lt.1 h) (hs0 i hi)
    rw [hbin, h1, mul_zero, zero_add, cdfPoisson_eq_probAtMost (hb i hi)]
    exact (hpos i hi).resolve_left h
  have hleast : ∀ c, IsLeast {y | ∃ i < d.bins, y = d.binP (ss.map fun s => c / c0 * s) i} (binnedF d ss c0 c) := by
    intro c
    have h1 := foldl_min_isLeast ((List.range d.bins).map (d.binP (ss.map fun s => c / c0 * s)))
      (d.binP (ss.map fun s => c / c0 * s) 0)
    refine ⟨?_, ?_⟩
    · rcases List.mem_cons.1 h1.1 with h | h
      · exact ⟨0, hn, h⟩
      · obtain ⟨i, hi, h⟩ := List.mem_map.1 h
        exact ⟨i, List.mem_range.1 hi, h.symm⟩
    · rintro y ⟨i, hi, rfl⟩
      exact h1.2 (List.mem_cons_of_mem _ (List.mem_map.2 ⟨i, List.mem_range.2 hi, rfl⟩))
  have hanti : AntitoneOn (binnedF d ss c0) (Set.Ici 0) := by
    intro a ha b hb' hab
    obtain ⟨i, hi, he⟩ := (hleast a).1
    rw [he]
    exact ((hleast b).2 ⟨i, hi, rfl⟩).trans (hle i hi a b ha hab)
  refine upperLimit_correct (F := binnedF d ss c0) hr hp hf hC hc0 h0 hfid hR (fun c hc => ?_) ?_ hanti ?_
  · unfold pValueAt
    rw [setParam_ok hg.base ht (fun _ => hc)]
    have hsig : C.signalsBinned d (withParam U p d.targets c) = .ok (ss.map fun s => c / c0 * s) := by
      rw [hC.binned d _ _ _ rfl (by positivity) (scaledBy_withParam hg hc0 hf h0 hc), hs]
      rfl
    refine (pValue_binned hi.entries hd hi.fiducial.1 hsig (by rw [List.length_map, hl])).trans ?_
    obtain ⟨x, hx, hm⟩ := minElement_isLeast (l := (List.range d.bins).map (d.binP (ss.map fun s => c / c0 * s))) (by simp; omega)
    rw [hx]
    congr 1
    refine le_antisymm ?_ ?_
    · obtain ⟨i, hi, h⟩ := (hleast c).1
      rw [h]
      exact hm.2 (List.mem_map.2 ⟨i, List.mem_range.2 hi, rfl⟩)
    · obtain ⟨i, hi, h⟩ := List.mem_map.1 hm.1
      exact (hleast c).2 ⟨i, List.mem_range.1 hi, h.symm⟩
  · have hcont : ∀ i, Continuous fun c : ℝ => d.binP (ss.map fun s => c / c0 * s) i := by
      intro i
      simp only [hbin]
      exact (continuous_cdfPoisson _).comp (by fun_prop)
    have h1 := continuous_foldl_min ((List.range d.bins).map fun i => fun c : ℝ => d.binP (ss.map fun s => c / c0 * s) i)
      (fun c => d.binP (ss.map fun s => c / c0 * s) 0) (hcont 0) (fun g hg => by
        obtain ⟨i, _, rfl⟩ := List.mem_map.1 hg
        exact hcont i)
    refine Continuous.continuousOn ?_
    convert h1 using 2
    unfold binnedF
    rw [List.map_map]
    rfl
  · intro x c hx hc hFx
    constructor
    · intro h
      obtain ⟨j, hj, he⟩ := (hleast c).1
      have h1 := hle j hj c x hc h.le
      have h2 : 1 - cert ≤ d.binP (ss.map fun s => x / c0 * s) j := hFx ▸ (hleast x).2 ⟨j, hj, rfl⟩
      rw [he]
      refine lt_of_le_of_ne (h2.trans h1) fun heq => ?_
      by_cases hsj : 0 < ss.getD j 0
      · have := hlt j hj hsj c x hc h
        linarith
      · exact hflat j hj hsj c heq.symm
    · intro h
      obtain ⟨j, hj, he⟩ := (hleast x).1
      have hsj : 0 < ss.getD j 0 := by
        by_contra hcon
        exact hflat j hj hcon x (he ▸ hFx)
      have := hlt j hj hsj x c hx h
      calc binnedF d ss c0 c ≤ _ := (hleast c).2 ⟨j, hj, rfl⟩
        _ < _ := this
        _ = 1 - cert := by rw [← he, hFx]

/-- C30, violated without signal if the background alone has a p-value of exactly `1 - CL`: then every coupling has this p-value,
but `Upper_Limit` returns a positive "limit" and not `-1`. -/
theorem C30_fails_flat {d : Detector} {p : DMParticle} {cert c0 : ℝ} (hr : ReachableDetector d) (hp : Regular U p)
    (hf : p.fixedRelation = true ∨ d.targets = "Electrons") (hC : LinearClass U C d.targets)
    (hc0 : p.getInteractionParameter U d.targets = .ok c0) (h0 : 0 < c0) (hd : d.analysis = .poisson)
    (hs : C.signalsTotal d p = .ok 0) (hb : 0 ≤ d.background) (hpos : probAtMost d.background d.observed = 1 - cert) :
    (∀ c, 0 ≤ c → pValueAt U T C d p c = .ok (1 - cert)) ∧
    ∃ p' x, d.upperLimit U T C p cert = .ok (d, p', x) ∧ 0 < x := by
  have hg := hp.good
  have ht := target_of_get hc0
  have hi := Detector.reachable_sound hr
  have hfid : d.setFiducial C c0 p = .ok { d with usingFiducial := true, fiducialCoupling := c0, fiducialSignals := 0 } := by
    unfold setFiducial
    rw [hd]
    simp only [← hd]
    rw [(hC.config d p true c0 d.fiducialSignals d.fiducialSpectrum).1, hs]
    rfl
  have hP : ∀ c, 0 ≤ c → pValueAt U T C d p c = .ok (1 - cert) := by
    intro c hc
    unfold pValueAt
    rw [setParam_ok hg.base ht (fun _ => hc), ← hpos, ← cdfPoisson_eq_probAtMost hb]
    have h1 : C.signalsTotal d (withParam U p d.targets c) = .ok (c / c0 * 0) := by
      rw [hC.total d _ _ _ rfl (by positivity) (scaledBy_withParam hg hc0 hf h0 hc), hs]
      rfl
    refine (pValue_poisson hd hi.fiducial.1 h1).trans ?_
    rw [mul_zero, zero_add]
  refine ⟨hP, ?_⟩
  obtain ⟨p', hv⟩ := upperLimit_value (T := T) (cert := cert) (F := fun _ => 1 - cert) hi hg.base hc0 hfid (fun c hc => by
    have h1 := C32_rescaling_exact_partial (T := T) hr hp hf hC hc0 h0 hfid hc.le
    rw [hP c hc.le] at h1
    unfold pValueAt at h1
    rw [show ({ d with usingFiducial := true, fiducialCoupling := c0, fiducialSignals := 0 } : Detector).targets = d.targets from rfl,
      setParam_ok hg.base ht (fun _ => hc.le)] at h1
    exact h1)
  refine ⟨p', _, hv, ?_⟩
  rw [if_neg (by simp)]
  exact ten_pow_pos _

/-- C30, violated for a particle whose coupling is zero: the search divides by zero, although at every positive coupling the
signal may be positive. -/
theorem C30_fails_zero_coupling {d : Detector} {p : DMParticle} {cert s : ℝ} (hp : Regular U p) (hd : d.analysis = .poisson)
    (hc0 : p.getInteractionParameter U d.targets = .ok 0) (hC : LinearClass U C d.targets) (hs : C.signalsTotal d p = .ok s) :
    d.upperLimit U T C p cert = .nonfinite := by
  have hg := hp.good
  have ht := target_of_get hc0
  have hfid : d.setFiducial C 0 p = .ok { d with usingFiducial := true, fiducialCoupling := 0, fiducialSignals := s } := by
    unfold setFiducial
    rw [hd]
    simp only [← hd]
    rw [(hC.config d p true 0 d.fiducialSignals d.fiducialSpectrum).1, hs]
    rfl
  have h1 := C32_fails_zero_coupling (T := T) hp hd hc0 hfid (ten_pow_pos (-30)).le
  unfold upperLimit
  rw [hc0]
  simp only [Outcome.bind_ok]
  rw [hfid]
  simp only [Outcome.bind_ok]
  unfold limitFunction
  unfold pValueAt at h1
  rw [setParam_ok hg.base ht (fun _ => (ten_pow_pos (-30)).le)] at h1 ⊢
  simp only [Outcome.bind_ok] at h1 ⊢
  rw [h1]
  rfl

/-- Exact root finders exist (intermediate value theorem). -/
theorem exists_exact_rootFinder : ∃ R : RootFinder, R.Exact := by
  classical
  refine ⟨fun f a b => if h : ∃ x ∈ Set.Icc a b, f x = 0 then h.choose else 0, fun f a b hab hs hc => ?_⟩
  have h : ∃ x ∈ Set.Icc a b, f x = 0 := by
    rcases le_total (f a) 0 with h1 | h1
    · rcases le_total 0 (f b) with h2 | h2
      · obtain ⟨x, hx, h3⟩ := intermediate_value_Icc hab hc ⟨h1, h2⟩
        exact ⟨x, hx, h3⟩
      · rcases mul_eq_zero.1 (le_antisymm hs (mul_nonneg_of_nonpos_of_nonpos h1 h2)) with h3 | h3
        · exact ⟨a, Set.left_mem_Icc.2 hab, h3⟩
        · exact ⟨b, Set.right_mem_Icc.2 hab, h3⟩
    · rcases le_total (f b) 0 with h2 | h2
      · obtain ⟨x, hx, h3⟩ := intermediate_value_Icc' hab hc ⟨h2, h1⟩
        exact ⟨x, hx, h3⟩
      · rcases mul_eq_zero.1 (le_antisymm hs (mul_nonneg h1 h2)) with h3 | h3
        · exact ⟨a, Set.left_mem_Icc.2 hab, h3⟩
        · exact ⟨b, Set.right_mem_Icc.2 hab, h3⟩
  simp only [dif_pos h]
  exact h.choose_spec

/-- A freshly built SI particle is regular, with a fixed coupling ratio and the cross section it was built with. -/
theorem regular_example {m s : ℝ} (hm : 0 < m) (hs : 0 < s) :
    ∃ p, makeSI U m s = .ok p ∧ Regular U p ∧ p.fixedRelation = true ∧ p.getInteractionParameter U "Nuclei" = .ok s := by
  obtain ⟨f, hf0, hf, h, hfs⟩ := makeSI_eq (U := U) hm hs.le
  refine ⟨_, h, .inl ⟨⟨(1, 1), _, [], .inl ⟨m, s, hm, h⟩, by simp, trivial, rfl, rfl⟩, rfl⟩, rfl, ?_⟩
  rw [← hfs]
  simp [getInteractionParameter, sigmaProton, standard]

/-- The hypotheses of `C30_poisson_partial` can be met, and the limit then exists: a detector counting scatterings on
hydrogen with two observed events and one background event expected. -/
example : ∃ (T : Tools) (C : DetectorClass) (d : Detector) (p : DMParticle) (s : ℝ), ReachableDetector d ∧ Regular U p ∧
    p.fixedRelation = true ∧ LinearClass U C d.targets ∧ T.findRoot.Exact ∧ p.getInteractionParameter U d.targets = .ok 1 ∧
    d.analysis = .poisson ∧ C.signalsTotal d p = .ok s ∧ 0 ≤ s ∧ d.background = 1 ∧ d.observed = 2 ∧
    probAtMost d.background d.observed ≠ 1 - 1 := by
  obtain ⟨R, hR⟩ := exists_exact_rootFinder
  obtain ⟨p, hp, h1, h2, h3⟩ := regular_example (U := U) (m := 1) (s := 1) one_pos one_pos
  refine ⟨⟨exactIntegrator, fun _ _ _ _ => 0, R, fun _ _ _ => []⟩, countingClass U (Isotope.default U) 1 1,
    { Detector.make "x" 1 "Nuclei" with observed := 2, background := 1 }, p, _,
    .inl ⟨_, [.setObserved 2, .setBackground 1], ⟨"x", 1, "Nuclei", rfl⟩, by simp [Detector.run, Detector.step, setObserved, setBackground, make]⟩, h1, h2,
    countingClass_linear _ _ _ _, hR, h3, rfl, rfl, ?_, rfl, rfl, ?_⟩
  · have hi : ∃ ff a b, p.interaction = .SI ff a b := by
      obtain ⟨f, _, _, h, _⟩ := makeSI_eq (U := U) (m := 1) (s := 1) one_pos one_pos.le
      rw [h] at hp
      cases hp
      exact ⟨_, _, _, rfl⟩
    obtain ⟨ff, a, b, hi⟩ := hi
    simp only [make, if_true, dSigmadq2Nucleus, hi, formFactor2]
    have := Real.pi_pos
    generalize (if p.lowMass = true then (1 : ℝ) else _) = z
    have hz : ∀ y w : ℝ, 0 ≤ 1 / 4 / Real.pi / 1 / 1 * y ^ 2 * (w * w) * z * z := by
      intro y w
      have : 1 / 4 / Real.pi / 1 / 1 * y ^ 2 * (w * w) * z * z = 1 / 4 / Real.pi * (y * w * z) ^ 2 := by ring
      rw [this]; positivity
    exact hz _ _
  · have := (C29_range (mu := 1) zero_le_one 2).1
    simpa using this.ne'

/-! ## C31 — limits and scans leave no trace -/

/-- C31 (`Upper_Limit`; partial: for particles without the defects of C02/C03/C05). -/
theorem C31_upper_limit_partial {d d' : Detector} {p p' : DMParticle} {cert x : ℝ} (hr : ReachableDetector d) (hp : Regular U p)
    (h : d.upperLimit U T C p cert = .ok (d', p', x)) : d' = d ∧ SameObservables U p p' := by
  have hg := hp.good
  obtain ⟨h1, c0, h2, rfl⟩ := upperLimit_after (Detector.reachable_sound hr) hg.base h
  exact ⟨h1, sameObservables_withParam hg h2⟩

/-- C31 (`Upper_Limit`, every reachable particle): the detector is as before, and all that happens to the particle is that its
own interaction parameter is written back. -/
theorem C31_upper_limit_trace {d d' : Detector} {p p' : DMParticle} {cert x : ℝ} (hr : ReachableDetector d) (hp : Reachable U p)
    (h : d.upperLimit U T C p cert = .ok (d', p', x)) :
    d' = d ∧ ∃ c, p.getInteractionParameter U d.targets = .ok c ∧ p.setInteractionParameter U c d.targets = .ok p' := by
  have hb := reachable_inv hp
  obtain ⟨h1, c0, h2, rfl⟩ := upperLimit_after (Detector.reachable_sound hr) hb h
  exact ⟨h1, c0, h2, setParam_ok hb (target_of_get h2) (get_nonneg hb h2)⟩

theorem curveLoop_spec {d : Detector} {p : DMParticle} {cert lowest : ℝ} (hi : d.Sound) (hb : BaseInv p) :
    ∀ (ms : List ℝ) {q q' : DMParticle} {d' : Detector} {rows : List (ℝ × ℝ)}, (∀ m ∈ ms, 0 < m) → MassTwin U p q →
      curveLoop U T C cert lowest ms d q = .ok (d', q', rows) →
      d' = d ∧ MassTwin U p q' ∧ ∃ lim : ℝ → ℝ, (∀ m ∈ ms, lowest ≤ m → upperLimitAt U T C d p cert m = .ok (lim m)) ∧
        rows = ms.filterMap fun m => if lowest ≤ m ∧ 0 < lim m then some (m, lim m) else none := by
  classical
  intro ms
  induction ms with
  | nil =>
    intro q q' d' rows _ hq h
    cases h
    exact ⟨rfl, hq, fun _ => 0, by simp, by simp⟩
  | cons m ms ih =>
    intro q q' d' rows hm hq h
    unfold curveLoop at h
    have hm0 : 0 < m := hm m (by simp)
    have hms : ∀ m' ∈ ms, 0 < m' := fun m' h' => hm m' (by simp [h'])
    split_ifs at h with hlow
    · obtain ⟨g1, g2, lim, g3, g4⟩ := ih hms hq h
      refine ⟨g1, g2, lim, fun m' h' hl => ?_, ?_⟩
      · rcases List.mem_cons.1 h' with rfl | h'
        · exact absurd hl (not_le.2 hlow)
        · exact g3 m' h' hl
      · rw [g4, List.filterMap_cons]
        simp [not_le.2 hlow]
    · rw [setMass_ok hq.base hm0, hq.same m hm0] at h
      simp only [Outcome.bind_ok] at h
      obtain ⟨⟨d1, q1, x⟩, h1, h⟩ := Outcome.bind_eq_ok.1 h
      obtain ⟨⟨d2, q2, rest⟩, h2, h⟩ := Outcome.bind_eq_ok.1 h
      cases h
      obtain ⟨rfl, c0, hc0, rfl⟩ := upperLimit_after hi (withMass_base hb hm0) h1
      have hT' := MassTwin.writeBack hb hm0 hc0
      obtain ⟨g1, g2, lim, g3, g4⟩ := ih hms hT' h2
      have hx : upperLimitAt U T C d1 p cert m = .ok x := by
        unfold upperLimitAt
        rw [setMass_ok hb hm0]
        simp only [Outcome.bind_ok]
        rw [h1]
        rfl
      have hcons : ∀ m' ∈ ms, lowest ≤ m' → (if m' = m then x else lim m') = lim m' := by
        intro m' h' hl
        split_ifs with he
        · subst he
          have := g3 m' h' hl
          rw [hx] at this
          exact Outcome.ok.inj this
        · rfl
      refine ⟨g1, g2, fun m' => if m' = m then x else lim m', fun m' h' hl => ?_, ?_⟩
      · rcases List.mem_cons.1 h' with rfl | h'
        · simp [hx]
        · show _ = Outcome.ok (if m' = m then x else lim m')
          rw [hcons m' h' hl]; exact g3 m' h' hl
      · have hrest : (ms.filterMap fun m' => if lowest ≤ m' ∧ 0 < (if m' = m then x else lim m') then
            some (m', if m' = m then x else lim m') else none) = rest := by
          rw [g4]
          refine List.filterMap_congr fun m' h' => ?_
          by_cases hl : lowest ≤ m'
          · rw [hcons m' h' hl]
          · simp [hl]
        rw [List.filterMap_cons, hrest]
        simp only [if_true, not_lt.1 hlow, true_and]
        split_ifs <;> simp_all

theorem curve_trace {d d' : Detector} {p p' : DMParticle} {masses : List ℝ} {cert : ℝ} {rows : List (ℝ × ℝ)}
    (hr : ReachableDetector d) (hb : BaseInv p) (hm : ∀ m ∈ masses, 0 < m)
    (h : d.upperLimitCurve U T C p masses cert = .ok (d', p', rows)) : d' = d ∧ p.setMass U p.mass = .ok p' := by
  unfold upperLimitCurve at h
  obtain ⟨low, _, h⟩ := Outcome.bind_eq_ok.1 h
  obtain ⟨⟨d1, q, lims⟩, h1, h⟩ := Outcome.bind_eq_ok.1 h
  obtain ⟨q2, h2, h⟩ := Outcome.bind_eq_ok.1 h
  cases h
  obtain ⟨g1, g2, _⟩ := curveLoop_spec (Detector.reachable_sound hr) hb masses hm (.refl hb) h1
  rw [setMass_ok g2.base hb.mass, g2.same _ hb.mass] at h2
  cases h2
  exact ⟨g1, setMass_ok hb hb.mass⟩

/-- C31 (`Upper_Limit_Curve`, every reachable particle): the detector is as before, and the particle is as after `Set_Mass` with
its own mass, whatever masses were visited. -/
theorem C31_curve_trace {d d' : Detector} {p p' : DMParticle} {masses : List ℝ} {cert : ℝ} {rows : List (ℝ × ℝ)}
    (hr : ReachableDetector d) (hp : Reachable U p) (hm : ∀ m ∈ masses, 0 < m)
    (h : d.upperLimitCurve U T C p masses cert = .ok (d', p', rows)) : d' = d ∧ p.setMass U p.mass = .ok p' :=
  curve_trace hr (reachable_inv hp) hm h

/-- C31 (`Upper_Limit_Curve`; partial as above; the masses are positive). -/
theorem C31_curve_partial {d d' : Detector} {p p' : DMParticle} {masses : List ℝ} {cert : ℝ} {rows : List (ℝ × ℝ)}
    (hr : ReachableDetector d) (hp : Regular U p) (hm : ∀ m ∈ masses, 0 < m)
    (h : d.upperLimitCurve U T C p masses cert = .ok (d', p', rows)) : d' = d ∧ SameObservables U p p' := by
  have hg := hp.good
  obtain ⟨g1, g2⟩ := curve_trace hr hg.base hm h
  rw [setMass_ok hg.base hg.base.mass] at g2
  cases g2
  exact ⟨g1, sameObservables_withMass hg⟩

/-! ## C33 — the limit curve -/

/-- C33. For every reachable particle, `Upper_Limit_Curve` returns, in the order of the mass list, exactly the masses not below
the detector's minimal mass whose limit is positive, each with the limit that `Upper_Limit` gives for the particle at that
mass. -/
theorem C33_curve {d d' : Detector} {p p' : DMParticle} {masses : List ℝ} {cert : ℝ} {rows : List (ℝ × ℝ)}
    (hr : ReachableDetector d) (hp : Reachable U p) (hm : ∀ m ∈ masses, 0 < m)
    (h : d.upperLimitCurve U T C p masses cert = .ok (d', p', rows)) :
    ∃ (lowest : ℝ) (lim : ℝ → ℝ), C.minimumDMMass d p = .ok lowest ∧
      (∀ m ∈ masses, lowest ≤ m → upperLimitAt U T C d p cert m = .ok (lim m)) ∧
      rows = masses.filterMap fun m => if lowest ≤ m ∧ 0 < lim m then some (m, lim m) else none := by
  have hb := reachable_inv hp
  unfold upperLimitCurve at h
  obtain ⟨low, hlow, h⟩ := Outcome.bind_eq_ok.1 h
  obtain ⟨⟨d1, q, lims⟩, h1, h⟩ := Outcome.bind_eq_ok.1 h
  obtain ⟨q2, h2, h⟩ := Outcome.bind_eq_ok.1 h
  cases h
  obtain ⟨g1, g2, lim, g3, g4⟩ := curveLoop_spec (Detector.reachable_sound hr) hb masses hm (.refl hb) h1
  exact ⟨low, lim, hlow, g3, g4⟩

theorem curveLoop_total {d : Detector} {p : DMParticle} {cert lowest : ℝ} (hi : d.Sound) (hb : BaseInv p) :
    ∀ (ms : List ℝ) {q : DMParticle}, (∀ m ∈ ms, 0 < m) → MassTwin U p q →
      (∀ m ∈ ms, lowest ≤ m → ∃ x, upperLimitAt U T C d p cert m = .ok x) →
      ∃ q' rows, curveLoop U T C cert lowest ms d q = .ok (d, q', rows) ∧ MassTwin U p q' := by
  intro ms
  induction ms with
  | nil => exact fun _ hq _ => ⟨_, _, rfl, hq⟩
  | cons m ms ih =>
    intro q hm hq hx
    have hm0 : 0 < m := hm m (by simp)
    have hms : ∀ m' ∈ ms, 0 < m' := fun m' h' => hm m' (by simp [h'])
    have hxs : ∀ m' ∈ ms, lowest ≤ m' → ∃ x, upperLimitAt U T C d p cert m' = .ok x := fun m' h' => hx m' (by simp [h'])
    unfold curveLoop
    split_ifs with hlow
    · exact ih hms hq hxs
    · obtain ⟨x, hx⟩ := hx m (by simp) (not_lt.1 hlow)
      unfold upperLimitAt at hx
      rw [setMass_ok hb hm0, Outcome.bind_ok] at hx
      obtain ⟨⟨d1, q1, y⟩, h1, hx⟩ := Outcome.bind_eq_ok.1 hx
      cases hx
      obtain ⟨rfl, c0, hc0, rfl⟩ := upperLimit_after hi (withMass_base hb hm0) h1
      obtain ⟨q', rows, h3, h4⟩ := ih hms (MassTwin.writeBack hb hm0 hc0) hxs
      rw [setMass_ok hq.base hm0, hq.same m hm0, Outcome.bind_ok, h1, Outcome.bind_ok]
      dsimp only
      rw [h3]
      exact ⟨_, _, rfl, h4⟩

/-- C33 (existence). If the minimal mass and the limits at the masses not below it are defined, so is the curve. -/
theorem C33_curve_exists {d : Detector} {p : DMParticle} {masses : List ℝ} {cert lowest : ℝ}
    (hr : ReachableDetector d) (hp : Reachable U p) (hm : ∀ m ∈ masses, 0 < m) (hlow : C.minimumDMMass d p = .ok lowest)
    (hx : ∀ m ∈ masses, lowest ≤ m → ∃ x, upperLimitAt U T C d p cert m = .ok x) :
    ∃ p' rows, d.upperLimitCurve U T C p masses cert = .ok (d, p', rows) := by
  have hb := reachable_inv hp
  obtain ⟨q', rows, h1, h2⟩ := curveLoop_total (Detector.reachable_sound hr) hb masses hm (.refl hb) hx
  unfold upperLimitCurve
  rw [hlow, Outcome.bind_ok, h1, Outcome.bind_ok]
  dsimp only
  rw [setMass_ok h2.base hb.mass]
  exact ⟨_, _, rfl⟩

/-- With defined signals the limit at every mass is defined. -/
theorem upperLimit_defined {C : DetectorClass} {d : Detector} {p : DMParticle} {c0 s : ℝ} (hi : d.Sound) (hb : BaseInv p)
    (hC : LinearClass U C d.targets) (hc0 : p.getInteractionParameter U d.targets = .ok c0) (h0 : c0 ≠ 0) (hd : d.analysis = .poisson)
    (hs : C.signalsTotal d p = .ok s) (cert : ℝ) : ∃ p' x, d.upperLimit U T C p cert = .ok (d, p', x) := by
  have hfid : d.setFiducial C c0 p = .ok { d with usingFiducial := true, fiducialCoupling := c0, fiducialSignals := s } := by
    unfold Detector.setFiducial
    rw [hd]
    simp only [← hd]
    rw [(hC.config d p true c0 d.fiducialSignals d.fiducialSpectrum).1, hs]
    rfl
  obtain ⟨p', h⟩ := upperLimit_value (T := T) (cert := cert)
    (F := fun c => cdfPoisson ((c / c0) ^ (if p.usingCrossSection then 1 else 2) * s + d.background) d.observed) hi hb hc0 hfid fun c hc => by
    unfold Detector.pValue Detector.rescaling
    simp only [hd]
    rw [if_pos trivial, withParam_get hb (target_of_get hc0) (fun _ => hc.le), Outcome.bind_ok, fdiv_ok h0]
    obtain ⟨x, y, z, hsh⟩ := withParam_shape (U := U) p d.targets c
    rw [hsh]
    rfl
  exact ⟨p', _, h⟩

/-- The hypotheses of `C33_curve`, `C33_curve_exists` and the C31 theorems about the curve can be met: three masses, a detector
counting scatterings on hydrogen. -/
example (T : Tools) : ∃ (C : DetectorClass) (d : Detector) (p p' : DMParticle) (rows : List (ℝ × ℝ)), ReachableDetector d ∧
    Regular U p ∧ d.upperLimitCurve U T C p [1, 3, 2] (9 / 10) = .ok (d, p', rows) := by
  obtain ⟨p, hp, h1, h2, h3⟩ := regular_example (U := U) (m := 1) (s := 1) one_pos one_pos
  have hr : ReachableDetector { Detector.make "x" 1 "Nuclei" with observed := 2, background := 1 } :=
    .inl ⟨_, [.setObserved 2, .setBackground 1], ⟨"x", 1, "Nuclei", rfl⟩,
      by simp [Detector.run, Detector.step, setObserved, setBackground, make]⟩
  have hm : ∀ m ∈ [(1 : ℝ), 3, 2], 0 < m := by simp
  obtain ⟨p', rows, h⟩ := C33_curve_exists (T := T) (C := countingClass U (Isotope.default U) 1 1) (cert := 9 / 10) (lowest := 0)
    hr h1.reachable hm rfl fun m hmm _ => by
      have hb := reachable_inv h1.reachable
      have hm0 := hm m hmm
      have hget : (withMass U p m).getInteractionParameter U "Nuclei" = .ok 1 := by
        rw [← h3]
        obtain ⟨e1, e2⟩ := withMass_sigma (U := U) hb h1.good.rel hm0
        obtain ⟨x, y, hsh⟩ := withMass_shape (U := U) p m
        have hrel : (withMass U p m).fpRel = p.fpRel := by rw [hsh]
        unfold getInteractionParameter
        rw [hrel, e1, e2]
        rfl
      obtain ⟨q, x, hx⟩ := upperLimit_defined (T := T) (Detector.reachable_sound hr) (withMass_base hb hm0)
        (countingClass_linear U (Isotope.default U) 1 1) hget one_ne_zero rfl rfl (9 / 10)
      refine ⟨x, ?_⟩
      unfold upperLimitAt
      rw [setMass_ok hb hm0, Outcome.bind_ok, hx]
      rfl
  exact ⟨_, _, _, _, _, hr, h1, h⟩

/-! ## C35 — likelihood scans -/

/-- `q` has the mass of none in particular and some interaction parameter; setting both gives what `p` would give. -/
structure ScanTwin (U : Units) (t : String) (p q : DMParticle) : Prop where
  base : BaseInv q
  same : ∀ m c, 0 < m → withParam U (withMass U q m) t c = withParam U (withMass U p m) t c

theorem ScanTwin.withMass {t : String} {p q : DMParticle} (h : ScanTwin U t p q) {m : ℝ} (hm : 0 < m) :
    ScanTwin U t p (withMass U q m) :=
  ⟨withMass_base h.base hm, fun m' c hm' => by rw [withMass_withMass h.base hm]; exact h.same m' c hm'⟩

theorem ScanTwin.withParam {t : String} {p q : DMParticle} (h : ScanTwin U t p q) (c : ℝ) :
    ScanTwin U t p (withParam U q t c) :=
  ⟨withParam_base h.base t c, fun m' c' hm' => by rw [withParam_withMass_withParam]; exact h.same m' c' hm'⟩

theorem scanCouplings_spec {d : Detector} {p : DMParticle} {m : ℝ} (ht : d.targets = "Nuclei" ∨ d.targets = "Electrons")
    (hb : BaseInv p) (hm : 0 < m) :
    ∀ (cs : List ℝ) {q q' : DMParticle} {rows : List (ℝ × ℝ × ℝ)}, (∀ c ∈ cs, 0 ≤ c) → ScanTwin U d.targets p q →
      (∀ c, withParam U q d.targets c = withParam U (withMass U p m) d.targets c) →
      d.scanCouplings U T C m cs q = .ok (q', rows) →
      ScanTwin U d.targets p q' ∧ ∃ ll : ℝ → ℝ, (∀ c ∈ cs, logLikelihoodAt U T C d p m c = .ok (ll c)) ∧
        rows = cs.map fun c => (m, c, ll c) := by
  classical
  intro cs
  induction cs with
  | nil =>
    intro q q' rows _ hq _ h
    cases h
    exact ⟨hq, fun _ => 0, by simp, by simp⟩
  | cons c cs ih =>
    intro q q' rows hc hq hqm h
    have hc0 : 0 ≤ c := hc c (by simp)
    have hcs : ∀ c' ∈ cs, 0 ≤ c' := fun c' h' => hc c' (by simp [h'])
    unfold scanCouplings at h
    rw [setParam_ok hq.base ht (fun _ => hc0)] at h
    simp only [Outcome.bind_ok] at h
    obtain ⟨l, h1, h⟩ := Outcome.bind_eq_ok.1 h
    obtain ⟨⟨q1, rest⟩, h2, h⟩ := Outcome.bind_eq_ok.1 h
    cases h
    obtain ⟨g1, ll, g2, g3⟩ := ih hcs (hq.withParam c) (fun c' => by rw [withParam_withParam]; exact hqm c') h2
    have hl : logLikelihoodAt U T C d p m c = .ok l := by
      unfold logLikelihoodAt
      rw [setMass_ok hb hm]
      simp only [Outcome.bind_ok]
      rw [setParam_ok (withMass_base hb hm) ht (fun _ => hc0), ← hqm c]
      exact h1
    have hcons : ∀ c' ∈ cs, (if c' = c then l else ll c') = ll c' := by
      intro c' h'
      split_ifs with he
      · subst he
        have := g2 c' h'
        rw [hl] at this
        exact Outcome.ok.inj this
      · rfl
    refine ⟨g1, fun c' => if c' = c then l else ll c', fun c' h' => ?_, ?_⟩
    · rcases List.mem_cons.1 h' with rfl | h'
      · simp [hl]
      · show _ = Outcome.ok (if c' = c then l else ll c')
        rw [hcons c' h']; exact g2 c' h'
    · rw [List.map_cons, g3]
      simp only [if_true]
      congr 1
      exact (List.map_congr_left fun c' h' => by rw [hcons c' h']).symm

theorem scanMasses_spec {d : Detector} {p : DMParticle} {cs : List ℝ} (ht : d.targets = "Nuclei" ∨ d.targets = "Electrons")
    (hb : BaseInv p) (hc : ∀ c ∈ cs, 0 ≤ c) :
    ∀ (ms : List ℝ) {q q' : DMParticle} {rows : List (ℝ × ℝ × ℝ)}, (∀ m ∈ ms, 0 < m) → ScanTwin U d.targets p q →
      d.scanMasses U T C cs ms q = .ok (q', rows) →
      ScanTwin U d.targets p q' ∧ ∃ ll : ℝ → ℝ → ℝ, (∀ m ∈ ms, ∀ c ∈ cs, logLikelihoodAt U T C d p m c = .ok (ll m c)) ∧
        rows = ms.flatMap fun m => cs.map fun c => (m, c, ll m c) := by
  classical
  intro ms
  induction ms with
  | nil =>
    intro q q' rows _ hq h
    cases h
    exact ⟨hq, fun _ _ => 0, by simp, by simp⟩
  | cons m ms ih =>
    intro q q' rows hm hq h
    have hm0 : 0 < m := hm m (by simp)
    have hms : ∀ m' ∈ ms, 0 < m' := fun m' h' => hm m' (by simp [h'])
    unfold scanMasses at h
    rw [setMass_ok hq.base hm0] at h
    simp only [Outcome.bind_ok] at h
    obtain ⟨⟨q1, r1⟩, h1, h⟩ := Outcome.bind_eq_ok.1 h
    obtain ⟨⟨q2, r2⟩, h2, h⟩ := Outcome.bind_eq_ok.1 h
    cases h
    obtain ⟨g1, l1, g2, rfl⟩ := scanCouplings_spec ht hb hm0 cs hc (hq.withMass hm0) (fun c => hq.same m c hm0) h1
    obtain ⟨f1, l2, f2, rfl⟩ := ih hms g1 h2
    have hcons : ∀ m' ∈ ms, ∀ c ∈ cs, (if m' = m then l1 c else l2 m' c) = l2 m' c := by
      intro m' h' c hc'
      split_ifs with he
      · subst he
        have := f2 m' h' c hc'
        rw [g2 c hc'] at this
        exact Outcome.ok.inj this
      · rfl
    refine ⟨f1, fun m' c => if m' = m then l1 c else l2 m' c, fun m' h' c hc' => ?_, ?_⟩
    · rcases List.mem_cons.1 h' with rfl | h'
      · simp [g2 c hc']
      · show _ = Outcome.ok (if m' = m then l1 c else l2 m' c)
        rw [hcons m' h' c hc']; exact f2 m' h' c hc'
    · rw [List.flatMap_cons]
      simp only [if_true]
      congr 1
      refine (List.flatMap_congr fun m' h' => List.map_congr_left fun c hc' => ?_).symm
      rw [hcons m' h' c hc']

theorem ScanTwin.refl (t : String) {p : DMParticle} (hb : BaseInv p) : ScanTwin U t p p := ⟨hb, fun _ _ _ => rfl⟩

/-- C35. For every reachable particle, `Log_Likelihood_Scan` returns one row per grid point, mass by mass and within a mass
coupling by coupling, with the log-likelihood of the particle at that mass and coupling. -/
theorem C35_scan {d : Detector} {p p' : DMParticle} {masses couplings : List ℝ} {rows : List (ℝ × ℝ × ℝ)}
    (hp : Reachable U p) (hm : ∀ m ∈ masses, 0 < m) (hc : ∀ c ∈ couplings, 0 ≤ c)
    (h : d.logLikelihoodScan U T C p masses couplings = .ok (p', rows)) :
    ∃ ll : ℝ → ℝ → ℝ, (∀ m ∈ masses, ∀ c ∈ couplings, logLikelihoodAt U T C d p m c = .ok (ll m c)) ∧
      rows = masses.flatMap fun m => couplings.map fun c => (m, c, ll m c) := by
  have hb := reachable_inv hp
  unfold logLikelihoodScan at h
  obtain ⟨c0, hc0, h⟩ := Outcome.bind_eq_ok.1 h
  obtain ⟨⟨q, r⟩, h1, h⟩ := Outcome.bind_eq_ok.1 h
  obtain ⟨q1, _, h⟩ := Outcome.bind_eq_ok.1 h
  obtain ⟨q2, _, h⟩ := Outcome.bind_eq_ok.1 h
  cases h
  exact (scanMasses_spec (target_of_get hc0) hb hc masses hm (.refl _ hb) h1).2

theorem scanCouplings_total {d : Detector} {p : DMParticle} {m : ℝ} (ht : d.targets = "Nuclei" ∨ d.targets = "Electrons")
    (hb : BaseInv p) (hm : 0 < m) :
    ∀ (cs : List ℝ) {q : DMParticle}, (∀ c ∈ cs, 0 ≤ c) → ScanTwin U d.targets p q →
      (∀ c, withParam U q d.targets c = withParam U (withMass U p m) d.targets c) →
      (∀ c ∈ cs, ∃ l, logLikelihoodAt U T C d p m c = .ok l) →
      ∃ q' rows, d.scanCouplings U T C m cs q = .ok (q', rows) ∧ ScanTwin U d.targets p q' := by
  intro cs
  induction cs with
  | nil => exact fun _ hq _ _ => ⟨_, _, rfl, hq⟩
  | cons c cs ih =>
    intro q hc hq hqm hl
    have hc0 : 0 ≤ c := hc c (by simp)
    obtain ⟨l, h1⟩ := hl c (by simp)
    unfold logLikelihoodAt at h1
    rw [setMass_ok hb hm, Outcome.bind_ok, setParam_ok (withMass_base hb hm) ht (fun _ => hc0), Outcome.bind_ok, ← hqm c] at h1
    obtain ⟨q', rows, h2, h3⟩ := ih (fun c' h' => hc c' (by simp [h'])) (hq.withParam c)
      (fun c' => by rw [withParam_withParam]; exact hqm c') (fun c' h' => hl c' (by simp [h']))
    unfold scanCouplings
    rw [setParam_ok hq.base ht (fun _ => hc0), Outcome.bind_ok, h1, Outcome.bind_ok, h2]
    exact ⟨_, _, rfl, h3⟩

theorem scanMasses_total {d : Detector} {p : DMParticle} {cs : List ℝ} (ht : d.targets = "Nuclei" ∨ d.targets = "Electrons")
    (hb : BaseInv p) (hc : ∀ c ∈ cs, 0 ≤ c) :
    ∀ (ms : List ℝ) {q : DMParticle}, (∀ m ∈ ms, 0 < m) → ScanTwin U d.targets p q →
      (∀ m ∈ ms, ∀ c ∈ cs, ∃ l, logLikelihoodAt U T C d p m c = .ok l) →
      ∃ q' rows, d.scanMasses U T C cs ms q = .ok (q', rows) ∧ ScanTwin U d.targets p q' := by
  intro ms
  induction ms with
  | nil => exact fun _ hq _ => ⟨_, _, rfl, hq⟩
  | cons m ms ih =>
    intro q hm hq hl
    have hm0 : 0 < m := hm m (by simp)
    obtain ⟨q1, r1, h1, g1⟩ := scanCouplings_total ht hb hm0 cs hc (hq.withMass hm0) (fun c => hq.same m c hm0) (hl m (by simp))
    obtain ⟨q2, r2, h2, g2⟩ := ih (fun m' h' => hm m' (by simp [h'])) g1 (fun m' h' => hl m' (by simp [h']))
    unfold scanMasses
    rw [setMass_ok hq.base hm0, Outcome.bind_ok, h1, Outcome.bind_ok]
    dsimp only
    rw [h2]
    exact ⟨_, _, rfl, g2⟩

/-- C35 (existence). If the log-likelihood is defined at every point of the grid, so is the scan. -/
theorem C35_scan_exists {d : Detector} {p : DMParticle} {masses couplings : List ℝ} (hp : Reachable U p)
    (ht : d.targets = "Nuclei" ∨ d.targets = "Electrons") (hm : ∀ m ∈ masses, 0 < m) (hc : ∀ c ∈ couplings, 0 ≤ c)
    (hl : ∀ m ∈ masses, ∀ c ∈ couplings, ∃ l, logLikelihoodAt U T C d p m c = .ok l) :
    ∃ p' rows, d.logLikelihoodScan U T C p masses couplings = .ok (p', rows) := by
  have hb := reachable_inv hp
  obtain ⟨c0, hc0⟩ : ∃ c0, p.getInteractionParameter U d.targets = .ok c0 := by
    unfold getInteractionParameter
    rcases ht with h | h <;> rw [h]
    · rw [if_pos rfl]; split_ifs <;> exact ⟨_, rfl⟩
    · exact ⟨p.sigmaElectron, by simp⟩
  obtain ⟨q, rows, h1, h2⟩ := scanMasses_total ht hb hc masses hm (.refl _ hb) hl
  unfold logLikelihoodScan
  rw [hc0, Outcome.bind_ok, h1, Outcome.bind_ok]
  dsimp only
  rw [setMass_ok h2.base hb.mass, Outcome.bind_ok, setParam_ok (withMass_base h2.base hb.mass) ht (get_nonneg hb hc0)]
  exact ⟨_, _, rfl⟩

/-- The hypotheses of `C35_scan`, `C35_scan_exists` and the C31 theorems about the scan can be met: a grid of two masses and three
couplings, a detector counting scatterings on hydrogen with one background event. -/
example (T : Tools) : ∃ (C : DetectorClass) (d : Detector) (p p' : DMParticle) (rows : List (ℝ × ℝ × ℝ)), Regular U p ∧
    d.logLikelihoodScan U T C p [3, 2] [0, 1, 2] = .ok (p', rows) := by
  obtain ⟨p, hp, h1, h2, h3⟩ := regular_example (U := U) (m := 1) (s := 1) one_pos one_pos
  have hm : ∀ m ∈ [(3 : ℝ), 2], 0 < m := by simp
  have hc : ∀ c ∈ [(0 : ℝ), 1, 2], 0 ≤ c := by simp
  have hi : ∃ ff a b, p.interaction = .SI ff a b := by
    obtain ⟨f, _, _, h, _⟩ := makeSI_eq (U := U) (m := 1) (s := 1) one_pos one_pos.le
    rw [h] at hp
    cases hp
    exact ⟨_, _, _, rfl⟩
  obtain ⟨ff, a, b, hi⟩ := hi
  obtain ⟨d, e1, e2, e3, e4⟩ : ∃ d : Detector, d.targets = "Nuclei" ∧ d.analysis = .poisson ∧ d.observed = 2 ∧ d.background = 1 :=
    ⟨{ Detector.make "x" 1 "Nuclei" with observed := 2, background := 1 }, rfl, rfl, rfl, rfl⟩
  obtain ⟨p', rows, h⟩ := C35_scan_exists (T := T) (C := countingClass U (Isotope.default U) 1 1)
    (d := d) h1.reachable (.inl e1) hm hc
    fun m hmm c hcc => by
      have hb := reachable_inv h1.reachable
      have hm0 := hm m hmm
      unfold logLikelihoodAt
      rw [setMass_ok hb hm0, Outcome.bind_ok, setParam_ok (withMass_base hb hm0) (.inl e1) (fun _ => hc c hcc), Outcome.bind_ok, e1]
      generalize hq : withParam U (withMass U p m) _ c = q
      have hi' : q.interaction = .SI ff a b := by
        rw [← hq]
        obtain ⟨x, y, z, hsh⟩ := withParam_shape (U := U) (withMass U p m) "Nuclei" c
        obtain ⟨x', y', hsh'⟩ := withMass_shape (U := U) p m
        show (withParam U (withMass U p m) "Nuclei" c).interaction = _
        rw [hsh, hsh']
        exact hi
      have h0 : 0 ≤ q.dSigmadq2Nucleus U 1 (Isotope.default U) 1 := by
        simp only [dSigmadq2Nucleus, hi', formFactor2]
        have := Real.pi_pos
        generalize (if q.lowMass = true then (1 : ℝ) else _) = z
        have hz : ∀ y w : ℝ, 0 ≤ 1 / 4 / Real.pi / 1 / 1 * y ^ 2 * (w * w) * z * z := by
          intro y w
          have : 1 / 4 / Real.pi / 1 / 1 * y ^ 2 * (w * w) * z * z = 1 / 4 / Real.pi * (y * w * z) ^ 2 := by ring
          rw [this]; positivity
        exact hz _ _
      refine ⟨logLikelihoodPoisson (q.dSigmadq2Nucleus U 1 (Isotope.default U) 1) 2
        (profiledBackground (q.dSigmadq2Nucleus U 1 (Isotope.default U) 1) 2 1), ?_⟩
      simp only [Detector.logLikelihood, e2, countingClass, e1, if_true, Outcome.bind_ok, e3, e4]
      unfold flogLikelihood
      rw [if_neg]
      have : profiledBackground (q.dSigmadq2Nucleus U 1 (Isotope.default U) 1) 2 1 = 1 := by
        unfold profiledBackground
        rw [if_neg]
        norm_num
      rw [this]
      linarith
  exact ⟨_, _, _, _, _, h1, h⟩

/-- C35 (number of rows). -/
theorem C35_scan_length {d : Detector} {p p' : DMParticle} {masses couplings : List ℝ} {rows : List (ℝ × ℝ × ℝ)}
    (hp : Reachable U p) (hm : ∀ m ∈ masses, 0 < m) (hc : ∀ c ∈ couplings, 0 ≤ c)
    (h : d.logLikelihoodScan U T C p masses couplings = .ok (p', rows)) : rows.length = masses.length * couplings.length := by
  obtain ⟨ll, _, rfl⟩ := C35_scan hp hm hc h
  simp

theorem scan_trace {d : Detector} {p p' : DMParticle} {masses couplings : List ℝ} {rows : List (ℝ × ℝ × ℝ)}
    (hb : BaseInv p) (hm : ∀ m ∈ masses, 0 < m) (hc : ∀ c ∈ couplings, 0 ≤ c)
    (h : d.logLikelihoodScan U T C p masses couplings = .ok (p', rows)) :
    ∃ c p1, p.getInteractionParameter U d.targets = .ok c ∧ p.setMass U p.mass = .ok p1 ∧
      p1.setInteractionParameter U c d.targets = .ok p' := by
  unfold logLikelihoodScan at h
  obtain ⟨c0, hc0, h⟩ := Outcome.bind_eq_ok.1 h
  obtain ⟨⟨q, r⟩, h1, h⟩ := Outcome.bind_eq_ok.1 h
  obtain ⟨q1, h2, h⟩ := Outcome.bind_eq_ok.1 h
  obtain ⟨q2, h3, h⟩ := Outcome.bind_eq_ok.1 h
  cases h
  have ht := target_of_get hc0
  obtain ⟨f1, _⟩ := scanMasses_spec ht hb hc masses hm (.refl _ hb) h1
  rw [setMass_ok f1.base hb.mass] at h2
  cases h2
  rw [setParam_ok (withMass_base f1.base hb.mass) ht (get_nonneg hb hc0), f1.same _ _ hb.mass] at h3
  cases h3
  exact ⟨c0, _, hc0, setMass_ok hb hb.mass, setParam_ok (withMass_base hb hb.mass) ht (get_nonneg hb hc0)⟩

/-- C31 (`Log_Likelihood_Scan`, every reachable particle): whatever grid was visited, the particle is as after `Set_Mass` with its
own mass and `Set_Interaction_Parameter` with its own interaction parameter. -/
theorem C31_scan_trace {d : Detector} {p p' : DMParticle} {masses couplings : List ℝ} {rows : List (ℝ × ℝ × ℝ)}
    (hp : Reachable U p) (hm : ∀ m ∈ masses, 0 < m) (hc : ∀ c ∈ couplings, 0 ≤ c)
    (h : d.logLikelihoodScan U T C p masses couplings = .ok (p', rows)) :
    ∃ c p1, p.getInteractionParameter U d.targets = .ok c ∧ p.setMass U p.mass = .ok p1 ∧
      p1.setInteractionParameter U c d.targets = .ok p' :=
  scan_trace (reachable_inv hp) hm hc h

/-- C31 (`Log_Likelihood_Scan`; partial as above; positive masses, couplings not negative). -/
theorem C31_scan_partial {d : Detector} {p p' : DMParticle} {masses couplings : List ℝ} {rows : List (ℝ × ℝ × ℝ)}
    (hp : Regular U p) (hm : ∀ m ∈ masses, 0 < m) (hc : ∀ c ∈ couplings, 0 ≤ c)
    (h : d.logLikelihoodScan U T C p masses couplings = .ok (p', rows)) : SameObservables U p p' := by
  have hg := hp.good
  obtain ⟨c0, p1, hc0, h2, h3⟩ := scan_trace hg.base hm hc h
  rw [setMass_ok hg.base hg.base.mass] at h2
  cases h2
  rw [setParam_ok (withMass_base hg.base hg.base.mass) (target_of_get hc0) (get_nonneg hg.base hc0)] at h3
  cases h3
  exact sameObservables_both hg hc0

/-- C31, violated for couplings of opposite sign that are not tied to each other: even a scan over nothing at all changes the
particle, since the mass is written back. -/
theorem C31_fails_relative_sign {m s : ℝ} (hm : 0 < m) (hs : 0 < s) {iso : Isotope} (hZ : iso.Z = 1) (hA : iso.A = 3) {v : ℝ}
    (hv : v ≠ 0) :
    ∃ (d : Detector) (p p' : DMParticle), ReachableDetector d ∧ Reachable U p ∧
      d.logLikelihoodScan U T C p [] [] = .ok (p', []) ∧
      (∀ q, p.dSigmadq2Nucleus U q iso v = 0) ∧ (∀ q, 0 < p'.dSigmadq2Nucleus U q iso v) := by
  obtain ⟨p₀, p, p1, h1, h2, h3, h4, h5⟩ := C02_fails_relative_sign (U := U) hm hs hZ hA hv
  have hr : Reachable U p := ⟨p₀, _, .inl ⟨m, s, hm, h1⟩, fun op ho => by
    simp only [List.mem_cons, List.not_mem_nil, or_false] at ho
    rcases ho with rfl | rfl | rfl <;> trivial, h2⟩
  have hb := reachable_inv hr
  have hf : p.fixedRelation = false := by
    simp only [DMParticle.run, DMParticle.step] at h2
    obtain ⟨a, _, h2⟩ := Outcome.bind_eq_ok.1 h2
    obtain ⟨b, _, h2⟩ := Outcome.bind_eq_ok.1 h2
    cases h2
    rfl
  rw [setMass_ok hb hb.mass] at h3
  cases h3
  have hg1 := withMass_good' (U := U) hb hb.mass
  obtain ⟨e1, e2⟩ := withMass_sigma (U := U) (p := p) hb (fun h => absurd h (by rw [hf]; decide)) hb.mass
  obtain ⟨x, y, hsh⟩ := withMass_shape (U := U) p p.mass
  have hrel : (withMass U p p.mass).fpRel = p.fpRel := by rw [hsh]
  have hff : (withMass U p p.mass).fixedRelation = false := by rw [hsh]; exact hf
  obtain ⟨c0, hc0⟩ : ∃ c0, p.getInteractionParameter U "Nuclei" = .ok c0 := by
    unfold getInteractionParameter
    rw [if_pos rfl]
    split_ifs <;> exact ⟨_, rfl⟩
  have hget : (withMass U p p.mass).getInteractionParameter U "Nuclei" = .ok c0 := by
    rw [← hc0]
    unfold getInteractionParameter
    rw [hrel, e1, e2]
    rfl
  obtain ⟨e, _, he, hw⟩ := withParam_self hg1 hget
  have he := he hff
  subst he
  refine ⟨Detector.make "x" 1 "Nuclei", p, withMass U p p.mass, .inl ⟨_, [], ⟨_, _, _, rfl⟩, rfl⟩, hr, ?_, h4, h5⟩
  have hset := setParam_ok (U := U) hg1.base (t := "Nuclei") (.inl rfl) (get_nonneg hg1.base hget)
  rw [hw] at hset
  simp only [one_mul] at hset
  unfold logLikelihoodScan
  simp only [make, hc0, Outcome.bind_ok, scanMasses, setMass_ok hb hb.mass, hset]

end Obscura
