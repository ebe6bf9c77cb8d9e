import Verif.Props.LimitTrends

/-!
# C87 — limits follow the data, binned analyses
-/

namespace Obscura

open Spec DMParticle Detector

variable {U : Units} {T : Tools} {C : DetectorClass} {h : Distribution}

/-- The p-value of bin `i` at the interaction parameter `c`, when `ss` events are expected at `c0`. -/
noncomputable def binProb (d : Detector) (ss : List ℝ) (c0 c : ℝ) (i : ℕ) : ℝ :=
  probAtMost (c / c0 * ss.getD i 0 + d.binBackground.getD i 0) (d.binObserved.getD i 0)

/-- The smallest p-value of the bins at the interaction parameter `c` is `y`. -/
def SmallestP (d : Detector) (ss : List ℝ) (c0 c y : ℝ) : Prop := IsLeast {y | ∃ i < d.bins, y = binProb d ss c0 c i} y

/-- What `Upper_Limit` returns for a binned analysis. -/
def LimitInBins (d : Detector) (ss : List ℝ) (c0 cert x : ℝ) : Prop :=
  (x = -1 ∧ ∀ c, InRange c → ¬ SmallestP d ss c0 c (1 - cert)) ∨ (InRange x ∧ SmallestP d ss c0 x (1 - cert))

theorem fiducial_binned {d : Detector} {p : DMParticle} {c0 : ℝ} {ss : List ℝ}
    (hcfg : ∀ u c t ts, C.signalsBinned { d with usingFiducial := u, fiducialCoupling := c, fiducialSignals := t, fiducialSpectrum := ts } p
      = C.signalsBinned d p) (hd : d.analysis = .binnedPoisson) (hs : C.signalsBinned d p = .ok ss) :
    d.setFiducial C c0 p = .ok { d with usingFiducial := true, fiducialCoupling := c0, fiducialSpectrum := ss } := by
  unfold Detector.setFiducial
  rw [hd]
  simp only [← hd]
  rw [hcfg true c0 d.fiducialSignals d.fiducialSpectrum, hs]
  rfl

theorem binnedF_least {d : Detector} {ss : List ℝ} {c0 : ℝ} (hn : 0 < d.bins) (c : ℝ) :
    IsLeast {y | ∃ i < d.bins, y = d.binP (ss.map fun s => c / c0 * s) i} (binnedF d ss c0 c) := by
  have h1 := foldl_min_isLeast ((List.range d.bins).map (d.binP (ss.map fun s => c / c0 * s)))
    (d.binP (ss.map fun s => c / c0 * s) 0)
  refine ⟨?_, ?_⟩
  · rcases List.mem_cons.1 h1.1 with h | h
    · exact ⟨0, hn, h⟩
    · obtain ⟨i, hi, h⟩ := List.mem_map.1 h
      exact ⟨i, List.mem_range.1 hi, h.symm⟩
  · rintro y ⟨i, hi, rfl⟩
    exact h1.2 (List.mem_cons_of_mem _ (List.mem_map.2 ⟨i, List.mem_range.2 hi, rfl⟩))

theorem binProb_eq {d : Detector} {ss : List ℝ} {c0 c : ℝ} {i : ℕ} (h0 : 0 < c0) (hc : 0 ≤ c) (hs : 0 < ss.getD i 0)
    (hb : 0 ≤ d.binBackground.getD i 0) : d.binP (ss.map fun s => c / c0 * s) i = binProb d ss c0 c i := by
  unfold binP binProb
  rw [getD_map_mul, cdfPoisson_eq_probAtMost (by positivity)]

theorem binProb_lt {d : Detector} {ss : List ℝ} {c0 c c' : ℝ} {i : ℕ} (h0 : 0 < c0) (hc : 0 ≤ c) (hcc : c < c') (hs : 0 < ss.getD i 0)
    (hb : 0 ≤ d.binBackground.getD i 0) : binProb d ss c0 c' i < binProb d ss c0 c i := by
  unfold binProb
  refine probAtMost_lt (by positivity) ?_ _
  have : c / c0 * ss.getD i 0 < c' / c0 * ss.getD i 0 := by gcongr
  linarith

/-- The result of `Upper_Limit` for a binned analysis. -/
theorem limit_binned {d : Detector} {p : DMParticle} {c0 : ℝ} {ss : List ℝ} (hR : T.findRoot.Exact) (hi : d.Sound) (hb : BaseInv p)
    (hcfg : ∀ u c t ts, C.signalsBinned { d with usingFiducial := u, fiducialCoupling := c, fiducialSignals := t, fiducialSpectrum := ts } p
      = C.signalsBinned d p)
    (hc0 : p.getInteractionParameter U d.targets = .ok c0) (h0 : 0 < c0) (hd : d.analysis = .binnedPoisson) (hn : 0 < d.bins)
    (hs : C.signalsBinned d p = .ok ss) (hl : ss.length = d.bins) (hs0 : ∀ i < d.bins, 0 < ss.getD i 0)
    (hbk : ∀ i < d.bins, 0 ≤ d.binBackground.getD i 0) (cert : ℝ) :
    ∃ p' x, d.upperLimit U T C p cert = .ok (d, p', x) ∧ LimitInBins d ss c0 cert x := by
  have hfid := fiducial_binned (c0 := c0) hcfg hd hs
  have hleast := fun c => binnedF_least (ss := ss) (c0 := c0) hn c
  obtain ⟨p', hv⟩ := upperLimit_value (T := T) (cert := cert) (F := binnedF d ss c0) hi hb hc0 hfid fun c hc => by
    have hx : (withParam U p d.targets c).usingCrossSection = true := (withParam_base hb _ c).xs
    have hcol := collect_binP (es := ss.map fun s => c / c0 * s) hi.entries hd (by rw [List.length_map, hl])
    unfold Detector.pValue
    simp only [hd, if_true, Detector.rescaling, withParam_get hb (target_of_get hc0) (fun _ => hc.le), Outcome.bind_ok, fdiv_ok h0.ne', hx,
      pow_one]
    rw [collect_map, Outcome.bind_ok, hcol, Outcome.bind_ok]
    obtain ⟨x, hx, hm⟩ := minElement_isLeast (l := (List.range d.bins).map (d.binP (ss.map fun s => c / c0 * s))) (by simp; omega)
    rw [hx]
    congr 1
    refine le_antisymm ?_ ?_
    · obtain ⟨i, hi, h⟩ := (hleast c).1
      rw [h]
      exact hm.2 (List.mem_map.2 ⟨i, List.mem_range.2 hi, rfl⟩)
    · obtain ⟨i, hi, h⟩ := List.mem_map.1 hm.1
      exact (hleast c).2 ⟨i, List.mem_range.1 hi, h.symm⟩
  have hleast' : ∀ c, 0 ≤ c → SmallestP d ss c0 c (binnedF d ss c0 c) := by
    intro c hc
    have h1 := hleast c
    have : {y | ∃ i < d.bins, y = d.binP (ss.map fun s => c / c0 * s) i} = {y | ∃ i < d.bins, y = binProb d ss c0 c i} := by
      ext y
      constructor <;> rintro ⟨i, hi, rfl⟩
      · exact ⟨i, hi, binProb_eq h0 hc (hs0 i hi) (hbk i hi)⟩
      · exact ⟨i, hi, (binProb_eq h0 hc (hs0 i hi) (hbk i hi)).symm⟩
    rw [this] at h1
    exact h1
  have hlt : ∀ x y : ℝ, 0 ≤ x → x < y → binnedF d ss c0 y < binnedF d ss c0 x := by
    intro x y hx hxy
    obtain ⟨i, hi, he⟩ := (hleast' x hx).1
    rw [he]
    exact ((hleast' y (hx.trans hxy.le)).2 ⟨i, hi, rfl⟩).trans_lt (binProb_lt h0 hx hxy (hs0 i hi) (hbk i hi))
  have hcont : ContinuousOn (binnedF d ss c0) (Set.Ici 0) := by
    have hc1 : ∀ i, Continuous fun c : ℝ => d.binP (ss.map fun s => c / c0 * s) i := by
      intro i
      unfold binP
      simp only [getD_map_mul]
      exact (continuous_cdfPoisson _).comp (by fun_prop)
    have h1 := continuous_foldl_min ((List.range d.bins).map fun i => fun c : ℝ => d.binP (ss.map fun s => c / c0 * s) i)
      (fun c => d.binP (ss.map fun s => c / c0 * s) 0) (hc1 0) (fun g hg => by
        obtain ⟨i, _, rfl⟩ := List.mem_map.1 hg
        exact hc1 i)
    refine Continuous.continuousOn ?_
    convert h1 using 2
    unfold binnedF
    rw [List.map_map]
    rfl
  refine ⟨p', _, hv, ?_⟩
  rcases limit_separates (F := binnedF d ss c0) (L := 1 - cert) hR hcont
    (fun x hx y hy hxy => by
      rcases hxy.eq_or_lt with e | e
      · rw [e]
      · exact (hlt x y hx e).le)
    (fun x c hx hc he => ⟨fun hcx => he ▸ hlt c x hc hcx, fun hxc => he ▸ hlt x c hx hxc⟩) with ⟨h1, h2⟩ | ⟨h1, h2, h3, -⟩
  · refine .inl ⟨h1, fun c hc hsm => h2 c hc.1 hc.2 ?_⟩
    exact (hleast' c ((ten_pow_pos _).le.trans hc.1)).unique hsm
  · refine .inr ⟨⟨h1, h2⟩, ?_⟩
    have := hleast' _ ((ten_pow_pos _).le.trans h1)
    rw [h3] at this
    exact this

variable {D : AnyDetector} {p : DMParticle} {c0 cert cert' : ℝ} {ss : List ℝ}

/-- C87 (the number itself, binned). The limit is the interaction parameter at which the smallest of the p-values of the bins is exactly
`1 - CL`; and `-1` is returned only if there is no such parameter in the searched range. -/
theorem C87_value_binned (hS : SeesInBins U T h D p c0 ss) (hR : T.findRoot.Exact) (cert : ℝ) :
    ∃ p' x, D.base.upperLimit U T (D.toClass U T h) p cert = .ok (D.base, p', x) ∧ LimitInBins D.base ss c0 cert x :=
  limit_binned hR (reachable_sound hS.detector) (reachable_inv hS.particle) (fun u c t ts => (class_config D D.base p u c t ts).2)
    hS.parameter hS.positive hS.binned hS.bins hS.signal hS.complete hS.visible hS.background cert

theorem LimitInBins.pos {d : Detector} {x : ℝ} (hl : LimitInBins d ss c0 cert x) (hx : 0 < x) : SmallestP d ss c0 x (1 - cert) := by
  rcases hl with ⟨rfl, -⟩ | hl
  · norm_num at hx
  · exact hl.2

/-- C87 (more events, less background, higher certainty; binned). Whatever data are entered, in any number of calls: with at least as many
observed events and at most as much expected background in every bin, and at least as high a certainty, the limit is at least as weak. -/
theorem C87_data_binned (hS : SeesInBins U T h D p c0 ss) (hR : T.findRoot.Exact) {ops : List Detector.Op} (ho : ∀ op ∈ ops, EntersData op)
    {d' : Detector} (hr : D.base.run ops = .ok d')
    (hn : ∀ i < D.base.bins, D.base.binObserved.getD i 0 ≤ d'.binObserved.getD i 0)
    (hb : ∀ i < D.base.bins, d'.binBackground.getD i 0 ≤ D.base.binBackground.getD i 0)
    (hb0 : ∀ i < D.base.bins, 0 ≤ d'.binBackground.getD i 0) (hc : cert ≤ cert') {r r' : Detector × DMParticle × ℝ}
    (h1 : D.base.upperLimit U T (D.toClass U T h) p cert = .ok r) (h2 : d'.upperLimit U T (D.toClass U T h) p cert' = .ok r')
    (hx : 0 < r.2.2) (hx' : 0 < r'.2.2) : r.2.2 ≤ r'.2.2 := by
  have hs' := (C79_predictions (U := U) (T := T) (h := h) (p := p) D ho hr).2.1
  have hsound : d'.Sound := by
    have : ∀ (l : List Detector.Op) (d₁ d₂ : Detector), d₁.Sound → d₁.run l = .ok d₂ → d₂.Sound := by
      intro l
      induction l with
      | nil => intro d₁ d₂ k1 k2; cases k2; exact k1
      | cons o l ih =>
        intro d₁ d₂ k1 k2
        obtain ⟨d₃, k3, k4⟩ := Outcome.bind_eq_ok.1 k2
        exact ih d₃ d₂ (k1.step k3) k4
    exact this ops _ _ (reachable_sound hS.detector) hr
  obtain ⟨n, b, N, B, hd'⟩ := data_run ho hr
  have hbins : d'.bins = D.base.bins := by rw [hd']
  obtain ⟨p1, y, g1, k1⟩ := C87_value_binned hS hR cert
  obtain ⟨p2, y', g2, k2⟩ := limit_binned (U := U) (T := T) (C := D.toClass U T h) (d := d') (p := p) (c0 := c0) (ss := ss) hR hsound
    (reachable_inv hS.particle) (fun u c t ts => (class_config D d' p u c t ts).2) (by rw [hd']; exact hS.parameter) hS.positive
    (by rw [hd']; exact hS.binned) (hbins ▸ hS.bins) (hs'.trans hS.signal) (hbins ▸ hS.complete) (fun i hi => hS.visible i (hbins ▸ hi))
    (fun i hi => hb0 i (hbins ▸ hi)) cert'
  rw [g1] at h1; cases h1
  rw [g2] at h2; cases h2
  have e1 := k1.pos hx
  have e2 := k2.pos hx'
  by_contra hlt
  have hlt : y' < y := not_le.1 hlt
  have hpos := hS.positive
  have hx' : 0 < y' := hx'
  obtain ⟨i, hi, he⟩ := e2.1
  rw [hbins] at hi
  have hsi := hS.visible i hi
  have l0 : 1 - cert ≤ binProb D.base ss c0 y i := e1.2 ⟨i, hi, rfl⟩
  have l1 : y' / c0 * ss.getD i 0 + d'.binBackground.getD i 0 < y / c0 * ss.getD i 0 + D.base.binBackground.getD i 0 := by
    have : y' / c0 * ss.getD i 0 < y / c0 * ss.getD i 0 := by gcongr
    have := hb i hi
    linarith
  have l2 := probAtMost_lt (by have := hb0 i hi; positivity) l1 (D.base.binObserved.getD i 0)
  have l3 := probAtMost_mono (x := y' / c0 * ss.getD i 0 + d'.binBackground.getD i 0) (hn i hi)
  unfold binProb at l0 he
  linarith

/-- C87 (exposure and efficiency, binned). With `a` times the exposure and `f` times the efficiency, the same observed events and the same
background, the limit is `a f` times stronger, exactly. -/
theorem C87_exposure_binned (hS : SeesInBins U T h D p c0 ss) (hR : T.findRoot.Exact) (hI : T.integrate.Homogeneous)
    (hP : ∀ k xs (ys : List ℝ) x y, T.interpolationIntegral xs (ys.map fun z => k * z) x y = k * T.interpolationIntegral xs ys x y)
    {a f : ℝ} (haf : 0 < a * f) {r r' : Detector × DMParticle × ℝ}
    (h1 : D.base.upperLimit U T (D.toClass U T h) p cert = .ok r)
    (h2 : (rescaled D.base a f).upperLimit U T (D.toClass U T h) p cert = .ok r') (hx : 0 < r.2.2) (hx' : 0 < r'.2.2) :
    r.2.2 = a * f * r'.2.2 := by
  have hs' := (C80_proportional (U := U) (T := T) (h := h) (p := p) (a := a) (f := f) D hI hP).2.2
  rw [hS.signal, Outcome.bind_ok] at hs'
  have hpos := hS.positive
  have hsound := reachable_sound hS.detector
  have hget : ∀ i, (ss.map fun s => a * f * s).getD i 0 = a * f * ss.getD i 0 := getD_map_mul ss (a * f)
  obtain ⟨p1, y, g1, k1⟩ := C87_value_binned hS hR cert
  obtain ⟨p2, y', g2, k2⟩ := limit_binned (U := U) (T := T) (C := D.toClass U T h) (d := rescaled D.base a f) (p := p) (c0 := c0) hR
    ⟨hsound.entries, hsound.fiducial⟩
    (reachable_inv hS.particle) (fun u c t ts => (class_config D (rescaled D.base a f) p u c t ts).2) hS.parameter hS.positive
    hS.binned hS.bins hs' (by rw [List.length_map]; exact hS.complete)
    (fun i hi => by rw [hget]; exact mul_pos haf (hS.visible i hi)) hS.background cert
  rw [g1] at h1; cases h1
  rw [g2] at h2; cases h2
  have e1 := k1.pos hx
  have e2 := k2.pos hx'
  have hx : 0 < y := hx
  have hx' : 0 < y' := hx'
  have hsame : ∀ i, binProb (rescaled D.base a f) (ss.map fun s => a * f * s) c0 y' i = binProb D.base ss c0 (a * f * y') i := by
    intro i
    unfold binProb
    rw [hget]
    simp only [rescaled]
    congr 1
    ring
  have e3 : SmallestP D.base ss c0 (a * f * y') (1 - cert) := by
    unfold SmallestP at e2 ⊢
    simp only [hsame] at e2
    exact e2
  show y = a * f * y'
  rcases lt_trichotomy y (a * f * y') with l | l | l
  · obtain ⟨i, hi, he⟩ := e1.1
    have m1 := binProb_lt (d := D.base) hpos hx.le l (hS.visible i hi) (hS.background i hi)
    have m2 : 1 - cert ≤ _ := e3.2 ⟨i, hi, rfl⟩
    linarith
  · exact l
  · obtain ⟨i, hi, he⟩ := e3.1
    have m1 := binProb_lt (d := D.base) hpos (by positivity) l (hS.visible i hi) (hS.background i hi)
    have m2 : 1 - cert ≤ _ := e1.2 ⟨i, hi, rfl⟩
    linarith

/-- A hydrogen detector with two energy bins, from 1 to 3/2 and from 3/2 to 2. -/
noncomputable def binnedHydrogen (U : Units) : AnyDetector :=
  .nuclear { Detector.make "x" 1 "Nuclei" with analysis := .binnedPoisson, bins := 2, binObserved := [3, 1], binBackground := [1, 0],
                                               binEfficiencies := [1, 1], usingEnergyBins := true, energyThreshold := 1, energyMax := 2,
                                               binEnergies := [1, 3 / 2, 2], observed := 4, background := 1 }
    (hydrogenTarget U)

/-- Non-vacuity: there is a regular particle that this detector sees in both bins. -/
theorem sees_bins_point (U : Units) {T : Tools} (hT : T.integrate.Exact) :
    ∃ v p ss, (Typed (binnedHydrogen U) ∧ Regular U p ∧ p.fixedRelation = true ∧ SeesInBins U T (flatHalo v) (binnedHydrogen U) p 1 ss) ∧
      p.lowMass = true ∧ p.mass = 1 ∧ p.fractionalDensity = 1 ∧ BaseReachable (binnedHydrogen U).base ∧ 0 < p.fp ∧
      p.fpRel ≠ 0 := by
  obtain ⟨f, -, hf, hp, hfs⟩ := makeSI_eq (U := U) (m := 1) (s := 1) one_pos zero_le_one
  have hf := hf one_pos
  set p : DMParticle := { standard U 1 1 (.SI .contact (U.aEM * U.mElectron) 0) with fp := f, fn := f, lowMass := true } with hpd
  have hval : ∀ op ∈ [DMParticle.Op.setLowMassMode true], ValidOp op := fun op ho => by
    simp only [List.mem_cons, List.not_mem_nil, or_false] at ho
    rcases ho with rfl; trivial
  have hreach : Reachable U p := ⟨_, [.setLowMassMode true], .inl ⟨1, 1, one_pos, hp⟩, hval, rfl⟩
  have hreg : Regular U p := .inl ⟨⟨(1, 1), _, [.setLowMassMode true], .inl ⟨1, 1, one_pos, hp⟩, hval,
    ⟨fun h => by simp [requestedBy] at h, fun _ _ => trivial⟩, rfl, rfl⟩, rfl⟩
  have hd₀ : BaseReachable (binnedHydrogen U).base := ⟨_, [.useEnergyBins 1 2 2, .setObservedBins [3, 1], .setBackgroundBins [1, 0]],
    ⟨"x", 1, "Nuclei", rfl⟩, by
      have hl : linearSpace 1 2 3 = [1, 3 / 2, 2] := by
        simp [linearSpace, List.range_succ]; norm_num
      have ht : toUInt32 2 = 2 := by decide
      have ha : toUInt64 (accumulateInt [3, 1]) = 4 := by decide
      simp [Detector.run, Detector.step, setObservedBins, setBackgroundBins, make, useEnergyBins, initializeBinned, binnedHydrogen,
        AnyDetector.base, ht, hl, ha]⟩
  have hd : ReachableDetector (binnedHydrogen U).base := .inl hd₀
  have hM : 0 < (Isotope.default U).mass := by simp [Isotope.default, U.mProton_pos]
  set v := vMinimalNucleus 2 p.mass (Isotope.default U).mass with hv
  have hrate : ∃ r, (∀ E : ℝ, E ≤ 2 → (hydrogenTarget U).dRdE U T.integrate (binnedHydrogen U).base E p (flatHalo v) = .ok r) ∧ 0 < r := by
    have hdS : ∀ E, p.dSigmadERNucleus U E (Isotope.default U) (1 / 1000) =
        2 * (Isotope.default U).mass * (1 / 4 / Real.pi / (1 / 1000) / (1 / 1000) * f ^ 2) := by
      intro E
      unfold dSigmadERNucleus
      congr 1
      simp [dSigmadq2Nucleus, p, standard, formFactor2, Isotope.default, Isotope.neutrons, usub32]
    have hiso : ∀ E ≤ 2, dRdERIsotope U T.integrate E p (flatHalo v) (Isotope.default U) =
        .ok (1 / (Isotope.default U).mass * (1 * 1) / p.mass * ((1 / 1000 : ℝ) * (1 / 1000) *
          (2 * (Isotope.default U).mass * (1 / 4 / Real.pi / (1 / 1000) / (1 / 1000) * f ^ 2))) * 1) := by
      intro E hE
      have hle : vMinimalNucleus E p.mass (Isotope.default U).mass ≤ v := by
        rw [hv]
        unfold vMinimalNucleus
        gcongr
      unfold dRdERIsotope
      rw [if_neg (by simpa [flatHalo] using hle), if_pos ⟨rfl, rfl⟩]
      dsimp only
      rw [hdS]
      rfl
    have hpi := Real.pi_pos
    have hm : 0 < p.mass := one_pos
    generalize hr0 : 1 / (Isotope.default U).mass * (1 * 1) / p.mass * ((1 / 1000 : ℝ) * (1 / 1000) *
      (2 * (Isotope.default U).mass * (1 / 4 / Real.pi / (1 / 1000) / (1 / 1000) * f ^ 2))) * 1 = r0 at hiso
    refine ⟨r0, fun E hE => ?_, by rw [← hr0]; positivity⟩
    unfold NuclearDetector.dRdE
    rw [if_pos (by have := U.eV_pos; simp only [hydrogenTarget]; positivity)]
    unfold NuclearDetector.theoryRate dRdERNucleus
    have hab : (Isotope.default U).abundance = 1 := rfl
    simp [hydrogenTarget, sumOver, collect, vecGet, NuclearDetector.efficiency, hiso E hE, binnedHydrogen, AnyDetector.base, make, hab]
  obtain ⟨r, hr, hr0⟩ := hrate
  have hint : ∀ a b : ℝ, a ≤ b → b ≤ 2 →
      T.integrate (fun E => ((hydrogenTarget U).dRdE U T.integrate (binnedHydrogen U).base E p (flatHalo v)).valueOr0) a b = r * (b - a) := by
    intro a b hab hb
    rw [hT, intervalIntegral.integral_congr (g := fun _ => r)]
    · simp [mul_comm]
    · intro E hE
      rw [Set.uIcc_of_le hab] at hE
      simp only [hr E (hE.2.trans hb), Outcome.valueOr0]
  refine ⟨v, p, [r / 2, r / 2], ⟨⟨hd, rfl⟩, hreg, rfl, hd, rfl, two_pos, ?_, hreach, ?_, one_pos, ?_, rfl, ?_⟩, rfl, rfl, rfl, hd₀, hf, by simp [p, standard]⟩
  · intro i hi
    have hi : i < 2 := hi
    interval_cases i <;> simp [binnedHydrogen, AnyDetector.base]
  · simp [getInteractionParameter, binnedHydrogen, AnyDetector.base, make, p, standard, sigmaProton] at *
    exact hfs
  · have h1 := hint 1 (3 / 2) (by norm_num) (by norm_num)
    have h2 := hint (3 / 2) 2 (by norm_num) (by norm_num)
    simp only [binnedHydrogen, AnyDetector.toClass, AnyDetector.base, NuclearDetector.toClass, DetectorClass.base] at h1 h2 ⊢
    have key : ∀ G : ℝ → ℝ → ℝ, G 1 (3 / 2) = r * (3 / 2 - 1) → G (3 / 2) 2 = r * (2 - 3 / 2) →
        collect (fun i => do
          let lo ← vecGet [1, 3 / 2, (2 : ℝ)] i
          let hi ← vecGet [1, 3 / 2, (2 : ℝ)] (i + 1)
          let eff ← vecGet [1, (1 : ℝ)] i
          .ok (eff * ((1 : ℝ) * G lo hi))) (List.range 2) = .ok [r / 2, r / 2] := by
      intro G g1 g2
      simp [collect, List.range_succ, vecGet, g1, g2]
      norm_num
      ring
    unfold Detector.baseSignalsBinned signalsEnergyBins
    rw [if_neg (by simp), if_pos rfl, if_neg (by simp)]
    exact key (fun a b => T.integrate _ a b) h1 h2
  · intro i hi
    have hi : i < 2 := hi
    interval_cases i <;> simp [hr0]

theorem sees_bins_example (U : Units) {T : Tools} (hT : T.integrate.Exact) :
    ∃ v p ss, Typed (binnedHydrogen U) ∧ Regular U p ∧ p.fixedRelation = true ∧ SeesInBins U T (flatHalo v) (binnedHydrogen U) p 1 ss := by
  obtain ⟨v, p, ss, hS, -⟩ := sees_bins_point U hT
  exact ⟨v, p, ss, hS⟩

end Obscura
