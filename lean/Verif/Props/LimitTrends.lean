import Verif.Spec.LimitTrends
import Verif.Props.Histories
import Verif.Props.Exposure
import Verif.Props.Limits
import Verif.Lemmas.Main
import Verif.Props.MaximumGap

/-!
# C87 — limits follow the data
-/

namespace Obscura

open Spec DMParticle Detector

variable {U : Units} {T : Tools} {C : DetectorClass} {h : Distribution}

/-- The searched range of interaction parameters. -/
abbrev InRange (x : ℝ) : Prop := (10 : ℝ) ^ (-30 : ℝ) ≤ x ∧ x ≤ (10 : ℝ) ^ (10 : ℝ)

/-- What `Upper_Limit` returns for a detector that counts events, as a function of the p-value `F` of every interaction parameter. -/
def LimitOf (F : ℝ → ℝ) (cert x : ℝ) : Prop :=
  (x = -1 ∧ ∀ c, InRange c → F c ≠ 1 - cert) ∨ (InRange x ∧ F x = 1 - cert)

theorem fiducial_poisson {d : Detector} {p : DMParticle} {c0 s : ℝ}
    (hcfg : ∀ u c t ss, C.signalsTotal { d with usingFiducial := u, fiducialCoupling := c, fiducialSignals := t, fiducialSpectrum := ss } p
      = C.signalsTotal d p) (hd : d.analysis = .poisson) (hs : C.signalsTotal d p = .ok s) :
    d.setFiducial C c0 p = .ok { d with usingFiducial := true, fiducialCoupling := c0, fiducialSignals := s } := by
  unfold Detector.setFiducial
  rw [hd]
  simp only [← hd]
  rw [hcfg true c0 d.fiducialSignals d.fiducialSpectrum, hs]
  rfl

/-- The number returned by `Upper_Limit`, for any root finder. -/
theorem limit_poisson {d : Detector} {p : DMParticle} {c0 s : ℝ} (hi : d.Sound) (hb : BaseInv p)
    (hcfg : ∀ u c t ss, C.signalsTotal { d with usingFiducial := u, fiducialCoupling := c, fiducialSignals := t, fiducialSpectrum := ss } p
      = C.signalsTotal d p)
    (hc0 : p.getInteractionParameter U d.targets = .ok c0) (h0 : c0 ≠ 0) (hd : d.analysis = .poisson)
    (hs : C.signalsTotal d p = .ok s) (cert : ℝ) : ∃ p', d.upperLimit U T C p cert = .ok (d, p',
      if 0 < (cdfPoisson ((10 : ℝ) ^ (-30 : ℝ) / c0 * s + d.background) d.observed - (1 - cert)) *
          (cdfPoisson ((10 : ℝ) ^ (10 : ℝ) / c0 * s + d.background) d.observed - (1 - cert)) then -1
      else (10 : ℝ) ^ T.findRoot (fun l => cdfPoisson ((10 : ℝ) ^ l / c0 * s + d.background) d.observed - (1 - cert)) (-30) 10) := by
  have hfid := fiducial_poisson (c0 := c0) hcfg hd hs
  refine upperLimit_value (T := T) (cert := cert) (F := fun c => cdfPoisson (c / c0 * s + d.background) d.observed) hi hb hc0 hfid
    fun c hc => ?_
  have hx : (withParam U p d.targets c).usingCrossSection = true := (withParam_base hb _ c).xs
  unfold Detector.pValue Detector.rescaling
  simp only [hd]
  rw [if_pos trivial, withParam_get hb (target_of_get hc0) (fun _ => hc.le), Outcome.bind_ok, fdiv_ok h0]
  simp only [Outcome.bind_ok, hx, if_true, pow_one]

theorem limitOf_poisson {c0 s b cert : ℝ} {n : ℕ} (hR : T.findRoot.Exact) (h0 : 0 < c0) (hs : 0 < s) (hb : 0 ≤ b) :
    LimitOf (fun c => probAtMost (c / c0 * s + b) n) cert
      (if 0 < (cdfPoisson ((10 : ℝ) ^ (-30 : ℝ) / c0 * s + b) n - (1 - cert)) *
          (cdfPoisson ((10 : ℝ) ^ (10 : ℝ) / c0 * s + b) n - (1 - cert)) then -1
      else (10 : ℝ) ^ T.findRoot (fun l => cdfPoisson ((10 : ℝ) ^ l / c0 * s + b) n - (1 - cert)) (-30) 10) := by
  have hmem : ∀ c : ℝ, 0 ≤ c → c / c0 * s + b ∈ Set.Ici (0 : ℝ) := fun c hc => Set.mem_Ici.2 (by positivity)
  have hlt : ∀ x y : ℝ, 0 ≤ x → x < y → cdfPoisson (y / c0 * s + b) n < cdfPoisson (x / c0 * s + b) n := by
    intro x y hx hxy
    have : x / c0 * s < y / c0 * s := by gcongr
    exact cdfPoisson_strictAnti n (hmem x hx) (hmem y (hx.trans hxy.le)) (by linarith)
  have hsep := limit_separates (F := fun c => cdfPoisson (c / c0 * s + b) n) (L := 1 - cert) hR
    ((continuous_cdfPoisson n).comp (by fun_prop)).continuousOn
    (fun x hx y hy hxy => by
      rcases hxy.eq_or_lt with e | e
      · rw [e]
      · exact (hlt x y hx e).le)
    (fun x c hx hc he => ⟨fun hcx => he ▸ hlt c x hc hcx, fun hxc => he ▸ hlt x c hx hxc⟩)
  rcases hsep with ⟨h1, h2⟩ | ⟨h1, h2, h3, -⟩
  · refine .inl ⟨h1, fun c hc => ?_⟩
    have := h2 c hc.1 hc.2
    rwa [cdfPoisson_eq_probAtMost (hmem c ((ten_pow_pos _).le.trans hc.1))] at this
  · refine .inr ⟨⟨h1, h2⟩, ?_⟩
    have hx := hmem _ ((ten_pow_pos _).le.trans h1)
    show probAtMost _ n = _
    rw [← cdfPoisson_eq_probAtMost hx]
    exact h3

theorem probAtMost_lt {x y : ℝ} (hx : 0 ≤ x) (h : x < y) (n : ℕ) : probAtMost y n < probAtMost x n := by
  rw [← cdfPoisson_eq_probAtMost hx, ← cdfPoisson_eq_probAtMost (hx.trans h.le)]
  exact cdfPoisson_strictAnti n hx (hx.trans h.le) h

theorem probAtMost_mono {x : ℝ} {n m : ℕ} (h : n ≤ m) : probAtMost x n ≤ probAtMost x m := by
  unfold probAtMost
  exact MeasureTheory.measureReal_mono (Set.Iic_subset_Iic.2 h)

theorem class_config (D : AnyDetector) (d : Detector) (p : DMParticle) (u : Bool) (c t : ℝ) (ss : List ℝ) :
    (D.toClass U T h).signalsTotal { d with usingFiducial := u, fiducialCoupling := c, fiducialSignals := t, fiducialSpectrum := ss } p
      = (D.toClass U T h).signalsTotal d p ∧
    (D.toClass U T h).signalsBinned { d with usingFiducial := u, fiducialCoupling := c, fiducialSignals := t, fiducialSpectrum := ss } p
      = (D.toClass U T h).signalsBinned d p := by
  cases D <;> exact ⟨rfl, rfl⟩

variable {D : AnyDetector} {p : DMParticle} {c0 s cert cert' x x' : ℝ}

theorem Spec.Sees.limit (hS : Sees U T h D p c0 s) (hR : T.findRoot.Exact) {d : Detector} (hd : d.Sound)
    (ha : d.analysis = .poisson) (hb : 0 ≤ d.background) (ht : d.targets = D.base.targets) {s' : ℝ} (hs' : 0 < s')
    (hsig : (D.toClass U T h).signalsTotal d p = .ok s') (cert : ℝ) :
    ∃ p' x, d.upperLimit U T (D.toClass U T h) p cert = .ok (d, p', x) ∧
      LimitOf (fun c => probAtMost (c / c0 * s' + d.background) d.observed) cert x := by
  obtain ⟨p', h1⟩ := limit_poisson (U := U) (T := T) hd (reachable_inv hS.particle)
    (fun u c t ss => (class_config D d p u c t ss).1) (by rw [ht]; exact hS.parameter) hS.positive.ne' ha hsig cert
  exact ⟨p', _, h1, limitOf_poisson hR hS.positive hs' hb⟩

/-- C87 (the number itself). The limit is the interaction parameter at which the expected number of events, signal and background, is compatible
with the observed number at exactly the probability `1 - CL`; and `-1` is returned only if there is no such parameter in the searched range. -/
theorem C87_value (hS : Sees U T h D p c0 s) (hR : T.findRoot.Exact) (cert : ℝ) :
    ∃ p' x, D.base.upperLimit U T (D.toClass U T h) p cert = .ok (D.base, p', x) ∧
      ((x = -1 ∧ ∀ c, InRange c → probAtMost (c / c0 * s + D.base.background) D.base.observed ≠ 1 - cert) ∨
        (InRange x ∧ probAtMost (x / c0 * s + D.base.background) D.base.observed = 1 - cert)) :=
  hS.limit hR (reachable_sound hS.detector) hS.counting hS.background rfl hS.visible hS.signal cert

theorem LimitOf.pos {F : ℝ → ℝ} (hl : LimitOf F cert x) (hx : 0 < x) : InRange x ∧ F x = 1 - cert := by
  rcases hl with ⟨rfl, -⟩ | hl
  · norm_num at hx
  · exact hl

/-- C87 (more events, less background, higher certainty). Whatever data are entered, in any number of calls: with at least as many observed
events, at most as much expected background and at least as high a certainty the limit is at least as weak. -/
theorem C87_data (hS : Sees U T h D p c0 s) (hR : T.findRoot.Exact) {ops : List Detector.Op} (ho : ∀ op ∈ ops, EntersData op)
    {d' : Detector} (hr : D.base.run ops = .ok d') (hn : D.base.observed ≤ d'.observed) (hb : d'.background ≤ D.base.background)
    (hb0 : 0 ≤ d'.background) (hc : cert ≤ cert') {r r' : Detector × DMParticle × ℝ}
    (h1 : D.base.upperLimit U T (D.toClass U T h) p cert = .ok r) (h2 : d'.upperLimit U T (D.toClass U T h) p cert' = .ok r')
    (hx : 0 < r.2.2) (hx' : 0 < r'.2.2) : r.2.2 ≤ r'.2.2 := by
  have hs' := (C79_predictions (U := U) (T := T) (h := h) (p := p) D ho hr).1
  have hsound : d'.Sound := by
    have : ∀ (l : List Detector.Op) (d₁ d₂ : Detector), d₁.Sound → d₁.run l = .ok d₂ → d₂.Sound := by
      intro l
      induction l with
      | nil => intro d₁ d₂ k1 k2; cases k2; exact k1
      | cons o l ih =>
        intro d₁ d₂ k1 k2
        obtain ⟨d₃, k3, k4⟩ := Outcome.bind_eq_ok.1 k2
        exact ih d₃ d₂ (k1.step k3) k4
    exact this ops _ _ (reachable_sound hS.detector) hr
  obtain ⟨n, b, N, B, hd'⟩ := data_run ho hr
  obtain ⟨p1, y, g1, k1⟩ := hS.limit hR (reachable_sound hS.detector) hS.counting hS.background rfl hS.visible hS.signal cert
  obtain ⟨p2, y', g2, k2⟩ := hS.limit hR hsound (by rw [hd']; exact hS.counting) hb0 (by rw [hd']) hS.visible (hs'.trans hS.signal) cert'
  rw [g1] at h1; cases h1
  rw [g2] at h2; cases h2
  obtain ⟨-, e1⟩ := k1.pos hx
  obtain ⟨-, e2⟩ := k2.pos hx'
  by_contra hlt
  have hlt : y' < y := not_le.1 hlt
  have hpos := hS.positive
  have hs := hS.visible
  have hx' : 0 < y' := hx'
  have l1 : y' / c0 * s + d'.background < y / c0 * s + D.base.background := by
    have : y' / c0 * s < y / c0 * s := by gcongr
    linarith
  have l2 := probAtMost_lt (by positivity) l1 D.base.observed
  have l3 := probAtMost_mono (x := y' / c0 * s + d'.background) hn
  linarith

/-- C87 (exposure and efficiency). With `a` times the exposure and `f` times the efficiency, the same observed events and the same background,
the limit is `a f` times stronger, exactly. -/
theorem C87_exposure (hS : Sees U T h D p c0 s) (hR : T.findRoot.Exact) (hI : T.integrate.Homogeneous)
    (hP : ∀ k xs (ys : List ℝ) x y, T.interpolationIntegral xs (ys.map fun z => k * z) x y = k * T.interpolationIntegral xs ys x y)
    {a f : ℝ} (haf : 0 < a * f) {r r' : Detector × DMParticle × ℝ}
    (h1 : D.base.upperLimit U T (D.toClass U T h) p cert = .ok r)
    (h2 : (rescaled D.base a f).upperLimit U T (D.toClass U T h) p cert = .ok r') (hx : 0 < r.2.2) (hx' : 0 < r'.2.2) :
    r.2.2 = a * f * r'.2.2 := by
  have hs' := (C80_proportional (U := U) (T := T) (h := h) (p := p) (a := a) (f := f) D hI hP).2.1
  rw [hS.signal, Outcome.bind_ok] at hs'
  have hs0 := hS.visible
  have hpos := hS.positive
  have hsound := reachable_sound hS.detector
  obtain ⟨p1, y, g1, k1⟩ := hS.limit hR hsound hS.counting hS.background rfl hS.visible hS.signal cert
  obtain ⟨p2, y', g2, k2⟩ := hS.limit hR (d := rescaled D.base a f) ⟨hsound.entries, hsound.fiducial⟩ hS.counting hS.background rfl
    (by positivity : 0 < a * f * s) hs' cert
  rw [g1] at h1; cases h1
  rw [g2] at h2; cases h2
  obtain ⟨-, e1⟩ := k1.pos hx
  obtain ⟨-, e2⟩ := k2.pos hx'
  have hx : 0 < y := hx
  have hx' : 0 < y' := hx'
  have hb := hS.background
  have e3 : y / c0 * s + D.base.background = y' / c0 * (a * f * s) + D.base.background := by
    rcases lt_trichotomy (y / c0 * s + D.base.background) (y' / c0 * (a * f * s) + D.base.background) with l | l | l
    · have := probAtMost_lt (by positivity) l D.base.observed
      simp only [rescaled] at e2
      linarith
    · exact l
    · have := probAtMost_lt (by positivity) l D.base.observed
      simp only [rescaled] at e2
      linarith
  show y = a * f * y'
  have e4 : y / c0 * s = y' / c0 * (a * f * s) := by linarith
  field_simp at e4
  linarith

/-- C87 (nothing seen). If no events were observed, the excluded signal is `-log(1 - CL)` events less the expected background. -/
theorem C87_no_events (hS : Sees U T h D p c0 s) (hR : T.findRoot.Exact) (hn : D.base.observed = 0) {r : Detector × DMParticle × ℝ}
    (h1 : D.base.upperLimit U T (D.toClass U T h) p cert = .ok r) (hx : 0 < r.2.2) :
    r.2.2 / c0 * s = -Real.log (1 - cert) - D.base.background := by
  obtain ⟨p1, y, g1, k1⟩ := C87_value hS hR cert
  rw [g1] at h1; cases h1
  obtain ⟨-, e1⟩ := LimitOf.pos (F := fun c => probAtMost (c / c0 * s + D.base.background) D.base.observed) k1 hx
  have hx : 0 < y := hx
  have hb := hS.background
  have hpos := hS.positive
  have hs := hS.visible
  rw [hn, ← cdfPoisson_eq_probAtMost (by positivity)] at e1
  have : cdfPoisson (y / c0 * s + D.base.background) 0 = Real.exp (-(y / c0 * s + D.base.background)) := by simp [cdfPoisson]
  rw [← e1, this, Real.log_exp]
  simp

/-- C87 (starting point). For couplings with a fixed ratio, or electrons as targets, the limit does not depend on the cross section that the
particle happens to have when the search begins: exactly the same number is returned, by every root finder. -/
theorem C87_starting_point (hT : Typed D) (hS : Sees U T h D p c0 s) (hg : Regular U p)
    (hf : p.fixedRelation = true ∨ D.base.targets = "Electrons") (hI : T.integrate.Homogeneous)
    (hP : ∀ k xs (ys : List ℝ) x y, T.interpolationIntegral xs (ys.map fun z => k * z) x y = k * T.interpolationIntegral xs ys x y)
    {c1 : ℝ} (hc1 : 0 < c1) {q : DMParticle} (hq : p.setInteractionParameter U c1 D.base.targets = .ok q) :
    ∃ p' q' x, D.base.upperLimit U T (D.toClass U T h) p cert = .ok (D.base, p', x) ∧
      D.base.upperLimit U T (D.toClass U T h) q cert = .ok (D.base, q', x) := by
  have hb := reachable_inv hS.particle
  have ht := target_of_get hS.parameter
  have hsound := reachable_sound hS.detector
  rw [setParam_ok hb ht (fun _ => hc1.le)] at hq
  cases hq
  have hpos := hS.positive
  have hsig : (D.toClass U T h).signalsTotal D.base (withParam U p D.base.targets c1) = .ok (c1 / c0 * s) := by
    rw [(hT.linear hI hP h).total D.base _ _ _ rfl (by positivity) (scaledBy_withParam hg.good hS.parameter hf hpos hc1.le), hS.signal]
    rfl
  obtain ⟨p1, g1⟩ := limit_poisson (U := U) (T := T) hsound hb (fun u c t ss => (class_config D D.base p u c t ss).1)
    hS.parameter hpos.ne' hS.counting hS.signal cert
  obtain ⟨p2, g2⟩ := limit_poisson (U := U) (T := T) hsound (withParam_base hb D.base.targets c1)
    (fun u c t ss => (class_config D D.base _ u c t ss).1) (withParam_get hb ht (fun _ => hc1.le)) hc1.ne' hS.counting hsig cert
  have e : ∀ c : ℝ, c / c1 * (c1 / c0 * s) = c / c0 * s := fun c => by field_simp
  simp only [e] at g2
  exact ⟨p1, p2, _, g1, g2⟩

/-! ## A concrete experiment -/

/-- Tools with an exact root finder. -/
theorem exists_tools : ∃ T : Tools, T.integrate.Homogeneous ∧ T.findRoot.Exact ∧ T.interpolationIntegral = flatTools.interpolationIntegral ∧
    ∀ k xs (ys : List ℝ) x y, T.interpolationIntegral xs (ys.map fun z => k * z) x y = k * T.interpolationIntegral xs ys x y := by
  obtain ⟨R, hR⟩ := exists_exact_rootFinder
  refine ⟨{ flatTools with findRoot := R }, exactIntegrator_exact.homogeneous, hR, rfl, fun k xs ys x y => ?_⟩
  cases ys <;> simp [flatTools, mul_assoc]

/-- A halo whose speed distribution has a constant `eta` up to its end. -/
noncomputable def flatHalo (v : ℝ) : Distribution where
  density := 1
  vMin := 0
  vMax := v
  useEta := true
  pdfSpeed := fun _ => 0
  cdfSpeed := fun _ => 0
  eta := fun _ => .ok 1

/-- A target of hydrogen. -/
noncomputable def hydrogenTarget (U : Units) : NuclearDetector where
  nuclei := [{ Z := none, isotopes := [Isotope.default U], name := "H" }]
  fractions := [1]
  resolution := 0
  usingTables := false
  efficiencies := []

/-- One hydrogen target, energies from 1 to 2, three events seen, one background event expected. -/
noncomputable def hydrogenDetector (U : Units) : AnyDetector :=
  .nuclear { Detector.make "x" 1 "Nuclei" with usingEnergyThreshold := true, energyThreshold := 1, energyMax := 2, observed := 3, background := 1 }
    (hydrogenTarget U)

/-- Non-vacuity: there is a regular particle with fixed ratio, making up all of the local density, that this detector sees. -/
theorem sees_point (U : Units) {T : Tools} (hT : T.interpolationIntegral = flatTools.interpolationIntegral) :
    ∃ v p s, (Typed (hydrogenDetector U) ∧ Regular U p ∧ p.fixedRelation = true ∧ Sees U T (flatHalo v) (hydrogenDetector U) p 1 s) ∧
      p.fractionalDensity = 1 := by
  obtain ⟨f, -, hf, hp, hfs⟩ := makeSI_eq (U := U) (m := 1) (s := 1) one_pos zero_le_one
  have hf := hf one_pos
  set p : DMParticle := { standard U 1 1 (.SI .contact (U.aEM * U.mElectron) 0) with fp := f, fn := f, lowMass := true } with hpd
  have hval : ∀ op ∈ [DMParticle.Op.setLowMassMode true], ValidOp op := fun op ho => by
    simp only [List.mem_cons, List.not_mem_nil, or_false] at ho
    rcases ho with rfl; trivial
  have hreach : Reachable U p := ⟨_, [.setLowMassMode true], .inl ⟨1, 1, one_pos, hp⟩, hval, rfl⟩
  have hreg : Regular U p := .inl ⟨⟨(1, 1), _, [.setLowMassMode true], .inl ⟨1, 1, one_pos, hp⟩, hval,
    ⟨fun h => by simp [requestedBy] at h, fun _ _ => trivial⟩, rfl, rfl⟩, rfl⟩
  have hd : ReachableDetector (hydrogenDetector U).base := .inl ⟨_, [.useEnergyThreshold 1 2, .setObserved 3, .setBackground 1], ⟨"x", 1, "Nuclei", rfl⟩,
    by simp [Detector.run, Detector.step, setObserved, setBackground, make, useEnergyThreshold, initializePoisson, hydrogenDetector, AnyDetector.base]⟩
  have hM : 0 < (Isotope.default U).mass := by simp [Isotope.default, U.mProton_pos]
  set v := vMinimalNucleus 1 p.mass (Isotope.default U).mass with hv
  obtain ⟨s, hs, hs0⟩ : ∃ s, ((hydrogenDetector U).toClass U T (flatHalo v)).signalsTotal (hydrogenDetector U).base p = .ok s ∧ 0 < s := by
    have hrate : ∃ r, (hydrogenTarget U).dRdE U T.integrate (hydrogenDetector U).base 1 p (flatHalo v) = .ok r ∧ 0 < r := by
      have hiso : dRdERIsotope U T.integrate 1 p (flatHalo v) (Isotope.default U) =
          .ok (1 / (Isotope.default U).mass * (1 * 1) / p.mass * ((1 / 1000 : ℝ) * (1 / 1000) * p.dSigmadERNucleus U 1 (Isotope.default U) (1 / 1000)) * 1) := by
        unfold dRdERIsotope
        rw [if_neg (by simp [flatHalo, hv]), if_pos ⟨rfl, rfl⟩]
        rfl
      have hdS : 0 < p.dSigmadERNucleus U 1 (Isotope.default U) (1 / 1000) := by
        have := Real.pi_pos
        unfold dSigmadERNucleus
        have : p.dSigmadq2Nucleus U (√(2 * (Isotope.default U).mass * 1)) (Isotope.default U) (1 / 1000) =
            1 / 4 / Real.pi / (1 / 1000) / (1 / 1000) * f ^ 2 := by
          simp [dSigmadq2Nucleus, p, standard, formFactor2, Isotope.default, Isotope.neutrons, usub32]
        rw [this]
        positivity
      have hm : 0 < p.mass := one_pos
      generalize hr0 : 1 / (Isotope.default U).mass * (1 * 1) / p.mass *
        ((1 / 1000 : ℝ) * (1 / 1000) * p.dSigmadERNucleus U 1 (Isotope.default U) (1 / 1000)) * 1 = r0 at hiso
      refine ⟨r0, ?_, by rw [← hr0]; positivity⟩
      unfold NuclearDetector.dRdE
      rw [if_pos (by have := U.eV_pos; simp only [hydrogenTarget]; positivity)]
      unfold NuclearDetector.theoryRate dRdERNucleus
      have hab : (Isotope.default U).abundance = 1 := rfl
      simp [hydrogenTarget, sumOver, collect, vecGet, NuclearDetector.efficiency, hiso, hydrogenDetector, AnyDetector.base, make, hab]
    obtain ⟨r, hr, hr0⟩ := hrate
    refine ⟨r, ?_, hr0⟩
    simp only [hydrogenDetector, AnyDetector.toClass, AnyDetector.base, NuclearDetector.toClass, DetectorClass.base]
    unfold Detector.baseSignalsTotal
    rw [if_neg (by simp [make]), if_neg (by simp), hT]
    have hl : logSpace 1 2 200 = 1 :: (logSpace 1 2 200).tail := by
      have : ∀ l : List ℝ, l.head? = some 1 → l = 1 :: l.tail := fun l hl => by cases l <;> simp_all
      apply this
      unfold logSpace
      rw [List.range_succ_eq_map (n := 199)]
      simp
    dsimp only
    rw [hl, List.map_cons]
    simp only [flatTools, List.headD_cons]
    simp only [hydrogenDetector, AnyDetector.base] at hr
    rw [hr]
    simp only [Outcome.valueOr0, make]
    norm_num
  exact ⟨v, p, s, ⟨⟨hd, rfl⟩, hreg, rfl, hd, rfl, zero_le_one, hreach, by
    simp [getInteractionParameter, hydrogenDetector, AnyDetector.base, make, p, standard, sigmaProton] at *
    exact hfs, one_pos, hs, hs0⟩, rfl⟩

/-- Non-vacuity: there is a regular particle with fixed ratio that this detector sees. -/
theorem sees_example (U : Units) {T : Tools} (hT : T.interpolationIntegral = flatTools.interpolationIntegral) :
    ∃ v p s, Typed (hydrogenDetector U) ∧ Regular U p ∧ p.fixedRelation = true ∧ Sees U T (flatHalo v) (hydrogenDetector U) p 1 s := by
  obtain ⟨v, p, s, h, -⟩ := sees_point U hT
  exact ⟨v, p, s, h⟩

/-- The limit is the parameter whose probability was asked for. -/
theorem LimitOf.eq {c0 s b cert x c : ℝ} {n : ℕ} (h0 : 0 < c0) (hs : 0 < s) (hb : 0 ≤ b) (hr : InRange c)
    (hc : cert = 1 - probAtMost (c / c0 * s + b) n) (hl : LimitOf (fun c => probAtMost (c / c0 * s + b) n) cert x) : x = c := by
  rcases hl with ⟨-, h2⟩ | ⟨h1, h2⟩
  · exact absurd (by rw [hc]; ring) (h2 c hr)
  · have hx : 0 ≤ x := (ten_pow_pos _).le.trans h1.1
    have hc0 : 0 ≤ c := (ten_pow_pos _).le.trans hr.1
    rw [hc, sub_sub_cancel] at h2
    dsimp only at h2
    rcases lt_trichotomy x c with l | l | l
    · have : x / c0 * s < c / c0 * s := by gcongr
      have := probAtMost_lt (x := x / c0 * s + b) (y := c / c0 * s + b) (by positivity) (by linarith) n
      linarith
    · exact l
    · have : c / c0 * s < x / c0 * s := by gcongr
      have := probAtMost_lt (x := c / c0 * s + b) (y := x / c0 * s + b) (by positivity) (by linarith) n
      linarith

theorem inRange_of {x : ℝ} (h1 : 1 ≤ x) (h2 : x ≤ 10) : InRange x := by
  constructor
  · exact (Real.rpow_le_one_of_one_le_of_nonpos (by norm_num) (by norm_num)).trans h1
  · exact h2.trans (by
      have := Real.rpow_le_rpow_of_exponent_le (x := 10) (y := 1) (z := 10) (by norm_num) (by norm_num)
      rwa [Real.rpow_one] at this)

/-- Non-vacuity of the C87 theorems: in this experiment the limits are positive, with the data as they are (limit 1) and after a smaller background
was entered (limit 2, at a higher certainty). -/
example (U : Units) : ∃ (T : Tools) (v : ℝ) (p : DMParticle) (s cert cert' b : ℝ) (p₁ p₂ : DMParticle) (d' : Detector),
    T.findRoot.Exact ∧ T.integrate.Homogeneous ∧ Sees U T (flatHalo v) (hydrogenDetector U) p 1 s ∧
    (hydrogenDetector U).base.upperLimit U T ((hydrogenDetector U).toClass U T (flatHalo v)) p cert = .ok ((hydrogenDetector U).base, p₁, 1) ∧
    b < (hydrogenDetector U).base.background ∧ (hydrogenDetector U).base.run [.setBackground b] = .ok d' ∧ cert ≤ cert' ∧
    d'.upperLimit U T ((hydrogenDetector U).toClass U T (flatHalo v)) p cert' = .ok (d', p₂, 2) := by
  obtain ⟨T, hI, hR, hT, hP⟩ := exists_tools
  obtain ⟨v, p, s, -, -, -, hS⟩ := sees_example U hT
  have hs := hS.visible
  obtain ⟨p₁, x₁, g1, k1⟩ := C87_value hS hR (1 - probAtMost (1 / 1 * s + 1) 3)
  have e1 := LimitOf.eq (c := 1) (n := 3) (b := 1) one_pos hs zero_le_one (inRange_of (by norm_num) (by norm_num)) rfl k1
  subst e1
  have hb0 : 0 ≤ max 0 (1 - s) := le_max_left _ _
  have hsound := reachable_sound hS.detector
  obtain ⟨p₂, x₂, g2, k2⟩ := hS.limit hR (d := { (hydrogenDetector U).base with background := max 0 (1 - s) }) ⟨hsound.entries, hsound.fiducial⟩
    rfl hb0 rfl hs hS.signal (1 - probAtMost (2 / 1 * s + max 0 (1 - s)) 3)
  have e2 := LimitOf.eq (c := 2) (n := 3) one_pos hs hb0 (inRange_of (by norm_num) (by norm_num)) rfl k2
  subst e2
  refine ⟨T, v, p, s, _, _, max 0 (1 - s), p₁, p₂, _, hR, hI, hS, g1, ?_, rfl, ?_, g2⟩
  · show max 0 (1 - s) < (1 : ℝ)
    exact max_lt (by norm_num) (by linarith)
  · have h1 : (1 : ℝ) / 1 * s + 1 ≤ 2 / 1 * s + max 0 (1 - s) := by
      have := le_max_right 0 (1 - s)
      linarith
    rcases h1.eq_or_lt with e | e
    · rw [e]
    · have := probAtMost_lt (by positivity) e 3
      linarith

end Obscura
