import Verif.Props.LimitTrendsBinned
import Verif.Props.Windows
import Verif.Props.Fraction

/-!
# C87, C91, C77 — limits of two experiments compared
-/

namespace Obscura

open Spec DMParticle Detector

variable {U U' : Units} {T T' : Tools} {h h' : Distribution} {D D' : AnyDetector} {p p' : DMParticle} {c0 c0' s s' cert : ℝ} {ss ss' : List ℝ}

/-- C87 (two experiments). Whatever the targets, halos and particles: two counting experiments with the same observed events and the same
background exclude the same number of signal events. So their limits are related as the events they predict per unit of the interaction
parameter. -/
theorem C87_comparison (hS : Sees U T h D p c0 s) (hS' : Sees U' T' h' D' p' c0' s') (hR : T.findRoot.Exact) (hR' : T'.findRoot.Exact)
    (hn : D'.base.observed = D.base.observed) (hb : D'.base.background = D.base.background) {r r' : Detector × DMParticle × ℝ}
    (h1 : D.base.upperLimit U T (D.toClass U T h) p cert = .ok r) (h2 : D'.base.upperLimit U' T' (D'.toClass U' T' h') p' cert = .ok r')
    (hx : 0 < r.2.2) (hx' : 0 < r'.2.2) : r.2.2 * (s / c0) = r'.2.2 * (s' / c0') := by
  obtain ⟨p1, y, g1, k1⟩ := C87_value hS hR cert
  obtain ⟨p2, y', g2, k2⟩ := C87_value hS' hR' cert
  rw [g1] at h1; cases h1
  rw [g2] at h2; cases h2
  obtain ⟨-, e1⟩ := LimitOf.pos (F := fun c => probAtMost (c / c0 * s + D.base.background) D.base.observed) k1 hx
  obtain ⟨-, e2⟩ := LimitOf.pos (F := fun c => probAtMost (c / c0' * s' + D'.base.background) D'.base.observed) k2 hx'
  rw [hn, hb] at e2
  have hx : 0 < y := hx
  have hx' : 0 < y' := hx'
  have hb0 := hS.background
  have hs0 := hS.visible
  have hs0' := hS'.visible
  have hc0 := hS.positive
  have hc0' := hS'.positive
  have e3 : y / c0 * s + D.base.background = y' / c0' * s' + D.base.background := by
    rcases lt_trichotomy (y / c0 * s + D.base.background) (y' / c0' * s' + D.base.background) with l | l | l
    · have := probAtMost_lt (by positivity) l D.base.observed
      linarith
    · exact l
    · have := probAtMost_lt (by positivity) l D.base.observed
      linarith
  show y * (s / c0) = y' * (s' / c0')
  have e4 : y / c0 * s = y' / c0' * s' := by linarith
  rw [← mul_div_assoc, ← mul_div_assoc]
  rw [div_mul_eq_mul_div, div_mul_eq_mul_div] at e4
  exact e4

/-- C87 (two experiments, binned). If of two experiments with the same data in the bins the second predicts in no bin more than `k` times the
events of the first per unit of the interaction parameter, its limit is at most `k` times stronger. In particular (`k = 1`) an experiment
that predicts no more events has no stronger limit. -/
theorem C87_comparison_binned (hS : SeesInBins U T h D p c0 ss) (hS' : SeesInBins U' T' h' D' p' c0' ss') (hR : T.findRoot.Exact)
    (hR' : T'.findRoot.Exact) (hbins : D'.base.bins = D.base.bins)
    (hn : ∀ i < D.base.bins, D'.base.binObserved.getD i 0 = D.base.binObserved.getD i 0)
    (hb : ∀ i < D.base.bins, D'.base.binBackground.getD i 0 = D.base.binBackground.getD i 0)
    {k : ℝ} (hle : ∀ i < D.base.bins, ss'.getD i 0 / c0' ≤ k * (ss.getD i 0 / c0)) {r r' : Detector × DMParticle × ℝ}
    (h1 : D.base.upperLimit U T (D.toClass U T h) p cert = .ok r) (h2 : D'.base.upperLimit U' T' (D'.toClass U' T' h') p' cert = .ok r')
    (hx : 0 < r.2.2) (hx' : 0 < r'.2.2) : r.2.2 ≤ k * r'.2.2 := by
  obtain ⟨p1, y, g1, k1⟩ := C87_value_binned hS hR cert
  obtain ⟨p2, y', g2, k2⟩ := C87_value_binned hS' hR' cert
  rw [g1] at h1; cases h1
  rw [g2] at h2; cases h2
  have e1 := k1.pos hx
  have e2 := k2.pos hx'
  have hx : 0 < y := hx
  have hx' : 0 < y' := hx'
  have hc0 := hS.positive
  have hc0' := hS'.positive
  by_contra hlt
  have hlt : k * y' < y := not_le.1 hlt
  obtain ⟨i, hi, he⟩ := e2.1
  rw [hbins] at hi
  have l0 : 1 - cert ≤ binProb D.base ss c0 y i := e1.2 ⟨i, hi, rfl⟩
  have hs0 := hS.visible i hi
  have hs0' := hS'.visible i (hbins ▸ hi)
  have hb0 := hS.background i hi
  unfold binProb at l0 he
  rw [hn i hi, hb i hi] at he
  have l1 : y' / c0' * ss'.getD i 0 + D.base.binBackground.getD i 0 < y / c0 * ss.getD i 0 + D.base.binBackground.getD i 0 := by
    have a1 : y' / c0' * ss'.getD i 0 = y' * (ss'.getD i 0 / c0') := by ring
    have a2 : y / c0 * ss.getD i 0 = y * (ss.getD i 0 / c0) := by ring
    have a3 := mul_le_mul_of_nonneg_left (hle i hi) hx'.le
    have a4 : k * y' * (ss.getD i 0 / c0) < y * (ss.getD i 0 / c0) := mul_lt_mul_of_pos_right hlt (by positivity)
    linarith
  have l2 := probAtMost_lt (by positivity) l1 (D.base.binObserved.getD i 0)
  linarith

/-- C91 (limits). A counting experiment that predicts no more events than another one for the same particle, for instance in a narrower window,
and has observed the same events above the same background, has no stronger limit. -/
theorem C91_limit (hS : Sees U T h D p c0 s) (hS' : Sees U T h' D' p c0 s') (hR : T.findRoot.Exact)
    (hn : D'.base.observed = D.base.observed) (hb : D'.base.background = D.base.background)
    (hless : NotMore ((D'.toClass U T h').signalsTotal D'.base p) ((D.toClass U T h).signalsTotal D.base p)) {r r' : Detector × DMParticle × ℝ}
    (h1 : D.base.upperLimit U T (D.toClass U T h) p cert = .ok r) (h2 : D'.base.upperLimit U T (D'.toClass U T h') p cert = .ok r')
    (hx : 0 < r.2.2) (hx' : 0 < r'.2.2) : r.2.2 ≤ r'.2.2 := by
  have key := C87_comparison hS hS' hR hR hn hb h1 h2 hx hx'
  obtain ⟨a, b, ea, eb, hab⟩ := hless
  rw [hS.signal] at eb
  rw [hS'.signal] at ea
  cases eb
  cases ea
  have hc0 := hS.positive
  have hs := hS.visible
  have hs' := hS'.visible
  have h3 : r.2.2 * s = r'.2.2 * s' := by
    field_simp at key
    linarith
  by_contra hlt
  push Not at hlt
  have : r'.2.2 * s' < r.2.2 * s := lt_of_le_of_lt (mul_le_mul_of_nonneg_left hab hx'.le) (mul_lt_mul_of_pos_right hlt hs)
  linarith

theorem run_snoc {q : DMParticle} {ops : List DMParticle.Op} {op : DMParticle.Op} (h : DMParticle.run U q ops = .ok p) :
    DMParticle.run U q (ops ++ [op]) = p.step U op := by
  induction ops generalizing q with
  | nil =>
    simp only [DMParticle.run, Outcome.ok.injEq] at h
    subst h
    simp only [List.nil_append, DMParticle.run]
    cases q.step U op <;> rfl
  | cons o l ih =>
    simp only [DMParticle.run, List.cons_append] at h ⊢
    cases ho : q.step U o with
    | ok q' => rw [ho, Outcome.bind_ok] at h; rw [Outcome.bind_ok]; exact ih h
    | _ => rw [ho] at h; cases h

theorem reachable_share (hp : Reachable U p) (f : ℝ) : Reachable U (p.setFractionalDensity f) := by
  obtain ⟨q, ops, hq, hv, hr⟩ := hp
  refine ⟨q, ops ++ [.setFractionalDensity f], hq, fun o ho => ?_, by rw [run_snoc hr]; rfl⟩
  rcases List.mem_append.1 ho with ho | ho
  · exact hv o ho
  · rw [List.mem_singleton.1 ho]; trivial

/-- C77 (limits of nuclear recoil experiments). If the particle makes up only the share `f` of the local density, the limit is weaker by
exactly that factor. -/
theorem C77_nuclear_limit_partial {d : Detector} {x : NuclearDetector} {f : ℝ} (hf : 0 < f)
    (hS : Sees U T h (.nuclear d x) (p.setFractionalDensity 1) c0 s) (hR : T.findRoot.Exact) (hI : T.integrate.Homogeneous)
    (hP : ∀ k xs (ys : List ℝ) x y, T.interpolationIntegral xs (ys.map fun z => k * z) x y = k * T.interpolationIntegral xs ys x y)
    {r r' : Detector × DMParticle × ℝ}
    (h1 : d.upperLimit U T ((AnyDetector.nuclear d x).toClass U T h) (p.setFractionalDensity 1) cert = .ok r)
    (h2 : d.upperLimit U T ((AnyDetector.nuclear d x).toClass U T h) (p.setFractionalDensity f) cert = .ok r')
    (hx : 0 < r.2.2) (hx' : 0 < r'.2.2) : r.2.2 = f * r'.2.2 := by
  have hs := (C77_nuclear_partial (U := U) (T := T) (h := h) (p := p) (d := d) (f := f) hI hP x).2.1 s hS.signal
  have hc0 := hS.positive
  have hs0 := hS.visible
  have hS' : Sees U T h (.nuclear d x) (p.setFractionalDensity f) c0 (f * s) :=
    ⟨hS.detector, hS.counting, hS.background, reachable_share hS.particle f, hS.parameter, hc0, hs, mul_pos hf hs0⟩
  have key := C87_comparison hS hS' hR hR rfl rfl h1 h2 hx hx'
  field_simp at key
  linarith

/-- Non-vacuity for C87, C91 and C77: a hydrogen target that excludes `c = 2`; the same target with half the exposure, for which the same
particle gets the limit 4; and the first target again with a particle that makes up half of the local density, with the limit 4 as well. -/
example (U : Units) : ∃ (T : Tools) (h : Distribution) (d d' : Detector) (x : NuclearDetector) (p : DMParticle) (s cert : ℝ) (p₁ p₂ p₃ : DMParticle),
    T.findRoot.Exact ∧ T.integrate.Homogeneous ∧ Sees U T h (.nuclear d x) (p.setFractionalDensity 1) 1 s ∧
    Sees U T h (.nuclear d' x) (p.setFractionalDensity 1) 1 (1 / 2 * s) ∧ d'.observed = d.observed ∧ d'.background = d.background ∧
    d.upperLimit U T ((AnyDetector.nuclear d x).toClass U T h) (p.setFractionalDensity 1) cert = .ok (d, p₁, 2) ∧
    d'.upperLimit U T ((AnyDetector.nuclear d' x).toClass U T h) (p.setFractionalDensity 1) cert = .ok (d', p₂, 4) ∧
    d.upperLimit U T ((AnyDetector.nuclear d x).toClass U T h) (p.setFractionalDensity (1 / 2)) cert = .ok (d, p₃, 4) := by
  obtain ⟨T, hI, hR, hT, hP⟩ := exists_tools
  obtain ⟨v, p, s, ⟨-, -, -, hS⟩, hf⟩ := sees_point U hT
  have hself : p.setFractionalDensity 1 = p := by
    rw [← hf]
    rfl
  have hs := hS.visible
  set d := (hydrogenDetector U).base with hd
  set d' : Detector := { Detector.make "x" (1 / 2) "Nuclei" with
    usingEnergyThreshold := true, energyThreshold := 1, energyMax := 2, observed := 3, background := 1 } with hd'
  have hresc : rescaled d (1 / 2) 1 = d' := by
    simp [rescaled, hd, hd', hydrogenDetector, AnyDetector.base, make]
  have hs' := (C80_proportional (U := U) (T := T) (h := flatHalo v) (p := p) (a := 1 / 2) (f := 1) (hydrogenDetector U) hI hP).2.1
  rw [hS.signal, Outcome.bind_ok, ← hd, hresc, mul_one] at hs'
  have hS₂ : Sees U T (flatHalo v) (.nuclear d' (hydrogenTarget U)) p 1 (1 / 2 * s) :=
    ⟨.inl ⟨_, [.useEnergyThreshold 1 2, .setObserved 3, .setBackground 1], ⟨"x", 1 / 2, "Nuclei", rfl⟩,
      by simp [Detector.run, Detector.step, setObserved, setBackground, make, useEnergyThreshold, initializePoisson, AnyDetector.base, hd']⟩,
      rfl, zero_le_one, hS.particle, hS.parameter, one_pos, hs', by positivity⟩
  have hs₃ := (C77_nuclear_partial (U := U) (T := T) (h := flatHalo v) (p := p) (d := d) (f := 1 / 2) hI hP (hydrogenTarget U)).2.1 s
    (by rw [hself]; exact hS.signal)
  have hS₃ : Sees U T (flatHalo v) (.nuclear d (hydrogenTarget U)) (p.setFractionalDensity (1 / 2)) 1 (1 / 2 * s) :=
    ⟨hS.detector, rfl, zero_le_one, reachable_share hS.particle _, hS.parameter, one_pos, hs₃, by positivity⟩
  have hr : ∀ x : ℝ, 1 ≤ x → x ≤ 10 → InRange x := fun x => inRange_of
  obtain ⟨p₁, x₁, g1, k1⟩ := C87_value hS hR (1 - probAtMost (2 / 1 * s + 1) 3)
  have e1 := LimitOf.eq (c := 2) (n := 3) (b := 1) one_pos hs zero_le_one (hr _ (by norm_num) (by norm_num)) rfl k1
  obtain ⟨p₂, x₂, g2, k2⟩ := C87_value hS₂ hR (1 - probAtMost (2 / 1 * s + 1) 3)
  have e : (2 : ℝ) / 1 * s = 4 / 1 * (1 / 2 * s) := by ring
  have e2 := LimitOf.eq (c := 4) (n := 3) (b := 1) one_pos hS₂.visible zero_le_one (hr _ (by norm_num) (by norm_num)) (by rw [e]) k2
  obtain ⟨p₃, x₃, g3, k3⟩ := C87_value hS₃ hR (1 - probAtMost (2 / 1 * s + 1) 3)
  have e3 := LimitOf.eq (c := 4) (n := 3) (b := 1) one_pos hS₃.visible zero_le_one (hr _ (by norm_num) (by norm_num)) (by rw [e]) k3
  subst e1 e2 e3
  exact ⟨T, flatHalo v, d, d', hydrogenTarget U, p, s, _, p₁, p₂, p₃, hR, hI, by rw [hself]; exact hS, by rw [hself]; exact hS₂, rfl, rfl,
    by rw [hself]; exact g1, by rw [hself]; exact g2, g3⟩

end Obscura
