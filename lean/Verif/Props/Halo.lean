import Verif.Lemmas.Halo

/-!
# Properties C15–C18: the standard halo model
-/

namespace Obscura

open Real

/-! ## C18 — setters in any order -/

/-- C18: after any history of setters a standard halo model built with explicit parameters is, in every field, the one
freshly constructed with the current parameters. -/
theorem C18_setters (U : Units) (p : HaloParams) (ops : List SHM.Op) :
    SHM.run U (SHM.makeVel p.rho p.v0 p.vel p.vesc) ops =
      SHM.makeVel (ops.foldl (HaloParams.after U) p).rho (ops.foldl (HaloParams.after U) p).v0
        (ops.foldl (HaloParams.after U) p).vel (ops.foldl (HaloParams.after U) p).vesc ∧
    ∀ vobs, 0 ≤ vobs → p.vel = ![0, vobs, 0] →
      SHM.makeSpeed p.rho p.v0 vobs p.vesc = SHM.makeVel p.rho p.v0 p.vel p.vesc := by
  refine ⟨run_makeVel U p ops, ?_⟩
  intro vobs h hp
  rw [makeSpeed_eq h, hp]

/-- C18: what a freshly constructed halo model consists of: the parameters given, the speed domain `[0, v_esc + |v_obs|]`
and the normalisation for `v_0` and `v_esc`. -/
theorem C18_domain (U : Units) (s : SHM) (h : SHM.Reachable U s) :
    s.vMin = 0 ∧ s.vMax = s.vEsc + vnorm s.velObs ∧ s.vObs = vnorm s.velObs ∧ s.useEta = true ∧
    s.nEsc = erf (s.vEsc / s.v0) - 2 * (s.vEsc / s.v0) / √π * exp (-(s.vEsc / s.v0) ^ 2) := by
  have he := reachable_eq h
  refine ⟨?_, ?_, ?_, ?_, ?_⟩
  · rw [he]; rfl
  · rw [he]; rfl
  · rw [he]; rfl
  · rw [he]; rfl
  · have : s.nEsc = SHM.nEscOf s.v0 s.vEsc := by rw [he]; rfl
    rw [this, nEscOf_eq, gauss]; ring

/-- A non-trivial reachable state, used in the examples below. -/
noncomputable def SHM.sample : SHM := SHM.makeSpeed 1 2 3 7

theorem SHM.sample_reachable : SHM.Reachable Units.sample SHM.sample :=
  ⟨_, [], .speed 1 2 3 7 (by norm_num), rfl⟩

example : SHM.Reachable Units.sample SHM.sample ∧ SHM.sample.Physical ∧ SHM.sample.vObs ≤ SHM.sample.vEsc ∧
    0 < SHM.sample.vObs := by
  refine ⟨SHM.sample_reachable, ⟨?_, ?_⟩, ?_, ?_⟩ <;>
    norm_num [SHM.sample, SHM.makeSpeed, SHM.normalize]

theorem default_vObs (U : Units) :
    0 < (SHM.default U).vObs ∧ (SHM.default U).vObs < 232.58 * U.km / U.sec := by
  have hk : 0 < U.km / U.sec := div_pos U.km_pos U.sec_pos
  have h : (SHM.default U).vObs = Real.sqrt (54093.34 * (U.km / U.sec) ^ 2) := by
    simp only [SHM.default, SHM.normalize, vnorm]
    congr 1
    simp [dot]
    ring
  rw [h]
  refine ⟨Real.sqrt_pos.2 (by positivity), ?_⟩
  rw [Real.sqrt_lt' (by rw [mul_div_assoc]; positivity), mul_div_assoc, mul_pow]
  gcongr
  norm_num

/-- C18 fails for the default-constructed halo model: the end of its speed domain is a rounded literal, larger than
`v_esc + |v_obs|`, so that setting the observer velocity to the value it already has changes the model. -/
theorem C18_fails_default (U : Units) :
    (SHM.default U).vEsc + (SHM.default U).vObs < (SHM.default U).vMax ∧
    (SHM.default U).setObserverVelocity (SHM.default U).observerVelocity ≠ SHM.default U := by
  have h := (default_vObs U).2
  have h1 : (SHM.default U).vEsc + (SHM.default U).vObs < (SHM.default U).vMax := by
    have e1 : (SHM.default U).vEsc = 544 * U.km / U.sec := rfl
    have e2 : (SHM.default U).vMax = (544 + 232.58) * U.km / U.sec := rfl
    rw [e1, e2]
    have : (544 + 232.58) * U.km / U.sec = 544 * U.km / U.sec + 232.58 * U.km / U.sec := by ring
    rw [this]; linarith
  refine ⟨h1, ?_⟩
  intro hc
  have := congrArg SHM.vMax hc
  have e3 : ((SHM.default U).setObserverVelocity (SHM.default U).observerVelocity).vMax =
      (SHM.default U).vEsc + (SHM.default U).vObs := rfl
  rw [e3] at this
  linarith

/-- C18 for the default constructor: once the escape and the observer velocity were set, the model is the one freshly
constructed with the current parameters. Missing: before that (see `C18_fails_default`). -/
theorem C18_default_partial (U : Units) (vesc : ℝ) (ops : List SHM.Op) :
    SHM.Reachable U (SHM.run U ((SHM.default U).setEscapeVelocity vesc) ops) := by
  refine ⟨SHM.makeVel (0.4 * U.GeV / U.cm / U.cm / U.cm) (220 * U.km / U.sec) (SHM.default U).velObs vesc, ops,
    .vel _ _ _ _, ?_⟩
  rfl

/-! ## C15 — the speed PDF -/

/-- C15: the PDF vanishes outside the speed domain, for every halo model in every state. -/
theorem C15_zero_outside (s : SHM) (v : ℝ) (h : v < s.vMin ∨ s.vMax < v) : s.pdfSpeed v = 0 := by
  unfold SHM.pdfSpeed SHM.pdfSpeedSHM
  rw [if_pos h]

theorem pdf_nonneg_wf {s : SHM} (h : s.WF) (hoe : s.vObs ≤ s.vEsc) (v : ℝ) : 0 ≤ s.pdfSpeed v := by
  by_cases hout : v < s.vMin ∨ s.vMax < v
  · rw [C15_zero_outside s v hout]
  · push Not at hout
    obtain ⟨h1, h2⟩ := hout
    rw [h.vMin] at h1
    have hN := h.nEsc_pos
    have ha := h.v0_pos
    have hπ := sqrt_pi_pos
    rcases h.vObs_nonneg.lt_or_eq with ho | ho
    · rw [pdfSpeed_moving h ho h1 h2]
      apply mul_nonneg (by positivity)
      rw [sub_nonneg]
      have hm := h.vMax
      split_ifs with hc
      · apply gauss_le_of_abs_le
        rw [abs_of_nonneg (show 0 ≤ v + s.vObs by linarith), abs_le]; constructor <;> linarith
      · apply gauss_le_of_abs_le
        rw [abs_of_nonneg (show 0 ≤ s.vEsc by linarith [h.vEsc_pos]), abs_le]; constructor <;> linarith
    · rw [pdfSpeed_rest h ho.symm h1 h2]
      have := gauss_pos s.v0 v
      positivity

/-- C15 for observers not faster than the escape speed: the PDF is non-negative at every speed.
Missing: `v_obs > v_esc` and the default-constructed model (see `C15_fails`, `C15_fails_default`). -/
theorem C15_nonneg_partial (U : Units) (s : SHM) (h : SHM.Reachable U s) (hp : s.Physical) (hoe : s.vObs ≤ s.vEsc)
    (v : ℝ) : 0 ≤ s.pdfSpeed v :=
  pdf_nonneg_wf (.of_reachable h hp) hoe v

/-- C15: inside the domain the PDF is in fact positive, except at its ends. -/
theorem C15_pos_partial (U : Units) (s : SHM) (h : SHM.Reachable U s) (hp : s.Physical) (hoe : s.vObs ≤ s.vEsc)
    (v : ℝ) (hv : 0 < v) (hv' : v < s.vEsc + s.vObs) : 0 < s.pdfSpeed v := by
  have hw := SHM.WF.of_reachable h hp
  have hN := hw.nEsc_pos
  have ha := hw.v0_pos
  have hπ := sqrt_pi_pos
  have hm := hw.vMax
  rcases hw.vObs_nonneg.lt_or_eq with ho | ho
  · rw [pdfSpeed_moving hw ho hv.le (by linarith)]
    apply mul_pos (by positivity)
    rw [sub_pos]
    split_ifs with hc
    · apply gauss_lt_of_abs_lt ha
      rw [abs_of_nonneg (show 0 ≤ v + s.vObs by linarith), abs_lt]; constructor <;> linarith
    · apply gauss_lt_of_abs_lt ha
      rw [abs_of_nonneg (show 0 ≤ s.vEsc by linarith [hw.vEsc_pos]), abs_lt]; constructor <;> linarith
  · rw [pdfSpeed_rest hw ho.symm hv.le (by linarith)]
    have := gauss_pos s.v0 v
    positivity

/-- C15 fails for an observer faster than the escape speed: every speed below `v_obs - v_esc` has a negative
probability density. -/
theorem C15_fails (U : Units) (s : SHM) (h : SHM.Reachable U s) (hp : s.Physical)
    (v : ℝ) (hv : 0 < v) (hv' : v < s.vObs - s.vEsc) : s.pdfSpeed v < 0 := by
  have hw := SHM.WF.of_reachable h hp
  have hN := hw.nEsc_pos
  have ha := hw.v0_pos
  have he := hw.vEsc_pos
  have hπ := sqrt_pi_pos
  have ho : 0 < s.vObs := by linarith
  rw [pdfSpeed_moving hw ho hv.le (by rw [hw.vMax]; linarith), if_neg (by linarith)]
  apply mul_neg_of_pos_of_neg (by positivity)
  rw [sub_neg]
  apply gauss_lt_of_abs_lt ha
  rw [abs_of_pos he, abs_of_nonpos (by linarith)]; linarith

example : ∃ s, SHM.Reachable Units.sample s ∧ s.Physical ∧ s.vEsc < s.vObs :=
  ⟨SHM.makeSpeed 1 2 9 7, ⟨_, [], .speed 1 2 9 7 (by norm_num), rfl⟩, by norm_num [SHM.Physical, SHM.makeSpeed, SHM.normalize],
    by norm_num [SHM.makeSpeed, SHM.normalize]⟩

/-- C15 fails for the default-constructed halo model: its PDF is negative on the last sliver of its domain. -/
theorem C15_fails_default (U : Units) (v : ℝ) (h1 : (SHM.default U).vEsc + (SHM.default U).vObs < v)
    (h2 : v ≤ (SHM.default U).vMax) : (SHM.default U).pdfSpeed v < 0 := by
  have hk : 0 < U.km / U.sec := div_pos U.km_pos U.sec_pos
  have ho := (default_vObs U).1
  have e0 : (SHM.default U).v0 = 220 * U.km / U.sec := rfl
  have e1 : (SHM.default U).vEsc = 544 * U.km / U.sec := rfl
  have ha : 0 < (SHM.default U).v0 := by rw [e0, mul_div_assoc]; positivity
  have he : 0 < (SHM.default U).vEsc := by rw [e1, mul_div_assoc]; positivity
  have hN : 0 < (SHM.default U).nEsc := nEscOf_pos ha he
  have hπ := sqrt_pi_pos
  set s := SHM.default U with hs
  have hv : 0 < v := by linarith
  have hmin : s.vMin = 0 := rfl
  unfold SHM.pdfSpeed SHM.pdfSpeedSHM
  rw [if_neg (by rw [hmin]; push Not; exact ⟨hv.le, h2⟩), if_pos ho]
  apply mul_neg_of_pos_of_neg (by positivity)
  have g1 : 2 * exp (-(v * v + s.vObs * s.vObs) / s.v0 / s.v0) * sinh (2 * v * s.vObs / s.v0 / s.v0) =
      gauss s.v0 (v - s.vObs) - gauss s.v0 (v + s.vObs) := by
    rw [Real.sinh_eq, gauss, gauss]
    have h1 : -((v - s.vObs) / s.v0) ^ 2 = -(v * v + s.vObs * s.vObs) / s.v0 / s.v0 + 2 * v * s.vObs / s.v0 / s.v0 := by
      ring
    have h2 : -((v + s.vObs) / s.v0) ^ 2 = -(v * v + s.vObs * s.vObs) / s.v0 / s.v0 + -(2 * v * s.vObs / s.v0 / s.v0) := by
      ring
    rw [h1, h2, exp_add, exp_add]; ring
  have g2 : exp (-(v + s.vObs) ^ 2 / s.v0 / s.v0) = gauss s.v0 (v + s.vObs) := by
    unfold gauss; congr 1; ring
  have g3 : exp (-s.vEsc * s.vEsc / s.v0 / s.v0) = gauss s.v0 s.vEsc := by
    unfold gauss; congr 1; ring
  rw [g1, g2, g3, abs_of_pos (by linarith), stepFunction, if_pos (by linarith)]
  have : gauss s.v0 (v - s.vObs) < gauss s.v0 s.vEsc := by
    apply gauss_lt_of_abs_lt ha
    rw [abs_of_pos he, abs_of_pos (by linarith)]; linarith
  linarith

example (U : Units) : ∃ v, (SHM.default U).vEsc + (SHM.default U).vObs < v ∧ v ≤ (SHM.default U).vMax :=
  ⟨_, (C18_fails_default U).1, le_rfl⟩

/-! ## C16 — the CDF is the integral of the PDF -/

theorem pdf_intervalIntegrable {s : SHM} (h : s.WF) (hoe : s.vObs ≤ s.vEsc) (a b : ℝ) :
    IntervalIntegrable s.pdfSpeed MeasureTheory.volume a b := by
  have hmax : 0 ≤ s.vMax := by rw [h.vMax]; linarith [h.vEsc_pos, h.vObs_nonneg]
  have mid : IntervalIntegrable s.pdfSpeed MeasureTheory.volume 0 s.vMax := by
    rcases h.vObs_nonneg.lt_or_eq with ho | ho
    · exact (integral_pdf_moving h ho hoe hmax le_rfl).1
    · exact (integral_pdf_rest h ho.symm hmax le_rfl).1
  have hsupp : MeasureTheory.Integrable s.pdfSpeed := by
    rw [← MeasureTheory.integrableOn_iff_integrable_of_support_subset (s := Set.Icc 0 s.vMax)]
    · rwa [intervalIntegrable_iff_integrableOn_Icc_of_le hmax] at mid
    · intro x hx
      by_contra hc
      apply hx
      apply C15_zero_outside
      rw [h.vMin]
      rw [Set.mem_Icc, not_and_or, not_le, not_le] at hc
      exact hc
  exact hsupp.intervalIntegrable

theorem cdf_eq_integral {s : SHM} (h : s.WF) (hoe : s.vObs ≤ s.vEsc) (v : ℝ) :
    s.cdfSpeed v = ∫ x in (0 : ℝ)..v, s.pdfSpeed x := by
  have hmax : 0 < s.vMax := by rw [h.vMax]; linarith [h.vEsc_pos, h.vObs_nonneg]
  have total : ∫ x in (0 : ℝ)..s.vMax, s.pdfSpeed x = 1 := by
    rcases h.vObs_nonneg.lt_or_eq with ho | ho
    · rw [(integral_pdf_moving h ho hoe hmax.le le_rfl).2, if_pos (by rw [h.vMax]; linarith), h.vMax, h.nEsc]
      exact cdf_end h.v0_pos ho h.vEsc_pos
    · rw [(integral_pdf_rest h ho.symm hmax.le le_rfl).2, h.vMax, ← ho, add_zero, ← nEscOf_eq, ← h.nEsc]
      have := h.nEsc_pos
      field_simp
  rcases le_or_gt v 0 with hv | hv
  · have hz : ∫ x in (0 : ℝ)..v, s.pdfSpeed x = 0 := by
      rw [intervalIntegral.integral_symm, neg_eq_zero]
      rw [intervalIntegral.integral_of_le hv, MeasureTheory.integral_Ioc_eq_integral_Ioo]
      apply MeasureTheory.setIntegral_eq_zero_of_forall_eq_zero
      intro x hx
      apply C15_zero_outside
      left; rw [h.vMin]; exact hx.2
    rw [hz]
    unfold SHM.cdfSpeed SHM.cdfSpeedSHM
    rw [if_pos (by rw [h.vMin]; exact hv)]
  · rcases lt_or_ge v s.vMax with hv' | hv'
    · rcases h.vObs_nonneg.lt_or_eq with ho | ho
      · rw [cdfSpeed_moving h ho hv hv', (integral_pdf_moving h ho hoe hv.le hv'.le).2]
      · rw [cdfSpeed_rest h ho.symm hv hv', (integral_pdf_rest h ho.symm hv.le hv'.le).2]
    · have hz : ∫ x in s.vMax..v, s.pdfSpeed x = 0 := by
        rw [intervalIntegral.integral_of_le hv']
        apply MeasureTheory.setIntegral_eq_zero_of_forall_eq_zero
        intro x hx
        exact C15_zero_outside s x (Or.inr hx.1)
      rw [← intervalIntegral.integral_add_adjacent_intervals (pdf_intervalIntegrable h hoe 0 s.vMax)
        (pdf_intervalIntegrable h hoe s.vMax v), hz, total, add_zero]
      unfold SHM.cdfSpeed SHM.cdfSpeedSHM
      rw [if_neg (by rw [h.vMin]; linarith), if_pos hv']

/-- C16: `CDF_Speed(v)` is the integral of `PDF_Speed` from 0 to `v`, at every speed `v`. -/
theorem C16_cdf (U : Units) (s : SHM) (h : SHM.Reachable U s) (hp : s.Physical) (hoe : s.vObs ≤ s.vEsc) (v : ℝ) :
    s.cdfSpeed v = ∫ x in (0 : ℝ)..v, s.pdfSpeed x :=
  cdf_eq_integral (.of_reachable h hp) hoe v

/-- C16: the CDF never decreases, is 0 up to speed 0 and 1 from the maximal speed on, and in between it lies in [0,1]. -/
theorem C16_range (U : Units) (s : SHM) (h : SHM.Reachable U s) (hp : s.Physical) (hoe : s.vObs ≤ s.vEsc) :
    Monotone s.cdfSpeed ∧ (∀ v ≤ 0, s.cdfSpeed v = 0) ∧ (∀ v, s.vEsc + s.vObs ≤ v → s.cdfSpeed v = 1) ∧
    ∀ v, 0 ≤ s.cdfSpeed v ∧ s.cdfSpeed v ≤ 1 := by
  have hw := SHM.WF.of_reachable h hp
  have hmax : 0 < s.vMax := by rw [hw.vMax]; linarith [hw.vEsc_pos, hw.vObs_nonneg]
  have hmono : Monotone s.cdfSpeed := by
    intro a b hab
    rw [cdf_eq_integral hw hoe, cdf_eq_integral hw hoe, ← intervalIntegral.integral_add_adjacent_intervals
      (pdf_intervalIntegrable hw hoe 0 a) (pdf_intervalIntegrable hw hoe a b)]
    have := intervalIntegral.integral_nonneg (μ := MeasureTheory.volume) hab (fun x _ => pdf_nonneg_wf hw hoe x)
    linarith
  have h0 : ∀ v ≤ 0, s.cdfSpeed v = 0 := by
    intro v hv
    unfold SHM.cdfSpeed SHM.cdfSpeedSHM
    rw [if_pos (by rw [hw.vMin]; exact hv)]
  have h1 : ∀ v, s.vEsc + s.vObs ≤ v → s.cdfSpeed v = 1 := by
    intro v hv
    rw [← hw.vMax] at hv
    unfold SHM.cdfSpeed SHM.cdfSpeedSHM
    rw [if_neg (by rw [hw.vMin]; linarith), if_pos hv]
  refine ⟨hmono, h0, h1, fun v => ⟨?_, ?_⟩⟩
  · rw [← h0 (min v 0) (min_le_right _ _)]; exact hmono (min_le_left _ _)
  · rw [← h1 (max v (s.vEsc + s.vObs)) (le_max_right _ _)]; exact hmono (le_max_left _ _)

/-- C16: the PDF is normalised to one on the speed domain. -/
theorem C16_normalised (U : Units) (s : SHM) (h : SHM.Reachable U s) (hp : s.Physical) (hoe : s.vObs ≤ s.vEsc) :
    ∫ x in s.vMin..s.vMax, s.pdfSpeed x = 1 := by
  have hw := SHM.WF.of_reachable h hp
  rw [hw.vMin, ← cdf_eq_integral hw hoe]
  exact (C16_range U s h hp hoe).2.2.1 _ hw.vMax.ge

/-! ## C17 — the eta function -/

/-- C17 outside the two numerical windows of the code: `Eta_Function(vMin)` is the integral of `PDF_Speed(v)/v` from
`vMin` to the maximal speed. Missing: `0 < v_obs < 1e-8 v_0`, where the code uses the formula for an observer at
rest, and the last `1e-8 v_0` below the maximal speed, where it returns 0 (see `C17_window`). -/
theorem C17_eta_partial (U : Units) (s : SHM) (h : SHM.Reachable U s) (hp : s.Physical) (hoe : s.vObs ≤ s.vEsc)
    (ho : s.vObs = 0 ∨ 1e-8 * s.v0 ≤ s.vObs) (v : ℝ) (hv : 0 ≤ v) (hv' : v ≤ s.vMax - 1e-8 * s.v0) :
    s.eta v = ∫ x in v..s.vMax, s.pdfSpeed x / x := by
  have hw := SHM.WF.of_reachable h hp
  have ha := hw.v0_pos
  have hm : v ≤ s.vMax := by have : 0 < 1e-8 * s.v0 := by positivity
                             linarith
  have hwin : v / s.v0 ≤ s.vObs / s.v0 + s.vEsc / s.v0 - 1e-8 := by
    rw [hw.vMax] at hv'
    rw [div_le_iff₀ ha, sub_mul, add_mul, div_mul_cancel₀ _ ha.ne', div_mul_cancel₀ _ ha.ne']
    linarith
  rcases ho with ho | ho
  · rw [eta_rest hw (by rw [ho, zero_div]; norm_num) hwin, (integral_eta_rest hw ho hv hm).2]
  · have hoo : 0 < s.vObs := lt_of_lt_of_le (by positivity) ho
    rw [eta_moving hw (by rwa [le_div_iff₀ ha]) hoe hv hwin, (integral_eta_moving hw hoo hoe hv hm).2]

/-- The integral of `f(v)/v`, in every case. -/
theorem integral_eta_nonneg {s : SHM} (hw : s.WF) (hoe : s.vObs ≤ s.vEsc) {v w : ℝ} (hv : 0 ≤ v) (hvw : v ≤ w) (hw' : w ≤ s.vMax) :
    0 ≤ ∫ x in w..s.vMax, s.pdfSpeed x / x ∧ ∫ x in w..s.vMax, s.pdfSpeed x / x ≤ ∫ x in v..s.vMax, s.pdfSpeed x / x := by
  have key : ∀ u, 0 ≤ u → u ≤ s.vMax → IntervalIntegrable (fun x => s.pdfSpeed x / x) MeasureTheory.volume u s.vMax := by
    intro u hu hu'
    rcases hw.vObs_nonneg.lt_or_eq with ho | ho
    · exact (integral_eta_moving hw ho hoe hu hu').1
    · exact (integral_eta_rest hw ho.symm hu hu').1
  have nn : ∀ a b, 0 ≤ a → a ≤ b → 0 ≤ ∫ x in a..b, s.pdfSpeed x / x := by
    intro a b ha hab
    apply intervalIntegral.integral_nonneg hab
    intro x hx
    exact div_nonneg (pdf_nonneg_wf hw hoe x) (ha.trans hx.1)
  refine ⟨nn _ _ (hv.trans hvw) hw', ?_⟩
  have i1 := key v hv (hvw.trans hw')
  have i2 := key w (hv.trans hvw) hw'
  have := intervalIntegral.integral_add_adjacent_intervals (i1.trans i2.symm) i2
  have := nn v w hv hvw
  linarith

/-- C17: eta is never negative, never increases with the minimal speed and vanishes above the maximal speed — in every
state with `v_obs ≤ v_esc`, including the numerical windows. -/
theorem C17_antitone (U : Units) (s : SHM) (h : SHM.Reachable U s) (hp : s.Physical) (hoe : s.vObs ≤ s.vEsc)
    (v w : ℝ) (hv : 0 ≤ v) (hvw : v ≤ w) :
    0 ≤ s.eta w ∧ s.eta w ≤ s.eta v ∧ (s.vEsc + s.vObs ≤ w → s.eta w = 0) := by
  have hw := SHM.WF.of_reachable h hp
  have ha := hw.v0_pos
  have hN := hw.nEsc_pos
  have hπ := sqrt_pi_pos
  have hdiv : ∀ u, u / s.v0 ≤ s.vObs / s.v0 + s.vEsc / s.v0 - 1e-8 ↔ u ≤ s.vObs + s.vEsc - 1e-8 * s.v0 := by
    intro u
    rw [div_le_iff₀ ha, sub_mul, add_mul, div_mul_cancel₀ _ ha.ne', div_mul_cancel₀ _ ha.ne']
  have h18 : 0 < 1e-8 * s.v0 := by positivity
  have hout : ∀ u, s.vObs + s.vEsc - 1e-8 * s.v0 < u → s.eta u = 0 := by
    intro u hu
    apply eta_zero
    rw [← not_le, hdiv, not_le]; exact hu
  have hin : ∀ u, 0 ≤ u → 0 ≤ s.eta u := by
    intro u hu0
    rcases le_or_gt u (s.vObs + s.vEsc - 1e-8 * s.v0) with hu | hu
    · rcases lt_or_ge (s.vObs / s.v0) 1e-8 with ho | ho
      · rw [eta_rest hw ho ((hdiv u).2 hu)]
        rw [div_lt_iff₀ ha] at ho
        apply mul_nonneg (by positivity)
        rw [sub_nonneg]
        apply gauss_le_of_abs_le
        rw [abs_of_nonneg hu0, abs_of_pos hw.vEsc_pos]; linarith
      · have hoo : 0 < s.vObs := lt_of_lt_of_le h18 ((le_div_iff₀ ha).1 ho)
        have hum : u ≤ s.vMax := by rw [hw.vMax]; linarith
        rw [eta_moving hw ho hoe hu0 ((hdiv u).2 hu), ← (integral_eta_moving hw hoo hoe hu0 hum).2]
        exact (integral_eta_nonneg hw hoe hu0 le_rfl hum).1
    · rw [hout u hu]
  refine ⟨hin w (hv.trans hvw), ?_, fun hc => hout w (by linarith)⟩
  rcases le_or_gt w (s.vObs + s.vEsc - 1e-8 * s.v0) with hu | hu
  · rcases lt_or_ge (s.vObs / s.v0) 1e-8 with ho | ho
    · rw [eta_rest hw ho ((hdiv w).2 hu), eta_rest hw ho ((hdiv v).2 (hvw.trans hu))]
      apply mul_le_mul_of_nonneg_left _ (by positivity)
      apply sub_le_sub_right
      apply gauss_le_of_abs_le
      rw [abs_of_nonneg hv, abs_of_nonneg (hv.trans hvw)]; exact hvw
    · have hoo : 0 < s.vObs := lt_of_lt_of_le h18 ((le_div_iff₀ ha).1 ho)
      have hum : w ≤ s.vMax := by rw [hw.vMax]; linarith
      rw [eta_moving hw ho hoe (hv.trans hvw) ((hdiv w).2 hu), eta_moving hw ho hoe hv ((hdiv v).2 (hvw.trans hu)),
        ← (integral_eta_moving hw hoo hoe (hv.trans hvw) hum).2, ← (integral_eta_moving hw hoo hoe hv (hvw.trans hum)).2]
      exact (integral_eta_nonneg hw hoe hv hvw hum).2
  · rw [hout w hu]; exact hin v hv

/-- C17, the last `1e-8 v_0` below the maximal speed: the code returns 0 there, and the exact integral is at most
`1e-8 / (√π N_esc v_obs)`. -/
theorem C17_window (U : Units) (s : SHM) (h : SHM.Reachable U s) (hp : s.Physical) (hoe : s.vObs ≤ s.vEsc)
    (ho : 0 < s.vObs) (v : ℝ) (hv : 0 ≤ v) (hv1 : s.vMax - 1e-8 * s.v0 < v) (hv2 : v ≤ s.vMax) :
    s.eta v = 0 ∧ 0 ≤ ∫ x in v..s.vMax, s.pdfSpeed x / x ∧
    ∫ x in v..s.vMax, s.pdfSpeed x / x ≤ 1e-8 / (√π * s.nEsc * s.vObs) := by
  have hw := SHM.WF.of_reachable h hp
  have ha := hw.v0_pos
  have hN := hw.nEsc_pos
  have hπ := sqrt_pi_pos
  refine ⟨?_, (integral_eta_nonneg hw hoe hv le_rfl hv2).1, ?_⟩
  · apply eta_zero
    rw [lt_div_iff₀ ha, sub_mul, add_mul, div_mul_cancel₀ _ ha.ne', div_mul_cancel₀ _ ha.ne']
    rw [hw.vMax] at hv1; linarith
  · have hb : ∀ x ∈ Set.Ioc v s.vMax, s.pdfSpeed x / x ≤ 1 / (s.nEsc * s.v0 * √π * s.vObs) := by
      intro x hx
      have hx0 : 0 < x := lt_of_le_of_lt hv hx.1
      rw [pdfSpeed_moving hw ho hx0.le hx.2]
      have hg1 : gauss s.v0 (x - s.vObs) ≤ 1 := by
        have := gauss_le_of_abs_le (a := s.v0) (x := 0) (y := x - s.vObs) (by simp)
        simpa [gauss] using this
      have hg2 : 0 ≤ if x + s.vObs < s.vEsc then gauss s.v0 (x + s.vObs) else gauss s.v0 s.vEsc := by
        split_ifs <;> exact (gauss_pos _ _).le
      have : x / s.nEsc / s.v0 / √π / s.vObs *
          (gauss s.v0 (x - s.vObs) - if x + s.vObs < s.vEsc then gauss s.v0 (x + s.vObs) else gauss s.v0 s.vEsc) / x =
          1 / (s.nEsc * s.v0 * √π * s.vObs) *
          (gauss s.v0 (x - s.vObs) - if x + s.vObs < s.vEsc then gauss s.v0 (x + s.vObs) else gauss s.v0 s.vEsc) := by
        field_simp
      rw [this]
      apply mul_le_of_le_one_right (by positivity)
      linarith
    calc ∫ x in v..s.vMax, s.pdfSpeed x / x ≤ ∫ x in v..s.vMax, 1 / (s.nEsc * s.v0 * √π * s.vObs) := by
          rw [intervalIntegral.integral_of_le hv2, intervalIntegral.integral_of_le hv2]
          apply MeasureTheory.setIntegral_mono_on
          · exact (intervalIntegrable_iff_integrableOn_Ioc_of_le hv2).1 (integral_eta_moving hw ho hoe hv hv2).1
          · exact (intervalIntegrable_iff_integrableOn_Ioc_of_le hv2).1 intervalIntegrable_const
          · exact measurableSet_Ioc
          · exact hb
      _ = (s.vMax - v) * (1 / (s.nEsc * s.v0 * √π * s.vObs)) := by
          rw [intervalIntegral.integral_const, smul_eq_mul]
      _ ≤ (1e-8 * s.v0) * (1 / (s.nEsc * s.v0 * √π * s.vObs)) := by
          apply mul_le_mul_of_nonneg_right (by linarith) (by positivity)
      _ = 1e-8 / (√π * s.nEsc * s.vObs) := by field_simp

/-- For any speed at or above `v_obs + v_esc` the eta function is 0, in any state whatever. -/
theorem C17_above (s : SHM) (hv0 : 0 < s.v0) (v : ℝ) (hv : s.vEsc + s.vObs ≤ v) : s.eta v = 0 := by
  apply eta_zero
  have : (s.vObs + s.vEsc) / s.v0 ≤ v / s.v0 := div_le_div_of_nonneg_right (by linarith) hv0.le
  rw [add_div] at this
  have : (0 : ℝ) < 1e-8 := by norm_num
  linarith

example : SHM.sample.vObs = 0 ∨ 1e-8 * SHM.sample.v0 ≤ SHM.sample.vObs := by
  right; norm_num [SHM.sample, SHM.makeSpeed, SHM.normalize]

end Obscura
