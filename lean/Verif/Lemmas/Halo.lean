import Verif.Spec.Halo
import Mathlib.MeasureTheory.Integral.IntervalIntegral.FundThmCalculus
import Mathlib.Analysis.SpecialFunctions.ExpDeriv
import Mathlib.Analysis.SpecialFunctions.Trigonometric.Deriv
import Mathlib.Analysis.Calculus.Deriv.MeanValue
import Mathlib.Tactic.FunProp

/-!
# Helper lemmas for the halo models
-/

namespace Obscura

open Real

/-! ### The error function -/

theorem hasDerivAt_erf (x : ℝ) : HasDerivAt erf (2 / √π * exp (-x ^ 2)) x := by
  unfold erf
  apply HasDerivAt.const_mul
  have hc : Continuous fun t : ℝ => exp (-t ^ 2) := by fun_prop
  exact intervalIntegral.integral_hasDerivAt_right (hc.intervalIntegrable _ _)
    (hc.stronglyMeasurableAtFilter _ _) hc.continuousAt

theorem erf_zero : erf 0 = 0 := by simp [erf]

theorem erf_neg (x : ℝ) : erf (-x) = -erf x := by
  unfold erf
  have h := intervalIntegral.integral_comp_neg (a := 0) (b := x) (fun t : ℝ => exp (-t ^ 2))
  simp only [neg_sq, neg_zero] at h
  rw [intervalIntegral.integral_symm, ← h, mul_neg]

theorem differentiable_erf : Differentiable ℝ erf := fun x => (hasDerivAt_erf x).differentiableAt

theorem sqrt_pi_pos : 0 < √π := Real.sqrt_pos.2 Real.pi_pos

theorem strictMono_erf : StrictMono erf := by
  apply strictMono_of_deriv_pos
  intro x
  rw [(hasDerivAt_erf x).deriv]
  have := sqrt_pi_pos
  positivity

/-- The Gaussian factor `exp(-x²/a²)`. -/
noncomputable def gauss (a x : ℝ) : ℝ := exp (-(x / a) ^ 2)

theorem gauss_pos (a x : ℝ) : 0 < gauss a x := exp_pos _

theorem gauss_neg (a x : ℝ) : gauss a (-x) = gauss a x := by unfold gauss; congr 1; ring

theorem hasDerivAt_gauss (a x : ℝ) : HasDerivAt (gauss a) (-(2 * x / a / a) * gauss a x) x := by
  unfold gauss
  have h : HasDerivAt (fun x : ℝ => -(x / a) ^ 2) (-(2 * x / a / a)) x := by
    have := (((hasDerivAt_id' x).div_const a).pow 2).neg
    refine this.congr_deriv ?_
    norm_num; ring
  exact h.exp.congr_deriv (by ring)

theorem gauss_le_of_abs_le {a x y : ℝ} (h : |x| ≤ |y|) : gauss a y ≤ gauss a x := by
  unfold gauss
  apply exp_le_exp.2
  rw [neg_le_neg_iff, div_pow, div_pow]
  exact div_le_div_of_nonneg_right (sq_le_sq.2 h) (sq_nonneg a)

theorem gauss_lt_of_abs_lt {a x y : ℝ} (ha : 0 < a) (h : |x| < |y|) : gauss a y < gauss a x := by
  unfold gauss
  apply exp_lt_exp.2
  rw [neg_lt_neg_iff, div_pow, div_pow]
  exact div_lt_div_of_pos_right (sq_lt_sq.2 h) (by positivity)

theorem continuous_gauss (a : ℝ) : Continuous (gauss a) := by unfold gauss; fun_prop

theorem hasDerivAt_erf_div {a : ℝ} (ha : 0 < a) (c x : ℝ) :
    HasDerivAt (fun v => erf ((v + c) / a)) (2 / √π / a * gauss a (x + c)) x := by
  have h1 : HasDerivAt (fun v => (v + c) / a) (1 / a) x := ((hasDerivAt_id' x).add_const c).div_const a
  refine ((hasDerivAt_erf ((x + c) / a)).comp x h1).congr_deriv ?_
  unfold gauss; field_simp

/-! ### Normalisation -/

/-- `N_esc` in terms of `gauss`. -/
theorem nEscOf_eq (a e : ℝ) : SHM.nEscOf a e = erf (e / a) - 2 * e / a / √π * gauss a e := by
  unfold SHM.nEscOf gauss
  congr 3; ring

theorem hasDerivAt_nEsc {a : ℝ} (ha : 0 < a) (x : ℝ) :
    HasDerivAt (fun v => erf (v / a) - 2 * v / a / √π * gauss a v) (4 * x * x / √π / a / a / a * gauss a x) x := by
  have h1 := hasDerivAt_erf_div ha 0 x
  simp only [add_zero] at h1
  have h2 : HasDerivAt (fun v : ℝ => 2 * v / a / √π) (2 / a / √π) x := by
    have := (((hasDerivAt_id' x).const_mul 2).div_const a).div_const √π
    exact this.congr_deriv (by ring)
  have h3 := h1.sub (h2.mul (hasDerivAt_gauss a x))
  refine h3.congr_deriv ?_
  have := sqrt_pi_pos
  field_simp; ring

theorem nEscOf_pos {a e : ℝ} (ha : 0 < a) (he : 0 < e) : 0 < SHM.nEscOf a e := by
  have hπ := sqrt_pi_pos
  have hd := hasDerivAt_nEsc ha
  have h : StrictMonoOn (fun v => erf (v / a) - 2 * v / a / √π * gauss a v) (Set.Ici 0) := by
    apply strictMonoOn_of_deriv_pos (convex_Ici 0)
    · exact fun x _ => (hd x).continuousAt.continuousWithinAt
    · intro x hx
      rw [interior_Ici] at hx
      have hx : 0 < x := hx
      rw [(hd x).deriv]
      have := gauss_pos a x
      positivity
  have h1 := h (Set.mem_Ici.2 le_rfl) (Set.mem_Ici.2 he.le) he
  simp only [zero_div, mul_zero, zero_mul, erf_zero, sub_zero] at h1
  rw [nEscOf_eq]; exact h1

/-! ### Reachable states -/

theorem vnorm_nonneg (v : Vec) : 0 ≤ vnorm v := Real.sqrt_nonneg _

theorem vnorm_y {x : ℝ} (hx : 0 ≤ x) : vnorm ![0, x, 0] = x := by
  simp [vnorm, dot, Real.sqrt_mul_self hx]

/-- The two constructors with explicit parameters agree. -/
theorem makeSpeed_eq {rho v0 vobs vesc : ℝ} (h : 0 ≤ vobs) :
    SHM.makeSpeed rho v0 vobs vesc = SHM.makeVel rho v0 ![0, vobs, 0] vesc := by
  unfold SHM.makeSpeed SHM.makeVel
  rw [vnorm_y h]

theorem step_makeVel (U : Units) (p : HaloParams) (op : SHM.Op) :
    SHM.step U (SHM.makeVel p.rho p.v0 p.vel p.vesc) op =
      SHM.makeVel (p.after U op).rho (p.after U op).v0 (p.after U op).vel (p.after U op).vesc := by
  cases op <;> rfl

theorem run_makeVel (U : Units) (p : HaloParams) (ops : List SHM.Op) :
    SHM.run U (SHM.makeVel p.rho p.v0 p.vel p.vesc) ops =
      SHM.makeVel (ops.foldl (HaloParams.after U) p).rho (ops.foldl (HaloParams.after U) p).v0
        (ops.foldl (HaloParams.after U) p).vel (ops.foldl (HaloParams.after U) p).vesc := by
  induction ops generalizing p with
  | nil => rfl
  | cons op ops ih =>
    simp only [SHM.run, List.foldl_cons] at ih ⊢
    rw [step_makeVel]
    exact ih (p.after U op)

theorem reachable_eq {U : Units} {s : SHM} (h : SHM.Reachable U s) :
    s = SHM.makeVel s.density s.v0 s.velObs s.vEsc := by
  obtain ⟨s0, ops, hb, rfl⟩ := h
  cases hb with
  | speed rho v0 vobs vesc h =>
    rw [makeSpeed_eq h, run_makeVel U ⟨rho, v0, ![0, vobs, 0], vesc⟩ ops]; rfl
  | vel rho v0 vel vesc => rw [run_makeVel U ⟨rho, v0, vel, vesc⟩ ops]; rfl

/-- What is used of a reachable state with physical parameters. -/
structure SHM.WF (s : SHM) : Prop where
  vMin : s.vMin = 0
  vMax : s.vMax = s.vEsc + s.vObs
  nEsc : s.nEsc = SHM.nEscOf s.v0 s.vEsc
  v0_pos : 0 < s.v0
  vEsc_pos : 0 < s.vEsc
  vObs_nonneg : 0 ≤ s.vObs
  vObs_eq : s.vObs = vnorm s.velObs

theorem SHM.WF.of_reachable {U : Units} {s : SHM} (h : SHM.Reachable U s) (hp : s.Physical) : s.WF := by
  have he := reachable_eq h
  refine ⟨?_, ?_, ?_, hp.1, hp.2, ?_, ?_⟩
  · rw [he]; rfl
  · rw [he]; rfl
  · rw [he]; rfl
  · rw [he]; exact vnorm_nonneg _
  · rw [he]; rfl

theorem SHM.WF.nEsc_pos {s : SHM} (h : s.WF) : 0 < s.nEsc := by
  rw [h.nEsc]; exact nEscOf_pos h.v0_pos h.vEsc_pos

/-! ### The speed distribution -/

/-- The PDF inside its domain, for a moving observer. -/
theorem pdfSpeed_moving {s : SHM} (h : s.WF) (ho : 0 < s.vObs) {v : ℝ} (hv : 0 ≤ v) (hv' : v ≤ s.vMax) :
    s.pdfSpeed v = v / s.nEsc / s.v0 / √π / s.vObs *
      (gauss s.v0 (v - s.vObs) - (if v + s.vObs < s.vEsc then gauss s.v0 (v + s.vObs) else gauss s.v0 s.vEsc)) := by
  unfold SHM.pdfSpeed SHM.pdfSpeedSHM
  rw [if_neg (by rw [h.vMin]; push Not; exact ⟨hv, hv'⟩), if_pos ho]
  congr 1
  have e1 : 2 * exp (-(v * v + s.vObs * s.vObs) / s.v0 / s.v0) * sinh (2 * v * s.vObs / s.v0 / s.v0) =
      gauss s.v0 (v - s.vObs) - gauss s.v0 (v + s.vObs) := by
    rw [Real.sinh_eq, gauss, gauss]
    have h1 : -((v - s.vObs) / s.v0) ^ 2 = -(v * v + s.vObs * s.vObs) / s.v0 / s.v0 + 2 * v * s.vObs / s.v0 / s.v0 := by
      ring
    have h2 : -((v + s.vObs) / s.v0) ^ 2 = -(v * v + s.vObs * s.vObs) / s.v0 / s.v0 + -(2 * v * s.vObs / s.v0 / s.v0) := by
      ring
    rw [h1, h2, exp_add, exp_add]; ring
  have e2 : exp (-(v + s.vObs) ^ 2 / s.v0 / s.v0) = gauss s.v0 (v + s.vObs) := by
    unfold gauss; congr 1; ring
  have e3 : exp (-s.vEsc * s.vEsc / s.v0 / s.v0) = gauss s.v0 s.vEsc := by
    unfold gauss; congr 1; ring
  rw [e1, e2, e3, abs_of_nonneg (by linarith), stepFunction]
  by_cases hc : v + s.vObs < s.vEsc
  · rw [if_neg (by linarith), if_pos hc]; ring
  · rw [if_pos (by linarith), if_neg hc]; ring

/-- The PDF inside its domain, for an observer at rest. -/
theorem pdfSpeed_rest {s : SHM} (h : s.WF) (ho : s.vObs = 0) {v : ℝ} (hv : 0 ≤ v) (hv' : v ≤ s.vMax) :
    s.pdfSpeed v = 4 * v * v / s.nEsc / √π / s.v0 / s.v0 / s.v0 * gauss s.v0 v := by
  unfold SHM.pdfSpeed SHM.pdfSpeedSHM
  rw [if_neg (by rw [h.vMin]; push Not; exact ⟨hv, hv'⟩), if_neg (by rw [ho]; exact lt_irrefl 0), stepFunction,
    if_pos (by linarith)]
  have e : exp (-v * v / s.v0 / s.v0) = gauss s.v0 v := by unfold gauss; congr 1; ring
  rw [e, mul_one]

/-- First branch of the antiderivative. -/
noncomputable def cdf1 (N a o v : ℝ) : ℝ :=
  1 / 2 / N * (erf ((v + -o) / a) + erf ((v + o) / a) - a / o / √π * (gauss a (v + -o) - gauss a (v + o)))

/-- The term added beyond `v_esc - v_obs`. -/
noncomputable def cdf2 (N a o e v : ℝ) : ℝ :=
  1 / 2 / N * (erf (e / a) - erf ((v + o) / a) - a / o / √π * gauss a (v + o) +
    (a * a - v * v + (e - o) * (e - o)) / o / a / √π * gauss a e)

theorem hasDerivAt_gauss_add (a c x : ℝ) :
    HasDerivAt (fun v => gauss a (v + c)) (-(2 * (x + c) / a / a) * gauss a (x + c)) x := by
  have h1 : HasDerivAt (fun v : ℝ => v + c) 1 x := (hasDerivAt_id' x).add_const c
  refine ((hasDerivAt_gauss a (x + c)).comp x h1).congr_deriv ?_
  ring

theorem hasDerivAt_cdf1 {N a o : ℝ} (hN : 0 < N) (ha : 0 < a) (ho : 0 < o) (v : ℝ) :
    HasDerivAt (cdf1 N a o) (v / N / a / √π / o * (gauss a (v - o) - gauss a (v + o))) v := by
  have hπ := sqrt_pi_pos
  have h := (((hasDerivAt_erf_div ha (-o) v).add (hasDerivAt_erf_div ha o v)).sub
    (((hasDerivAt_gauss_add a (-o) v).sub (hasDerivAt_gauss_add a o v)).const_mul (a / o / √π))).const_mul (1 / 2 / N)
  refine h.congr_deriv ?_
  rw [sub_eq_add_neg v o]
  generalize gauss a (v + -o) = g1
  generalize gauss a (v + o) = g2
  field_simp
  ring

theorem hasDerivAt_cdf2 {N a o : ℝ} (e : ℝ) (hN : 0 < N) (ha : 0 < a) (ho : 0 < o) (v : ℝ) :
    HasDerivAt (cdf2 N a o e) (v / N / a / √π / o * (gauss a (v + o) - gauss a e)) v := by
  have hπ := sqrt_pi_pos
  have hq : HasDerivAt (fun v : ℝ => (a * a - v * v + (e - o) * (e - o)) / o / a / √π * gauss a e)
      (-(2 * v) / o / a / √π * gauss a e) v := by
    have := (((((((hasDerivAt_id' v).mul (hasDerivAt_id' v)).const_sub (a * a)).add_const ((e - o) * (e - o))).div_const o).div_const
      a).div_const √π).mul_const (gauss a e)
    exact this.congr_deriv (by ring)
  have h := ((((hasDerivAt_const v (erf (e / a))).sub (hasDerivAt_erf_div ha o v)).sub
    ((hasDerivAt_gauss_add a o v).const_mul (a / o / √π))).add hq).const_mul (1 / 2 / N)
  refine h.congr_deriv ?_
  generalize gauss a e = g1
  generalize gauss a (v + o) = g2
  field_simp
  ring

theorem cdf1_zero (N a o : ℝ) : cdf1 N a o 0 = 0 := by
  unfold cdf1
  rw [zero_add, zero_add, neg_div, erf_neg, gauss_neg]; ring

theorem cdf2_seam {N a o : ℝ} (e : ℝ) (ha : 0 < a) (ho : 0 < o) : cdf2 N a o e (e - o) = 0 := by
  have hπ := sqrt_pi_pos
  unfold cdf2
  rw [sub_add_cancel]
  generalize gauss a e = g
  field_simp
  ring

theorem cdf_end {a o e : ℝ} (ha : 0 < a) (ho : 0 < o) (he : 0 < e) :
    cdf1 (SHM.nEscOf a e) a o (e + o) + cdf2 (SHM.nEscOf a e) a o e (e + o) = 1 := by
  have hN := nEscOf_pos ha he
  have hπ := sqrt_pi_pos
  have h := nEscOf_eq a e
  unfold cdf1 cdf2
  rw [show e + o + -o = e by ring, ← mul_add]
  have : erf (e / a) + erf ((e + o + o) / a) - a / o / √π * (gauss a e - gauss a (e + o + o)) +
      (erf (e / a) - erf ((e + o + o) / a) - a / o / √π * gauss a (e + o + o) +
        (a * a - (e + o) * (e + o) + (e - o) * (e - o)) / o / a / √π * gauss a e) = 2 * SHM.nEscOf a e := by
    rw [h]
    generalize gauss a e = g
    generalize gauss a (e + o + o) = g2
    field_simp
    ring
  rw [this]; field_simp

/-- The formula evaluated by `CDF_Speed` inside the domain, for a moving observer. -/
theorem cdfSpeed_moving {s : SHM} (h : s.WF) (ho : 0 < s.vObs) {v : ℝ} (hv : 0 < v) (hv' : v < s.vMax) :
    s.cdfSpeed v = cdf1 s.nEsc s.v0 s.vObs v +
      (if s.vEsc - s.vObs < v then cdf2 s.nEsc s.v0 s.vObs s.vEsc v else 0) := by
  unfold SHM.cdfSpeed SHM.cdfSpeedSHM
  rw [if_neg (by rw [h.vMin]; linarith), if_neg (by linarith), if_pos ho]
  have g1 : exp (-(v - s.vObs) * (v - s.vObs) / s.v0 / s.v0) = gauss s.v0 (v + -s.vObs) := by
    unfold gauss; congr 1; ring
  have g2 : exp (-(v + s.vObs) * (v + s.vObs) / s.v0 / s.v0) = gauss s.v0 (v + s.vObs) := by
    unfold gauss; congr 1; ring
  have g3 : exp (-s.vEsc * s.vEsc / s.v0 / s.v0) = gauss s.v0 s.vEsc := by
    unfold gauss; congr 1; ring
  simp only [g1, g2, g3]
  unfold cdf1 cdf2
  rw [sub_eq_add_neg v]
  split_ifs <;> ring

theorem cdfSpeed_rest {s : SHM} (h : s.WF) (ho : s.vObs = 0) {v : ℝ} (hv : 0 < v) (hv' : v < s.vMax) :
    s.cdfSpeed v = 1 / s.nEsc * (erf (v / s.v0) - 2 * v / s.v0 / √π * gauss s.v0 v) := by
  unfold SHM.cdfSpeed SHM.cdfSpeedSHM
  rw [if_neg (by rw [h.vMin]; linarith), if_neg (by linarith), if_neg (by rw [ho]; exact lt_irrefl 0)]
  have g1 : exp (-v * v / s.v0 / s.v0) = gauss s.v0 v := by
    unfold gauss; congr 1; ring
  rw [g1, div_right_comm (2 * v)]

/-- `∫₀^v` of the PDF for a moving observer, up to and beyond the seam. -/
theorem integral_pdf_moving {s : SHM} (h : s.WF) (ho : 0 < s.vObs) (hoe : s.vObs ≤ s.vEsc) {v : ℝ} (hv : 0 ≤ v)
    (hv' : v ≤ s.vMax) :
    IntervalIntegrable s.pdfSpeed MeasureTheory.volume 0 v ∧
    ∫ x in (0 : ℝ)..v, s.pdfSpeed x = cdf1 s.nEsc s.v0 s.vObs v +
      (if s.vEsc - s.vObs < v then cdf2 s.nEsc s.v0 s.vObs s.vEsc v else 0) := by
  have hN := h.nEsc_pos
  have ha := h.v0_pos
  have hcg := continuous_gauss s.v0
  set f1 : ℝ → ℝ := fun v => v / s.nEsc / s.v0 / √π / s.vObs * (gauss s.v0 (v - s.vObs) - gauss s.v0 (v + s.vObs)) with hf1
  set f2 : ℝ → ℝ := fun v => v / s.nEsc / s.v0 / √π / s.vObs * (gauss s.v0 (v + s.vObs) - gauss s.v0 s.vEsc) with hf2
  have hc1 : Continuous f1 := by rw [hf1]; fun_prop
  have hc2 : Continuous f2 := by rw [hf2]; fun_prop
  have i1 : ∀ a b, ∫ x in a..b, f1 x = cdf1 s.nEsc s.v0 s.vObs b - cdf1 s.nEsc s.v0 s.vObs a := fun a b =>
    intervalIntegral.integral_eq_sub_of_hasDerivAt (fun x _ => hasDerivAt_cdf1 hN ha ho x) (hc1.intervalIntegrable _ _)
  have i2 : ∀ a b, ∫ x in a..b, f2 x = cdf2 s.nEsc s.v0 s.vObs s.vEsc b - cdf2 s.nEsc s.v0 s.vObs s.vEsc a := fun a b =>
    intervalIntegral.integral_eq_sub_of_hasDerivAt (fun x _ => hasDerivAt_cdf2 _ hN ha ho x) (hc2.intervalIntegrable _ _)
  have low : ∀ w, 0 ≤ w → w ≤ s.vEsc - s.vObs → w ≤ s.vMax → Set.EqOn f1 s.pdfSpeed (Set.uIcc 0 w) := by
    intro w hw0 hw hwm x hx
    rw [Set.uIcc_of_le hw0] at hx
    rw [pdfSpeed_moving h ho hx.1 (hx.2.trans hwm), hf1]
    dsimp only
    by_cases hc : x + s.vObs < s.vEsc
    · rw [if_pos hc]
    · have : x + s.vObs = s.vEsc := le_antisymm (by linarith [hx.2]) (not_lt.1 hc)
      rw [if_neg hc, this]
  by_cases hs : s.vEsc - s.vObs < v
  · rw [if_pos hs]
    have hse : 0 ≤ s.vEsc - s.vObs := by linarith
    have up : Set.EqOn (fun x => f1 x + f2 x) s.pdfSpeed (Set.uIcc (s.vEsc - s.vObs) v) := by
      intro x hx
      rw [Set.uIcc_of_le hs.le] at hx
      rw [pdfSpeed_moving h ho (by linarith [hx.1]) (hx.2.trans hv'), if_neg (by linarith [hx.1])]
      simp only [hf1, hf2]; ring
    have l := low _ hse le_rfl (by linarith)
    have hi1 : IntervalIntegrable s.pdfSpeed MeasureTheory.volume 0 (s.vEsc - s.vObs) :=
      (hc1.intervalIntegrable _ _).congr (l.mono Set.uIoc_subset_uIcc)
    have hi2 : IntervalIntegrable s.pdfSpeed MeasureTheory.volume (s.vEsc - s.vObs) v :=
      ((hc1.add hc2).intervalIntegrable _ _).congr (up.mono Set.uIoc_subset_uIcc)
    refine ⟨hi1.trans hi2, ?_⟩
    rw [← intervalIntegral.integral_add_adjacent_intervals hi1 hi2,
      ← intervalIntegral.integral_congr l, ← intervalIntegral.integral_congr up,
      intervalIntegral.integral_add (hc1.intervalIntegrable _ _) (hc2.intervalIntegrable _ _), i1, i1, i2, cdf1_zero,
      cdf2_seam s.vEsc ha ho]
    ring
  · rw [if_neg hs]
    have l := low v hv (not_lt.1 hs) hv'
    refine ⟨(hc1.intervalIntegrable _ _).congr (l.mono Set.uIoc_subset_uIcc), ?_⟩
    rw [← intervalIntegral.integral_congr l, i1, cdf1_zero]; ring

theorem integral_pdf_rest {s : SHM} (h : s.WF) (ho : s.vObs = 0) {v : ℝ} (hv : 0 ≤ v) (hv' : v ≤ s.vMax) :
    IntervalIntegrable s.pdfSpeed MeasureTheory.volume 0 v ∧
    ∫ x in (0 : ℝ)..v, s.pdfSpeed x = 1 / s.nEsc * (erf (v / s.v0) - 2 * v / s.v0 / √π * gauss s.v0 v) := by
  have hN := h.nEsc_pos
  have ha := h.v0_pos
  have hcg := continuous_gauss s.v0
  set f : ℝ → ℝ := fun v => 1 / s.nEsc * (4 * v * v / √π / s.v0 / s.v0 / s.v0 * gauss s.v0 v) with hf
  have hc : Continuous f := by rw [hf]; fun_prop
  have l : Set.EqOn f s.pdfSpeed (Set.uIcc 0 v) := by
    intro x hx
    rw [Set.uIcc_of_le hv] at hx
    rw [pdfSpeed_rest h ho hx.1 (hx.2.trans hv'), hf]
    simp only; field_simp
  refine ⟨(hc.intervalIntegrable _ _).congr (l.mono Set.uIoc_subset_uIcc), ?_⟩
  rw [← intervalIntegral.integral_congr l,
    intervalIntegral.integral_eq_sub_of_hasDerivAt (fun x _ => (hasDerivAt_nEsc ha x).const_mul (1 / s.nEsc))
      (hc.intervalIntegrable _ _)]
  simp [erf_zero]

/-! ### The eta function -/

/-- Second branch of eta (`vMin ≤ v_esc - v_obs`). -/
noncomputable def eta2 (N a o e v : ℝ) : ℝ :=
  1 / 2 / N / o * (erf ((v + o) / a) - erf ((v + -o) / a) - 4 / √π * (o / a) * gauss a e)

/-- First branch of eta (`v_esc - v_obs < vMin`). -/
noncomputable def eta1 (N a o e v : ℝ) : ℝ :=
  1 / 2 / N / o * (erf (e / a) - erf ((v + -o) / a) - 2 / √π * ((e + o - v) / a) * gauss a e)

theorem hasDerivAt_eta2 {N a o : ℝ} (e : ℝ) (hN : 0 < N) (ha : 0 < a) (ho : 0 < o) (v : ℝ) :
    HasDerivAt (eta2 N a o e) (-(1 / N / a / √π / o * (gauss a (v - o) - gauss a (v + o)))) v := by
  have hπ := sqrt_pi_pos
  have h := (((hasDerivAt_erf_div ha o v).sub (hasDerivAt_erf_div ha (-o) v)).sub_const
    (4 / √π * (o / a) * gauss a e)).const_mul (1 / 2 / N / o)
  refine h.congr_deriv ?_
  rw [sub_eq_add_neg v o]
  field_simp
  ring

theorem hasDerivAt_eta1 {N a o : ℝ} (e : ℝ) (hN : 0 < N) (ha : 0 < a) (ho : 0 < o) (v : ℝ) :
    HasDerivAt (eta1 N a o e) (-(1 / N / a / √π / o * (gauss a (v - o) - gauss a e))) v := by
  have hπ := sqrt_pi_pos
  have hq : HasDerivAt (fun v : ℝ => 2 / √π * ((e + o - v) / a) * gauss a e) (2 / √π * (-1 / a) * gauss a e) v :=
    ((((hasDerivAt_id' v).const_sub (e + o)).div_const a).const_mul (2 / √π)).mul_const _
  have h := (((hasDerivAt_const v (erf (e / a))).sub (hasDerivAt_erf_div ha (-o) v)).sub hq).const_mul (1 / 2 / N / o)
  refine h.congr_deriv ?_
  rw [sub_eq_add_neg v o]
  field_simp
  ring

theorem eta_seam {N a o : ℝ} (e : ℝ) : eta1 N a o e (e - o) = eta2 N a o e (e - o) := by
  unfold eta1 eta2
  rw [sub_add_cancel, show e + o - (e - o) = 2 * o by ring]
  ring

theorem eta1_end {N a o : ℝ} (e : ℝ) : eta1 N a o e (e + o) = 0 := by
  unfold eta1
  rw [add_neg_cancel_right, sub_self (e + o)]
  simp

/-- The integral of `f(v)/v` up to the maximal speed for a moving observer. -/
theorem integral_eta_moving {s : SHM} (h : s.WF) (ho : 0 < s.vObs) (hoe : s.vObs ≤ s.vEsc) {v : ℝ} (hv : 0 ≤ v)
    (hv' : v ≤ s.vMax) :
    IntervalIntegrable (fun x => s.pdfSpeed x / x) MeasureTheory.volume v s.vMax ∧
    ∫ x in v..s.vMax, s.pdfSpeed x / x = if s.vEsc - s.vObs < v then eta1 s.nEsc s.v0 s.vObs s.vEsc v
      else eta2 s.nEsc s.v0 s.vObs s.vEsc v := by
  have hN := h.nEsc_pos
  have ha := h.v0_pos
  have hcg := continuous_gauss s.v0
  set f1 : ℝ → ℝ := fun v => -(-(1 / s.nEsc / s.v0 / √π / s.vObs * (gauss s.v0 (v - s.vObs) - gauss s.v0 (v + s.vObs)))) with hf1
  set f2 : ℝ → ℝ := fun v => -(-(1 / s.nEsc / s.v0 / √π / s.vObs * (gauss s.v0 (v - s.vObs) - gauss s.v0 s.vEsc))) with hf2
  have hc1 : Continuous f1 := by rw [hf1]; fun_prop
  have hc2 : Continuous f2 := by rw [hf2]; fun_prop
  have i1 : ∀ a b, ∫ x in a..b, f1 x = eta2 s.nEsc s.v0 s.vObs s.vEsc a - eta2 s.nEsc s.v0 s.vObs s.vEsc b := by
    intro a b
    have := intervalIntegral.integral_eq_sub_of_hasDerivAt (a := a) (b := b)
      (fun x _ => (hasDerivAt_eta2 s.vEsc hN ha ho x).neg) (hc1.intervalIntegrable _ _)
    rw [this]; simp only [Pi.neg_apply]; ring
  have i2 : ∀ a b, ∫ x in a..b, f2 x = eta1 s.nEsc s.v0 s.vObs s.vEsc a - eta1 s.nEsc s.v0 s.vObs s.vEsc b := by
    intro a b
    have := intervalIntegral.integral_eq_sub_of_hasDerivAt (a := a) (b := b)
      (fun x _ => (hasDerivAt_eta1 s.vEsc hN ha ho x).neg) (hc2.intervalIntegrable _ _)
    rw [this]; simp only [Pi.neg_apply]; ring
  have hend : eta1 s.nEsc s.v0 s.vObs s.vEsc s.vMax = 0 := by rw [h.vMax]; exact eta1_end _
  have up : ∀ w, s.vEsc - s.vObs ≤ w → 0 ≤ w → w ≤ s.vMax →
      Set.EqOn f2 (fun x => s.pdfSpeed x / x) (Set.uIoc w s.vMax) := by
    intro w hw hw0 hwm x hx
    rw [Set.uIoc_of_le hwm] at hx
    have hx0 : 0 < x := lt_of_le_of_lt hw0 hx.1
    simp only [hf2]
    rw [pdfSpeed_moving h ho hx0.le hx.2, if_neg (by linarith [hx.1])]
    field_simp
  by_cases hs : s.vEsc - s.vObs < v
  · rw [if_pos hs]
    refine ⟨(hc2.intervalIntegrable _ _).congr (up v hs.le hv hv'), ?_⟩
    rw [← intervalIntegral.integral_congr_ae (Filter.Eventually.of_forall (fun x hx => up v hs.le hv hv' hx)), i2, hend, sub_zero]
  · rw [if_neg hs]
    push Not at hs
    have hse : 0 ≤ s.vEsc - s.vObs := by linarith
    have hsm : s.vEsc - s.vObs ≤ s.vMax := by rw [h.vMax]; linarith
    have low : Set.EqOn f1 (fun x => s.pdfSpeed x / x) (Set.uIoc v (s.vEsc - s.vObs)) := by
      intro x hx
      rw [Set.uIoc_of_le hs] at hx
      have hx0 : 0 < x := lt_of_le_of_lt hv hx.1
      simp only [hf1]
      rw [pdfSpeed_moving h ho hx0.le (hx.2.trans hsm)]
      by_cases hc : x + s.vObs < s.vEsc
      · rw [if_pos hc]; field_simp
      · have : x + s.vObs = s.vEsc := le_antisymm (by linarith [hx.2]) (not_lt.1 hc)
        rw [if_neg hc, this]; field_simp
    have u := up _ le_rfl hse hsm
    have hi1 := (hc1.intervalIntegrable v (s.vEsc - s.vObs)).congr (μ := MeasureTheory.volume) low
    have hi2 := (hc2.intervalIntegrable (s.vEsc - s.vObs) s.vMax).congr (μ := MeasureTheory.volume) u
    refine ⟨hi1.trans hi2, ?_⟩
    rw [← intervalIntegral.integral_add_adjacent_intervals hi1 hi2,
      ← intervalIntegral.integral_congr_ae (Filter.Eventually.of_forall (fun x hx => low hx)),
      ← intervalIntegral.integral_congr_ae (Filter.Eventually.of_forall (fun x hx => u hx)), i1, i2, hend, eta_seam]
    ring

theorem integral_eta_rest {s : SHM} (h : s.WF) (ho : s.vObs = 0) {v : ℝ} (hv : 0 ≤ v) (hv' : v ≤ s.vMax) :
    IntervalIntegrable (fun x => s.pdfSpeed x / x) MeasureTheory.volume v s.vMax ∧
    ∫ x in v..s.vMax, s.pdfSpeed x / x = 2 / s.nEsc / √π / s.v0 * (gauss s.v0 v - gauss s.v0 s.vEsc) := by
  have hN := h.nEsc_pos
  have ha := h.v0_pos
  have hπ := sqrt_pi_pos
  have hcg := continuous_gauss s.v0
  set f : ℝ → ℝ := fun v => -(2 / s.nEsc / √π / s.v0 * (-(2 * v / s.v0 / s.v0) * gauss s.v0 v)) with hf
  have hc : Continuous f := by rw [hf]; fun_prop
  have l : Set.EqOn f (fun x => s.pdfSpeed x / x) (Set.uIoc v s.vMax) := by
    intro x hx
    rw [Set.uIoc_of_le hv'] at hx
    have hx0 : 0 < x := lt_of_le_of_lt hv hx.1
    simp only [hf]
    rw [pdfSpeed_rest h ho hx0.le hx.2]
    field_simp; ring
  refine ⟨(hc.intervalIntegrable _ _).congr l, ?_⟩
  rw [← intervalIntegral.integral_congr_ae (Filter.Eventually.of_forall (fun x hx => l hx)),
    intervalIntegral.integral_eq_sub_of_hasDerivAt (fun x _ => ((hasDerivAt_gauss s.v0 x).const_mul (2 / s.nEsc / √π / s.v0)).neg)
      (hc.intervalIntegrable _ _)]
  simp only [Pi.neg_apply]
  rw [h.vMax, ho, add_zero]; ring

/-- What `Eta_Function` evaluates, for an observer that is not almost at rest. -/
theorem eta_moving {s : SHM} (h : s.WF) (ho : 1e-8 ≤ s.vObs / s.v0) (hoe : s.vObs ≤ s.vEsc) {v : ℝ} (hv : 0 ≤ v)
    (hw : v / s.v0 ≤ s.vObs / s.v0 + s.vEsc / s.v0 - 1e-8) :
    s.eta v = if s.vEsc - s.vObs < v then eta1 s.nEsc s.v0 s.vObs s.vEsc v
      else eta2 s.nEsc s.v0 s.vObs s.vEsc v := by
  have ha := h.v0_pos
  have hN := h.nEsc_pos
  have hπ := sqrt_pi_pos
  have hoo : 0 < s.vObs := by
    have : 0 < s.vObs / s.v0 := lt_of_lt_of_le (by norm_num) ho
    rwa [div_pos_iff_of_pos_right ha] at this
  have ge : exp (-(s.vEsc / s.v0) * (s.vEsc / s.v0)) = gauss s.v0 s.vEsc := by unfold gauss; congr 1; ring
  have w0 : |v / s.v0 - s.vObs / s.v0 - s.vEsc / s.v0| = s.vObs / s.v0 + s.vEsc / s.v0 - v / s.v0 := by
    rw [abs_of_nonpos (by linarith)]; ring
  have habs : |s.vObs / s.v0 - s.vEsc / s.v0| = (s.vEsc - s.vObs) / s.v0 := by
    rw [← sub_div, abs_div, abs_of_pos ha, abs_of_nonpos (by linarith)]; ring
  unfold SHM.eta SHM.etaSHM
  dsimp only
  rw [if_neg (by linarith), w0, if_neg (by linarith), if_neg (by linarith), habs, ge]
  have d1 := div_lt_div_iff_of_pos_right ha (a := s.vEsc - s.vObs) (b := v)
  have d2 := div_lt_div_iff_of_pos_right ha (a := s.vObs) (b := s.vEsc)
  by_cases hs : s.vEsc - s.vObs < v
  · rw [if_pos hs, if_pos (d1.2 hs)]
    unfold eta1
    rw [show v / s.v0 - s.vObs / s.v0 = (v + -s.vObs) / s.v0 by ring]
    field_simp
    ring
  · rw [if_neg hs, if_neg (fun c => hs (d1.1 c))]
    by_cases hlt : s.vObs < s.vEsc
    · rw [if_pos (d2.2 hlt)]
      unfold eta2
      rw [show v / s.v0 - s.vObs / s.v0 = (v + -s.vObs) / s.v0 by ring, ← add_div]
      field_simp
    · rw [if_neg (fun c => hlt (d2.1 c))]
      have he : s.vObs = s.vEsc := le_antisymm hoe (not_lt.1 hlt)
      have hv0 : v = 0 := le_antisymm (by linarith) hv
      unfold eta2
      rw [hv0, zero_add, zero_add, neg_div, erf_neg, h.nEsc, nEscOf_eq, he]
      have hN' := nEscOf_pos ha h.vEsc_pos
      rw [nEscOf_eq] at hN'
      have hvp := h.vEsc_pos
      generalize erf (s.vEsc / s.v0) = E at *
      generalize gauss s.v0 s.vEsc = g at *
      have : E - -E - 4 / √π * (s.vEsc / s.v0) * g = 2 * (E - 2 * s.vEsc / s.v0 / √π * g) := by ring
      rw [this]
      generalize E - 2 * s.vEsc / s.v0 / √π * g = N' at *
      field_simp

theorem eta_rest {s : SHM} (h : s.WF) (ho : s.vObs / s.v0 < 1e-8) {v : ℝ}
    (hw : v / s.v0 ≤ s.vObs / s.v0 + s.vEsc / s.v0 - 1e-8) :
    s.eta v = 2 / s.nEsc / √π / s.v0 * (gauss s.v0 v - gauss s.v0 s.vEsc) := by
  have ha := h.v0_pos
  have w0 : |v / s.v0 - s.vObs / s.v0 - s.vEsc / s.v0| = s.vObs / s.v0 + s.vEsc / s.v0 - v / s.v0 := by
    rw [abs_of_nonpos (by linarith)]; ring
  have ge : exp (-(s.vEsc / s.v0) * (s.vEsc / s.v0)) = gauss s.v0 s.vEsc := by unfold gauss; congr 1; ring
  have gv : exp (-(v / s.v0) * (v / s.v0)) = gauss s.v0 v := by unfold gauss; congr 1; ring
  unfold SHM.eta SHM.etaSHM
  dsimp only
  rw [if_neg (by linarith), w0, if_neg (by linarith), if_pos ho, ge, gv]

theorem eta_zero {s : SHM} {v : ℝ} (hw : s.vObs / s.v0 + s.vEsc / s.v0 - 1e-8 < v / s.v0) : s.eta v = 0 := by
  unfold SHM.eta SHM.etaSHM
  dsimp only
  split_ifs with h1 h2 h3 <;> first | rfl | skip
  all_goals
    exfalso
    apply h2
    rw [abs_lt]
    constructor <;> linarith

end Obscura
