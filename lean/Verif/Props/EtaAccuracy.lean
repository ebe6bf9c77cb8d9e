import Verif.Props.HaloGuards

/-!
# C17 — how far the eta function can be off

`C17_eta_partial` is exact outside two numerical windows, and `C17_fails_window` and `C17_fails_slow_observer` show that it is not inside
them. Here: nowhere is the error larger than `4e-8 / (√π N_esc v_0)`.
-/

namespace Obscura

open Spec Real MeasureTheory

theorem two_mul_exp_neg_sq_le (t : ℝ) : |2 * t * exp (-t ^ 2)| ≤ 1 := by
  rw [abs_mul, abs_of_pos (exp_pos _), exp_neg, ← div_eq_mul_inv, div_le_one (exp_pos _)]
  have h1 := add_one_le_exp (t ^ 2)
  have h2 : |2 * t| ≤ t ^ 2 + 1 := by
    rw [abs_le]; constructor <;> nlinarith [sq_nonneg (t + 1), sq_nonneg (t - 1)]
  linarith

theorem exp_neg_sq_lipschitz (x y : ℝ) : |exp (-x ^ 2) - exp (-y ^ 2)| ≤ |x - y| := by
  have hd : ∀ t : ℝ, HasDerivAt (fun t : ℝ => exp (-t ^ 2)) (exp (-t ^ 2) * (-(2 * t))) t := fun t => by
    have := ((hasDerivAt_id' t).pow 2).neg.exp
    refine this.congr_deriv ?_
    simp
  have := Convex.norm_image_sub_le_of_norm_hasDerivWithin_le (f := fun t : ℝ => exp (-t ^ 2)) (C := 1) (s := Set.univ)
    (fun t _ => (hd t).hasDerivWithinAt) (fun t _ => ?_) convex_univ (Set.mem_univ y) (Set.mem_univ x)
  · simpa using this
  · have h := two_mul_exp_neg_sq_le t
    rw [Real.norm_eq_abs, show exp (-t ^ 2) * -(2 * t) = -(2 * t * exp (-t ^ 2)) by ring, abs_neg]
    exact h

theorem gauss_lipschitz {a : ℝ} (ha : 0 < a) (x y : ℝ) : |gauss a x - gauss a y| ≤ |x - y| / a := by
  have := exp_neg_sq_lipschitz (x / a) (y / a)
  unfold gauss
  rwa [← sub_div, abs_div, abs_of_pos ha] at this

/-- The error function between two points, compared with a constant integrand. -/
theorem erf_sub_le {x y c B : ℝ} (hxy : x ≤ y) (hB : ∀ t, x ≤ t → t ≤ y → |exp (-t ^ 2) - c| ≤ B) :
    |erf y - erf x - 2 / √π * (y - x) * c| ≤ 2 / √π * (y - x) * B := by
  have hπ := sqrt_pi_pos
  have hi : ∀ u w : ℝ, IntervalIntegrable (fun t : ℝ => exp (-t ^ 2)) volume u w := fun u w =>
    (by fun_prop : Continuous fun t : ℝ => exp (-t ^ 2)).intervalIntegrable u w
  have e : erf y - erf x - 2 / √π * (y - x) * c = 2 / √π * ∫ t in x..y, (exp (-t ^ 2) - c) := by
    unfold erf
    rw [intervalIntegral.integral_sub (hi _ _) intervalIntegrable_const, intervalIntegral.integral_const, smul_eq_mul,
      ← intervalIntegral.integral_interval_sub_left (hi 0 y) (hi 0 x)]
    ring
  rw [e, abs_mul, abs_of_pos (by positivity : 0 < 2 / √π), mul_assoc]
  refine mul_le_mul_of_nonneg_left ?_ (by positivity)
  have := intervalIntegral.norm_integral_le_of_norm_le_const (a := x) (b := y) (C := B) (f := fun t : ℝ => exp (-t ^ 2) - c)
    (fun t ht => by
      rw [Set.uIoc_of_le hxy] at ht
      exact hB t ht.1.le ht.2)
  rw [abs_of_nonneg (sub_nonneg.2 hxy), Real.norm_eq_abs] at this
  linarith

/-- C17, without guards. In every state with `v_obs ≤ v_esc` and for every minimal speed, `Eta_Function` differs from the integral of
`PDF_Speed(v)/v` by at most `4e-8 / (√π N_esc v_0)`, where `N_esc` is the normalisation of the truncated Maxwell distribution. (For an
observer at rest and without cutoff the value at minimal speed 0 is `2 / (√π v_0)`.) -/
theorem C17_accuracy (U : Units) (s : SHM) (h : SHM.Reachable U s) (hp : s.Physical) (hoe : s.vObs ≤ s.vEsc)
    (v : ℝ) (hv : 0 ≤ v) (hv' : v ≤ s.vMax) :
    |s.eta v - ∫ x in v..s.vMax, s.pdfSpeed x / x| ≤
      4e-8 / (√π * (erf (s.vEsc / s.v0) - 2 / √π * (s.vEsc / s.v0) * exp (-(s.vEsc / s.v0) ^ 2)) * s.v0) := by
  have hw := SHM.WF.of_reachable h hp
  have ha := hw.v0_pos
  have hN := hw.nEsc_pos
  have hπ := sqrt_pi_pos
  have hNe : erf (s.vEsc / s.v0) - 2 / √π * (s.vEsc / s.v0) * exp (-(s.vEsc / s.v0) ^ 2) = s.nEsc := by
    rw [hw.nEsc]
    unfold SHM.nEscOf
    ring_nf
  rw [hNe]
  set K := 1 / (√π * s.nEsc * s.v0) with hK
  have hKp : 0 < K := by positivity
  have goal_eq : 4e-8 / (√π * s.nEsc * s.v0) = 4e-8 * K := by rw [hK]; ring
  rw [goal_eq]
  have hnn := (integral_eta_nonneg hw hoe hv le_rfl hv').1
  rcases lt_or_ge (s.vMax - 1e-8 * s.v0) v with hend | hin
  · -- the end of the range: the code returns 0
    have h0 : s.eta v = 0 := by
      apply eta_zero
      rw [lt_div_iff₀ ha, sub_mul, add_mul, div_mul_cancel₀ _ ha.ne', div_mul_cancel₀ _ ha.ne']
      rw [hw.vMax] at hend; linarith
    rw [h0, zero_sub, abs_neg, abs_of_nonneg hnn]
    rcases hw.vObs_nonneg.lt_or_eq with ho | ho
    · have hb : ∀ x ∈ Set.Ioc v s.vMax, s.pdfSpeed x / x ≤ 2 * K / s.v0 := by
        intro x hx
        have hx0 : 0 < x := lt_of_le_of_lt hv hx.1
        rw [pdfSpeed_moving hw ho hx0.le hx.2]
        have hd : gauss s.v0 (x - s.vObs) - (if x + s.vObs < s.vEsc then gauss s.v0 (x + s.vObs) else gauss s.v0 s.vEsc) ≤
            2 * s.vObs / s.v0 := by
          split_ifs with hc
          · refine (le_abs_self _).trans ((gauss_lipschitz ha _ _).trans ?_)
            rw [show x - s.vObs - (x + s.vObs) = -(2 * s.vObs) by ring, abs_neg, abs_of_pos (by linarith)]
          · refine (le_abs_self _).trans ((gauss_lipschitz ha _ _).trans ?_)
            have := hx.2
            rw [hw.vMax] at this
            rw [abs_of_nonpos (by linarith)]
            exact div_le_div_of_nonneg_right (by linarith [not_lt.1 hc]) ha.le
        have e : x / s.nEsc / s.v0 / √π / s.vObs *
            (gauss s.v0 (x - s.vObs) - if x + s.vObs < s.vEsc then gauss s.v0 (x + s.vObs) else gauss s.v0 s.vEsc) / x =
            K / s.vObs *
            (gauss s.v0 (x - s.vObs) - if x + s.vObs < s.vEsc then gauss s.v0 (x + s.vObs) else gauss s.v0 s.vEsc) := by
          rw [hK]; field_simp
        rw [e]
        calc _ ≤ K / s.vObs * (2 * s.vObs / s.v0) := mul_le_mul_of_nonneg_left hd (by positivity)
          _ = 2 * K / s.v0 := by field_simp
      calc ∫ x in v..s.vMax, s.pdfSpeed x / x ≤ ∫ x in v..s.vMax, 2 * K / s.v0 := by
            rw [intervalIntegral.integral_of_le hv', intervalIntegral.integral_of_le hv']
            apply MeasureTheory.setIntegral_mono_on
            · exact (intervalIntegrable_iff_integrableOn_Ioc_of_le hv').1 (integral_eta_moving hw ho hoe hv hv').1
            · exact (intervalIntegrable_iff_integrableOn_Ioc_of_le hv').1 intervalIntegrable_const
            · exact measurableSet_Ioc
            · exact hb
        _ = (s.vMax - v) * (2 * K / s.v0) := by rw [intervalIntegral.integral_const, smul_eq_mul]
        _ ≤ (1e-8 * s.v0) * (2 * K / s.v0) := mul_le_mul_of_nonneg_right (by linarith) (by positivity)
        _ = 2e-8 * K := by field_simp; norm_num
        _ ≤ 4e-8 * K := mul_le_mul_of_nonneg_right (by norm_num) hKp.le
    · rw [(integral_eta_rest hw ho.symm hv hv').2]
      have hvm : s.vMax = s.vEsc := by rw [hw.vMax, ← ho, add_zero]
      have hd : gauss s.v0 v - gauss s.v0 s.vEsc ≤ 1e-8 := by
        refine (le_abs_self _).trans ((gauss_lipschitz ha _ _).trans ?_)
        rw [hvm] at hend hv'
        rw [abs_of_nonpos (by linarith), div_le_iff₀ ha]
        linarith
      calc _ ≤ 2 / s.nEsc / √π / s.v0 * 1e-8 := mul_le_mul_of_nonneg_left hd (by positivity)
        _ = 2e-8 * K := by rw [hK]; field_simp; norm_num
        _ ≤ 4e-8 * K := mul_le_mul_of_nonneg_right (by norm_num) hKp.le
  · by_cases ho : s.vObs = 0 ∨ 1e-8 * s.v0 ≤ s.vObs
    · rw [C17_eta_partial U s h hp hoe ho v hv hin, sub_self, abs_zero]
      positivity
    · -- a slow observer: the code uses the formula for an observer at rest
      push Not at ho
      have hoo : 0 < s.vObs := lt_of_le_of_ne hw.vObs_nonneg (Ne.symm ho.1)
      have hr : s.vObs / s.v0 < 1e-8 := by rw [div_lt_iff₀ ha]; exact ho.2
      have hwin : v / s.v0 ≤ s.vObs / s.v0 + s.vEsc / s.v0 - 1e-8 := by
        rw [hw.vMax] at hin
        rw [div_le_iff₀ ha, sub_mul, add_mul, div_mul_cancel₀ _ ha.ne', div_mul_cancel₀ _ ha.ne']
        linarith
      have hve : v ≤ s.vEsc := by rw [hw.vMax] at hin; linarith [ho.2]
      have hrK : K * (s.vObs / s.v0) ≤ 1e-8 * K := by
        rw [mul_comm]; exact mul_le_mul_of_nonneg_right hr.le hKp.le
      have heta : s.eta v = 2 * K * (gauss s.v0 v - gauss s.v0 s.vEsc) := by
        rw [eta_rest hw hr hwin, hK]; field_simp
      have hint := (integral_eta_moving hw hoo hoe hv hv').2
      split_ifs at hint with hc
      · -- `vEsc - vObs < v`: both values are small
        have h1 : |eta1 s.nEsc s.v0 s.vObs s.vEsc v| ≤ 4e-8 * K := by
          set L := (s.vEsc + s.vObs - v) / s.v0 with hL
          have hL0 : 0 ≤ L := div_nonneg (by rw [hw.vMax] at hv'; linarith) ha.le
          have hL1 : L ≤ 2 * (s.vObs / s.v0) := by
            rw [hL, ← mul_div_assoc]; exact div_le_div_of_nonneg_right (by linarith) ha.le
          have hlen : s.vEsc / s.v0 - (v + -s.vObs) / s.v0 = L := by rw [hL]; field_simp; ring
          have := erf_sub_le (x := (v + -s.vObs) / s.v0) (y := s.vEsc / s.v0) (c := gauss s.v0 s.vEsc) (B := L)
            (by linarith) (fun t h1 h2 => by
              refine (exp_neg_sq_lipschitz _ _).trans ?_
              rw [abs_of_nonpos (by linarith)]
              linarith)
          rw [hlen] at this
          unfold eta1
          rw [abs_mul, abs_of_pos (by positivity : 0 < 1 / 2 / s.nEsc / s.vObs)]
          calc _ ≤ 1 / 2 / s.nEsc / s.vObs * (2 / √π * L * L) := mul_le_mul_of_nonneg_left this (by positivity)
            _ ≤ 1 / 2 / s.nEsc / s.vObs * (2 / √π * (2 * (s.vObs / s.v0)) * (2 * (s.vObs / s.v0))) := by gcongr
            _ = 4 * (K * (s.vObs / s.v0)) := by rw [hK]; field_simp; norm_num
            _ ≤ 4 * (1e-8 * K) := by linarith
            _ = 4e-8 * K := by ring
        have h2 : 0 ≤ s.eta v ∧ s.eta v ≤ 2e-8 * K := by
          rw [heta]
          have hg1 := gauss_le_of_abs_le (a := s.v0) (x := v) (y := s.vEsc)
            (by rw [abs_of_nonneg hv, abs_of_pos hw.vEsc_pos]; exact hve)
          have hg2 := (le_abs_self _).trans (gauss_lipschitz ha v s.vEsc)
          have hg3 : |v - s.vEsc| / s.v0 ≤ s.vObs / s.v0 :=
            div_le_div_of_nonneg_right (by rw [abs_of_nonpos (by linarith)]; linarith) ha.le
          refine ⟨mul_nonneg (by positivity) (by linarith), ?_⟩
          calc _ ≤ 2 * K * (s.vObs / s.v0) := mul_le_mul_of_nonneg_left (hg2.trans hg3) (by positivity)
            _ ≤ 2e-8 * K := by nlinarith
        rw [hint] at hnn ⊢
        rw [abs_of_nonneg hnn] at h1
        rw [abs_le]
        constructor <;> nlinarith [h2.1, h2.2]
      · -- the mean of the Gaussian over `[v - vObs, v + vObs]` instead of its value at `v`
        have hlen : (v + s.vObs) / s.v0 - (v + -s.vObs) / s.v0 = 2 * (s.vObs / s.v0) := by field_simp; ring
        have hpos : 0 < s.vObs / s.v0 := div_pos hoo ha
        have h1 : (v + s.vObs) / s.v0 = v / s.v0 + s.vObs / s.v0 := add_div _ _ _
        have := erf_sub_le (x := (v + -s.vObs) / s.v0) (y := (v + s.vObs) / s.v0) (c := gauss s.v0 v) (B := s.vObs / s.v0)
          (by linarith) (fun t h2 h3 => by
            refine (exp_neg_sq_lipschitz _ _).trans ?_
            rw [abs_le]; constructor <;> linarith)
        rw [hlen] at this
        have e : s.eta v - eta2 s.nEsc s.v0 s.vObs s.vEsc v = -(1 / 2 / s.nEsc / s.vObs *
            (erf ((v + s.vObs) / s.v0) - erf ((v + -s.vObs) / s.v0) - 2 / √π * (2 * (s.vObs / s.v0)) * gauss s.v0 v)) := by
          rw [heta, hK]
          unfold eta2
          field_simp
          ring
        rw [hint, e, abs_neg, abs_mul, abs_of_pos (by positivity : 0 < 1 / 2 / s.nEsc / s.vObs)]
        calc _ ≤ 1 / 2 / s.nEsc / s.vObs * (2 / √π * (2 * (s.vObs / s.v0)) * (s.vObs / s.v0)) :=
              mul_le_mul_of_nonneg_left this (by positivity)
          _ = 2 * (K * (s.vObs / s.v0)) := by rw [hK]; field_simp
          _ ≤ 4e-8 * K := by nlinarith

/-- The hypotheses hold in particular inside the two windows where the value is not exact. -/
example : ∃ s v, SHM.Reachable Units.sample s ∧ s.Physical ∧ s.vObs ≤ s.vEsc ∧ 0 ≤ v ∧ v ≤ s.vMax ∧
    s.eta v ≠ ∫ x in v..s.vMax, s.pdfSpeed x / x := by
  have hr : SHM.Reachable Units.sample (SHM.makeSpeed 1 2 1e-9 7) := ⟨_, [], .speed 1 2 1e-9 7 (by norm_num), rfl⟩
  have hp : (SHM.makeSpeed 1 2 1e-9 7).Physical := by norm_num [SHM.Physical, SHM.makeSpeed, SHM.normalize]
  refine ⟨SHM.makeSpeed 1 2 1e-9 7, 0, hr, hp, by norm_num [SHM.makeSpeed, SHM.normalize], le_rfl,
    by norm_num [SHM.makeSpeed, SHM.normalize], ?_⟩
  exact (C17_fails_slow_observer Units.sample _ hr hp (by norm_num [SHM.makeSpeed, SHM.normalize])
    (by norm_num [SHM.makeSpeed, SHM.normalize]) (by norm_num [SHM.makeSpeed, SHM.normalize])).ne'

end Obscura
