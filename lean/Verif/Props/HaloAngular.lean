import Verif.Spec.Halo
import Verif.Lemmas.Halo
import Verif.Lemmas.Sphere

/-!
# Property C21: the speed distribution is the angular integral of the velocity distribution
-/

namespace Obscura

open Real Set MeasureTheory

theorem dot_self_nonneg (u : Vec) : 0 ≤ dot u u := by unfold dot; nlinarith [mul_self_nonneg (u 0), mul_self_nonneg (u 1), mul_self_nonneg (u 2)]

theorem vnorm_sq (u : Vec) : vnorm u ^ 2 = dot u u := Real.sq_sqrt (dot_self_nonneg u)

/-- The velocity PDF as a function of the squared speed. -/
noncomputable def maxwell (a e C q : ℝ) : ℝ := open Classical in if e < √q ∨ √q ≤ 0 then 0 else C * exp (-1 * q / a / a)

theorem maxwell_nonneg {a e C : ℝ} (hC : 0 ≤ C) (q : ℝ) : 0 ≤ maxwell a e C q := by
  unfold maxwell; split_ifs
  · exact le_rfl
  · positivity

theorem maxwell_le {a e C : ℝ} (hC : 0 ≤ C) (q : ℝ) : maxwell a e C q ≤ C := by
  unfold maxwell; split_ifs with h
  · exact hC
  · have hq : 0 < q := by
      push Not at h
      exact Real.sqrt_pos.1 h.2
    have : exp (-1 * q / a / a) ≤ 1 := by
      rw [exp_le_one_iff, div_div, neg_one_mul, neg_div]
      have := div_nonneg hq.le (mul_self_nonneg a)
      linarith
    nlinarith

theorem measurable_maxwell (a e C : ℝ) : Measurable (maxwell a e C) := by
  unfold maxwell
  refine Measurable.ite ?_ measurable_const (by fun_prop)
  exact (measurableSet_lt (f := fun _ : ℝ => e) (g := fun q : ℝ => √q) measurable_const (by fun_prop)).union
    (measurableSet_le (f := fun q : ℝ => √q) (g := fun _ : ℝ => 0) (by fun_prop) measurable_const)

/-- The integral over the cosine of the angle between the velocity and the motion of the observer. -/
theorem integral_maxwell {a e C o v : ℝ} (ha : 0 < a) (he : 0 < e) (ho : 0 < o) (hv : 0 < v) (hoe : o ≤ e) (hve : v ≤ e + o) :
    ∫ t in (-1 : ℝ)..1, maxwell a e C (v ^ 2 + o ^ 2 + 2 * v * (o * t)) =
      C * a ^ 2 / (2 * v * o) * (gauss a (v - o) - (if v + o < e then gauss a (v + o) else gauss a e)) := by
  -- the upper end of the support
  obtain ⟨T, hT1, hT2, hTle, hTval⟩ : ∃ T : ℝ, -1 ≤ T ∧ T ≤ 1 ∧ (∀ t ∈ Ioc (-1 : ℝ) 1, v ^ 2 + o ^ 2 + 2 * v * (o * t) ≤ e ^ 2 ↔ t ≤ T) ∧
      exp (-((v ^ 2 + o ^ 2 + 2 * v * (o * T)) / a ^ 2)) = (if v + o < e then gauss a (v + o) else gauss a e) := by
    have hvo : 0 < 2 * v * o := by positivity
    by_cases h : v + o < e
    · refine ⟨1, by norm_num, le_rfl, fun t ht => ⟨fun _ => ht.2, fun _ => ?_⟩, ?_⟩
      · have h1 : 2 * v * (o * t) ≤ 2 * v * o := by nlinarith [mul_le_mul_of_nonneg_left ht.2 hvo.le]
        nlinarith [mul_self_le_mul_self (by linarith : 0 ≤ v + o) h.le]
      · rw [if_pos h]; unfold gauss; congr 1; field_simp; ring
    · refine ⟨(e ^ 2 - v ^ 2 - o ^ 2) / (2 * v * o), ?_, ?_, fun t _ => ?_, ?_⟩
      · rw [le_div_iff₀ hvo]
        have : |v - o| ≤ e := by rw [abs_le]; constructor <;> linarith
        nlinarith [sq_abs (v - o), abs_nonneg (v - o)]
      · rw [div_le_iff₀ hvo]; nlinarith
      · rw [le_div_iff₀ hvo]; constructor <;> intro h' <;> nlinarith
      · rw [if_neg h]; unfold gauss; congr 1; field_simp; ring
  have hI : (fun t => maxwell a e C (v ^ 2 + o ^ 2 + 2 * v * (o * t))) =ᵐ[volume.restrict (Ioc (-1 : ℝ) 1)]
      (Ioc (-1) T).indicator fun t => C * exp (-((v ^ 2 + o ^ 2 + 2 * v * (o * t)) / a ^ 2)) := by
    refine (ae_restrict_iff' measurableSet_Ioc).2 (Filter.Eventually.of_forall fun t ht => ?_)
    have hq : 0 < v ^ 2 + o ^ 2 + 2 * v * (o * t) := by
      have : 0 < 2 * v * o * (t + 1) := by have := ht.1; apply mul_pos (by positivity); linarith
      nlinarith [sq_nonneg (v - o)]
    have hs := Real.sqrt_pos.2 hq
    unfold maxwell
    beta_reduce
    by_cases h : t ≤ T
    · rw [indicator_of_mem (show t ∈ Ioc (-1) T from ⟨ht.1, h⟩), if_neg]
      · congr 2; ring
      · push Not
        exact ⟨by rw [← Real.sqrt_sq he.le]; exact Real.sqrt_le_sqrt ((hTle t ht).2 h), hs⟩
    · rw [indicator_of_notMem (fun hm : t ∈ Ioc (-1) T => h hm.2), if_pos]
      left
      rw [Real.lt_sqrt he.le]
      by_contra hc
      exact h ((hTle t ht).1 (not_lt.1 hc))
  rw [intervalIntegral.integral_of_le (by norm_num), integral_congr_ae hI, integral_indicator measurableSet_Ioc,
    Measure.restrict_restrict measurableSet_Ioc, inter_eq_left.2 (Ioc_subset_Ioc le_rfl hT2),
    ← intervalIntegral.integral_of_le hT1]
  have hd : ∀ t, HasDerivAt (fun t => -(C * a ^ 2 / (2 * v * o)) * exp (-((v ^ 2 + o ^ 2 + 2 * v * (o * t)) / a ^ 2)))
      (C * exp (-((v ^ 2 + o ^ 2 + 2 * v * (o * t)) / a ^ 2))) t := by
    intro t
    have h1 : HasDerivAt (fun t : ℝ => -((v ^ 2 + o ^ 2 + 2 * v * (o * t)) / a ^ 2)) (-(2 * v * o / a ^ 2)) t := by
      have := (((((hasDerivAt_id t).const_mul o).const_mul (2 * v)).const_add (v ^ 2 + o ^ 2)).div_const (a ^ 2)).neg
      refine this.congr_deriv ?_; ring
    refine (h1.exp.const_mul _).congr_deriv ?_
    field_simp
  rw [intervalIntegral.integral_eq_sub_of_hasDerivAt (fun t _ => hd t) (Continuous.intervalIntegrable (by fun_prop) _ _), hTval]
  have : exp (-((v ^ 2 + o ^ 2 + 2 * v * (o * -1)) / a ^ 2)) = gauss a (v - o) := by
    unfold gauss; congr 1; field_simp; ring
  rw [this]; ring

/-- The angular integral of the velocity PDF in terms of the angle to the observer's motion. -/
theorem angular_eq {s : SHM} (h : s.WF) (v : ℝ) :
    (∫ c in (-1 : ℝ)..1, ∫ φ in (0 : ℝ)..(2 * π), v * v * s.pdfVelocity (sphericalCoordinates v (arccos c) φ)) =
      v * v * (2 * π * ∫ t in (-1 : ℝ)..1, maxwell s.v0 s.vEsc (1 / s.nEsc * ((s.v0 * √π) ^ 3)⁻¹) (v ^ 2 + s.vObs ^ 2 + 2 * v * (s.vObs * t))) := by
  have hN := h.nEsc_pos
  have ha := h.v0_pos
  have hπ := sqrt_pi_pos
  set C := 1 / s.nEsc * ((s.v0 * √π) ^ 3)⁻¹ with hC
  have hC0 : 0 ≤ C := by positivity
  have h1 : ∀ c φ, s.pdfVelocity (sphericalCoordinates v (arccos c) φ) =
      maxwell s.v0 s.vEsc C (v ^ 2 + s.vObs ^ 2 + 2 * v * (s.velObs 0 * (sin (arccos c) * cos φ) + s.velObs 1 * (sin (arccos c) * sin φ) + s.velObs 2 * cos (arccos c))) := by
    intro c φ
    have hd : dot (sphericalCoordinates v (arccos c) φ + s.velObs) (sphericalCoordinates v (arccos c) φ + s.velObs) =
        v ^ 2 + s.vObs ^ 2 + 2 * v * (s.velObs 0 * (sin (arccos c) * cos φ) + s.velObs 1 * (sin (arccos c) * sin φ) + s.velObs 2 * cos (arccos c)) := by
      rw [h.vObs_eq, vnorm_sq]
      simp only [dot, sphericalCoordinates, Pi.add_apply, Matrix.cons_val_zero, Matrix.cons_val_one, Matrix.cons_val]
      have e1 := sin_sq_add_cos_sq φ
      have e2 := sin_sq_add_cos_sq (arccos c)
      linear_combination v ^ 2 * sin (arccos c) ^ 2 * e1 + v ^ 2 * e2
    unfold SHM.pdfVelocity SHM.pdfVelocitySHM maxwell vnorm
    rw [hd, h.vMin]
  simp_rw [h1, intervalIntegral.integral_const_mul]
  have hz := integral_zonal (fun x => maxwell s.v0 s.vEsc C (v ^ 2 + s.vObs ^ 2 + 2 * v * x))
    ((measurable_maxwell _ _ _).comp (by fun_prop)) (fun _ => maxwell_nonneg hC0 _) (fun _ => maxwell_le hC0 _)
    (s.velObs 0) (s.velObs 1) (s.velObs 2)
  have hn : √(s.velObs 0 ^ 2 + s.velObs 1 ^ 2 + s.velObs 2 ^ 2) = s.vObs := by
    rw [h.vObs_eq, vnorm, dot]; congr 1; ring
  rw [hn] at hz
  rw [hz]

/-- C21 for observers not faster than the escape speed: the speed PDF of the halo model is the integral of its velocity PDF
over all directions (the definition that the base class `DM_Distribution` uses for every other distribution), at every
speed. Missing: `v_obs > v_esc` and the default constructor (see `C21_fails`). -/
theorem C21_angular_partial (U : Units) (s : SHM) (h : SHM.Reachable U s) (hp : s.Physical) (hoe : s.vObs ≤ s.vEsc)
    (v : ℝ) (hv : 0 ≤ v) :
    s.pdfSpeed v =
      ∫ c in (-1 : ℝ)..1, ∫ φ in (0 : ℝ)..(2 * π), v * v * s.pdfVelocity (sphericalCoordinates v (arccos c) φ) := by
  have hw := SHM.WF.of_reachable h hp
  have hN := hw.nEsc_pos
  have ha := hw.v0_pos
  have he := hw.vEsc_pos
  have hπ := sqrt_pi_pos
  have hpi : √π ^ 2 = π := Real.sq_sqrt pi_pos.le
  rw [angular_eq hw]
  rcases hv.lt_or_eq with hv | rfl
  · by_cases hm : v ≤ s.vMax
    · rcases hw.vObs_nonneg.lt_or_eq with ho | ho
      · rw [integral_maxwell ha he ho hv hoe (by rw [← hw.vMax]; exact hm), pdfSpeed_moving hw ho hv.le hm]
        generalize (gauss s.v0 (v - s.vObs) - (if v + s.vObs < s.vEsc then gauss s.v0 (v + s.vObs) else gauss s.v0 s.vEsc)) = X
        nth_rw 2 [← hpi]
        field_simp
      · have hve : v ≤ s.vEsc := by rw [hw.vMax, ← ho] at hm; linarith
        rw [pdfSpeed_rest hw ho.symm hv.le hm, ← ho]
        have hmx : ∀ t : ℝ, maxwell s.v0 s.vEsc (1 / s.nEsc * ((s.v0 * √π) ^ 3)⁻¹) (v ^ 2 + 0 ^ 2 + 2 * v * (0 * t)) =
            1 / s.nEsc * ((s.v0 * √π) ^ 3)⁻¹ * gauss s.v0 v := by
          intro t
          unfold maxwell
          rw [show v ^ 2 + 0 ^ 2 + 2 * v * (0 * t) = v ^ 2 by ring, Real.sqrt_sq hv.le, if_neg (by push Not; exact ⟨hve, hv⟩)]
          congr 1; unfold gauss; congr 1; field_simp
        simp_rw [hmx]
        rw [intervalIntegral.integral_const, smul_eq_mul]
        generalize gauss s.v0 v = X
        nth_rw 2 [← hpi]
        field_simp
        norm_num
        ring
    · have hz : ∀ t ∈ uIcc (-1 : ℝ) 1, maxwell s.v0 s.vEsc (1 / s.nEsc * ((s.v0 * √π) ^ 3)⁻¹) (v ^ 2 + s.vObs ^ 2 + 2 * v * (s.vObs * t)) = 0 := by
        intro t ht
        rw [uIcc_of_le (by norm_num)] at ht
        unfold maxwell
        rw [if_pos]
        left
        rw [Real.lt_sqrt he.le]
        have ho := hw.vObs_nonneg
        rw [hw.vMax] at hm
        push Not at hm
        have h1 : 0 ≤ 2 * v * s.vObs * (t + 1) := by have := ht.1; apply mul_nonneg (by positivity); linarith
        nlinarith
      rw [intervalIntegral.integral_congr (g := fun _ => 0) hz]
      unfold SHM.pdfSpeed SHM.pdfSpeedSHM
      rw [if_pos (Or.inr (not_le.1 hm))]
      simp
  · have hm : (0 : ℝ) ≤ s.vMax := by rw [hw.vMax]; linarith [hw.vObs_nonneg]
    rcases hw.vObs_nonneg.lt_or_eq with ho | ho
    · rw [pdfSpeed_moving hw ho le_rfl hm]; simp
    · rw [pdfSpeed_rest hw ho.symm le_rfl hm]; simp

/-- C21 fails for an observer faster than the escape speed: at every speed below `v_obs - v_esc` no direction carries any
probability, but the speed PDF does not vanish. -/
theorem C21_fails (U : Units) (s : SHM) (h : SHM.Reachable U s) (hp : s.Physical) (v : ℝ) (hv : 0 < v)
    (hv' : v < s.vObs - s.vEsc) :
    s.pdfSpeed v ≠
      ∫ c in (-1 : ℝ)..1, ∫ φ in (0 : ℝ)..(2 * π), v * v * s.pdfVelocity (sphericalCoordinates v (arccos c) φ) := by
  have hw := SHM.WF.of_reachable h hp
  have hN := hw.nEsc_pos
  have ha := hw.v0_pos
  have he := hw.vEsc_pos
  have hπ := sqrt_pi_pos
  have ho : 0 < s.vObs := by linarith
  have hneg : s.pdfSpeed v < 0 := by
    rw [pdfSpeed_moving hw ho hv.le (by rw [hw.vMax]; linarith), if_neg (by linarith)]
    apply mul_neg_of_pos_of_neg (by positivity)
    rw [sub_neg]
    apply gauss_lt_of_abs_lt ha
    rw [abs_of_pos he, abs_of_nonpos (by linarith)]; linarith
  refine ne_of_lt (lt_of_lt_of_le hneg ?_)
  rw [angular_eq hw]
  apply mul_nonneg (mul_self_nonneg v)
  apply mul_nonneg (by positivity)
  exact intervalIntegral.integral_nonneg (by norm_num) fun t _ => maxwell_nonneg (by positivity) _

example : ∃ s, SHM.Reachable Units.sample s ∧ s.Physical ∧ s.vObs ≤ s.vEsc ∧ 0 < s.vObs :=
  ⟨SHM.makeSpeed 1 2 3 7, ⟨_, [], .speed 1 2 3 7 (by norm_num), rfl⟩, by norm_num [SHM.Physical, SHM.makeSpeed, SHM.normalize],
    by norm_num [SHM.makeSpeed, SHM.normalize], by norm_num [SHM.makeSpeed, SHM.normalize]⟩

example : ∃ s, SHM.Reachable Units.sample s ∧ s.Physical ∧ 0 < s.vObs - s.vEsc :=
  ⟨SHM.makeSpeed 1 2 9 7, ⟨_, [], .speed 1 2 9 7 (by norm_num), rfl⟩, by norm_num [SHM.Physical, SHM.makeSpeed, SHM.normalize],
    by norm_num [SHM.makeSpeed, SHM.normalize]⟩

end Obscura
