import Verif.Model.HaloPP
import Verif.Lemmas.Halo
import Verif.Lemmas.Sphere

/-!
# Helper lemmas for the SHM++: the anisotropic component
-/

namespace Obscura

open Real Set MeasureTheory
open scoped ENNReal

theorem hasDerivAt_erfi (x : ℝ) : HasDerivAt erfi (2 / √π * exp (x ^ 2)) x := by
  unfold erfi
  have hc : Continuous fun t : ℝ => exp (t ^ 2) := by fun_prop
  exact (intervalIntegral.integral_hasDerivAt_right (hc.intervalIntegrable _ _)
    (hc.stronglyMeasurableAtFilter _ _) hc.continuousAt).const_mul _

theorem erfi_zero : erfi 0 = 0 := by simp [erfi]

theorem erfi_pos {x : ℝ} (hx : 0 < x) : 0 < erfi x := by
  have hmono : StrictMono erfi := strictMono_of_deriv_pos fun x => by
    rw [(hasDerivAt_erfi x).deriv]
    have := sqrt_pi_pos
    positivity
  rw [← erfi_zero]; exact hmono hx

theorem continuous_erfi : Continuous erfi :=
  (show Differentiable ℝ erfi from fun x => (hasDerivAt_erfi x).differentiableAt).continuous

/-- The normalisation of the anisotropic component as a function of the escape speed; `k` stands for `beta/(1-beta)`. -/
noncomputable def nS (sr st k x : ℝ) : ℝ :=
  erf (x / √2 / sr) - 1 / √k * exp (-x * x / 2 / st / st) * erfi (x / √2 / sr * √k)

theorem nS_zero (sr st k : ℝ) : nS sr st k 0 = 0 := by simp [nS, erf_zero, erfi_zero]

theorem hasDerivAt_nS {sr st k : ℝ} (hsr : 0 < sr) (hst : 0 < st) (hk : 0 < k) (hrel : sr ^ 2 = (1 + k) * st ^ 2) (x : ℝ) :
    HasDerivAt (nS sr st k) (x / (st ^ 2 * √k) * exp (-x * x / 2 / st / st) * erfi (x / √2 / sr * √k)) x := by
  have h2 : 0 < √(2 : ℝ) := Real.sqrt_pos.2 (by norm_num)
  have h22 : √(2 : ℝ) ^ 2 = 2 := Real.sq_sqrt (by norm_num)
  have hkk : √k ^ 2 = k := Real.sq_sqrt hk.le
  have hk' : 0 < √k := Real.sqrt_pos.2 hk
  have hπ := sqrt_pi_pos
  have d1 : HasDerivAt (fun x : ℝ => x / √2 / sr) (1 / √2 / sr) x := ((hasDerivAt_id x).div_const _).div_const _
  have d2 : HasDerivAt (fun x : ℝ => x / √2 / sr * √k) (1 / √2 / sr * √k) x := d1.mul_const _
  have d3 : HasDerivAt (fun x : ℝ => -x * x / 2 / st / st) (-(x / st ^ 2)) x := by
    have := ((((hasDerivAt_id x).neg.mul (hasDerivAt_id x)).div_const 2).div_const st).div_const st
    refine this.congr_deriv ?_
    simp only [id, Pi.neg_apply]
    field_simp
    ring
  have e1 := (hasDerivAt_erf (x / √2 / sr)).comp x d1
  have e2 := (hasDerivAt_erfi (x / √2 / sr * √k)).comp x d2
  have e3 := (d3.exp.const_mul (1 / √k)).mul e2
  refine (e1.sub e3).congr_deriv ?_
  simp only [Function.comp]
  have key : exp (-x * x / 2 / st / st) * exp ((x / √2 / sr * √k) ^ 2) = exp (-(x / √2 / sr) ^ 2) := by
    rw [← exp_add]
    congr 1
    rw [mul_pow, hkk, div_pow, div_pow, h22]
    field_simp
    rw [hrel]; ring
  have : 1 / √k * exp (-x * x / 2 / st / st) * (2 / √π * exp ((x / √2 / sr * √k) ^ 2) * (1 / √2 / sr * √k)) =
      2 / √π * (exp (-x * x / 2 / st / st) * exp ((x / √2 / sr * √k) ^ 2)) * (1 / √2 / sr) := by
    field_simp
  rw [this, key]
  field_simp
  ring

theorem nS_pos {sr st k : ℝ} (hsr : 0 < sr) (hst : 0 < st) (hk : 0 < k) (hrel : sr ^ 2 = (1 + k) * st ^ 2) {x : ℝ} (hx : 0 < x) :
    0 < nS sr st k x := by
  have hmono : StrictMonoOn (nS sr st k) (Ici 0) := by
    refine strictMonoOn_of_deriv_pos (convex_Ici 0) ?_ ?_
    · exact fun y _ => (hasDerivAt_nS hsr hst hk hrel y).continuousAt.continuousWithinAt
    · intro y hy
      rw [interior_Ici] at hy
      have hy0 : 0 < y := hy
      rw [(hasDerivAt_nS hsr hst hk hrel y).deriv]
      have h2 : 0 < √(2 : ℝ) := Real.sqrt_pos.2 (by norm_num)
      have hk' : 0 < √k := Real.sqrt_pos.2 hk
      have := erfi_pos (show 0 < y / √2 / sr * √k by positivity)
      positivity
  rw [← nS_zero sr st k]
  exact hmono (mem_Ici.2 le_rfl) (mem_Ici.2 hx.le) hx

/-- `∫ exp(κ r² c²) dc` over the cosine. -/
theorem integral_exp_sq {b : ℝ} (hb : 0 < b) : ∫ c in (-1 : ℝ)..1, exp ((b * c) ^ 2) = √π / b * erfi b := by
  have hπ := sqrt_pi_pos
  have d : ∀ c : ℝ, HasDerivAt (fun c => √π / (2 * b) * erfi (b * c)) (exp ((b * c) ^ 2)) c := by
    intro c
    have := ((hasDerivAt_erfi (b * c)).comp c ((hasDerivAt_id c).const_mul b)).const_mul (√π / (2 * b))
    refine this.congr_deriv ?_
    field_simp
  have hodd : erfi (-b) = -erfi b := by
    unfold erfi
    rw [← mul_neg]
    congr 1
    have := intervalIntegral.integral_comp_neg (a := (0 : ℝ)) (b := b) fun t : ℝ => exp (t ^ 2)
    simp only [neg_sq, neg_zero] at this
    rw [intervalIntegral.integral_symm, ← this]
  rw [intervalIntegral.integral_eq_sub_of_hasDerivAt (fun c _ => d c) (Continuous.intervalIntegrable (by fun_prop) _ _)]
  rw [mul_one, mul_neg_one, hodd]
  field_simp
  ring

/-- The anisotropic velocity PDF in components. -/
noncomputable def sausage (sr st A e x y z : ℝ) : ℝ :=
  open Classical in
  if e < √(x * x + y * y + z * z) then 0
  else A * exp (-x * x / 2 / sr / sr - z * z / 2 / st / st - y * y / 2 / st / st)

theorem sausage_nonneg {sr st A e : ℝ} (hA : 0 ≤ A) (x y z : ℝ) : 0 ≤ sausage sr st A e x y z := by
  unfold sausage; split_ifs
  · exact le_rfl
  · positivity

theorem sausage_le {sr st A e : ℝ} (hA : 0 ≤ A) (x y z : ℝ) : sausage sr st A e x y z ≤ A := by
  unfold sausage; split_ifs
  · exact hA
  · have h1 : 0 ≤ x * x / 2 / sr / sr := by rw [div_div]; exact div_nonneg (by nlinarith [mul_self_nonneg x]) (mul_self_nonneg _)
    have h2 : 0 ≤ y * y / 2 / st / st := by rw [div_div]; exact div_nonneg (by nlinarith [mul_self_nonneg y]) (mul_self_nonneg _)
    have h3 : 0 ≤ z * z / 2 / st / st := by rw [div_div]; exact div_nonneg (by nlinarith [mul_self_nonneg z]) (mul_self_nonneg _)
    have : exp (-x * x / 2 / sr / sr - z * z / 2 / st / st - y * y / 2 / st / st) ≤ 1 := by
      rw [exp_le_one_iff]
      rw [show -x * x / 2 / sr / sr = -(x * x / 2 / sr / sr) by ring]
      linarith
    nlinarith

theorem measurable_sausage (sr st A e : ℝ) : Measurable fun p : ℝ × ℝ × ℝ => sausage sr st A e p.1 p.2.1 p.2.2 := by
  unfold sausage
  refine Measurable.ite ?_ measurable_const (by fun_prop)
  exact measurableSet_lt (f := fun _ : ℝ × ℝ × ℝ => e) (g := fun p : ℝ × ℝ × ℝ => √(p.1 * p.1 + p.2.1 * p.2.1 + p.2.2 * p.2.2))
    measurable_const (by fun_prop)

/-- The integral of the anisotropic velocity PDF over all velocities. -/
theorem lintegral_sausage {sr st A e k : ℝ} (hsr : 0 < sr) (hst : 0 < st) (hk : 0 < k) (hrel : sr ^ 2 = (1 + k) * st ^ 2)
    (hA : 0 ≤ A) (he : 0 < e) :
    ∫⁻ u : Fin 3 → ℝ, ENNReal.ofReal (sausage sr st A e (u 0) (u 1) (u 2)) =
      ENNReal.ofReal (A * (2 * π) ^ (1.5 : ℝ) * sr * st ^ 2 * nS sr st k e) := by
  have h2 : 0 < √(2 : ℝ) := Real.sqrt_pos.2 (by norm_num)
  have h22 : √(2 : ℝ) ^ 2 = 2 := Real.sq_sqrt (by norm_num)
  have hkk : √k ^ 2 = k := Real.sq_sqrt hk.le
  have hk' : 0 < √k := Real.sqrt_pos.2 hk
  have hπ := sqrt_pi_pos
  have hm := (measurable_sausage sr st A e).ennreal_ofReal
  have hm' : Measurable fun p : ℝ × ℝ × ℝ => ENNReal.ofReal (sausage sr st A e p.2.2 p.2.1 p.1) :=
    hm.comp (by fun_prop : Measurable fun p : ℝ × ℝ × ℝ => (p.2.2, p.2.1, p.1))
  -- x is the polar axis
  rw [lintegral_components (fun x y z => ENNReal.ofReal (sausage sr st A e x y z)) hm]
  rw [lintegral_lintegral_swap]
  swap
  · refine Measurable.aemeasurable ?_
    refine Measurable.lintegral_prod_right' (f := fun q : (ℝ × ℝ) × ℝ => ENNReal.ofReal (sausage sr st A e q.1.2 q.2 q.1.1)) ?_
    exact hm.comp (by fun_prop : Measurable fun q : (ℝ × ℝ) × ℝ => (q.1.2, q.2, q.1.1))
  rw [lintegral_spherical (fun x y z => ENNReal.ofReal (sausage sr st A e z y x)) hm']
  set b : ℝ → ℝ := fun r => r / √2 / sr * √k with hb
  have hdirs : ∀ r ∈ Ioi (0 : ℝ), ENNReal.ofReal (r ^ 2) * dirs (fun x y z => ENNReal.ofReal (sausage sr st A e z y x)) r =
      (Ioc (0 : ℝ) e).indicator (fun r => ENNReal.ofReal (2 * π * A * √π * √2 * sr / √k * (r * exp (-r * r / 2 / st / st) * erfi (b r)))) r := by
    intro r hr
    have hr0 : (0 : ℝ) < r := hr
    have hn : ∀ c ∈ Ioo (-1 : ℝ) 1, ∀ φ, (r * c) * (r * c) + (r * sin (arccos c) * sin φ) * (r * sin (arccos c) * sin φ) +
        (r * sin (arccos c) * cos φ) * (r * sin (arccos c) * cos φ) = r ^ 2 := by
      intro t ht φ
      rw [sin_arccos]
      have h1 : √(1 - t ^ 2) ^ 2 = 1 - t ^ 2 := Real.sq_sqrt (by nlinarith [ht.1, ht.2])
      have h2 := sin_sq_add_cos_sq φ
      linear_combination r ^ 2 * √(1 - t ^ 2) ^ 2 * h2 + r ^ 2 * h1
    have hval : ∀ c ∈ Ioo (-1 : ℝ) 1, ∀ φ, sausage sr st A e (r * c) (r * sin (arccos c) * sin φ) (r * sin (arccos c) * cos φ) =
        if e < r then 0 else A * exp (-r * r / 2 / st / st) * exp ((b r * c) ^ 2) := by
      intro c hc φ
      unfold sausage
      rw [hn c hc φ, Real.sqrt_sq hr0.le]
      by_cases h : e < r
      · rw [if_pos h, if_pos h]
      · rw [if_neg h, if_neg h, mul_assoc A (exp _) (exp _), ← exp_add]
        congr 2
        have hh := hn c hc φ
        have e1 : (r * sin (arccos c) * cos φ) * (r * sin (arccos c) * cos φ) / 2 / st / st + (r * sin (arccos c) * sin φ) * (r * sin (arccos c) * sin φ) / 2 / st / st =
            (r ^ 2 - (r * c) * (r * c)) / 2 / st / st := by
          rw [← hh]; ring
        have e2 : (b r * c) ^ 2 = (r * c) * (r * c) / 2 / st / st - (r * c) * (r * c) / 2 / sr / sr := by
          simp only [hb]
          rw [mul_pow, mul_pow, hkk, div_pow, div_pow, h22]
          field_simp
          rw [hrel]; ring
        rw [e2]
        linear_combination -e1
    by_cases h : e < r
    · rw [indicator_of_notMem (fun hm : r ∈ Ioc (0 : ℝ) e => absurd hm.2 (not_le.2 h))]
      have : dirs (fun x y z => ENNReal.ofReal (sausage sr st A e z y x)) r = 0 := by
        unfold dirs
        rw [setLIntegral_congr_fun (g := fun _ => 0) measurableSet_Ioo, lintegral_zero]
        intro c hc
        simp only
        rw [setLIntegral_congr_fun (g := fun _ => 0) measurableSet_Ioo, lintegral_zero]
        intro φ _
        simp only
        rw [hval c hc φ, if_pos h, ENNReal.ofReal_zero]
      rw [this, mul_zero]
    · rw [indicator_of_mem (show r ∈ Ioc (0 : ℝ) e from ⟨hr0, not_lt.1 h⟩)]
      have hbr : 0 < b r := by simp only [hb]; positivity
      have hd : dirs (fun x y z => ENNReal.ofReal (sausage sr st A e z y x)) r =
          ENNReal.ofReal (2 * π * (A * exp (-r * r / 2 / st / st)) * (√π / b r * erfi (b r))) := by
        unfold dirs
        have h1 : ∀ c ∈ Ioo (-1 : ℝ) 1, (∫⁻ φ in Ioo (-π) π, ENNReal.ofReal (sausage sr st A e (r * c) (r * sin (arccos c) * sin φ) (r * sin (arccos c) * cos φ))) =
            ENNReal.ofReal (2 * π * (A * exp (-r * r / 2 / st / st)) * exp ((b r * c) ^ 2)) := by
          intro c hc
          rw [setLIntegral_congr_fun (g := fun _ => ENNReal.ofReal (A * exp (-r * r / 2 / st / st) * exp ((b r * c) ^ 2))) measurableSet_Ioo
            (fun φ _ => by rw [hval c hc φ, if_neg h])]
          rw [lintegral_const, Measure.restrict_apply MeasurableSet.univ, univ_inter, Real.volume_Ioo, ← ENNReal.ofReal_mul (by positivity)]
          congr 1; ring
        rw [setLIntegral_congr_fun measurableSet_Ioo h1, ← ofReal_integral_eq_lintegral_ofReal]
        · rw [← integral_Ioc_eq_integral_Ioo, ← intervalIntegral.integral_of_le (by norm_num), intervalIntegral.integral_const_mul,
            integral_exp_sq hbr]
        · exact ((by fun_prop : Continuous fun c : ℝ => 2 * π * (A * exp (-r * r / 2 / st / st)) * exp ((b r * c) ^ 2)).integrableOn_Icc).mono_set Ioo_subset_Icc_self
        · exact Filter.Eventually.of_forall fun c => by positivity
      rw [hd, ← ENNReal.ofReal_mul (by positivity)]
      congr 1
      simp only [hb]
      field_simp
  rw [setLIntegral_congr_fun measurableSet_Ioi hdirs, lintegral_indicator measurableSet_Ioc,
    Measure.restrict_restrict measurableSet_Ioc, inter_eq_left.2 Ioc_subset_Ioi_self]
  have hcont : Continuous fun r : ℝ => 2 * π * A * √π * √2 * sr / √k * (r * exp (-r * r / 2 / st / st) * erfi (b r)) := by
    have := continuous_erfi
    simp only [hb]
    fun_prop
  rw [← ofReal_integral_eq_lintegral_ofReal]
  · rw [← intervalIntegral.integral_of_le he.le]
    congr 1
    have hd : ∀ r, HasDerivAt (fun r => 2 * π * A * √π * √2 * sr * st ^ 2 * nS sr st k r)
        (2 * π * A * √π * √2 * sr / √k * (r * exp (-r * r / 2 / st / st) * erfi (b r))) r := by
      intro r
      refine ((hasDerivAt_nS hsr hst hk hrel r).const_mul _).congr_deriv ?_
      simp only [hb]
      field_simp
    rw [intervalIntegral.integral_eq_sub_of_hasDerivAt (fun r _ => hd r) (hcont.intervalIntegrable _ _), nS_zero]
    have : (2 * π) ^ (1.5 : ℝ) = 2 * π * (√π * √2) := by
      rw [show (1.5 : ℝ) = 1 + 1 / 2 by norm_num, rpow_add (by positivity), rpow_one, ← Real.sqrt_eq_rpow,
        Real.sqrt_mul (by norm_num)]
      ring
    rw [this]; ring
  · exact hcont.integrableOn_Icc.mono_set Ioc_subset_Icc_self
  · refine (ae_restrict_iff' measurableSet_Ioc).2 (Filter.Eventually.of_forall fun r hr => ?_)
    have hr0 := hr.1
    have hbr : 0 < b r := by simp only [hb]; positivity
    have := erfi_pos hbr
    show 0 ≤ _
    positivity

end Obscura
