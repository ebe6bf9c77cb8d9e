import Verif.Lemmas.MaximumGap
import Mathlib.MeasureTheory.Integral.Prod
import Mathlib.MeasureTheory.Measure.Lebesgue.Integral
import Mathlib.Analysis.Normed.Ring.InfiniteSum

/-!
# Helper lemmas: the maximum-gap distribution for stronger and weaker signals

`volumeBelow x n L` is the volume of the set of `n` ordered points in an interval of length `L` without a gap of length `x`.
-/

namespace Obscura.MaximumGap

open MeasureTheory Set

variable {x : ℝ}

/-- The gaps that are allowed. -/
noncomputable def gap (x : ℝ) : ℝ → ℝ := (Ico 0 x).indicator fun _ => 1

noncomputable def volumeBelow (x : ℝ) : ℕ → ℝ → ℝ
  | 0, L => gap x L
  | n + 1, L => ∫ t, gap x t * volumeBelow x n (L - t)

theorem gap_nonneg (t : ℝ) : 0 ≤ gap x t := indicator_nonneg (fun _ _ => zero_le_one) t

theorem gap_le_one (t : ℝ) : gap x t ≤ 1 := indicator_le' (fun _ _ => le_rfl) (fun _ _ => zero_le_one) t

theorem gap_measurable : Measurable (gap x) := measurable_const.indicator measurableSet_Ico

theorem gap_integrable : Integrable (gap x) := by
  unfold gap
  rw [integrable_indicator_iff measurableSet_Ico]
  exact integrableOn_const (by simp)

theorem gap_mem {t : ℝ} (h : t ∈ Ico 0 x) : gap x t = 1 := indicator_of_mem h _

theorem gap_not_mem {t : ℝ} (h : t ∉ Ico 0 x) : gap x t = 0 := indicator_of_notMem h _

theorem gap_integral (f : ℝ → ℝ) : ∫ t, gap x t * f t = ∫ t in Ico 0 x, f t := by
  rw [← integral_indicator measurableSet_Ico]
  congr 1
  ext t
  by_cases h : t ∈ Ico 0 x
  · rw [gap_mem h, indicator_of_mem h, one_mul]
  · rw [gap_not_mem h, indicator_of_notMem h, zero_mul]

theorem gap_interval (hx : 0 ≤ x) (f : ℝ → ℝ) : ∫ t, gap x t * f t = ∫ t in (0 : ℝ)..x, f t := by
  rw [gap_integral, intervalIntegral.integral_of_le hx, integral_Ico_eq_integral_Ioo, integral_Ioc_eq_integral_Ioo]

/-- The weights of the first gap. -/
theorem weight_integrable : Integrable fun t => t * gap x t := by
  have h : (fun t : ℝ => t * gap x t) = (Ico 0 x).indicator fun t => t := by
    ext t
    by_cases h : t ∈ Ico 0 x
    · rw [gap_mem h, indicator_of_mem h, mul_one]
    · rw [gap_not_mem h, indicator_of_notMem h, mul_zero]
  rw [h, integrable_indicator_iff measurableSet_Ico]
  exact (continuous_id.integrableOn_Icc).mono_set Ico_subset_Icc_self

theorem bounded (hx : 0 ≤ x) : ∀ n, Measurable (volumeBelow x n) ∧ ∀ L, 0 ≤ volumeBelow x n L ∧ volumeBelow x n L ≤ x ^ n
  | 0 => ⟨gap_measurable, fun L => ⟨gap_nonneg L, by simpa [volumeBelow] using gap_le_one L⟩⟩
  | n + 1 => by
    obtain ⟨hm, hb⟩ := bounded hx n
    refine ⟨?_, fun L => ⟨?_, ?_⟩⟩
    · have : Measurable fun z : ℝ × ℝ => gap x z.2 * volumeBelow x n (z.1 - z.2) :=
        (gap_measurable.comp measurable_snd).mul (hm.comp (measurable_fst.sub measurable_snd))
      exact this.stronglyMeasurable.integral_prod_right.measurable
    · exact integral_nonneg fun t => mul_nonneg (gap_nonneg t) (hb _).1
    · simp only [volumeBelow]
      rw [gap_interval hx]
      refine (intervalIntegral.norm_integral_le_of_norm_le_const (C := x ^ n) (fun t _ => ?_)).trans' (Real.le_norm_self _) |>.trans ?_
      · rw [Real.norm_of_nonneg (hb _).1]; exact (hb _).2
      · rw [sub_zero, abs_of_nonneg hx, pow_succ]

theorem mul_integrable (hx : 0 ≤ x) {f : ℝ → ℝ} (hf : Integrable f) (n : ℕ) (L : ℝ) :
    Integrable fun t => f t * volumeBelow x n (L - t) := by
  obtain ⟨hm, hb⟩ := bounded hx n
  refine hf.mul_bdd (c := x ^ n) (hm.comp (measurable_const.sub measurable_id)).aestronglyMeasurable (.of_forall fun t => ?_)
  rw [Real.norm_of_nonneg (hb _).1]
  exact (hb _).2

/-- The order in which two gaps are chosen does not matter. -/
theorem swap (hx : 0 ≤ x) {f g : ℝ → ℝ} (hf : Integrable f) (hg : Integrable g) (n : ℕ) (L : ℝ) :
    ∫ t, f t * ∫ s, g s * volumeBelow x n (L - t - s) = ∫ s, g s * ∫ t, f t * volumeBelow x n (L - s - t) := by
  obtain ⟨hm, hb⟩ := bounded hx n
  simp only [← integral_const_mul]
  rw [integral_integral_swap]
  · congr 1; ext s; congr 1; ext t
    rw [show L - t - s = L - s - t by ring]
    ring
  · have h1 := (hf.mul_prod hg).mul_bdd (c := x ^ n) (g := fun z : ℝ × ℝ => volumeBelow x n (L - z.1 - z.2))
      (hm.comp ((measurable_const.sub measurable_fst).sub measurable_snd)).aestronglyMeasurable (.of_forall fun z => by
        rw [Real.norm_of_nonneg (hb _).1]; exact (hb _).2)
    refine h1.congr (.of_forall fun z => ?_)
    simp only [Function.uncurry]
    ring

/-- Each of the gaps is as good as any other. -/
theorem length_mul (hx : 0 ≤ x) : ∀ n L, L * volumeBelow x (n + 1) L = (n + 2) * ∫ t, t * gap x t * volumeBelow x n (L - t)
  | 0, L => by
    simp only [volumeBelow]
    rw [← integral_const_mul]
    have h1 : ∀ t, L * (gap x t * gap x (L - t)) = t * gap x t * gap x (L - t) + (L - t) * gap x (L - t) * gap x (L - (L - t)) := by
      intro t; rw [sub_sub_cancel]; ring
    simp only [h1]
    have hi := mul_integrable hx (weight_integrable (x := x)) 0 L
    simp only [volumeBelow] at hi
    rw [integral_add hi ((hi.comp_sub_left L)), integral_sub_left_eq_self (fun t => t * gap x t * gap x (L - t)) volume L]
    ring
  | n + 1, L => by
    have hi := mul_integrable hx (weight_integrable (x := x)) (n + 1) L
    have h1 : L * volumeBelow x (n + 2) L = ∫ t, t * gap x t * volumeBelow x (n + 1) (L - t) +
        gap x t * ((L - t) * volumeBelow x (n + 1) (L - t)) := by
      rw [volumeBelow, ← integral_const_mul]
      congr 1; ext t; ring
    have h2 : (fun t => gap x t * ((L - t) * volumeBelow x (n + 1) (L - t))) = fun t => (n + 2 : ℝ) * (gap x t *
        ∫ s, s * gap x s * volumeBelow x n (L - t - s)) := by
      ext t; rw [length_mul hx n (L - t)]; ring
    have h3 : Integrable fun t => gap x t * ((L - t) * volumeBelow x (n + 1) (L - t)) := by
      have := ((mul_integrable hx (gap_integrable (x := x)) (n + 1) L).const_mul L).sub hi
      refine this.congr (.of_forall fun t => ?_)
      simp only [Pi.sub_apply]
      ring
    rw [h1, integral_add hi h3, h2, integral_const_mul, swap hx gap_integrable weight_integrable]
    have h4 : ∀ s, ∫ t, gap x t * volumeBelow x n (L - s - t) = volumeBelow x (n + 1) (L - s) := fun s => by rw [volumeBelow]
    simp only [h4]
    push_cast
    ring

/-- A gap may be split in two. -/
theorem split (hx : 0 ≤ x) (r : ℝ) : r * gap x r ≤ volumeBelow x 1 r := by
  by_cases h : r ∈ Ico 0 x
  · rw [gap_mem h, mul_one]
    simp only [volumeBelow]
    have h1 : ∫ t in (0 : ℝ)..r, (1 : ℝ) = r := by simp
    refine h1.symm.trans_le ?_
    rw [← gap_interval h.1]
    have hb : ∀ t, gap r t * 1 ≤ gap x t * gap x (r - t) := by
      intro t
      by_cases ht : t ∈ Ico 0 r
      · rw [gap_mem ht, gap_mem ⟨ht.1, ht.2.trans h.2⟩, gap_mem ⟨by linarith [ht.2], by linarith [ht.1, h.2]⟩]
      · rw [gap_not_mem ht, zero_mul]; exact mul_nonneg (gap_nonneg _) (gap_nonneg _)
    exact integral_mono (by simpa using gap_integrable) (by simpa only [volumeBelow] using mul_integrable hx gap_integrable 0 r) hb
  · rw [gap_not_mem h, mul_zero]; exact ((bounded hx 1).2 r).1

/-- Points with one more point between them. -/
theorem two_gaps (hx : 0 ≤ x) (n : ℕ) (L : ℝ) : volumeBelow x (n + 2) L = ∫ r, volumeBelow x 1 r * volumeBelow x n (L - r) := by
  obtain ⟨hm, hb⟩ := bounded hx n
  have h1 : ∀ t, volumeBelow x (n + 1) (L - t) = ∫ r, gap x (r - t) * volumeBelow x n (L - r) := by
    intro t
    rw [volumeBelow, ← integral_sub_right_eq_self (fun s => gap x s * volumeBelow x n (L - t - s)) t]
    congr 1; ext r
    rw [show L - t - (r - t) = L - r by ring]
  have h2 : ∀ r, volumeBelow x 1 r = ∫ t, gap x t * gap x (r - t) := fun r => rfl
  rw [volumeBelow]
  simp only [h1, h2, ← integral_const_mul, ← integral_mul_const]
  rw [integral_integral_swap]
  · congr 1; ext r; congr 1; ext t; ring
  · have hd : Integrable fun z : ℝ × ℝ => gap x z.1 * gap (2 * x) z.2 := gap_integrable.mul_prod gap_integrable
    refine (hd.mul_const (x ^ n)).mono' ?_ (.of_forall fun z => ?_)
    · exact ((gap_measurable.comp measurable_fst).mul ((gap_measurable.comp (measurable_snd.sub measurable_fst)).mul
        (hm.comp (measurable_const.sub measurable_snd)))).aestronglyMeasurable
    · simp only [Function.uncurry]
      rw [Real.norm_of_nonneg (mul_nonneg (gap_nonneg _) (mul_nonneg (gap_nonneg _) (hb _).1)), mul_assoc]
      by_cases h1 : z.1 ∈ Ico 0 x
      · by_cases h2 : z.2 - z.1 ∈ Ico 0 x
        · rw [gap_mem h1, gap_mem h2, gap_mem (show z.2 ∈ Ico 0 (2 * x) from ⟨by linarith [h1.1, h2.1], by linarith [h1.2, h2.2]⟩)]
          simpa using (hb _).2
        · rw [gap_not_mem h2, zero_mul, mul_zero]
          exact mul_nonneg (gap_nonneg _) (mul_nonneg (gap_nonneg _) (pow_nonneg hx n))
      · rw [gap_not_mem h1, zero_mul, zero_mul]

/-- One more event makes large gaps less likely. -/
theorem more_events (hx : 0 ≤ x) : ∀ n L, L * volumeBelow x n L ≤ (n + 1) * volumeBelow x (n + 1) L
  | 0, L => by simpa [volumeBelow] using split hx L
  | n + 1, L => by
    rw [length_mul hx, two_gaps hx]
    push_cast
    rw [show (n : ℝ) + 1 + 1 = n + 2 by ring]
    refine mul_le_mul_of_nonneg_left ?_ (by positivity)
    refine integral_mono (mul_integrable hx weight_integrable n L) ?_ fun r => mul_le_mul_of_nonneg_right (split hx r) ((bounded hx n).2 _).1
    have h1 : Integrable (volumeBelow x 1) := by
      have hd : Integrable fun z => x * gap (2 * x) z := gap_integrable.const_mul x
      refine hd.mono' (bounded hx 1).1.aestronglyMeasurable (.of_forall fun r => ?_)
      rw [Real.norm_of_nonneg ((bounded hx 1).2 r).1]
      by_cases h : r ∈ Ico 0 (2 * x)
      · rw [gap_mem h, mul_one]; simpa using ((bounded hx 1).2 r).2
      · rw [gap_not_mem h, mul_zero]
        simp only [volumeBelow]
        rw [integral_eq_zero_of_ae (.of_forall fun t => ?_)]
        simp only [Pi.zero_apply]
        by_cases h1 : t ∈ Ico 0 x
        · rw [gap_not_mem (t := r - t), mul_zero]
          rintro ⟨h2, h3⟩
          exact h ⟨by linarith [h1.1], by linarith [h1.2]⟩
        · rw [gap_not_mem h1, zero_mul]
    exact mul_integrable hx h1 n L

theorem volume_neg : ∀ n {L : ℝ}, L < 0 → volumeBelow x n L = 0
  | 0, L, h => gap_not_mem fun h' => absurd h'.1 (by linarith)
  | n + 1, L, h => by
    rw [volumeBelow, integral_eq_zero_of_ae (.of_forall fun t => ?_)]
    by_cases ht : t ∈ Ico 0 x
    · simp [volume_neg n (show L - t < 0 by linarith [ht.1])]
    · simp [gap_not_mem ht]

/-- The volume is at most that of all ordered points. -/
theorem volume_le (hx : 0 ≤ x) : ∀ n {L : ℝ}, 0 ≤ L → volumeBelow x n L ≤ L ^ n / n.factorial
  | 0, L, _ => by simpa [volumeBelow] using gap_le_one L
  | n + 1, L, hL => by
    obtain ⟨hm, hb⟩ := bounded hx n
    have h1 : ∫ t in (0 : ℝ)..L, (L - t) ^ n / n.factorial = L ^ (n + 1) / (n + 1).factorial := by
      rw [intervalIntegral.integral_div, intervalIntegral.integral_comp_sub_left (fun t => t ^ n), integral_pow]
      rw [Nat.factorial_succ]
      push_cast
      have : (n.factorial : ℝ) ≠ 0 := by exact_mod_cast n.factorial_ne_zero
      field_simp
      simp
    rw [← h1, intervalIntegral.integral_of_le hL, ← integral_Icc_eq_integral_Ioc, ← integral_indicator measurableSet_Icc, volumeBelow]
    refine integral_mono (mul_integrable hx gap_integrable n L) ?_ fun t => ?_
    · rw [integrable_indicator_iff measurableSet_Icc]
      exact Continuous.integrableOn_Icc (by fun_prop)
    · by_cases ht : t ∈ Icc 0 L
      · rw [indicator_of_mem ht]
        exact (mul_le_of_le_one_left (hb _).1 (gap_le_one t)).trans (volume_le hx n (by linarith [ht.2]))
      · rw [indicator_of_notMem ht]
        rcases lt_or_ge t 0 with h | h
        · rw [gap_not_mem fun h' => absurd h'.1 (by linarith), zero_mul]
        · rw [volume_neg n (by by_contra h'; exact ht ⟨h, by linarith⟩), mul_zero]

theorem volume_small : ∀ n {L : ℝ}, 0 ≤ L → L < x → volumeBelow x n L = L ^ n / n.factorial
  | 0, L, h0, h1 => by simp [volumeBelow, gap_mem (⟨h0, h1⟩ : L ∈ Ico 0 x)]
  | n + 1, L, h0, h1 => by
    have hx : 0 ≤ x := h0.trans h1.le
    refine le_antisymm (volume_le hx _ h0) ?_
    have h2 := more_events hx n L
    rw [volume_small n h0 h1] at h2
    have : (n.factorial : ℝ) ≠ 0 := by exact_mod_cast n.factorial_ne_zero
    rw [Nat.factorial_succ]
    push_cast
    rw [div_le_iff₀ (by positivity)]
    have h3 : L * (L ^ n / n.factorial) * n.factorial = L ^ (n + 1) := by field_simp; ring
    nlinarith [mul_le_mul_of_nonneg_right h2 (by positivity : (0 : ℝ) ≤ n.factorial)]

theorem volume_scaled (hx : 0 ≤ x) {c : ℝ} (hc : 0 < c) : ∀ n L, volumeBelow (c * x) n (c * L) = c ^ n * volumeBelow x n L
  | 0, L => by
    simp only [volumeBelow, pow_zero, one_mul]
    by_cases h : L ∈ Ico 0 x
    · rw [gap_mem h, gap_mem ⟨by have := h.1; positivity, mul_lt_mul_of_pos_left h.2 hc⟩]
    · rw [gap_not_mem h, gap_not_mem]
      rintro ⟨h1, h2⟩
      exact h ⟨nonneg_of_mul_nonneg_right h1 hc, lt_of_mul_lt_mul_left h2 hc.le⟩
  | n + 1, L => by
    simp only [volumeBelow]
    rw [gap_interval hx, gap_interval (by positivity)]
    have h := intervalIntegral.integral_comp_mul_left (fun t => volumeBelow (c * x) n (c * L - t)) hc.ne' (a := 0) (b := x)
    rw [mul_zero, smul_eq_mul] at h
    have h2 : ∀ t, volumeBelow (c * x) n (c * L - c * t) = c ^ n * volumeBelow x n (L - t) := fun t => by
      rw [← volume_scaled hx hc n (L - t), mul_sub]
    simp only [h2] at h
    rw [intervalIntegral.integral_const_mul] at h
    rw [pow_succ]
    field_simp at h ⊢
    linarith

theorem volume_summable (hx : 0 ≤ x) (L : ℝ) : Summable fun n => volumeBelow x n L := by
  refine Summable.of_nonneg_of_le (fun n => ((bounded hx n).2 L).1) (fun n => ?_) (Real.summable_pow_div_factorial |L|)
  rcases lt_or_ge L 0 with h | h
  · rw [volume_neg n h]; positivity
  · rw [abs_of_nonneg h]; exact volume_le hx n h

/-- The probability that a Poisson process has no large gap, from the volumes. -/
theorem total_eq_series (hx : 0 < x) {μ : ℝ} (hμ : 0 ≤ μ) : total x μ = Real.exp (-μ) * ∑' n, volumeBelow x n μ := by
  symm
  refine unique hx (F := fun μ => Real.exp (-μ) * ∑' n, volumeBelow x n μ) ⟨fun μ h0 h1 => ?_, fun μ h => ?_⟩ hμ
  · simp only [volume_small _ h0 h1]
    have : ∑' n : ℕ, μ ^ n / n.factorial = Real.exp μ := by
      rw [Real.exp_eq_exp_ℝ, NormedSpace.exp_eq_tsum_div]
    rw [this, ← Real.exp_add, neg_add_cancel, Real.exp_zero]
  · have hμ0 : 0 ≤ μ := hx.le.trans h
    have hle : ∀ n, ∀ t ∈ Ioc 0 x, volumeBelow x n (μ - t) ≤ μ ^ n / n.factorial := by
      intro n t ht
      refine (volume_le hx.le n (by linarith [ht.2])).trans ?_
      have : μ - t ≤ μ := by linarith [ht.1]
      have : 0 ≤ μ - t := by linarith [ht.2]
      gcongr
    have hsum : HasSum (fun n => ∫ t in (0 : ℝ)..x, volumeBelow x n (μ - t)) (∫ t in (0 : ℝ)..x, ∑' n, volumeBelow x n (μ - t)) := by
      refine intervalIntegral.hasSum_integral_of_dominated_convergence (fun n _ => μ ^ n / n.factorial)
        (fun n => ((bounded hx.le n).1.comp (measurable_const.sub measurable_id)).aestronglyMeasurable) (fun n => .of_forall fun t ht => ?_)
        (.of_forall fun _ _ => Real.summable_pow_div_factorial μ) (by simp) (.of_forall fun t _ => (volume_summable hx.le _).hasSum)
      rw [uIoc_of_le hx.le] at ht
      rw [Real.norm_of_nonneg ((bounded hx.le n).2 _).1]
      exact hle n t ht
    have he : ∀ t, Real.exp (-t) * (Real.exp (-(μ - t)) * ∑' n, volumeBelow x n (μ - t)) =
        Real.exp (-μ) * ∑' n, volumeBelow x n (μ - t) := fun t => by
      rw [← mul_assoc, ← Real.exp_add]; congr 2; ring
    simp only [he]
    refine ⟨?_, ?_⟩
    · refine IntervalIntegrable.const_mul ?_ _
      rw [intervalIntegrable_iff_integrableOn_Ioc_of_le hx.le]
      refine Measure.integrableOn_of_bounded (M := Real.exp μ) (by simp) ?_ ?_
      · have : Measurable fun t => ∑' n, volumeBelow x n (μ - t) :=
          Measurable.tsum fun n => (bounded hx.le n).1.comp (measurable_const.sub measurable_id)
        exact this.aestronglyMeasurable
      · refine (ae_restrict_iff' measurableSet_Ioc).2 (.of_forall fun t ht => ?_)
        rw [Real.norm_of_nonneg (tsum_nonneg fun n => ((bounded hx.le n).2 _).1)]
        have he : Real.exp μ = ∑' n : ℕ, μ ^ n / n.factorial := by rw [Real.exp_eq_exp_ℝ, NormedSpace.exp_eq_tsum_div]
        rw [he]
        exact (volume_summable hx.le _).tsum_le_tsum (fun n => hle n t ht) (Real.summable_pow_div_factorial μ)
    · rw [intervalIntegral.integral_const_mul, ← hsum.tsum_eq, (volume_summable hx.le μ).tsum_eq_zero_add]
      have h0 : volumeBelow x 0 μ = 0 := gap_not_mem fun h' => absurd h'.2 (not_lt.2 h)
      rw [h0, zero_add]
      congr 2
      ext n
      rw [volumeBelow, gap_interval hx.le]

/-- The mean of an increasing sequence over a Poisson distribution grows with the expectation. -/
theorem poisson_mono {q : ℕ → ℝ} (h0 : ∀ n, 0 ≤ q n) (h1 : ∀ n, q n ≤ 1) (hq : Monotone q) {m m' : ℝ} (hm : 0 ≤ m) (hmm : m ≤ m') :
    Real.exp (-m) * ∑' n : ℕ, m ^ n / n.factorial * q n ≤ Real.exp (-m') * ∑' n : ℕ, m' ^ n / n.factorial * q n := by
  set d := m' - m with hd
  have hd0 : 0 ≤ d := by linarith
  have he : ∑' n : ℕ, d ^ n / n.factorial = Real.exp d := by rw [Real.exp_eq_exp_ℝ, NormedSpace.exp_eq_tsum_div]
  have hs : ∀ {r : ℝ}, 0 ≤ r → Summable fun n : ℕ => r ^ n / n.factorial * q n := fun {r} hr =>
    Summable.of_nonneg_of_le (fun n => mul_nonneg (by positivity) (h0 n)) (fun n => mul_le_of_le_one_right (by positivity) (h1 n))
      (Real.summable_pow_div_factorial r)
  have hnorm : Summable fun n : ℕ => ‖m ^ n / n.factorial * q n‖ := by
    refine (hs hm).congr fun n => ?_
    rw [Real.norm_of_nonneg (mul_nonneg (by positivity) (h0 n))]
  have hnorm' : Summable fun n : ℕ => ‖d ^ n / n.factorial‖ := by
    refine (Real.summable_pow_div_factorial d).congr fun n => ?_
    rw [Real.norm_of_nonneg (by positivity)]
  have hbin : ∀ n : ℕ, m' ^ n / n.factorial = ∑ kl ∈ Finset.antidiagonal n, m ^ kl.1 / kl.1.factorial * (d ^ kl.2 / kl.2.factorial) := by
    intro n
    rw [show m' = m + d by rw [hd]; ring, (Commute.all m d).add_pow', Finset.sum_div]
    refine Finset.sum_congr rfl fun kl hkl => ?_
    obtain rfl := Finset.mem_antidiagonal.1 hkl
    have h := Nat.choose_symm_add ▸ Nat.add_choose_mul_factorial_mul_factorial kl.1 kl.2
    have h2 : ((kl.1 + kl.2).choose kl.1 : ℝ) * kl.1.factorial * kl.2.factorial = (kl.1 + kl.2).factorial := by exact_mod_cast h
    have f1 : (kl.1.factorial : ℝ) ≠ 0 := by exact_mod_cast kl.1.factorial_ne_zero
    have f2 : (kl.2.factorial : ℝ) ≠ 0 := by exact_mod_cast kl.2.factorial_ne_zero
    rw [← h2, nsmul_eq_mul]
    have f3 : ((kl.1 + kl.2).choose kl.1 : ℝ) ≠ 0 := by exact_mod_cast (Nat.choose_pos (Nat.le_add_right _ _)).ne'
    field_simp
  have key : Real.exp d * ∑' n : ℕ, m ^ n / n.factorial * q n ≤ ∑' n : ℕ, m' ^ n / n.factorial * q n := by
    rw [← he, mul_comm, tsum_mul_tsum_eq_tsum_sum_antidiagonal_of_summable_norm hnorm hnorm']
    refine (summable_norm_sum_mul_antidiagonal_of_summable_norm hnorm hnorm').of_norm.tsum_le_tsum (fun n => ?_) (hs (hm.trans hmm))
    rw [hbin, Finset.sum_mul]
    refine Finset.sum_le_sum fun kl hkl => ?_
    have h2 : q kl.1 ≤ q n := hq (by have := Finset.mem_antidiagonal.1 hkl; omega)
    calc m ^ kl.1 / kl.1.factorial * q kl.1 * (d ^ kl.2 / kl.2.factorial)
        = m ^ kl.1 / kl.1.factorial * (d ^ kl.2 / kl.2.factorial) * q kl.1 := by ring
      _ ≤ _ := mul_le_mul_of_nonneg_left h2 (by positivity)
  calc Real.exp (-m) * ∑' n : ℕ, m ^ n / n.factorial * q n
      = Real.exp (-m') * (Real.exp d * ∑' n : ℕ, m ^ n / n.factorial * q n) := by
        rw [← mul_assoc, ← Real.exp_add]; congr 2; rw [hd]; ring
    _ ≤ _ := mul_le_mul_of_nonneg_left key (Real.exp_pos _).le

/-- Stronger signals make large gaps less likely. -/
theorem total_mono (hx : 0 < x) {μ c c' : ℝ} (hμ : 0 ≤ μ) (hc : 0 < c) (hcc : c ≤ c') : total (c * x) (c * μ) ≤ total (c' * x) (c' * μ) := by
  have hc' : 0 < c' := hc.trans_le hcc
  rcases hμ.eq_or_lt with rfl | hμ
  · rw [mul_zero, mul_zero, total_small le_rfl (mul_pos hc hx), total_small le_rfl (mul_pos hc' hx)]
  set q : ℕ → ℝ := fun n => volumeBelow x n μ * n.factorial / μ ^ n with hq
  have key : ∀ {r : ℝ}, 0 < r → total (r * x) (r * μ) = Real.exp (-(r * μ)) * ∑' n : ℕ, (r * μ) ^ n / n.factorial * q n := by
    intro r hr
    rw [total_eq_series (mul_pos hr hx) (mul_pos hr hμ).le]
    congr 2
    ext n
    rw [volume_scaled hx.le hr, hq]
    have : (n.factorial : ℝ) ≠ 0 := by exact_mod_cast n.factorial_ne_zero
    rw [mul_pow]
    field_simp
  rw [key hc, key hc']
  refine poisson_mono (fun n => ?_) (fun n => ?_) (monotone_nat_of_le_succ fun n => ?_) (mul_pos hc hμ).le (mul_le_mul_of_nonneg_right hcc hμ.le)
  · exact div_nonneg (mul_nonneg ((bounded hx.le n).2 μ).1 (by positivity)) (by positivity)
  · rw [hq]
    simp only
    rw [div_le_one (by positivity)]
    have := volume_le hx.le n hμ.le
    rwa [le_div_iff₀ (by positivity)] at this
  · have := more_events hx.le n μ
    simp only [hq]
    rw [Nat.factorial_succ, div_le_div_iff₀ (by positivity) (by positivity), pow_succ]
    push_cast
    have h2 : 0 ≤ (n.factorial : ℝ) * μ ^ n := by positivity
    nlinarith [mul_le_mul_of_nonneg_right this h2]

end Obscura.MaximumGap
