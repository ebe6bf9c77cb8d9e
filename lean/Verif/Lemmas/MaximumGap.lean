import Verif.Spec.MaximumGap
import Mathlib.Analysis.Calculus.MeanValue
import Mathlib.MeasureTheory.Integral.IntervalIntegral.FundThmCalculus
import Mathlib.MeasureTheory.Integral.IntervalIntegral.IntegrationByParts
import Mathlib.Analysis.SpecialFunctions.ExpDeriv
import Mathlib.Analysis.SpecialFunctions.Integrals.Basic
import Mathlib.MeasureTheory.Function.Floor

/-!
# The maximum-gap distribution as a finite sum
-/

namespace Obscura.MaximumGap

open MeasureTheory Filter Topology Set

/-- The `k`-th term of the sum. -/
noncomputable def term (x : ℝ) : ℕ → ℝ → ℝ
  | 0, _ => 1
  | k + 1, μ => Real.exp (-((k + 1 : ℕ) * x)) * ((((k + 1 : ℕ) : ℝ) * x - μ) ^ (k + 1) / ((k + 1).factorial : ℝ) -
      (((k + 1 : ℕ) : ℝ) * x - μ) ^ k / (k.factorial : ℝ))

/-- The sum up to `m`. -/
noncomputable def part (x : ℝ) (m : ℕ) (μ : ℝ) : ℝ := ∑ k ∈ Finset.range (m + 1), term x k μ

/-- The sum up to the integer part of `μ / x`. -/
noncomputable def total (x μ : ℝ) : ℝ := part x ⌊μ / x⌋₊ μ

variable {x μ : ℝ}

theorem term_deriv (k : ℕ) (μ : ℝ) : HasDerivAt (term x (k + 1)) (-Real.exp (-x) * term x k (μ - x)) μ := by
  have h1 : HasDerivAt (fun μ : ℝ => ((k + 1 : ℕ) : ℝ) * x - μ) (-1) μ := by
    simpa using (hasDerivAt_id μ).const_sub (((k + 1 : ℕ) : ℝ) * x)
  have h2 := (((h1.pow (k + 1)).div_const ((k + 1).factorial : ℝ)).sub ((h1.pow k).div_const (k.factorial : ℝ))).const_mul
    (Real.exp (-((k + 1 : ℕ) * x)))
  refine h2.congr_deriv ?_
  cases k with
  | zero => simp [term]
  | succ k =>
    simp only [term]
    have e1 : Real.exp (-((k + 1 + 1 : ℕ) * x)) = Real.exp (-x) * Real.exp (-((k + 1 : ℕ) * x)) := by
      rw [← Real.exp_add]; congr 1; push_cast; ring
    have e2 : (((k + 1 : ℕ) : ℝ) * x - (μ - x)) = ((k + 1 + 1 : ℕ) : ℝ) * x - μ := by push_cast; ring
    rw [e1, e2, Nat.factorial_succ (k + 1), Nat.factorial_succ k]
    have f1 : (k.factorial : ℝ) ≠ 0 := by exact_mod_cast k.factorial_ne_zero
    have f2 : ((k : ℝ) + 1) ≠ 0 := by positivity
    have f3 : ((k : ℝ) + 1 + 1) ≠ 0 := by positivity
    simp only [Nat.add_sub_cancel]
    push_cast
    field_simp
    ring

theorem part_deriv (m : ℕ) (μ : ℝ) : HasDerivAt (part x (m + 1)) (-Real.exp (-x) * part x m (μ - x)) μ := by
  have h : part x (m + 1) = fun μ => ∑ k ∈ Finset.range (m + 1), term x (k + 1) μ + 1 := by
    funext μ; unfold part; rw [Finset.sum_range_succ']; rfl
  rw [h]
  unfold part
  rw [Finset.mul_sum]
  exact (HasDerivAt.fun_sum fun k _ => term_deriv k μ).add_const 1

theorem part_zero (μ : ℝ) : part x 0 μ = 1 := by simp [part, term]

theorem part_continuous (m : ℕ) : Continuous (part x m) := by
  cases m with
  | zero => rw [funext part_zero]; exact continuous_const
  | succ m => exact continuous_iff_continuousAt.2 fun μ => (part_deriv m μ).continuousAt

theorem total_eq_of_lt (hx : 0 < x) {m : ℕ} (h1 : m * x ≤ μ) (h2 : μ < (m + 1) * x) : total x μ = part x m μ := by
  have : ⌊μ / x⌋₊ = m := by
    rw [Nat.floor_eq_iff (div_nonneg ((mul_nonneg (Nat.cast_nonneg _) hx.le).trans h1) hx.le)]
    exact ⟨(le_div_iff₀ hx).2 h1, (div_lt_iff₀ hx).2 h2⟩
  unfold total; rw [this]

theorem total_eq (hx : 0 < x) {m : ℕ} (h1 : (m + 1 : ℕ) * x ≤ μ) (h2 : μ ≤ ((m + 1 : ℕ) + 1) * x) :
    total x μ = part x (m + 1) μ := by
  rcases h2.lt_or_eq with h2 | h2
  · exact total_eq_of_lt hx h1 h2
  · rw [total_eq_of_lt (m := m + 2) hx (by push_cast at h2 ⊢; linarith) (by push_cast at h2 ⊢; nlinarith)]
    unfold part
    rw [Finset.sum_range_succ]
    have : term x (m + 2) μ = 0 := by
      simp only [term]
      have : ((m + 1 + 1 : ℕ) : ℝ) * x - μ = 0 := by push_cast at h2 ⊢; linarith
      rw [this]
      simp
    rw [this, add_zero]

theorem total_small (h0 : 0 ≤ μ) (h1 : μ < x) : total x μ = 1 := by
  have hx := h0.trans_lt h1
  rw [total_eq_of_lt (m := 0) hx (by simpa using h0) (by simpa using h1), part_zero]

theorem total_at (hx : 0 < x) : total x x = 1 - Real.exp (-x) := by
  rw [total_eq_of_lt (m := 1) hx (by simp) (by push_cast; linarith)]
  simp [part, term, Finset.sum_range_succ]
  ring

/-- The interval of length `x` around a point. -/
theorem exists_index (hx : 0 < x) (h : x ≤ μ) : ∃ m : ℕ, ((m + 1 : ℕ) : ℝ) * x ≤ μ ∧ μ < ((m + 1 : ℕ) + 1 : ℝ) * x := by
  have h1 : 1 ≤ ⌊μ / x⌋₊ := by rw [Nat.one_le_floor_iff]; exact (one_le_div hx).2 h
  obtain ⟨m, hm⟩ := Nat.exists_eq_add_of_le' h1
  refine ⟨m, ?_, ?_⟩
  · rw [← hm]; exact (le_div_iff₀ hx).1 (Nat.floor_le (div_nonneg (hx.le.trans h) hx.le))
  · rw [← hm]; exact (div_lt_iff₀ hx).1 (Nat.lt_floor_add_one _)

theorem total_deriv (hx : 0 < x) (h : x ≤ μ) : HasDerivWithinAt (total x) (-Real.exp (-x) * total x (μ - x)) (Ici μ) μ := by
  obtain ⟨m, h1, h2⟩ := exists_index hx h
  rw [total_eq_of_lt (μ := μ - x) (m := m) hx (by push_cast at h1; linarith) (by push_cast at h2; linarith)]
  refine (part_deriv m μ).hasDerivWithinAt.congr_of_eventuallyEq ?_ (total_eq_of_lt hx h1 h2)
  filter_upwards [Ico_mem_nhdsGE h2] with ν hν
  exact total_eq_of_lt hx (h1.trans hν.1) hν.2

theorem total_right (hx : 0 < x) (h : 0 ≤ μ) : ContinuousWithinAt (total x) (Ici μ) μ := by
  rcases lt_or_ge μ x with h1 | h1
  · refine (continuousWithinAt_const (b := (1 : ℝ))).congr_of_eventuallyEq ?_ (total_small h h1)
    filter_upwards [Ico_mem_nhdsGE h1] with ν hν
    exact total_small (h.trans hν.1) hν.2
  · exact (total_deriv hx h1).continuousWithinAt

theorem total_left (hx : 0 < x) (h : x < μ) : ContinuousWithinAt (total x) (Iic μ) μ := by
  obtain ⟨m, h1, h2⟩ : ∃ m : ℕ, ((m + 1 : ℕ) : ℝ) * x < μ ∧ μ ≤ ((m + 1 : ℕ) + 1 : ℝ) * x := by
    have h1 : 1 < μ / x := (one_lt_div hx).2 h
    have h3 : 2 ≤ ⌈μ / x⌉₊ := by
      have := Nat.lt_ceil (n := 1) (a := μ / x) |>.2 (by exact_mod_cast h1); omega
    obtain ⟨m, hm⟩ := Nat.exists_eq_add_of_le' h3
    refine ⟨m, (lt_div_iff₀ hx).1 (Nat.lt_ceil.1 (by omega)), (div_le_iff₀ hx).1 ?_⟩
    have := Nat.le_ceil (μ / x)
    rw [hm] at this
    push_cast at this ⊢
    linarith
  refine (part_continuous (m + 1)).continuousWithinAt.congr_of_eventuallyEq ?_ (total_eq hx h1.le h2)
  filter_upwards [Ioc_mem_nhdsLE h1] with ν hν
  exact total_eq hx hν.1.le (hν.2.trans h2)

theorem total_continuousOn (hx : 0 < x) : ContinuousOn (total x) (Ici x) := by
  intro μ hμ
  rcases (show x ≤ μ from hμ).lt_or_eq with h | rfl
  · exact (continuousAt_iff_continuous_left_right.2 ⟨total_left hx h, total_right hx (hx.le.trans hμ)⟩).continuousWithinAt
  · exact total_right hx hx.le

theorem total_measurable : Measurable (total x) := by
  have h1 : Measurable fun μ : ℝ => (⌊μ / x⌋₊, μ) := (Nat.measurable_floor.comp (measurable_id.div_const x)).prodMk measurable_id
  have h2 : Measurable fun p : ℕ × ℝ => part x p.1 p.2 := measurable_from_prod_countable_right fun m => (part_continuous m).measurable
  exact h2.comp h1

theorem total_integrable (hx : 0 < x) {a b : ℝ} (ha : 0 ≤ a) (hb : 0 ≤ b) : IntervalIntegrable (total x) volume a b := by
  have h : ∀ b, 0 ≤ b → IntervalIntegrable (total x) volume 0 b := fun b hb => by
    rcases lt_or_ge b x with h1 | h1
    · refine (intervalIntegrable_const (c := (1 : ℝ))).congr fun μ hμ => ?_
      rw [uIoc_of_le hb] at hμ
      exact (total_small hμ.1.le (hμ.2.trans_lt h1)).symm
    · refine IntervalIntegrable.trans (b := x) ?_ ?_
      · refine (intervalIntegrable_const (c := (1 : ℝ))).congr_ae ?_
        rw [uIoc_of_le hx.le]
        rw [Filter.EventuallyEq, ae_restrict_iff' measurableSet_Ioc]
        filter_upwards [Measure.ae_ne volume x] with μ hμ h2
        exact (total_small h2.1.le (lt_of_le_of_ne h2.2 hμ)).symm
      · refine ContinuousOn.intervalIntegrable ?_
        rw [uIcc_of_le h1]
        exact (total_continuousOn hx).mono Icc_subset_Ici_self
  exact (h a ha).symm.trans (h b hb)

/-- `exp(s) total(s)`, integrated from 0. -/
noncomputable def primitive (x μ : ℝ) : ℝ := ∫ s in (0 : ℝ)..μ, Real.exp s * total x s

theorem weighted_integrable (hx : 0 < x) {a b : ℝ} (ha : 0 ≤ a) (hb : 0 ≤ b) :
    IntervalIntegrable (fun s => Real.exp s * total x s) volume a b :=
  (total_integrable hx ha hb).continuousOn_mul Real.continuous_exp.continuousOn

theorem primitive_deriv (hx : 0 < x) (h : 0 ≤ μ) : HasDerivWithinAt (primitive x) (Real.exp μ * total x μ) (Ici μ) μ :=
  intervalIntegral.integral_hasDerivWithinAt_right (weighted_integrable hx le_rfl h)
    ((Real.measurable_exp.mul total_measurable).stronglyMeasurable.stronglyMeasurableAtFilter)
    (Real.continuous_exp.continuousWithinAt.mul ((total_right hx h).mono Ioi_subset_Ici_self))

theorem primitive_continuousOn (hx : 0 < x) : ContinuousOn (primitive x) (Ici 0) := by
  intro μ hμ
  have h0 : (0 : ℝ) ≤ μ := hμ
  have h1 : ContinuousOn (primitive x) (uIcc 0 (μ + 1)) :=
    intervalIntegral.continuousOn_primitive_interval (by
      rw [uIcc_of_le (by linarith), ← intervalIntegrable_iff_integrableOn_Icc_of_le (by linarith)]
      exact weighted_integrable hx le_rfl (by linarith))
  rw [uIcc_of_le (by linarith)] at h1
  refine (h1 μ ⟨h0, by linarith⟩).mono_of_mem_nhdsWithin ?_
  rw [← Ici_inter_Iic]
  exact inter_mem self_mem_nhdsWithin (mem_nhdsWithin_of_mem_nhds (Iic_mem_nhds (by linarith)))

/-- The difference of the two sides of the renewal equation is constant. -/
theorem renewal_aux (hx : 0 < x) (h : x ≤ μ) : Real.exp μ * total x μ = primitive x μ - primitive x (μ - x) := by
  set f : ℝ → ℝ := fun μ => Real.exp μ * total x μ - (primitive x μ - primitive x (μ - x)) with hf
  have hc : ContinuousOn f (Icc x μ) := by
    refine ContinuousOn.sub (Real.continuous_exp.continuousOn.mul ((total_continuousOn hx).mono Icc_subset_Ici_self)) ?_
    refine ((primitive_continuousOn hx).mono fun ν hν => ?_).sub ((primitive_continuousOn hx).comp (by fun_prop) fun ν hν => ?_)
    · exact hx.le.trans hν.1
    · simpa using hν.1
  have hd : ∀ ν ∈ Ico x μ, HasDerivWithinAt f 0 (Ici ν) ν := fun ν hν => by
    have h0 : 0 ≤ ν := hx.le.trans hν.1
    have h1 := (Real.hasDerivAt_exp ν).hasDerivWithinAt.mul (total_deriv hx hν.1)
    have h2 := primitive_deriv hx h0
    have h3 : HasDerivWithinAt (fun ν => primitive x (ν - x)) (Real.exp (ν - x) * total x (ν - x)) (Ici ν) ν := by
      have := (primitive_deriv (μ := ν - x) hx (by linarith [hν.1])).scomp ν
        ((hasDerivWithinAt_id ν (Ici ν)).sub_const x) (fun t ht => by simpa using ht)
      exact this.congr_deriv (by simp)
    refine (h1.sub (h2.sub h3)).congr_deriv ?_
    rw [Real.exp_sub, Real.exp_neg]
    field_simp
    ring
  have h1 := constant_of_has_deriv_right_zero hc hd μ ⟨h, le_rfl⟩
  have h2 : f x = 0 := by
    simp only [hf, sub_self, total_at hx]
    have e1 : primitive x 0 = 0 := by simp [primitive]
    have e2 : primitive x x = Real.exp x - 1 := by
      unfold primitive
      rw [intervalIntegral.integral_congr_ae (g := Real.exp), integral_exp, Real.exp_zero]
      filter_upwards [Measure.ae_ne volume x] with s hs h2
      rw [uIoc_of_le hx.le] at h2
      rw [total_small h2.1.le (lt_of_le_of_ne h2.2 hs), mul_one]
    rw [e1, e2, Real.exp_neg]
    have := Real.exp_pos x
    field_simp
    ring
  rw [h2] at h1
  linarith

theorem shift_integrable (hx : 0 < x) (h : x ≤ μ) : IntervalIntegrable (fun t => Real.exp (-t) * total x (μ - t)) volume 0 x := by
  have h1 := (total_integrable hx (sub_nonneg.2 h) (hx.le.trans h)).comp_sub_left μ
  simp only [sub_sub_cancel, sub_self] at h1
  exact h1.symm.continuousOn_mul (by fun_prop)

/-- The renewal equation. -/
theorem renewal (hx : 0 < x) (h : x ≤ μ) : total x μ = ∫ t in (0 : ℝ)..x, Real.exp (-t) * total x (μ - t) := by
  have h1 := renewal_aux hx h
  have h2 : primitive x μ - primitive x (μ - x) = ∫ s in (μ - x)..μ, Real.exp s * total x s :=
    intervalIntegral.integral_interval_sub_left (weighted_integrable hx le_rfl (hx.le.trans h))
      (weighted_integrable hx le_rfl (sub_nonneg.2 h))
  have h3 : (∫ t in (0 : ℝ)..x, Real.exp (-t) * total x (μ - t)) = Real.exp (-μ) * ∫ s in (μ - x)..μ, Real.exp s * total x s := by
    rw [← intervalIntegral.integral_const_mul]
    have := intervalIntegral.integral_comp_sub_left (fun s => Real.exp (-μ) * (Real.exp s * total x s)) (a := 0) (b := x) μ
    rw [sub_zero] at this
    rw [← this]
    congr 1
    funext t
    rw [← mul_assoc, ← Real.exp_add]
    congr 2; ring
  rw [h3, ← h2, ← h1, ← mul_assoc, ← Real.exp_add]
  simp

theorem isMaxGapCDF (hx : 0 < x) : Spec.IsMaxGapCDF x (total x) :=
  ⟨fun _ h0 h1 => total_small h0 h1, fun _ h => ⟨shift_integrable hx h, renewal hx h⟩⟩

theorem total_pos (hx : 0 < x) (h : 0 ≤ μ) : 0 < total x μ := by
  rcases lt_or_ge μ x with h1 | h1
  · rw [total_small h h1]; exact one_pos
  by_contra hneg
  have hneg := not_lt.1 hneg
  set S : Set ℝ := {ν | x ≤ ν ∧ total x ν ≤ 0} with hS
  have hne : S.Nonempty := ⟨μ, h1, hneg⟩
  have hbdd : BddBelow S := ⟨x, fun ν hν => hν.1⟩
  have hclosed : IsClosed S := by
    have := (total_continuousOn hx).preimage_isClosed_of_isClosed isClosed_Ici (isClosed_Iic (a := (0 : ℝ)))
    exact this
  have hmem := hclosed.csInf_mem hne hbdd
  set ν := sInf S with hν
  have hpos : ∀ s, 0 ≤ s → s < ν → 0 < total x s := fun s h0 hs => by
    rcases lt_or_ge s x with h2 | h2
    · rw [total_small h0 h2]; exact one_pos
    · by_contra h3
      exact absurd (csInf_le hbdd (show s ∈ S from ⟨h2, not_lt.1 h3⟩)) (not_le.2 hs)
  have h2 : 0 < ∫ t in (0 : ℝ)..x, Real.exp (-t) * total x (ν - t) := by
    refine intervalIntegral.intervalIntegral_pos_of_pos_on (shift_integrable hx hmem.1) (fun t ht => ?_) hx
    exact mul_pos (Real.exp_pos _) (hpos _ (by have := ht.2; have := hmem.1; linarith) (by linarith [ht.1]))
  rw [← renewal hx hmem.1] at h2
  exact absurd hmem.2 (not_le.2 h2)

theorem total_le_one (hx : 0 < x) (h : 0 ≤ μ) : total x μ ≤ 1 := by
  rcases lt_or_ge μ x with h1 | h1
  · rw [total_small h h1]
  have h2 : total x μ ≤ 1 - Real.exp (-x) := by
    refine image_le_of_deriv_right_le_deriv_boundary (f := total x) (B := fun _ => 1 - Real.exp (-x)) (B' := fun _ => 0)
      ((total_continuousOn hx).mono Icc_subset_Ici_self) (fun ν hν => total_deriv hx hν.1) (total_at hx).le
      continuousOn_const (fun ν _ => hasDerivWithinAt_const _ _ _) (fun ν hν => ?_) (right_mem_Icc.2 h1)
    have := total_pos (μ := ν - x) hx (by linarith [hν.1])
    have := Real.exp_pos (-x)
    nlinarith
  have := Real.exp_pos (-x)
  linarith

/-- The renewal equation has only one solution. -/
theorem unique (hx : 0 < x) {F : ℝ → ℝ} (hF : Spec.IsMaxGapCDF x F) (h : 0 ≤ μ) : F μ = total x μ := by
  obtain ⟨hF1, hF2⟩ := hF
  set D : ℝ → ℝ := fun ν => F ν - total x ν with hD
  have hD0 : ∀ ν, 0 ≤ ν → ν < x → D ν = 0 := fun ν h0 h1 => by rw [hD]; simp only; rw [hF1 ν h0 h1, total_small h0 h1, sub_self]
  have hD1 : ∀ ν, x ≤ ν → D ν = ∫ t in (0 : ℝ)..x, Real.exp (-t) * D (ν - t) := fun ν hν => by
    simp only [hD, mul_sub]
    rw [intervalIntegral.integral_sub (hF2 ν hν).1 (shift_integrable hx hν), ← (hF2 ν hν).2, ← renewal hx hν]
  have hDi : ∀ ν, x ≤ ν → IntervalIntegrable D volume (ν - x) ν := fun ν hν => by
    have h1 : IntervalIntegrable (fun t => D (ν - t)) volume 0 x := by
      have h2 := ((hF2 ν hν).1.sub (shift_integrable hx hν)).continuousOn_mul (g := fun t => Real.exp t) (by fun_prop)
      refine h2.congr fun t _ => ?_
      simp only [hD, ← mul_sub]
      rw [← mul_assoc, ← Real.exp_add, add_neg_cancel, Real.exp_zero, one_mul]
    have h2 := h1.comp_sub_left ν
    simp only [sub_sub_cancel, sub_zero] at h2
    exact h2.symm
  -- integrable up to a multiple of `x` beyond `μ`
  obtain ⟨n, hn⟩ := exists_nat_gt (μ / x)
  have hn : μ < n * x := (div_lt_iff₀ hx).1 hn
  have hint : IntervalIntegrable D volume 0 (n * x) := by
    have := IntervalIntegrable.trans_iterate (a := fun k : ℕ => (k : ℝ) * x) (n := n) (f := D) (μ := volume) fun k _ => by
      have h1 := hDi ((k + 1 : ℕ) * x) (by push_cast; nlinarith [(Nat.cast_nonneg k : (0 : ℝ) ≤ k)])
      have h2 : ((k + 1 : ℕ) : ℝ) * x - x = k * x := by push_cast; ring
      rwa [h2] at h1
    simpa using this
  have hnx : 0 ≤ (n : ℝ) * x := by positivity
  -- bounded
  obtain ⟨B, hB0, hB⟩ : ∃ B, 0 ≤ B ∧ ∀ ν, 0 ≤ ν → ν ≤ n * x → |D ν| ≤ B := by
    refine ⟨∫ s in (0 : ℝ)..(n * x), |D s|, intervalIntegral.integral_nonneg hnx fun _ _ => abs_nonneg _, fun ν h0 h1 => ?_⟩
    rcases lt_or_ge ν x with h2 | h2
    · rw [hD0 ν h0 h2, abs_zero]
      exact intervalIntegral.integral_nonneg hnx fun _ _ => abs_nonneg _
    · have h3 : |D ν| ≤ ∫ t in (0 : ℝ)..x, |D (ν - t)| := by
        rw [hD1 ν h2, ← Real.norm_eq_abs]
        refine intervalIntegral.norm_integral_le_of_norm_le hx.le ?_ ?_
        · refine Eventually.of_forall fun t ht => ?_
          rw [Real.norm_eq_abs, abs_mul, abs_of_pos (Real.exp_pos _)]
          exact mul_le_of_le_one_left (abs_nonneg _) (Real.exp_le_one_iff.2 (by linarith [ht.1]))
        · have := (hDi ν h2).abs.comp_sub_left ν
          simp only [sub_sub_cancel, sub_self] at this
          exact this.symm
      rw [intervalIntegral.integral_comp_sub_left (fun s => |D s|) ν, sub_zero] at h3
      refine h3.trans (intervalIntegral.integral_mono_interval (by linarith) (by linarith) h1 ?_ hint.abs)
      exact Eventually.of_forall fun _ => abs_nonneg _
  -- contraction
  have hq : ∀ B', 0 ≤ B' → (∀ ν, 0 ≤ ν → ν ≤ n * x → |D ν| ≤ B') → ∀ ν, 0 ≤ ν → ν ≤ n * x → |D ν| ≤ (1 - Real.exp (-x)) * B' := by
    intro B' hB' hb ν h0 h1
    have hq0 : 0 ≤ 1 - Real.exp (-x) := by
      have : Real.exp (-x) ≤ 1 := Real.exp_le_one_iff.2 (by linarith)
      linarith
    rcases lt_or_ge ν x with h2 | h2
    · rw [hD0 ν h0 h2, abs_zero]; positivity
    · rw [hD1 ν h2]
      have h3 : (∫ t in (0 : ℝ)..x, Real.exp (-t) * B') = (1 - Real.exp (-x)) * B' := by
        rw [intervalIntegral.integral_mul_const]
        congr 1
        rw [intervalIntegral.integral_comp_neg (fun t => Real.exp t), integral_exp]
        simp
      rw [← h3, ← Real.norm_eq_abs]
      refine intervalIntegral.norm_integral_le_of_norm_le hx.le ?_ (Continuous.intervalIntegrable (by fun_prop) _ _)
      refine Eventually.of_forall fun t ht => ?_
      rw [Real.norm_eq_abs, abs_mul, abs_of_pos (Real.exp_pos _)]
      exact mul_le_mul_of_nonneg_left (hb _ (by linarith [ht.2]) (by linarith [ht.1])) (Real.exp_pos _).le
  have hq0 : 0 ≤ 1 - Real.exp (-x) := by
    have : Real.exp (-x) ≤ 1 := Real.exp_le_one_iff.2 (by linarith)
    linarith
  have hpow : ∀ k : ℕ, ∀ ν, 0 ≤ ν → ν ≤ n * x → |D ν| ≤ (1 - Real.exp (-x)) ^ k * B := by
    intro k
    induction k with
    | zero => simpa using hB
    | succ k ih => rw [pow_succ', mul_assoc]; exact hq _ (by positivity) ih
  have hlim : Tendsto (fun k : ℕ => (1 - Real.exp (-x)) ^ k * B) atTop (𝓝 (0 * B)) :=
    (tendsto_pow_atTop_nhds_zero_of_lt_one hq0 (by linarith [Real.exp_pos (-x)])).mul_const B
  rw [zero_mul] at hlim
  have h1 : |D μ| ≤ 0 := ge_of_tendsto' hlim fun k => hpow k μ h hn.le
  have h2 : D μ = 0 := abs_eq_zero.1 (le_antisymm h1 (abs_nonneg _))
  simp only [hD] at h2
  linarith

/-! ## Decrease of the terms -/

theorem abs_term (k : ℕ) (h : ((k + 1 : ℕ) : ℝ) * x ≤ μ) : |term x (k + 1) μ| =
    Real.exp (-((k + 1 : ℕ) * x)) * ((μ - (k + 1 : ℕ) * x) ^ k * (μ - (k + 1 : ℕ) * x + (k + 1 : ℕ)) / ((k + 1).factorial : ℝ)) := by
  set a := μ - (k + 1 : ℕ) * x with ha
  have ha0 : 0 ≤ a := by linarith
  have e1 : ((k + 1 : ℕ) : ℝ) * x - μ = -1 * a := by rw [ha]; ring
  simp only [term]
  rw [e1, abs_mul, abs_of_pos (Real.exp_pos _), mul_pow, mul_pow, pow_succ (-1 : ℝ) k]
  congr 1
  have f1 : (k.factorial : ℝ) ≠ 0 := by exact_mod_cast k.factorial_ne_zero
  have e2 : (-1 : ℝ) ^ k * -1 * a ^ (k + 1) / ((k + 1).factorial : ℝ) - (-1) ^ k * a ^ k / (k.factorial : ℝ) =
      (-1) ^ k * -(a ^ k * (a + (k + 1 : ℕ)) / ((k + 1).factorial : ℝ)) := by
    rw [Nat.factorial_succ]
    push_cast
    have : ((k : ℝ) + 1) ≠ 0 := by positivity
    field_simp
    ring
  rw [e2, abs_mul, abs_pow, abs_neg, abs_one, one_pow, one_mul, abs_neg, abs_of_nonneg (by positivity)]

theorem log_concave (hx : 0 < x) (j : ℕ) (h : ((j + 2 : ℕ) : ℝ) * x ≤ μ) :
    |term x j μ| * |term x (j + 2) μ| ≤ |term x (j + 1) μ| ^ 2 := by
  have hj : (0 : ℝ) ≤ j := Nat.cast_nonneg j
  have h1 : ((j + 1 : ℕ) : ℝ) * x ≤ μ := by push_cast at h ⊢; nlinarith
  rw [abs_term (j + 1) (by exact_mod_cast h), abs_term j h1]
  set a := μ - (j + 1 : ℕ) * x with ha
  have e1 : μ - (j + 1 + 1 : ℕ) * x = a - x := by rw [ha]; push_cast; ring
  have hq : 0 ≤ a - x := by rw [← e1]; push_cast at h ⊢; linarith
  have ha0 : 0 ≤ a := by linarith
  rw [e1]
  cases j with
  | zero =>
    simp only [term, abs_one, one_mul, zero_add]
    have e2 : Real.exp (-((1 + 1 : ℕ) * x)) = Real.exp (-((1 : ℕ) * x)) ^ 2 := by
      rw [← Real.exp_nat_mul]; congr 1; push_cast; ring
    rw [e2, mul_pow]
    refine mul_le_mul_of_nonneg_left ?_ (by positivity)
    norm_num
    nlinarith
  | succ i =>
    have h2 : ((i + 1 : ℕ) : ℝ) * x ≤ μ := by push_cast at h1 ⊢; nlinarith
    rw [abs_term i h2]
    have e3 : μ - (i + 1 : ℕ) * x = a + x := by rw [ha]; push_cast; ring
    rw [e3]
    have e4 : Real.exp (-((i + 1 : ℕ) * x)) * Real.exp (-((i + 1 + 1 + 1 : ℕ) * x)) = Real.exp (-((i + 1 + 1 : ℕ) * x)) ^ 2 := by
      rw [← Real.exp_nat_mul, ← Real.exp_add]; congr 1; push_cast; ring
    rw [mul_mul_mul_comm, e4, mul_pow (Real.exp _)]
    refine mul_le_mul_of_nonneg_left ?_ (by positivity)
    have k1 : (a + x) ^ i * (a - x) ^ (i + 1 + 1) ≤ (a ^ (i + 1)) ^ 2 := by
      have : (a + x) ^ i * (a - x) ^ (i + 1 + 1) = ((a + x) * (a - x)) ^ i * (a - x) ^ 2 := by rw [mul_pow]; ring
      rw [this]
      have : (a ^ (i + 1)) ^ 2 = (a * a) ^ i * a ^ 2 := by rw [mul_pow]; ring
      rw [this]
      refine mul_le_mul (pow_le_pow_left₀ (by positivity) (by nlinarith) i) (pow_le_pow_left₀ hq (by linarith) 2) (by positivity) (by positivity)
    have k2 : (a + x + (i + 1 : ℕ)) * (a - x + (i + 1 + 1 + 1 : ℕ)) ≤ (a + (i + 1 + 1 : ℕ)) ^ 2 := by
      push_cast; nlinarith [sq_nonneg (x - 1)]
    have k3 : (((i + 1 + 1).factorial : ℝ)) ^ 2 ≤ ((i + 1).factorial : ℝ) * ((i + 1 + 1 + 1).factorial : ℝ) := by
      rw [Nat.factorial_succ (i + 1 + 1), Nat.factorial_succ (i + 1)]
      push_cast
      have : (0 : ℝ) < (i + 1).factorial := by exact_mod_cast (i + 1).factorial_pos
      have : (0 : ℝ) ≤ i := Nat.cast_nonneg i
      nlinarith [mul_pos ‹(0 : ℝ) < (i + 1).factorial› ‹(0 : ℝ) < (i + 1).factorial›]
    rw [div_mul_div_comm, div_pow]
    refine div_le_div₀ (by positivity) ?_ (by positivity) k3
    calc (a + x) ^ i * (a + x + (i + 1 : ℕ)) * ((a - x) ^ (i + 1 + 1) * (a - x + (i + 1 + 1 + 1 : ℕ)))
        = ((a + x) ^ i * (a - x) ^ (i + 1 + 1)) * ((a + x + (i + 1 : ℕ)) * (a - x + (i + 1 + 1 + 1 : ℕ))) := by ring
      _ ≤ (a ^ (i + 1)) ^ 2 * (a + (i + 1 + 1 : ℕ)) ^ 2 := mul_le_mul k1 k2 (by positivity) (by positivity)
      _ = _ := by ring

theorem unimodal {c : ℕ → ℝ} {m k : ℕ} (hpos : ∀ j < m, 0 < c j) (hlc : ∀ j, j + 2 ≤ m → c j * c (j + 2) ≤ c (j + 1) ^ 2)
    (hk : c k < c 0) : ∀ j, k ≤ j → j ≤ m → c j ≤ c k := by
  obtain ⟨i, hi, hdec⟩ : ∃ i < k, c (i + 1) < c i := by
    by_contra hcon
    push Not at hcon
    have : ∀ j ≤ k, c 0 ≤ c j := fun j => by
      induction j with
      | zero => intro _; exact le_rfl
      | succ j ih => intro hj; exact (ih (by omega)).trans (hcon j (by omega))
    exact absurd (this k le_rfl) (not_le.2 hk)
  have hstep : ∀ j, i ≤ j → j + 1 ≤ m → c (j + 1) ≤ c j := by
    intro j hj
    induction j, hj using Nat.le_induction with
    | base => intro _; exact hdec.le
    | succ j hj ih =>
      intro hjm
      have h1 := ih (by omega)
      have h2 := hlc j (by omega)
      have h3 := hpos j (by omega)
      have h4 := hpos (j + 1) (by omega)
      have : c j * c (j + 2) ≤ c j * c (j + 1) := by nlinarith
      exact le_of_mul_le_mul_left this h3
  intro j hj
  induction j, hj using Nat.le_induction with
  | base => intro _; exact le_rfl
  | succ j hj ih => intro hjm; exact (hstep j (by omega) hjm).trans (ih (by omega))

/-- Once a term is small, so are the later ones. -/
theorem later_terms (hx : 0 < x) {m k : ℕ} (hm : m * x ≤ μ) (hk : |term x k μ| < 1) :
    ∀ j, k ≤ j → j ≤ m → |term x j μ| ≤ |term x k μ| := by
  refine unimodal (c := fun j => |term x j μ|) (fun j hj => ?_) (fun j hj => log_concave hx j ?_)
    (by simpa [term] using hk)
  · cases j with
    | zero => simp [term]
    | succ j =>
      have h1 : ((j + 1 : ℕ) : ℝ) + 1 ≤ m := by exact_mod_cast hj
      have h2 : ((j + 1 : ℕ) : ℝ) * x < μ := by nlinarith
      rw [abs_term j h2.le]
      have : 0 < μ - (j + 1 : ℕ) * x := by linarith
      positivity
  · have h1 : ((j + 2 : ℕ) : ℝ) ≤ m := by exact_mod_cast hj
    nlinarith

end Obscura.MaximumGap
