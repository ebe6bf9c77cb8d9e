import Mathlib.Analysis.BoundedVariation
import Mathlib.Analysis.SpecialFunctions.Integrals.Basic
import Mathlib.MeasureTheory.Integral.IntervalIntegral.Basic

/-!
# Riemann sums of functions of bounded variation
-/

namespace Obscura

open MeasureTheory

theorem bv_integrable {f : ℝ → ℝ} {a b : ℝ} (hab : a ≤ b) (hf : BoundedVariationOn f (Set.Icc a b)) : IntervalIntegrable f volume a b := by
  obtain ⟨p, q, hp, hq, h⟩ := hf.locallyBoundedVariationOn.exists_monotoneOn_sub_monotoneOn
  rw [h]
  refine IntervalIntegrable.sub (MonotoneOn.intervalIntegrable ?_) (MonotoneOn.intervalIntegrable ?_) <;>
    rwa [Set.uIcc_of_le hab]

/-- One cell. -/
theorem riemann_cell {f w : ℝ → ℝ} {a b δ : ℝ} (hab : a ≤ b) (hf : BoundedVariationOn f (Set.Icc a b)) (hw : ContinuousOn w (Set.Icc a b))
    (hw0 : ∀ x ∈ Set.Icc a b, 0 ≤ w x) (hδ : ∫ x in a..b, w x = δ) :
    IntervalIntegrable (fun x => f x * w x) volume a b ∧
    |δ * f b - ∫ x in a..b, f x * w x| ≤ δ * (eVariationOn f (Set.Icc a b)).toReal := by
  have hwi : IntervalIntegrable w volume a b := ContinuousOn.intervalIntegrable (by rwa [Set.uIcc_of_le hab])
  have hfi : IntervalIntegrable (fun x => f x * w x) volume a b :=
    (bv_integrable hab hf).mul_continuousOn (by rwa [Set.uIcc_of_le hab])
  refine ⟨hfi, ?_⟩
  have e : δ * f b - ∫ x in a..b, f x * w x = ∫ x in a..b, (f b - f x) * w x := by
    have : (fun x => (f b - f x) * w x) = fun x => f b * w x - f x * w x := by funext x; ring
    rw [this, intervalIntegral.integral_sub (hwi.const_mul _) hfi, intervalIntegral.integral_const_mul, hδ]
    ring
  rw [e]
  have hdi : IntervalIntegrable (fun x => (f b - f x) * w x) volume a b := by
    have : (fun x => (f b - f x) * w x) = fun x => f b * w x - f x * w x := by funext x; ring
    rw [this]
    exact (hwi.const_mul _).sub hfi
  calc |∫ x in a..b, (f b - f x) * w x| ≤ ∫ x in a..b, |(f b - f x) * w x| := intervalIntegral.abs_integral_le_integral_abs hab
    _ ≤ ∫ x in a..b, (eVariationOn f (Set.Icc a b)).toReal * w x := by
        refine intervalIntegral.integral_mono_on hab hdi.abs (hwi.const_mul _) fun x hx => ?_
        rw [abs_mul, abs_of_nonneg (hw0 x hx)]
        refine mul_le_mul_of_nonneg_right ?_ (hw0 x hx)
        have := hf.dist_le (Set.right_mem_Icc.2 hab) hx
        rwa [Real.dist_eq] at this
    _ = δ * (eVariationOn f (Set.Icc a b)).toReal := by rw [intervalIntegral.integral_const_mul, hδ, mul_comm]

/-- Right endpoints, equal weights. -/
theorem riemann_right {f w : ℝ → ℝ} {u : ℕ → ℝ} (hu : Monotone u) {n : ℕ} {δ V : ℝ}
    (hf : eVariationOn f (Set.Icc (u 0) (u n)) ≤ ENNReal.ofReal V) (hV : 0 ≤ V) (hw : ContinuousOn w (Set.Icc (u 0) (u n)))
    (hw0 : ∀ x ∈ Set.Icc (u 0) (u n), 0 ≤ w x) (hδ0 : 0 ≤ δ) (hδ : ∀ i < n, ∫ x in u i..u (i + 1), w x = δ) :
    |∑ i ∈ Finset.range n, δ * f (u (i + 1)) - ∫ x in u 0..u n, f x * w x| ≤ δ * V := by
  have hfin : eVariationOn f (Set.Icc (u 0) (u n)) ≠ ⊤ := ne_top_of_le_ne_top ENNReal.ofReal_ne_top hf
  have hsub : ∀ i < n, Set.Icc (u i) (u (i + 1)) ⊆ Set.Icc (u 0) (u n) := fun i hi =>
    Set.Icc_subset_Icc (hu (Nat.zero_le i)) (hu hi)
  have hbv : ∀ i < n, BoundedVariationOn f (Set.Icc (u i) (u (i + 1))) := fun i hi => BoundedVariationOn.mono hfin (hsub i hi)
  have cell := fun i (hi : i < n) => riemann_cell (hu (Nat.le_succ i)) (hbv i hi) (hw.mono (hsub i hi)) (fun x hx => hw0 x (hsub i hi hx))
    (hδ i hi)
  rw [← intervalIntegral.sum_integral_adjacent_intervals fun i hi => (cell i hi).1, ← Finset.sum_sub_distrib]
  refine (Finset.abs_sum_le_sum_abs _ _).trans ((Finset.sum_le_sum fun i hi => (cell i (Finset.mem_range.1 hi)).2).trans ?_)
  rw [← Finset.mul_sum]
  refine mul_le_mul_of_nonneg_left ?_ hδ0
  rw [← ENNReal.toReal_sum fun i hi => hbv i (Finset.mem_range.1 hi), eVariationOn.sum' f hu]
  exact ENNReal.toReal_le_of_le_ofReal hV hf

/-- Equidistant points in the logarithm. -/
theorem riemann_log {F : ℝ → ℝ} {a b V : ℝ} {n : ℕ} (hn : 0 < n) (ha : 0 < a) (hab : a ≤ b)
    (hf : eVariationOn F (Set.Icc a b) ≤ ENNReal.ofReal V) (hV : 0 ≤ V) :
    |∑ i ∈ Finset.range n, Real.log (b / a) / n * F (a * (b / a) ^ (((i + 1 : ℕ) : ℝ) / n)) - ∫ x in a..b, F x * x⁻¹| ≤
      Real.log (b / a) / n * V := by
  have hn' : (0 : ℝ) < n := by exact_mod_cast hn
  have hr : 1 ≤ b / a := by rw [le_div_iff₀ ha]; linarith
  have hr0 : 0 < b / a := by linarith
  set u : ℕ → ℝ := fun i => a * (b / a) ^ ((i : ℝ) / n) with hu
  have u0 : u 0 = a := by simp [hu]
  have un : u n = b := by
    simp only [hu, div_self hn'.ne', Real.rpow_one]
    field_simp
  have hmono : Monotone u := by
    intro i j hij
    simp only [hu]
    have : (i : ℝ) ≤ j := by exact_mod_cast hij
    gcongr
  have hpos : ∀ i, 0 < u i := fun i => by simp only [hu]; positivity
  have key := riemann_right (f := F) (w := fun x => x⁻¹) (V := V) (n := n) (δ := Real.log (b / a) / n) hmono (by rwa [u0, un]) hV
    (by
      rw [u0, un]
      exact continuousOn_inv₀.mono fun x hx => (ha.trans_le hx.1).ne')
    (by
      rw [u0, un]
      intro x hx
      have := ha.trans_le hx.1
      positivity)
    (div_nonneg (Real.log_nonneg hr) hn'.le)
    (fun i _ => by
      rw [integral_inv_of_pos (hpos i) (hpos (i + 1))]
      simp only [hu]
      rw [mul_div_mul_left _ _ ha.ne', ← Real.rpow_sub hr0, Real.log_rpow hr0]
      push_cast
      field_simp
      ring)
  rwa [u0, un] at key

theorem integral_between {f : ℝ → ℝ} {a b M δ : ℝ} (hab : a ≤ b) (hδ : b - a ≤ δ) (hi : IntervalIntegrable f volume a b)
    (h0 : ∀ x ∈ Set.Icc a b, 0 ≤ f x ∧ f x ≤ M) : 0 ≤ ∫ x in a..b, f x ∧ ∫ x in a..b, f x ≤ δ * M := by
  have hM : 0 ≤ M := (h0 a (Set.left_mem_Icc.2 hab)).1.trans (h0 a (Set.left_mem_Icc.2 hab)).2
  constructor
  · exact intervalIntegral.integral_nonneg hab fun x hx => (h0 x hx).1
  · have := intervalIntegral.integral_mono_on hab hi intervalIntegrable_const fun x hx => (h0 x hx).2
    rw [intervalIntegral.integral_const, smul_eq_mul] at this
    exact this.trans (mul_le_mul_of_nonneg_right hδ hM)

/-- The points of an equidistant grid in an interval that need not begin or end on it. -/
theorem riemann_bin {f : ℝ → ℝ} {A B M V δ : ℝ} {n : ℕ} (hd : 0 < δ) (hA : 0 ≤ A) (hAB : A ≤ B) (hB : B ≤ n * δ)
    (hf : eVariationOn f (Set.Icc A B) ≤ ENNReal.ofReal V) (hV : 0 ≤ V) (h0 : ∀ x ∈ Set.Icc A B, 0 ≤ f x ∧ f x ≤ M)
    {s : Finset ℕ} (hs : ∀ j, j ∈ s ↔ j < n ∧ A < ((j : ℝ) + 1) * δ ∧ ((j : ℝ) + 1) * δ ≤ B) :
    |∑ j ∈ s, δ * f (((j : ℝ) + 1) * δ) - ∫ x in A..B, f x| ≤ δ * (V + 2 * M) := by
  have hM : 0 ≤ M := (h0 A (Set.left_mem_Icc.2 hAB)).1.trans (h0 A (Set.left_mem_Icc.2 hAB)).2
  have hB0 : 0 ≤ B := hA.trans hAB
  have hbv : BoundedVariationOn f (Set.Icc A B) := ne_top_of_le_ne_top ENNReal.ofReal_ne_top hf
  set a := ⌊A / δ⌋₊
  set b := ⌊B / δ⌋₊
  have hset : s = Finset.Ico a b := by
    ext j
    rw [hs, Finset.mem_Ico]
    have h1 : A < ((j : ℝ) + 1) * δ ↔ a ≤ j := by
      rw [← div_lt_iff₀ hd, ← Nat.lt_succ_iff, Nat.floor_lt (by positivity)]
      push_cast
      rfl
    have h2 : ((j : ℝ) + 1) * δ ≤ B ↔ j < b := by
      rw [← le_div_iff₀ hd, Nat.lt_iff_add_one_le, Nat.le_floor_iff (by positivity)]
      push_cast
      rfl
    rw [h1, h2]
    refine ⟨fun h => h.2, fun h => ⟨?_, h⟩⟩
    have h3 : ((j : ℝ) + 1) * δ ≤ n * δ := (h2.2 h.2).trans hB
    have h4 := le_of_mul_le_mul_right h3 hd
    exact_mod_cast h4
  have ha1 : (a : ℝ) * δ ≤ A := by
    have := Nat.floor_le (a := A / δ) (by positivity)
    rwa [le_div_iff₀ hd] at this
  have ha2 : A < ((a : ℝ) + 1) * δ := by
    have := Nat.lt_floor_add_one (A / δ)
    rwa [div_lt_iff₀ hd] at this
  have hb1 : (b : ℝ) * δ ≤ B := by
    have := Nat.floor_le (a := B / δ) (by positivity)
    rwa [le_div_iff₀ hd] at this
  have hb2 : B < ((b : ℝ) + 1) * δ := by
    have := Nat.lt_floor_add_one (B / δ)
    rwa [div_lt_iff₀ hd] at this
  have hab : a ≤ b := Nat.floor_le_floor (by gcongr)
  have hint : ∀ x y, A ≤ x → x ≤ y → y ≤ B → IntervalIntegrable f volume x y := fun x y h1 h2 h3 =>
    bv_integrable h2 (hbv.mono (Set.Icc_subset_Icc h1 h3))
  rw [hset]
  rcases hab.eq_or_lt with he | hlt
  · rw [he, Finset.Ico_self, Finset.sum_empty, zero_sub, abs_neg]
    rw [he] at ha1
    obtain ⟨i1, i2⟩ := integral_between hAB (δ := δ) (by linarith) (hint A B le_rfl hAB le_rfl) h0
    rw [abs_of_nonneg i1]
    nlinarith [mul_nonneg hd.le hV, mul_nonneg hd.le hM]
  · obtain ⟨k, hk⟩ : ∃ k, b = a + (k + 1) := ⟨b - a - 1, by omega⟩
    set u : ℕ → ℝ := fun i => ((a : ℝ) + 1 + i) * δ with hu
    have u0 : u 0 = ((a : ℝ) + 1) * δ := by simp [hu]
    have uk : u k = (b : ℝ) * δ := by simp only [hu, hk]; push_cast; ring
    have hA0 : A ≤ u 0 := by rw [u0]; exact ha2.le
    have hkB : u k ≤ B := by rw [uk]; exact hb1
    have hmono : Monotone u := fun i j hij => by
      simp only [hu]
      have : (i : ℝ) ≤ j := by exact_mod_cast hij
      gcongr
    have h0k := hmono (Nat.zero_le k)
    have mid := riemann_right (f := f) (w := fun _ => 1) (V := V) (n := k) (δ := δ) hmono
      ((eVariationOn.mono f (Set.Icc_subset_Icc hA0 hkB)).trans hf) hV continuousOn_const (fun _ _ => zero_le_one) hd.le (fun i _ => by
        rw [intervalIntegral.integral_const, smul_eq_mul]
        simp only [hu]
        push_cast
        ring)
    simp only [mul_one] at mid
    obtain ⟨i1, i2⟩ := integral_between (f := f) (M := M) hA0 (δ := δ) (by rw [u0]; linarith) (hint _ _ le_rfl hA0 (h0k.trans hkB))
      fun x hx => h0 x ⟨hx.1, hx.2.trans (h0k.trans hkB)⟩
    obtain ⟨j1, j2⟩ := integral_between (f := f) (M := M) hkB (δ := δ) (by rw [uk]; linarith) (hint _ _ (hA0.trans h0k) hkB le_rfl)
      fun x hx => h0 x ⟨(hA0.trans h0k).trans hx.1, hx.2⟩
    have f1 := h0 (u 0) ⟨hA0, h0k.trans hkB⟩
    have split : ∫ x in A..B, f x = (∫ x in A..u 0, f x) + (∫ x in u 0..u k, f x) + ∫ x in u k..B, f x := by
      rw [intervalIntegral.integral_add_adjacent_intervals (hint _ _ le_rfl hA0 (h0k.trans hkB)) (hint _ _ hA0 h0k hkB),
        intervalIntegral.integral_add_adjacent_intervals (hint _ _ le_rfl (hA0.trans h0k) hkB) (hint _ _ (hA0.trans h0k) hkB le_rfl)]
    have sum : ∑ j ∈ Finset.Ico a b, δ * f (((j : ℝ) + 1) * δ) = ∑ i ∈ Finset.range k, δ * f (u (i + 1)) + δ * f (u 0) := by
      rw [Finset.sum_Ico_eq_sum_range, hk, show a + (k + 1) - a = k + 1 by omega, Finset.sum_range_succ']
      congr 1
      · refine Finset.sum_congr rfl fun i _ => ?_
        simp only [hu]
        push_cast
        ring_nf
      · rw [u0, Nat.add_zero]
    rw [sum, split]
    rw [abs_le] at mid ⊢
    have : δ * f (u 0) ≤ δ * M := mul_le_mul_of_nonneg_left f1.2 hd.le
    have : 0 ≤ δ * f (u 0) := mul_nonneg hd.le f1.1
    have : 0 ≤ δ * M := mul_nonneg hd.le hM
    constructor <;> nlinarith

end Obscura
