import Verif.Lemmas.MaximumGap
import Verif.Props.Statistics
import Mathlib.Analysis.Complex.ExponentialBounds

/-!
# The maximum-gap analysis (C36)

`IsMaxGapCDF x F` (`Spec/MaximumGap.lean`) describes, without a closed formula, the probability `F μ` that a Poisson process with
`μ` expected events has no gap of `x` or more expected events.
The theorems show that the routine of the code computes it up to its truncation at terms below `1e-20`.
-/

namespace Obscura

open Detector Spec

namespace MaximumGap

variable {x μ : ℝ}

theorem gapTerm_eq (k : ℕ) (h : μ ≠ k * x) : gapTerm x μ k = .ok (term x k μ) := by
  have h0 : μ - k * x ≠ 0 := sub_ne_zero.2 h
  unfold gapTerm
  rw [fdiv_ok h0]
  simp only [Outcome.bind_ok]
  congr 1
  cases k with
  | zero => simp [term]
  | succ k =>
    have f1 : (k.factorial : ℝ) ≠ 0 := by exact_mod_cast k.factorial_ne_zero
    have f2 : ((k : ℝ) + 1) ≠ 0 := by positivity
    set b := ((k + 1 : ℕ) : ℝ) * x - μ with hb
    have e1 : μ - ((k + 1 : ℕ) : ℝ) * x = -b := by rw [hb]; ring
    have hb0 : b ≠ 0 := by rw [e1] at h0; simpa using h0
    simp only [term]
    rw [e1, ← hb, neg_mul, Nat.factorial_succ]
    push_cast
    field_simp
    ring

theorem gapTerm_nonfinite (k : ℕ) (h : μ = k * x) : gapTerm x μ k = .nonfinite := by
  unfold gapTerm fdiv; rw [h]; simp

/-- The loop gives the remaining sum up to the terms it leaves out, each of which is below `1e-20`. -/
theorem gapLoop_eq (hx : 0 < x) {m : ℕ} (hm : m * x ≤ μ) (hne : ∀ k ≤ m, μ ≠ (k : ℕ) * x) :
    ∀ n k s, k + n = m + 1 → ∃ r, gapLoop x μ n k s = .ok r ∧
      |r - (s + ∑ j ∈ Finset.Ico k (m + 1), term x j μ)| ≤ n * (1 / 10 ^ 20) := by
  intro n
  induction n with
  | zero =>
    intro k s hk
    refine ⟨s, rfl, ?_⟩
    rw [show k = m + 1 by omega]
    simp
  | succ n ih =>
    intro k s hk
    simp only [gapLoop]
    rw [gapTerm_eq k (hne k (by omega))]
    simp only [Outcome.bind_ok]
    rw [← Finset.sum_Ioo_add_eq_sum_Ico (by omega : k < m + 1)]
    have hset : Finset.Ioo k (m + 1) = Finset.Ico (k + 1) (m + 1) := by ext; simp
    rw [hset]
    by_cases ht : |term x k μ| < 1 / 10 ^ 20
    · rw [if_pos ht]
      refine ⟨_, rfl, ?_⟩
      have e1 : s + term x k μ - (s + (∑ j ∈ Finset.Ico (k + 1) (m + 1), term x j μ + term x k μ)) =
          -∑ j ∈ Finset.Ico (k + 1) (m + 1), term x j μ := by ring
      rw [e1, abs_neg]
      refine (Finset.abs_sum_le_sum_abs _ _).trans ?_
      refine (Finset.sum_le_card_nsmul _ _ (1 / 10 ^ 20) fun j hj => ?_).trans ?_
      · rw [Finset.mem_Ico] at hj
        exact (later_terms hx hm (ht.trans (by norm_num)) j (by omega) (by omega)).trans ht.le
      · rw [Nat.card_Ico, nsmul_eq_mul]
        refine mul_le_mul_of_nonneg_right ?_ (by positivity)
        exact_mod_cast (by omega : m + 1 - (k + 1) ≤ n + 1)
    · rw [if_neg ht]
      obtain ⟨r, hr, hb⟩ := ih (k + 1) (s + term x k μ) (by omega)
      refine ⟨r, hr, ?_⟩
      have e1 : s + (∑ j ∈ Finset.Ico (k + 1) (m + 1), term x j μ + term x k μ) =
          s + term x k μ + ∑ j ∈ Finset.Ico (k + 1) (m + 1), term x j μ := by ring
      rw [e1]
      refine hb.trans ?_
      push_cast
      nlinarith

/-- The routine gives the exact sum up to `2 ^ 31` terms below `1e-20`. -/
theorem cdf_eq (hx : 0 < x) (hμ : 0 < μ) (hlt : μ / x < 2 ^ 31) (hne : ∀ k : ℕ, 2 ≤ k → μ ≠ k * x) :
    ∃ c, cdfMaximumGap x μ = .ok c ∧ |c - total x μ| ≤ 2 ^ 31 / 10 ^ 20 := by
  unfold cdfMaximumGap
  by_cases h1 : x = μ
  · rw [if_pos h1]
    refine ⟨_, rfl, ?_⟩
    rw [← h1, total_at hx, sub_self, abs_zero]
    positivity
  · have hq : 0 < μ / x := div_pos hμ hx
    rw [if_neg h1, if_neg hx.ne', if_neg (by rintro (h | h) <;> linarith), if_neg (by linarith)]
    have hm : (⌊μ / x⌋₊ : ℝ) * x ≤ μ := (le_div_iff₀ hx).1 (Nat.floor_le hq.le)
    obtain ⟨r, hr, hb⟩ := gapLoop_eq hx hm (fun k _ => by
      match k with
      | 0 => simpa using hμ.ne'
      | 1 => simpa using fun h => h1 h.symm
      | k + 2 => exact hne (k + 2) (by omega)) (⌊μ / x⌋₊ + 1) 0 0 (by omega)
    refine ⟨r, hr, ?_⟩
    have e1 : (0 : ℝ) + ∑ j ∈ Finset.Ico 0 (⌊μ / x⌋₊ + 1), term x j μ = total x μ := by
      rw [zero_add, Nat.Ico_zero_eq_range]; rfl
    rw [e1] at hb
    refine hb.trans ?_
    have h2 : ⌊μ / x⌋₊ < 2 ^ 31 := (Nat.floor_lt hq.le).2 (by exact_mod_cast hlt)
    have h3 : ((⌊μ / x⌋₊ + 1 : ℕ) : ℝ) ≤ 2 ^ 31 := by exact_mod_cast h2
    have h4 := mul_le_mul_of_nonneg_right h3 (by positivity : (0 : ℝ) ≤ 1 / 10 ^ 20)
    linarith

end MaximumGap

open MaximumGap

/-! ## The distribution -/

/-- The specification determines one function on the non-negative numbers, and its values are probabilities. -/
theorem C36_specification {x : ℝ} (hx : 0 < x) : ∃ F, IsMaxGapCDF x F ∧ (∀ μ, 0 ≤ μ → 0 < F μ ∧ F μ ≤ 1) ∧
    ∀ G, IsMaxGapCDF x G → ∀ μ, 0 ≤ μ → G μ = F μ :=
  ⟨total x, isMaxGapCDF hx, fun _ h => ⟨total_pos hx h, total_le_one hx h⟩, fun _ hG _ h => unique hx hG h⟩

/-- C36 (distribution). For a positive maximum gap `x` and `μ` expected events, `μ` no proper multiple of `x` and fewer than
`2 ^ 31` times as large, `CDF_Maximum_Gap` returns a number, which agrees with the probability that all gaps are smaller than `x`
up to `2.2e-11`, and so lies in `[0, 1]` up to that. Missing: for proper multiples see `C36_fails_equal_gaps`. -/
theorem C36_distribution_partial {x μ : ℝ} (hx : 0 < x) (hμ : 0 < μ) (hlt : μ / x < 2 ^ 31) (hne : ∀ k : ℕ, 2 ≤ k → μ ≠ k * x)
    {F : ℝ → ℝ} (hF : IsMaxGapCDF x F) :
    ∃ c, cdfMaximumGap x μ = .ok c ∧ |c - F μ| ≤ 2 ^ 31 / 10 ^ 20 ∧ -(2 ^ 31 / 10 ^ 20) < c ∧ c ≤ 1 + 2 ^ 31 / 10 ^ 20 := by
  obtain ⟨c, hc, hb⟩ := cdf_eq hx hμ hlt hne
  refine ⟨c, hc, by rwa [unique hx hF hμ.le], ?_, ?_⟩
  · have := (abs_le.1 hb).1; linarith [total_pos hx hμ.le]
  · have := (abs_le.1 hb).2; linarith [total_le_one hx hμ.le]

/-- C36 (exact cases). A single gap, `x = μ`, gives exactly the probability of at least one event; a gap that is larger than
everything expected is certain. -/
theorem C36_distribution_exact (x μ : ℝ) : cdfMaximumGap x x = .ok (1 - Real.exp (-x)) ∧
    (0 < μ → μ < x → cdfMaximumGap x μ = .ok 1) := by
  refine ⟨by simp [cdfMaximumGap], fun h0 h1 => ?_⟩
  have hx : 0 < x := h0.trans h1
  have hq : 0 < μ / x := div_pos h0 hx
  have hq1 : μ / x < 1 := (div_lt_one hx).2 h1
  unfold cdfMaximumGap
  rw [if_neg h1.ne', if_neg hx.ne', if_neg (by rintro (h | h) <;> norm_num at h <;> linarith), if_neg (by linarith),
    Nat.floor_eq_zero.2 hq1]
  simp only [gapLoop]
  rw [gapTerm_eq 0 (by simpa using h0.ne')]
  simp only [Outcome.bind_ok, term, zero_add]
  split_ifs <;> rfl

/-- C36 (few terms). While no term is below `1e-20` the value is exact: for `x < μ < 2 x` it is the sum of the first two terms. -/
theorem C36_distribution_two_terms {x μ : ℝ} (h1 : x < μ) (h2 : μ < 2 * x) :
    cdfMaximumGap x μ = .ok (1 - Real.exp (-x) * (1 + (μ - x))) := by
  have hx : 0 < x := by linarith
  have hf : ⌊μ / x⌋₊ = 1 := by
    rw [Nat.floor_eq_iff (div_pos (hx.trans h1) hx).le]
    constructor
    · rw [le_div_iff₀ hx]; push_cast; linarith
    · rw [div_lt_iff₀ hx]; push_cast; linarith
  have hq : 0 < μ / x := div_pos (hx.trans h1) hx
  have hq2 : μ / x < 2 := (div_lt_iff₀ hx).2 h2
  unfold cdfMaximumGap
  rw [if_neg h1.ne, if_neg hx.ne', if_neg (by rintro (h | h) <;> norm_num at h <;> linarith), if_neg (by linarith), hf]
  simp only [gapLoop]
  rw [gapTerm_eq 0 (by simpa using (hx.trans h1).ne'), gapTerm_eq 1 (by simpa using h1.ne')]
  simp only [Outcome.bind_ok, term, zero_add]
  have ha : ¬ |(1 : ℝ)| < 1 / 10 ^ 20 := by norm_num
  rw [if_neg ha]
  have e : (1 : ℝ) + Real.exp (-(((0 + 1 : ℕ) : ℝ) * x)) * ((((0 + 1 : ℕ) : ℝ) * x - μ) ^ (0 + 1) / ((0 + 1).factorial : ℝ) -
      (((0 + 1 : ℕ) : ℝ) * x - μ) ^ 0 / (Nat.factorial 0 : ℝ)) = 1 - Real.exp (-x) * (1 + (μ - x)) := by
    norm_num
    ring
  have e' := e
  norm_num at e' ⊢
  rw [e']

/-- C36 does not hold in general: if the number of expected events is twice the maximum gap, e.g. for two equal gaps with up to 40
expected events each, the code divides by zero. -/
theorem C36_fails_equal_gaps {x : ℝ} (hx : 0 < x) (h : x ≤ 40) : cdfMaximumGap x (2 * x) = .nonfinite := by
  have hq : 2 * x / x = 2 := by field_simp
  unfold cdfMaximumGap
  rw [if_neg (by linarith), if_neg hx.ne', hq, if_neg (by norm_num), if_neg (by norm_num), Nat.floor_ofNat]
  simp only [gapLoop]
  rw [gapTerm_eq 0 (by simp [hx.ne']), gapTerm_eq (0 + 1) (by push_cast; linarith), gapTerm_nonfinite (0 + 1 + 1) (by push_cast; ring)]
  simp only [Outcome.bind_ok]
  have h0 : ¬ |term x 0 (2 * x)| < 1 / 10 ^ 20 := by simp only [term]; norm_num
  have h1 : ¬ |term x (0 + 1) (2 * x)| < 1 / 10 ^ 20 := by
    rw [abs_term 0 (by push_cast; linarith), not_lt]
    have e1 : Real.exp (-40) ≤ Real.exp (-(((0 + 1 : ℕ) : ℝ) * x)) := Real.exp_le_exp.2 (by push_cast; linarith)
    have e2 : (1 : ℝ) / 10 ^ 20 ≤ Real.exp (-40) := by
      rw [Real.exp_neg, one_div]
      refine inv_anti₀ (Real.exp_pos _) ?_
      have : Real.exp 40 = Real.exp 1 ^ 40 := by rw [← Real.exp_nat_mul]; norm_num
      rw [this]
      calc Real.exp 1 ^ 40 ≤ 3 ^ 40 := pow_le_pow_left₀ (Real.exp_pos _).le (by linarith [Real.exp_one_lt_d9]) 40
        _ ≤ 10 ^ 20 := by norm_num
    have e3 : (1 : ℝ) ≤ (2 * x - ((0 + 1 : ℕ) : ℝ) * x) ^ 0 * (2 * x - ((0 + 1 : ℕ) : ℝ) * x + ((0 + 1 : ℕ) : ℝ)) / ((0 + 1).factorial : ℝ) := by
      norm_num; linarith
    exact (e2.trans e1).trans (le_mul_of_one_le_right (Real.exp_pos _).le e3)
  rw [if_neg h0, if_neg h1]
  rfl

/-! ## The p-value -/

namespace MaximumGap

theorem linearSpace_pairwise {a b : ℝ} (h : a < b) : (linearSpace a b 400).Pairwise (· < ·) := by
  unfold linearSpace
  rw [List.pairwise_map]
  refine List.pairwise_lt_range.imp fun {i j} hij => ?_
  have h1 : (i : ℝ) < j := by exact_mod_cast hij
  have h2 : 0 < (b - a) / (((400 : ℕ) : ℝ) - 1) := div_pos (by linarith) (by norm_num)
  nlinarith

theorem linearSpace_head (a b : ℝ) : (linearSpace a b 400).head? = some a := by
  unfold linearSpace
  rw [List.head?_map, List.head?_range]
  norm_num

theorem linearSpace_last (a b : ℝ) : (linearSpace a b 400).getLast? = some b := by
  unfold linearSpace
  rw [List.getLast?_map, List.getLast?_range]
  norm_num
  ring

theorem linearSpace_le {a b e : ℝ} (h : a < b) (he : e ∈ linearSpace a b 400) : e ≤ b := by
  unfold linearSpace at he
  rw [List.mem_map] at he
  obtain ⟨i, hi, rfl⟩ := he
  have h1 : (i : ℝ) ≤ 399 := by have := List.mem_range.1 hi; exact_mod_cast (by omega : i ≤ 399)
  have h2 : 0 < (b - a) / (((400 : ℕ) : ℝ) - 1) := div_pos (by linarith) (by norm_num)
  have h3 : 399 * ((b - a) / (((400 : ℕ) : ℝ) - 1)) = b - a := by norm_num; ring
  nlinarith

/-- The table of the spectrum covers the whole energy range. -/
theorem table {lo hi Edep : ℝ} (h1 : lo < hi) (h2 : lo < Edep) :
    ∃ xs, (if Edep < hi then linearSpace lo Edep 400 ++ [hi] else linearSpace lo hi 400) = xs ∧ 400 ≤ xs.length ∧ xs.Pairwise (· < ·) ∧
      xs.head? = some lo ∧ xs.getLast? = some hi := by
  refine ⟨_, rfl, ?_⟩
  by_cases h : Edep < hi
  · rw [if_pos h]
    refine ⟨by simp [linearSpace], ?_, ?_, by simp⟩
    · rw [List.pairwise_append]
      refine ⟨linearSpace_pairwise h2, by simp, fun a ha b hb => ?_⟩
      rw [List.mem_singleton.1 hb]
      exact (linearSpace_le h2 ha).trans_lt h
    · rw [List.head?_append, linearSpace_head]; rfl
  · rw [if_neg h]
    exact ⟨by simp [linearSpace], linearSpace_pairwise h1, linearSpace_head _ _, linearSpace_last _ _⟩

theorem zipWith_congr_mem {f g : ℝ → ℝ → ℝ} : ∀ (l : List ℝ), (∀ a b, a ∈ l → b ∈ l → a ≤ b → f a b = g a b) → l.Pairwise (· ≤ ·) →
    List.zipWith f l l.tail = List.zipWith g l l.tail
  | [], _, _ => rfl
  | [_], _, _ => rfl
  | a :: b :: l, h, hs => by
    have ih := zipWith_congr_mem (b :: l) (fun x y hx hy => h x y (by simp [hx]) (by simp [hy])) (List.pairwise_cons.1 hs).2
    simp only [List.tail_cons, List.zipWith_cons_cons] at ih ⊢
    rw [h a b (by simp) (by simp) ((List.pairwise_cons.1 hs).1 b (by simp)), ih]

theorem maxElement_eq {l : List ℝ} {M : ℝ} (h : IsGreatest {g | g ∈ l} M) : maxElement l = .ok M := by
  cases l with
  | nil => simp at h; exact absurd h.1 (by simp)
  | cons a l =>
    simp only [maxElement]
    congr 1
    have key : ∀ (l : List ℝ) (a : ℝ), (l.foldl max a ∈ a :: l) ∧ ∀ g ∈ a :: l, g ≤ l.foldl max a := by
      intro l
      induction l with
      | nil => intro a; simp
      | cons b l ih =>
        intro a
        obtain ⟨h1, h2⟩ := ih (max a b)
        rw [List.foldl_cons]
        refine ⟨?_, fun g hg => ?_⟩
        · rcases List.mem_cons.1 h1 with h3 | h3
          · rw [h3]
            rcases max_choice a b with h4 | h4 <;> rw [h4] <;> simp
          · simp [h3]
        · rcases List.mem_cons.1 hg with h3 | h3
          · rw [h3]; exact (le_max_left a b).trans (h2 _ (by simp))
          · rcases List.mem_cons.1 h3 with h4 | h4
            · rw [h4]; exact (le_max_right a b).trans (h2 _ (by simp))
            · exact h2 _ (by simp [h4])
    exact le_antisymm (h.2 (key l a).1) ((key l a).2 _ h.1)

end MaximumGap

variable {U : Units} {T : Tools} {C : DetectorClass}

/-- C36 (p-value). Let `es` be the observed energies (in any order, not all equal, fewer than `2 ^ 31`), `s` the same energies in
ascending order, and `M > 0` and `μ` the largest and the total expected number of events between neighbouring energies. Provided
the interpolation resolves the spectrum and DM can deposit more than the smallest observed energy, the p-value is the probability
of a gap of `M` or more, up to `2.2e-11`. Missing: `μ` a proper multiple of `M`, see `C36_fails_p_value_equal_gaps`. -/
theorem C36_p_value_partial {d d' : Detector} {p : DMParticle} {es s : List ℝ} {Edep a b M : ℝ}
    (hd : d.useMaximumGap es = .ok d') (hs : s.Perm es) (hsort : s.Pairwise (· ≤ ·)) (ha : a ∈ es) (hb : b ∈ es) (hab : a < b)
    (hlen : es.length < 2 ^ 31) (hE : C.maximumEnergyDeposit p = .ok Edep) (hEa : ∃ e ∈ es, e < Edep)
    (hT : Resolves T fun E => d'.exposure * C.dRdE d' E p)
    (hnn : ∀ g ∈ countsBetween (fun E => d'.exposure * C.dRdE d' E p) s, 0 ≤ g)
    (hM : IsGreatest {g | g ∈ countsBetween (fun E => d'.exposure * C.dRdE d' E p) s} M) (hM0 : 0 < M)
    (hne : ∀ k : ℕ, 2 ≤ k → (countsBetween (fun E => d'.exposure * C.dRdE d' E p) s).sum ≠ k * M)
    {F : ℝ → ℝ} (hF : IsMaxGapCDF M F) :
    ∃ P, d'.pValue U T C p = .ok P ∧
      |P - (1 - F (countsBetween (fun E => d'.exposure * C.dRdE d' E p) s).sum)| ≤ 2 ^ 31 / 10 ^ 20 := by
  obtain ⟨d₁, h1, hana, hperm, hsorted, -, -, hrange⟩ := C27_use_maximum_gap d (List.ne_nil_of_mem ha)
  obtain rfl : d₁ = d' := by rw [h1] at hd; exact Outcome.ok.inj hd
  have hgap : d₁.gapData = s := (hperm.trans hs.symm).eq_of_pairwise (fun _ _ _ _ h h' => le_antisymm h h') hsorted hsort
  set f : ℝ → ℝ := fun E => d₁.exposure * C.dRdE d₁ E p with hf
  have hlohi : d₁.energyThreshold < d₁.energyMax := (hrange a ha).1.trans_lt (hab.trans_le (hrange b hb).2)
  have hloE : d₁.energyThreshold < Edep := by obtain ⟨e, he, h⟩ := hEa; exact (hrange e he).1.trans_lt h
  obtain ⟨xs, hxs, hl, hpw, hhd, hla⟩ := table hlohi hloE
  have hzip : List.zipWith (T.interpolationIntegral xs (xs.map f)) s s.tail = countsBetween f s :=
    zipWith_congr_mem s (fun u v hu hv huv => hT xs hl hpw _ _ _ _ hhd hla (hrange u (hs.subset hu)).1 huv (hrange v (hs.subset hv)).2) hsort
  have hgs : gapSizes (T.interpolationIntegral xs (xs.map f)) s = .ok (countsBetween f s) := by
    rw [← hzip]
    cases s with
    | nil => exact absurd (hs.symm.subset ha) (by simp)
    | cons u v => rfl
  set G := countsBetween f s with hG
  have hμ : 0 < G.sum := hM0.trans_le (List.single_le_sum hnn M hM.1)
  have hlt : G.sum / M < 2 ^ 31 := by
    rw [div_lt_iff₀ hM0]
    have h2 := List.sum_le_card_nsmul G M fun g hg => hM.2 hg
    rw [nsmul_eq_mul] at h2
    have h3 : G.length < 2 ^ 31 := by
      have : G.length ≤ s.length := by rw [hG]; simp [countsBetween]
      rw [hs.length_eq] at this
      exact this.trans_lt hlen
    have h4 : (G.length : ℝ) < 2 ^ 31 := by exact_mod_cast h3
    nlinarith
  obtain ⟨c, hc, hcb⟩ := cdf_eq hM0 hμ hlt hne
  refine ⟨1 - c, ?_, ?_⟩
  · unfold pValue
    rw [hana]
    simp only [pValueMaximumGap, hE, Outcome.bind_ok, hxs, hgap]
    rw [hgs]
    simp only [Outcome.bind_ok]
    rw [maxElement_eq hM]
    simp only [Outcome.bind_ok]
    rw [foldl_add_eq_sum, hc]
    rfl
  · rw [unique hM0 hF hμ.le]
    have : 1 - c - (1 - total M G.sum) = -(c - total M G.sum) := by ring
    rw [this, abs_neg]
    exact hcb

/-- C36 does not hold for a single event: the list of gaps is empty and the code dereferences the end of it. -/
theorem C36_fails_single_event {d d' : Detector} {p : DMParticle} {e Edep : ℝ} (hd : d.useMaximumGap [e] = .ok d')
    (hE : C.maximumEnergyDeposit p = .ok Edep) : d'.pValue U T C p = .ub := by
  simp only [useMaximumGap, List.insertionSort, List.head?, List.getLast?] at hd
  obtain rfl := Outcome.ok.inj hd
  simp [pValue, pValueMaximumGap, hE, gapSizes, maxElement]

/-- C36 does not hold for three equidistant events and a constant spectrum with at most 40 events between two of them: the two
gaps are equal and the code divides by zero. -/
theorem C36_fails_p_value_equal_gaps {d d' : Detector} {p : DMParticle} {e h Edep r : ℝ} (hh : 0 < h)
    (hd : d.useMaximumGap [e, e + h, e + 2 * h] = .ok d') (hE : C.maximumEnergyDeposit p = .ok Edep) (hEa : e < Edep)
    (hT : Resolves T fun E => d'.exposure * C.dRdE d' E p) (hr : ∀ E, d'.exposure * C.dRdE d' E p = r) (hr0 : 0 < r * h)
    (hr1 : r * h ≤ 40) : d'.pValue U T C p = .nonfinite := by
  have hsort : [e, e + h, e + 2 * h].Pairwise (· ≤ ·) := by
    simp only [List.pairwise_cons, List.mem_cons, List.not_mem_nil, or_false, forall_eq_or_imp, forall_eq]
    refine ⟨⟨?_, ?_⟩, ?_, ?_⟩ <;> first | linarith | simp
  simp only [useMaximumGap, List.Pairwise.insertionSort_eq hsort, List.head?, List.getLast?_cons_cons, List.getLast?_singleton] at hd
  obtain rfl := Outcome.ok.inj hd
  obtain ⟨xs, hxs, hl, hpw, hhd, hla⟩ := table (lo := e) (hi := e + 2 * h) (by linarith) hEa
  have key : ∀ u v, e ≤ u → u ≤ v → v ≤ e + 2 * h → T.interpolationIntegral xs (xs.map fun E => d.exposure * C.dRdE
      { d with analysis := .maximumGap, gapData := [e, e + h, e + 2 * h], energyThreshold := e, energyMax := e + 2 * h } E p) u v = r * (v - u) := by
    intro u v h1 h2 h3
    refine (hT xs hl hpw _ _ u v hhd hla h1 h2 h3).trans ?_
    simp only [hr, intervalIntegral.integral_const, smul_eq_mul]
    ring
  unfold pValue
  dsimp only
  simp only [pValueMaximumGap, hE, Outcome.bind_ok]
  rw [hxs]
  simp only [gapSizes, Outcome.bind_ok, List.zipWith_cons_cons, List.zipWith_nil_right]
  rw [key e (e + h) le_rfl (by linarith) (by linarith), key (e + h) (e + 2 * h) (by linarith) (by linarith) le_rfl]
  have e1 : r * (e + h - e) = r * h := by ring
  have e2 : r * (e + 2 * h - (e + h)) = r * h := by ring
  rw [e1, e2]
  simp only [maxElement, List.foldl, Outcome.bind_ok, max_self, zero_add]
  rw [← two_mul, C36_fails_equal_gaps hr0 hr1]
  rfl

/-- A class with a constant spectrum (for the examples). -/
noncomputable def flatClass (r : ℝ) : DetectorClass := { constantClass 0 [] with maximumEnergyDeposit := fun _ => .ok 3, dRdE := fun _ _ _ => r }

/-- An interpolation that is right for constants. -/
noncomputable def flatTools : Tools where
  integrate := exactIntegrator
  interpolationIntegral := fun _ ys a b => ys.headD 0 * (b - a)
  findRoot := fun _ _ _ => 0
  searchPoints := fun _ _ _ => []

theorem flatTools_resolves (r : ℝ) : Resolves flatTools fun _ => r := by
  intro xs hl _ lo hi a b hlo _ _ _ _
  cases xs with
  | nil => simp at hl
  | cons y ys => simp [flatTools, mul_comm]

/-- The hypotheses of `C36_p_value_partial` are met by three events and a constant spectrum; the largest gap has two expected
events of three. -/
example (p : DMParticle) : ∃ d' F, (Detector.make "x" 1 "Nuclei").useMaximumGap [4, 1, 2] = .ok d' ∧ IsMaxGapCDF 2 F ∧
    ∃ P, d'.pValue U flatTools (flatClass 1) p = .ok P ∧ |P - (1 - F 3)| ≤ 2 ^ 31 / 10 ^ 20 := by
  obtain ⟨d', hd, -⟩ := C27_use_maximum_gap (Detector.make "x" 1 "Nuclei") (es := [4, 1, 2]) (by simp)
  have hexp : d'.exposure = 1 := by
    simp only [useMaximumGap] at hd
    split at hd
    · rw [← Outcome.ok.inj hd]; rfl
    · cases hd
  have hc : countsBetween (fun E => d'.exposure * (flatClass 1).dRdE d' E p) [1, 2, 4] = [1, 2] := by
    simp [countsBetween, hexp, flatClass]; norm_num
  refine ⟨d', MaximumGap.total 2, hd, isMaxGapCDF (by norm_num), ?_⟩
  have h := C36_p_value_partial (U := U) (T := flatTools) (C := flatClass 1) (p := p) (s := [1, 2, 4]) (Edep := 3) (a := 1) (b := 2) (M := 2) hd
    ((List.perm_middle (l₁ := [1, 2]) (l₂ := []) (a := 4))) (by simp; norm_num) (by simp) (by simp) (by norm_num) (by simp) rfl ⟨1, by simp, by norm_num⟩
    (by simpa [hexp, flatClass] using flatTools_resolves 1) (by rw [hc]; simp) (by rw [hc]; constructor <;> simp [upperBounds])
    (by norm_num) (fun k hk => by
      rw [hc]; intro h
      have h2 : (2 : ℝ) ≤ k := by exact_mod_cast hk
      norm_num at h; linarith) (isMaxGapCDF (by norm_num))
  rw [hc] at h
  norm_num at h ⊢
  exact h

end Obscura
