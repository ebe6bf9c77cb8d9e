import Verif.Spec.Poisson
import Verif.Lemmas.Detector
import Mathlib.Analysis.Calculus.Deriv.MeanValue
import Mathlib.Analysis.SpecialFunctions.ExpDeriv

/-!
# Helper lemmas: the Poisson CDF
-/

namespace Obscura

open Spec ProbabilityTheory

theorem cdfPoisson_eq_probAtMost {mu : ℝ} (h : 0 ≤ mu) (n : ℕ) : cdfPoisson mu n = probAtMost mu n := by
  unfold cdfPoisson probAtMost
  have h1 : (Set.Iic n : Set ℕ) = ((Finset.range (n + 1) : Finset ℕ) : Set ℕ) := by
    ext k; simp
  rw [h1, ← MeasureTheory.sum_measureReal_singleton]
  refine Finset.sum_congr rfl fun k _ => ?_
  rw [poissonMeasure_real_singleton, Real.coe_toNNReal _ h]

theorem exp_logLikelihood {s b : ℝ} (h : 0 < s + b) (n : ℕ) :
    Real.exp (logLikelihoodPoisson s n b) = probExactly (s + b) n := by
  unfold logLikelihoodPoisson probExactly
  rw [poissonMeasure_real_singleton, Real.coe_toNNReal _ h.le, Real.exp_sub, Real.exp_sub, Real.exp_log (by positivity),
    mul_comm (n : ℝ), Real.exp_mul, Real.exp_log h, Real.rpow_natCast, Real.exp_neg]
  field_simp

theorem hasDerivAt_cdfPoisson (mu : ℝ) (n : ℕ) :
    HasDerivAt (fun x => cdfPoisson x n) (-(Real.exp (-mu) * mu ^ n / (n.factorial : ℝ))) mu := by
  induction n with
  | zero =>
    have h : (fun x => cdfPoisson x 0) = fun x => Real.exp (-x) := by funext x; simp [cdfPoisson]
    rw [h]
    have := (hasDerivAt_neg mu).exp
    simpa using this
  | succ n ih =>
    have h : (fun x => cdfPoisson x (n + 1)) =
        fun x => cdfPoisson x n + Real.exp (-x) * x ^ (n + 1) / ((n + 1).factorial : ℝ) := by
      funext x; unfold cdfPoisson; rw [Finset.sum_range_succ _ (n + 1)]
    rw [h]
    have h1 : HasDerivAt (fun x : ℝ => Real.exp (-x)) (-Real.exp (-mu)) mu := by
      simpa using (hasDerivAt_neg mu).exp
    have h2 := ((h1.mul (hasDerivAt_pow (n + 1) mu)).div_const ((n + 1).factorial : ℝ))
    refine (ih.add h2).congr_deriv ?_
    have hn : ((n + 1).factorial : ℝ) = (n + 1) * n.factorial := by push_cast [Nat.factorial_succ]; ring
    have hf : (n.factorial : ℝ) ≠ 0 := by positivity
    rw [hn]
    simp only [Nat.add_sub_cancel]
    push_cast
    field_simp
    ring

theorem continuous_cdfPoisson (n : ℕ) : Continuous fun x => cdfPoisson x n := by
  unfold cdfPoisson; fun_prop

theorem cdfPoisson_strictAnti (n : ℕ) : StrictAntiOn (fun x => cdfPoisson x n) (Set.Ici 0) := by
  refine strictAntiOn_of_deriv_neg (convex_Ici 0) (continuous_cdfPoisson n).continuousOn fun x hx => ?_
  rw [interior_Ici] at hx
  have hx : 0 < x := hx
  rw [(hasDerivAt_cdfPoisson x n).deriv]
  have : 0 < Real.exp (-x) * x ^ n / (n.factorial : ℝ) := by positivity
  linarith

theorem cdfPoisson_zero (n : ℕ) : cdfPoisson 0 n = 1 := by
  unfold cdfPoisson
  rw [Finset.sum_eq_single_of_mem 0 (by simp) (fun k _ hk => by simp [hk])]
  simp

theorem cdfPoisson_le_one {mu : ℝ} (h : 0 ≤ mu) (n : ℕ) : cdfPoisson mu n ≤ 1 := by
  rw [← cdfPoisson_zero n]
  exact (cdfPoisson_strictAnti n).antitoneOn (Set.mem_Ici.2 le_rfl) h h

theorem cdfPoisson_pos {mu : ℝ} (h : 0 ≤ mu) (n : ℕ) : 0 < cdfPoisson mu n := by
  unfold cdfPoisson
  refine Finset.sum_pos' (fun k _ => by positivity) ⟨0, by simp, ?_⟩
  simp [Real.exp_pos]

theorem foldl_min_isLeast (l : List ℝ) (a : ℝ) : IsLeast {x | x ∈ a :: l} (l.foldl min a) := by
  induction l generalizing a with
  | nil => simp [IsLeast, lowerBounds]
  | cons b l ih =>
    obtain ⟨h1, h2⟩ := ih (min a b)
    rw [List.foldl_cons]
    constructor
    · simp only [Set.mem_ofPred_eq, List.mem_cons] at h1 ⊢
      rcases h1 with h1 | h1
      · rcases min_choice a b with h | h <;> rw [h1, h] <;> simp
      · exact .inr (.inr h1)
    · intro x hx
      simp only [Set.mem_ofPred_eq, List.mem_cons] at hx
      have h3 : l.foldl min (min a b) ≤ min a b := h2 (by simp)
      rcases hx with rfl | rfl | hx
      · exact h3.trans (min_le_left _ _)
      · exact h3.trans (min_le_right _ _)
      · exact h2 (by simp [hx])

theorem minElement_isLeast {l : List ℝ} (h : l ≠ []) : ∃ x, minElement l = .ok x ∧ IsLeast {y | y ∈ l} x := by
  obtain ⟨a, l, rfl⟩ := List.exists_cons_of_ne_nil h
  exact ⟨_, rfl, foldl_min_isLeast l a⟩

namespace Detector

variable {U : Units} {T : Tools} {C : DetectorClass}

theorem pValue_poisson {d : Detector} {p : DMParticle} {s : ℝ} (hd : d.analysis = .poisson) (hf : d.usingFiducial = false)
    (hs : C.signalsTotal d p = .ok s) : d.pValue U T C p = .ok (cdfPoisson (s + d.background) d.observed) := by
  unfold pValue; rw [hd]; simp [hf, hs]

/-- The p-value of bin `i` when `es` are expected. -/
noncomputable def binP (d : Detector) (es : List ℝ) (i : ℕ) : ℝ :=
  cdfPoisson (es.getD i 0 + d.binBackground.getD i 0) (d.binObserved.getD i 0)

theorem vecGet_getD {α : Type} {l : List α} {i : ℕ} (h : i < l.length) (a : α) : vecGet l i = .ok (l.getD i a) := by
  rw [vecGet_lt h]; simp [List.getD, h]

theorem collect_binP {d : Detector} {es : List ℝ} (ho : OneEntryPerBin d) (hd : d.analysis = .binnedPoisson)
    (he : d.bins ≤ es.length) :
    collect (fun i => do
      let e ← vecGet es i
      let b ← vecGet d.binBackground i
      let n ← vecGet d.binObserved i
      .ok (cdfPoisson (e + b) n)) (List.range d.bins) = .ok ((List.range d.bins).map (d.binP es)) := by
  obtain ⟨h1, h2, h3⟩ := ho hd
  refine collect_ok fun i hi => ?_
  have hi : i < d.bins := List.mem_range.1 hi
  rw [vecGet_getD (a := 0) (hi.trans_le he), vecGet_getD (a := 0) (hi.trans_eq h2.symm),
    vecGet_getD (a := 0) (hi.trans_eq h1.symm)]
  rfl

theorem pValue_binned {d : Detector} {p : DMParticle} {ss : List ℝ} (ho : OneEntryPerBin d) (hd : d.analysis = .binnedPoisson)
    (hf : d.usingFiducial = false) (hs : C.signalsBinned d p = .ok ss) (hl : d.bins ≤ ss.length) :
    d.pValue U T C p = minElement ((List.range d.bins).map (d.binP ss)) := by
  have h := collect_binP ho hd hl
  unfold pValue
  rw [hd]
  simp only [hf, Bool.false_eq_true, if_false, hs, Outcome.bind_ok]
  rw [h]
  rfl

end Detector
end Obscura
