import Verif.Props.Ionization

/-!
# C84 — an ionization detector without a mechanism
-/

namespace Obscura

open IonizationDetector

variable {U : Units} {T : Tools} {h : Distribution} {d : Detector} {x : IonizationDetector} {p : DMParticle}

theorem collect_zero {α : Type} {f : α → Outcome ℝ} {l : List α} (hf : ∀ a ∈ l, ∀ r, f a = .ok r → r = 0) {l' : List ℝ}
    (h : collect f l = .ok l') : ∀ r ∈ l', r = 0 := by
  obtain ⟨h1, h2⟩ := collect_eq_ok h
  intro r hr
  obtain ⟨i, hi, rfl⟩ := List.getElem_of_mem hr
  exact hf _ (List.getElem_mem (h1 ▸ hi)) _ (h2 i (h1 ▸ hi) hi)

theorem sumOver_zero {α : Type} {f : α → Outcome ℝ} {l : List α} (hf : ∀ a ∈ l, ∀ r, f a = .ok r → r = 0) {s : ℝ}
    (h : sumOver f l = .ok s) : s = 0 := by
  unfold sumOver at h
  obtain ⟨l', h1, h2⟩ := Outcome.bind_eq_ok.1 h
  cases h2
  rw [foldl_add_eq_sum]
  exact List.sum_eq_zero (collect_zero hf h1)

theorem valueOr0_zero {o : Outcome ℝ} (h : ∀ r, o = .ok r → r = 0) : o.valueOr0 = 0 := by
  cases o with
  | ok r => exact h r rfl
  | _ => rfl

theorem integrate_zero {I : Integrator} (hI : I.Homogeneous) (a b : ℝ) : I (fun _ => 0) a b = 0 := by
  have := hI 0 (fun _ => 0) a b
  simpa using this

theorem base_dRdE {E r : ℝ} (hr : x.dRdE shellRateBase d E p = .ok r) : r = 0 := by
  refine sumOver_zero (fun i _ r hr => ?_) hr
  obtain ⟨a, -, hr⟩ := Outcome.bind_eq_ok.1 hr
  obtain ⟨f, -, hr⟩ := Outcome.bind_eq_ok.1 hr
  obtain ⟨y, hy, hr⟩ := Outcome.bind_eq_ok.1 hr
  cases hr
  rw [sumOver_zero (fun e _ r hr => by cases hr; rfl) hy, mul_zero]

theorem base_rNe {ne : ℕ} {r : ℝ} (hr : x.rNe U shellRateBase d ne p = .ok r) : r = 0 := by
  refine sumOver_zero (fun i _ r hr => ?_) hr
  obtain ⟨a, -, hr⟩ := Outcome.bind_eq_ok.1 hr
  obtain ⟨f, -, hr⟩ := Outcome.bind_eq_ok.1 hr
  obtain ⟨y, hy, hr⟩ := Outcome.bind_eq_ok.1 hr
  cases hr
  rw [sumOver_zero (fun e _ r hr => sumOver_zero (fun k _ r hr => ?_) hr) hy, mul_zero]
  obtain ⟨w, -, hr⟩ := Outcome.bind_eq_ok.1 hr
  cases hr
  simp

theorem rS2Aux_zero {nPE : ℕ} {mu sigma r : ℝ} {sp : List ℝ} (hs : ∀ r ∈ sp, r = 0) (hr : rS2Aux nPE mu sigma sp = .ok r) : r = 0 := by
  obtain ⟨rs, h3, h4⟩ := Outcome.bind_eq_ok.1 hr
  have hrs : ∀ r ∈ rs, r = 0 := collect_zero (fun ne _ r hr => by
    unfold vecGet at hr
    split at hr
    · rename_i y hy
      cases hr
      exact hs _ (List.mem_of_getElem? hy)
    · cases hr) h3
  split_ifs at h4
  cases h4
  rw [foldl_add_eq_sum]
  refine List.sum_eq_zero fun r hr => ?_
  rw [List.mem_iff_getElem] at hr
  obtain ⟨i, hi, rfl⟩ := hr
  rw [List.getElem_zipWith, hrs _ (List.getElem_mem _), mul_zero]

theorem base_rS2 {nPE : ℕ} {sp : List ℝ} {r : ℝ} (hs : ∀ r ∈ sp, r = 0) (hr : x.rS2 U shellRateBase d nPE p sp = .ok r) : r = 0 := by
  unfold rS2 at hr
  split_ifs at hr
  · obtain ⟨sp', h1, h2⟩ := Outcome.bind_eq_ok.1 hr
    exact rS2Aux_zero (collect_zero (fun _ _ _ h => base_rNe h) h1) h2
  · exact rS2Aux_zero hs hr

theorem base_rS2Bin {lo hi : ℕ} {sp : List ℝ} {r : ℝ} (hs : ∀ r ∈ sp, r = 0) (hr : x.rS2Bin U shellRateBase d lo hi p sp = .ok r) : r = 0 := by
  have key : ∀ sp : List ℝ, (∀ r ∈ sp, r = 0) → ∀ n r, (x.peEfficiency n >>= fun eff => x.rS2 U shellRateBase d n p sp >>= fun r => .ok (eff * r)) =
      .ok r → r = 0 := by
    intro sp hs n r hr
    obtain ⟨e, -, hr⟩ := Outcome.bind_eq_ok.1 hr
    obtain ⟨y, hy, hr⟩ := Outcome.bind_eq_ok.1 hr
    cases hr
    rw [base_rS2 hs hy, mul_zero]
  unfold rS2Bin at hr
  split_ifs at hr
  · obtain ⟨sp', h1, h2⟩ := Outcome.bind_eq_ok.1 hr
    exact sumOver_zero (fun n _ r hr => key _ (collect_zero (fun _ _ _ h => base_rNe h) h1) n r hr) h2
  · exact sumOver_zero (fun n _ r hr => key _ hs n r hr) hr

theorem base_binned (hI : T.integrate.Homogeneous) {l : List ℝ} (hl : x.signalsBinned U shellRateBase T d p h = .ok l) : ∀ r ∈ l, r = 0 := by
  unfold signalsBinned at hl
  split_ifs at hl
  · unfold Detector.signalsEnergyBins at hl
    split_ifs at hl
    refine collect_zero (fun i _ r hr => ?_) hl
    obtain ⟨lo, -, hr⟩ := Outcome.bind_eq_ok.1 hr
    obtain ⟨hi, -, hr⟩ := Outcome.bind_eq_ok.1 hr
    obtain ⟨e, -, hr⟩ := Outcome.bind_eq_ok.1 hr
    cases hr
    have : (fun E => (x.rateClass shellRateBase h).dRdE d E p) = fun _ => 0 := funext fun E => valueOr0_zero fun r hr => base_dRdE hr
    rw [this, integrate_zero hI, mul_zero, mul_zero]
  · unfold signalsElectronBins at hl
    split_ifs at hl
    refine collect_zero (fun i _ r hr => ?_) hl
    obtain ⟨y, hy, hr⟩ := Outcome.bind_eq_ok.1 hr
    obtain ⟨e, -, hr⟩ := Outcome.bind_eq_ok.1 hr
    cases hr
    rw [base_rNe hy, mul_zero]
  · unfold signalsPEBins at hl
    split_ifs at hl
    obtain ⟨sp, hsp, hl⟩ := Outcome.bind_eq_ok.1 hl
    refine collect_zero (fun i _ r hr => ?_) hl
    obtain ⟨lo, -, hr⟩ := Outcome.bind_eq_ok.1 hr
    obtain ⟨hi, -, hr⟩ := Outcome.bind_eq_ok.1 hr
    obtain ⟨y, hy, hr⟩ := Outcome.bind_eq_ok.1 hr
    obtain ⟨e, -, hr⟩ := Outcome.bind_eq_ok.1 hr
    cases hr
    rw [base_rS2Bin (collect_zero (fun _ _ _ h => base_rNe h) hsp) hy, mul_zero]

/-- C84 (no mechanism). A detector of the class `DM_Detector_Ionization` itself, which has no mechanism of ionization, sees nothing, however it was
configured: no rate at any energy, number of electrons or number of photoelectrons, and no events. -/
theorem C84_no_mechanism (hI : T.integrate.Homogeneous) :
    (∀ E r, x.dRdE shellRateBase d E p = .ok r → r = 0) ∧ (∀ ne r, x.rNe U shellRateBase d ne p = .ok r → r = 0) ∧
      (∀ nPE r, x.rS2 U shellRateBase d nPE p [] = .ok r → r = 0) ∧
      (∀ l, (x.toClass U shellRateBase T h).signalsBinned d p = .ok l → ∀ r ∈ l, r = 0) ∧
      ∀ s, (x.toClass U shellRateBase T h).signalsTotal d p = .ok s → s = 0 := by
  refine ⟨fun E r => base_dRdE, fun ne r => base_rNe, fun nPE r => base_rS2 (by simp), fun l hl => base_binned hI hl, fun s hs => ?_⟩
  simp only [toClass] at hs
  unfold signalsTotal at hs
  split_ifs at hs
  · obtain ⟨l, h1, h2⟩ := Outcome.bind_eq_ok.1 hs
    cases h2
    rw [foldl_add_eq_sum]
    exact List.sum_eq_zero (base_binned hI h1)
  · refine sumOver_zero (fun i _ r hr => ?_) hs
    obtain ⟨y, hy, hr⟩ := Outcome.bind_eq_ok.1 hr
    cases hr
    rw [base_rNe hy, mul_zero]
  · refine sumOver_zero (fun i _ r hr => ?_) hs
    obtain ⟨a, -, hr⟩ := Outcome.bind_eq_ok.1 hr
    refine sumOver_zero (fun e _ r hr => ?_) hr
    obtain ⟨f, -, hr⟩ := Outcome.bind_eq_ok.1 hr
    cases hr
    unfold thresholdSignal
    simp only
    split_ifs
    · have : (fun E : ℝ => d.exposure * (shellRateBase d E p a.nucleus e).valueOr0) = fun _ => 0 :=
        funext fun E => by rw [valueOr0_zero (fun r hr => by cases hr; rfl), mul_zero]
      rw [this, integrate_zero hI, mul_zero]
    · rfl
  · obtain ⟨y, hy, hr⟩ := Outcome.bind_eq_ok.1 hs
    cases hr
    rw [base_rS2Bin (by simp) hy, mul_zero]
  · cases hs; rfl

/-- Non-vacuity: the rates are defined, for a detector of one atom. -/
example (a : Atom) (d : Detector) (p : DMParticle) (E : ℝ) : ∃ r, (initial [a] [1]).dRdE shellRateBase d E p = .ok r := by
  refine ⟨_, sumOver_ok (g := fun _ => 0) fun i hi => ?_⟩
  have hi : i < 1 := List.mem_range.1 hi
  have : dRdEAtom shellRateBase d E p a = .ok 0 := by
    unfold dRdEAtom
    rw [sumOver_ok (f := fun e => shellRateBase d E p a.nucleus e) (g := fun _ => 0) (fun _ _ => rfl)]
    simp
  interval_cases i
  simp [initial, vecGet, this]

end Obscura
