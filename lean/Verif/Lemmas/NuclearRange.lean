import Verif.Lemmas.NuclearDetector
import Verif.Lemmas.Poisson
import Mathlib.MeasureTheory.Integral.IntervalIntegral.Basic

/-!
# Helper lemmas: which isotopes contribute, and up to which energies
-/

namespace Obscura

open Spec MeasureTheory DMParticle

variable {U : Units} {I : Integrator}

/-- The mediator of a "General" form factor has a mass (otherwise the total cross section diverges, see C06). -/
def MassiveMediator (p : DMParticle) : Prop := ∀ qRef, p.interaction ≠ .SI .general qRef 0

theorem measurable_helm (iso : Isotope) : Measurable fun q => iso.helmFormFactor U q := by
  unfold Isotope.helmFormFactor
  refine Measurable.ite (measurableSet_lt (f := fun q : ℝ => q) (g := fun _ => 1 / 10 ^ 6 * U.MeV) measurable_id measurable_const)
    measurable_const ?_
  fun_prop

theorem formFactor2_bounds {ff : FormFactor} {qRef mMed : ℝ} (hff : ff = .contact ∨ ff = .general) (hm : ff = .general → mMed ≠ 0)
    (q : ℝ) : 0 < formFactor2 ff qRef mMed q ∧
      formFactor2 ff qRef mMed q ≤ max 1 (((qRef * qRef + mMed * mMed) / (mMed * mMed)) ^ 2) := by
  rcases hff with rfl | rfl
  · simp [formFactor2]
  · have h := mul_self_pos.2 (hm rfl)
    have h1 : 0 < qRef * qRef + mMed * mMed := by nlinarith [mul_self_nonneg qRef]
    have h2 : 0 < q * q + mMed * mMed := by nlinarith [mul_self_nonneg q]
    simp only [formFactor2]
    refine ⟨by positivity, le_max_of_le_right ?_⟩
    rw [← sq]
    gcongr
    nlinarith [mul_self_nonneg q]

theorem measurable_formFactor2 (ff : FormFactor) (qRef mMed : ℝ) : Measurable (formFactor2 ff qRef mMed) := by
  unfold formFactor2
  cases ff <;> simp only <;> fun_prop

/-- With a non-vanishing amplitude the total cross section is positive. -/
theorem sigmaBase_pos {p : DMParticle} {iso : Isotope} {ff : FormFactor} {qRef mMed v : ℝ} (hI : I.Exact) (hm : 0 < p.mass)
    (hM : 0 < iso.mass) (hv : 0 < v) (hi : p.interaction = .SI ff qRef mMed) (hff : ff = .contact ∨ ff = .general)
    (hmed : ff = .general → mMed ≠ 0) (hl : p.lowMass = false) (ha : p.fp * iso.Z + p.fn * iso.neutrons ≠ 0) :
    0 < p.sigmaTotalNucleusBase U I iso v := by
  unfold DMParticle.sigmaTotalNucleusBase
  rw [hI]
  set K := 1 / 4 / Real.pi / v / v * (p.fp * iso.Z + p.fn * iso.neutrons) ^ 2 with hK
  have hpi := Real.pi_pos
  have hKp : 0 < K := by rw [hK]; positivity
  set Q := 4 * (reducedMass p.mass iso.mass * v) ^ 2 with hQ
  have hQp : 0 < Q := by have := reducedMass_pos hm hM; positivity
  have hb := formFactor2_bounds (qRef := qRef) hff hmed
  set B := max 1 (((qRef * qRef + mMed * mMed) / (mMed * mMed)) ^ 2)
  set g : ℝ → ℝ := fun x => p.dSigmadq2Nucleus U (Real.sqrt x) iso v with hg
  have hge : ∀ x, g x = K * (formFactor2 ff qRef mMed (Real.sqrt x) * iso.helmFormFactor U (Real.sqrt x) ^ 2) := fun x => by
    simp only [hg, DMParticle.dSigmadq2Nucleus, hi, hl, hK]
    simp; ring
  have hmeas : Measurable g := by
    have : g = fun x => K * (formFactor2 ff qRef mMed (Real.sqrt x) * iso.helmFormFactor U (Real.sqrt x) ^ 2) := funext hge
    rw [this]
    have h1 := (measurable_formFactor2 ff qRef mMed).comp Real.continuous_sqrt.measurable
    have h2 := (measurable_helm (U := U) iso).comp Real.continuous_sqrt.measurable
    exact measurable_const.mul (h1.mul (h2.pow_const 2))
  have hnn : ∀ x, 0 ≤ g x := fun x => by
    rw [hge]; have := (hb (Real.sqrt x)).1; positivity
  have hle : ∀ x, g x ≤ K * B := fun x => by
    rw [hge]
    have h1 := hb (Real.sqrt x)
    have h2 := (C09_helm_bounded (U := U) iso (Real.sqrt x)).2.2
    refine mul_le_mul_of_nonneg_left ?_ hKp.le
    calc _ ≤ formFactor2 ff qRef mMed (Real.sqrt x) * 1 := mul_le_mul_of_nonneg_left h2 h1.1.le
      _ ≤ B := by rw [mul_one]; exact h1.2
  have hint : ∀ a b, IntervalIntegrable g volume a b := fun a b => by
    rw [intervalIntegrable_iff]
    refine Measure.integrableOn_of_bounded (M := K * B) (by simp) hmeas.aestronglyMeasurable ?_
    filter_upwards with x
    rw [Real.norm_eq_abs, abs_of_nonneg (hnn x)]; exact hle x
  set δ := 1 / 10 ^ 6 * U.MeV with hδ
  have hδp : 0 < δ := by
    have := U.MeV_pos
    positivity
  set a := min Q (δ ^ 2) with ha'
  have hap : 0 < a := lt_min hQp (by positivity)
  rw [← intervalIntegral.integral_add_adjacent_intervals (hint 0 a) (hint a Q)]
  have h1 : 0 < ∫ x in (0 : ℝ)..a, g x := by
    refine intervalIntegral.intervalIntegral_pos_of_pos_on (hint 0 a) (fun x hx => ?_) hap
    rw [hge]
    have hx2 : Real.sqrt x < δ := by
      rw [Real.sqrt_lt' hδp]; exact hx.2.trans_le (min_le_right _ _)
    have : iso.helmFormFactor U (Real.sqrt x) = 1 := by
      unfold Isotope.helmFormFactor; rw [if_pos hx2]
    rw [this]
    have := (hb (Real.sqrt x)).1
    positivity
  have h2 : 0 ≤ ∫ x in a..Q, g x := intervalIntegral.integral_nonneg (min_le_left _ _) fun x _ => hnn x
  linarith

/-- An isotope whose total cross section is not positive never scatters. -/
theorem dSigma_zero_of_total {p : DMParticle} {iso : Isotope} {v s : ℝ} (hI : I.Exact) (hm : 0 < p.mass) (hM : 0 < iso.mass)
    (hJ : 0 ≤ iso.spin) (hv : 0 < v) (hmed : MassiveMediator p) (h : p.sigmaTotalNucleus U I iso v = .ok s) (h0 : ¬ 0 < s)
    (q w : ℝ) : p.dSigmadq2Nucleus U q iso w = 0 := by
  have hpi := Real.pi_pos
  have hmu := reducedMass_pos hm hM
  unfold DMParticle.sigmaTotalNucleus at h
  unfold DMParticle.dSigmadq2Nucleus
  cases hi : p.interaction with
  | SI ff qRef mMed =>
    simp only [hi] at h ⊢
    suffices ha : p.fp * iso.Z + p.fn * iso.neutrons = 0 by simp [ha]
    by_contra ha
    split_ifs at h with h1 h2 h3
    · cases h
      have hff : ff = .contact ∨ ff = .general := by tauto
      refine h0 (sigmaBase_pos hI hm hM hv hi hff ?_ (by simpa using h2) ha)
      rintro rfl rfl; exact hmed _ hi
    · subst h3
      have hm0 : mMed ≠ 0 := by rintro rfl; exact hmed _ hi
      rw [generalFactor_ok hm0 (by positivity)] at h
      cases h
      apply h0
      have h4 := mul_self_pos.2 hm0
      have h5 : 0 < qRef * qRef + mMed * mMed := by nlinarith [mul_self_nonneg qRef]
      rw [div_div (_ ^ 2)]
      positivity
    · cases h
      exact h0 (by positivity)
  | SD =>
    simp only [hi] at h ⊢
    by_cases h1 : iso.spin = 0
    · simp [h1]
    · rw [if_pos h1] at h
      cases h
      rw [if_neg h1]
      by_contra ha
      have : p.fp * iso.sp + p.fn * iso.sn ≠ 0 := by intro hc; simp [hc] at ha
      have : 0 < iso.spin := lt_of_le_of_ne hJ (Ne.symm h1)
      exact h0 (by positivity)

/-- Above the kinematic limit, or without any cross section, an isotope contributes nothing. -/
theorem dRdERIsotope_zero {p : DMParticle} {h : Distribution} {iso : Isotope} {E : ℝ} (hI : I.Homogeneous)
    (heta : ∀ v, 0 ≤ v → ∃ x, h.eta v = .ok x)
    (hz : h.vMax < vMinimalNucleus E p.mass iso.mass ∨ ∀ q w, p.dSigmadq2Nucleus U q iso w = 0) :
    dRdERIsotope U I E p h iso = .ok 0 := by
  unfold dRdERIsotope
  dsimp only
  split_ifs with h1 h2
  · rfl
  · rcases hz with hz | hz
    · exact absurd hz h1
    · obtain ⟨x, hx⟩ := heta (vMinimalNucleus E p.mass iso.mass) (Real.sqrt_nonneg _)
      rw [hx]
      simp [DMParticle.dSigmadERNucleus, hz]
  · rcases hz with hz | hz
    · exact absurd hz h1
    · have : (fun v => h.differentialFlux v p.mass * p.dSigmadERNucleus U E iso v) = fun v => (0 : ℝ) * (fun _ => (0 : ℝ)) v := by
        funext v; simp [DMParticle.dSigmadERNucleus, hz]
      rw [this, hI]; simp

namespace NuclearDetector

variable {nd : NuclearDetector} {d : Detector} {p : DMParticle} {h : Distribution}

theorem depositLoop_spec {l : List Isotope} {v E E' : ℝ} (h : depositLoop U I p v l E = .ok E') :
    E ≤ E' ∧ (∀ iso ∈ l, maximumNuclearRecoilEnergy v p.mass iso.mass ≤ E' ∨
      ∃ s, p.sigmaTotalNucleus U I iso v = .ok s ∧ ¬ 0 < s) ∧
    (E' = E ∨ ∃ iso ∈ l, maximumNuclearRecoilEnergy v p.mass iso.mass = E' ∧
      ∃ s, p.sigmaTotalNucleus U I iso v = .ok s ∧ 0 < s) := by
  induction l generalizing E with
  | nil => cases h; simp
  | cons iso l ih =>
    unfold depositLoop at h
    dsimp only at h
    split_ifs at h with h1
    · obtain ⟨s, hs, h⟩ := Outcome.bind_eq_ok.1 h
      split_ifs at h with h2
      · obtain ⟨a, b, c⟩ := ih h
        refine ⟨h1.le.trans a, ?_, ?_⟩
        · intro i hi
          rcases List.mem_cons.1 hi with rfl | hi
          · exact .inl a
          · exact b i hi
        · right
          rcases c with c | ⟨i, hi, c⟩
          · exact ⟨iso, by simp, c.symm, s, hs, h2⟩
          · exact ⟨i, by simp [hi], c⟩
      · obtain ⟨a, b, c⟩ := ih h
        refine ⟨a, ?_, ?_⟩
        · intro i hi
          rcases List.mem_cons.1 hi with rfl | hi
          · exact .inr ⟨s, hs, h2⟩
          · exact b i hi
        · rcases c with c | ⟨i, hi, c⟩
          · exact .inl c
          · exact .inr ⟨i, by simp [hi], c⟩
    · obtain ⟨a, b, c⟩ := ih h
      refine ⟨a, ?_, ?_⟩
      · intro i hi
        rcases List.mem_cons.1 hi with rfl | hi
        · exact .inl ((not_lt.1 h1).trans a)
        · exact b i hi
      · rcases c with c | ⟨i, hi, c⟩
        · exact .inl c
        · exact .inr ⟨i, by simp [hi], c⟩

theorem speedLoop_spec {l : List Isotope} {v v' E : ℝ} (h : speedLoop U I p E l v = .ok v') :
    v' ≤ v ∧ (∀ iso ∈ l, v' ≤ vMinimalNucleus E p.mass iso.mass ∨
      ∃ s, p.sigmaTotalNucleus U I iso (1 / 1000) = .ok s ∧ ¬ 0 < s) ∧
    (v' = v ∨ ∃ iso ∈ l, vMinimalNucleus E p.mass iso.mass = v' ∧
      ∃ s, p.sigmaTotalNucleus U I iso (1 / 1000) = .ok s ∧ 0 < s) := by
  induction l generalizing v with
  | nil => cases h; simp
  | cons iso l ih =>
    unfold speedLoop at h
    dsimp only at h
    split_ifs at h with h1
    · obtain ⟨s, hs, h⟩ := Outcome.bind_eq_ok.1 h
      split_ifs at h with h2
      · obtain ⟨a, b, c⟩ := ih h
        refine ⟨a.trans h1.le, ?_, ?_⟩
        · intro i hi
          rcases List.mem_cons.1 hi with rfl | hi
          · exact .inl a
          · exact b i hi
        · right
          rcases c with c | ⟨i, hi, c⟩
          · exact ⟨iso, by simp, c.symm, s, hs, h2⟩
          · exact ⟨i, by simp [hi], c⟩
      · obtain ⟨a, b, c⟩ := ih h
        refine ⟨a, ?_, ?_⟩
        · intro i hi
          rcases List.mem_cons.1 hi with rfl | hi
          · exact .inr ⟨s, hs, h2⟩
          · exact b i hi
        · rcases c with c | ⟨i, hi, c⟩
          · exact .inl c
          · exact .inr ⟨i, by simp [hi], c⟩
    · obtain ⟨a, b, c⟩ := ih h
      refine ⟨a, ?_, ?_⟩
      · intro i hi
        rcases List.mem_cons.1 hi with rfl | hi
        · exact .inl (a.trans (not_lt.1 h1))
        · exact b i hi
      · rcases c with c | ⟨i, hi, c⟩
        · exact .inl c
        · exact .inr ⟨i, by simp [hi], c⟩

theorem massLoop_spec {l : List Isotope} {E v : ℝ} {aux : List ℝ} (h : massLoop U I p E v l = .ok aux) :
    (∀ iso ∈ l, ∃ s, p.sigmaTotalNucleus U I iso v = .ok s ∧
      (0 < s → ∃ m ∈ aux, minimumMassIsotope E v iso = .ok m)) ∧
    ∀ m ∈ aux, ∃ iso ∈ l, minimumMassIsotope E v iso = .ok m ∧ ∃ s, p.sigmaTotalNucleus U I iso v = .ok s ∧ 0 < s := by
  induction l generalizing aux with
  | nil => cases h; simp
  | cons iso l ih =>
    unfold massLoop at h
    obtain ⟨s, hs, h⟩ := Outcome.bind_eq_ok.1 h
    split_ifs at h with h1
    · obtain ⟨m, hm, h⟩ := Outcome.bind_eq_ok.1 h
      obtain ⟨ms, hms, h⟩ := Outcome.bind_eq_ok.1 h
      cases h
      obtain ⟨a, b⟩ := ih hms
      constructor
      · intro i hi
        rcases List.mem_cons.1 hi with rfl | hi
        · exact ⟨s, hs, fun _ => ⟨m, by simp, hm⟩⟩
        · obtain ⟨t, ht, ht'⟩ := a i hi
          refine ⟨t, ht, fun h => ?_⟩
          obtain ⟨x, hx, hx'⟩ := ht' h
          exact ⟨x, by simp [hx], hx'⟩
      · intro x hx
        rcases List.mem_cons.1 hx with rfl | hx
        · exact ⟨iso, by simp, hm, s, hs, h1⟩
        · obtain ⟨i, hi, hi'⟩ := b x hx
          exact ⟨i, by simp [hi], hi'⟩
    · obtain ⟨a, b⟩ := ih h
      constructor
      · intro i hi
        rcases List.mem_cons.1 hi with rfl | hi
        · exact ⟨s, hs, fun h => absurd h h1⟩
        · exact a i hi
      · intro x hx
        obtain ⟨i, hi, hi'⟩ := b x hx
        exact ⟨i, by simp [hi], hi'⟩

/-- A particle lighter than `mMin` of an isotope cannot produce a recoil of energy `E` or more. -/
theorem too_light {E vMax m : ℝ} {mDM : ℝ} {iso : Isotope} (hm : 0 < mDM) (hM : 0 < iso.mass) (hv : 0 < vMax)
    (hE : 0 ≤ E) (h : minimumMassIsotope E vMax iso = .ok m) (hlt : mDM < m) {E' : ℝ} (hE' : E ≤ E') :
    vMax < vMinimalNucleus E' mDM iso.mass := by
  unfold minimumMassIsotope at h
  split_ifs at h with h0
  · cases h; linarith
  obtain ⟨x, hx, h⟩ := Outcome.bind_eq_ok.1 h
  obtain ⟨r, hr, h⟩ := Outcome.bind_eq_ok.1 h
  unfold fdiv at hx h
  unfold fsqrt at hr
  split_ifs at hx with h1
  split_ifs at hr with h2
  split_ifs at h with h3
  cases hx; cases hr; cases h
  have hEp : 0 < E := lt_of_le_of_ne hE (Ne.symm h1)
  set r := Real.sqrt (2 * iso.mass / E) with hr
  have hr0 : 0 < r := Real.sqrt_pos.2 (by positivity)
  have hr2 : r * r = 2 * iso.mass / E := Real.mul_self_sqrt (by positivity)
  have hpos : 0 < r * vMax - 1 := by
    by_contra hc
    have : iso.mass / (r * vMax - 1) ≤ 0 := div_nonpos_of_nonneg_of_nonpos hM.le (not_lt.1 hc)
    linarith
  rw [lt_div_iff₀ hpos] at hlt
  -- `mDM r vMax < mDM + M`
  have h4 : mDM * r * vMax < mDM + iso.mass := by linarith
  unfold vMinimalNucleus reducedMass
  rw [Real.lt_sqrt hv.le, lt_div_iff₀ (by positivity)]
  have h5 : (mDM * r * vMax) ^ 2 < (mDM + iso.mass) ^ 2 := by gcongr
  have h6 : (mDM * r * vMax) ^ 2 = mDM ^ 2 * (2 * iso.mass / E) * vMax ^ 2 := by rw [← hr2]; ring
  rw [h6] at h5
  have h7 : mDM ^ 2 * vMax ^ 2 * (2 * iso.mass) < (mDM + iso.mass) ^ 2 * E := by
    have := (mul_lt_mul_of_pos_right h5 hEp)
    have e : mDM ^ 2 * (2 * iso.mass / E) * vMax ^ 2 * E = mDM ^ 2 * vMax ^ 2 * (2 * iso.mass) := by field_simp
    linarith
  have h8 : (mDM + iso.mass) ^ 2 * E ≤ (mDM + iso.mass) ^ 2 * E' := by gcongr
  have e : vMax ^ 2 * (mDM * iso.mass / (mDM + iso.mass)) ^ 2 =
      mDM ^ 2 * vMax ^ 2 * (2 * iso.mass) * iso.mass / 2 / (mDM + iso.mass) ^ 2 := by field_simp
  rw [e, div_lt_iff₀ (by positivity)]
  nlinarith

end NuclearDetector

/-! ### The base class around a linear rate -/

theorem sum_map_mul (k : ℝ) (xs : List ℝ) : (xs.map fun x => k * x).sum = k * xs.sum := by
  induction xs with
  | nil => simp
  | cons a xs ih => simp [ih, mul_add]

/-- A detector class that overrides only the rate is linear if the rate is. -/
theorem DetectorClass.base_linear {T : Tools} {a : DMParticle → Outcome ℝ} {b : Detector → DMParticle → Outcome ℝ}
    {rate : Detector → ℝ → DMParticle → ℝ} {t : String} (hI : T.integrate.Homogeneous)
    (hP : ∀ k xs (ys : List ℝ) x y, T.interpolationIntegral xs (ys.map fun z => k * z) x y = k * T.interpolationIntegral xs ys x y)
    (hr : ∀ (d : Detector) E k p p', d.targets = t → 0 ≤ k → ScaledBy U t k p p' → rate d E p' = k * rate d E p)
    (hc : ∀ (d : Detector) p u c s ss E,
      rate { d with usingFiducial := u, fiducialCoupling := c, fiducialSignals := s, fiducialSpectrum := ss } E p = rate d E p) :
    LinearClass U (DetectorClass.base T a b rate) t := by
  have hbin : ∀ (d : Detector) (C : DetectorClass) k p p', C.dRdE = rate → d.targets = t → 0 ≤ k → ScaledBy U t k p p' →
      d.baseSignalsBinned T C p' = d.baseSignalsBinned T C p >>= fun ss => .ok (ss.map fun s => k * s) := by
    intro d C k p p' hC ht hk hs
    unfold Detector.baseSignalsBinned Detector.signalsEnergyBins
    split_ifs
    · rfl
    · rfl
    · refine collect_scale k fun i _ => ?_
      cases vecGet d.binEnergies i <;> simp [Outcome.scale]
      cases vecGet d.binEnergies (i + 1) <;> simp
      cases vecGet d.binEfficiencies i <;> simp
      have : (fun E => C.dRdE d E p') = fun E => k * C.dRdE d E p := by
        funext E; rw [hC]; exact hr d E k p p' ht hk hs
      rw [this, hI]; ring
    · rfl
  constructor
  · exact hr
  · intro d k p p' ht hk hs
    simp only [DetectorClass.base]
    unfold Detector.baseSignalsTotal
    split_ifs
    · simp only
      rw [hbin d _ k p p' rfl ht hk hs]
      generalize Detector.baseSignalsBinned T _ d p = o
      cases o <;> simp [foldl_add_eq_sum, sum_map_mul]
    · rfl
    · simp only [Outcome.bind_ok, Outcome.ok.injEq]
      have : (fun E => rate d E p') = fun E => k * rate d E p := by
        funext E; exact hr d E k p p' ht hk hs
      rw [this, show ∀ l : List ℝ, (l.map fun E => k * rate d E p) = (l.map fun E => rate d E p).map fun z => k * z by simp, hP]
      ring
  · intro d k p p' ht hk hs
    exact hbin d _ k p p' rfl ht hk hs
  · intro d p u c s ss
    have hr' : ∀ E, rate { d with usingFiducial := u, fiducialCoupling := c, fiducialSignals := s, fiducialSpectrum := ss } E p
        = rate d E p := hc d p u c s ss
    refine ⟨?_, ?_, hr'⟩
    · simp only [DetectorClass.base, Detector.baseSignalsTotal, Detector.baseSignalsBinned, Detector.signalsEnergyBins, hr']
    · simp only [DetectorClass.base, Detector.baseSignalsBinned, Detector.signalsEnergyBins, hr']

end Obscura
