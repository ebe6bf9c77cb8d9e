import Verif.Spec.Continuity
import Verif.Props.HeavyElectrons
import Verif.Props.QuadratureDefined
import Verif.Lemmas.NuclearDetector
import Mathlib.MeasureTheory.Integral.DominatedConvergence

/-!
# Lemmas for C116: rates without jumps
-/

namespace Obscura

open Spec DMParticle MeasureTheory Filter Topology

variable {U : Units} {I : Integrator} {p : DMParticle} {h : Distribution} {iso : Isotope} {c : Crystal}

/-- The mean inverse speed of the particles faster than `w`. -/
noncomputable def speedTail (h : Distribution) (w : ℝ) : ℝ := ∫ u in (min w h.vMax)..h.vMax, h.pdfSpeed u / u

theorem speedTail_continuousOn (hf : ProperSpeeds h) : ContinuousOn (speedTail h) (Set.Ioi 0) := by
  intro w hw
  refine ContinuousAt.continuousWithinAt ?_
  have hw : 0 < w := hw
  rcases le_or_gt h.vMax 0 with hv | hv
  · refine (continuousAt_const (y := (0 : ℝ))).congr ?_
    filter_upwards [lt_mem_nhds hw] with x hx
    have : min x h.vMax = h.vMax := min_eq_right (hv.trans hx.le)
    unfold speedTail
    rw [this, intervalIntegral.integral_same]
  set a := min (w / 2) h.vMax with ha
  have a0 : 0 < a := lt_min (by positivity) hv
  have hint : IntervalIntegrable (fun v => h.pdfSpeed v / v) volume a h.vMax := by
    refine (hf.2.mono_set ?_).mul_continuousOn (g := fun v => v⁻¹) ?_
    · rw [Set.uIcc_of_le (min_le_right _ _), Set.uIcc_of_le hv.le]
      exact Set.Icc_subset_Icc a0.le le_rfl
    · rw [Set.uIcc_of_le (min_le_right _ _)]
      exact continuousOn_inv₀.mono fun v hv => (a0.trans_le hv.1).ne'
  have hcont : ContinuousOn (fun x => ∫ u in x..h.vMax, h.pdfSpeed u / u) (Set.Icc a h.vMax) := by
    have hi : IntegrableOn (fun v => h.pdfSpeed v / v) (Set.uIcc a h.vMax) volume := by
      rw [Set.uIcc_of_le (min_le_right _ _)]
      exact (intervalIntegrable_iff_integrableOn_Icc_of_le (min_le_right _ _)).1 hint
    have := intervalIntegral.continuousOn_primitive_interval_left hi
    rwa [Set.uIcc_of_le (min_le_right _ _)] at this
  have hcl : ContinuousOn (speedTail h) (Set.Ici a) := by
    refine hcont.comp (f := fun x => min x h.vMax) (by fun_prop) fun x hx => ⟨?_, min_le_right _ _⟩
    exact le_min hx (min_le_right _ _)
  refine hcl.continuousAt (Ici_mem_nhds ?_)
  exact (min_le_left _ _).trans_lt (by linarith)

theorem vMinimalNucleus_pos {E m M : ℝ} (hE : 0 < E) (hm : 0 < m) (hM : 0 < M) : 0 < vMinimalNucleus E m M := by
  have := reducedMass_pos hm hM
  exact Real.sqrt_pos.2 (by positivity)

/-- The recoil rate as a product. -/
theorem isotopeRate_tail {E : ℝ} (hm : 0 < p.mass) (hM : 0 < iso.mass) : isotopeRate U p h iso E =
    p.fractionalDensity * h.density / (p.mass * iso.mass) *
      ((1 / 1000) * (1 / 1000) * p.dSigmadERNucleus U E iso (1 / 1000) * speedTail h (vMinimalNucleus E p.mass iso.mass)) := by
  have hR := isotopeRate_eq (U := U) (h := h) (E := E) hm hM
  rcases lt_or_ge h.vMax (vMinimalNucleus E p.mass iso.mass) with g | g
  · unfold speedTail
    rw [hR.1 g, min_eq_right g.le, intervalIntegral.integral_same, mul_zero, mul_zero]
  · unfold speedTail
    rw [hR.2 g, min_eq_left g]
    have : ∀ v, v * h.pdfSpeed v * p.dSigmadERNucleus U E iso v =
        (1 / 1000) * (1 / 1000) * p.dSigmadERNucleus U E iso (1 / 1000) * (h.pdfSpeed v / v) := fun v => by
      rw [mul_right_comm, dSigmadER_speed]
      ring
    simp only [this]
    rw [intervalIntegral.integral_const_mul]

theorem continuous_speed_in_energy (m M : ℝ) : Continuous fun E => vMinimalNucleus E m M := by
  unfold vMinimalNucleus
  fun_prop

theorem continuousOn_speed_in_mass {E M : ℝ} (hM : 0 < M) : ContinuousOn (fun m => vMinimalNucleus E m M) (Set.Ioi 0) := by
  unfold vMinimalNucleus reducedMass
  have hμ : ContinuousOn (fun m : ℝ => m * M / (m + M)) (Set.Ioi 0) := ContinuousOn.div (by fun_prop) (by fun_prop) fun m hm => by
    have : 0 < m := hm
    positivity
  refine Real.continuous_sqrt.comp_continuousOn (ContinuousOn.div continuousOn_const (hμ.pow 2) fun m hm => ?_)
  have : 0 < m := hm
  positivity

theorem formFactor2_continuousOn (ff : FormFactor) (qRef mMed : ℝ) : ContinuousOn (formFactor2 ff qRef mMed) (Set.Ioi 0) := by
  have hq : ∀ q ∈ Set.Ioi (0 : ℝ), q ≠ 0 := fun q hq => ne_of_gt hq
  unfold formFactor2
  cases ff with
  | contact => exact (continuousOn_const : ContinuousOn (fun _ : ℝ => (1 : ℝ) * 1) _)
  | general =>
    have : ContinuousOn (fun q : ℝ => (qRef * qRef + mMed * mMed) / (q * q + mMed * mMed)) (Set.Ioi 0) :=
      ContinuousOn.div (by fun_prop) (by fun_prop) fun q hq => by
        have := mul_pos (a := q) hq hq
        nlinarith [mul_self_nonneg mMed]
    exact this.mul this
  | longRange =>
    have : ContinuousOn (fun q : ℝ => qRef * qRef / q / q) (Set.Ioi 0) :=
      ContinuousOn.div (ContinuousOn.div (by fun_prop) (by fun_prop) hq) (by fun_prop) hq
    exact this.mul this
  | electricDipole =>
    have : ContinuousOn (fun q : ℝ => qRef / q) (Set.Ioi 0) := ContinuousOn.div (by fun_prop) (by fun_prop) hq
    exact this.mul this

/-- Above the momentum at which its formula begins the nuclear form factor has no jumps. -/
theorem helm_continuousAt {q : ℝ} (hq : 0 < q) (hne : q ≠ 1 / 10 ^ 6 * U.MeV) : ContinuousAt (fun q => iso.helmFormFactor U q) q := by
  rcases lt_or_gt_of_ne hne with hlt | hgt
  · refine (continuousAt_const (y := (1 : ℝ))).congr ?_
    filter_upwards [gt_mem_nhds hlt] with x hx
    unfold Isotope.helmFormFactor
    rw [if_pos hx]
  · have hr := (C09_radius_positive (U := U) iso).2
    have : ContinuousAt (fun q : ℝ => 3 * (Real.sin (q * iso.helmRadius U) / (q * iso.helmRadius U) ^ 3 -
        Real.cos (q * iso.helmRadius U) / (q * iso.helmRadius U) ^ 2) * Real.exp (-q * q * (0.9 * U.fm) * (0.9 * U.fm) / 2)) q := by
      have h3 : (q * iso.helmRadius U) ^ 3 ≠ 0 := by positivity
      have h2 : (q * iso.helmRadius U) ^ 2 ≠ 0 := by positivity
      have k1 := ContinuousAt.div (f := fun q : ℝ => Real.sin (q * iso.helmRadius U)) (g := fun q : ℝ => (q * iso.helmRadius U) ^ 3) (a := q)
        (by fun_prop) (by fun_prop) h3
      have k2 := ContinuousAt.div (f := fun q : ℝ => Real.cos (q * iso.helmRadius U)) (g := fun q : ℝ => (q * iso.helmRadius U) ^ 2) (a := q)
        (by fun_prop) (by fun_prop) h2
      exact (continuousAt_const.mul (k1.sub k2)).mul (by fun_prop)
    refine this.congr ?_
    filter_upwards [lt_mem_nhds hgt] with x hx
    unfold Isotope.helmFormFactor
    rw [if_neg (not_lt.2 hx.le)]

/-- The cross section at a given speed as a function of the recoil energy. -/
theorem crossSection_continuousAt {E v : ℝ} (hE : 0 < E) (hM : 0 < iso.mass)
    (hne : p.interaction = .SD ∨ p.lowMass = true ∨ 2 * iso.mass * E ≠ (1 / 10 ^ 6 * U.MeV) ^ 2) :
    ContinuousAt (fun E => p.dSigmadERNucleus U E iso v) E := by
  have hq : 0 < Real.sqrt (2 * iso.mass * E) := Real.sqrt_pos.2 (by positivity)
  have hqc : ContinuousAt (fun E => Real.sqrt (2 * iso.mass * E)) E := by fun_prop
  have hMeV := U.MeV_pos
  unfold dSigmadERNucleus dSigmadq2Nucleus
  rcases hi : p.interaction with ⟨ff, qRef, mMed⟩ | _
  · have hff : ContinuousAt (fun E => formFactor2 ff qRef mMed (Real.sqrt (2 * iso.mass * E))) E :=
      ContinuousAt.comp (f := fun E => Real.sqrt (2 * iso.mass * E)) ((formFactor2_continuousOn ff qRef mMed).continuousAt (Ioi_mem_nhds hq)) hqc
    have hN : ContinuousAt (fun E => if p.lowMass then (1 : ℝ) else iso.helmFormFactor U (Real.sqrt (2 * iso.mass * E))) E := by
      by_cases hl : p.lowMass = true
      · simp only [hl, if_true]
        exact continuousAt_const
      · simp only [hl]
        refine ContinuousAt.comp (f := fun E => Real.sqrt (2 * iso.mass * E)) (helm_continuousAt hq ?_) hqc
        intro he
        rcases hne with hne | hne | hne
        · rw [hi] at hne; cases hne
        · exact hl hne
        · apply hne
          rw [← he, Real.sq_sqrt (by positivity)]
    exact continuousAt_const.mul (((continuousAt_const.mul hff).mul hN).mul hN)
  · simp only []
    split_ifs <;> exact continuousAt_const

theorem isotopeRate_continuousAt {E : ℝ} (hm : 0 < p.mass) (hM : 0 < iso.mass) (hf : ProperSpeeds h) (hE : 0 < E)
    (hne : p.interaction = .SD ∨ p.lowMass = true ∨ 2 * iso.mass * E ≠ (1 / 10 ^ 6 * U.MeV) ^ 2) :
    ContinuousAt (fun E => isotopeRate U p h iso E) E := by
  simp only [isotopeRate_tail hm hM]
  have hv := vMinimalNucleus_pos hE hm hM
  have ht : ContinuousAt (fun E => speedTail h (vMinimalNucleus E p.mass iso.mass)) E :=
    ContinuousAt.comp (f := fun E => vMinimalNucleus E p.mass iso.mass) ((speedTail_continuousOn hf).continuousAt (Ioi_mem_nhds hv))
      (continuous_speed_in_energy _ _).continuousAt
  exact continuousAt_const.mul ((continuousAt_const.mul (crossSection_continuousAt hE hM hne)).mul ht)

/-! ### Masses -/

/-- The cross section after `Set_Mass`. -/
theorem crossSection_mass (hp : Reachable U p) {E v m : ℝ} (hm : 0 < m) :
    (withMass U p m).dSigmadERNucleus U E iso v =
      reducedMass 1 U.mProton ^ 2 / reducedMass m U.mProton ^ 2 * (withMass U p 1).dSigmadERNucleus U E iso v := by
  have hb := reachable_inv hp
  have := setMass_crossSection (U := U) (E := E) (iso := iso) hb (setMass_ok hb hm) (setMass_ok hb one_pos) hm one_pos v
  have μ := reducedMass_pos hm U.mProton_pos
  field_simp
  linarith

theorem continuousOn_reducedMass {M : ℝ} (hM : 0 < M) : ContinuousOn (fun m => reducedMass m M) (Set.Ioi 0) := by
  unfold reducedMass
  exact ContinuousOn.div (by fun_prop) (by fun_prop) fun m hm => by
    have : 0 < m := hm
    positivity

theorem withMass_fields (hp : Reachable U p) {m : ℝ} (hm : 0 < m) : (withMass U p m).mass = m ∧
    (withMass U p m).fractionalDensity = p.fractionalDensity ∧ (withMass U p m).interaction = p.interaction ∧
    (withMass U p m).sigmaElectronRef = p.sigmaElectronRef ∧ (withMass U p m).useEtaFunction = p.useEtaFunction := by
  have hb := reachable_inv hp
  obtain ⟨fp, fn, e1, -⟩ := setMass_couplings hb (setMass_ok hb hm) (setMass_ok hb hm) hm hm
  rw [e1]
  exact ⟨rfl, rfl, rfl, rfl, rfl⟩

theorem isotopeRate_mass (hp : Reachable U p) (hM : 0 < iso.mass) (hf : ProperSpeeds h) {E : ℝ} (hE : 0 < E) :
    ContinuousOn (fun m => isotopeRate U (withMass U p m) h iso E) (Set.Ioi 0) := by
  have hμ : ContinuousOn (fun m => reducedMass 1 U.mProton ^ 2 / reducedMass m U.mProton ^ 2) (Set.Ioi 0) :=
    ContinuousOn.div continuousOn_const ((continuousOn_reducedMass U.mProton_pos).pow 2) fun m hm => by
      have := reducedMass_pos (m1 := m) hm U.mProton_pos
      positivity
  have hv : ContinuousOn (fun m => speedTail h (vMinimalNucleus E m iso.mass)) (Set.Ioi 0) :=
    (speedTail_continuousOn hf).comp (continuousOn_speed_in_mass hM) fun m hm => vMinimalNucleus_pos hE hm hM
  have hd : ContinuousOn (fun m : ℝ => p.fractionalDensity * h.density / (m * iso.mass)) (Set.Ioi 0) :=
    ContinuousOn.div continuousOn_const (by fun_prop) fun m hm => by
      have : 0 < m := hm
      positivity
  refine (hd.mul (((continuousOn_const (c := (1 / 1000 : ℝ) * (1 / 1000))).mul (hμ.mul (continuousOn_const
    (c := (withMass U p 1).dSigmadERNucleus U E iso (1 / 1000))))).mul hv)).congr fun m hm => ?_
  obtain ⟨e1, e2, -⟩ := withMass_fields (U := U) hp hm
  show isotopeRate U (withMass U p m) h iso E = _
  rw [isotopeRate_tail (by rw [e1]; exact hm) hM, crossSection_mass hp hm, e1, e2]
  rfl

/-! ### Semiconductors -/

theorem vMinimalElectrons_pos {q E m : ℝ} (hq : 0 < q) (hE : 0 < E) (hm : 0 < m) : 0 < vMinimalElectrons q E m := by
  unfold vMinimalElectrons
  positivity

/-- The rate in a crystal as a sum of products. -/
theorem crystalRate_tail (hdq : 0 < c.dq) {E : ℝ} (hm : 0 < p.mass) (hE : 0 < E) : crystalRate U p h c E =
    h.density / (p.mass * c.mCell) * ∑ i ∈ Finset.range c.nq, 2 * (((i : ℝ) + 1) * c.dq) * c.dq *
      (crystalCrossSection U p c (((i : ℝ) + 1) * c.dq) E 1 * speedTail h (vMinimalElectrons (((i : ℝ) + 1) * c.dq) E p.mass)) := by
  unfold crystalRate
  congr 1
  refine Finset.sum_congr rfl fun i _ => ?_
  have hq : 0 < ((i : ℝ) + 1) * c.dq := by positivity
  congr 1
  rw [reach_set_electron hq hm]
  generalize ((i : ℝ) + 1) * c.dq = q at hq
  have hv := vMinimalElectrons_pos hq hE hm
  unfold speedTail
  rcases lt_or_ge h.vMax (vMinimalElectrons q E p.mass) with g | g
  · rw [Set.Icc_eq_empty (not_le.2 g), min_eq_right g.le, intervalIntegral.integral_same, mul_zero]
    simp
  · rw [min_eq_left g, ← intervalIntegral.integral_const_mul, intervalIntegral.integral_of_le g, integral_Icc_eq_integral_Ioc]
    refine setIntegral_congr_fun measurableSet_Ioc fun v hv' => ?_
    have v0 : 0 < v := hv.trans hv'.1
    unfold crystalCrossSection
    split
    · rw [dSigmadq2Electron_factor]
      field_simp
    · simp

theorem crystalCrossSection_mass (hp : Reachable U p) (q E : ℝ) :
    ContinuousOn (fun m => crystalCrossSection U (withMass U p m) c q E 1) (Set.Ioi 0) := by
  have hμ : ContinuousOn (fun m => p.sigmaElectronRef / (2 * reducedMass m U.mElectron * 1) ^ 2) (Set.Ioi 0) :=
    ContinuousOn.div continuousOn_const (((continuousOn_const.mul (continuousOn_reducedMass U.mElectron_pos)).mul continuousOn_const).pow 2) fun m hm => by
      have := reducedMass_pos (m1 := m) hm U.mElectron_pos
      positivity
  rcases hi : p.interaction with ⟨ff, qRef, mMed⟩ | _
  · refine (((continuousOn_const (c := 2 * U.aEM * U.mElectron ^ 2 / q ^ 3)).mul (hμ.mul (continuousOn_const (c := formFactor2 ff qRef mMed q)))).mul
      (continuousOn_const (c := c.formFactor q E))).congr fun m hm => ?_
    obtain ⟨e1, -, e3, e4, -⟩ := withMass_fields (U := U) hp hm
    show crystalCrossSection U (withMass U p m) c q E 1 = _
    unfold crystalCrossSection dSigmadq2Electron
    rw [e3, hi, e1, e4]
    rfl
  · refine (continuousOn_const (c := (0 : ℝ))).congr fun m hm => ?_
    obtain ⟨-, -, e3, -⟩ := withMass_fields (U := U) hp hm
    show crystalCrossSection U (withMass U p m) c q E 1 = _
    unfold crystalCrossSection
    rw [e3, hi]

theorem crystalRate_mass (hp : Reachable U p) (hdq : 0 < c.dq) (hM : 0 < c.mCell) (hf : ProperSpeeds h) {E : ℝ} (hE : 0 < E) :
    ContinuousOn (fun m => crystalRate U (withMass U p m) h c E) (Set.Ioi 0) := by
  have hd : ContinuousOn (fun m : ℝ => h.density / (m * c.mCell)) (Set.Ioi 0) :=
    ContinuousOn.div continuousOn_const (by fun_prop) fun m hm => by
      have : 0 < m := hm
      positivity
  have hs : ∀ i : ℕ, ContinuousOn (fun m : ℝ => 2 * (((i : ℝ) + 1) * c.dq) * c.dq *
      (crystalCrossSection U (withMass U p m) c (((i : ℝ) + 1) * c.dq) E 1 * speedTail h (vMinimalElectrons (((i : ℝ) + 1) * c.dq) E m))) (Set.Ioi 0) := fun i => by
    have hq : 0 < ((i : ℝ) + 1) * c.dq := by positivity
    generalize ((i : ℝ) + 1) * c.dq = q at hq
    have hv : ContinuousOn (fun m => vMinimalElectrons q E m) (Set.Ioi 0) := by
      unfold vMinimalElectrons
      exact continuousOn_const.add (ContinuousOn.div continuousOn_const continuousOn_id fun m hm => ne_of_gt hm)
    exact continuousOn_const.mul ((crystalCrossSection_mass hp q E).mul ((speedTail_continuousOn hf).comp hv fun m hm => vMinimalElectrons_pos hq hE hm))
  refine (hd.mul (continuousOn_finsetSum (Finset.range c.nq) fun i _ => hs i)).congr fun m hm => ?_
  obtain ⟨e1, -⟩ := withMass_fields (U := U) hp hm
  show crystalRate U (withMass U p m) h c E = _
  rw [crystalRate_tail hdq (by rw [e1]; exact hm) hE, e1]
  rfl

theorem crystalRate_energy (hm : 0 < p.mass) (hdq : 0 < c.dq) (hdE : 0 < c.dE) (hf : ProperSpeeds h)
    (hc : ∀ q, ContinuousOn (c.interpolation q) (Set.Ioo c.dE c.eMax)) : ContinuousOn (fun E => crystalRate U p h c E) (Set.Ioo c.dE c.eMax) := by
  have hs : ∀ i : ℕ, ContinuousOn (fun E : ℝ => 2 * (((i : ℝ) + 1) * c.dq) * c.dq *
      (crystalCrossSection U p c (((i : ℝ) + 1) * c.dq) E 1 * speedTail h (vMinimalElectrons (((i : ℝ) + 1) * c.dq) E p.mass))) (Set.Ioo c.dE c.eMax) := fun i => by
    have hq : 0 < ((i : ℝ) + 1) * c.dq := by positivity
    generalize ((i : ℝ) + 1) * c.dq = q at hq
    have hv : ContinuousOn (fun E => vMinimalElectrons q E p.mass) (Set.Ioo c.dE c.eMax) := by
      unfold vMinimalElectrons
      fun_prop
    have hff : ContinuousOn (fun E => c.formFactor q E) (Set.Ioo c.dE c.eMax) := by
      by_cases k : q < c.dq ∨ c.qMax < q
      · refine (continuousOn_const (c := (0 : ℝ))).congr fun E _ => ?_
        show c.formFactor q E = 0
        unfold Crystal.formFactor
        rw [if_pos (by tauto)]
      · refine (hc q).congr fun E hE => ?_
        show c.formFactor q E = _
        unfold Crystal.formFactor
        have := not_lt.2 hE.1.le
        have := not_lt.2 hE.2.le
        rw [if_neg (by tauto)]
    have hx : ContinuousOn (fun E => crystalCrossSection U p c q E 1) (Set.Ioo c.dE c.eMax) := by
      unfold crystalCrossSection
      split
      · exact continuousOn_const.mul hff
      · exact continuousOn_const
    exact continuousOn_const.mul (hx.mul ((speedTail_continuousOn hf).comp hv fun E hE => vMinimalElectrons_pos hq (hdE.trans hE.1) hm))
  refine ((continuousOn_const (c := h.density / (p.mass * c.mCell))).mul (continuousOn_finsetSum (Finset.range c.nq) fun i _ => hs i)).congr fun E hE => ?_
  show crystalRate U p h c E = _
  rw [crystalRate_tail hdq hm (hdE.trans hE.1)]
  rfl

end Obscura
