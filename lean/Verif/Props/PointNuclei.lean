import Verif.Spec.PointNuclei
import Verif.Props.ForceRange
import Verif.Props.ContinuousEvents
import Verif.Props.Pieces
import Verif.Props.Masses

/-!
# C120: the low-mass mode
-/

namespace Obscura

open Spec NuclearDetector DMParticle MeasureTheory

variable {U : Units} {I : Integrator} {T : Tools} {nd : NuclearDetector} {d : Detector} {p : DMParticle} {h : Distribution} {iso : Isotope} {E δ : ℝ}

theorem sub_cube_le_sin {x : ℝ} (hx : 0 ≤ x) : x - x ^ 3 / 6 ≤ Real.sin x := by
  have hd : ∀ y : ℝ, HasDerivAt (fun y : ℝ => Real.sin y - (y - y ^ 3 / 6)) (Real.cos y - (1 - y ^ 2 / 2)) y := fun y => by
    have := (Real.hasDerivAt_sin y).sub ((hasDerivAt_id' y).sub ((hasDerivAt_pow 3 y).div_const 6))
    exact this.congr_deriv (by norm_num; ring)
  have : MonotoneOn (fun y : ℝ => Real.sin y - (y - y ^ 3 / 6)) (Set.Ici 0) := by
    apply monotoneOn_of_hasDerivWithinAt_nonneg (convex_Ici 0) (f' := fun y => Real.cos y - (1 - y ^ 2 / 2))
    · intro y _; exact (hd y).continuousAt.continuousWithinAt
    · intro y _; exact (hd y).hasDerivWithinAt
    · intro y _
      linarith [Real.one_sub_sq_div_two_le_cos (x := y)]
  have := this (Set.mem_Ici.2 le_rfl) hx hx
  simp at this
  linarith

theorem le_sin_sub_mul_cos {x : ℝ} (hx : 0 ≤ x) : x ^ 3 / 3 - x ^ 5 / 30 ≤ Real.sin x - x * Real.cos x := by
  have hd : ∀ y : ℝ, HasDerivAt (fun y : ℝ => Real.sin y - y * Real.cos y - (y ^ 3 / 3 - y ^ 5 / 30)) (y * Real.sin y - (y ^ 2 - y ^ 4 / 6)) y := fun y => by
    have := ((Real.hasDerivAt_sin y).sub ((hasDerivAt_id' y).mul (Real.hasDerivAt_cos y))).sub
      (((hasDerivAt_pow 3 y).div_const 3).sub ((hasDerivAt_pow 5 y).div_const 30))
    exact this.congr_deriv (by norm_num; ring)
  have : MonotoneOn (fun y : ℝ => Real.sin y - y * Real.cos y - (y ^ 3 / 3 - y ^ 5 / 30)) (Set.Ici 0) := by
    apply monotoneOn_of_hasDerivWithinAt_nonneg (convex_Ici 0) (f' := fun y => y * Real.sin y - (y ^ 2 - y ^ 4 / 6))
    · intro y _; exact (hd y).continuousAt.continuousWithinAt
    · intro y _; exact (hd y).hasDerivWithinAt
    · intro y hy
      have hy0 : 0 ≤ y := by
        rw [interior_Ici] at hy
        exact le_of_lt hy
      have := mul_le_mul_of_nonneg_left (sub_cube_le_sin hy0) hy0
      nlinarith
  have := this (Set.mem_Ici.2 le_rfl) hx hx
  simp at this
  linarith

/-- C120 (form factor). At a momentum transfer `q` the nucleus scatters at least the share `1 - q² ⟨r²⟩ / 3` of what a point-like nucleus scatters. -/
theorem C120_form_factor (iso : Isotope) (q : ℝ) :
    1 - q ^ 2 * meanSquareThird U iso.A ≤ iso.helmFormFactor U q ^ 2 ∧ iso.helmFormFactor U q ^ 2 ≤ 1 := by
  refine ⟨?_, (C09_helm_bounded iso q).2.2⟩
  have hfm := U.fm_pos
  have hM : 0 ≤ meanSquareThird U iso.A := by unfold meanSquareThird; positivity
  unfold Isotope.helmFormFactor
  split_ifs with hs
  · nlinarith [sq_nonneg q]
  have hq' : 0 < q := by
    have := U.MeV_pos
    have h1 : 0 < 1 / 10 ^ 6 * U.MeV := by positivity
    linarith [not_lt.1 hs]
  obtain ⟨hrad, hpos⟩ := C09_radius_positive (U := U) iso
  have hR2 : iso.helmRadius U ^ 2 = 5 * meanSquareThird U iso.A - 5 * (0.9 * U.fm) ^ 2 := by
    unfold Isotope.helmRadius meanSquareThird
    simp only
    rw [Real.sq_sqrt hrad.le]
    ring
  have hx : 0 < q * iso.helmRadius U := mul_pos hq' hpos
  have hx2 : (q * iso.helmRadius U) ^ 2 = q ^ 2 * (5 * meanSquareThird U iso.A - 5 * (0.9 * U.fm) ^ 2) := by rw [mul_pow, hR2]
  simp only
  generalize q * iso.helmRadius U = x at hx hx2
  set y := q ^ 2 * (0.9 * U.fm) ^ 2 / 2 with hy
  have hy0 : 0 ≤ y := by positivity
  rw [show -q * q * (0.9 * U.fm) * (0.9 * U.fm) / 2 = -y by rw [hy]; ring]
  have e1 : 1 - x ^ 2 / 10 ≤ 3 * (Real.sin x / x ^ 3 - Real.cos x / x ^ 2) := by
    have h2 : 3 * (Real.sin x / x ^ 3 - Real.cos x / x ^ 2) = (Real.sin x - x * Real.cos x) * (3 / x ^ 3) := by
      field_simp
    have h3 : 1 - x ^ 2 / 10 = (x ^ 3 / 3 - x ^ 5 / 30) * (3 / x ^ 3) := by
      field_simp
      ring
    rw [h2, h3]
    exact mul_le_mul_of_nonneg_right (le_sin_sub_mul_cos hx.le) (by positivity)
  have e2 : 1 - y ≤ Real.exp (-y) := by linarith [Real.add_one_le_exp (-y)]
  have e3 : q ^ 2 * meanSquareThird U iso.A = x ^ 2 / 5 + 2 * y := by rw [hx2, hy]; ring
  rw [e3]
  set a := 3 * (Real.sin x / x ^ 3 - Real.cos x / x ^ 2)
  set b := Real.exp (-y)
  by_cases hc : x ^ 2 / 10 + y ≤ 1
  · have f1 : 0 ≤ 1 - x ^ 2 / 10 := by linarith
    have f2 : 0 ≤ 1 - y := by nlinarith [sq_nonneg x]
    have f3 : (1 - x ^ 2 / 10) * (1 - y) ≤ a * b := mul_le_mul e1 e2 f2 (f1.trans e1)
    have f4 : 1 - (x ^ 2 / 10 + y) ≤ a * b := by nlinarith [mul_nonneg (sq_nonneg x) hy0]
    have f5 : 0 ≤ 1 - (x ^ 2 / 10 + y) := by linarith
    have f6 := pow_le_pow_left₀ f5 f4 2
    nlinarith [sq_nonneg (x ^ 2 / 10 + y)]
  · have := sq_nonneg (a * b)
    nlinarith

theorem helm_measurable (U : Units) (iso : Isotope) : Measurable (iso.helmFormFactor U) := by
  unfold Isotope.helmFormFactor
  refine Measurable.ite measurableSet_Iio measurable_const ?_
  fun_prop

/-- C120 (total cross sections). For contact interactions and massive mediators the total cross section of the low-mass mode is at least that with the nuclear
form factor, and too large by at most the share `4 μ² v² ⟨r²⟩ / 3`. -/
theorem C120_total {ff : FormFactor} {qRef mMed v : ℝ} (hI : I.Exact) (hi : p.interaction = .SI ff qRef mMed)
    (hff : ff = .contact ∨ (ff = .general ∧ mMed ≠ 0)) (hv : v ≠ 0) :
    ∃ s t, (p.setLowMassMode false).sigmaTotalNucleus U I iso v = .ok s ∧ (p.setLowMassMode true).sigmaTotalNucleus U I iso v = .ok t ∧
      s ≤ t ∧ (1 - 4 * (reducedMass p.mass iso.mass * v) ^ 2 * meanSquareThird U iso.A) * t ≤ s := by
  have hms : 0 ≤ meanSquareThird U iso.A := by
    have := U.fm_pos
    unfold meanSquareThird; positivity
  refine ⟨_, _, C06_total_nucleus_heavy (p := p.setLowMassMode false) hI hi rfl (hff.imp id And.left), C06_total_nucleus_low_mass (p := p.setLowMassMode true) hi rfl hff hv, ?_⟩
  show (∫ q2 in (0 : ℝ)..4 * (reducedMass p.mass iso.mass * v) ^ 2, (p.setLowMassMode false).dSigmadq2Nucleus U (Real.sqrt q2) iso v) ≤
      (∫ q2 in (0 : ℝ)..4 * (reducedMass p.mass iso.mass * v) ^ 2, (p.setLowMassMode true).dSigmadq2Nucleus U (Real.sqrt q2) iso v) ∧
    (1 - 4 * (reducedMass p.mass iso.mass * v) ^ 2 * meanSquareThird U iso.A) *
      (∫ q2 in (0 : ℝ)..4 * (reducedMass p.mass iso.mass * v) ^ 2, (p.setLowMassMode true).dSigmadq2Nucleus U (Real.sqrt q2) iso v) ≤
      ∫ q2 in (0 : ℝ)..4 * (reducedMass p.mass iso.mass * v) ^ 2, (p.setLowMassMode false).dSigmadq2Nucleus U (Real.sqrt q2) iso v
  have hQ : 0 ≤ 4 * (reducedMass p.mass iso.mass * v) ^ 2 := by positivity
  generalize 4 * (reducedMass p.mass iso.mass * v) ^ 2 = Q at hQ
  set K := 1 / 4 / Real.pi / v / v * (p.fp * iso.Z + p.fn * iso.neutrons) ^ 2 with hK
  have hK0 : 0 ≤ K := by
    have hpi := Real.pi_pos
    have : 1 / 4 / Real.pi / v / v = 1 / 4 / Real.pi / v ^ 2 := by rw [div_div _ v v, sq]
    rw [hK, this]; positivity
  have et : ∀ q2, (p.setLowMassMode true).dSigmadq2Nucleus U (Real.sqrt q2) iso v = K * formFactor2 ff qRef mMed (Real.sqrt q2) := fun q2 => by
    simp [setLowMassMode, dSigmadq2Nucleus, hi, hK]
  have ef : ∀ q2, (p.setLowMassMode false).dSigmadq2Nucleus U (Real.sqrt q2) iso v =
      K * formFactor2 ff qRef mMed (Real.sqrt q2) * iso.helmFormFactor U (Real.sqrt q2) ^ 2 := fun q2 => by
    simp only [setLowMassMode, dSigmadq2Nucleus, hi, hK, Bool.false_eq_true, if_false]
    ring
  simp only [et, ef]
  have hcont : Continuous fun q2 : ℝ => K * formFactor2 ff qRef mMed (Real.sqrt q2) := by
    rcases hff with rfl | ⟨rfl, hm⟩
    · simp only [formFactor2]
      exact continuous_const
    · simp only [formFactor2]
      have h0 : ∀ q2 : ℝ, Real.sqrt q2 * Real.sqrt q2 + mMed * mMed ≠ 0 := fun q2 => by
        have := mul_self_pos.2 hm
        positivity
      fun_prop (disch := exact h0 _)
  have it := hcont.intervalIntegrable (μ := volume) 0 Q
  have hb : ∀ q2, 0 ≤ iso.helmFormFactor U (Real.sqrt q2) ^ 2 ∧ iso.helmFormFactor U (Real.sqrt q2) ^ 2 ≤ 1 := fun q2 =>
    ⟨sq_nonneg _, (C120_form_factor (U := U) iso _).2⟩
  have hp0 : ∀ q2, 0 ≤ K * formFactor2 ff qRef mMed (Real.sqrt q2) := fun q2 => mul_nonneg hK0 (C10_nonneg _ _ _ _)
  have hh := helm_measurable U iso
  have ifl : IntervalIntegrable (fun q2 => K * formFactor2 ff qRef mMed (Real.sqrt q2) * iso.helmFormFactor U (Real.sqrt q2) ^ 2) volume 0 Q := by
    rw [intervalIntegrable_iff_integrableOn_Ioc_of_le hQ] at it ⊢
    exact it.mul_bdd (c := 1) (Measurable.aestronglyMeasurable (by fun_prop)) (.of_forall fun q2 => by
      rw [Real.norm_of_nonneg (hb q2).1]
      exact (hb q2).2)
  constructor
  · exact intervalIntegral.integral_mono_on hQ ifl it fun q2 _ => mul_le_of_le_one_right (hp0 q2) (hb q2).2
  · rw [← intervalIntegral.integral_const_mul]
    refine intervalIntegral.integral_mono_on hQ (it.const_mul _) ifl fun q2 hq => ?_
    rw [mul_comm]
    refine mul_le_mul_of_nonneg_left (le_trans ?_ (C120_form_factor (U := U) iso (Real.sqrt q2)).1) (hp0 q2)
    rw [Real.sq_sqrt hq.1]
    have := mul_le_mul_of_nonneg_right hq.2 hms
    linarith

/-- Non-vacuity: a particle with a contact interaction and cross section 1, at speed `1 / 1000`. -/
example (hI : I.Exact) : ∃ p, Reachable U p ∧ ∃ s t, (p.setLowMassMode false).sigmaTotalNucleus U I iso (1 / 1000) = .ok s ∧
    (p.setLowMassMode true).sigmaTotalNucleus U I iso (1 / 1000) = .ok t ∧ s ≤ t := by
  obtain ⟨c, -, -, hmk, -⟩ := makeSI_eq (U := U) (m := 1) (s := 1) one_pos zero_le_one
  obtain ⟨s, t, h1, h2, h3, -⟩ := C120_total (U := U) (iso := iso) (v := 1 / 1000)
    (p := { DMParticle.standard U 1 1 (.SI .contact (U.aEM * U.mElectron) 0) with fp := c, fn := c }) hI rfl (.inl rfl) (by norm_num)
  exact ⟨_, ⟨_, [], makeSI_built one_pos hmk, by simp, rfl⟩, s, t, h1, h2, h3⟩

theorem meanSquareThird_nonneg (U : Units) (A : ℕ) : 0 ≤ meanSquareThird U A := by
  have := U.fm_pos
  unfold meanSquareThird; positivity

/-- The rate on an isotope is that of the low-mass mode times the square of the nuclear form factor. -/
theorem point_factor (hI : I.Homogeneous) (hM : 0 < iso.mass) : ∃ f : ℝ → ℝ, Measurable f ∧ ∀ E, 0 < E →
    1 - 2 * iso.mass * E * meanSquareThird U iso.A ≤ f E ∧ f E ≤ 1 ∧ 0 ≤ f E ∧
    dRdERIsotope U I E (p.setLowMassMode false) h iso = (dRdERIsotope U I E (p.setLowMassMode true) h iso).scale (f E) := by
  have hms := meanSquareThird_nonneg U iso.A
  obtain ⟨f, hf, hall⟩ : ∃ f : ℝ → ℝ, Measurable f ∧ ∀ E, 0 < E → 1 - 2 * iso.mass * E * meanSquareThird U iso.A ≤ f E ∧ f E ≤ 1 ∧ 0 ≤ f E ∧
      ∀ v, dSigmadERNucleus U (p.setLowMassMode false) E iso v = f E * dSigmadERNucleus U (p.setLowMassMode true) E iso v := by
    cases hi : p.interaction with
    | SD =>
      refine ⟨fun _ => 1, measurable_const, fun E hE => ⟨?_, le_rfl, zero_le_one, fun v => ?_⟩⟩
      · have : 0 ≤ 2 * iso.mass * E * meanSquareThird U iso.A := by positivity
        linarith
      simp [setLowMassMode, dSigmadERNucleus, dSigmadq2Nucleus, hi]
    | SI ff qRef mMed =>
      refine ⟨fun E => iso.helmFormFactor U (Real.sqrt (2 * iso.mass * E)) ^ 2, ?_, fun E hE => ?_⟩
      · have hh := helm_measurable U iso
        fun_prop
      obtain ⟨a, b⟩ := C120_form_factor (U := U) iso (Real.sqrt (2 * iso.mass * E))
      rw [Real.sq_sqrt (by positivity)] at a
      refine ⟨a, b, sq_nonneg _, fun v => ?_⟩
      simp only [setLowMassMode, dSigmadERNucleus, dSigmadq2Nucleus, hi, if_true, Bool.false_eq_true, if_false]
      ring
  refine ⟨f, hf, fun E hE => ?_⟩
  obtain ⟨h1, h2, h0, hσ⟩ := hall E hE
  refine ⟨h1, h2, h0, ?_⟩
  unfold dRdERIsotope
  simp only [hσ]
  have hm : ∀ b, (p.setLowMassMode b).mass = p.mass := fun _ => rfl
  have hf : ∀ b, (p.setLowMassMode b).fractionalDensity = p.fractionalDensity := fun _ => rfl
  have he : ∀ b, (p.setLowMassMode b).useEtaFunction = p.useEtaFunction := fun _ => rfl
  simp only [hm, hf, he]
  split_ifs
  · simp [Outcome.scale]
  · cases h.eta _ <;> simp [Outcome.scale]
    ring
  · simp only [Outcome.scale, Outcome.bind_ok, Outcome.ok.injEq]
    rw [show (fun v => h.differentialFlux v p.mass * (f E * dSigmadERNucleus U (p.setLowMassMode true) E iso v)) = fun v => f E *
        (h.differentialFlux v p.mass * dSigmadERNucleus U (p.setLowMassMode true) E iso v) from funext fun v => by ring, hI]
    ring

/-- C120 (isotopes). The low-mass mode gives at every recoil energy at least the rate of the extended nucleus, and too much by at most the share
`2 M E ⟨r²⟩ / 3`. -/
theorem C120_isotope (hI : I.Homogeneous) (hM : 0 < iso.mass) (hE : 0 < E) {r : ℝ} (hr : dRdERIsotope U I E (p.setLowMassMode true) h iso = .ok r) (h0 : 0 ≤ r) :
    ∃ r', dRdERIsotope U I E (p.setLowMassMode false) h iso = .ok r' ∧ 0 ≤ r' ∧ r' ≤ r ∧
      (1 - 2 * iso.mass * E * meanSquareThird U iso.A) * r ≤ r' := by
  obtain ⟨f, -, hf⟩ := point_factor (U := U) (p := p) (h := h) hI hM
  obtain ⟨h1, h2, h3, e⟩ := hf E hE
  rw [e, hr]
  refine ⟨f E * r, by simp [Outcome.scale], by positivity, mul_le_of_le_one_left h0 h2, mul_le_mul_of_nonneg_right h1 h0⟩

theorem theoryRate_point {ER : ℝ} (hI : I.Homogeneous) (hlen : nd.nuclei.length ≤ nd.fractions.length)
    (hfr : ∀ x ∈ nd.fractions, 0 ≤ x) (heff : ∀ e ∈ nd.efficiencies, ∀ E, 0 ≤ e E) (hflat : 0 ≤ d.flatEfficiency)
    (hi : ∀ iso ∈ nd.isotopes, PhysicalIsotope iso) (hE : 0 < ER) (hδ : ∀ iso ∈ nd.isotopes, 2 * iso.mass * ER * meanSquareThird U iso.A ≤ δ)
    (hc : ∀ iso ∈ nd.isotopes, ∃ r, dRdERIsotope U I ER (p.setLowMassMode true) h iso = .ok r ∧ 0 ≤ r) :
    ∃ x y, nd.theoryRate U I d E ER (p.setLowMassMode false) h = .ok x ∧ nd.theoryRate U I d E ER (p.setLowMassMode true) h = .ok y ∧
      0 ≤ x ∧ x ≤ y ∧ (1 - δ) * y ≤ x := by
  have hv : ∀ b, ∀ iso ∈ nd.isotopes, dRdERIsotope U I ER (p.setLowMassMode b) h iso = .ok (dRdERIsotope U I ER (p.setLowMassMode b) h iso).valueOr0 ∧
      0 ≤ (dRdERIsotope U I ER (p.setLowMassMode b) h iso).valueOr0 := fun b iso hiso => by
    obtain ⟨r, e, hr⟩ := hc iso hiso
    cases b with
    | true => rw [e]; exact ⟨rfl, hr⟩
    | false =>
      obtain ⟨r', e', a1, -, -⟩ := C120_isotope hI (hi iso hiso).1 hE e hr
      rw [e']; exact ⟨rfl, a1⟩
  have hcmp : ∀ iso ∈ nd.isotopes, (dRdERIsotope U I ER (p.setLowMassMode false) h iso).valueOr0 ≤ (dRdERIsotope U I ER (p.setLowMassMode true) h iso).valueOr0 ∧
      (1 - δ) * (dRdERIsotope U I ER (p.setLowMassMode true) h iso).valueOr0 ≤ (dRdERIsotope U I ER (p.setLowMassMode false) h iso).valueOr0 := fun iso hiso => by
    obtain ⟨r, e, hr⟩ := hc iso hiso
    obtain ⟨r', e', a1, a2, a3⟩ := C120_isotope hI (hi iso hiso).1 hE e hr
    rw [e, e']
    refine ⟨a2, le_trans ?_ a3⟩
    exact mul_le_mul_of_nonneg_right (by linarith [hδ iso hiso]) hr
  have key : ∀ b, nd.theoryRate U I d E ER (p.setLowMassMode b) h =
      .ok (∑ i : Fin nd.nuclei.length, efficiencyOf nd i E * d.flatEfficiency * nd.fractions.getD i 0 *
        (nd.nuclei[i].isotopes.map fun iso => iso.abundance * (dRdERIsotope U I ER (p.setLowMassMode b) h iso).valueOr0).sum) := by
    intro b
    exact theoryRate_eq_of hlen fun iso hiso => (hv b iso hiso).1
  have hfr' : ∀ i, 0 ≤ nd.fractions.getD i 0 := fun i => by
    rw [List.getD_eq_getElem?_getD]
    cases hx : nd.fractions[i]? with
    | none => exact le_rfl
    | some x => exact hfr x (List.mem_of_getElem? hx)
  have he : ∀ i, 0 ≤ efficiencyOf nd i E := fun i => by
    have : ∀ j, 0 ≤ nd.efficiencies.getD j (fun _ => 1) E := fun j => by
      by_cases hj : j < nd.efficiencies.length
      · simpa [List.getD, hj] using heff _ (List.getElem_mem hj) E
      · simp [List.getD, not_lt.1 hj]
    unfold efficiencyOf
    split_ifs
    · exact this 0
    · exact this i
    · exact zero_le_one
  have hw : ∀ i, 0 ≤ efficiencyOf nd i E * d.flatEfficiency * nd.fractions.getD i 0 := fun i => mul_nonneg (mul_nonneg (he i) hflat) (hfr' i)
  rw [key false, key true]
  refine ⟨_, _, rfl, rfl, ?_, ?_, ?_⟩
  · refine Finset.sum_nonneg fun i _ => mul_nonneg (hw i) (List.sum_nonneg fun z hz => ?_)
    obtain ⟨iso, hiso, rfl⟩ := List.mem_map.1 hz
    have hmem := NuclearDetector.mem_isotopes (nd := nd) (List.getElem_mem i.2) hiso
    exact mul_nonneg (hi iso hmem).2.2 (hv false iso hmem).2
  · refine Finset.sum_le_sum fun i _ => mul_le_mul_of_nonneg_left (List.sum_le_sum fun iso hiso => ?_) (hw i)
    have hmem := NuclearDetector.mem_isotopes (nd := nd) (List.getElem_mem i.2) hiso
    exact mul_le_mul_of_nonneg_left (hcmp iso hmem).1 (hi iso hmem).2.2
  · rw [Finset.mul_sum]
    refine Finset.sum_le_sum fun i _ => ?_
    rw [mul_left_comm]
    refine mul_le_mul_of_nonneg_left ?_ (hw i)
    rw [← List.sum_map_mul_left]
    refine List.sum_le_sum fun iso hiso => ?_
    have hmem := NuclearDetector.mem_isotopes (nd := nd) (List.getElem_mem i.2) hiso
    rw [mul_left_comm]
    exact mul_le_mul_of_nonneg_left (hcmp iso hmem).2 (hi iso hmem).2.2

/-- C120 (detectors). The same for a detector with any target, efficiencies, resolution and halo: if `2 M E ⟨r²⟩ / 3` is at most `δ` for all isotopes, at the
largest recoil energy that contributes to the observed one, then the low-mass mode is right up to the share `δ`. -/
theorem C120_rate (hI : I.Exact) (hlen : nd.nuclei.length ≤ nd.fractions.length)
    (hfr : ∀ x ∈ nd.fractions, 0 ≤ x) (heff : ∀ e ∈ nd.efficiencies, ∀ E, 0 ≤ e E) (hflat : 0 ≤ d.flatEfficiency)
    (hi : ∀ iso ∈ nd.isotopes, PhysicalIsotope iso) (hE : 0 < E) (hσ0 : 0 ≤ nd.resolution)
    (hwin : 1 / 10 ^ 6 * U.eV ≤ nd.resolution → d.energyThreshold ≤ E + 9 * nd.resolution ∧
      ∀ b x y, 0 < x → x ≤ y → IntervalIntegrable (fun ER => (nd.theoryRate U I d E ER (p.setLowMassMode b) h).valueOr0) volume x y)
    (hδ : ∀ iso ∈ nd.isotopes, 2 * iso.mass * (E + 6 * nd.resolution) * meanSquareThird U iso.A ≤ δ)
    (hc : ∀ E, 0 < E → ∀ iso ∈ nd.isotopes, ∃ r, dRdERIsotope U I E (p.setLowMassMode true) h iso = .ok r ∧ 0 ≤ r) :
    ∃ x y, nd.dRdE U I d E (p.setLowMassMode false) h = .ok x ∧ nd.dRdE U I d E (p.setLowMassMode true) h = .ok y ∧ 0 ≤ x ∧ x ≤ y ∧ (1 - δ) * y ≤ x := by
  have key : ∀ ER, 0 < ER → ER ≤ E + 6 * nd.resolution → ∃ x y, nd.theoryRate U I d E ER (p.setLowMassMode false) h = .ok x ∧
      nd.theoryRate U I d E ER (p.setLowMassMode true) h = .ok y ∧ 0 ≤ x ∧ x ≤ y ∧ (1 - δ) * y ≤ x := fun ER h0 hle =>
    theoryRate_point hI.homogeneous hlen hfr heff hflat hi h0 (fun iso hiso => by
      refine le_trans ?_ (hδ iso hiso)
      have := (hi iso hiso).1
      have := meanSquareThird_nonneg U iso.A
      gcongr) (hc ER h0)
  unfold NuclearDetector.dRdE
  by_cases hres : nd.resolution < 1 / 10 ^ 6 * U.eV
  · rw [if_pos hres, if_pos hres]
    exact key E hE (by linarith)
  rw [if_neg hres, if_neg hres]
  dsimp only
  have hσ : 0 < nd.resolution := lt_of_lt_of_le (by have := U.eV_pos; positivity) (not_lt.1 hres)
  obtain ⟨hw, hint⟩ := hwin (not_lt.1 hres)
  set a := max (max (E - 6 * nd.resolution) (d.energyThreshold - 3 * nd.resolution)) (2 * nd.resolution)
  have ha : 0 < a := lt_of_lt_of_le (by positivity) (le_max_right _ _)
  have hab : a ≤ E + 6 * nd.resolution := max_le (max_le (by linarith) (by linarith)) (by linarith)
  have hg : ContinuousOn (fun ER => pdfGauss E ER nd.resolution) (Set.uIcc a (E + 6 * nd.resolution)) := by
    unfold pdfGauss
    fun_prop
  have hg0 : ∀ ER, 0 ≤ pdfGauss E ER nd.resolution := fun ER => by
    unfold pdfGauss
    positivity
  have ii : ∀ b, _ := fun b => (hint b a (E + 6 * nd.resolution) ha hab).continuousOn_mul hg
  refine ⟨_, _, rfl, rfl, ?_, ?_, ?_⟩
  · rw [hI]
    refine intervalIntegral.integral_nonneg hab fun ER hER => ?_
    obtain ⟨x, y, e1, -, h0, -⟩ := key ER (ha.trans_le hER.1) hER.2
    rw [e1]
    exact mul_nonneg (hg0 ER) h0
  · rw [hI, hI]
    refine intervalIntegral.integral_mono_on hab (ii false) (ii true) fun ER hER => ?_
    obtain ⟨x, y, e1, e2, -, hle, -⟩ := key ER (ha.trans_le hER.1) hER.2
    rw [e1, e2]
    exact mul_le_mul_of_nonneg_left hle (hg0 ER)
  · rw [hI, hI, ← intervalIntegral.integral_const_mul]
    refine intervalIntegral.integral_mono_on hab ((ii true).const_mul _) (ii false) fun ER hER => ?_
    obtain ⟨x, y, e1, e2, -, -, hle⟩ := key ER (ha.trans_le hER.1) hER.2
    rw [e1, e2, mul_left_comm]
    exact mul_le_mul_of_nonneg_left hle (hg0 ER)

/-- Non-vacuity: a detector with resolution 1, a hydrogen-like target and the standard halo `SHM.sample`, at the observed energy 2. -/
example (hI : I.Exact) (hδ : 2 * sampleIsotope.mass * (2 + 6 * 1) * meanSquareThird U sampleIsotope.A ≤ δ) :
    ∃ (p : DMParticle) (d : Detector), Reachable U p ∧ ∃ x y, (sampleNuclear 1).dRdE U I d 2 (p.setLowMassMode false) (Distribution.ofSHM SHM.sample) = .ok x ∧
      (sampleNuclear 1).dRdE U I d 2 (p.setLowMassMode true) (Distribution.ofSHM SHM.sample) = .ok y ∧ 0 ≤ x ∧ x ≤ y ∧ (1 - δ) * y ≤ x := by
  obtain ⟨c, hc0, hc, hmk, _⟩ := makeSI_eq (U := U) (m := 1) (s := 1) one_pos zero_le_one
  have hs : SHM.sample.Physical ∧ SHM.sample.vObs ≤ SHM.sample.vEsc ∧ 0 ≤ SHM.sample.density := by
    refine ⟨⟨?_, ?_⟩, ?_, ?_⟩ <;> norm_num [SHM.sample, SHM.makeSpeed, SHM.normalize]
  obtain ⟨g1, g2⟩ := C96_standard_halo (U := Units.sample) SHM.sample_reachable hs.1 hs.2.1
  set p : DMParticle := { DMParticle.standard U 1 1 (.SI .contact (U.aEM * U.mElectron) 0) with fp := c, fn := c }
  have hR : Reachable U p := ⟨_, [], makeSI_built one_pos hmk, by simp, rfl⟩
  have hiso : ∀ iso ∈ (sampleNuclear 1).isotopes, iso = sampleIsotope := fun iso hi => by
    rwa [show (sampleNuclear 1).isotopes = [sampleIsotope] from rfl, List.mem_singleton] at hi
  have hphys : PhysicalIsotope sampleIsotope := by norm_num [PhysicalIsotope, sampleIsotope]
  have hfall : FallingSpectrum fun E => dRdERIsotope U I E (p.setLowMassMode true) (Distribution.ofSHM SHM.sample) sampleIsotope :=
    C96_isotope (U := U) (h := Distribution.ofSHM SHM.sample) hI hphys (p := p.setLowMassMode true)
      (.inr rfl) one_pos hs.2.2 zero_le_one (fun _ _ => g1) g2
  have hcov : ∀ E, 0 < E → ∃ r, dRdERIsotope U I E (p.setLowMassMode true) (Distribution.ofSHM SHM.sample) sampleIsotope = .ok r ∧ 0 ≤ r := fun E hE => by
    obtain ⟨r, r', e1, -, h3, h4⟩ := hfall E E hE le_rfl
    exact ⟨r, e1, h3.trans h4⟩
  set d : Detector := Detector.make "x" 1 "Nuclei"
  have hth : ∀ b ER, 0 < ER → ((sampleNuclear 1).theoryRate U I d 2 ER (p.setLowMassMode b) (Distribution.ofSHM SHM.sample)).valueOr0 =
      (dRdERIsotope U I ER (p.setLowMassMode b) (Distribution.ofSHM SHM.sample) sampleIsotope).valueOr0 := fun b ER h0 => by
    obtain ⟨r, er, hr⟩ := hcov ER h0
    have : ∃ r, dRdERIsotope U I ER (p.setLowMassMode b) (Distribution.ofSHM SHM.sample) sampleIsotope = .ok r := by
      cases b with
      | true => exact ⟨r, er⟩
      | false =>
        obtain ⟨r', e', -⟩ := C120_isotope hI.homogeneous hphys.1 h0 er hr
        exact ⟨r', e'⟩
    obtain ⟨r, e⟩ := this
    unfold NuclearDetector.theoryRate dRdERNucleus
    have hab : sampleIsotope.abundance = 1 := rfl
    simp [sampleNuclear, sumOver, collect, vecGet, NuclearDetector.efficiency, e, d, Detector.make, hab, Outcome.valueOr0]
  have itrue : ∀ x y, 0 < x → x ≤ y → IntervalIntegrable (fun ER => (dRdERIsotope U I ER (p.setLowMassMode true) (Distribution.ofSHM SHM.sample)
      sampleIsotope).valueOr0) volume x y := fun x y hx hxy => AntitoneOn.intervalIntegrable fun u hu w _ huw => by
    rw [Set.uIcc_of_le hxy] at hu
    exact (FallingSpectrum.value hfall (hx.trans_le hu.1)).2.2 w huw
  obtain ⟨f, fm, hfac⟩ := point_factor (U := U) (I := I) (p := p) (h := Distribution.ofSHM SHM.sample) (iso := sampleIsotope) hI.homogeneous hphys.1
  refine ⟨p, d, hR, C120_rate hI le_rfl (by simp [sampleNuclear]) (by simp [sampleNuclear]) zero_le_one (fun iso hi => hiso iso hi ▸ hphys) two_pos
    zero_le_one (fun _ => ⟨?_, fun b x y hx hxy => ?_⟩) (fun iso hi => hiso iso hi ▸ hδ) (fun E hE iso hi => hiso iso hi ▸ hcov E hE)⟩
  · norm_num [d, Detector.make, sampleNuclear]
  have it := itrue x y hx hxy
  rw [intervalIntegrable_iff_integrableOn_Ioc_of_le hxy] at it ⊢
  cases b with
  | true => exact it.congr ((ae_restrict_iff' measurableSet_Ioc).2 (.of_forall fun E hE => (hth true E (hx.trans hE.1)).symm))
  | false =>
    have := it.mul_bdd (c := 1) (g := fun E => max 0 (min 1 (f E))) (by fun_prop) (.of_forall fun E => by
      rw [Real.norm_of_nonneg (le_max_left _ _)]
      exact max_le zero_le_one (min_le_left _ _))
    refine this.congr ((ae_restrict_iff' measurableSet_Ioc).2 (.of_forall fun E hE => ?_))
    have hE0 : 0 < E := hx.trans hE.1
    obtain ⟨-, k2, k3, k4⟩ := hfac E hE0
    obtain ⟨r, er, -⟩ := hcov E hE0
    simp only
    rw [hth false E hE0, k4, er, min_eq_right k2, max_eq_right k3]
    simp [Outcome.scale, Outcome.valueOr0, mul_comm]

/-- C120 (bins). So in every bin of a binned analysis that sees only recoil energies with `2 M E ⟨r²⟩ / 3 ≤ δ` the low-mass mode expects at least the events of
the extended nuclei, and too many by at most the share `δ`. -/
theorem C120_bins (hI : T.integrate.Exact) (hP : Proper U T.integrate h nd d [p.setLowMassMode false, p.setLowMassMode true])
    (hb : BaseReachable d) (hd : d.analysis = .binnedPoisson) (hn : d.bins + 1 < 2 ^ 32) (hσ0 : 0 ≤ nd.resolution)
    (hδ : ∀ iso ∈ nd.isotopes, 2 * iso.mass * (d.energyMax + 6 * nd.resolution) * meanSquareThird U iso.A ≤ δ)
    (hc : ∀ E, 0 < E → ∀ iso ∈ nd.isotopes, ∃ r, dRdERIsotope U T.integrate E (p.setLowMassMode true) h iso = .ok r ∧ 0 ≤ r) :
    ∃ ss tt, (nd.toClass U T h).signalsBinned d (p.setLowMassMode false) = .ok ss ∧ (nd.toClass U T h).signalsBinned d (p.setLowMassMode true) = .ok tt ∧
      ss.length = d.bins ∧ tt.length = d.bins ∧ ∀ i < d.bins, ss.getD i 0 ≤ tt.getD i 0 ∧ (1 - δ) * tt.getD i 0 ≤ ss.getD i 0 := by
  obtain ⟨ss, a1, a2, a3⟩ := C37_bin_signals (p := p.setLowMassMode false) (C := nd.toClass U T h) hb hd hI hn
  obtain ⟨tt, b1, b2, b3⟩ := C37_bin_signals (p := p.setLowMassMode true) (C := nd.toClass U T h) hb hd hI hn
  refine ⟨ss, tt, a1, b1, a2, b2, fun i hlt => ?_⟩
  obtain ⟨-, -, f3, -⟩ := (Detector.baseReachable_inv hb).energies hd
  rw [a3 i hlt, b3 i hlt]
  set w := (d.energyMax - d.energyThreshold) / d.bins
  have hbins : (0 : ℝ) < d.bins := Nat.cast_pos.2 (by omega)
  have hw : 0 ≤ w := div_nonneg (sub_nonneg.2 f3) (Nat.cast_nonneg _)
  have hedge : ∀ k : ℕ, binEdge d.energyThreshold d.energyMax d.bins k = d.energyThreshold + k * w := fun _ => rfl
  have hmax : d.energyThreshold + d.bins * w = d.energyMax := by
    simp only [w]
    field_simp
    ring
  rw [hedge, hedge]
  have l1 : d.energyThreshold + i * w ≤ d.energyThreshold + ((i + 1 : ℕ) : ℝ) * w := by push_cast; linarith
  have l0 : d.energyThreshold ≤ d.energyThreshold + i * w := le_add_of_nonneg_right (by positivity)
  have l2 : d.energyThreshold + ((i + 1 : ℕ) : ℝ) * w ≤ d.energyMax := by
    rw [← hmax]
    have : ((i + 1 : ℕ) : ℝ) ≤ d.bins := by exact_mod_cast hlt
    gcongr
  have sub : Set.uIcc (d.energyThreshold + i * w) (d.energyThreshold + ((i + 1 : ℕ) : ℝ) * w) ⊆ Set.uIcc d.energyThreshold d.energyMax := by
    rw [Set.uIcc_of_le l1, Set.uIcc_of_le f3]
    exact Set.Icc_subset_Icc l0 l2
  have hbi := hP.efficiencies i hlt
  have hex := hP.exposure
  have hE := hP.threshold
  have hint : ∀ b, IntervalIntegrable (fun E => (nd.toClass U T h).dRdE d E (p.setLowMassMode b)) volume d.energyThreshold d.energyMax := fun b =>
    hP.spectra _ (by cases b <;> simp)
  have hpt : ∀ E ∈ Set.Icc (d.energyThreshold + i * w) (d.energyThreshold + ((i + 1 : ℕ) : ℝ) * w),
      (nd.toClass U T h).dRdE d E (p.setLowMassMode false) ≤ (nd.toClass U T h).dRdE d E (p.setLowMassMode true) ∧
      (1 - δ) * (nd.toClass U T h).dRdE d E (p.setLowMassMode true) ≤ (nd.toClass U T h).dRdE d E (p.setLowMassMode false) := fun E hE' => by
    have hEpos : 0 < E := hE.trans_le (l0.trans hE'.1)
    obtain ⟨x, y, e1, e2, -, hxy, hyx⟩ := C120_rate (d := d) (p := p) (h := h) (δ := δ) hI hP.fractions hP.composition hP.tables hP.flat hP.isotopes hEpos hσ0
      (fun hr => ⟨by linarith [l0.trans hE'.1], fun b x y hx _ => hP.resolution hr _ (by cases b <;> simp) E x y hx⟩) (fun iso hiso => by
      refine le_trans ?_ (hδ iso hiso)
      have := (hP.isotopes iso hiso).1
      have := hE'.2.trans l2
      have := meanSquareThird_nonneg U iso.A
      gcongr) hc
    show (nd.dRdE U T.integrate d E _ h).valueOr0 ≤ (nd.dRdE U T.integrate d E _ h).valueOr0 ∧
      (1 - δ) * (nd.dRdE U T.integrate d E _ h).valueOr0 ≤ (nd.dRdE U T.integrate d E _ h).valueOr0
    rw [e1, e2]
    exact ⟨hxy, hyx⟩
  refine ⟨mul_le_mul_of_nonneg_left (mul_le_mul_of_nonneg_left ?_ hex) hbi, ?_⟩
  · exact intervalIntegral.integral_mono_on l1 ((hint false).mono_set sub) ((hint true).mono_set sub) fun E hE' => (hpt E hE').1
  · rw [mul_left_comm, mul_left_comm (1 - δ), ← intervalIntegral.integral_const_mul]
    refine mul_le_mul_of_nonneg_left (mul_le_mul_of_nonneg_left ?_ hex) hbi
    exact intervalIntegral.integral_mono_on l1 (((hint true).mono_set sub).const_mul _) ((hint false).mono_set sub) fun E hE' => (hpt E hE').2

/-- C120 (limits). The limits of the low-mass mode are never weaker than those for extended nuclei, and too strong by at most the share `δ`. -/
theorem C120_limit {c₁ c₂ cert : ℝ} {ss tt : List ℝ} (hR : T.findRoot.Exact) (hI : T.integrate.Exact)
    (hP : Proper U T.integrate h nd d [p.setLowMassMode false, p.setLowMassMode true])
    (hb : BaseReachable d) (hn : d.bins + 1 < 2 ^ 32) (hσ0 : 0 ≤ nd.resolution)
    (hδ : ∀ iso ∈ nd.isotopes, 2 * iso.mass * (d.energyMax + 6 * nd.resolution) * meanSquareThird U iso.A ≤ δ)
    (hc : ∀ E, 0 < E → ∀ iso ∈ nd.isotopes, ∃ r, dRdERIsotope U T.integrate E (p.setLowMassMode true) h iso = .ok r ∧ 0 ≤ r)
    (hS : SeesInBins U T h (.nuclear d nd) (p.setLowMassMode false) c₁ ss) (hS' : SeesInBins U T h (.nuclear d nd) (p.setLowMassMode true) c₂ tt)
    {r r' : Detector × DMParticle × ℝ} (g1 : d.upperLimit U T (nd.toClass U T h) (p.setLowMassMode false) cert = .ok r)
    (g2 : d.upperLimit U T (nd.toClass U T h) (p.setLowMassMode true) cert = .ok r') (hx : 0 < r.2.2) (hx' : 0 < r'.2.2) :
    r'.2.2 ≤ r.2.2 ∧ (1 - δ) * r.2.2 ≤ r'.2.2 := by
  obtain ⟨s', t', e1, e2, -, -, hle⟩ := C120_bins (p := p) hI hP hb hS.binned hn hσ0 hδ hc
  have s1 : (nd.toClass U T h).signalsBinned d (p.setLowMassMode false) = .ok ss := hS.signal
  have s2 : (nd.toClass U T h).signalsBinned d (p.setLowMassMode true) = .ok tt := hS'.signal
  rw [s1] at e1
  rw [s2] at e2
  cases e1
  cases e2
  have hpar : c₁ = c₂ := Outcome.ok.inj (hS.parameter.symm.trans hS'.parameter)
  subst hpar
  have hpos := hS.positive
  constructor
  · have := C87_comparison_binned (k := 1) hS' hS hR hR rfl (fun _ _ => rfl) (fun _ _ => rfl) (fun i hlt => by
      rw [one_mul]
      have := (hle i hlt).1
      gcongr) g2 g1 hx' hx
    rwa [one_mul] at this
  · by_cases h1 : δ < 1
    · have h1' : 0 < 1 - δ := by linarith
      have := C87_comparison_binned (k := 1 / (1 - δ)) hS hS' hR hR rfl (fun _ _ => rfl) (fun _ _ => rfl) (fun i hlt => by
        have := (hle i hlt).2
        rw [one_div, ← div_eq_inv_mul, le_div_iff₀ h1', div_mul_eq_mul_div, mul_comm]
        gcongr) g1 g2 hx hx'
      rw [one_div, ← div_eq_inv_mul, le_div_iff₀ h1'] at this
      linarith
    · nlinarith

theorem setMass_point (hp : Reachable U p) {m : ℝ} (hm : 0 < m) (b : Bool) {q : DMParticle} (hq : (p.setLowMassMode b).setMass U m = .ok q) :
    ∃ q₀, p.setMass U m = .ok q₀ ∧ q = q₀.setLowMassMode b := by
  have hpb : Reachable U (p.setLowMassMode b) := reachable_step (op := .setLowMassMode b) hp trivial rfl
  refine ⟨_, setMass_ok (reachable_inv hp) hm, ?_⟩
  rw [setMass_ok (reachable_inv hpb) hm] at hq
  rw [← Outcome.ok.inj hq]
  unfold withMass setLowMassMode
  simp only
  split_ifs <;> rfl

/-- C120 (limit curves). So on the limit curves of a binned analysis: at every mass that has a point on both curves, the limit of the low-mass mode is at most
that for extended nuclei, and too strong by at most the share `δ`. -/
theorem C120_curve {cert : ℝ} {masses : List ℝ} {rows rows' : List (ℝ × ℝ)} {d₁ d₂ : Detector} {p₁ p₂ : DMParticle} (hR : T.findRoot.Exact)
    (hI : T.integrate.Exact) (hp : Reachable U p) (hm : ∀ m ∈ masses, 0 < m) (hb : BaseReachable d) (hn : d.bins + 1 < 2 ^ 32) (hσ0 : 0 ≤ nd.resolution)
    (hP : ∀ m ∈ masses, ∀ q, p.setMass U m = .ok q → Proper U T.integrate h nd d [q.setLowMassMode false, q.setLowMassMode true])
    (hδ : ∀ iso ∈ nd.isotopes, 2 * iso.mass * (d.energyMax + 6 * nd.resolution) * meanSquareThird U iso.A ≤ δ)
    (hc : ∀ m ∈ masses, ∀ q, p.setMass U m = .ok q → ∀ E, 0 < E → ∀ iso ∈ nd.isotopes,
      ∃ r, dRdERIsotope U T.integrate E (q.setLowMassMode true) h iso = .ok r ∧ 0 ≤ r)
    (hS : ∀ m ∈ masses, ∀ q, p.setMass U m = .ok q → ∀ b, ∃ c ss, SeesInBins U T h (.nuclear d nd) (q.setLowMassMode b) c ss)
    (g1 : d.upperLimitCurve U T (nd.toClass U T h) (p.setLowMassMode false) masses cert = .ok (d₁, p₁, rows))
    (g2 : d.upperLimitCurve U T (nd.toClass U T h) (p.setLowMassMode true) masses cert = .ok (d₂, p₂, rows')) {m x y : ℝ} (h1 : (m, x) ∈ rows)
    (h2 : (m, y) ∈ rows') : y ≤ x ∧ (1 - δ) * x ≤ y := by
  have key : ∀ (b : Bool) (rs : List (ℝ × ℝ)) (d' : Detector) (p' : DMParticle) (z : ℝ),
      d.upperLimitCurve U T (nd.toClass U T h) (p.setLowMassMode b) masses cert = .ok (d', p', rs) → (m, z) ∈ rs →
      m ∈ masses ∧ 0 < z ∧ ∃ q r, p.setMass U m = .ok q ∧ d.upperLimit U T (nd.toClass U T h) (q.setLowMassMode b) cert = .ok r ∧ r.2.2 = z := by
    intro b rs d' p' z hcurve hz
    have hpb : Reachable U (p.setLowMassMode b) := reachable_step (op := .setLowMassMode b) hp trivial rfl
    obtain ⟨low, lim, -, e1, e2⟩ := C33_curve (.inl hb) hpb hm hcurve
    subst e2
    obtain ⟨m', hm', hx⟩ := List.mem_filterMap.1 hz
    split_ifs at hx with hcond
    simp only [Option.some.injEq, Prod.mk.injEq] at hx
    obtain ⟨rfl, rfl⟩ := hx
    have := e1 m' hm' hcond.1
    unfold upperLimitAt at this
    obtain ⟨q, hq, hw⟩ := Outcome.bind_eq_ok.1 this
    obtain ⟨r, hr, hz⟩ := Outcome.bind_eq_ok.1 hw
    obtain ⟨q₀, k1, rfl⟩ := setMass_point hp (hm m' hm') b hq
    exact ⟨hm', hcond.2, q₀, r, k1, hr, Outcome.ok.inj hz⟩
  obtain ⟨hmem, z1, q, r, s1, u1, rfl⟩ := key false _ _ _ _ g1 h1
  obtain ⟨-, z2, q', r', s2, u2, rfl⟩ := key true _ _ _ _ g2 h2
  obtain rfl : q = q' := Outcome.ok.inj (s1.symm.trans s2)
  obtain ⟨c₁, ss, S1⟩ := hS m hmem q s1 false
  obtain ⟨c₂, tt, S2⟩ := hS m hmem q s1 true
  exact C120_limit hR hI (hP m hmem q s1) hb hn hσ0 hδ (hc m hmem q s1) S1 S2 u1 u2 z1 z2

/-- Non-vacuity: hydrogen with two bins, where the nuclear form factor removes at most the share `δ < 1` of the events. -/
example (hI : T.integrate.Exact) (hR : T.findRoot.Exact) (hδ : 2 * U.mProton * 2 * meanSquareThird U 1 ≤ δ) (h1 : δ < 1) :
    ∃ (v : ℝ) (p : DMParticle) (ss tt : List ℝ), SeesInBins U T (flatHalo v) (binnedHydrogen U) (p.setLowMassMode false) 1 ss ∧
    SeesInBins U T (flatHalo v) (binnedHydrogen U) (p.setLowMassMode true) 1 tt ∧ ∀ cert r r',
    (binnedHydrogen U).base.upperLimit U T ((binnedHydrogen U).toClass U T (flatHalo v)) (p.setLowMassMode false) cert = .ok r →
    (binnedHydrogen U).base.upperLimit U T ((binnedHydrogen U).toClass U T (flatHalo v)) (p.setLowMassMode true) cert = .ok r' →
    0 < r.2.2 → 0 < r'.2.2 → (r'.2.2 ≤ r.2.2 ∧ (1 - δ) * r.2.2 ≤ r'.2.2) ∧ ∀ d₁ p₁ rows d₂ p₂ rows' x y,
      (binnedHydrogen U).base.upperLimitCurve U T ((binnedHydrogen U).toClass U T (flatHalo v)) (p.setLowMassMode false) [1] cert = .ok (d₁, p₁, rows) →
      (binnedHydrogen U).base.upperLimitCurve U T ((binnedHydrogen U).toClass U T (flatHalo v)) (p.setLowMassMode true) [1] cert = .ok (d₂, p₂, rows') →
      (1, x) ∈ rows → (1, y) ∈ rows' → y ≤ x ∧ (1 - δ) * x ≤ y := by
  obtain ⟨v, p, tt, ⟨-, hreg, hfix, hS⟩, hlow, hmass, hfd, hB, hfp, hrel⟩ := sees_bins_point U hI
  have hself : p.setMass U 1 = .ok p := by
    rw [setMass_ok (reachable_inv hS.particle) one_pos]
    obtain ⟨e, he, -, hw⟩ := withMass_self (U := U) hreg.good
    conv_lhs at hw => rw [hmass]
    have h0 : 0 ≤ (withMass U p 1).fp := by
      unfold withMass
      rw [if_pos hfix, if_pos hrel]
      exact div_nonneg (Real.sqrt_nonneg _) (reducedMass_pos one_pos U.mProton_pos).le
    rw [hw] at h0
    have e0 : 0 ≤ e := nonneg_of_mul_nonneg_left h0 hfp
    have e1 : e = 1 := by nlinarith
    rw [hw, e1]
    simp only [one_mul]
  have hpt : p.setLowMassMode true = p := by
    unfold setLowMassMode
    rw [← hlow]
  have hη : FallingEta (flatHalo v) := fun a b _ _ _ => ⟨1, 1, rfl, rfl, zero_le_one, le_rfl⟩
  have hf : ProperSpeeds (flatHalo v) := ⟨fun _ _ => le_rfl, intervalIntegrable_const⟩
  have hev : (0 : ℝ) < 1 / 10 ^ 6 * U.eV := by have := U.eV_pos; positivity
  have hisos : (hydrogenTarget U).isotopes = [Isotope.default U] := rfl
  have hc : ∀ E, 0 < E → ∀ iso ∈ (hydrogenTarget U).isotopes,
      ∃ r, dRdERIsotope U T.integrate E (p.setLowMassMode true) (flatHalo v) iso = .ok r ∧ 0 ≤ r := fun E hE iso hiso => by
    rw [hpt]
    obtain ⟨r, r', e1, -, h3, h4⟩ := C96_isotope (U := U) (h := flatHalo v) hI (hydrogen_isotopes U iso hiso) (p := p)
      (.inr hlow) (by rw [hmass]; exact one_pos) zero_le_one (by rw [hfd]; exact zero_le_one) (fun _ _ => hη) hf E E hE le_rfl
    exact ⟨r, e1, h3.trans h4⟩
  have t0 : (0 : ℝ) < (binnedHydrogen U).base.energyThreshold := one_pos
  have t1 : (binnedHydrogen U).base.energyThreshold ≤ (binnedHydrogen U).base.energyMax := by norm_num [binnedHydrogen, AnyDetector.base]
  have hrate : ∀ b E, 0 < E → (hydrogenTarget U).dRdE U T.integrate (binnedHydrogen U).base E (p.setLowMassMode b) (flatHalo v) =
      dRdERIsotope U T.integrate E (p.setLowMassMode b) (flatHalo v) (Isotope.default U) := fun b E hE => by
    obtain ⟨r, er, hr⟩ := hc E hE (Isotope.default U) (by simp [hisos])
    have : ∃ r, dRdERIsotope U T.integrate E (p.setLowMassMode b) (flatHalo v) (Isotope.default U) = .ok r := by
      cases b with
      | true => exact ⟨r, er⟩
      | false =>
        obtain ⟨r', e', -⟩ := C120_isotope hI.homogeneous (hydrogen_isotopes U _ (by simp [hisos])).1 hE er hr
        exact ⟨r', e'⟩
    obtain ⟨r, er⟩ := this
    have hab : (Isotope.default U).abundance = 1 := rfl
    unfold NuclearDetector.dRdE
    rw [if_pos (show (hydrogenTarget U).resolution < _ from hev)]
    unfold NuclearDetector.theoryRate dRdERNucleus
    simp [hydrogenTarget, sumOver, collect, vecGet, NuclearDetector.efficiency, er, binnedHydrogen, AnyDetector.base, Detector.make, hab]
  have hspec : FallingSpectrum fun E => (hydrogenTarget U).dRdE U T.integrate (binnedHydrogen U).base E p (flatHalo v) :=
    C96_spectrum hI (hydrogen_isotopes U) hev rfl le_rfl (by simp [hydrogenTarget]) zero_le_one (.inr hlow) (by rw [hmass]; exact one_pos)
      zero_le_one (by rw [hfd]; exact zero_le_one) (fun _ _ => hη) hf
  have itrue : IntervalIntegrable (fun E => ((hydrogenTarget U).dRdE U T.integrate (binnedHydrogen U).base E p (flatHalo v)).valueOr0) volume
      (binnedHydrogen U).base.energyThreshold (binnedHydrogen U).base.energyMax := AntitoneOn.intervalIntegrable fun x hx y _ hxy => by
    rw [Set.uIcc_of_le t1] at hx
    exact (FallingSpectrum.value hspec (t0.trans_le hx.1)).2.2 y hxy
  obtain ⟨f, fm, hfac⟩ := point_factor (U := U) (I := T.integrate) (p := p) (h := flatHalo v) (iso := Isotope.default U) hI.homogeneous
    (hydrogen_isotopes U _ (by simp [hisos])).1
  have hint : ∀ b, IntervalIntegrable (fun E => ((hydrogenTarget U).toClass U T (flatHalo v)).dRdE (binnedHydrogen U).base E (p.setLowMassMode b)) volume
      (binnedHydrogen U).base.energyThreshold (binnedHydrogen U).base.energyMax := fun b => by
    cases b with
    | true => rw [hpt]; exact itrue
    | false =>
      rw [intervalIntegrable_iff_integrableOn_Ioc_of_le t1] at itrue ⊢
      have := itrue.mul_bdd (c := 1) (g := fun E => max 0 (min 1 (f E))) (by fun_prop) (.of_forall fun E => by
        rw [Real.norm_of_nonneg (le_max_left _ _)]
        exact max_le zero_le_one (min_le_left _ _))
      refine this.congr ((ae_restrict_iff' measurableSet_Ioc).2 (.of_forall fun E hE => ?_))
      have hE0 : 0 < E := t0.trans hE.1
      obtain ⟨-, k2, k3, k4⟩ := hfac E hE0
      show ((hydrogenTarget U).dRdE U T.integrate (binnedHydrogen U).base E p (flatHalo v)).valueOr0 * _ =
        ((hydrogenTarget U).dRdE U T.integrate (binnedHydrogen U).base E (p.setLowMassMode false) (flatHalo v)).valueOr0
      have e := hrate true E hE0
      rw [hpt] at e
      rw [hrate false E hE0, e, k4, hpt, min_eq_right k2, max_eq_right k3]
      obtain ⟨r, er, -⟩ := hc E hE0 (Isotope.default U) (by simp [hisos])
      rw [hpt] at er
      simp [er, Outcome.scale, Outcome.valueOr0, mul_comm]
  have hδ' : ∀ iso ∈ (hydrogenTarget U).isotopes, 2 * iso.mass * ((binnedHydrogen U).base.energyMax + 6 * (hydrogenTarget U).resolution) *
      meanSquareThird U iso.A ≤ δ := fun iso hiso => by
    rw [hisos, List.mem_singleton] at hiso
    subst hiso
    have e0 : (hydrogenTarget U).resolution = 0 := rfl
    rw [e0, mul_zero, add_zero]
    exact hδ
  have hP : Proper U T.integrate (flatHalo v) (hydrogenTarget U) (binnedHydrogen U).base [p.setLowMassMode false, p.setLowMassMode true] :=
    { fractions := le_rfl
      composition := by simp [hydrogenTarget]
      tables := by simp [hydrogenTarget]
      flat := zero_le_one
      isotopes := hydrogen_isotopes U
      exposure := zero_le_one
      threshold := t0
      efficiencies := fun i hi => by
        have hi : i < 2 := hi
        interval_cases i <;> exact zero_le_one
      resolution := fun hr => absurd hr (not_le.2 hev)
      spectra := fun q hq => by
        simp only [List.mem_cons, List.not_mem_nil, or_false] at hq
        rcases hq with rfl | rfl
        · exact hint false
        · exact hint true }
  obtain ⟨ss, tt', a1, a2, a3, a4, a5⟩ := C120_bins (U := U) (nd := hydrogenTarget U) (p := p) hI hP hB hS.binned (show 2 + 1 < 2 ^ 32 by norm_num) le_rfl hδ' hc
  rw [hpt] at a2
  have e : tt' = tt := Outcome.ok.inj (a2.symm.trans hS.signal)
  subst e
  have hS0 : SeesInBins U T (flatHalo v) (binnedHydrogen U) (p.setLowMassMode false) 1 ss :=
    { hS with
      particle := by
        exact reachable_step (op := .setLowMassMode false) hS.particle trivial rfl
      parameter := hS.parameter
      signal := a1
      complete := a3
      visible := fun i hi => lt_of_lt_of_le (mul_pos (by linarith) (hS.visible i hi)) (a5 i hi).2 }
  have hS1 : SeesInBins U T (flatHalo v) (binnedHydrogen U) (p.setLowMassMode true) 1 tt' := by rw [hpt]; exact hS
  have hat : ∀ m ∈ [(1 : ℝ)], ∀ q, p.setMass U m = .ok q → q = p := fun m hm q hq => by
    rw [List.mem_singleton.1 hm, hself] at hq
    exact (Outcome.ok.inj hq).symm
  exact ⟨v, p, ss, tt', hS0, hS1, fun cert r r' g1 g2 hx hx' => ⟨C120_limit (U := U) (nd := hydrogenTarget U) hR hI hP hB
    (show 2 + 1 < 2 ^ 32 by norm_num) le_rfl hδ' hc hS0 hS1 g1 g2 hx hx', fun d₁ p₁ rows d₂ p₂ rows' x y k1 k2 l1 l2 =>
    C120_curve (U := U) (nd := hydrogenTarget U) hR hI hS.particle (by simp) hB (show 2 + 1 < 2 ^ 32 by norm_num) le_rfl
      (fun m hm q hq => hat m hm q hq ▸ hP) hδ' (fun m hm q hq => hat m hm q hq ▸ hc)
      (fun m hm q hq b => by
        rw [hat m hm q hq]
        cases b
        · exact ⟨1, ss, hS0⟩
        · exact ⟨1, tt', hS1⟩) k1 k2 l1 l2⟩⟩

/-- Units in which this holds with `δ = 1 / 10`. -/
example : 2 * (Units.mProton { Units.sample with fm := 1 / 10, fm_pos := by norm_num }) * 2 *
    meanSquareThird { Units.sample with fm := 1 / 10, fm_pos := by norm_num } 1 ≤ 1 / 10 := by
  have hpi := Real.pi_lt_d2
  have hpi0 := Real.pi_pos
  simp only [meanSquareThird, Units.sample, Nat.cast_one, Real.one_rpow]
  nlinarith

end Obscura
