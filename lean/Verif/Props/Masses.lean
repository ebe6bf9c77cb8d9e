import Verif.Spec.Masses
import Verif.Props.LimitComparison
import Verif.Props.FallingSpectra

/-!
# C100: how fast limits weaken with the mass
-/

namespace Obscura

open Spec NuclearDetector DMParticle MeasureTheory

variable {U : Units} {I : Integrator} {T : Tools} {nd : NuclearDetector} {d : Detector} {p p₁ p₂ : DMParticle} {h : Distribution} {iso : Isotope}
  {m₁ m₂ E : ℝ}

/-- After `Set_Mass` the couplings are inversely proportional to the reduced mass with the proton; nothing else but the mass depends on it. -/
theorem setMass_couplings (hb : BaseInv p) (h1 : p.setMass U m₁ = .ok p₁) (h2 : p.setMass U m₂ = .ok p₂) (hm₁ : 0 < m₁) (hm₂ : 0 < m₂) :
    ∃ fp fn, p₁ = { p with mass := m₁, fp := p₁.fp, fn := p₁.fn } ∧ p₂ = { p with mass := m₂, fp := p₂.fp, fn := p₂.fn } ∧
      p₁.fp = fp / reducedMass m₁ U.mProton ∧ p₁.fn = fn / reducedMass m₁ U.mProton ∧
      p₂.fp = fp / reducedMass m₂ U.mProton ∧ p₂.fn = fn / reducedMass m₂ U.mProton := by
  rw [setMass_ok hb hm₁] at h1
  rw [setMass_ok hb hm₂] at h2
  cases h1
  cases h2
  unfold withMass
  split_ifs
  · refine ⟨Real.sqrt (Real.pi * p.sigmaProton U / p.prefactor), p.fnRel / p.fpRel * Real.sqrt (Real.pi * p.sigmaProton U / p.prefactor), rfl, rfl, rfl, ?_, rfl, ?_⟩ <;>
    exact (mul_div_assoc _ _ _).symm
  · refine ⟨p.fpRel / p.fnRel * Real.sqrt (Real.pi * p.sigmaNeutron U / p.prefactor), Real.sqrt (Real.pi * p.sigmaNeutron U / p.prefactor), rfl, rfl, ?_, rfl, ?_, rfl⟩ <;>
    exact (mul_div_assoc _ _ _).symm
  · exact ⟨Real.sqrt (Real.pi * p.sigmaProton U / p.prefactor), Real.sqrt (Real.pi * p.sigmaNeutron U / p.prefactor), rfl, rfl, rfl, rfl, rfl, rfl⟩

/-- The cross section is a function of the energy over the square of the speed. -/
theorem crossSection_speed (hM : 0 ≤ iso.mass) (hsp : 0 ≤ iso.spin) (p : DMParticle) (E : ℝ) :
    ∃ s, 0 ≤ s ∧ ∀ v, p.dSigmadERNucleus U E iso v = s / v ^ 2 := by
  have hpi := Real.pi_pos
  unfold DMParticle.dSigmadERNucleus DMParticle.dSigmadq2Nucleus
  cases hint : p.interaction with
  | SD =>
    simp only []
    by_cases h0 : iso.spin = 0
    · exact ⟨0, le_rfl, fun v => by simp [h0]⟩
    · have : 0 < iso.spin := lt_of_le_of_ne hsp (Ne.symm h0)
      refine ⟨2 * iso.mass * (1 / Real.pi * (iso.spin + 1) / iso.spin * (p.fp * iso.sp + p.fn * iso.sn) ^ 2), by positivity, fun v => ?_⟩
      rw [if_neg h0]
      simp only [div_eq_mul_inv, mul_inv, sq, one_mul]
      ring
  | SI ff qRef mMed =>
    simp only []
    set N := if p.lowMass = true then (1 : ℝ) else iso.helmFormFactor U (Real.sqrt (2 * iso.mass * E)) with hN
    refine ⟨2 * iso.mass * (1 / 4 / Real.pi * (p.fp * iso.Z + p.fn * iso.neutrons) ^ 2 *
      formFactor2 ff qRef mMed (Real.sqrt (2 * iso.mass * E)) * N * N), ?_, fun v => ?_⟩
    · have := C10_nonneg ff qRef mMed (Real.sqrt (2 * iso.mass * E))
      have := mul_self_nonneg N
      rw [mul_assoc _ N N, ← mul_assoc]
      positivity
    · simp only [div_eq_mul_inv, mul_inv, sq, one_mul]
      ring

theorem massFactor_eq (m : ℝ) : massFactor U m = m * reducedMass m U.mProton ^ 2 := rfl

theorem massFactor_pos {m : ℝ} (hm : 0 < m) : 0 < massFactor U m := by
  have := reducedMass_pos hm U.mProton_pos
  rw [massFactor_eq]
  positivity

/-- Cross sections after two calls of `Set_Mass`. -/
theorem setMass_crossSection (hb : BaseInv p) (h1 : p.setMass U m₁ = .ok p₁) (h2 : p.setMass U m₂ = .ok p₂) (hm₁ : 0 < m₁) (hm₂ : 0 < m₂) (v : ℝ) :
    reducedMass m₁ U.mProton ^ 2 * p₁.dSigmadERNucleus U E iso v = reducedMass m₂ U.mProton ^ 2 * p₂.dSigmadERNucleus U E iso v := by
  have u1 := (reducedMass_pos hm₁ U.mProton_pos).ne'
  have u2 := (reducedMass_pos hm₂ U.mProton_pos).ne'
  obtain ⟨fp, fn, e1, e2, a1, a2, a3, a4⟩ := setMass_couplings hb h1 h2 hm₁ hm₂
  rw [a1, a2] at e1
  rw [a3, a4] at e2
  rw [e1, e2]
  have key : ∀ (μ a b : ℝ), μ ≠ 0 → (fp / μ * a + fn / μ * b) ^ 2 = (fp * a + fn * b) ^ 2 / μ ^ 2 := fun μ a b hμ => by
    field_simp
  unfold dSigmadERNucleus dSigmadq2Nucleus
  simp only [key _ _ _ u1, key _ _ _ u2]
  generalize reducedMass m₁ U.mProton = x at u1
  generalize reducedMass m₂ U.mProton = y at u2
  have hc : ∀ (μ A B C : ℝ), μ ≠ 0 → μ ^ 2 * (A * (B * (C / μ ^ 2))) = A * (B * C) := fun μ A B C hμ => by field_simp
  cases p.interaction with
  | SD =>
    simp only []
    split_ifs
    · simp
    · rw [hc _ _ _ _ u1, hc _ _ _ _ u2]
  | SI ff q m =>
    simp only []
    have hd : ∀ (μ A B C D F G : ℝ), μ ≠ 0 → μ ^ 2 * (A * (B * (C / μ ^ 2) * D * F * G)) = A * (B * C * D * F * G) := fun μ A B C D F G hμ => by field_simp
    rw [hd _ _ _ _ _ _ _ u1, hd _ _ _ _ _ _ _ u2]

/-- C100 (isotopes). The recoil rate of every isotope, at every energy, times the mass and the square of the reduced mass with the proton does not fall
with the mass of the particle (at constant cross sections). -/
theorem C100_isotope (hI : I.Exact) (hi : PhysicalIsotope iso) (hp : Reachable U p) (h1 : p.setMass U m₁ = .ok p₁) (h2 : p.setMass U m₂ = .ok p₂)
    (hm₁ : 0 < m₁) (hmm : m₁ ≤ m₂) (hdens : 0 ≤ h.density) (hfd : 0 ≤ p.fractionalDensity)
    (hη : p.useEtaFunction = true → h.useEta = true → FallingEta h) (hf : ProperSpeeds h) (hE : 0 < E) :
    ∃ r₁ r₂, dRdERIsotope U I E p₁ h iso = .ok r₁ ∧ dRdERIsotope U I E p₂ h iso = .ok r₂ ∧ 0 ≤ r₁ ∧ 0 ≤ r₂ ∧
      massFactor U m₁ * r₁ ≤ massFactor U m₂ * r₂ := by
  have hm₂ := hm₁.trans_le hmm
  have hb := reachable_inv hp
  have hM := hi.1
  have hx := setMass_crossSection (U := U) (E := E) (iso := iso) hb h1 h2 hm₁ hm₂
  obtain ⟨fp, fn, e1, e2, -⟩ := setMass_couplings hb h1 h2 hm₁ hm₂
  obtain ⟨s₁, hs₁, c1⟩ := crossSection_speed (U := U) hM.le hi.2.1 p₁ E
  obtain ⟨s₂, hs₂, c2⟩ := crossSection_speed (U := U) hM.le hi.2.1 p₂ E
  have hs : reducedMass m₁ U.mProton ^ 2 * s₁ = reducedMass m₂ U.mProton ^ 2 * s₂ := by
    have := hx 1
    rwa [c1, c2, one_pow, div_one, div_one] at this
  have q1 : p₁.mass = m₁ ∧ p₁.fractionalDensity = p.fractionalDensity ∧ p₁.useEtaFunction = p.useEtaFunction := by rw [e1]; exact ⟨rfl, rfl, rfl⟩
  have q2 : p₂.mass = m₂ ∧ p₂.fractionalDensity = p.fractionalDensity ∧ p₂.useEtaFunction = p.useEtaFunction := by rw [e2]; exact ⟨rfl, rfl, rfl⟩
  clear e1 e2 hx
  have μ1 := reducedMass_pos hm₁ U.mProton_pos
  have μ2 := reducedMass_pos hm₂ U.mProton_pos
  have hv : vMinimalNucleus E m₂ iso.mass ≤ vMinimalNucleus E m₁ iso.mass := by
    have a1 := reducedMass_pos hm₁ hM
    have a2 : reducedMass m₁ iso.mass ≤ reducedMass m₂ iso.mass := by
      unfold reducedMass
      rw [div_le_div_iff₀ (by positivity) (by positivity)]
      nlinarith [mul_pos hM hM]
    unfold vMinimalNucleus
    refine Real.sqrt_le_sqrt ?_
    gcongr
  have hv0 : 0 < vMinimalNucleus E m₂ iso.mass := by
    have := (C12_strictMono hm₂ hM).1 (Set.mem_Ici.2 le_rfl) (Set.mem_Ici.2 hE.le) hE
    exact (Real.sqrt_nonneg _).trans_lt this
  unfold dRdERIsotope
  dsimp only
  simp only [c1, c2, q1.1, q1.2.1, q1.2.2, q2.1, q2.2.1, q2.2.2]
  set a := vMinimalNucleus E m₂ iso.mass
  set b := vMinimalNucleus E m₁ iso.mass
  have fin : ∀ x y : ℝ, 0 ≤ y → y ≤ x → massFactor U m₁ * (p.fractionalDensity / iso.mass * (s₁ * (h.density / m₁ * y))) ≤
      massFactor U m₂ * (p.fractionalDensity / iso.mass * (s₂ * (h.density / m₂ * x))) := fun x y hy hyx => by
    rw [massFactor_eq, massFactor_eq]
    have l1 : m₁ * reducedMass m₁ U.mProton ^ 2 * (p.fractionalDensity / iso.mass * (s₁ * (h.density / m₁ * y))) =
        p.fractionalDensity / iso.mass * h.density * (reducedMass m₁ U.mProton ^ 2 * s₁) * y := by
      field_simp
    have l2 : m₂ * reducedMass m₂ U.mProton ^ 2 * (p.fractionalDensity / iso.mass * (s₂ * (h.density / m₂ * x))) =
        p.fractionalDensity / iso.mass * h.density * (reducedMass m₁ U.mProton ^ 2 * s₁) * x := by
      rw [hs]
      field_simp
    rw [l1, l2]
    gcongr
  by_cases g : h.vMax < a
  · rw [if_pos g, if_pos (g.trans_le hv)]
    exact ⟨0, 0, rfl, rfl, le_rfl, le_rfl, by simp⟩
  rw [if_neg g]
  have g := not_lt.1 g
  by_cases u : p.useEtaFunction ∧ h.useEta
  · rw [if_pos u, if_pos u]
    have sc : ∀ (s m e : ℝ), 1 / iso.mass * (h.density * p.fractionalDensity) / m * (1 / 1000 * (1 / 1000) * (s / (1 / 1000) ^ 2)) * e =
        p.fractionalDensity / iso.mass * (s * (h.density / m * e)) := fun s m e => by
      simp only [div_eq_mul_inv]
      norm_num
      ring
    by_cases g' : h.vMax < b
    · obtain ⟨x, y, k1, -, y0, yx⟩ := hη u.1 u.2 _ _ hv0.le g le_rfl
      have x0 := y0.trans yx
      rw [if_pos g', k1]
      refine ⟨0, _, rfl, rfl, le_rfl, by positivity, ?_⟩
      rw [mul_zero]
      have := (massFactor_pos (U := U) hm₂).le
      positivity
    · obtain ⟨x, y, k1, k2, y0, yx⟩ := hη u.1 u.2 _ _ hv0.le hv (not_lt.1 g')
      have x0 := y0.trans yx
      rw [if_neg g', k1, k2]
      refine ⟨_, _, rfl, rfl, by positivity, by positivity, ?_⟩
      rw [sc, sc]
      exact fin x y y0 yx
  · rw [if_neg u, if_neg u]
    have hint : IntervalIntegrable (fun v => h.pdfSpeed v / v) volume a h.vMax := by
      refine (hf.2.mono_set ?_).mul_continuousOn (g := fun v => v⁻¹) ?_
      · rw [Set.uIcc_of_le g, Set.uIcc_of_le (hv0.le.trans g)]
        exact Set.Icc_subset_Icc hv0.le le_rfl
      · rw [Set.uIcc_of_le g]
        exact continuousOn_inv₀.mono fun v hv => (hv0.trans_le hv.1).ne'
    have hnn : ∀ v, a ≤ v → 0 ≤ h.pdfSpeed v / v := fun v hv => by
      have := hf.1 v (hv0.le.trans hv)
      have := hv0.trans_le hv
      positivity
    have key : ∀ s m c, a ≤ c → c ≤ h.vMax → ∫ v in c..h.vMax, h.differentialFlux v m * (s / v ^ 2) =
        s * (h.density / m * ∫ v in c..h.vMax, h.pdfSpeed v / v) := fun s m c hc hc' => by
      rw [← intervalIntegral.integral_const_mul, ← intervalIntegral.integral_const_mul]
      refine intervalIntegral.integral_congr fun v hv => ?_
      rw [Set.uIcc_of_le hc'] at hv
      have : 0 < v := hv0.trans_le (hc.trans hv.1)
      simp only [Distribution.differentialFlux]
      field_simp
    have i0 : 0 ≤ ∫ v in a..h.vMax, h.pdfSpeed v / v := intervalIntegral.integral_nonneg g fun v hv => hnn v hv.1
    simp only [hI _ _ _]
    rw [key s₂ m₂ a le_rfl g]
    by_cases g' : h.vMax < b
    · rw [if_pos g']
      refine ⟨0, _, rfl, rfl, le_rfl, by positivity, ?_⟩
      rw [mul_zero]
      have := (massFactor_pos (U := U) hm₂).le
      positivity
    · have g' := not_lt.1 g'
      rw [if_neg (not_lt.2 g'), key s₁ m₁ b hv g']
      have i1 : 0 ≤ ∫ v in b..h.vMax, h.pdfSpeed v / v := intervalIntegral.integral_nonneg g' fun v hv' => hnn v (hv.trans hv'.1)
      have i2 : ∫ v in b..h.vMax, h.pdfSpeed v / v ≤ ∫ v in a..h.vMax, h.pdfSpeed v / v := by
        refine intervalIntegral.integral_mono_interval hv g' le_rfl ?_ hint
        refine (ae_restrict_iff' measurableSet_Ioc).2 (Filter.Eventually.of_forall fun v hv => hnn v hv.1.le)
      exact ⟨_, _, rfl, rfl, by positivity, by positivity, fin _ _ i1 i2⟩

theorem sum_scale (k : ℝ) (l : List Isotope) (f : Isotope → ℝ) : (l.map fun iso => iso.abundance * (k * f iso)).sum = k * (l.map fun iso => iso.abundance * f iso).sum := by
  induction l with
  | nil => simp
  | cons x l ih =>
    simp only [List.map_cons, List.sum_cons, ih]
    ring

theorem theoryRate_masses (hI : I.Exact) (hp : Reachable U p) (h1 : p.setMass U m₁ = .ok p₁) (h2 : p.setMass U m₂ = .ok p₂)
    (hm₁ : 0 < m₁) (hmm : m₁ ≤ m₂) (hlen : nd.nuclei.length ≤ nd.fractions.length) (hfr : ∀ x ∈ nd.fractions, 0 ≤ x)
    (heff : ∀ e ∈ nd.efficiencies, ∀ E, 0 ≤ e E) (hflat : 0 ≤ d.flatEfficiency) (hi : ∀ iso ∈ nd.isotopes, PhysicalIsotope iso)
    (hdens : 0 ≤ h.density) (hfd : 0 ≤ p.fractionalDensity) (hη : p.useEtaFunction = true → h.useEta = true → FallingEta h) (hf : ProperSpeeds h)
    {ER : ℝ} (hE : 0 < ER) :
    ∃ r₁ r₂, nd.theoryRate U I d E ER p₁ h = .ok r₁ ∧ nd.theoryRate U I d E ER p₂ h = .ok r₂ ∧ massFactor U m₁ * r₁ ≤ massFactor U m₂ * r₂ := by
  have hiso : ∀ iso ∈ nd.isotopes, dRdERIsotope U I ER p₁ h iso = .ok (dRdERIsotope U I ER p₁ h iso).valueOr0 ∧
      dRdERIsotope U I ER p₂ h iso = .ok (dRdERIsotope U I ER p₂ h iso).valueOr0 ∧
      massFactor U m₁ * (dRdERIsotope U I ER p₁ h iso).valueOr0 ≤ massFactor U m₂ * (dRdERIsotope U I ER p₂ h iso).valueOr0 := fun iso hx => by
    obtain ⟨r₁, r₂, e1, e2, -, -, hle⟩ := C100_isotope hI (hi iso hx) hp h1 h2 hm₁ hmm hdens hfd hη hf hE
    rw [e1, e2]
    exact ⟨rfl, rfl, hle⟩
  have hfr' : ∀ i, 0 ≤ nd.fractions.getD i 0 := fun i => by
    rw [List.getD_eq_getElem?_getD]
    cases hx : nd.fractions[i]? with
    | none => exact le_rfl
    | some x => exact hfr x (List.mem_of_getElem? hx)
  have he : ∀ i, 0 ≤ efficiencyOf nd i E := fun i => by
    have : ∀ j, 0 ≤ nd.efficiencies.getD j (fun _ => 1) E := fun j => by
      by_cases hj : j < nd.efficiencies.length
      · simpa [List.getD, hj] using heff _ (List.getElem_mem hj) E
      · simp [List.getD, not_lt.1 hj]
    unfold efficiencyOf
    split_ifs
    · exact this 0
    · exact this i
    · exact zero_le_one
  refine ⟨_, _, theoryRate_eq_of hlen fun iso hx => (hiso iso hx).1, theoryRate_eq_of hlen fun iso hx => (hiso iso hx).2.1, ?_⟩
  rw [Finset.mul_sum, Finset.mul_sum]
  refine Finset.sum_le_sum fun i _ => ?_
  rw [mul_left_comm, mul_left_comm (massFactor U m₂), ← sum_scale (massFactor U m₁), ← sum_scale (massFactor U m₂)]
  refine mul_le_mul_of_nonneg_left (List.sum_le_sum fun iso hx => ?_) (mul_nonneg (mul_nonneg (he i) hflat) (hfr' i))
  have hmem := mem_isotopes (nd := nd) (List.getElem_mem i.2) hx
  exact mul_le_mul_of_nonneg_left (hiso iso hmem).2.2 (hi iso hmem).2.2

/-- C100 (detectors). So does the recoil rate of a detector, at every observed energy. With a finite energy resolution the rates it is folded with must be
integrable. -/
theorem C100_rate (hI : I.Exact) (hp : Reachable U p) (h1 : p.setMass U m₁ = .ok p₁) (h2 : p.setMass U m₂ = .ok p₂)
    (hm₁ : 0 < m₁) (hmm : m₁ ≤ m₂) (hlen : nd.nuclei.length ≤ nd.fractions.length) (hfr : ∀ x ∈ nd.fractions, 0 ≤ x)
    (heff : ∀ e ∈ nd.efficiencies, ∀ E, 0 ≤ e E) (hflat : 0 ≤ d.flatEfficiency) (hi : ∀ iso ∈ nd.isotopes, PhysicalIsotope iso)
    (hdens : 0 ≤ h.density) (hfd : 0 ≤ p.fractionalDensity) (hη : p.useEtaFunction = true → h.useEta = true → FallingEta h) (hf : ProperSpeeds h)
    (hE : 0 < E) (hwin : 1 / 10 ^ 6 * U.eV ≤ nd.resolution → d.energyThreshold ≤ E + 9 * nd.resolution ∧
      ∀ p' ∈ [p₁, p₂], ∀ a b, 0 < a → IntervalIntegrable (fun ER => (nd.theoryRate U I d E ER p' h).valueOr0) volume a b) :
    ∃ r₁ r₂, nd.dRdE U I d E p₁ h = .ok r₁ ∧ nd.dRdE U I d E p₂ h = .ok r₂ ∧ massFactor U m₁ * r₁ ≤ massFactor U m₂ * r₂ := by
  unfold NuclearDetector.dRdE
  by_cases hres : nd.resolution < 1 / 10 ^ 6 * U.eV
  · rw [if_pos hres, if_pos hres]
    exact theoryRate_masses hI hp h1 h2 hm₁ hmm hlen hfr heff hflat hi hdens hfd hη hf hE
  rw [if_neg hres, if_neg hres]
  dsimp only
  have hσ : 0 < nd.resolution := lt_of_lt_of_le (by have := U.eV_pos; positivity) (not_lt.1 hres)
  obtain ⟨hw, hint⟩ := hwin (not_lt.1 hres)
  set a := max (max (E - 6 * nd.resolution) (d.energyThreshold - 3 * nd.resolution)) (2 * nd.resolution)
  have ha : 0 < a := lt_of_lt_of_le (by positivity) (le_max_right _ _)
  have hab : a ≤ E + 6 * nd.resolution := max_le (max_le (by linarith) (by linarith)) (by linarith)
  have hg : ContinuousOn (fun ER => pdfGauss E ER nd.resolution) (Set.uIcc a (E + 6 * nd.resolution)) := by
    unfold pdfGauss
    fun_prop
  refine ⟨_, _, rfl, rfl, ?_⟩
  rw [hI, hI, ← intervalIntegral.integral_const_mul, ← intervalIntegral.integral_const_mul]
  refine intervalIntegral.integral_mono_on hab ((((hint p₁ (by simp) a _ ha).continuousOn_mul hg)).const_mul _)
    ((((hint p₂ (by simp) a _ ha).continuousOn_mul hg)).const_mul _) fun ER hER => ?_
  obtain ⟨r₁, r₂, e1, e2, hle⟩ := theoryRate_masses (E := E) (d := d) hI hp h1 h2 hm₁ hmm hlen hfr heff hflat hi hdens hfd hη hf (ha.trans_le hER.1)
  rw [e1, e2]
  simp only [Outcome.valueOr0]
  rw [mul_left_comm, mul_left_comm (massFactor U m₂)]
  refine mul_le_mul_of_nonneg_left hle ?_
  unfold pdfGauss
  positivity

/-- What the theorems require of a nuclear recoil detector: a physical composition, efficiencies that are not negative, and, with a finite energy
resolution, rates that can be integrated. -/
structure Proper (U : Units) (I : Integrator) (h : Distribution) (nd : NuclearDetector) (d : Detector) (ps : List DMParticle) : Prop where
  fractions : nd.nuclei.length ≤ nd.fractions.length
  composition : ∀ x ∈ nd.fractions, 0 ≤ x
  tables : ∀ e ∈ nd.efficiencies, ∀ E, 0 ≤ e E
  flat : 0 ≤ d.flatEfficiency
  isotopes : ∀ iso ∈ nd.isotopes, PhysicalIsotope iso
  exposure : 0 ≤ d.exposure
  threshold : 0 < d.energyThreshold
  efficiencies : ∀ i < d.bins, 0 ≤ d.binEfficiencies.getD i 0
  resolution : 1 / 10 ^ 6 * U.eV ≤ nd.resolution → ∀ p ∈ ps, ∀ E a b, 0 < a →
    IntervalIntegrable (fun ER => (nd.theoryRate U I d E ER p h).valueOr0) volume a b
  spectra : ∀ p ∈ ps, IntervalIntegrable (fun E => (nd.dRdE U I d E p h).valueOr0) volume d.energyThreshold d.energyMax

/-- C100 (bins). In every energy bin the expected number of events times the mass and the square of the reduced mass with the proton does not fall with
the mass. -/
theorem C100_bins (hI : T.integrate.Exact) (hp : Reachable U p) (h1 : p.setMass U m₁ = .ok p₁) (h2 : p.setMass U m₂ = .ok p₂)
    (hm₁ : 0 < m₁) (hmm : m₁ ≤ m₂) (hP : Proper U T.integrate h nd d [p₁, p₂]) (hdens : 0 ≤ h.density) (hfd : 0 ≤ p.fractionalDensity)
    (hη : p.useEtaFunction = true → h.useEta = true → FallingEta h) (hf : ProperSpeeds h)
    (hb : BaseReachable d) (hd : d.analysis = .binnedPoisson) (hn : d.bins + 1 < 2 ^ 32) :
    ∃ ss₁ ss₂, (nd.toClass U T h).signalsBinned d p₁ = .ok ss₁ ∧ (nd.toClass U T h).signalsBinned d p₂ = .ok ss₂ ∧ ss₁.length = d.bins ∧
      ss₂.length = d.bins ∧ ∀ i < d.bins, massFactor U m₁ * ss₁.getD i 0 ≤ massFactor U m₂ * ss₂.getD i 0 := by
  obtain ⟨ss₁, a1, a2, a3⟩ := C37_bin_signals (p := p₁) (C := nd.toClass U T h) hb hd hI hn
  obtain ⟨ss₂, b1, b2, b3⟩ := C37_bin_signals (p := p₂) (C := nd.toClass U T h) hb hd hI hn
  refine ⟨ss₁, ss₂, a1, b1, a2, b2, fun i hlt => ?_⟩
  obtain ⟨-, -, f3, -⟩ := (Detector.baseReachable_inv hb).energies hd
  rw [a3 i hlt, b3 i hlt]
  set w := (d.energyMax - d.energyThreshold) / d.bins
  have hbins : (0 : ℝ) < d.bins := Nat.cast_pos.2 (by omega)
  have hw : 0 ≤ w := div_nonneg (sub_nonneg.2 f3) (Nat.cast_nonneg _)
  have hedge : ∀ k : ℕ, binEdge d.energyThreshold d.energyMax d.bins k = d.energyThreshold + k * w := fun _ => rfl
  have hmax : d.energyThreshold + d.bins * w = d.energyMax := by
    simp only [w]
    field_simp
    ring
  rw [hedge, hedge]
  have l1 : d.energyThreshold + i * w ≤ d.energyThreshold + ((i + 1 : ℕ) : ℝ) * w := by push_cast; linarith
  have l0 : d.energyThreshold ≤ d.energyThreshold + i * w := le_add_of_nonneg_right (by positivity)
  have l2 : d.energyThreshold + ((i + 1 : ℕ) : ℝ) * w ≤ d.energyMax := by
    rw [← hmax]
    have : ((i + 1 : ℕ) : ℝ) ≤ d.bins := by exact_mod_cast hlt
    gcongr
  have sub : Set.uIcc (d.energyThreshold + i * w) (d.energyThreshold + ((i + 1 : ℕ) : ℝ) * w) ⊆ Set.uIcc d.energyThreshold d.energyMax := by
    rw [Set.uIcc_of_le l1, Set.uIcc_of_le f3]
    exact Set.Icc_subset_Icc l0 l2
  have := hP.efficiencies i hlt
  rw [mul_left_comm, mul_left_comm (massFactor U m₂), mul_left_comm (massFactor U m₁), mul_left_comm (massFactor U m₂),
    ← intervalIntegral.integral_const_mul (massFactor U m₁), ← intervalIntegral.integral_const_mul (massFactor U m₂)]
  refine mul_le_mul_of_nonneg_left (mul_le_mul_of_nonneg_left ?_ hP.exposure) this
  refine intervalIntegral.integral_mono_on l1 (((hP.spectra p₁ (by simp)).mono_set sub).const_mul _)
    (((hP.spectra p₂ (by simp)).mono_set sub).const_mul _) fun E hE' => ?_
  have hEpos : 0 < E := hP.threshold.trans_le (l0.trans hE'.1)
  obtain ⟨x, y, e1, e2, hxy⟩ := C100_rate (d := d) (h := h) hI hp h1 h2 hm₁ hmm hP.fractions hP.composition hP.tables hP.flat hP.isotopes hdens hfd hη hf hEpos
    fun hres => ⟨by
      have : 0 < nd.resolution := lt_of_lt_of_le (by have := U.eV_pos; positivity) hres
      have := l0.trans hE'.1
      linarith, fun p' hp' a b ha => hP.resolution hres p' hp' E a b ha⟩
  show massFactor U m₁ * (nd.dRdE U T.integrate d E p₁ h).valueOr0 ≤ massFactor U m₂ * (nd.dRdE U T.integrate d E p₂ h).valueOr0
  rw [e1, e2]
  exact hxy

/-- The interaction parameter does not depend on the mass that is set. -/
theorem setMass_parameter (hb : BaseInv p) (h1 : p.setMass U m₁ = .ok p₁) (h2 : p.setMass U m₂ = .ok p₂) (hm₁ : 0 < m₁) (hm₂ : 0 < m₂) (t : String) :
    p₁.getInteractionParameter U t = p₂.getInteractionParameter U t := by
  have u1 := (reducedMass_pos hm₁ U.mProton_pos).ne'
  have u2 := (reducedMass_pos hm₂ U.mProton_pos).ne'
  obtain ⟨fp, fn, e1, e2, a1, a2, a3, a4⟩ := setMass_couplings hb h1 h2 hm₁ hm₂
  rw [a1, a2] at e1
  rw [a3, a4] at e2
  rw [e1, e2]
  have k : ∀ x f μ : ℝ, μ ≠ 0 → x * (f / μ) * (f / μ) * μ * μ / Real.pi = x * f * f / Real.pi := fun x f μ hμ => by field_simp
  unfold getInteractionParameter sigmaProton sigmaNeutron sigmaElectron
  dsimp only
  rw [k _ _ _ u1, k _ _ _ u2, k _ _ _ u1, k _ _ _ u2]

/-- C100 (limits). Limits on the cross section weaken with the mass at most like the mass times the square of the reduced mass with the proton: for heavy
particles, linearly. Binned analyses, whatever was observed and whatever background is expected. -/
theorem C100_limit {c₁ c₂ cert : ℝ} {ss₁ ss₂ : List ℝ} (hR : T.findRoot.Exact) (hI : T.integrate.Exact) (hp : Reachable U p)
    (h1 : p.setMass U m₁ = .ok p₁) (h2 : p.setMass U m₂ = .ok p₂) (hm₁ : 0 < m₁) (hmm : m₁ ≤ m₂) (hP : Proper U T.integrate h nd d [p₁, p₂])
    (hdens : 0 ≤ h.density) (hfd : 0 ≤ p.fractionalDensity) (hη : p.useEtaFunction = true → h.useEta = true → FallingEta h) (hf : ProperSpeeds h)
    (hb : BaseReachable d) (hn : d.bins + 1 < 2 ^ 32)
    (hS₁ : SeesInBins U T h (.nuclear d nd) p₁ c₁ ss₁) (hS₂ : SeesInBins U T h (.nuclear d nd) p₂ c₂ ss₂)
    {r₁ r₂ : Detector × DMParticle × ℝ} (g1 : d.upperLimit U T (nd.toClass U T h) p₁ cert = .ok r₁)
    (g2 : d.upperLimit U T (nd.toClass U T h) p₂ cert = .ok r₂) (hx₁ : 0 < r₁.2.2) (hx₂ : 0 < r₂.2.2) :
    r₂.2.2 / massFactor U m₂ ≤ r₁.2.2 / massFactor U m₁ := by
  have hm₂ := hm₁.trans_le hmm
  obtain ⟨t₁, t₂, e1, e2, -, -, hle⟩ := C100_bins hI hp h1 h2 hm₁ hmm hP hdens hfd hη hf hb hS₁.binned hn
  have s1 : (nd.toClass U T h).signalsBinned d p₁ = .ok ss₁ := hS₁.signal
  have s2 : (nd.toClass U T h).signalsBinned d p₂ = .ok ss₂ := hS₂.signal
  rw [s1] at e1
  rw [s2] at e2
  cases e1
  cases e2
  have hpar : c₁ = c₂ := by
    have a := hS₁.parameter
    have b := hS₂.parameter
    rw [setMass_parameter (reachable_inv hp) h1 h2 hm₁ hm₂, b] at a
    exact (Outcome.ok.inj a).symm
  subst hpar
  have hpos := hS₁.positive
  have F1 := massFactor_pos (U := U) hm₁
  have F2 := massFactor_pos (U := U) hm₂
  have := C87_comparison_binned (k := massFactor U m₂ / massFactor U m₁) hS₂ hS₁ hR hR rfl (fun _ _ => rfl) (fun _ _ => rfl) (fun i hlt => by
    have := hle i hlt
    rw [div_mul_div_comm, div_le_div_iff₀ hpos (by positivity)]
    nlinarith) g2 g1 hx₂ hx₁
  rw [div_le_div_iff₀ F2 F1]
  rw [div_mul_eq_mul_div, le_div_iff₀ F1] at this
  linarith

/-- C100 (limit curves). So on every limit curve of a binned analysis, whatever masses were asked for and in whatever order: of two points the one at the
larger mass is weaker at most by the ratio of these factors. -/
theorem C100_curve {cert : ℝ} {masses : List ℝ} {rows : List (ℝ × ℝ)} {d' : Detector} {p' : DMParticle} (hR : T.findRoot.Exact) (hI : T.integrate.Exact)
    (hp : Reachable U p) (hm : ∀ m ∈ masses, 0 < m) {ps : List DMParticle} (hps : ∀ m ∈ masses, ∀ q, p.setMass U m = .ok q → q ∈ ps)
    (hP : Proper U T.integrate h nd d ps) (hdens : 0 ≤ h.density) (hfd : 0 ≤ p.fractionalDensity) (hη : p.useEtaFunction = true → h.useEta = true → FallingEta h) (hf : ProperSpeeds h)
    (hb : BaseReachable d) (hn : d.bins + 1 < 2 ^ 32)
    (hS : ∀ m ∈ masses, ∀ q, p.setMass U m = .ok q → ∃ c ss, SeesInBins U T h (.nuclear d nd) q c ss)
    (hc : d.upperLimitCurve U T (nd.toClass U T h) p masses cert = .ok (d', p', rows)) {m₁ x₁ m₂ x₂ : ℝ} (h₁ : (m₁, x₁) ∈ rows) (h₂ : (m₂, x₂) ∈ rows)
    (hmm : m₁ ≤ m₂) : 0 < x₁ ∧ 0 < x₂ ∧ x₂ / massFactor U m₂ ≤ x₁ / massFactor U m₁ := by
  obtain ⟨low, lim, -, e1, e2⟩ := C33_curve (.inl hb) hp hm hc
  subst e2
  have key : ∀ m x, (m, x) ∈ masses.filterMap (fun m => if low ≤ m ∧ 0 < lim m then some (m, lim m) else none) →
      m ∈ masses ∧ 0 < x ∧ ∃ q r, p.setMass U m = .ok q ∧ d.upperLimit U T (nd.toClass U T h) q cert = .ok r ∧ r.2.2 = x := by
    intro m x hx
    obtain ⟨m', hm', hx⟩ := List.mem_filterMap.1 hx
    split_ifs at hx with hcond
    simp only [Option.some.injEq, Prod.mk.injEq] at hx
    obtain ⟨rfl, rfl⟩ := hx
    have := e1 m' hm' hcond.1
    unfold upperLimitAt at this
    obtain ⟨q, hq, this⟩ := Outcome.bind_eq_ok.1 this
    obtain ⟨r, hr, this⟩ := Outcome.bind_eq_ok.1 this
    exact ⟨hm', hcond.2, q, r, hq, hr, Outcome.ok.inj this⟩
  obtain ⟨k1, z1, q1, r1, s1, u1, rfl⟩ := key _ _ h₁
  obtain ⟨k2, z2, q2, r2, s2, u2, rfl⟩ := key _ _ h₂
  obtain ⟨c1, ss1, S1⟩ := hS m₁ k1 q1 s1
  obtain ⟨c2, ss2, S2⟩ := hS m₂ k2 q2 s2
  have hP' : Proper U T.integrate h nd d [q1, q2] := by
    have sub : ∀ q ∈ [q1, q2], q ∈ ps := by
      intro q hq
      simp only [List.mem_cons, List.not_mem_nil, or_false] at hq
      rcases hq with rfl | rfl
      · exact hps _ k1 _ s1
      · exact hps _ k2 _ s2
    exact { hP with
      resolution := fun hres q hq => hP.resolution hres q (sub q hq)
      spectra := fun q hq => hP.spectra q (sub q hq) }
  exact ⟨z1, z2, C100_limit hR hI hp s1 s2 (hm _ k1) hmm hP' hdens hfd hη hf hb hn S1 S2 u1 u2 z1 z2⟩

/-- Non-vacuity: particles of mass 1 and 3 in the low-mass mode, a hydrogen detector with five bins, and the standard halo `SHM.sample`. -/
example (hI : T.integrate.Exact) : ∃ (p p₁ p₂ : DMParticle) (d : Detector) (ss₁ ss₂ : List ℝ), Reachable U p ∧ p.setMass U 1 = .ok p₁ ∧
    p.setMass U 3 = .ok p₂ ∧ BaseReachable d ∧ d.bins = 5 ∧
    ((sampleNuclear 0).toClass U T (Distribution.ofSHM SHM.sample)).signalsBinned d p₁ = .ok ss₁ ∧
    ((sampleNuclear 0).toClass U T (Distribution.ofSHM SHM.sample)).signalsBinned d p₂ = .ok ss₂ ∧
    ∀ i < 5, massFactor U 1 * ss₁.getD i 0 ≤ massFactor U 3 * ss₂.getD i 0 := by
  obtain ⟨c, hc0, hc, hmk, _⟩ := makeSI_eq (U := U) (m := 1) (s := 1) one_pos zero_le_one
  obtain ⟨d, hd, -⟩ := (C27_use_energy_bins (Detector.make "x" 1 "Nuclei") 1 2 5 (by norm_num)).1 (by simp [Detector.make]) (by norm_num)
  obtain ⟨b1, b2, b3, b4, b5, b6⟩ := C37_configured (n := 5) ⟨Detector.make "x" 1 "Nuclei", [], ⟨_, _, _, rfl⟩, rfl⟩ (by norm_num) hd
  have hrest : d.exposure = 1 ∧ d.flatEfficiency = 1 := by
    unfold Detector.useEnergyBins at hd
    obtain ⟨d1, h1, h2⟩ := Outcome.bind_eq_ok.1 hd
    obtain ⟨_, rfl⟩ := Detector.initializeBinned_ok h1
    split_ifs at h2
    cases h2
    exact ⟨rfl, rfl⟩
  have hs : SHM.sample.Physical ∧ SHM.sample.vObs ≤ SHM.sample.vEsc ∧ 0 ≤ SHM.sample.density := by
    refine ⟨⟨?_, ?_⟩, ?_, ?_⟩ <;> norm_num [SHM.sample, SHM.makeSpeed, SHM.normalize]
  obtain ⟨g1, g2⟩ := C96_standard_halo (U := Units.sample) SHM.sample_reachable hs.1 hs.2.1
  set p := DMParticle.setLowMassMode { DMParticle.standard U 1 1 (.SI .contact (U.aEM * U.mElectron) 0) with fp := c, fn := c } true
  have hR : Reachable U p := ⟨_, [.setLowMassMode true], makeSI_built one_pos hmk, by simp [ValidOp], rfl⟩
  have hb := reachable_inv hR
  have hphys : PhysicalIsotope sampleIsotope := by norm_num [PhysicalIsotope, sampleIsotope]
  have hiso : ∀ iso ∈ (sampleNuclear 0).isotopes, PhysicalIsotope iso := fun iso hi => by
    have : (sampleNuclear 0).isotopes = [sampleIsotope] := rfl
    rw [this, List.mem_singleton] at hi
    exact hi ▸ hphys
  have hev : (0 : ℝ) < 1 / 10 ^ 6 * U.eV := by have := U.eV_pos; positivity
  have hm3 := setMass_ok (U := U) hb (m := 3) (by norm_num)
  have hm1 := setMass_ok (U := U) hb (m := 1) one_pos
  obtain ⟨-, -, e1, e2, -⟩ := setMass_couplings hb hm1 hm3 one_pos (by norm_num)
  have hspec : ∀ q ∈ [withMass U p 1, withMass U p 3], FallingSpectrum fun E => (sampleNuclear 0).dRdE U T.integrate d E q (Distribution.ofSHM SHM.sample) := by
    intro q hq
    have hq' : q.lowMass = true ∧ 0 < q.mass ∧ q.fractionalDensity = 1 := by
      simp only [List.mem_cons, List.not_mem_nil, or_false] at hq
      rcases hq with rfl | rfl
      · rw [e1]; exact ⟨rfl, one_pos, rfl⟩
      · rw [e2]; exact ⟨rfl, by norm_num, rfl⟩
    exact C96_spectrum hI hiso hev rfl le_rfl (by simp [sampleNuclear]) (by rw [hrest.2]; exact zero_le_one) (.inr hq'.1) hq'.2.1 hs.2.2
      (by rw [hq'.2.2]; exact zero_le_one) (fun _ _ => g1) g2
  have hth : 0 < d.energyThreshold ∧ d.energyThreshold ≤ d.energyMax := by
    obtain ⟨-, -, f3, -⟩ := (Detector.baseReachable_inv b1).energies b2
    exact ⟨by rw [b4]; norm_num, f3⟩
  have hP : Proper U T.integrate (Distribution.ofSHM SHM.sample) (sampleNuclear 0) d [withMass U p 1, withMass U p 3] :=
    { fractions := le_rfl
      composition := by simp [sampleNuclear]
      tables := by simp [sampleNuclear]
      flat := by rw [hrest.2]; exact zero_le_one
      isotopes := hiso
      exposure := by rw [hrest.1]; exact zero_le_one
      threshold := hth.1
      efficiencies := fun i hi => by rw [b6 i (b3 ▸ hi)]; exact zero_le_one
      resolution := fun hc => absurd hc (not_le.2 hev)
      spectra := fun q hq => AntitoneOn.intervalIntegrable fun x hx y _ hxy => by
        rw [Set.uIcc_of_le hth.2] at hx
        exact (FallingSpectrum.value (hspec q hq) (hth.1.trans_le hx.1)).2.2 y hxy }
  obtain ⟨ss₁, ss₂, k1, k2, -, -, k3⟩ := C100_bins hI hR hm1 hm3 one_pos (by norm_num) hP hs.2.2 (show (0 : ℝ) ≤ 1 from zero_le_one)
    (fun _ _ => g1) g2 b1 b2 (by rw [b3]; norm_num)
  exact ⟨p, _, _, d, ss₁, ss₂, hR, hm1, hm3, b1, b3, k1, k2, fun i hi => k3 i (b3 ▸ hi)⟩

end Obscura
