import Verif.Lemmas.Configuration

/-!
# C53 — the particle described by a configuration file
-/

namespace Obscura

open Spec DMParticle

variable {U : Units}

theorem makeSI1_start : ∃ c : ℝ, c ≠ 0 ∧ DMParticle.makeSI1 U (10 * U.GeV) =
    .ok { standard U (10 * U.GeV) 1 (.SI .contact (U.aEM * U.mElectron) 0) with fp := c, fn := c } := by
  have hm : 0 < 10 * U.GeV := by have := U.GeV_pos; positivity
  have hs : 0 < 1 / 10 ^ 40 * U.cm * U.cm := by have := U.cm_pos; positivity
  obtain ⟨c, -, hc, h, -⟩ := makeSI_eq (U := U) hm hs.le
  exact ⟨c, (hc hs).ne', h⟩

theorem makeSD1_start : ∃ c : ℝ, c ≠ 0 ∧ DMParticle.makeSD1 U (10 * U.GeV) =
    .ok { standard U (10 * U.GeV) 3 .SD with fp := c, fn := c } := by
  have hm : 0 < 10 * U.GeV := by have := U.GeV_pos; positivity
  have hs : 0 < 1 / 10 ^ 40 * U.cm * U.cm := by have := U.cm_pos; positivity
  have h1 : (0 : ℝ) < (standard U (10 * U.GeV) 3 .SD).prefactor := by simp [standard]
  have h3 : (standard U (10 * U.GeV) 3 .SD).fpRel ≠ 0 := by simp [standard]
  refine ⟨cpl U (standard U (10 * U.GeV) 3 .SD) (1 / 10 ^ 40 * U.cm * U.cm), ?_, ?_⟩
  · have hmu := reducedMass_pos hm U.mProton_pos
    have := Real.pi_pos
    apply ne_of_gt
    simp only [cpl, standard]
    positivity
  · unfold makeSD1 makeSD
    rw [setSigmaProton_fixed h1 hm hs.le rfl h3]
    simp [standard]

theorem relativeCouplings_eq {c : Config} {s : ParticleSettings} (hc : DescribesParticle c s) :
    c.relativeCouplings = .ok (s.fp, s.fn) := by
  unfold Config.relativeCouplings
  rcases hc.couplings with ⟨h, h1, h2⟩ | ⟨h, more, hl⟩
  · rw [Config.getBool_eq h]; simp [h1, h2]
  · rw [Config.getBool_eq h]
    simp [Config.getEntry, Config.lookup, hl, Setting.index, Setting.toDouble]

theorem particleStandard_eq {c : Config} {i : String} : c.particleStandard U i =
    ((if i = "SI" then c.particleSI U else DMParticle.makeSD1 U (10 * U.GeV)) >>= fun p => c.relativeCouplings >>= fun r =>
      p.fixCouplingRatio r.1 r.2 >>= fun p => c.getDouble "DM_cross_section_nucleon" >>= fun s =>
      p.setInteractionParameter U (s * (U.cm * U.cm)) "Nuclei" >>= fun p => c.getDouble "DM_cross_section_electron" >>= fun se =>
      .ok (p.setSigmaElectron (se * (U.cm * U.cm)))) := by
  unfold Config.particleStandard
  dsimp only
  split_ifs <;> rfl

theorem particle_eq {c : Config} : c.particle U =
    (c.getDouble "DM_mass" >>= fun m => c.getDouble "DM_spin" >>= fun spin => c.getDouble "DM_fraction" >>= fun fraction =>
      c.getBool "DM_light" >>= fun light => c.getString "DM_interaction" >>= fun i =>
      (if i = "SI" ∨ i = "SD" then c.particleStandard U i else .exit) >>= fun p => p.setMass U (m * U.GeV) >>= fun p =>
      .ok (((p.setSpin spin).setFractionalDensity fraction).setLowMassMode light)) := by
  unfold Config.particle
  congr 1; funext m; congr 1; funext sp; congr 1; funext fr; congr 1; funext li; congr 1; funext i
  dsimp only
  split_ifs <;> rfl

/-- The object before the couplings are set. -/
theorem particle_start {c : Config} {s : ParticleSettings} (hc : DescribesParticle c s) (hi : AdmissibleInteraction U s) :
    ∃ p, (if s.interaction = "SI" then c.particleSI U else DMParticle.makeSD1 U (10 * U.GeV)) = .ok p ∧ 0 < p.prefactor ∧ 0 < p.mass ∧
      p.fp ≠ 0 ∧ (s.interaction = "SD" → p.interaction = .SD ∧ p.prefactor = 3) ∧
      (s.interaction = "SI" → p.prefactor = 1 ∧ ∃ f m, formFactorOfName s.formFactor = some f ∧
        p.interaction = .SI f (U.aEM * U.mElectron) m ∧ (s.formFactor = "General" → m = s.mediator * U.MeV)) := by
  have hG : 0 < 10 * U.GeV := by have := U.GeV_pos; positivity
  rcases hi with hi | ⟨hi, hff, hmed⟩
  · obtain ⟨x, hx, h⟩ := makeSD1_start (U := U)
    rw [if_neg (by rw [hi]; decide), h]
    refine ⟨_, rfl, by simp [standard], hG, hx, fun _ => ⟨rfl, rfl⟩, fun h => ?_⟩
    rw [hi] at h; exact absurd h (by decide)
  · obtain ⟨x, hx, h⟩ := makeSI1_start (U := U)
    rw [if_pos hi]
    unfold Config.particleSI
    rw [h, Outcome.bind_ok, Config.getString_eq (hc.formFactor hi), Outcome.bind_ok]
    by_cases hg : s.formFactor = "General"
    · have hm := hmed hg
      have hpos : 0 < s.mediator * U.MeV := lt_of_lt_of_le (by positivity) hm
      rw [if_pos hg, Config.getDouble_eq (hc.mediator hi hg), Outcome.bind_ok, if_neg (not_lt.2 hm), Outcome.bind_ok, hg]
      refine ⟨_, by simp [setFormFactorDM, standard, formFactorOfName]; rfl, by simp, hG, hx, fun h => ?_, fun _ => ⟨rfl, .general, _, rfl, rfl, fun _ => ?_⟩⟩
      · rw [hi] at h; exact absurd h (by decide)
      · rw [if_pos hpos]
    · rw [if_neg hg, Outcome.bind_ok]
      have hk : ∃ f, formFactorOfName s.formFactor = some f := by
        simp only [List.mem_cons, List.not_mem_nil, or_false] at hff
        rcases hff with e | e | e | e <;> rw [e] <;> simp [formFactorOfName]
      obtain ⟨f, hf⟩ := hk
      refine ⟨_, by simp only [setFormFactorDM, standard, hf]; rfl, one_pos, hG, hx, fun h => ?_,
        fun _ => ⟨rfl, f, _, hf, rfl, fun h => absurd h hg⟩⟩
      rw [hi] at h; exact absurd h (by decide)

/-- C53. A file with a positive mass, cross sections that are not negative, an admissible interaction and relative couplings whose sum
is not zero gives a particle with
* the configured mass, spin, fraction and mode,
* the configured electron cross section, and the documented form factor in the scattering off electrons,
* couplings in the configured ratio,
* the configured cross sections as interaction parameters,
* the configured nucleon cross section, which is that of the proton if the relative coupling of the proton has the sign of the sum of
  the two, and that of the neutron otherwise.
Missing: relative couplings with sum zero, see `C53_fails_isovector`. -/
theorem C53_particle_partial {c : Config} {s : ParticleSettings} (hc : DescribesParticle c s) (hi : AdmissibleInteraction U s)
    (hm : 0 < s.mass) (hs : 0 ≤ s.sigmaNucleon) (hab : s.fp + s.fn ≠ 0) :
    ∃ p, c.particle U = .ok p ∧ p.mass = s.mass * U.GeV ∧ p.spin = s.spin ∧ p.fractionalDensity = s.fraction ∧ p.lowMass = s.light ∧
      p.sigmaElectron = s.sigmaElectron * U.cm ^ 2 ∧
      (0 < s.fp / (s.fp + s.fn) → p.sigmaProton U = s.sigmaNucleon * U.cm ^ 2) ∧
      (s.fp / (s.fp + s.fn) ≤ 0 → p.sigmaNeutron U = s.sigmaNucleon * U.cm ^ 2) ∧
      p.fp * s.fn = p.fn * s.fp ∧
      (s.interaction = "SD" → p.interaction = .SD ∧
        ∀ q v, p.dSigmadq2Electron U q v = s.sigmaElectron * U.cm ^ 2 / (2 * reducedMass (s.mass * U.GeV) U.mElectron * v) ^ 2) ∧
      (s.interaction = "SI" → p.interaction ≠ .SD ∧ ∀ q, ∃ F,
        documentedFormFactor2 (U.aEM * U.mElectron) (s.mediator * U.MeV) q s.formFactor = some F ∧
        ∀ v, p.dSigmadq2Electron U q v = s.sigmaElectron * U.cm ^ 2 / (2 * reducedMass (s.mass * U.GeV) U.mElectron * v) ^ 2 * F) ∧
      p.getInteractionParameter U "Nuclei" = .ok (s.sigmaNucleon * U.cm ^ 2) ∧
      p.getInteractionParameter U "Electrons" = .ok (s.sigmaElectron * U.cm ^ 2) := by
  obtain ⟨p0, h0, hpre, hmass, hfp, hSD, hSI⟩ := particle_start hc hi
  have hcm := U.cm_pos
  have hs' : 0 ≤ s.sigmaNucleon * (U.cm * U.cm) := by positivity
  have hm' : 0 < s.mass * U.GeV := mul_pos hm U.GeV_pos
  obtain ⟨p1, p2, p3, h1, h2, h3, e1, e2, e3, e4, e5, e6, e7, e8, e9⟩ :=
    coupling_calls (U := U) (se := s.sigmaElectron * (U.cm * U.cm)) hpre hmass hfp hab hs' hm'
  have hint : s.interaction = "SI" ∨ s.interaction = "SD" := by
    rcases hi with h | ⟨h, -⟩
    · exact .inr h
    · exact .inl h
  have hstd : c.particleStandard U s.interaction = .ok (p2.setSigmaElectron (s.sigmaElectron * (U.cm * U.cm))) := by
    rw [particleStandard_eq, h0, Outcome.bind_ok, relativeCouplings_eq hc, Outcome.bind_ok]
    rw [h1, Outcome.bind_ok, Config.getDouble_eq hc.sigmaNucleon, Outcome.bind_ok, h2, Outcome.bind_ok,
      Config.getDouble_eq hc.sigmaElectron, Outcome.bind_ok]
  have hp : c.particle U = .ok (((p3.setSpin s.spin).setFractionalDensity s.fraction).setLowMassMode s.light) := by
    unfold Config.particle
    rw [Config.getDouble_eq hc.mass, Outcome.bind_ok, Config.getDouble_eq hc.spin, Outcome.bind_ok, Config.getDouble_eq hc.fraction,
      Outcome.bind_ok, Config.getBool_eq hc.light, Outcome.bind_ok, Config.getString_eq hc.interaction, Outcome.bind_ok, if_pos hint, hstd,
      Outcome.bind_ok]
    dsimp only
    rw [h3, Outcome.bind_ok]
  have sq : ∀ x : ℝ, x * (U.cm * U.cm) = x * U.cm ^ 2 := fun x => by ring
  have e3' : p3.sigmaElectronRef = s.sigmaElectron * U.cm ^ 2 := by rw [← sq]; exact e3
  refine ⟨_, hp, e1, rfl, rfl, rfl, e3', fun h => (e4 h).trans (sq _), fun h => (e5 (not_lt.2 h)).trans (sq _), e6, fun h => ?_,
    fun h => ?_, ?_, ?_⟩
  rotate_left 2
  · have hrel := coupling_calls_ratio h1 h2 h3
    unfold getInteractionParameter
    rw [if_pos rfl]
    show (if 0 < p3.fpRel then _ else _) = _
    rw [hrel]
    split_ifs with h
    · exact congrArg _ ((e4 h).trans (sq _))
    · exact congrArg _ ((e5 h).trans (sq _))
  · unfold getInteractionParameter
    rw [if_neg (by decide), if_pos rfl]
    exact congrArg _ e3'
  · have hI : p3.interaction = .SD := e2.trans (hSD h).1
    refine ⟨hI, fun q v => ?_⟩
    simp only [dSigmadq2Electron, setLowMassMode, setFractionalDensity, setSpin, hI, e3', e1]
  · obtain ⟨-, f, m, hf, hI, hg⟩ := hSI h
    have hI' : p3.interaction = .SI f (U.aEM * U.mElectron) m := e2.trans hI
    refine ⟨by simp [setLowMassMode, setFractionalDensity, setSpin, hI'], fun q => ?_⟩
    have key : ∀ v, (((p3.setSpin s.spin).setFractionalDensity s.fraction).setLowMassMode s.light).dSigmadq2Electron U q v =
        s.sigmaElectron * U.cm ^ 2 / (2 * reducedMass (s.mass * U.GeV) U.mElectron * v) ^ 2 *
          formFactor2 f (U.aEM * U.mElectron) m q := by
      intro v
      simp only [dSigmadq2Electron, setLowMassMode, setFractionalDensity, setSpin, hI', e3', e1]
    refine ⟨formFactor2 f (U.aEM * U.mElectron) m q, ?_, key⟩
    rcases hi with h' | ⟨-, hff, -⟩
    · rw [h'] at h; exact absurd h (by decide)
    simp only [List.mem_cons, List.not_mem_nil, or_false] at hff
    rcases hff with e | e | e | e
    · rw [e] at hf ⊢; simp [formFactorOfName] at hf; subst hf; simp [documentedFormFactor2, formFactor2]
    · rw [e] at hf ⊢; simp [formFactorOfName] at hf; subst hf
      simp only [documentedFormFactor2, formFactor2]
      rw [if_neg (by decide), if_pos trivial]; congr 1; ring
    · rw [e] at hf ⊢; simp [formFactorOfName] at hf; subst hf
      simp only [documentedFormFactor2, formFactor2]
      rw [if_neg (by decide), if_neg (by decide), if_pos trivial]; congr 1; ring
    · have hm := hg e
      rw [e] at hf ⊢; simp [formFactorOfName] at hf; subst hf
      simp only [documentedFormFactor2, formFactor2]
      rw [if_neg (by decide), if_neg (by decide), if_neg (by decide), if_pos trivial, hm]; congr 1; ring

/-- C53 (violated for isovector couplings). Relative couplings with sum zero — a legitimate model, equal and opposite couplings — do
not give a particle with finite couplings. -/
theorem C53_fails_isovector {c : Config} {s : ParticleSettings} (hc : DescribesParticle c s) (hi : AdmissibleInteraction U s)
    (hab : s.fp + s.fn = 0) : c.particle U = .nonfinite := by
  obtain ⟨p0, h0, -⟩ := particle_start (U := U) hc hi
  have hint : s.interaction = "SI" ∨ s.interaction = "SD" := by
    rcases hi with h | ⟨h, -⟩
    · exact .inr h
    · exact .inl h
  have hstd : c.particleStandard U s.interaction = .nonfinite := by
    rw [particleStandard_eq, h0, Outcome.bind_ok, relativeCouplings_eq hc, Outcome.bind_ok]
    simp [fixCouplingRatio, hab, fdiv_zero]
  unfold Config.particle
  rw [Config.getDouble_eq hc.mass, Outcome.bind_ok, Config.getDouble_eq hc.spin, Outcome.bind_ok, Config.getDouble_eq hc.fraction,
    Outcome.bind_ok, Config.getBool_eq hc.light, Outcome.bind_ok, Config.getString_eq hc.interaction, Outcome.bind_ok, if_pos hint, hstd]
  rfl

/-- C53 (missing settings). Without one of the settings that are always needed no particle is built; without one of the first five
the program stops. -/
theorem C53_missing_setting {c : Config} {n : String} (hn : n ∈ particleKeys) (h : c n = none) :
    (∀ p, c.particle U ≠ .ok p) ∧ (n ∈ particleKeys.take 5 → c.particle U = .exit) := by
  have get : ∀ {α : Type} (f : Setting → Outcome α), (c.lookup n >>= f) = .exit := by
    intro α f; simp [Config.lookup, h]
  simp only [particleKeys, List.mem_cons, List.not_mem_nil, or_false] at hn
  have first : n ∈ particleKeys.take 5 → c.particle U = .exit := by
    intro hn
    have dbl : ∀ m, (∃ x, c.getDouble m = .ok x) ∨ c.getDouble m = .exit := by
      intro m
      unfold Config.getDouble Config.lookup
      rcases c m with _ | s
      · exact .inr rfl
      · cases s <;> simp [Setting.toDouble]
    have bl : ∀ m, (∃ x, c.getBool m = .ok x) ∨ c.getBool m = .exit := by
      intro m
      unfold Config.getBool Config.lookup
      rcases c m with _ | s
      · exact .inr rfl
      · cases s <;> simp [Setting.toBool]
    simp only [particleKeys, List.take_succ_cons, List.take_zero, List.mem_cons, List.not_mem_nil, or_false] at hn
    unfold Config.particle
    have kd : c.getDouble n = .exit := get _
    have kb : c.getBool n = .exit := get _
    have ks : c.getString n = .exit := get _
    rcases hn with rfl | rfl | rfl | rfl | rfl
    · rw [kd]; rfl
    · rcases dbl "DM_mass" with ⟨x, hx⟩ | hx <;> rw [hx]
      · rw [Outcome.bind_ok, kd]; rfl
      · rfl
    · rcases dbl "DM_mass" with ⟨x, hx⟩ | hx <;> rw [hx]
      · rw [Outcome.bind_ok]
        rcases dbl "DM_spin" with ⟨x, hx⟩ | hx <;> rw [hx]
        · rw [Outcome.bind_ok, kd]; rfl
        · rfl
      · rfl
    · rcases dbl "DM_mass" with ⟨x, hx⟩ | hx <;> rw [hx]
      · rw [Outcome.bind_ok]
        rcases dbl "DM_spin" with ⟨x, hx⟩ | hx <;> rw [hx]
        · rw [Outcome.bind_ok]
          rcases dbl "DM_fraction" with ⟨x, hx⟩ | hx <;> rw [hx]
          · rw [Outcome.bind_ok, kb]; rfl
          · rfl
        · rfl
      · rfl
    · rcases dbl "DM_mass" with ⟨x, hx⟩ | hx <;> rw [hx]
      · rw [Outcome.bind_ok]
        rcases dbl "DM_spin" with ⟨x, hx⟩ | hx <;> rw [hx]
        · rw [Outcome.bind_ok]
          rcases dbl "DM_fraction" with ⟨x, hx⟩ | hx <;> rw [hx]
          · rw [Outcome.bind_ok]
            rcases bl "DM_light" with ⟨x, hx⟩ | hx <;> rw [hx]
            · rw [Outcome.bind_ok, ks]; rfl
            · rfl
          · rfl
        · rfl
      · rfl
  refine ⟨?_, first⟩
  intro p hp
  have late : n = "DM_isospin_conserved" ∨ n = "DM_cross_section_nucleon" ∨ n = "DM_cross_section_electron" → False := by
    intro hl
    rw [particle_eq] at hp
    obtain ⟨m, -, hp⟩ := Outcome.bind_eq_ok.1 hp
    obtain ⟨sp, -, hp⟩ := Outcome.bind_eq_ok.1 hp
    obtain ⟨fr, -, hp⟩ := Outcome.bind_eq_ok.1 hp
    obtain ⟨li, -, hp⟩ := Outcome.bind_eq_ok.1 hp
    obtain ⟨i, -, hp⟩ := Outcome.bind_eq_ok.1 hp
    obtain ⟨p', hs, -⟩ := Outcome.bind_eq_ok.1 hp
    split_ifs at hs with h1
    rw [particleStandard_eq] at hs
    obtain ⟨p0, -, hs⟩ := Outcome.bind_eq_ok.1 hs
    obtain ⟨⟨a, b⟩, hr, hs⟩ := Outcome.bind_eq_ok.1 hs
    obtain ⟨p1, -, hs⟩ := Outcome.bind_eq_ok.1 hs
    obtain ⟨x, hx, hs⟩ := Outcome.bind_eq_ok.1 hs
    obtain ⟨p2, -, hs⟩ := Outcome.bind_eq_ok.1 hs
    obtain ⟨y, hy, hs⟩ := Outcome.bind_eq_ok.1 hs
    have kd : c.getDouble n = .exit := get _
    have kb : c.getBool n = .exit := get _
    rcases hl with rfl | rfl | rfl
    · unfold Config.relativeCouplings at hr
      rw [kb] at hr; cases hr
    · rw [kd] at hx; cases hx
    · rw [kd] at hy; cases hy
  have hex : n ∈ particleKeys.take 5 → False := fun hn => by rw [first hn] at hp; cases hp
  rcases hn with e | e | e | e | e | e | e | e
  · exact hex (by rw [e]; simp [particleKeys])
  · exact hex (by rw [e]; simp [particleKeys])
  · exact hex (by rw [e]; simp [particleKeys])
  · exact hex (by rw [e]; simp [particleKeys])
  · exact hex (by rw [e]; simp [particleKeys])
  · exact late (.inl e)
  · exact late (.inr (.inl e))
  · exact late (.inr (.inr e))

theorem couplingOf_negative {p : DMParticle} {s : ℝ} (hp : 0 < p.prefactor) (hs : s < 0) : p.couplingOf U s = .nonfinite := by
  unfold couplingOf
  rw [fdiv_ok hp.ne', Outcome.bind_ok]
  have : Real.pi * s / p.prefactor < 0 := div_neg_of_neg_of_pos (mul_neg_of_pos_of_neg Real.pi_pos hs) hp
  simp [fsqrt, this]

theorem couplingOf_massless {p : DMParticle} {s : ℝ} (hp : 0 < p.prefactor) (hs : 0 ≤ s) (hm : p.mass = 0) :
    p.couplingOf U s = .nonfinite := by
  unfold couplingOf
  have : 0 ≤ Real.pi * s / p.prefactor := by have := Real.pi_pos; positivity
  rw [fdiv_ok hp.ne', Outcome.bind_ok, fsqrt_ok this, Outcome.bind_ok, hm]
  simp [reducedMass, fdiv]

theorem setMass_massless {p : DMParticle} (hp : 0 < p.prefactor) (hf : p.fixedRelation = true) (sum : p.fpRel + p.fnRel = 1) :
    p.setMass U 0 = .nonfinite := by
  unfold setMass
  rw [if_pos hf]
  by_cases hr : p.fpRel = 0
  · rw [if_neg (not_not.2 hr)]
    unfold setSigmaNeutron
    dsimp only
    rw [if_pos hf, if_neg (by linarith), couplingOf_massless (by exact hp) (sigmaNeutron_nonneg (U := U) hp) rfl]
    rfl
  · rw [if_pos hr]
    unfold setSigmaProton
    dsimp only
    rw [if_pos hf, if_neg hr, couplingOf_massless (by exact hp) (sigmaProton_nonneg (U := U) hp) rfl]
    rfl

theorem setInteractionParameter_flags {p q : DMParticle} {s : ℝ} (h : p.setInteractionParameter U s "Nuclei" = .ok q) :
    q.fixedRelation = p.fixedRelation ∧ q.fpRel = p.fpRel ∧ q.fnRel = p.fnRel ∧ q.prefactor = p.prefactor := by
  unfold setInteractionParameter at h
  rw [if_pos rfl] at h
  unfold setSigmaProton setSigmaNeutron at h
  split_ifs at h
  all_goals first
    | (obtain ⟨x, -, h⟩ := Outcome.bind_eq_ok.1 h; obtain ⟨y, -, h⟩ := Outcome.bind_eq_ok.1 h; cases h; simp)
    | (obtain ⟨x, -, h⟩ := Outcome.bind_eq_ok.1 h; cases h; simp)
    | (cases h; simp)

/-- C53 (cases without a particle). With couplings that can be normalised, a negative nucleon cross section gives no finite coupling,
and neither does the mass zero. -/
theorem C53_invalid_values {c : Config} {s : ParticleSettings} (hc : DescribesParticle c s) (hi : AdmissibleInteraction U s)
    (hab : s.fp + s.fn ≠ 0) (h : s.sigmaNucleon < 0 ∨ s.mass = 0) : c.particle U = .nonfinite := by
  obtain ⟨p0, h0, hpre, hmass, hfp, -, -⟩ := particle_start (U := U) hc hi
  have hint : s.interaction = "SI" ∨ s.interaction = "SD" := by
    rcases hi with h | ⟨h, -⟩
    · exact .inr h
    · exact .inl h
  obtain ⟨x, y, h1⟩ := fixCouplingRatio_ok (p := p0) hab hfp
  generalize hp1 : ({ p0 with fixedRelation := true, fpRel := s.fp / (s.fp + s.fn), fnRel := s.fn / (s.fp + s.fn), fp := x, fn := y } :
    DMParticle) = p1 at h1
  have e1 : p1.prefactor = p0.prefactor := by rw [← hp1]
  have e3 : p1.fixedRelation = true := by rw [← hp1]
  have e4 : p1.fpRel = s.fp / (s.fp + s.fn) := by rw [← hp1]
  have e5 : p1.fnRel = s.fn / (s.fp + s.fn) := by rw [← hp1]
  have sum : p1.fpRel + p1.fnRel = 1 := by rw [e4, e5]; field_simp
  have hcm := U.cm_pos
  rw [particle_eq]
  rw [Config.getDouble_eq hc.mass, Outcome.bind_ok, Config.getDouble_eq hc.spin, Outcome.bind_ok, Config.getDouble_eq hc.fraction,
    Outcome.bind_ok, Config.getBool_eq hc.light, Outcome.bind_ok, Config.getString_eq hc.interaction, Outcome.bind_ok, if_pos hint,
    particleStandard_eq, h0, Outcome.bind_ok, relativeCouplings_eq hc, Outcome.bind_ok, h1, Outcome.bind_ok,
    Config.getDouble_eq hc.sigmaNucleon, Outcome.bind_ok, Config.getDouble_eq hc.sigmaElectron]
  simp only [Outcome.bind_ok]
  by_cases hs : s.sigmaNucleon < 0
  · have hneg : s.sigmaNucleon * (U.cm * U.cm) < 0 := mul_neg_of_neg_of_pos hs (by positivity)
    have : p1.setInteractionParameter U (s.sigmaNucleon * (U.cm * U.cm)) "Nuclei" = .nonfinite := by
      unfold setInteractionParameter
      rw [if_pos rfl]
      by_cases hr : 0 < p1.fpRel
      · rw [if_pos hr]; unfold setSigmaProton
        rw [if_pos e3, if_neg hr.ne', couplingOf_negative (e1 ▸ hpre) hneg]; rfl
      · rw [if_neg hr]; unfold setSigmaNeutron
        rw [if_pos e3, if_neg (by linarith), couplingOf_negative (e1 ▸ hpre) hneg]; rfl
    rw [this]; rfl
  · have hm : s.mass = 0 := h.resolve_left hs
    have hs' : 0 ≤ s.sigmaNucleon * (U.cm * U.cm) := by have := not_lt.1 hs; positivity
    obtain ⟨q1, q2, -, g1, g2, -⟩ := coupling_calls (U := U) (se := 0) (m := 1) hpre hmass hfp hab hs' one_pos
    rw [h1] at g1; cases g1
    obtain ⟨f1, f2, f3, f4⟩ := setInteractionParameter_flags g2
    have hq : 0 < q2.prefactor := by rw [f4, e1]; exact hpre
    rw [g2, Outcome.bind_ok, Outcome.bind_ok, hm, zero_mul]
    have : (q2.setSigmaElectron (s.sigmaElectron * (U.cm * U.cm))).setMass U 0 = .nonfinite :=
      setMass_massless hq (f1.trans e3) (by show q2.fpRel + q2.fnRel = 1; rw [f2, f3, sum])
    rw [this]; rfl

/-- C53 (unknown words). The program stops for an interaction other than "SI" and "SD", for an unknown form factor, and for a
mediator without mass. -/
theorem C53_unknown_words {c : Config} {s : ParticleSettings} (hc : DescribesParticle c s) (hi : ¬ AdmissibleInteraction U s) :
    c.particle U = .exit := by
  rw [particle_eq]
  rw [Config.getDouble_eq hc.mass, Outcome.bind_ok, Config.getDouble_eq hc.spin, Outcome.bind_ok, Config.getDouble_eq hc.fraction,
    Outcome.bind_ok, Config.getBool_eq hc.light, Outcome.bind_ok, Config.getString_eq hc.interaction, Outcome.bind_ok]
  simp only [AdmissibleInteraction, not_or, not_and, not_forall] at hi
  by_cases hSI : s.interaction = "SI"
  · rw [if_pos (.inl hSI), particleStandard_eq, if_pos hSI]
    obtain ⟨x, hx, h⟩ := makeSI1_start (U := U)
    have : c.particleSI U = .exit := by
      unfold Config.particleSI
      rw [h, Outcome.bind_ok, Config.getString_eq (hc.formFactor hSI), Outcome.bind_ok]
      by_cases hff : s.formFactor ∈ ["Contact", "Electric-Dipole", "Long-Range", "General"]
      · obtain ⟨hg, hm⟩ := hi.2 hSI hff
        rw [if_pos hg, Config.getDouble_eq (hc.mediator hSI hg), Outcome.bind_ok, if_pos (not_le.1 hm)]
        rfl
      · simp only [List.mem_cons, List.not_mem_nil, or_false, not_or] at hff
        rw [if_neg hff.2.2.2, Outcome.bind_ok]
        simp [setFormFactorDM, standard, formFactorOfName, hff]
    rw [this]; rfl
  · rw [if_neg (by rintro (h | h); exacts [hSI h, hi.1 h])]; rfl

/-- The particle of the example file `bin/config.cfg`, with another mediator. -/
noncomputable def sampleParticleSettings : ParticleSettings :=
  { mass := 100, spin := 1 / 2, fraction := 1, light := true, interaction := "SI", formFactor := "General", mediator := 2, fp := 1,
    fn := -1 / 2, sigmaNucleon := 1 / 10 ^ 36, sigmaElectron := 1 / 10 ^ 36 }

/-- The parsed text of these settings. -/
def sampleConfig (s : ParticleSettings) : Config := fun n =>
  if n = "DM_mass" then some (.float s.mass) else if n = "DM_spin" then some (.float s.spin)
  else if n = "DM_fraction" then some (.float s.fraction) else if n = "DM_light" then some (.bool s.light)
  else if n = "DM_interaction" then some (.string s.interaction) else if n = "DM_form_factor" then some (.string s.formFactor)
  else if n = "DM_mediator_mass" then some (.float s.mediator) else if n = "DM_isospin_conserved" then some (.bool false)
  else if n = "DM_relative_couplings" then some (.list [.float s.fp, .float s.fn])
  else if n = "DM_cross_section_nucleon" then some (.float s.sigmaNucleon)
  else if n = "DM_cross_section_electron" then some (.float s.sigmaElectron) else none

theorem sampleConfig_describes (s : ParticleSettings) : DescribesParticle (sampleConfig s) s := by
  constructor <;> simp [sampleConfig]

/-- A file with every hypothesis of `C53_particle_partial`, with couplings of opposite sign. -/
example : ∃ p, (sampleConfig sampleParticleSettings).particle Units.sample = .ok p ∧
    p.sigmaProton Units.sample = 1 / 10 ^ 36 * Units.sample.cm ^ 2 ∧ p.fp * (-1 / 2) = p.fn * 1 := by
  obtain ⟨p, h, -, -, -, -, -, h1, -, h2, -⟩ := C53_particle_partial (U := Units.sample) (sampleConfig_describes sampleParticleSettings)
    (.inr ⟨rfl, by simp [sampleParticleSettings], fun _ => by
      norm_num [sampleParticleSettings, Units.sample, Units.MeV]⟩) (by norm_num [sampleParticleSettings])
    (by norm_num [sampleParticleSettings]) (by norm_num [sampleParticleSettings])
  exact ⟨p, h, h1 (by norm_num [sampleParticleSettings]), h2⟩

/-- Equal and opposite couplings. -/
example : (sampleConfig { sampleParticleSettings with fn := -1, interaction := "SD" }).particle Units.sample = .nonfinite :=
  C53_fails_isovector (sampleConfig_describes _) (.inl rfl) (by norm_num [sampleParticleSettings])

/-- A misspelt form factor. -/
example : (sampleConfig { sampleParticleSettings with formFactor := "contact" }).particle Units.sample = .exit :=
  C53_unknown_words (sampleConfig_describes _) (by simp [AdmissibleInteraction, sampleParticleSettings])

/-- A file without the settings of the particle. -/
example : Config.particle Units.sample (fun _ => none) = .exit :=
  (C53_missing_setting (c := fun _ => none) (n := "DM_light") (by simp [particleKeys]) rfl).2 (by simp [particleKeys])

end Obscura
