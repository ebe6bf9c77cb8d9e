import Verif.Spec.Configuration
import Verif.Lemmas.Particle

/-!
# Helpers for configuration files
-/

namespace Obscura

open DMParticle

variable {U : Units}

theorem Config.getDouble_eq {c : Config} {n : String} {x : ℝ} (h : c n = some (.float x)) : c.getDouble n = .ok x := by
  simp [Config.getDouble, Config.lookup, h, Setting.toDouble]

theorem Config.getUInt_eq {c : Config} {n : String} {k : ℤ} (h : c n = some (.int k)) : c.getUInt n = .ok k.toNat := by
  simp [Config.getUInt, Config.lookup, h, Setting.toUInt]

theorem Config.getBool_eq {c : Config} {n : String} {b : Bool} (h : c n = some (.bool b)) : c.getBool n = .ok b := by
  simp [Config.getBool, Config.lookup, h, Setting.toBool]

theorem Config.getString_eq {c : Config} {n : String} {s : String} (h : c n = some (.string s)) : c.getString n = .ok s := by
  simp [Config.getString, Config.lookup, h, Setting.toStr]

theorem sigmaNeutron_of_ratio {p : DMParticle} {r : ℝ} (h : p.fn = r * p.fp) : p.sigmaNeutron U = r ^ 2 * p.sigmaProton U := by
  unfold sigmaNeutron sigmaProton; rw [h]; ring

theorem sigmaProton_of_cpl {p q : DMParticle} {s : ℝ} (hp : 0 < q.prefactor) (hm : 0 < q.mass) (hs : 0 ≤ s)
    (h1 : p.prefactor = q.prefactor) (h2 : p.mass = q.mass) (h3 : p.fp = cpl U q s) : p.sigmaProton U = s := by
  unfold sigmaProton; rw [h1, h2, h3]; exact cpl_sq hp hm hs

theorem sigmaNeutron_of_cpl {p q : DMParticle} {s : ℝ} (hp : 0 < q.prefactor) (hm : 0 < q.mass) (hs : 0 ≤ s)
    (h1 : p.prefactor = q.prefactor) (h2 : p.mass = q.mass) (h3 : p.fn = cpl U q s) : p.sigmaNeutron U = s := by
  unfold sigmaNeutron; rw [h1, h2, h3]; exact cpl_sq hp hm hs

theorem fixCouplingRatio_ok {p : DMParticle} {a b : ℝ} (hab : a + b ≠ 0) (hf : p.fp ≠ 0) :
    ∃ x y, p.fixCouplingRatio a b =
      .ok { p with fixedRelation := true, fpRel := a / (a + b), fnRel := b / (a + b), fp := x, fn := y } := by
  unfold fixCouplingRatio
  rw [fdiv_ok hab, fdiv_ok hab]
  simp only [Outcome.bind_ok]
  by_cases ha : a = 0
  · rw [if_pos ha]; exact ⟨_, _, rfl⟩
  rw [if_neg ha]
  by_cases hb : b = 0
  · rw [if_pos hb]; exact ⟨_, _, rfl⟩
  rw [if_neg hb, if_pos hf, fdiv_ok (div_ne_zero ha hab)]
  exact ⟨_, _, rfl⟩

/-- The mass is set after the couplings, proton coupling not excluded. -/
theorem setMass_keep_p {p : DMParticle} {m : ℝ} (hp : 0 < p.prefactor) (hm : 0 < m) (hf : p.fixedRelation = true) (hr : p.fpRel ≠ 0) :
    ∃ q, p.setMass U m = .ok q ∧ q.mass = m ∧ q.sigmaProton U = p.sigmaProton U ∧ q.fn = p.fnRel / p.fpRel * q.fp ∧
      q.interaction = p.interaction ∧ q.sigmaElectronRef = p.sigmaElectronRef ∧ q.prefactor = p.prefactor ∧
      q.usingCrossSection = p.usingCrossSection ∧ q.useEtaFunction = p.useEtaFunction := by
  refine ⟨_, setMass_fixed_p hp hm hf hr, rfl, ?_, rfl, rfl, rfl, rfl, rfl, rfl⟩
  exact sigmaProton_of_cpl (U := U) (q := { p with mass := m }) hp hm (sigmaProton_nonneg (U := U) hp) rfl rfl rfl

/-- The mass is set after the couplings, proton coupling excluded. -/
theorem setMass_keep_n {p : DMParticle} {m : ℝ} (hp : 0 < p.prefactor) (hm : 0 < m) (hf : p.fixedRelation = true) (hr : p.fpRel = 0)
    (hn : p.fnRel ≠ 0) :
    ∃ q, p.setMass U m = .ok q ∧ q.mass = m ∧ q.sigmaNeutron U = p.sigmaNeutron U ∧ q.fp = p.fpRel / p.fnRel * q.fn ∧
      q.interaction = p.interaction ∧ q.sigmaElectronRef = p.sigmaElectronRef ∧ q.prefactor = p.prefactor ∧
      q.usingCrossSection = p.usingCrossSection ∧ q.useEtaFunction = p.useEtaFunction := by
  refine ⟨_, setMass_fixed_n hp hm hf hr hn, rfl, ?_, rfl, rfl, rfl, rfl, rfl, rfl⟩
  exact sigmaNeutron_of_cpl (U := U) (q := { p with mass := m }) hp hm (sigmaNeutron_nonneg (U := U) hp) rfl rfl rfl

/-- The calls made for the couplings, in the order of the code: ratio, nucleon cross section, electron cross section, mass. -/
theorem coupling_calls {p : DMParticle} {a b s se m : ℝ} (hpre : 0 < p.prefactor) (hp : 0 < p.mass) (hf : p.fp ≠ 0) (hab : a + b ≠ 0)
    (hs : 0 ≤ s) (hm : 0 < m) :
    ∃ p1 p2 p3, p.fixCouplingRatio a b = .ok p1 ∧ p1.setInteractionParameter U s "Nuclei" = .ok p2 ∧
      (p2.setSigmaElectron se).setMass U m = .ok p3 ∧ p3.mass = m ∧ p3.interaction = p.interaction ∧ p3.sigmaElectron = se ∧
      (0 < a / (a + b) → p3.sigmaProton U = s) ∧ (¬ 0 < a / (a + b) → p3.sigmaNeutron U = s) ∧ p3.fp * b = p3.fn * a ∧
      p3.prefactor = p.prefactor ∧ p3.usingCrossSection = p.usingCrossSection ∧ p3.useEtaFunction = p.useEtaFunction := by
  obtain ⟨x, y, h1⟩ := fixCouplingRatio_ok (p := p) hab hf
  rw [h1]
  generalize hp1 : ({ p with fixedRelation := true, fpRel := a / (a + b), fnRel := b / (a + b), fp := x, fn := y } : DMParticle) = p1
  refine ⟨p1, ?_⟩
  have e1 : p1.prefactor = p.prefactor := by rw [← hp1]
  have e2 : p1.mass = p.mass := by rw [← hp1]
  have e3 : p1.fixedRelation = true := by rw [← hp1]
  have e4 : p1.fpRel = a / (a + b) := by rw [← hp1]
  have e5 : p1.fnRel = b / (a + b) := by rw [← hp1]
  have e6 : p1.interaction = p.interaction := by rw [← hp1]
  have e7 : p1.usingCrossSection = p.usingCrossSection := by rw [← hp1]
  have e8 : p1.useEtaFunction = p.useEtaFunction := by rw [← hp1]
  have k1 : 0 < p1.prefactor := by rw [e1]; exact hpre
  have k2 : 0 < p1.mass := by rw [e2]; exact hp
  by_cases hpos : 0 < a / (a + b)
  · have hne : p1.fpRel ≠ 0 := by rw [e4]; exact hpos.ne'
    have ha : a ≠ 0 := by rintro rfl; simp at hpos
    have h2 : p1.setInteractionParameter U s "Nuclei" = .ok { p1 with fp := cpl U p1 s, fn := p1.fnRel / p1.fpRel * cpl U p1 s } := by
      unfold setInteractionParameter
      rw [if_pos rfl, if_pos (by rw [e4]; exact hpos), setSigmaProton_fixed (U := U) k1 k2 hs e3 hne]
    obtain ⟨q, q1, q2, q3, q4, q5, q6, q7, q8, q9⟩ := setMass_keep_p (U := U) (m := m)
      (p := ({ p1 with fp := cpl U p1 s, fn := p1.fnRel / p1.fpRel * cpl U p1 s } : DMParticle).setSigmaElectron se) k1 hm e3 hne
    refine ⟨_, q, rfl, h2, q1, q2, q5.trans e6, q6, fun _ => q3.trans ?_, fun h => absurd hpos h, ?_, q7.trans e1, q8.trans e7,
      q9.trans e8⟩
    · exact sigmaProton_of_cpl (U := U) k1 k2 hs rfl rfl rfl
    · rw [q4]
      simp only [setSigmaElectron]
      rw [e4, e5]
      field_simp
  · have hn : p1.fnRel ≠ 0 := by
      rw [e5]; intro h
      have hb : b = 0 := by
        rcases div_eq_zero_iff.1 h with h | h
        · exact h
        · exact absurd h hab
      subst hb
      rw [add_zero] at hab hpos
      rw [div_self hab] at hpos
      exact hpos one_pos
    have hb : b ≠ 0 := by rintro rfl; rw [e5] at hn; simp at hn
    have h2 : p1.setInteractionParameter U s "Nuclei" = .ok { p1 with fn := cpl U p1 s, fp := p1.fpRel / p1.fnRel * cpl U p1 s } := by
      unfold setInteractionParameter
      rw [if_pos rfl, if_neg (by rw [e4]; exact hpos), setSigmaNeutron_fixed (U := U) k1 k2 hs e3 hn]
    have hsn : (({ p1 with fn := cpl U p1 s, fp := p1.fpRel / p1.fnRel * cpl U p1 s } : DMParticle).setSigmaElectron se).sigmaNeutron U
        = s := sigmaNeutron_of_cpl (U := U) k1 k2 hs rfl rfl rfl
    by_cases hz : p1.fpRel = 0
    · obtain ⟨q, q1, q2, q3, q4, q5, q6, q7, q8, q9⟩ := setMass_keep_n (U := U) (m := m)
        (p := ({ p1 with fn := cpl U p1 s, fp := p1.fpRel / p1.fnRel * cpl U p1 s } : DMParticle).setSigmaElectron se) k1 hm e3 hz hn
      refine ⟨_, q, rfl, h2, q1, q2, q5.trans e6, q6, fun h => absurd h hpos, fun _ => q3.trans hsn, ?_, q7.trans e1, q8.trans e7,
        q9.trans e8⟩
      rw [q4]
      simp only [setSigmaElectron]
      rw [e4, e5]
      field_simp
    · have ha : a ≠ 0 := by rintro rfl; rw [e4] at hz; simp at hz
      obtain ⟨q, q1, q2, q3, q4, q5, q6, q7, q8, q9⟩ := setMass_keep_p (U := U) (m := m)
        (p := ({ p1 with fn := cpl U p1 s, fp := p1.fpRel / p1.fnRel * cpl U p1 s } : DMParticle).setSigmaElectron se) k1 hm e3 hz
      refine ⟨_, q, rfl, h2, q1, q2, q5.trans e6, q6, fun h => absurd h hpos, fun _ => ?_, ?_, q7.trans e1, q8.trans e7, q9.trans e8⟩
      · rw [sigmaNeutron_of_ratio q4, q3, ← sigmaNeutron_of_ratio]
        · exact hsn
        · simp only [setSigmaElectron]
          field_simp
      · rw [q4]
        simp only [setSigmaElectron]
        rw [e4, e5]
        field_simp

/-! ## Members that calls do not change -/

/-- A call changes neither the configured ratio of the couplings nor the members that belong to neither mass nor couplings. -/
structure SameSettings (p p' : DMParticle) : Prop where
  ratio : p'.fpRel = p.fpRel
  electrons : p'.sigmaElectronRef = p.sigmaElectronRef
  fraction : p'.fractionalDensity = p.fractionalDensity
  interaction : p'.interaction = p.interaction

theorem setSigmaProton_same {p p' : DMParticle} {s : ℝ} (h : p.setSigmaProton U s = .ok p') :
    SameSettings p p' ∧ p'.mass = p.mass := by
  unfold setSigmaProton at h
  split_ifs at h
  · cases h; exact ⟨⟨rfl, rfl, rfl, rfl⟩, rfl⟩
  · obtain ⟨_, -, h⟩ := Outcome.bind_eq_ok.1 h
    obtain ⟨_, -, h⟩ := Outcome.bind_eq_ok.1 h
    cases h; exact ⟨⟨rfl, rfl, rfl, rfl⟩, rfl⟩
  · obtain ⟨_, -, h⟩ := Outcome.bind_eq_ok.1 h
    cases h; exact ⟨⟨rfl, rfl, rfl, rfl⟩, rfl⟩

theorem setSigmaNeutron_same {p p' : DMParticle} {s : ℝ} (h : p.setSigmaNeutron U s = .ok p') :
    SameSettings p p' ∧ p'.mass = p.mass := by
  unfold setSigmaNeutron at h
  split_ifs at h
  · cases h; exact ⟨⟨rfl, rfl, rfl, rfl⟩, rfl⟩
  · obtain ⟨_, -, h⟩ := Outcome.bind_eq_ok.1 h
    obtain ⟨_, -, h⟩ := Outcome.bind_eq_ok.1 h
    cases h; exact ⟨⟨rfl, rfl, rfl, rfl⟩, rfl⟩
  · obtain ⟨_, -, h⟩ := Outcome.bind_eq_ok.1 h
    cases h; exact ⟨⟨rfl, rfl, rfl, rfl⟩, rfl⟩

theorem setMass_same {p p' : DMParticle} {m : ℝ} (h : p.setMass U m = .ok p') : SameSettings p p' ∧ p'.mass = m := by
  unfold setMass at h
  split_ifs at h
  · obtain ⟨⟨h1, h2, h3, h4⟩, h5⟩ := setSigmaProton_same h
    exact ⟨⟨h1, h2, h3, h4⟩, h5⟩
  · obtain ⟨⟨h1, h2, h3, h4⟩, h5⟩ := setSigmaNeutron_same h
    exact ⟨⟨h1, h2, h3, h4⟩, h5⟩
  · obtain ⟨q, hq, h⟩ := Outcome.bind_eq_ok.1 h
    obtain ⟨⟨h1, h2, h3, h4⟩, h5⟩ := setSigmaProton_same hq
    obtain ⟨⟨k1, k2, k3, k4⟩, k5⟩ := setSigmaNeutron_same h
    exact ⟨⟨k1.trans h1, k2.trans h2, k3.trans h3, k4.trans h4⟩, k5.trans h5⟩

theorem fixCouplingRatio_ratio {p p' : DMParticle} {a b : ℝ} (h : p.fixCouplingRatio a b = .ok p') : p'.fpRel = a / (a + b) := by
  unfold fixCouplingRatio at h
  obtain ⟨x, hx, h⟩ := Outcome.bind_eq_ok.1 h
  obtain ⟨y, -, h⟩ := Outcome.bind_eq_ok.1 h
  have hx : x = a / (a + b) := by
    unfold fdiv at hx
    split_ifs at hx
    cases hx; rfl
  dsimp only at h
  split_ifs at h
  · cases h; exact hx
  · cases h; exact hx
  · obtain ⟨_, -, h⟩ := Outcome.bind_eq_ok.1 h; cases h; exact hx
  · obtain ⟨_, -, h⟩ := Outcome.bind_eq_ok.1 h; cases h; exact hx

theorem coupling_calls_ratio {p p1 p2 p3 : DMParticle} {a b s se m : ℝ} (h1 : p.fixCouplingRatio a b = .ok p1)
    (h2 : p1.setInteractionParameter U s "Nuclei" = .ok p2) (h3 : (p2.setSigmaElectron se).setMass U m = .ok p3) :
    p3.fpRel = a / (a + b) := by
  have e3 : p3.fpRel = p2.fpRel := (setMass_same h3).1.ratio
  have e2 : p2.fpRel = p1.fpRel := by
    unfold setInteractionParameter at h2
    rw [if_pos rfl] at h2
    split_ifs at h2
    · exact (setSigmaProton_same h2).1.ratio
    · exact (setSigmaNeutron_same h2).1.ratio
  rw [e3, e2, fixCouplingRatio_ratio h1]

end Obscura
