import Verif.Spec.Runs
import Verif.Props.Main
import Verif.Props.Signals

/-!
# C76: complete runs of the program

From the text of the configuration file to the rows of the file with the limits: nothing is assumed about objects in between.
-/

namespace Obscura

open Spec FileSystem

variable {E : Platform} {fs : FileSystem} {f : Name} {args : List Name} {text : List Char} {c : Config} {ID : String} {top : List Name}
  {rows : List NuclearRow} {kind : String}

theorem grid_pos {ms : List ℝ} {lo hi : ℝ} {n : ℕ} (h : GeometricGrid ms lo hi n) (hlo : 0 < lo) : ∀ m ∈ ms, 0 < m := by
  intro m hm
  obtain ⟨i, hi', rfl⟩ := List.getElem_of_mem hm
  obtain ⟨q, hq, hstep⟩ := h.ratio
  clear hm
  induction i with
  | zero =>
    have := h.first
    rw [List.head?_eq_getElem?, List.getElem?_eq_getElem hi'] at this
    cases this; exact hlo
  | succ i ih =>
    have := ih (by omega)
    rw [hstep i _ _ (List.getElem?_eq_getElem (by omega)) (List.getElem?_eq_getElem hi')]
    exact mul_pos hq this

/-! ## The smallest mass of nuclear recoil detectors -/

/-- The form factor of the file is that of the particle. -/
theorem particle_interaction {U : Units} {s : ParticleSettings} {p : DMParticle} (hc : DescribesParticle c s)
    (hi : SensibleParticle U s) (hp : c.particle U = .ok p) :
    (s.interaction = "SD" → p.interaction = .SD) ∧ (s.interaction = "SI" → ∃ ff qRef m, DMParticle.formFactorOfName s.formFactor = some ff ∧
      p.interaction = .SI ff qRef m ∧ (s.formFactor = "General" → m ≠ 0)) := by
  obtain ⟨p0, h0, hpre, hmass, hfp, hSD, hSI⟩ := particle_start hc hi.interaction
  have hcm := U.cm_pos
  obtain ⟨p1, p2, p3, h1, h2, h3, -, e2, -⟩ :=
    coupling_calls (U := U) (a := s.fp) (b := s.fn) (s := s.sigmaNucleon * (U.cm * U.cm)) (se := s.sigmaElectron * (U.cm * U.cm)) hpre hmass hfp
      hi.couplings (by have := hi.nucleon; positivity) (mul_pos hi.mass U.GeV_pos)
  have hint : s.interaction = "SI" ∨ s.interaction = "SD" := by
    rcases hi.interaction with h | ⟨h, -⟩
    · exact .inr h
    · exact .inl h
  have hstd : c.particleStandard U s.interaction = .ok (p2.setSigmaElectron (s.sigmaElectron * (U.cm * U.cm))) := by
    rw [particleStandard_eq, h0, Outcome.bind_ok, relativeCouplings_eq hc, Outcome.bind_ok]
    rw [h1, Outcome.bind_ok, Config.getDouble_eq hc.sigmaNucleon, Outcome.bind_ok, h2, Outcome.bind_ok,
      Config.getDouble_eq hc.sigmaElectron, Outcome.bind_ok]
  have hp' : c.particle U = .ok (((p3.setSpin s.spin).setFractionalDensity s.fraction).setLowMassMode s.light) := by
    unfold Config.particle
    rw [Config.getDouble_eq hc.mass, Outcome.bind_ok, Config.getDouble_eq hc.spin, Outcome.bind_ok, Config.getDouble_eq hc.fraction,
      Outcome.bind_ok, Config.getBool_eq hc.light, Outcome.bind_ok, Config.getString_eq hc.interaction, Outcome.bind_ok, if_pos hint, hstd,
      Outcome.bind_ok]
    dsimp only
    rw [h3, Outcome.bind_ok]
  rw [hp] at hp'
  cases hp'
  refine ⟨fun h => e2.trans (hSD h).1, fun h => ?_⟩
  obtain ⟨-, f, m, g1, g2, g3⟩ := hSI h
  refine ⟨f, _, m, g1, e2.trans g2, fun hg => ?_⟩
  rcases hi.interaction with h' | ⟨-, -, hm⟩
  · rw [h'] at h; exact absurd h (by decide)
  · rw [g3 hg]; exact (lt_of_lt_of_le (by positivity) (hm hg)).ne'

theorem total_defined {U : Units} {I : Integrator} {s : ParticleSettings} {p : DMParticle} {iso : Isotope} {v : ℝ} (hc : DescribesParticle c s)
    (hi : SensibleParticle U s) (hff : s.interaction = "SI" → s.formFactor = "Contact" ∨ s.formFactor = "General")
    (hp : c.particle U = .ok p) : ∃ σ, p.sigmaTotalNucleus U I iso v = .ok σ := by
  obtain ⟨h1, h2⟩ := particle_interaction hc hi hp
  rcases hi.interaction with hi | ⟨hi, -⟩
  · unfold DMParticle.sigmaTotalNucleus
    rw [h1 hi]
    dsimp only
    split_ifs <;> exact ⟨_, rfl⟩
  · obtain ⟨ff, qRef, m, h3, h4, h5⟩ := h2 hi
    unfold DMParticle.sigmaTotalNucleus
    rw [h4]
    dsimp only
    rcases hff hi with h | h
    · rw [h] at h3; cases h3
      rw [if_neg (by simp)]
      by_cases hl : p.lowMass = true
      · rw [if_neg (by simp [hl]), if_neg (by simp)]; exact ⟨_, rfl⟩
      · rw [if_pos (by simpa using hl)]; exact ⟨_, rfl⟩
    · rw [h] at h3; cases h3
      rw [if_neg (by simp), if_pos rfl, generalFactor_ok (h5 h) (by positivity)]
      split_ifs
      · exact ⟨_, rfl⟩
      · exact ⟨_, rfl⟩

theorem nuclear_lowest {U : Units} {I : Integrator} {x : NuclearDetector} {d : Detector} {p : DMParticle} {h : Distribution}
    (hE : 0 ≤ d.energyThreshold - 2 * x.resolution) (hv : 0 < h.vMax)
    (hσ : ∀ iso ∈ x.isotopes, ∃ s, p.sigmaTotalNucleus U I iso h.vMax = .ok s)
    (hpos : ∃ iso ∈ x.isotopes, ∃ s, p.sigmaTotalNucleus U I iso h.vMax = .ok s ∧ 0 < s)
    (hreach : ∀ iso ∈ x.isotopes, d.energyThreshold - 2 * x.resolution < 2 * iso.mass * h.vMax ^ 2) :
    ∃ m, x.minimumDMMass U I d p h = .ok m := by
  set e := d.energyThreshold - 2 * x.resolution with he
  have hone : ∀ iso, e < 2 * iso.mass * h.vMax ^ 2 → ∃ m, NuclearDetector.minimumMassIsotope e h.vMax iso = .ok m := by
    intro iso hi
    have hm : 0 < iso.mass := by
      by_contra hc
      have : 2 * iso.mass * h.vMax ^ 2 ≤ 0 := mul_nonpos_of_nonpos_of_nonneg (by linarith) (by positivity)
      linarith
    rcases hE.eq_or_lt with h0 | hE
    · exact ⟨0, by unfold NuclearDetector.minimumMassIsotope; rw [if_pos ⟨h0.symm, hm, hv⟩]⟩
    have hq : 1 < √(2 * iso.mass / e) * h.vMax := by
      rw [← Real.sqrt_sq hv.le, ← Real.sqrt_mul (by positivity)]
      refine Real.lt_sqrt_of_sq_lt ?_
      rw [div_mul_eq_mul_div, lt_div_iff₀ hE]; linarith
    refine ⟨iso.mass / (√(2 * iso.mass / e) * h.vMax - 1), ?_⟩
    unfold NuclearDetector.minimumMassIsotope
    rw [if_neg fun h => hE.ne' h.1, fdiv_ok hE.ne', Outcome.bind_ok, fsqrt, if_neg (not_lt.2 (by positivity)), Outcome.bind_ok, fdiv_ok (by linarith)]
  have hloop : ∀ l : List Isotope, (∀ iso ∈ l, iso ∈ x.isotopes) → ∃ aux, NuclearDetector.massLoop U I p e h.vMax l = .ok aux ∧
      ((∃ iso ∈ l, ∃ s, p.sigmaTotalNucleus U I iso h.vMax = .ok s ∧ 0 < s) → aux ≠ []) := by
    intro l hl
    induction l with
    | nil => exact ⟨[], rfl, by simp⟩
    | cons iso l ih =>
      obtain ⟨aux, h1, h3⟩ := ih fun i hi => hl i (by simp [hi])
      obtain ⟨s, hs⟩ := hσ iso (hl iso (by simp))
      unfold NuclearDetector.massLoop
      rw [hs, Outcome.bind_ok]
      by_cases hs0 : 0 < s
      · obtain ⟨m, hm⟩ := hone iso (hreach iso (hl iso (by simp)))
        rw [if_pos hs0, hm, Outcome.bind_ok, h1, Outcome.bind_ok]
        exact ⟨_, rfl, by simp⟩
      · rw [if_neg hs0]
        refine ⟨aux, h1, fun ⟨i, hi, s', h4, h5⟩ => h3 ?_⟩
        rcases List.mem_cons.1 hi with rfl | hi
        · rw [hs] at h4; cases h4; exact absurd h5 hs0
        · exact ⟨i, hi, s', h4, h5⟩
  obtain ⟨aux, h1, h3⟩ := hloop x.isotopes fun _ h => h
  obtain ⟨m, h4, h5⟩ := minElement_isLeast (h3 hpos)
  refine ⟨m, ?_⟩
  unfold NuclearDetector.minimumDMMass
  rw [← he, h1, Outcome.bind_ok, h4]

section

variable (hr : fs.read E.R.cwd f = some text) (hp : E.parse text = some c) (hID : c "ID" = some (.string ID))
  (hn : PlainName ID.toList) (ht : TopAt E.R fs top) (hf : FreeToWrite fs top ID.toList)
  (hfree : ∀ k, fs (constraintsPlace top ID.toList k) ≠ some .dir)
  {cert lo hi : ℝ} {n : ℤ} (hL : DescribesLimits c cert lo hi n) (hl : SensibleLimits cert lo hi n)
  {s : ParticleSettings} (hs : DescribesParticle c s) (hsens : SensibleParticle E.S.U s)
  (hT : ExactTools E.T) {t : DetectorSettings} (ht0 : 0 ≤ t.background) (hbkg : probAtMost t.background t.observed.toNat ≠ 1 - cert)

include hr hp hID hn ht hf hfree hL hl hs hsens hT ht0 hbkg

theorem run_of_detector {h : Distribution} {c' : List Nucleus} {D : AnyDetector} (hd1 : c.distribution E.S.U E.N E.speeds = .ok h)
    (hh : PhysicalDistribution h) (hD1 : c.detector E.S [] = .ok (c', D)) (hev : PredictsEvents E.S.U E.T D)
    (hcount : CountsEvents E.S t kind (targetsOf kind) D.base)
    (hlow : ∀ p, c.particle E.S.U = .ok p → ∃ m, (D.toClass E.S.U E.T h).minimumDMMass D.base p = .ok m)
    (hx : ∀ name, c "DD_experiment" = some (.string name) → name ∉ semiconductorExperiments) :
    (Program.main E (f :: args) fs).2 = .ok () ∧
    ∃ p k rows, c.particle E.S.U = .ok p ∧ NearestPercent cert k ∧
      (Program.main E (f :: args) fs).1 (constraintsPlace top ID.toList k) = some (.file (E.format rows)) ∧
      ExclusionLimits E.S.U E.T D p h cert lo hi n.toNat rows := by
  have hcm := E.S.U.cm_pos
  obtain ⟨p, hp1, e1, -, e2, -, e3, -, -, -, -, -, e4, e5⟩ :=
    C53_particle_partial (U := E.S.U) hs hsens.interaction hsens.mass hsens.nucleon.le hsens.couplings
  obtain ⟨c0, hc0, h0⟩ : ∃ c0, p.getInteractionParameter E.S.U D.base.targets = .ok c0 ∧ 0 < c0 := by
    rw [hcount.targets]
    unfold targetsOf
    split_ifs
    · exact ⟨_, e4, mul_pos hsens.nucleon (by positivity)⟩
    · exact ⟨_, e5, mul_pos hsens.electron (by positivity)⟩
  obtain ⟨lowest, hlow⟩ := hlow p hp1
  have hmass : ∀ m, c "DM_mass" = some (.float m) → 0 < m := fun m hm => by
    have := hs.mass.symm.trans hm
    simp only [Option.some.injEq, Setting.float.injEq] at this
    rw [← this]; exact hsens.mass
  have hphys : ∀ m p', 0 < m → p.setMass E.S.U m = .ok p' → PhysicalParticle p' := fun m p' hm h' => by
    obtain ⟨⟨-, g1, g2, -⟩, g3⟩ := setMass_same h'
    exact ⟨by rw [g3]; exact hm, by rw [g2, e2]; exact hsens.fraction, by
      unfold DMParticle.sigmaElectron at e3 ⊢
      rw [g1, e3]; have := hsens.electron; positivity⟩
  have hend : (Program.main E (f :: args) fs).2 = .ok () :=
    C74_regular_end hr hp hID hL hl.lowest hl.highest hl.masses hl.certainty hmass hT.integral.homogeneous hT.linear hp1 hd1 hD1 hc0 h0.ne'
      hcount.analysis hlow (fun m p' hm h' => by
        obtain ⟨s, h1, -⟩ := hev p' h (hphys m p' hm h') hh
        exact ⟨s, h1⟩) hx
  refine ⟨hend, ?_⟩
  obtain ⟨p₁, h₁, c₁, D₁, k, ms, lowest', lim, b1, b2, b3, b4, b5, b8, b6, b7⟩ :=
    C74_constraints_partial hr hp hID hn ht hf hL hl.lowest hl.highest hl.masses hmass hfree hend
  rw [hp1] at b1; cases b1
  rw [hd1] at b2; cases b2
  rw [hD1] at b3; cases b3
  refine ⟨p, k, _, hp1, b4, b7, ms, lowest', lim, b5, b8, rfl, fun m hm hge => ?_⟩
  have hD := configured_detector hD1
  obtain ⟨hreg, hfix⟩ := configured_particle hp1 hmass
  have hm0 := grid_pos b5 hl.lowest m hm
  have hobs : D.base.observed = t.observed.toNat := by have := hcount.observed; omega
  obtain ⟨p', g1, g2⟩ := limitAt_correct hD.1 hreg hfix (hD.linear hT.integral.homogeneous hT.linear h) hT.root hc0 h0 hcount.analysis hm0
    (fun p' s h1 h2 => by
      obtain ⟨s', h3, h4⟩ := hev p' h (hphys m p' hm0 h1) hh
      rw [h2] at h3; cases h3; exact h4) (by rw [hcount.background]; exact ht0) (by rw [hcount.background, hobs]; exact hbkg)
    (b6 m hm hge)
  exact ⟨p', g1, (setMass_same g1).2, g2⟩

variable {hs' : HaloSettings} (hk : c "DM_distribution" = some (.string "SHM")) (hhalo : DescribesHalo c hs') (hd : 0 ≤ hs'.density)
  (h0 : 0 < hs'.v0) (he : 0 < hs'.vesc) (ho : √(hs'.vx ^ 2 + hs'.vy ^ 2 + hs'.vz ^ 2) ≤ hs'.vesc)
  (hdet : DescribesDetector c t) (hF : PhysicalFiles E.S) (hex : 0 ≤ t.exposure) (heff : 0 ≤ t.efficiency)

include hk hhalo hd h0 he ho hdet hF hex heff

/-- C76 (electron recoils and Migdal effect). Suppose that the file describes a sensible particle, a standard halo, an ionization
detector and sensible limits, that the data files are installed and contain nothing unphysical, that the places for the results are
free, that the numerical routines are exact, and that the background alone does not lead exactly to the p-value `1 - CL`. Then the
program ends regularly, and `results/ID/DD_Constraints_k.txt` holds the exclusion limits for the particle, the halo and the detector of
the file. -/
theorem C76_ionization_partial (hI : Installed E.S rows) (hP : NonnegInterpolation E.S.P) (hU : E.S.U.keV ≤ E.S.U.mElectron)
    (hkind : c "DD_experiment" = some (.string kind)) (hkinds : kind = "Electron recoil" ∨ kind = "Migdal") {atom : String} {thr : ℤ}
    (hel : DescribesElectrons c atom thr) (ha : atom = "Xe" ∨ atom = "Ar") (hM : 0 < (element E.S.U rows (atomData atom).1).averageMass)
    (hthr : thr ≤ 100) :
    (Program.main E (f :: args) fs).2 = .ok () ∧
    ∃ p h c' D k table, c.particle E.S.U = .ok p ∧ c.distribution E.S.U E.N E.speeds = .ok h ∧ c.detector E.S [] = .ok (c', D) ∧
      NearestPercent cert k ∧
      (Program.main E (f :: args) fs).1 (constraintsPlace top ID.toList k) = some (.file (E.format table)) ∧
      ExclusionLimits E.S.U E.T D p h cert lo hi n.toNat table := by
  obtain ⟨h, h1, h2⟩ := C75_standard_halo (U := E.S.U) E.N E.speeds hk hhalo hd h0 he ho
  obtain ⟨c', D, h3, h4, h5, h6⟩ := C75_ionization hI hF hP hT.integral hU .start hkind hkinds hdet hel ha hM hthr hex heff
  obtain ⟨g1, p, k, table, g2, g3, g4, g5⟩ := run_of_detector hr hp hID hn ht hf hfree hL hl hs hsens hT ht0 hbkg (args := args) h1 h2 h3 h4 h5
    (fun p _ => h6 p h h2.moving) fun name hx => by
      rw [hkind] at hx; cases hx
      rcases hkinds with rfl | rfl <;> decide
  exact ⟨g1, p, h, c', D, k, table, g2, h1, h3, g3, g4, g5⟩

/-- C76 (semiconductors). -/
theorem C76_semiconductor_partial (hP : NonnegInterpolation E.S.P) (hkind : c "DD_experiment" = some (.string "Semiconductor"))
    {target : String} {thr : ℤ} (hel : DescribesElectrons c target thr) (htarget : target = "Si" ∨ target = "Ge") {l : List ℝ}
    (hcr : E.S.files.crystal target = some l) (hlen : 500 * 900 ≤ l.length) (h1 : 1 ≤ thr) (h2 : thr ≤ 50000000) :
    (Program.main E (f :: args) fs).2 = .ok () ∧
    ∃ p h c' D k table, c.particle E.S.U = .ok p ∧ c.distribution E.S.U E.N E.speeds = .ok h ∧ c.detector E.S [] = .ok (c', D) ∧
      NearestPercent cert k ∧
      (Program.main E (f :: args) fs).1 (constraintsPlace top ID.toList k) = some (.file (E.format table)) ∧
      ExclusionLimits E.S.U E.T D p h cert lo hi n.toNat table := by
  obtain ⟨h, k1, k2⟩ := C75_standard_halo (U := E.S.U) E.N E.speeds hk hhalo hd h0 he ho
  obtain ⟨D, k3, k4, k5, k6⟩ := C75_semiconductor (cache := []) hF hP hT.integral hkind hdet hel htarget hcr hlen h1 h2 hex heff
  obtain ⟨g1, p, k, table, g2, g3, g4, g5⟩ := run_of_detector hr hp hID hn ht hf hfree hL hl hs hsens hT ht0 hbkg (args := args) k1 k2 k3 k4 k5
    (fun p _ => k6 p h k2.moving) fun name hx => by
      rw [hkind] at hx; cases hx
      decide
  exact ⟨g1, p, h, [], D, k, table, g2, k1, k3, g3, g4, g5⟩

/-- C76 (nuclear recoils). Here the form factor has to be such that a total cross section exists, some isotope has to have a positive
cross section, and the fastest particles have to be able to deposit the threshold energy (less two standard deviations) in all of the
isotopes; see `C76_fails_light_mediator` and C41 for the other cases. -/
theorem C76_nuclear_partial (hN : NonnegIntegral E.T) (hnuc : E.S.files.nuclear = some rows) (hw : WellFormed rows)
    (hkind : c "DD_experiment" = some (.string "Nuclear recoil")) {r : RecoilSettings}
    (hrec : DescribesRecoils c r) (hne : r.composition ≠ []) (hZ : ∀ e ∈ r.composition, 1 ≤ e.1 ∧ e.1 ≤ 92)
    (hx : ∀ e ∈ r.composition, 0 ≤ e.2)
    (hm : 1 < (r.composition.map Prod.snd).sum → ∀ e ∈ r.composition, 0 < (element E.S.U rows e.1).averageMass)
    (hE : r.threshold ≤ r.highest) (hthr0 : 0 < r.threshold)
    (hthr : 2 * max r.resolution 0 ≤ r.threshold) (hff : s.interaction = "SI" → s.formFactor = "Contact" ∨ s.formFactor = "General") {vmax : ℝ}
    (hvmax : vmax = (hs'.vesc + √(hs'.vx ^ 2 + hs'.vy ^ 2 + hs'.vz ^ 2)) * (E.S.U.km / E.S.U.sec))
    (hreach : ∀ e ∈ r.composition, ∀ iso ∈ (element E.S.U rows e.1).isotopes,
      (r.threshold - 2 * max r.resolution 0) * E.S.U.keV < 2 * iso.mass * vmax ^ 2)
    (hσ : ∀ p, c.particle E.S.U = .ok p → ∃ e ∈ r.composition, ∃ iso ∈ (element E.S.U rows e.1).isotopes, ∃ σ,
      p.sigmaTotalNucleus E.S.U E.T.integrate iso vmax = .ok σ ∧ 0 < σ) :
    (Program.main E (f :: args) fs).2 = .ok () ∧
    ∃ p h c' D k table, c.particle E.S.U = .ok p ∧ c.distribution E.S.U E.N E.speeds = .ok h ∧ c.detector E.S [] = .ok (c', D) ∧
      NearestPercent cert k ∧
      (Program.main E (f :: args) fs).1 (constraintsPlace top ID.toList k) = some (.file (E.format table)) ∧
      ExclusionLimits E.S.U E.T D p h cert lo hi n.toNat table := by
  have hkeV := E.S.U.keV_pos
  obtain ⟨h, k1, k2⟩ := C75_standard_halo (U := E.S.U) E.N E.speeds hk hhalo hd h0 he ho
  obtain ⟨c', D, k3, k4, k5⟩ := C75_nuclear_partial hnuc hw hF hT.integral hN .start hkind hdet hrec hne hZ hx hm hE hthr0 hex heff
  obtain ⟨h', k1', -, -, k6, -⟩ := C69_standard_halo_partial (U := E.S.U) E.N E.speeds hk hhalo h0 he ho
  rw [k1] at k1'; cases k1'
  obtain ⟨c₁, d, x, j1, -, -, -, j2, -, j3, -, -, j4, -⟩ := C70_nuclear hnuc hw .start hkind hdet hrec hne hZ
    (fun h e he => ⟨hx e he, hm h e he⟩) hE
  rw [k3] at j1; cases j1
  have hiso : ∀ iso, iso ∈ x.isotopes ↔ ∃ e ∈ r.composition, iso ∈ (element E.S.U rows e.1).isotopes := fun iso => by
    unfold NuclearDetector.isotopes
    rw [j3]; simp [List.mem_flatMap]
  have hvm : h.vMax = vmax := k6.trans hvmax.symm
  have hEt : d.energyThreshold - 2 * x.resolution = (r.threshold - 2 * max r.resolution 0) * E.S.U.keV := by
    rw [j2, j4, show max (r.resolution * E.S.U.keV) 0 = max r.resolution 0 * E.S.U.keV by
      rw [max_mul_of_nonneg _ _ hkeV.le, zero_mul]]; ring
  obtain ⟨g1, p, k, table, g2, g3, g4, g5⟩ := run_of_detector hr hp hID hn ht hf hfree hL hl hs hsens hT ht0 hbkg (args := args) k1 k2 k3 k4 k5
    (fun p hp => by
      obtain ⟨m, hm⟩ := nuclear_lowest (U := E.S.U) (I := E.T.integrate) (x := x) (d := d) (p := p) (h := h)
        (by rw [hEt]; exact mul_nonneg (by linarith) hkeV.le) k2.moving
        (fun iso _ => total_defined hs hsens hff hp)
        (by
          obtain ⟨e, h1, iso, h2, σ, h3, h4⟩ := hσ p hp
          exact ⟨iso, (hiso iso).2 ⟨e, h1, h2⟩, σ, by rw [hvm]; exact h3, h4⟩)
        (fun iso hi => by
          obtain ⟨e, h1, h2⟩ := (hiso iso).1 hi
          rw [hEt, hvm]; exact hreach e h1 iso h2)
      exact ⟨m, hm⟩) fun name hx => by
        rw [hkind] at hx; cases hx
        decide
  exact ⟨g1, p, h, c', _, k, table, g2, k1, k3, g3, g4, g5⟩

omit hf hfree hT ht0 hbkg hF hex heff in
/-- C76 (nuclear recoils, form factors of light mediators). A run for nuclear recoils with the form factor "Electric-Dipole" or
"Long-Range" always stops the program, with no limits, since the total cross section is asked for. -/
theorem C76_fails_light_mediator (hnuc : E.S.files.nuclear = some rows) (hw : WellFormed rows)
    (hkind : c "DD_experiment" = some (.string "Nuclear recoil")) {r : RecoilSettings}
    (hrec : DescribesRecoils c r) (hne : r.composition ≠ []) (hZ : ∀ e ∈ r.composition, 1 ≤ e.1 ∧ e.1 ≤ 92)
    (hx : ∀ e ∈ r.composition, 0 ≤ e.2)
    (hm : 1 < (r.composition.map Prod.snd).sum → ∀ e ∈ r.composition, 0 < (element E.S.U rows e.1).averageMass)
    (hE : r.threshold ≤ r.highest) (hint : s.interaction = "SI")
    (hff : s.formFactor = "Electric-Dipole" ∨ s.formFactor = "Long-Range") :
    (Program.main E (f :: args) fs).2 = .exit ∧
    ∀ k, (Program.main E (f :: args) fs).1 (constraintsPlace top ID.toList k) = fs (constraintsPlace top ID.toList k) := by
  obtain ⟨h, k1, -⟩ := C75_standard_halo (U := E.S.U) E.N E.speeds hk hhalo hd h0 he ho
  obtain ⟨c', d, x, k3, -, -, -, -, -, j3, -⟩ := C70_nuclear hnuc hw .start hkind hdet hrec hne hZ
    (fun h e he => ⟨hx e he, hm h e he⟩) hE
  obtain ⟨p, hp1, -⟩ :=
    C53_particle_partial (U := E.S.U) hs hsens.interaction hsens.mass hsens.nucleon.le hsens.couplings
  obtain ⟨ff, qRef, m, g1, g2, -⟩ := (particle_interaction hs hsens hp1).2 hint
  have hff' : ff = .longRange ∨ ff = .electricDipole := by
    rcases hff with h | h <;> rw [h] at g1 <;> cases g1
    · exact .inr rfl
    · exact .inl rfl
  have hlow : x.minimumDMMass E.S.U E.T.integrate d p h = .exit := by
    unfold NuclearDetector.minimumDMMass
    obtain ⟨iso, l, hl⟩ : ∃ iso l, x.isotopes = iso :: l := by
      obtain ⟨e, he⟩ := List.exists_mem_of_ne_nil _ hne
      obtain ⟨row, hrow, hZr⟩ := hw.complete e.1 (hZ e he).1 (hZ e he).2
      have : isotopeOf E.S.U row ∈ x.isotopes := by
        unfold NuclearDetector.isotopes
        rw [j3]
        exact List.mem_flatMap.2 ⟨_, List.mem_map.2 ⟨e, he, rfl⟩, List.mem_map.2 ⟨row, List.mem_filter.2 ⟨hrow, by simpa using hZr⟩, rfl⟩⟩
      exact List.exists_cons_of_ne_nil (List.ne_nil_of_mem this)
    rw [hl]
    unfold NuclearDetector.massLoop
    rw [(C06_divergent_rejected g2 hff').1]
    rfl
  have hmake := (C71_object E.R E.S E.N E.speeds E.parse fs [] c' f 0
    ⟨f, ID.toList, E.R.top ++ ("results/" ++ ID ++ "/").toList, p, h, .nuclear d x, cert, lo, hi, n.toNat⟩).2
    ⟨text, c, ID, hr, hp, hID, hp1, k1, k3, ⟨n, hL, rfl⟩, rfl, rfl, rfl⟩
  have hend : (Program.main E (f :: args) fs).2 = .exit := by
    simp only [Program.main]
    generalize Configuration.make E.R E.S E.N E.speeds E.parse fs [] f 0 = r' at hmake
    obtain ⟨g, r'⟩ := r'
    dsimp only at hmake
    subst hmake
    have hl' : Program.limits E ⟨f, ID.toList, E.R.top ++ ("results/" ++ ID ++ "/").toList, p, h, .nuclear d x, cert, lo, hi, n.toNat⟩ = .exit := by
      unfold Program.limits Program.masses
      dsimp only
      rw [if_pos ⟨hl.lowest, hl.highest, by have := hl.masses; omega⟩, Outcome.bind_ok]
      have : (AnyDetector.nuclear d x).base.upperLimitCurve E.S.U E.T ((AnyDetector.nuclear d x).toClass E.S.U E.T h) p
          (logSpace lo hi n.toNat) cert = .exit := by
        unfold Detector.upperLimitCurve
        rw [show ((AnyDetector.nuclear d x).toClass E.S.U E.T h).minimumDMMass (AnyDetector.nuclear d x).base p = .exit from hlow]
        rfl
      rw [this]; rfl
    obtain ⟨out, ho⟩ := configuration_summary (S := E.S) (halo := [])
      (o := ⟨f, ID.toList, E.R.top ++ ("results/" ++ ID ++ "/").toList, p, h, .nuclear d x, cert, lo, hi, n.toNat⟩)
      (configured_summary k3 fun name hx => by rw [hkind] at hx; cases hx; decide)
    dsimp only
    rw [ho]
    dsimp only
    rw [hl']
  refine ⟨hend, fun k => C74_failed_run_partial hr hp hID hn ht (by rw [hend]; simp) ?_ ?_ ?_⟩
  · intro h; have := congrArg List.length h; simp [constraintsPlace, runPlace] at this; omega
  · intro h; have := congrArg List.length h; simp [constraintsPlace] at this
  · intro h
    have h := (List.cons.inj h).1
    simp only [String.toList_append] at h
    have := congrArg List.getLast? h
    rw [show ".txt".toList = ['.', 't', 'x'] ++ ['t'] from rfl, show ".cfg".toList = ['.', 'c', 'f'] ++ ['g'] from rfl, ← List.append_assoc,
      ← List.append_assoc, List.getLast?_concat, List.getLast?_concat] at this
    simp at this

end

/-! ## A concrete run -/

/-- Non-vacuity of `C76_ionization_partial` (and of `C74_limits_partial`): the run of `samplePlatform` in `/o`, for all exact tools. -/
example {T : Tools} (hT : ExactTools T) : (Program.main (samplePlatform T) [['a']] sampleFiles).2 = .ok () ∧ ∃ k table,
    (Program.main (samplePlatform T) [['a']] sampleFiles).1 (constraintsPlace [['o']] "test".toList k) =
      some (.file ((samplePlatform T).format table)) := by
  have hs : √((0 : ℝ) ^ 2 + 232 ^ 2 + 0 ^ 2) = 232 := by
    rw [show (0 : ℝ) ^ 2 + 232 ^ 2 + 0 ^ 2 = 232 ^ 2 by norm_num]; exact Real.sqrt_sq (by norm_num)
  have hc : DescribesParticle migdalConfig
      { mass := 0.1, spin := 0.5, fraction := 1, light := false, interaction := "SI", formFactor := "Contact", mediator := 0, fp := 1,
        fn := 1, sigmaNucleon := 1e-36, sigmaElectron := 1e-36 } := by
    constructor <;> simp [exampleConfig]
  obtain ⟨h1, p, h, c', D, k, table, -, -, -, -, h2, -⟩ := C76_ionization_partial (E := samplePlatform T) (text := ['x']) (kind := "Migdal")
    (rows := shippedTable)
    (c := migdalConfig) (ID := "test") (cert := 0.95) (lo := 0.02) (hi := 1) (n := 10) (args := [])
    (by show sampleFiles.read sampleInstallation.cwd ['a'] = _; decide) rfl (by simp [exampleConfig]) (by unfold PlainName; decide)
    sampleTop ⟨by decide, by decide, by decide⟩ (fun k => by
      show sampleFiles _ ≠ _
      unfold sampleFiles constraintsPlace runPlace resultsPlace
      simp)
    (by constructor <;> simp [exampleConfig]) ⟨by norm_num, by norm_num, by norm_num, by norm_num⟩ hc
    ⟨.inr ⟨rfl, by simp, by simp⟩, by norm_num, by norm_num, by norm_num, by norm_num, by norm_num⟩ hT (t := ⟨1, 1, 0, 0⟩) le_rfl
    (by
      have : probAtMost 0 0 = 1 := by
        rw [← cdfPoisson_eq_probAtMost le_rfl]; norm_num [cdfPoisson]
      show probAtMost 0 0 ≠ 1 - 0.95
      rw [this]; norm_num)
    (hs' := ⟨0.4, 220, 0, 232, 0, 544⟩) (by simp [exampleConfig]) (by constructor <;> simp [exampleConfig]) (by norm_num) (by norm_num)
    (by norm_num) (by rw [hs]; norm_num) (example_detector _) sampleSetup_physical zero_le_one zero_le_one sampleSetup_installed
    sampleSetup_nonneg sampleSetup_keV (by simp) (.inr rfl) (example_electrons _) (.inl rfl)
    (sampleSetup_installed.masses 54 (by simp)) (by norm_num)
  exact ⟨h1, k, table, h2⟩

/-- Tools as required exist. -/
example : ∃ T : Tools, ExactTools T ∧ NonnegIntegral T := by
  obtain ⟨R, hR⟩ := exists_exact_rootFinder
  refine ⟨{ integrate := exactIntegrator, interpolationIntegral := fun _ ys a b => (ys.getD 0 0 + ys.getD 1 0) / 2 * (b - a),
            findRoot := R, searchPoints := fun _ _ _ => [] }, ⟨exactIntegrator_exact, fun k xs ys x y => ?_, hR⟩, fun xs ys a b hab hy => ?_⟩
  · have : ∀ i, (ys.map fun z => k * z).getD i 0 = k * ys.getD i 0 := fun i => by
      by_cases hi : i < ys.length
      · simp [List.getD, hi]
      · simp [List.getD, not_lt.1 hi]
    dsimp only
    rw [this, this]; ring
  · have : ∀ i, 0 ≤ ys.getD i 0 := fun i => by
      by_cases hi : i < ys.length
      · simpa [List.getD, hi] using hy _ (List.getElem_mem hi)
      · simp [List.getD, not_lt.1 hi]
    have h0 := this 0; have h1 := this 1
    have : 0 ≤ b - a := by linarith
    dsimp only
    positivity

/-- The example configuration with a CaWO₄ detector, a light particle and the form factor `ff`. -/
noncomputable def nuclearConfig (ff : String) : Config :=
  Function.update (Function.update (exampleWith "DD_experiment" "Nuclear recoil") "DM_light" (some (.bool true))) "DM_form_factor"
    (some (.string ff))

/-- The settings of the particle in `nuclearConfig`. -/
noncomputable def nuclearParticle (ff : String) : ParticleSettings where
  mass := 0.1
  spin := 0.5
  fraction := 1
  light := true
  interaction := "SI"
  formFactor := ff
  mediator := 0
  fp := 1
  fn := 1
  sigmaNucleon := 1e-36
  sigmaElectron := 1e-36

theorem nuclear_describes (ff : String) : DescribesParticle (nuclearConfig ff) (nuclearParticle ff) := by
  constructor <;> simp [nuclearConfig, nuclearParticle, exampleConfig, exampleWith, Function.update]

theorem nuclear_sensible {ff : String} (h : ff ∈ ["Contact", "Electric-Dipole", "Long-Range"]) :
    SensibleParticle sampleSetup.U (nuclearParticle ff) := by
  refine ⟨.inr ⟨rfl, ?_, fun h' => ?_⟩, ?_, ?_, ?_, ?_, ?_⟩
  · simp only [nuclearParticle, List.mem_cons, List.not_mem_nil, or_false] at h ⊢
    tauto
  · have h' : ff = "General" := h'
    subst h'
    simp at h
  all_goals norm_num [nuclearParticle]

theorem tungstate_masses : 1 < (([(8, 4), (20, 1), (74, 1)] : List (ℕ × ℝ)).map Prod.snd).sum →
    ∀ e ∈ ([(8, 4), (20, 1), (74, 1)] : List (ℕ × ℝ)), 0 < (element sampleSetup.U shippedTable e.1).averageMass := by
  have hI := sampleSetup_installed
  intro _ e he
  simp only [List.mem_cons, List.not_mem_nil, or_false] at he
  rcases he with rfl | rfl | rfl
  · exact hI.masses 8 (by simp)
  · exact hI.masses 20 (by simp)
  · exact hI.masses 74 (by simp)

/-- Non-vacuity of `C76_nuclear_partial`: limits for a CaWO₄ detector, for all exact tools. -/
example {T : Tools} (hT : ExactTools T) (hN : NonnegIntegral T) :
    (Program.main { samplePlatform T with parse := fun _ => some (nuclearConfig "Contact") } [['a']] sampleFiles).2 = .ok () := by
  have hs : √((0 : ℝ) ^ 2 + 232 ^ 2 + 0 ^ 2) = 232 := by
    rw [show (0 : ℝ) ^ 2 + 232 ^ 2 + 0 ^ 2 = 232 ^ 2 by norm_num]; exact Real.sqrt_sq (by norm_num)
  have hI := sampleSetup_installed
  refine (C76_nuclear_partial (E := { samplePlatform T with parse := fun _ => some (nuclearConfig "Contact") }) (text := ['x'])
    (rows := shippedTable) (s := nuclearParticle "Contact")
    (c := nuclearConfig "Contact") (ID := "test") (cert := 0.95) (lo := 0.02) (hi := 1) (n := 10) (args := [])
    (by show sampleFiles.read sampleInstallation.cwd ['a'] = _; decide) rfl
    (by simp [nuclearConfig, exampleConfig, exampleWith, Function.update]) (by unfold PlainName; decide)
    sampleTop ⟨by decide, by decide, by decide⟩ (fun k => by
      show sampleFiles _ ≠ _
      unfold sampleFiles constraintsPlace runPlace resultsPlace
      simp)
    (by constructor <;> simp [nuclearConfig, exampleConfig, exampleWith, Function.update]) ⟨by norm_num, by norm_num, by norm_num, by norm_num⟩
    (nuclear_describes _) (nuclear_sensible (by simp)) hT (t := ⟨1, 1, 0, 0⟩) le_rfl
    (by
      have : probAtMost 0 0 = 1 := by
        rw [← cdfPoisson_eq_probAtMost le_rfl]; norm_num [cdfPoisson]
      show probAtMost 0 0 ≠ 1 - 0.95
      rw [this]; norm_num)
    (hs' := ⟨0.4, 220, 0, 232, 0, 544⟩) (by simp [nuclearConfig, exampleConfig, exampleWith, Function.update])
    (by constructor <;> simp [nuclearConfig, exampleConfig, exampleWith, Function.update]) (by norm_num) (by norm_num)
    (by norm_num) (by rw [hs]; norm_num) (by constructor <;> simp [nuclearConfig, exampleConfig, exampleWith, Function.update])
    sampleSetup_physical zero_le_one zero_le_one hN hI.nuclear hI.complete (by simp [nuclearConfig, exampleWith, Function.update])
    (r := ⟨[(8, 4), (20, 1), (74, 1)], 4, 40, 0⟩)
    (by constructor <;> simp [nuclearConfig, exampleConfig, exampleWith, Function.update]) (by simp) (by simp) (by simp) tungstate_masses
    (by norm_num) (by norm_num) (by norm_num) (fun _ => .inl rfl) rfl ?_ ?_).1
  · intro e _ iso hi
    dsimp only
    rw [hs]
    obtain ⟨r, hr, rfl⟩ := List.mem_map.1 hi
    have hA := (shippedTable_physical r (List.mem_filter.1 hr).1).1
    have hA : (1 : ℝ) ≤ r.A := by exact_mod_cast hA
    have hM : 1 ≤ (isotopeOf sampleSetup.U r).mass := by
      unfold isotopeOf
      dsimp only
      split_ifs
      · norm_num [sampleSetup, Units.sample]
      · norm_num [sampleSetup, Units.sample]; exact_mod_cast hA
    have e1 : (776 : ℝ) * (sampleSetup.U.km / sampleSetup.U.sec) = 388 / 100000 := by norm_num [sampleSetup, Units.sample, Units.km]
    have e2 : sampleSetup.U.keV = 1 / 1000000 := by norm_num [sampleSetup, Units.sample, Units.keV]
    show (4 - 2 * max 0 0) * sampleSetup.U.keV < 2 * (isotopeOf sampleSetup.U r).mass * ((544 + 232) * (sampleSetup.U.km / sampleSetup.U.sec)) ^ 2
    rw [show (544 + 232 : ℝ) = 776 by norm_num, e1, e2]
    norm_num
    nlinarith
  · intro p hp
    obtain ⟨p', hp', h1, -, -, h2, -, h3, -, h4, -⟩ := C53_particle_partial (U := sampleSetup.U) (nuclear_describes "Contact")
      (nuclear_sensible (by simp)).interaction (by norm_num [nuclearParticle]) (by norm_num [nuclearParticle]) (by norm_num [nuclearParticle])
    have hp : (nuclearConfig "Contact").particle sampleSetup.U = .ok p := hp
    rw [hp] at hp'; cases hp'
    obtain ⟨ff, qRef, m, g1, g2, -⟩ := (particle_interaction (nuclear_describes "Contact") (nuclear_sensible (by simp)) hp).2 rfl
    cases g1
    obtain ⟨row, hrow, hZr⟩ := hI.complete.complete 8 (by norm_num) (by norm_num)
    refine ⟨(8, 4), by simp, isotopeOf sampleSetup.U row, List.mem_map.2 ⟨row, List.mem_filter.2 ⟨hrow, by simpa using hZr⟩, rfl⟩, ?_⟩
    show ∃ σ, p.sigmaTotalNucleus sampleSetup.U T.integrate _ _ = .ok σ ∧ _
    unfold DMParticle.sigmaTotalNucleus
    rw [g2]
    have hl : p.lowMass = true := h2
    simp only [hl]
    refine ⟨_, by simp; rfl, ?_⟩
    have h3 := h3 (by norm_num [nuclearParticle])
    have hfp : p.fp ≠ 0 := by
      intro h0
      have hcm := sampleSetup.U.cm_pos
      unfold DMParticle.sigmaProton at h3
      rw [h0] at h3
      have : (0 : ℝ) < (nuclearParticle "Contact").sigmaNucleon * sampleSetup.U.cm ^ 2 := by
        have : (0 : ℝ) < (nuclearParticle "Contact").sigmaNucleon := by norm_num [nuclearParticle]
        positivity
      rw [← h3] at this
      simp at this
    have hfn : p.fn = p.fp := by simpa [nuclearParticle] using h4.symm
    have hpm : 0 < p.mass := by rw [h1]; exact mul_pos (by norm_num [nuclearParticle]) sampleSetup.U.GeV_pos
    have hMi := (element_physical (U := sampleSetup.U) (Z := 8) shippedTable_physical (isotopeOf sampleSetup.U row)
      (List.mem_map.2 ⟨row, List.mem_filter.2 ⟨hrow, by simpa using hZr⟩, rfl⟩)).1
    have hmu : 0 < reducedMass p.mass (isotopeOf sampleSetup.U row).mass := by unfold reducedMass; positivity
    have hZ8 : (0 : ℝ) < ((isotopeOf sampleSetup.U row).Z : ℝ) := by
      show (0 : ℝ) < (row.Z : ℝ); rw [hZr]; norm_num
    have hsum : p.fp * ((isotopeOf sampleSetup.U row).Z : ℝ) + p.fn * ((isotopeOf sampleSetup.U row).neutrons : ℝ) ≠ 0 := by
      rw [hfn, ← mul_add]
      have : (0 : ℝ) ≤ ((isotopeOf sampleSetup.U row).neutrons : ℝ) := by positivity
      exact mul_ne_zero hfp (by linarith)
    have := Real.pi_pos
    positivity

/-- Non-vacuity of `C76_fails_light_mediator`: the same detector and a light mediator. -/
example {T : Tools} :
    (Program.main { samplePlatform T with parse := fun _ => some (nuclearConfig "Long-Range") } [['a']] sampleFiles).2 = .exit := by
  have hs : √((0 : ℝ) ^ 2 + 232 ^ 2 + 0 ^ 2) = 232 := by
    rw [show (0 : ℝ) ^ 2 + 232 ^ 2 + 0 ^ 2 = 232 ^ 2 by norm_num]; exact Real.sqrt_sq (by norm_num)
  have hI := sampleSetup_installed
  exact (C76_fails_light_mediator (E := { samplePlatform T with parse := fun _ => some (nuclearConfig "Long-Range") }) (text := ['x'])
    (rows := shippedTable) (s := nuclearParticle "Long-Range")
    (c := nuclearConfig "Long-Range") (ID := "test") (cert := 0.95) (lo := 0.02) (hi := 1) (n := 10) (args := [])
    (by show sampleFiles.read sampleInstallation.cwd ['a'] = _; decide) rfl
    (by simp [nuclearConfig, exampleConfig, exampleWith, Function.update]) (by unfold PlainName; decide) sampleTop
    (by constructor <;> simp [nuclearConfig, exampleConfig, exampleWith, Function.update]) ⟨by norm_num, by norm_num, by norm_num, by norm_num⟩
    (nuclear_describes _) (nuclear_sensible (by simp)) (t := ⟨1, 1, 0, 0⟩)
    (hs' := ⟨0.4, 220, 0, 232, 0, 544⟩) (by simp [nuclearConfig, exampleConfig, exampleWith, Function.update])
    (by constructor <;> simp [nuclearConfig, exampleConfig, exampleWith, Function.update]) (by norm_num) (by norm_num)
    (by norm_num) (by rw [hs]; norm_num) (by constructor <;> simp [nuclearConfig, exampleConfig, exampleWith, Function.update])
    hI.nuclear hI.complete (by simp [nuclearConfig, exampleWith, Function.update])
    (r := ⟨[(8, 4), (20, 1), (74, 1)], 4, 40, 0⟩)
    (by constructor <;> simp [nuclearConfig, exampleConfig, exampleWith, Function.update]) (by simp) (by simp) (by simp) tungstate_masses
    (by norm_num) rfl (.inr rfl)).1

end Obscura
