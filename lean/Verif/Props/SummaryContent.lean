import Verif.Props.Summary

/-!
# C82 — what the summaries say
-/

namespace Obscura

open Spec

variable {S : Setup} {U : Units}

theorem shows_drop {out l : List Printed} (n : ℕ) (h : (out.drop n).take l.length = l) : Shows out l :=
  ⟨out.take n, (out.drop n).drop l.length, by
    conv_lhs => rw [← List.take_append_drop n out, ← List.take_append_drop l.length (out.drop n), h]
    simp⟩

theorem checkbox_eq (b : Bool) : checkbox b = box (b = true) := by
  unfold checkbox box
  cases b <;> simp

/-! ## Particles -/

theorem massUnit_stands (m : ℝ) : StandsForMass U m (m / (massUnit U m).1) (massUnit U m).2 := by
  have he := U.eV_pos
  unfold StandsForMass massUnit Units.keV Units.MeV Units.GeV
  split_ifs with h1 h2 h3
  · refine ⟨⟨U.eV, by simp, by field_simp⟩, fun h _ => ?_⟩
    constructor
    · rw [le_div_iff₀ he]; linarith
    · rw [div_lt_iff₀ he]; linarith
  · refine ⟨⟨10 ^ 3 * U.eV, by simp, by field_simp; norm_num⟩, fun h _ => ?_⟩
    constructor
    · rw [le_div_iff₀ (by positivity)]; linarith
    · rw [div_lt_iff₀ (by positivity)]; linarith
  · refine ⟨⟨10 ^ 6 * U.eV, by simp, by field_simp; norm_num⟩, fun h _ => ?_⟩
    constructor
    · rw [le_div_iff₀ (by positivity)]; linarith
    · rw [div_lt_iff₀ (by positivity)]; linarith
  · refine ⟨⟨10 ^ 9 * U.eV, by simp, by field_simp; norm_num⟩, fun h _ => ?_⟩
    constructor
    · rw [le_div_iff₀ (by positivity)]; linarith
    · rw [div_lt_iff₀ (by positivity)]; linarith

theorem base_shown {p : DMParticle} : (∃ v u, Shows (p.printBase U 0) [.text "\tMass:\t\t\t", .real v, .text " ", .text u, .text "\n"] ∧
      StandsForMass U p.mass v u) ∧
    Shows (p.printBase U 0) [.text "\tSpin:\t\t\t", .real p.spin, .text "\n"] ∧
    Shows (p.printBase U 0) [.text "\tLow mass:\t\t", box (p.lowMass = true), .text "\n"] := by
  rw [← checkbox_eq]
  exact ⟨⟨_, _, shows_drop 5 rfl, massUnit_stands _⟩, shows_drop 10 rfl, shows_drop 13 rfl⟩

theorem standard_shown {p : DMParticle} :
    Shows (p.printStandard U 0) [.text "\tCoupling ratio fixed:\t", box (p.fixedRelation = true), .text "\n"] ∧
    Shows (p.printStandard U 0) [.text "\tIsospin conservation:\t", box (p.fn = p.fp), .text "\n"] ∧
    (p.fixedRelation = true → (p.fp ≠ 0 →
        Shows (p.printStandard U 0) [.text "\tCoupling ratio:\t\t", .text "fn/fp = ", .rounded (p.fn / p.fp), .text "\n"]) ∧
      (p.fp = 0 → p.fn ≠ 0 → Shows (p.printStandard U 0) [.text "\tCoupling ratio:\t\t", .text "fp/fn = ", .rounded 0, .text "\n"])) ∧
    Shows (p.printStandard U 0) [.text "\tSigma_P[cm^2]:\t\t", .rounded (p.sigmaProton U / U.cm ^ 2), .text "\n"] ∧
    Shows (p.printStandard U 0) [.text "\tSigma_N[cm^2]:\t\t", .rounded (p.sigmaNeutron U / U.cm ^ 2), .text "\n"] ∧
    Shows (p.printStandard U 0) [.text "\tSigma_E[cm^2]:\t\t", .rounded (p.sigmaElectron / U.cm ^ 2), .text "\n"] := by
  have h2 : box (p.fn = p.fp) = checkbox (open Classical in decide (p.fn = p.fp)) := by
    rw [checkbox_eq]; unfold box; simp
  rw [← checkbox_eq, h2, pow_two]
  unfold DMParticle.printStandard
  rw [if_pos rfl]
  refine ⟨(Shows.left (Shows.left (shows_drop 0 rfl))), (Shows.left (Shows.left (shows_drop 3 rfl))), fun h => ⟨fun h0 => ?_, fun h0 h1 => ?_⟩,
    Shows.right (shows_drop 0 rfl), Shows.right (shows_drop 3 rfl), Shows.right (shows_drop 6 rfl)⟩
  · refine Shows.left (Shows.right ?_)
    rw [if_pos h]
    unfold DMParticle.printedRatio
    rw [if_pos h0]
    exact shows_drop 0 rfl
  · refine Shows.left (Shows.right ?_)
    rw [if_pos h]
    unfold DMParticle.printedRatio
    rw [if_neg (not_not.2 h0), if_pos h1, h0, zero_div]
    exact shows_drop 0 rfl

/-- C82 (particles). The summary of a particle gives its mass in a customary unit, its spin, its interaction, how the couplings are
related, and its cross sections in cm². -/
theorem C82_particle (p : DMParticle) :
    (∃ v u, Shows (p.printSummary U 0) [.text "\tMass:\t\t\t", .real v, .text " ", .text u, .text "\n"] ∧ StandsForMass U p.mass v u) ∧
    Shows (p.printSummary U 0) [.text "\tSpin:\t\t\t", .real p.spin, .text "\n"] ∧
    Shows (p.printSummary U 0) [.text "\tLow mass:\t\t", box (p.lowMass = true), .text "\n"] ∧
    Shows (p.printSummary U 0) [.text "\tCoupling ratio fixed:\t", box (p.fixedRelation = true), .text "\n"] ∧
    Shows (p.printSummary U 0) [.text "\tIsospin conservation:\t", box (p.fn = p.fp), .text "\n"] ∧
    (p.fixedRelation = true → (p.fp ≠ 0 →
        Shows (p.printSummary U 0) [.text "\tCoupling ratio:\t\t", .text "fn/fp = ", .rounded (p.fn / p.fp), .text "\n"]) ∧
      (p.fp = 0 → p.fn ≠ 0 → Shows (p.printSummary U 0) [.text "\tCoupling ratio:\t\t", .text "fp/fn = ", .rounded 0, .text "\n"])) ∧
    Shows (p.printSummary U 0) [.text "\tSigma_P[cm^2]:\t\t", .rounded (p.sigmaProton U / U.cm ^ 2), .text "\n"] ∧
    Shows (p.printSummary U 0) [.text "\tSigma_N[cm^2]:\t\t", .rounded (p.sigmaNeutron U / U.cm ^ 2), .text "\n"] ∧
    Shows (p.printSummary U 0) [.text "\tSigma_E[cm^2]:\t\t", .rounded (p.sigmaElectron / U.cm ^ 2), .text "\n"] ∧
    (p.interaction = .SD → Shows (p.printSummary U 0) [.text "Interaction:\t\tSpin-Dependent (SD)", .text "\n"]) ∧
    ∀ ff qRef m, p.interaction = .SI ff qRef m →
      Shows (p.printSummary U 0) [.text "\tInteraction:\t\tSpin-Independent (SI)", .text "\n"] ∧
      (∃ name, Shows (p.printSummary U 0) [.text "\tInteraction type:\t", .text name, .text "\n"] ∧
        DMParticle.formFactorOfName name = some ff) ∧
      (ff = .general → ∃ v u, Shows (p.printSummary U 0) [.text "\t\tMediator mass:\t", .real v, .text " ", .text u, .text "\n"] ∧
        StandsForMass U m v u) := by
  obtain ⟨⟨v, u, a1, a2⟩, a3, a4⟩ := base_shown (U := U) (p := p)
  obtain ⟨b1, b2, b3, b4, b5, b6⟩ := standard_shown (U := U) (p := p)
  unfold DMParticle.printSummary
  cases hi : p.interaction with
  | SD =>
    have base : ∀ l, Shows (p.printBase U 0) l → Shows (p.printSD U 0) l := fun l h => by
      unfold DMParticle.printSD; rw [if_pos rfl]; exact Shows.left (Shows.left (Shows.left h))
    have standard : ∀ l, Shows (p.printStandard U 0) l → Shows (p.printSD U 0) l := fun l h => by
      unfold DMParticle.printSD; rw [if_pos rfl]; exact Shows.left (Shows.right h)
    refine ⟨⟨v, u, base _ a1, a2⟩, base _ a3, base _ a4, standard _ b1, standard _ b2,
      fun h => ⟨fun h0 => standard _ ((b3 h).1 h0), fun h0 h1 => standard _ ((b3 h).2 h0 h1)⟩, standard _ b4, standard _ b5, standard _ b6,
      fun _ => ?_, fun _ _ _ h => by cases h⟩
    unfold DMParticle.printSD; rw [if_pos rfl]
    exact Shows.left (Shows.left (Shows.right (shows_drop 0 rfl)))
  | SI ff qRef m =>
    have base : ∀ l, Shows (p.printBase U 0) l → Shows (p.printSI U ff m 0) l := fun l h => by
      unfold DMParticle.printSI; rw [if_pos rfl]; exact Shows.left (Shows.left (Shows.left (Shows.left (Shows.left h))))
    have standard : ∀ l, Shows (p.printStandard U 0) l → Shows (p.printSI U ff m 0) l := fun l h => by
      unfold DMParticle.printSI; rw [if_pos rfl]; exact Shows.left (Shows.left (Shows.left (Shows.right h)))
    refine ⟨⟨v, u, base _ a1, a2⟩, base _ a3, base _ a4, standard _ b1, standard _ b2,
      fun h => ⟨fun h0 => standard _ ((b3 h).1 h0), fun h0 h1 => standard _ ((b3 h).2 h0 h1)⟩, standard _ b4, standard _ b5, standard _ b6,
      (fun h => by cases h), fun ff' q' m' h => ?_⟩
    cases h
    dsimp only
    unfold DMParticle.printSI; rw [if_pos rfl]
    refine ⟨Shows.left (Shows.left (Shows.left (Shows.left (Shows.right (shows_drop 1 rfl))))),
      ⟨_, Shows.left (Shows.left (Shows.right (shows_drop 0 rfl))), ?_⟩, fun h => ⟨_, _, Shows.left (Shows.right ?_), massUnit_stands _⟩⟩
    · cases ff <;> rfl
    · rw [if_pos h]
      exact shows_drop 0 rfl

/-! ## Distributions -/

theorem distribution_shown {I : Integrator} {d : Distribution} {name : String} {mean : Vec} {out : List Printed}
    (h : d.printBase U I name mean = .ok out) :
    Shows out [.text "\t", .text name, .text "\n"] ∧
    Shows out [.text "\tLocal DM density[GeV/cm^3]:\t", .real (d.density / (U.GeV / U.cm ^ 3)), .text "\n"] ∧
    Shows out [.text "\tSpeed domain [km/sec]:\t\t[", .rounded (d.vMin / (U.km / U.sec)), .text ",", .rounded (d.vMax / (U.km / U.sec)), .text "]",
      .text "\n"] ∧
    (∃ m, Shows out [.text "\tAverage DM velocity [km/sec]:\t", .vector m, .text "\n"] ∧ (U.km / U.sec) • m = mean) ∧
    ∃ a, d.averageSpeed I (-1) = .ok a ∧ Shows out [.text "\tAverage DM speed [km/sec]:\t", .rounded (a / (U.km / U.sec)), .text "\n"] := by
  obtain ⟨a, ha, h⟩ := Outcome.bind_eq_ok.1 h
  cases h
  have hk := U.km_pos
  have hs := U.sec_pos
  have e : U.GeV / U.cm ^ 3 = U.GeV / U.cm / U.cm / U.cm := by rw [div_div, div_div]; congr 1; ring
  rw [e]
  refine ⟨shows_drop 2 rfl, shows_drop 6 rfl, shows_drop 9 rfl, ⟨_, shows_drop 15 rfl, ?_⟩, a, ha, shows_drop 18 rfl⟩
  rw [smul_smul, mul_one_div_cancel (by positivity), one_smul]

theorem printBase_defined {I : Integrator} {d : Distribution} {name : String} {mean : Vec} : ∃ out, d.printBase U I name mean = .ok out := by
  unfold Distribution.printBase Distribution.averageSpeed
  rw [if_pos (by norm_num)]
  exact ⟨_, rfl⟩

/-- C82 (distributions). The summary of a halo model gives its local density, its domain of speeds, the mean velocity, the mean speed, the
parameters of the model and the velocity of the observer; that of an imported table gives the path. -/
theorem C82_halo (I : Integrator) (N : Numerics) (I3 : Integrator3) :
    (∀ (s : SHM) (name : String), ∃ out, s.printSummary U I I3 name 0 = .ok out ∧ Shows out [.text "\t", .text name, .text "\n"] ∧
      Shows out [.text "\tLocal DM density[GeV/cm^3]:\t", .real (s.density / (U.GeV / U.cm ^ 3)), .text "\n"] ∧
      Shows out [.text "\tSpeed domain [km/sec]:\t\t[", .rounded (s.vMin / (U.km / U.sec)), .text ",", .rounded (s.vMax / (U.km / U.sec)),
        .text "]", .text "\n"] ∧
      (∃ m, Shows out [.text "\tAverage DM velocity [km/sec]:\t", .vector m, .text "\n"] ∧ (U.km / U.sec) • m = s.averageVelocity I3) ∧
      (∃ a, (Distribution.ofSHM s).averageSpeed I (-1) = .ok a ∧
        Shows out [.text "\tAverage DM speed [km/sec]:\t", .rounded (a / (U.km / U.sec)), .text "\n"]) ∧
      Shows out [.text "\tSpeed dispersion v_0[km/sec]:\t", .real (s.v0 / (U.km / U.sec)), .text "\n"] ∧
      Shows out [.text "\tGal. escape velocity [km/sec]:\t", .real (s.vEsc / (U.km / U.sec)), .text "\n"] ∧
      (∃ m, Shows out [.text "\tObserver's velocity [km/sec]:\t", .vector m, .text "\n"] ∧ (U.km / U.sec) • m = s.velObs) ∧
      Shows out [.text "\tObserver's speed [km/sec]:\t", .rounded (s.vObs / (U.km / U.sec)), .text "\n"]) ∧
    (∀ s : SHMpp, ∃ out, s.printSummary U N I3 0 = .ok out ∧ Shows out [.text "\t", .text "Refined Standard Halo Model (SHM++)", .text "\n"] ∧
      Shows out [.text "\tLocal DM density[GeV/cm^3]:\t", .real (s.density / (U.GeV / U.cm ^ 3)), .text "\n"] ∧
      Shows out [.text "\tSpeed domain [km/sec]:\t\t[", .rounded (s.vMin / (U.km / U.sec)), .text ",", .rounded (s.vMax / (U.km / U.sec)),
        .text "]", .text "\n"] ∧
      (∃ m, Shows out [.text "\tAverage DM velocity [km/sec]:\t", .vector m, .text "\n"] ∧ (U.km / U.sec) • m = s.averageVelocity I3) ∧
      (∃ a, (Distribution.ofSHMpp N s).averageSpeed N.integrate (-1) = .ok a ∧
        Shows out [.text "\tAverage DM speed [km/sec]:\t", .rounded (a / (U.km / U.sec)), .text "\n"]) ∧
      Shows out [.text "\tSpeed dispersion v_0[km/sec]:\t", .real (s.v0 / (U.km / U.sec)), .text "\n"] ∧
      Shows out [.text "\tGal. escape velocity [km/sec]:\t", .real (s.vEsc / (U.km / U.sec)), .text "\n"] ∧
      (∃ m, Shows out [.text "\tObserver's velocity [km/sec]:\t", .vector m, .text "\n"] ∧ (U.km / U.sec) • m = s.velObs) ∧
      Shows out [.text "\tObserver's speed [km/sec]:\t", .rounded (s.vObs / (U.km / U.sec)), .text "\n"] ∧
      Shows out [.text "\tEta parameter:\t", .real s.etaS, .text "\n"] ∧ Shows out [.text "\tBeta parameter:\t", .real s.beta, .text "\n"]) ∧
    ∀ (d : Distribution) (name path : String), ∃ out, d.printImported U I I3 name path 0 = .ok out ∧
      Shows out [.text "\t", .text name, .text "\n"] ∧
      Shows out [.text "\tLocal DM density[GeV/cm^3]:\t", .real (d.density / (U.GeV / U.cm ^ 3)), .text "\n"] ∧
      Shows out [.text "\tSpeed domain [km/sec]:\t\t[", .rounded (d.vMin / (U.km / U.sec)), .text ",", .rounded (d.vMax / (U.km / U.sec)),
        .text "]", .text "\n"] ∧
      (∃ m, Shows out [.text "\tAverage DM velocity [km/sec]:\t", .vector m, .text "\n"] ∧ (U.km / U.sec) • m = d.averageVelocity I3) ∧
      (∃ a, d.averageSpeed I (-1) = .ok a ∧ Shows out [.text "\tAverage DM speed [km/sec]:\t", .rounded (a / (U.km / U.sec)), .text "\n"]) ∧
      Shows out [.text "\tFile path:\t", .text path, .text "\n"] := by
  have hk := U.km_pos
  have hs := U.sec_pos
  have hv : ∀ w : Vec, (U.km / U.sec) • ((1 / (U.km / U.sec)) • w) = w := fun w => by
    rw [smul_smul, mul_one_div_cancel (by positivity), one_smul]
  refine ⟨fun s name => ?_, fun s => ?_, fun d name path => ?_⟩
  · obtain ⟨b, hb⟩ := printBase_defined (U := U) (I := I) (d := Distribution.ofSHM s) (name := name) (mean := s.averageVelocity I3)
    obtain ⟨h1, h2, h3, ⟨m, h4, h5⟩, a, h6, h7⟩ := distribution_shown hb
    refine ⟨b ++ s.printSHM U, by unfold SHM.printSummary; rw [if_pos rfl, hb]; rfl, Shows.left h1, Shows.left h2, Shows.left h3,
      ⟨m, Shows.left h4, h5⟩, ⟨a, h6, Shows.left h7⟩, Shows.right (shows_drop 0 rfl), Shows.right (shows_drop 3 rfl),
      ⟨_, Shows.right (shows_drop 6 rfl), hv _⟩, Shows.right (shows_drop 9 rfl)⟩
  · obtain ⟨b, hb⟩ := printBase_defined (U := U) (I := N.integrate) (d := Distribution.ofSHMpp N s)
      (name := "Refined Standard Halo Model (SHM++)") (mean := s.averageVelocity I3)
    obtain ⟨h1, h2, h3, ⟨m, h4, h5⟩, a, h6, h7⟩ := distribution_shown hb
    refine ⟨_, by unfold SHMpp.printSummary; rw [if_pos rfl, hb]; rfl, Shows.left (Shows.left h1), Shows.left (Shows.left h2),
      Shows.left (Shows.left h3), ⟨m, Shows.left (Shows.left h4), h5⟩, ⟨a, h6, Shows.left (Shows.left h7)⟩,
      Shows.left (Shows.right (shows_drop 0 rfl)), Shows.left (Shows.right (shows_drop 3 rfl)),
      ⟨_, Shows.left (Shows.right (shows_drop 6 rfl)), hv _⟩, Shows.left (Shows.right (shows_drop 9 rfl)), Shows.right (shows_drop 0 rfl),
      Shows.right (shows_drop 3 rfl)⟩
  · obtain ⟨b, hb⟩ := printBase_defined (U := U) (I := I) (d := d) (name := name) (mean := d.averageVelocity I3)
    obtain ⟨h1, h2, h3, ⟨m, h4, h5⟩, a, h6, h7⟩ := distribution_shown hb
    exact ⟨_, by unfold Distribution.printImported; rw [if_pos rfl, hb]; rfl, Shows.left h1, Shows.left h2, Shows.left h3,
      ⟨m, Shows.left h4, h5⟩, ⟨a, h6, Shows.left h7⟩, Shows.right (shows_drop 0 rfl)⟩

/-- C82 (imported tables). A warning is printed when the integral of the table differs from one by more than a thousandth of the larger
of the two. -/
theorem C82_normalization_warning (norm : ℝ) (h : 0 ≤ norm) :
    warnsNormalization norm = true ↔ norm < 0.999 ∨ 1 / 0.999 < norm := by
  unfold warnsNormalization
  rw [decide_eq_true_iff, abs_one, abs_of_nonneg h]
  rcases le_total norm 1 with h1 | h1
  · rw [max_eq_right h1, abs_of_nonpos (by linarith), div_one]
    constructor
    · intro h2; left; norm_num; linarith
    · rintro (h2 | h2)
      · norm_num at h2; linarith
      · norm_num at h2; linarith
  · rw [max_eq_left h1, abs_of_nonneg (by linarith), lt_div_iff₀ (by linarith)]
    constructor
    · intro h2; right; norm_num; linarith
    · rintro (h2 | h2)
      · norm_num at h2; linarith
      · norm_num at h2; linarith

/-- Non-vacuity: a normalised table gives no warning, one that is off by a percent does. -/
example : warnsNormalization 1 = false ∧ warnsNormalization 1.01 = true := by
  constructor
  · rw [Bool.eq_false_iff]
    intro h
    rw [C82_normalization_warning 1 (by norm_num)] at h
    norm_num at h
  · rw [C82_normalization_warning 1.01 (by norm_num)]
    norm_num

/-! ## Targets -/

/-- C82 (nuclei and atoms). The table of a nucleus has one row for each isotope with its name, charge, mass number, abundance in per cent,
spin and spin contents, and in the end the sum of the abundances; the table of an atom has one row for each orbital with its binding
energy in eV and the number of further electrons. -/
theorem C82_targets :
    (∀ (n : Nucleus), Shows (n.printSummary U 0) [.text n.name, .text "\n"] ∧
      (∀ iso ∈ n.isotopes, ∃ name, Shows (n.printSummary U 0) [.text name, .text "\t", .nat iso.Z, .text "\t", .nat iso.A, .text "\t",
        .rounded (100 * iso.abundance), .text "\t\t", .real iso.spin, .text "\t", .real iso.sp, .text "\t", .real iso.sn, .text "\n"] ∧
        ∀ r ∈ shippedRows, r.Z = iso.Z → name = r.name ++ "-" ++ toString iso.A) ∧
      Shows (n.printSummary U 0) [.text "Total:\t\t", .rounded (n.averageMass / U.mNucleon), .text "\t",
        .real (100 * (n.isotopes.map (·.abundance)).sum), .text "\n"]) ∧
    ∀ (a : Atom) (Z : ℕ), a.nucleus.Z = some Z → ∃ out, a.printSummary U 0 = .ok out ∧
      Shows out [.text "Atom:\t\t", .text a.nucleus.name, .text "\n"] ∧ Shows out [.text "Z:\t\t", .nat Z, .text "\n"] ∧
      Shows out [.text "Mass [GeV]:\t", .real a.nucleus.averageMass, .text "\n"] ∧ Shows out [.text "W [eV]:\t\t", .real (a.W / U.eV), .text "\n"] ∧
      ∀ e ∈ a.electrons, Shows out [.text "\t", .text e.name, .text "\t", .real (e.binding / U.eV), .text "\t\t", .nat e.secondaries, .text "\n"] := by
  refine ⟨fun n => ⟨Shows.left (Shows.left (shows_drop 1 rfl)), fun iso hi =>
    ⟨nucleusNames.getD (iso.Z - 1) "" ++ "-" ++ toString iso.A, Shows.left (Shows.right ?_), ?_⟩, ?_⟩, fun a Z hZ => ?_⟩
  · exact shows_flatten (List.mem_map.2 ⟨iso, hi, rfl⟩)
  · intro r hr hZ
    have := List.all_eq_true.1 shipped_check.2.2.2 r hr
    rw [← hZ, eq_of_beq this]
  · refine Shows.right ?_
    have : n.isotopes.foldl (fun (t : ℝ) iso => t + 100 * iso.abundance) 0 = 100 * (n.isotopes.map (·.abundance)).sum := by
      rw [← List.sum_map_mul_left, List.sum_eq_foldl, List.foldl_map]
    rw [this]
    exact shows_drop 0 rfl
  · refine ⟨_, by unfold Atom.printSummary; rw [if_pos rfl, hZ]; rfl, Shows.left (shows_drop 0 rfl), Shows.left (shows_drop 3 rfl),
      Shows.left (shows_drop 6 rfl), Shows.left (shows_drop 9 rfl), fun e he => Shows.right (shows_flatten (List.mem_map.2 ⟨e, he, rfl⟩))⟩

/-! ## Detectors -/

theorem collect_row {α β : Type} {f : α → Outcome β} {l : List α} {r : List β} (h : collect f l = .ok r) {a : α} (ha : a ∈ l) :
    ∃ b ∈ r, f a = .ok b := by
  obtain ⟨h1, h2⟩ := collect_eq_ok h
  obtain ⟨i, hi, rfl⟩ := List.getElem_of_mem ha
  exact ⟨_, List.getElem_mem (by rw [h1]; exact hi), h2 i hi (by rw [h1]; exact hi)⟩

theorem vecGet_of_getElem? {α : Type} {l : List α} {i : ℕ} {a : α} (h : l[i]? = some a) : vecGet l i = .ok a := by
  unfold vecGet; rw [h]

theorem detector_shown {d : Detector} {out : List Printed} (h : d.printBase S 0 = .ok out) : DetectorShown S d out := by
  unfold Detector.printBase at h
  rw [if_pos rfl] at h
  obtain ⟨b, hb, h⟩ := Outcome.bind_eq_ok.1 h
  obtain ⟨e, he, h⟩ := Outcome.bind_eq_ok.1 h
  cases h
  refine ⟨Shows.left (Shows.left (Shows.left (Shows.left (shows_drop 3 rfl)))), Shows.left (Shows.left (Shows.left (Shows.left (shows_drop 6 rfl)))), Shows.left (Shows.left (Shows.left (Shows.left (shows_drop 9 rfl)))),
    Shows.left (Shows.left (Shows.left (Shows.left (shows_drop 12 rfl)))), Shows.left (Shows.left (Shows.left (Shows.left (shows_drop 15 rfl)))), Shows.left (Shows.left (Shows.left (Shows.left (shows_drop 18 rfl)))),
    ⟨_, Shows.left (Shows.left (Shows.left (Shows.left (shows_drop 21 rfl)))), ?_⟩, fun ha => ⟨Shows.left (Shows.left (Shows.left (Shows.right ?_))), fun i x n y hx hn hy => Shows.left (Shows.left (Shows.left (Shows.right ?_)))⟩, fun hu => ?_,
    fun hu i x y hi hx hy => ?_⟩
  · cases d.analysis <;> simp [Analysis.label]
  · unfold Detector.printBins at hb
    rw [if_pos ha] at hb
    by_cases h0 : d.binObserved = []
    · rw [if_pos h0] at hb; cases hb; exact shows_drop 0 rfl
    · rw [if_neg h0] at hb
      obtain ⟨rows, -, hb⟩ := Outcome.bind_eq_ok.1 hb
      cases hb
      exact Shows.left (shows_drop 0 rfl)
  · have hi := (List.getElem?_eq_some_iff.1 hn).1
    unfold Detector.printBins at hb
    rw [if_pos ha, if_neg (List.ne_nil_of_length_pos (by omega))] at hb
    obtain ⟨rows, hr, hb⟩ := Outcome.bind_eq_ok.1 hb
    cases hb
    obtain ⟨row, h1, h2⟩ := collect_row hr (List.mem_range.2 hi)
    simp only [Detector.printBin, vecGet_of_getElem? hx, vecGet_of_getElem? hn, vecGet_of_getElem? hy, Outcome.bind_ok] at h2
    cases h2
    exact Shows.right (shows_flatten h1)
  · refine Shows.left (Shows.left (Shows.right ?_))
    rw [if_pos (by rcases hu with hu | hu | hu <;> simp [hu])]
    exact shows_drop 0 rfl
  · refine Shows.left (Shows.right ?_)
    unfold Detector.printEnergyBins at he
    rw [if_pos hu] at he
    obtain ⟨rows, hr, he⟩ := Outcome.bind_eq_ok.1 he
    cases he
    obtain ⟨row, h1, h2⟩ := collect_row hr (List.mem_range.2 hi)
    simp only [Detector.printEnergyBin, vecGet_of_getElem? hx, vecGet_of_getElem? hy, Outcome.bind_ok] at h2
    cases h2
    exact Shows.right (shows_flatten h1)

theorem detectorShown_left {d : Detector} {a b : List Printed} (h : DetectorShown S d a) : DetectorShown S d (a ++ b) := by
  obtain ⟨h1, h2, h3, h4, h5, h6, ⟨l, h7, h8⟩, h9, h10, h11⟩ := h
  exact ⟨Shows.left h1, Shows.left h2, Shows.left h3, Shows.left h4, Shows.left h5, Shows.left h6, ⟨l, Shows.left h7, h8⟩,
    fun ha => ⟨Shows.left (h9 ha).1, fun i x n y hx hn hy => Shows.left ((h9 ha).2 i x n y hx hn hy)⟩, fun hu => Shows.left (h10 hu),
    fun hu i x y hi hx hy => Shows.left (h11 hu i x y hi hx hy)⟩

/-- C82 (detectors; missing: what the summary must not show, see `C82_fails_stale_bins`). If the summary of a detector is defined, it
describes the detector: name, target particles, exposure in kg years,
efficiency in per cent, observed events, background, kind of analysis, and the table of the bins. -/
theorem C82_detector_partial {D : AnyDetector} {out : List Printed} (h : D.printSummary S 0 = .ok out) : DetectorShown S D.base out := by
  cases D with
  | nuclear d x =>
    unfold AnyDetector.printSummary NuclearDetector.printSummary at h
    dsimp only at h
    rw [if_pos rfl] at h
    obtain ⟨b, hb, h⟩ := Outcome.bind_eq_ok.1 h
    obtain ⟨rows, -, h⟩ := Outcome.bind_eq_ok.1 h
    cases h
    exact detectorShown_left (detectorShown_left (detectorShown_left (detector_shown hb)))
  | electronRecoil d x =>
    obtain ⟨b, hb, h⟩ := Outcome.bind_eq_ok.1 h
    obtain ⟨rows, -, h⟩ := Outcome.bind_eq_ok.1 h
    obtain ⟨an, -, h⟩ := Outcome.bind_eq_ok.1 h
    cases h
    exact detectorShown_left (detectorShown_left (detectorShown_left (detectorShown_left (detectorShown_left (detector_shown hb)))))
  | migdal d x =>
    obtain ⟨b, hb, h⟩ := Outcome.bind_eq_ok.1 h
    obtain ⟨rows, -, h⟩ := Outcome.bind_eq_ok.1 h
    obtain ⟨an, -, h⟩ := Outcome.bind_eq_ok.1 h
    cases h
    exact detectorShown_left (detectorShown_left (detectorShown_left (detectorShown_left (detectorShown_left (detector_shown hb)))))
  | crystal d x =>
    obtain ⟨b, hb, h⟩ := Outcome.bind_eq_ok.1 h
    obtain ⟨t, -, h⟩ := Outcome.bind_eq_ok.1 h
    cases h
    exact detectorShown_left (detectorShown_left (detector_shown hb))

/-- Non-vacuity: a detector with two bins and its table. -/
example (n : Nucleus) : ∃ d x d' out, NuclearDetector.make "D" 1 [n, n] [0.25, 0.75] = .ok (d, x) ∧
    d.run [.useEnergyBins 1 2 2, .setBinEfficiencies [1, 0.5], .setObservedBins [3, 4]] = .ok d' ∧
    AnyDetector.printSummary S 0 (.nuclear d' x) = .ok out ∧ Shows out [.text "Experiment summary:\t", .text "D", .text "\n"] ∧
    Shows out [.text "\t\t", .nat 2, .text "\t", .real (100 * 0.5), .text "\t\t", .nat 4, .text "\t\t", .real 0, .text "\n"] := by
  have hm : NuclearDetector.make "D" 1 [n, n] [0.25, 0.75] =
      .ok (Detector.make "D" 1 "Nuclei", { nuclei := [n, n], fractions := [0.25, 0.75], resolution := 0, usingTables := false, efficiencies := [] }) := by
    unfold NuclearDetector.make NuclearDetector.massFractions
    rw [if_neg (by norm_num; simp)]
    rfl
  have hr : ∃ d', (Detector.make "D" 1 "Nuclei").run [.useEnergyBins 1 2 2, .setBinEfficiencies [1, 0.5], .setObservedBins [3, 4]] = .ok d' ∧
      d'.analysis = .binnedPoisson ∧ d'.binEfficiencies = [1, 0.5] ∧ d'.binObserved = [3, 4] ∧ d'.binBackground = [0, 0] ∧ d'.name = "D" := by
    simp [Detector.run, Detector.step, Detector.useEnergyBins, Detector.initializeBinned, Detector.make, toUInt32, Detector.setBinEfficiencies,
      Detector.setObservedBins, List.replicate]
  obtain ⟨d', hr, h1, h2, h3, h4, h5⟩ := hr
  obtain ⟨out, ho⟩ := C81_nuclear_partial (S := S) hm (.inr rfl) (by simp [SensibleCall]) hr ⟨rfl, rfl⟩ 0
  obtain ⟨a1, -, -, -, -, -, -, a2, -⟩ := C82_detector_partial ho
  refine ⟨_, _, d', out, hm, hr, ho, h5 ▸ a1, (a2 h1).2 1 0.5 4 0 ?_ ?_ ?_⟩
  · show d'.binEfficiencies[1]? = _; rw [h2]; rfl
  · show d'.binObserved[1]? = _; rw [h3]; rfl
  · show d'.binBackground[1]? = _; rw [h4]; rfl

/-- C82 (failure: bins of an earlier analysis). After a change from energy bins to a threshold the summary announces a Poisson analysis and
still lists the ranges of bins. -/
theorem C82_fails_stale_bins {d d' : Detector} {x : NuclearDetector} {lo hi a b : ℝ} {n : ℤ} {out : List Printed}
    (hr : d.run [.useEnergyBins lo hi n, .useEnergyThreshold a b] = .ok d') (h : AnyDetector.printSummary S 0 (.nuclear d' x) = .ok out) :
    Shows out [.text "\tStatistical analysis:\t", .text "Poisson", .text "\n"] ∧ Shows out [.text "\n\t\tBin\tBin range [keV]", .text "\n"] := by
  have key : d'.usingEnergyBins = true ∧ d'.analysis = .poisson := by
    obtain ⟨d1, h1, hr⟩ := Outcome.bind_eq_ok.1 hr
    obtain ⟨d2, h2, hr⟩ := Outcome.bind_eq_ok.1 hr
    cases hr
    have hb : d1.usingEnergyBins = true := by
      obtain ⟨d0, -, h1⟩ := Outcome.bind_eq_ok.1 h1
      split_ifs at h1
      cases h1
      rfl
    simp only [Detector.step, Detector.useEnergyThreshold] at h2
    split_ifs at h2
    cases h2
    exact ⟨hb, rfl⟩
  obtain ⟨-, -, -, -, -, -, ⟨l, hl, hm⟩, -⟩ := C82_detector_partial h
  constructor
  · have : l = "Poisson" := by
      rw [show AnyDetector.base (.nuclear d' x) = d' from rfl, key.2] at hm
      simpa using hm
    exact this ▸ hl
  · unfold AnyDetector.printSummary NuclearDetector.printSummary at h
    dsimp only at h
    rw [if_pos rfl] at h
    obtain ⟨b, hb, h⟩ := Outcome.bind_eq_ok.1 h
    obtain ⟨rows, -, h⟩ := Outcome.bind_eq_ok.1 h
    cases h
    unfold Detector.printBase at hb
    rw [if_pos rfl] at hb
    obtain ⟨b1, -, hb⟩ := Outcome.bind_eq_ok.1 hb
    obtain ⟨e, he, hb⟩ := Outcome.bind_eq_ok.1 hb
    cases hb
    unfold Detector.printEnergyBins at he
    rw [if_pos key.1] at he
    obtain ⟨rows', -, he⟩ := Outcome.bind_eq_ok.1 he
    cases he
    exact Shows.left (Shows.left (Shows.left (Shows.left (Shows.right (Shows.left (shows_drop 0 rfl))))))

/-- Non-vacuity: two bins, then a threshold. -/
example (n : Nucleus) : ∃ d x d' out, NuclearDetector.make "D" 1 [n, n] [0.25, 0.75] = .ok (d, x) ∧
    d.run [.useEnergyBins 1 2 2, .useEnergyThreshold 1 2] = .ok d' ∧ AnyDetector.printSummary S 0 (.nuclear d' x) = .ok out := by
  have hm : ∃ x, NuclearDetector.make "D" 1 [n, n] [0.25, 0.75] = .ok (Detector.make "D" 1 "Nuclei", x) := by
    unfold NuclearDetector.make NuclearDetector.massFractions
    rw [if_neg (by norm_num; simp)]
    exact ⟨_, rfl⟩
  obtain ⟨x, hm⟩ := hm
  have hr : ∃ d', (Detector.make "D" 1 "Nuclei").run [.useEnergyBins 1 2 2, .useEnergyThreshold 1 2] = .ok d' := by
    simp [Detector.run, Detector.step, Detector.useEnergyBins, Detector.initializeBinned, Detector.make, toUInt32, Detector.useEnergyThreshold]
  obtain ⟨d', hr⟩ := hr
  obtain ⟨out, ho⟩ := C81_nuclear_partial (S := S) hm (.inr rfl) (by simp [SensibleCall]) hr ⟨rfl, rfl⟩ 0
  exact ⟨_, x, d', out, hm, hr, ho⟩

/-- C82 (nuclear recoils). The summary lists all target nuclei with their mass fractions in per cent, the window of energies and the
resolution in keV. -/
theorem C82_nuclear {d : Detector} {x : NuclearDetector} {out : List Printed} (h : AnyDetector.printSummary S 0 (.nuclear d x) = .ok out) :
    (∀ (i : ℕ) (n : Nucleus) (f : ℝ), x.nuclei[i]? = some n → x.fractions[i]? = some f →
      Shows out [.text "\t\t", .text n.name, .text "\t", .rounded (100 * f), .text "%", .text "\n"]) ∧
    Shows out [.text "\tThreshold [keV]:\t", .real (d.energyThreshold / S.U.keV), .text "\n"] ∧
    Shows out [.text "\tER_max [keV]:\t\t", .real (d.energyMax / S.U.keV), .text "\n"] ∧
    Shows out [.text "\tER resolution [keV]:\t", .real (x.resolution / S.U.keV), .text "\n"] := by
  unfold AnyDetector.printSummary NuclearDetector.printSummary at h
  dsimp only at h
  rw [if_pos rfl] at h
  obtain ⟨b, hb, h⟩ := Outcome.bind_eq_ok.1 h
  obtain ⟨rows, hr, h⟩ := Outcome.bind_eq_ok.1 h
  cases h
  refine ⟨fun i n f hn hf => Shows.left (Shows.right ?_), Shows.right (shows_drop 0 rfl), Shows.right (shows_drop 3 rfl),
    Shows.right (shows_drop 6 rfl)⟩
  obtain ⟨row, h1, h2⟩ := collect_row hr (List.mem_range.2 (List.getElem?_eq_some_iff.1 hn).1)
  simp only [vecGet_of_getElem? hn, vecGet_of_getElem? hf, Outcome.bind_ok] at h2
  cases h2
  exact shows_flatten h1

/-- C82 (electron recoils). The summary lists all target atoms with their mass fractions in per cent, says whether there are bins in
electrons or photoelectrons, and gives the parameters of the photoelectron signal and its bins, or the window of electron numbers. -/
theorem C82_ionization {d : Detector} {x : IonizationDetector} {out : List Printed}
    (h : AnyDetector.printSummary S 0 (.electronRecoil d x) = .ok out ∨ AnyDetector.printSummary S 0 (.migdal d x) = .ok out) :
    (∀ (i : ℕ) (a : Atom) (f : ℝ), x.atoms[i]? = some a → x.fractions[i]? = some f →
      Shows out [.text "\t\t\t", .text a.nucleus.name, .text "\t(", .rounded (100 * f), .text "%)", .text "\n"]) ∧
    Shows out [.text "\tElectron bins:\t\t", box (x.usingElectronBins = true), .text "\n"] ∧
    Shows out [.text "\tPE (S2) bins:\t\t", box (x.usingS2Bins = true), .text "\n"] ∧
    (x.usingS2Bins = true ∨ x.usingS2Threshold = true →
      Shows out [.text "\tmu_PE:\t\t", .real x.s2Mu, .text "\n"] ∧ Shows out [.text "\tsigma_PE:\t", .real x.s2Sigma, .text "\n"] ∧
      Shows out [.text "\tImported trigger efficiencies:\t", box (x.trigger ≠ []), .text "\n"] ∧
      Shows out [.text "\tImported acc. efficiencies:\t", box (x.acceptance ≠ []), .text "\n"] ∧
      (x.usingS2Bins = true → ∀ i lo hi, i < d.bins → x.s2Bins[i]? = some lo → x.s2Bins[i + 1]? = some hi →
        Shows out [.text "\t\t", .nat (i + 1), .text "\t[", .nat lo, .text ",", .nat hi, .text ")", .text "\n"])) ∧
    (x.usingS2Bins = false → x.usingS2Threshold = false → x.usingElectronBins = true ∨ x.usingElectronThreshold = true →
      Shows out [.text "\t\tNe threshold:\t", .nat x.neThreshold, .text "\n"] ∧
      Shows out [.text "\t\tNe max:\t\t", .nat x.neMax, .text "\n"]) := by
  replace h : x.printSummary S d 0 = .ok out := by rcases h with h | h <;> exact h
  obtain ⟨b, hb, h⟩ := Outcome.bind_eq_ok.1 h
  obtain ⟨rows, hr, h⟩ := Outcome.bind_eq_ok.1 h
  obtain ⟨an, ha, h⟩ := Outcome.bind_eq_ok.1 h
  cases h
  rw [← checkbox_eq, ← checkbox_eq]
  refine ⟨fun i a f hn hf => Shows.left (Shows.left (Shows.left (Shows.right ?_))), Shows.left (Shows.left (Shows.right (shows_drop 0 rfl))),
    Shows.left (Shows.left (Shows.right (shows_drop 3 rfl))), fun hu => ?_, fun h1 h2 hu => ?_⟩
  · obtain ⟨row, h1, h2⟩ := collect_row hr (List.mem_range.2 (List.getElem?_eq_some_iff.1 hn).1)
    simp only [vecGet_of_getElem? hn, vecGet_of_getElem? hf, Outcome.bind_ok] at h2
    cases h2
    exact shows_flatten h1
  · unfold IonizationDetector.printAnalysis at ha
    rw [if_pos (by rcases hu with hu | hu <;> simp [hu])] at ha
    have hb : ∀ {α : Type} (l : List α), box (l ≠ []) = checkbox (!l.isEmpty) := fun l => by
      rw [checkbox_eq]; cases l <;> simp
    rw [hb, hb]
    cases hs : x.usingS2Bins with
    | false =>
      rw [hs] at ha
      cases ha
      exact ⟨Shows.left (Shows.right (Shows.left (Shows.left (shows_drop 0 rfl)))), Shows.left (Shows.right (Shows.left (Shows.left (shows_drop 3 rfl)))),
        Shows.left (Shows.right (Shows.left (Shows.left (shows_drop 6 rfl)))), Shows.left (Shows.right (Shows.left (Shows.left (shows_drop 9 rfl)))),
        fun hu => by cases hu⟩
    | true =>
      rw [hs] at ha
      obtain ⟨r, hr, ha⟩ := Outcome.bind_eq_ok.1 ha
      cases ha
      refine ⟨Shows.left (Shows.right (Shows.left (Shows.left (shows_drop 0 rfl)))), Shows.left (Shows.right (Shows.left (Shows.left (shows_drop 3 rfl)))),
        Shows.left (Shows.right (Shows.left (Shows.left (shows_drop 6 rfl)))), Shows.left (Shows.right (Shows.left (Shows.left (shows_drop 9 rfl)))),
        fun _ i lo hi hi' h1 h2 => Shows.left (Shows.right (Shows.right ?_))⟩
      obtain ⟨row, h3, h4⟩ := collect_row hr (List.mem_range.2 hi')
      simp only [IonizationDetector.printS2Bin, vecGet_of_getElem? h1, vecGet_of_getElem? h2, Outcome.bind_ok] at h4
      cases h4
      exact shows_flatten h3
  · unfold IonizationDetector.printAnalysis at ha
    rw [if_neg (by simp [h1, h2]), if_pos (by rcases hu with hu | hu <;> simp [hu])] at ha
    cases ha
    exact ⟨Shows.left (Shows.right (shows_drop 0 rfl)), Shows.left (Shows.right (shows_drop 3 rfl))⟩

/-- C82 (semiconductors). The summary names the crystal and, if a threshold or bins of electron-hole pairs have been set, the threshold. -/
theorem C82_crystal {d : Detector} {x : CrystalDetector} {out : List Printed} (h : AnyDetector.printSummary S 0 (.crystal d x) = .ok out) :
    Shows out [.text "\tTarget:\t\t\t", .text x.crystal.name, .text " semiconductor", .text "\n"] ∧
    (x.usingQThreshold = some true ∨ x.usingQBins = some true →
      ∃ Q, x.qThreshold = some Q ∧ Shows out [.text "\teh pair threshold:\t", .nat Q, .text "\n"]) := by
  obtain ⟨b, hb, h⟩ := Outcome.bind_eq_ok.1 h
  obtain ⟨t, ht, h⟩ := Outcome.bind_eq_ok.1 h
  cases h
  refine ⟨Shows.left (Shows.right (shows_drop 3 rfl)), fun hu => ?_⟩
  unfold CrystalDetector.printThreshold at ht
  cases h1 : x.usingQThreshold with
  | none => rw [h1] at ht; cases ht
  | some th =>
    rw [h1] at ht
    cases h3 : x.qThreshold with
    | none =>
      rw [h3] at ht
      cases th with
      | true => cases ht
      | false =>
        rcases hu with hu | hu
        · rw [hu] at h1; cases h1
        · rw [hu] at ht; cases ht
    | some Q =>
      rw [h3] at ht
      refine ⟨Q, rfl, ?_⟩
      cases th with
      | true => cases ht; exact Shows.right (shows_drop 0 rfl)
      | false =>
        rcases hu with hu | hu
        · rw [hu] at h1; cases h1
        · rw [hu] at ht; cases ht; exact Shows.right (shows_drop 0 rfl)

/-! ## Configurations -/

/-- C82 (configurations). The summary of a configuration contains the path of the file, the ID, the complete summaries of the particle, the
distribution and the detector, and the parameters of the limits. -/
theorem C82_configuration {o : Configuration} {halo out : List Printed} (h : o.printSummary S halo 0 = .ok out) :
    Shows out [.text "Config file:\t", .text (String.ofList o.cfgFile), .text "\n"] ∧
    Shows out [.text "ID:\t\t", .text (String.ofList o.ID), .text "\n"] ∧
    Shows out (o.particle.printSummary S.U 0) ∧ Shows out halo ∧ (∃ det, o.detector.printSummary S 0 = .ok det ∧ Shows out det) ∧
    Shows out [.text "\tCertainty level [%]:\t", .real (100 * o.certainty), .text "\n"] ∧
    Shows out [.text "\tMass range [GeV]:\t[", .real o.massMin, .text ",", .real o.massMax, .text "]", .text "\n"] ∧
    Shows out [.text "\tMass steps:\t\t", .nat o.masses] := by
  unfold Configuration.printSummary at h
  rw [if_pos rfl] at h
  obtain ⟨det, hd, h⟩ := Outcome.bind_eq_ok.1 h
  cases h
  exact ⟨Shows.left (Shows.left (Shows.left (Shows.left (shows_drop 4 rfl)))), Shows.left (Shows.left (Shows.left (Shows.left (shows_drop 7 rfl)))),
    Shows.left (Shows.left (Shows.left (Shows.right (Shows.refl _)))), Shows.left (Shows.left (Shows.right (Shows.refl _))),
    ⟨det, hd, Shows.left (Shows.right (Shows.refl _))⟩, Shows.right (shows_drop 2 rfl), Shows.right (shows_drop 5 rfl), Shows.right (shows_drop 11 rfl)⟩

end Obscura
