import Verif.Model.Defaults
import Verif.Props.Experiments
import Verif.Props.Histories
import Verif.Props.ExperimentsSample

/-!
# C84 — detectors without arguments and without a region of interest
-/

namespace Obscura

open Spec

variable {S : Setup} {rows : List NuclearRow} {cache : List Nucleus} {T : Tools}

/-! ## Default arguments -/

/-- C84 (constructors without arguments). They give a kilogram day of natural xenon for nuclear recoils, ionization and the Migdal effect and a
gram year of silicon for crystals: the same objects as the constructors with these arguments. -/
theorem C84_default_constructors (hI : Installed S rows) (hc : CacheReachable S.U (some rows) cache) :
    (∃ c' d x, S.defaultNuclear cache = .ok (c', .nuclear d x) ∧
      NuclearDetector.make "Nuclear recoil experiment" (86400 * 1000 * S.M.gram * S.U.sec) [element S.U rows 54] [1] = .ok (d, x)) ∧
    (∃ c' d x, S.defaultElectronRecoil cache = .ok (c', .electronRecoil d x) ∧
      S.makeIonization cache "Electron recoil experiment" (86400 * 1000 * S.M.gram * S.U.sec) "Electrons" "Xe" = .ok (c', d, x)) ∧
    (∃ c' d x, S.defaultMigdal cache = .ok (c', .migdal d x) ∧
      S.makeIonization cache "Migdal scattering experiment" (86400 * 1000 * S.M.gram * S.U.sec) "Nuclei" "Xe" = .ok (c', d, x)) ∧
    (∃ d x, S.defaultCrystal = .ok (.crystal d x) ∧ S.makeCrystal "Crystal experiment" (S.M.gram * S.M.year) "Si" = .ok (d, x)) := by
  have hu : S.kg * S.day = 86400 * 1000 * S.M.gram * S.U.sec := by
    unfold Setup.kg Setup.day Setup.minute; ring
  refine ⟨?_, ?_, ?_, ?_⟩
  · obtain ⟨c', h1⟩ := (C51_get_nucleus (U := S.U) hI.complete hc 54).1 (by norm_num)
    refine ⟨c', Detector.make "Nuclear recoil experiment" (S.kg * S.day) "Nuclei",
      { nuclei := [element S.U rows 54], fractions := [1], resolution := 0, usingTables := false, efficiencies := [] }, ?_, ?_⟩
    · unfold Setup.defaultNuclear
      rw [hI.nuclear, h1, Outcome.bind_ok]
    · rw [← hu]
      unfold NuclearDetector.make NuclearDetector.massFractions
      simp
  · obtain ⟨c', a, h1, -⟩ := makeIonization_ok hI hc (.inl rfl) "Electron recoil experiment" (S.kg * S.day) "Electrons"
    refine ⟨c', _, _, ?_, by rw [← hu]; exact h1⟩
    unfold Setup.defaultElectronRecoil
    rw [h1, Outcome.bind_ok]
  · obtain ⟨c', a, h1, -⟩ := makeIonization_ok hI hc (.inl rfl) "Migdal scattering experiment" (S.kg * S.day) "Nuclei"
    refine ⟨c', _, _, ?_, by rw [← hu]; exact h1⟩
    unfold Setup.defaultMigdal
    rw [h1, Outcome.bind_ok]
  · obtain ⟨c, h1, -⟩ := makeCrystal_ok hI "Crystal experiment" (S.M.gram * S.M.year)
    refine ⟨_, _, ?_, h1⟩
    unfold Setup.defaultCrystal
    rw [h1, Outcome.bind_ok]

/-- C84 (one atom as a mixture). A detector whose mixture consists of one atom is the detector of this atom. -/
theorem C84_single_atom (cache : List Nucleus) (label : String) (expo : ℝ) (atom : String) (given : List ℝ) (hg : given = [] ∨ given = [1]) :
    (∀ c' d x, S.makeIonization cache label expo "Electrons" atom = .ok (c', d, x) →
      S.electronRecoilMixture cache label expo [atom] given = .ok (c', .electronRecoil d x)) ∧
    (∀ c' d x, S.makeIonization cache label expo "Nuclei" atom = .ok (c', d, x) →
      S.migdalMixture cache label expo [atom] given = .ok (c', .migdal d x)) := by
  have hf : IonizationDetector.massFractions 1 given = .ok [1] := by
    unfold IonizationDetector.massFractions
    rcases hg with rfl | rfl <;> simp
  have key : ∀ target c' d x, S.makeIonization cache label expo target atom = .ok (c', d, x) →
      IonizationDetector.make S.U S.P S.files.response S.files.nuclear cache label expo target [atom] given = .ok (c', d, x) := by
    intro target c' d x h
    unfold Setup.makeIonization IonizationDetector.makeOne at h
    obtain ⟨⟨c1, a⟩, h1, h2⟩ := Outcome.bind_eq_ok.1 h
    cases h2
    unfold IonizationDetector.make IonizationDetector.makeAtoms IonizationDetector.makeAtoms
    simp only [h1, Outcome.bind_ok, List.length_singleton, hf]
  constructor <;> intro c' d x h
  · unfold Setup.electronRecoilMixture
    rw [key _ _ _ _ h, Outcome.bind_ok]
  · unfold Setup.migdalMixture
    rw [key _ _ _ _ h, Outcome.bind_ok]

/-- Looking up an element by its name leaves a reachable cache. -/
theorem findNucleus_cache {U : Units} {file : Option (List NuclearRow)} {name : String} : ∀ (Zs : List ℕ) (c : List Nucleus) {c' : List Nucleus}
    {n : Nucleus}, CacheReachable U file c → findNucleus U file name Zs c = .ok (c', n) → CacheReachable U file c'
  | [], _, _, _, _, h => by cases h
  | Z :: Zs, c, c', n, hc, h => by
    unfold findNucleus at h
    obtain ⟨⟨c1, m⟩, h1, h2⟩ := Outcome.bind_eq_ok.1 h
    dsimp only at h2
    split_ifs at h2
    · exact .lookup (.lookup hc h1) h2
    · exact findNucleus_cache Zs c1 (.lookup hc h1) h2

/-- Constructing an atom leaves a reachable cache. -/
theorem atom_cache {U : Units} {P : Interpolator2D} {tables : ResponseTables} {file : Option (List NuclearRow)} {c c' : List Nucleus}
    {name : String} {a : Atom} (hc : CacheReachable U file c) (h : Atom.make U P tables file c name = .ok (c', a)) :
    CacheReachable U file c' := by
  unfold Atom.make at h
  obtain ⟨⟨c1, n⟩, h1, h2⟩ := Outcome.bind_eq_ok.1 h
  have hc1 := findNucleus_cache _ _ hc h1
  dsimp only at h2
  split_ifs at h2
  · obtain ⟨es, -, h3⟩ := Outcome.bind_eq_ok.1 h2
    cases h3; exact hc1
  · obtain ⟨es, -, h3⟩ := Outcome.bind_eq_ok.1 h2
    cases h3; exact hc1

/-- C84 (mixtures). The atoms of a mixture are those of the detectors of the single atoms, in the order of the list, for electron recoils and the
Migdal effect; without mass fractions all have the same share. -/
theorem C84_mixture (hI : Installed S rows) (hc : CacheReachable S.U (some rows) cache) (label : String) (expo : ℝ) {atoms : List String}
    (ha : ∀ a ∈ atoms, a = "Xe" ∨ a = "Ar") :
    ∃ c' x, S.electronRecoilMixture cache label expo atoms [] = .ok (c', .electronRecoil (Detector.make label expo "Electrons") x) ∧
      S.migdalMixture cache label expo atoms [] = .ok (c', .migdal (Detector.make label expo "Nuclei") x) ∧
      x.fractions = List.replicate atoms.length (1 / (atoms.length : ℝ)) ∧
      x.atoms.map (fun a => (a.nucleus, a.W)) = atoms.map fun a => (element S.U rows (atomData a).1, (atomData a).2.1 * S.U.eV) := by
  have key : ∀ (atoms : List String) (cache : List Nucleus), (∀ a ∈ atoms, a = "Xe" ∨ a = "Ar") → CacheReachable S.U (some rows) cache →
      ∃ c' l, IonizationDetector.makeAtoms S.U S.P S.files.response S.files.nuclear atoms cache = .ok (c', l) ∧
        l.map (fun a => (a.nucleus, a.W)) = atoms.map fun a => (element S.U rows (atomData a).1, (atomData a).2.1 * S.U.eV) := by
    intro atoms
    induction atoms with
    | nil => exact fun cache _ _ => ⟨cache, [], rfl, rfl⟩
    | cons b l ih =>
      intro cache ha hc
      obtain ⟨h1, h2⟩ := C52_short_names_partial (U := S.U) (P := S.P) (tables := S.files.response) hI.complete hc
      have hb : ∃ c1 a, Atom.make S.U S.P S.files.response (some rows) cache b = .ok (c1, a) ∧
          a.nucleus = element S.U rows (atomData b).1 ∧ a.W = (atomData b).2.1 * S.U.eV := by
        rcases ha b (by simp) with rfl | rfl
        · obtain ⟨c', a, e1, e2, e3, -⟩ := h1 hI.xenon
          exact ⟨c', a, e1, by simpa [atomData] using e2, by simpa [atomData] using e3⟩
        · obtain ⟨c', a, e1, e2, e3, -⟩ := h2 hI.argon
          exact ⟨c', a, e1, by simpa [atomData] using e2, by simpa [atomData] using e3⟩
      obtain ⟨c1, a, e1, e2, e3⟩ := hb
      have hc1 : CacheReachable S.U (some rows) c1 := by
        exact atom_cache hc e1
      obtain ⟨c', l', e4, e5⟩ := ih c1 (fun a h => ha a (by simp [h])) hc1
      refine ⟨c', a :: l', ?_, by simp [e2, e3, e5]⟩
      unfold IonizationDetector.makeAtoms
      rw [hI.nuclear] at e4 ⊢
      rw [e1, Outcome.bind_ok]
      dsimp only
      rw [e4, Outcome.bind_ok]
  obtain ⟨c', l, e1, e2⟩ := key atoms cache ha hc
  have hlen : l.length = atoms.length := by simpa using congrArg List.length e2
  refine ⟨c', IonizationDetector.initial l (List.replicate atoms.length (1 / (atoms.length : ℝ))), ?_, ?_, rfl, e2⟩
  · unfold Setup.electronRecoilMixture IonizationDetector.make
    simp [e1, IonizationDetector.massFractions, hlen]
  · unfold Setup.migdalMixture IonizationDetector.make
    simp [e1, IonizationDetector.massFractions, hlen]

/-! ## No region of interest

A detector that was constructed but not given a region of interest cannot predict a number of events. The program should say so (exit). -/

/-- C84 (failure: nuclear recoils). The number of events is not a number. -/
theorem C84_fails_nuclear {label : String} {expo : ℝ} {nuclei : List Nucleus} {abund : List ℝ} {d : Detector} {x : NuclearDetector}
    (hd : NuclearDetector.make label expo nuclei abund = .ok (d, x)) (p : DMParticle) (h : Distribution) :
    (x.toClass S.U T h).signalsTotal d p = .nonfinite := by
  unfold NuclearDetector.make at hd
  obtain ⟨fr, -, hd⟩ := Outcome.bind_eq_ok.1 hd
  cases hd
  show (Detector.make label expo "Nuclei").baseSignalsTotal T _ p = _
  unfold Detector.baseSignalsTotal
  rw [if_neg (by simp [Detector.make]), if_pos (.inl (by simp [Detector.make]))]

/-- C84 (failure: ionization). No events are predicted, for every dark matter particle: nothing can be excluded. -/
theorem C84_fails_ionization {R : ShellRate} {s : Detector × IonizationDetector} (hs : BuiltIonization S.U s) (p : DMParticle) (h : Distribution) :
    (s.2.toClass S.U R T h).signalsTotal s.1 p = .ok 0 := by
  obtain ⟨_, _, h1, _, h3, _, h5, _, h7⟩ := IonizationDetector.built_facts hs
  show s.2.signalsTotal S.U R T s.1 p h = _
  unfold IonizationDetector.signalsTotal
  simp [h7, h1, h3, h5]

/-- C84 (failure: crystals). An uninitialised flag decides: the behaviour is undefined. -/
theorem C84_fails_crystal {label target : String} {expo : ℝ} {d : Detector} {x : CrystalDetector}
    (hd : S.makeCrystal label expo target = .ok (d, x)) (p : DMParticle) (h : Distribution) :
    (x.toClass S.U T h).signalsTotal d p = .ub := by
  unfold Setup.makeCrystal at hd
  split at hd
  · cases hd
  · unfold CrystalDetector.make at hd
    obtain ⟨c, -, hd⟩ := Outcome.bind_eq_ok.1 hd
    cases hd
    show CrystalDetector.signalsTotal S.U T { crystal := c, qThreshold := none, usingQThreshold := none, usingQBins := none }
      (Detector.make label expo "Electrons") p h = _
    unfold CrystalDetector.signalsTotal
    rw [if_neg (by simp [Detector.make]), if_neg (by simp [Detector.make])]
    rfl

/-- Non-vacuity: the sample installation meets the hypotheses; the detectors constructed without arguments fail in the three ways. -/
example (p : DMParticle) (h : Distribution) :
    (∃ c' d x, sampleSetup.defaultNuclear [] = .ok (c', .nuclear d x) ∧ (x.toClass sampleSetup.U T h).signalsTotal d p = .nonfinite) ∧
    (∃ d x, sampleSetup.defaultCrystal = .ok (.crystal d x) ∧ (x.toClass sampleSetup.U T h).signalsTotal d p = .ub) := by
  obtain ⟨⟨c', d, x, h1, h2⟩, -, -, d', x', h3, h4⟩ := C84_default_constructors (cache := []) sampleSetup_installed .start
  exact ⟨⟨c', d, x, h1, C84_fails_nuclear h2 p h⟩, d', x', h3, C84_fails_crystal h4 p h⟩

end Obscura
