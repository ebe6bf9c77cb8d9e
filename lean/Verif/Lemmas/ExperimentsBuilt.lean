import Verif.Lemmas.Experiments

/-!
# C55, C56 — the predefined experiments
-/

namespace Obscura

open Spec

variable {S : Setup} {rows : List NuclearRow} {cache : List Nucleus}

set_option linter.unusedSimpArgs false
set_option linter.unusedTactic false
set_option linter.unreachableTactic false

/-! ## Nuclear recoils -/

theorem damicN2011_ok (hI : Installed S rows) (hc : CacheReachable S.U (some rows) cache) {e : RecoilSearch}
    (he : recoilSearches[0]? = some e) :
    ∃ c' d x, S.damicN2011 cache = .ok (c', d, x) ∧ RepresentsRecoils S rows e d x := by
  simp only [recoilSearches, List.getElem?_cons_zero, List.getElem?_cons_succ, Option.some.injEq] at he
  subst he
  obtain ⟨c', h1, -⟩ := Setup.getNuclei_ok hI.nuclear hI.complete [14] cache hc (by simp)
  have h2 := make_composition (U := S.U) (rows := rows) "DAMIC_N_2011" (0.107 * S.kg * S.day) (comp := [(14, 1)]) (by simp)
    (abund := []) (.inl ⟨rfl, by simp⟩) (by simp) (by simpa using hI.masses 14 (by simp))
  simp only [List.map_cons, List.map_nil] at h1 h2
  have hw : ¬ 7 * S.U.keV < 0.55 * S.U.keV := by have := S.U.keV_pos; linarith
  unfold Setup.damicN2011
  rw [h1, Outcome.bind_ok]; dsimp only
  rw [h2, Outcome.bind_ok]; dsimp only
  simp only [Detector.useEnergyThreshold, Detector.setObserved, Detector.initializePoisson, Detector.make, Detector.setFlatEfficiency, hw,
    if_false, Outcome.bind_ok, ne_eq, not_true_eq_false]
  refine ⟨_, _, _, rfl, ?_⟩
  constructor <;> simp [Units.keV] <;> ring

theorem xenon1TN2017_ok (hI : Installed S rows) (hc : CacheReachable S.U (some rows) cache) {e : RecoilSearch}
    (he : recoilSearches[1]? = some e) :
    ∃ c' d x, S.xenon1TN2017 cache = .ok (c', d, x) ∧ RepresentsRecoils S rows e d x := by
  simp only [recoilSearches, List.getElem?_cons_zero, List.getElem?_cons_succ, Option.some.injEq] at he
  subst he
  obtain ⟨c', h1, -⟩ := Setup.getNuclei_ok hI.nuclear hI.complete [54] cache hc (by simp)
  have h2 := make_composition (U := S.U) (rows := rows) "XENON1T_N_2017" (34.2 * S.day * 1042 * S.kg) (comp := [(54, 1)]) (by simp)
    (abund := []) (.inl ⟨rfl, by simp⟩) (by simp) (by simpa using hI.masses 54 (by simp))
  simp only [List.map_cons, List.map_nil] at h1 h2
  have hw : ¬ 40 * S.U.keV < 5 * S.U.keV := by have := S.U.keV_pos; linarith
  unfold Setup.xenon1TN2017
  rw [h1, Outcome.bind_ok]; dsimp only
  rw [h2, Outcome.bind_ok]; dsimp only
  simp only [Detector.useEnergyThreshold, Detector.setObserved, Detector.initializePoisson, Detector.make, Detector.setFlatEfficiency, hw,
    if_false, Outcome.bind_ok, ne_eq, not_true_eq_false]
  refine ⟨_, _, _, rfl, ?_⟩
  constructor <;> simp [Units.keV] <;> ring

theorem collect_tables {n0 n1 n2 : String} {f0 f1 f2 : ℝ → ℝ} (t0 : S.files.efficiency n0 = some f0) (t1 : S.files.efficiency n1 = some f1)
    (t2 : S.files.efficiency n2 = some f2) : collect (S.efficiencyTable S.U.keV) [n0, n1, n2] =
      .ok [fun E => f0 (E / S.U.keV), fun E => f1 (E / S.U.keV), fun E => f2 (E / S.U.keV)] := by
  simp [collect, Setup.efficiencyTable, t0, t1, t2]

theorem cresstII_ok (hI : Installed S rows) (hc : CacheReachable S.U (some rows) cache) {e : RecoilSearch}
    (he : recoilSearches[2]? = some e) :
    ∃ c' d x, S.cresstII cache = .ok (c', d, x) ∧ RepresentsRecoils S rows e d x := by
  have hmem := List.mem_of_getElem? he
  simp only [recoilSearches, List.getElem?_cons_zero, List.getElem?_cons_succ, Option.some.injEq] at he
  subst he
  obtain ⟨events, hf, hev⟩ := hI.events _ hmem _ rfl
  dsimp only at hev
  obtain ⟨c', h1, -⟩ := Setup.getNuclei_ok hI.nuclear hI.complete [8, 20, 74] cache hc (by simp)
  have h2 := make_composition (U := S.U) (rows := rows) "CRESST-II" (52.15 * S.kg * S.day) (comp := [(8, 4), (20, 1), (74, 1)])
    (by simp) (abund := [4, 1, 1]) (.inr ⟨rfl, by norm_num⟩) (by simp) (by
      have := hI.masses; simp at this; simp [this])
  simp only [List.map_cons, List.map_nil] at h1 h2
  have hp := S.U.eV_pos
  obtain ⟨data, h3, h4, h5⟩ := useMaximumGap_window (Detector.make "CRESST-II" (52.15 * S.kg * S.day) "Nuclei")
    (es := events.map fun E => E * S.U.keV) (lo := 307 * S.U.eV) (hi := 40 * S.U.keV) (by
      intro E hE
      obtain ⟨E, hE, rfl⟩ := List.mem_map.1 hE
      obtain ⟨a, b⟩ := hev E (by assumption)
      simp only [Units.keV]
      constructor <;> nlinarith) (by (try simp only [Units.keV]); linarith)
  obtain ⟨f0, t0⟩ := hI.tables _ hmem "data/CRESST-II/Lise_eff_AR_O.dat" (by simp)
  obtain ⟨f1, t1⟩ := hI.tables _ hmem "data/CRESST-II/Lise_eff_AR_Ca.dat" (by simp)
  obtain ⟨f2, t2⟩ := hI.tables _ hmem "data/CRESST-II/Lise_eff_AR_W.dat" (by simp)
  unfold Setup.cresstII
  rw [h1, Outcome.bind_ok]; dsimp only
  rw [h2, Outcome.bind_ok]; dsimp only
  rw [Setup.importList_ok hf, Outcome.bind_ok, h3, Outcome.bind_ok, collect_tables t0 t1 t2, Outcome.bind_ok]
  refine ⟨_, _, _, rfl, ?_⟩
  unfold Units.keV at h5
  constructor <;> simp [NuclearDetector.importEfficiencies, NuclearDetector.importEfficiency, NuclearDetector.setResolution,
    Detector.make, Detector.setFlatEfficiency, Units.keV, t0, t1, t2]
  any_goals ring1
  refine ⟨h4, events, hf, ?_⟩
  convert h5 using 3
  all_goals ring1

theorem cresstIII_ok (hI : Installed S rows) (hc : CacheReachable S.U (some rows) cache) {e : RecoilSearch}
    (he : recoilSearches[3]? = some e) :
    ∃ c' d x, S.cresstIII cache = .ok (c', d, x) ∧ RepresentsRecoils S rows e d x := by
  have hmem := List.mem_of_getElem? he
  simp only [recoilSearches, List.getElem?_cons_zero, List.getElem?_cons_succ, Option.some.injEq] at he
  subst he
  obtain ⟨events, hf, hev⟩ := hI.events _ hmem _ rfl
  dsimp only at hev
  obtain ⟨c', h1, -⟩ := Setup.getNuclei_ok hI.nuclear hI.complete [8, 20, 74] cache hc (by simp)
  have h2 := make_composition (U := S.U) (rows := rows) "CRESST-III" (5.594 * S.kg * S.day) (comp := [(8, 4), (20, 1), (74, 1)])
    (by simp) (abund := [4, 1, 1]) (.inr ⟨rfl, by norm_num⟩) (by simp) (by
      have := hI.masses; simp at this; simp [this])
  simp only [List.map_cons, List.map_nil] at h1 h2
  have hp := S.U.eV_pos
  obtain ⟨data, h3, h4, h5⟩ := useMaximumGap_window ((Detector.make "CRESST-III" (5.594 * S.kg * S.day) "Nuclei").setFlatEfficiency 0.5)
    (es := events.map fun E => E * S.U.keV) (lo := 30.1 * S.U.eV) (hi := 16 * S.U.keV) (by
      intro E hE
      obtain ⟨E, hE, rfl⟩ := List.mem_map.1 hE
      obtain ⟨a, b⟩ := hev E (by assumption)
      simp only [Units.keV]
      constructor <;> nlinarith) (by (try simp only [Units.keV]); linarith)
  obtain ⟨f0, t0⟩ := hI.tables _ hmem "data/CRESST-III/C3P1_DetA_eff_AR_O.dat" (by simp)
  obtain ⟨f1, t1⟩ := hI.tables _ hmem "data/CRESST-III/C3P1_DetA_eff_AR_Ca.dat" (by simp)
  obtain ⟨f2, t2⟩ := hI.tables _ hmem "data/CRESST-III/C3P1_DetA_eff_AR_W.dat" (by simp)
  unfold Setup.cresstIII
  rw [h1, Outcome.bind_ok]; dsimp only
  rw [h2, Outcome.bind_ok]; dsimp only
  rw [Setup.importList_ok hf, Outcome.bind_ok, h3, Outcome.bind_ok, collect_tables t0 t1 t2, Outcome.bind_ok]
  refine ⟨_, _, _, rfl, ?_⟩
  unfold Units.keV at h5
  constructor <;> simp [NuclearDetector.importEfficiencies, NuclearDetector.importEfficiency, NuclearDetector.setResolution,
    Detector.make, Detector.setFlatEfficiency, Units.keV, t0, t1, t2]
  any_goals ring1
  refine ⟨h4, events, hf, ?_⟩
  convert h5 using 3
  all_goals ring1

theorem cresstSurface_ok (hI : Installed S rows) (hc : CacheReachable S.U (some rows) cache) {e : RecoilSearch}
    (he : recoilSearches[4]? = some e) :
    ∃ c' d x, S.cresstSurface cache = .ok (c', d, x) ∧ RepresentsRecoils S rows e d x := by
  have hmem := List.mem_of_getElem? he
  simp only [recoilSearches, List.getElem?_cons_zero, List.getElem?_cons_succ, Option.some.injEq] at he
  subst he
  obtain ⟨events, hf, hev⟩ := hI.events _ hmem _ rfl
  dsimp only at hev
  obtain ⟨c', h1, -⟩ := Setup.getNuclei_ok hI.nuclear hI.complete [8, 13] cache hc (by simp)
  have h2 := make_composition (U := S.U) (rows := rows) "CRESST-surface" (0.046 * S.M.gram * S.day) (comp := [(8, 3), (13, 2)])
    (by simp) (abund := [3, 2]) (.inr ⟨rfl, by norm_num⟩) (by simp) (by
      have := hI.masses; simp at this; simp [this])
  simp only [List.map_cons, List.map_nil] at h1 h2
  have hp := S.U.eV_pos
  obtain ⟨data, h3, h4, h5⟩ := useMaximumGap_window (Detector.make "CRESST-surface" (0.046 * S.M.gram * S.day) "Nuclei")
    (es := events.map fun E => E * S.U.keV) (lo := 19.7 * S.U.eV) (hi := 600 * S.U.eV) (by
      intro E hE
      obtain ⟨E, hE, rfl⟩ := List.mem_map.1 hE
      obtain ⟨a, b⟩ := hev E (by assumption)
      simp only [Units.keV]
      constructor <;> nlinarith) (by (try simp only [Units.keV]); linarith)
  unfold Setup.cresstSurface
  rw [h1, Outcome.bind_ok]; dsimp only
  rw [h2, Outcome.bind_ok]; dsimp only
  rw [Setup.importList_ok hf, Outcome.bind_ok, h3, Outcome.bind_ok]
  refine ⟨_, _, _, rfl, ?_⟩
  unfold Units.keV at h5
  constructor <;> simp [NuclearDetector.importEfficiencies, NuclearDetector.importEfficiency, NuclearDetector.setResolution,
    Detector.make, Detector.setFlatEfficiency, Units.keV]
  any_goals ring1
  refine ⟨h4, events, hf, ?_⟩
  convert h5 using 3
  all_goals ring1

/-! ## Ionization -/

theorem xenon10S2_ok (hI : Installed S rows) (hc : CacheReachable S.U (some rows) cache) (target : String) {e : IonizationSearch}
    (he : ionizationSearches[0]? = some e) :
    ∃ c' d x, S.xenon10S2 target cache = .ok (c', d, x) ∧ RepresentsIonization S rows e target d x := by
  simp only [ionizationSearches, List.getElem?_cons_zero, List.getElem?_cons_succ, Option.some.injEq] at he
  subst he
  obtain ⟨c', a, h1, h2, h3, h4, h5⟩ := makeIonization_ok hI hc (atom := "Xe") (by simp) "XENON10_S2" (15 * S.kg * S.day) target
  obtain ⟨l0, hl0⟩ := hI.efficiencies "data/XENON10e/PE_Trigger_Efficiency.txt" (by simp)
  unfold Setup.xenon10S2
  rw [h1, Outcome.bind_ok]; dsimp only
  simp only [IonizationDetector.usePEBins, IonizationDetector.importTrigger, IonizationDetector.importAcceptance, toUInt32, Detector.initializeBinned, Detector.setFlatEfficiency, Detector.make,
    IonizationDetector.initial, Detector.setObservedBins, Detector.setBinEfficiencies, Detector.setBackgroundBins, Outcome.bind_ok]
  simp [Setup.importList_ok hl0]
  exact
    { name := rfl, targets := rfl, exposure := by dsimp only; ring1, efficiency := by norm_num,
      atom := ⟨a, rfl, rfl, h2, h3, h4, h5⟩, analysis := rfl, observed := ⟨rfl, by dsimp only; decide +kernel⟩, bins := rfl, binEfficiencies := rfl,
      background := ⟨rfl, by norm_num⟩, noEnergyBins := ⟨rfl, rfl⟩, fresh := rfl,
      electrons := by
        rintro n ⟨⟩

      photoElectrons := by
        rintro _ _ _ _ _ ⟨⟩
        exact ⟨rfl, rfl, rfl, rfl, rfl, rfl, by simpa using hl0, rfl⟩ }

theorem xenon100S2_ok (hI : Installed S rows) (hc : CacheReachable S.U (some rows) cache) (target : String) {e : IonizationSearch}
    (he : ionizationSearches[1]? = some e) :
    ∃ c' d x, S.xenon100S2 target cache = .ok (c', d, x) ∧ RepresentsIonization S rows e target d x := by
  simp only [ionizationSearches, List.getElem?_cons_zero, List.getElem?_cons_succ, Option.some.injEq] at he
  subst he
  obtain ⟨c', a, h1, h2, h3, h4, h5⟩ := makeIonization_ok hI hc (atom := "Xe") (by simp) "XENON100_S2" (30 * S.kg * S.M.year) target
  obtain ⟨l0, hl0⟩ := hI.efficiencies "data/XENON100e/PE_Trigger_Efficiency.txt" (by simp)
  obtain ⟨l1, hl1⟩ := hI.efficiencies "data/XENON100e/PE_Acceptance_Efficiency.txt" (by simp)
  unfold Setup.xenon100S2
  rw [h1, Outcome.bind_ok]; dsimp only
  simp only [IonizationDetector.usePEBins, IonizationDetector.importTrigger, IonizationDetector.importAcceptance, toUInt32, Detector.initializeBinned, Detector.setFlatEfficiency, Detector.make,
    IonizationDetector.initial, Detector.setObservedBins, Detector.setBinEfficiencies, Detector.setBackgroundBins, Outcome.bind_ok]
  simp [Setup.importList_ok hl0, Setup.importList_ok hl1]
  exact
    { name := rfl, targets := rfl, exposure := by dsimp only; ring1, efficiency := by norm_num,
      atom := ⟨a, rfl, rfl, h2, h3, h4, h5⟩, analysis := rfl, observed := ⟨rfl, by dsimp only; decide +kernel⟩, bins := rfl, binEfficiencies := rfl,
      background := ⟨rfl, by norm_num⟩, noEnergyBins := ⟨rfl, rfl⟩, fresh := rfl,
      electrons := by
        rintro n ⟨⟩

      photoElectrons := by
        rintro _ _ _ _ _ ⟨⟩
        exact ⟨rfl, rfl, rfl, rfl, rfl, rfl, by simpa using hl0, by simpa using hl1⟩ }

theorem xenon1TS2_ok (hI : Installed S rows) (hc : CacheReachable S.U (some rows) cache) (target : String) {e : IonizationSearch}
    (he : ionizationSearches[2]? = some e) :
    ∃ c' d x, S.xenon1TS2 target cache = .ok (c', d, x) ∧ RepresentsIonization S rows e target d x := by
  simp only [ionizationSearches, List.getElem?_cons_zero, List.getElem?_cons_succ, Option.some.injEq] at he
  subst he
  obtain ⟨c', a, h1, h2, h3, h4, h5⟩ := makeIonization_ok hI hc (atom := "Xe") (by simp) "XENON1T_S2" (0.7 * 21900 * S.kg * S.day) target
  unfold Setup.xenon1TS2
  rw [h1, Outcome.bind_ok]; dsimp only
  simp only [IonizationDetector.useElectronBins, usub32, Detector.initializeBinned, Detector.setFlatEfficiency, Detector.make,
    IonizationDetector.initial, Detector.setObservedBins, Detector.setBinEfficiencies, Detector.setBackgroundBins, Outcome.bind_ok]
  simp []
  exact
    { name := rfl, targets := rfl, exposure := by dsimp only; ring1, efficiency := by norm_num,
      atom := ⟨a, rfl, rfl, h2, h3, h4, h5⟩, analysis := rfl, observed := ⟨rfl, by dsimp only; decide +kernel⟩, bins := rfl, binEfficiencies := rfl,
      background := ⟨rfl, by norm_num⟩, noEnergyBins := ⟨rfl, rfl⟩, fresh := rfl,
      electrons := by
        rintro n ⟨⟩
        exact ⟨rfl, rfl, rfl, rfl⟩
      photoElectrons := by
        rintro _ _ _ _ _ ⟨⟩
         }

theorem darkSide50S2_ok (hI : Installed S rows) (hc : CacheReachable S.U (some rows) cache) (target : String) {e : IonizationSearch}
    (he : ionizationSearches[3]? = some e) :
    ∃ c' d x, S.darkSide50S2 target cache = .ok (c', d, x) ∧ RepresentsIonization S rows e target d x := by
  simp only [ionizationSearches, List.getElem?_cons_zero, List.getElem?_cons_succ, Option.some.injEq] at he
  subst he
  obtain ⟨c', a, h1, h2, h3, h4, h5⟩ := makeIonization_ok hI hc (atom := "Ar") (by simp) "DarkSide-50_S2" (6786 * S.kg * S.day) target
  unfold Setup.darkSide50S2
  rw [h1, Outcome.bind_ok]; dsimp only
  simp only [IonizationDetector.useElectronBins, usub32, Detector.initializeBinned, Detector.setFlatEfficiency, Detector.make,
    IonizationDetector.initial, Detector.setObservedBins, Detector.setBinEfficiencies, Detector.setBackgroundBins, Outcome.bind_ok]
  simp []
  exact
    { name := rfl, targets := rfl, exposure := by dsimp only; ring1, efficiency := by norm_num,
      atom := ⟨a, rfl, rfl, h2, h3, h4, h5⟩, analysis := rfl, observed := ⟨rfl, by dsimp only; decide +kernel⟩, bins := rfl, binEfficiencies := rfl,
      background := ⟨rfl, by norm_num⟩, noEnergyBins := ⟨rfl, rfl⟩, fresh := rfl,
      electrons := by
        rintro n ⟨⟩
        exact ⟨rfl, rfl, rfl, rfl⟩
      photoElectrons := by
        rintro _ _ _ _ _ ⟨⟩
         }

theorem darkSide50S22023_ok (hI : Installed S rows) (hc : CacheReachable S.U (some rows) cache) (target : String) {e : IonizationSearch}
    (he : ionizationSearches[4]? = some e) :
    ∃ c' d x, S.darkSide50S22023 target cache = .ok (c', d, x) ∧ RepresentsIonization S rows e target d x := by
  simp only [ionizationSearches, List.getElem?_cons_zero, List.getElem?_cons_succ, Option.some.injEq] at he
  subst he
  obtain ⟨c', a, h1, h2, h3, h4, h5⟩ := makeIonization_ok hI hc (atom := "Ar") (by simp) "DarkSide-50_S2_2023" (12306 * S.kg * S.day) target
  unfold Setup.darkSide50S22023
  rw [h1, Outcome.bind_ok]; dsimp only
  simp only [IonizationDetector.useElectronBins, usub32, Detector.initializeBinned, Detector.setFlatEfficiency, Detector.make,
    IonizationDetector.initial, Detector.setObservedBins, Detector.setBinEfficiencies, Detector.setBackgroundBins, Outcome.bind_ok]
  simp []
  exact
    { name := rfl, targets := rfl, exposure := by dsimp only; ring1, efficiency := by norm_num,
      atom := ⟨a, rfl, rfl, h2, h3, h4, h5⟩, analysis := rfl, observed := ⟨rfl, by dsimp only; decide +kernel⟩, bins := rfl, binEfficiencies := rfl,
      background := ⟨rfl, by norm_num⟩, noEnergyBins := ⟨rfl, rfl⟩, fresh := rfl,
      electrons := by
        rintro n ⟨⟩
        exact ⟨rfl, rfl, rfl, rfl⟩
      photoElectrons := by
        rintro _ _ _ _ _ ⟨⟩
         }

theorem pandaX4TS2_ok (hI : Installed S rows) (hc : CacheReachable S.U (some rows) cache) (target : String) {e : IonizationSearch}
    (he : ionizationSearches[5]? = some e) :
    ∃ c' d x, S.pandaX4TS2 target cache = .ok (c', d, x) ∧ RepresentsIonization S rows e target d x := by
  simp only [ionizationSearches, List.getElem?_cons_zero, List.getElem?_cons_succ, Option.some.injEq] at he
  subst he
  obtain ⟨c', a, h1, h2, h3, h4, h5⟩ := makeIonization_ok hI hc (atom := "Xe") (by simp) "PandaX-4T_S2" (0.55 * S.tonne * S.M.year) target
  unfold Setup.pandaX4TS2
  rw [h1, Outcome.bind_ok]; dsimp only
  simp only [IonizationDetector.useElectronBins, usub32, Detector.initializeBinned, Detector.setFlatEfficiency, Detector.make,
    IonizationDetector.initial, Detector.setObservedBins, Detector.setBinEfficiencies, Detector.setBackgroundBins, Outcome.bind_ok]
  simp []
  exact
    { name := rfl, targets := rfl, exposure := by dsimp only; ring1, efficiency := by norm_num,
      atom := ⟨a, rfl, rfl, h2, h3, h4, h5⟩, analysis := rfl, observed := ⟨rfl, by dsimp only; decide +kernel⟩, bins := rfl, binEfficiencies := rfl,
      background := ⟨rfl, by norm_num⟩, noEnergyBins := ⟨rfl, rfl⟩, fresh := rfl,
      electrons := by
        rintro n ⟨⟩
        exact ⟨rfl, rfl, rfl, rfl⟩
      photoElectrons := by
        rintro _ _ _ _ _ ⟨⟩
         }

/-! ## Semiconductors -/

theorem protoSENSEISurface_ok (hI : Installed S rows) {e : PairSearch} (he : pairSearches[0]? = some e) :
    ∃ d x, S.protoSENSEISurface = .ok (d, x) ∧ RepresentsPairs S e d x := by
  simp only [pairSearches, List.getElem?_cons_zero, List.getElem?_cons_succ, Option.some.injEq] at he
  subst he
  obtain ⟨c, h1, h2, h3⟩ := makeCrystal_ok hI "protoSENSEI@surface" (0.07 * S.M.gram * 456 * S.minute)
  unfold Setup.protoSENSEISurface
  rw [h1, Outcome.bind_ok]; dsimp only
  simp only [CrystalDetector.useQBins, usub32, Detector.initializeBinned, Detector.setFlatEfficiency, Detector.make,
    Detector.setObservedBins, Detector.setBinEfficiencies, Outcome.bind_ok]
  simp
  exact
    { name := rfl, targets := rfl, exposure := by dsimp only; ring1, efficiency := by norm_num, crystal := ⟨h2, h3⟩, analysis := rfl,
      observed := ⟨rfl, by dsimp only; decide +kernel⟩, bins := rfl, binEfficiencies := rfl, background := ⟨rfl, by norm_num⟩,
      noEnergyBins := ⟨rfl, rfl⟩, fresh := rfl, pairs := ⟨rfl, rfl⟩, lowest := by simp [Crystal.minimumElectronEnergy, toInt32],
      highest := by
        simp [Crystal.minimumElectronEnergy, toInt32]
        ring1 }

theorem protoSENSEIMINOS_ok (hI : Installed S rows) {e : PairSearch} (he : pairSearches[1]? = some e) :
    ∃ d x, S.protoSENSEIMINOS = .ok (d, x) ∧ RepresentsPairs S e d x := by
  simp only [pairSearches, List.getElem?_cons_zero, List.getElem?_cons_succ, Option.some.injEq] at he
  subst he
  obtain ⟨c, h1, h2, h3⟩ := makeCrystal_ok hI "protoSENSEI@MINOS" (0.246 * S.M.gram * S.day)
  unfold Setup.protoSENSEIMINOS
  rw [h1, Outcome.bind_ok]; dsimp only
  simp only [CrystalDetector.useQBins, usub32, Detector.initializeBinned, Detector.setFlatEfficiency, Detector.make,
    Detector.setObservedBins, Detector.setBinEfficiencies, Outcome.bind_ok]
  simp
  exact
    { name := rfl, targets := rfl, exposure := by dsimp only; ring1, efficiency := by norm_num, crystal := ⟨h2, h3⟩, analysis := rfl,
      observed := ⟨rfl, by dsimp only; decide +kernel⟩, bins := rfl, binEfficiencies := rfl, background := ⟨rfl, by norm_num⟩,
      noEnergyBins := ⟨rfl, rfl⟩, fresh := rfl, pairs := ⟨rfl, rfl⟩, lowest := by simp [Crystal.minimumElectronEnergy, toInt32],
      highest := by
        simp [Crystal.minimumElectronEnergy, toInt32]
        ring1 }

theorem senseiMINOS_ok (hI : Installed S rows) {e : PairSearch} (he : pairSearches[2]? = some e) :
    ∃ d x, S.senseiMINOS = .ok (d, x) ∧ RepresentsPairs S e d x := by
  simp only [pairSearches, List.getElem?_cons_zero, List.getElem?_cons_succ, Option.some.injEq] at he
  subst he
  obtain ⟨c, h1, h2, h3⟩ := makeCrystal_ok hI "SENSEI@MINOS" (9.1 * S.M.gram * S.day)
  unfold Setup.senseiMINOS
  rw [h1, Outcome.bind_ok]; dsimp only
  simp only [CrystalDetector.useQBins, usub32, Detector.initializeBinned, Detector.setFlatEfficiency, Detector.make,
    Detector.setObservedBins, Detector.setBinEfficiencies, Outcome.bind_ok]
  simp
  exact
    { name := rfl, targets := rfl, exposure := by dsimp only; ring1, efficiency := by norm_num, crystal := ⟨h2, h3⟩, analysis := rfl,
      observed := ⟨rfl, by dsimp only; decide +kernel⟩, bins := rfl, binEfficiencies := rfl, background := ⟨rfl, by norm_num⟩,
      noEnergyBins := ⟨rfl, rfl⟩, fresh := rfl, pairs := ⟨rfl, rfl⟩, lowest := by simp [Crystal.minimumElectronEnergy, toInt32],
      highest := by
        simp [Crystal.minimumElectronEnergy, toInt32]
        ring1 }

theorem cdmsHVeV2018_ok (hI : Installed S rows) {e : PairSearch} (he : pairSearches[3]? = some e) :
    ∃ d x, S.cdmsHVeV2018 = .ok (d, x) ∧ RepresentsPairs S e d x := by
  simp only [pairSearches, List.getElem?_cons_zero, List.getElem?_cons_succ, Option.some.injEq] at he
  subst he
  obtain ⟨c, h1, h2, h3⟩ := makeCrystal_ok hI "CDMS-HVeV_2018" (0.487 * S.M.gram * S.day)
  unfold Setup.cdmsHVeV2018
  rw [h1, Outcome.bind_ok]; dsimp only
  simp only [CrystalDetector.useQBins, usub32, Detector.initializeBinned, Detector.setFlatEfficiency, Detector.make,
    Detector.setObservedBins, Detector.setBinEfficiencies, Outcome.bind_ok]
  simp
  exact
    { name := rfl, targets := rfl, exposure := by dsimp only; ring1, efficiency := by norm_num, crystal := ⟨h2, h3⟩, analysis := rfl,
      observed := ⟨rfl, by dsimp only; decide +kernel⟩, bins := rfl, binEfficiencies := rfl, background := ⟨rfl, by norm_num⟩,
      noEnergyBins := ⟨rfl, rfl⟩, fresh := rfl, pairs := ⟨rfl, rfl⟩, lowest := by simp [Crystal.minimumElectronEnergy, toInt32],
      highest := by
        simp [Crystal.minimumElectronEnergy, toInt32]
        ring1 }

theorem cdmsHVeV2020_ok (hI : Installed S rows) {e : PairSearch} (he : pairSearches[4]? = some e) :
    ∃ d x, S.cdmsHVeV2020 = .ok (d, x) ∧ RepresentsPairs S e d x := by
  simp only [pairSearches, List.getElem?_cons_zero, List.getElem?_cons_succ, Option.some.injEq] at he
  subst he
  obtain ⟨c, h1, h2, h3⟩ := makeCrystal_ok hI "CDMS-HVeV_2020" (1.2 * S.M.gram * S.day)
  unfold Setup.cdmsHVeV2020
  rw [h1, Outcome.bind_ok]; dsimp only
  simp only [CrystalDetector.useQBins, usub32, Detector.initializeBinned, Detector.setFlatEfficiency, Detector.make,
    Detector.setObservedBins, Detector.setBinEfficiencies, Outcome.bind_ok]
  simp
  exact
    { name := rfl, targets := rfl, exposure := by dsimp only; ring1, efficiency := by norm_num, crystal := ⟨h2, h3⟩, analysis := rfl,
      observed := ⟨rfl, by dsimp only; decide +kernel⟩, bins := rfl, binEfficiencies := rfl, background := ⟨rfl, by norm_num⟩,
      noEnergyBins := ⟨rfl, rfl⟩, fresh := rfl, pairs := ⟨rfl, rfl⟩, lowest := by simp [Crystal.minimumElectronEnergy, toInt32],
      highest := by
        simp [Crystal.minimumElectronEnergy, toInt32]
        ring1 }

theorem damicM2023_ok (hI : Installed S rows) {e : PairSearch} (he : pairSearches[5]? = some e) :
    ∃ d x, S.damicM2023 = .ok (d, x) ∧ RepresentsPairs S e d x := by
  simp only [pairSearches, List.getElem?_cons_zero, List.getElem?_cons_succ, Option.some.injEq] at he
  subst he
  obtain ⟨c, h1, h2, h3⟩ := makeCrystal_ok hI "DAMIC-M_2023" (0.4 * 85.23 * S.M.gram * S.day)
  unfold Setup.damicM2023
  rw [h1, Outcome.bind_ok]; dsimp only
  simp only [CrystalDetector.useQBins, usub32, Detector.initializeBinned, Detector.setFlatEfficiency, Detector.make,
    Detector.setObservedBins, Detector.setBinEfficiencies, Outcome.bind_ok]
  simp
  exact
    { name := rfl, targets := rfl, exposure := by dsimp only; ring1, efficiency := by norm_num, crystal := ⟨h2, h3⟩, analysis := rfl,
      observed := ⟨rfl, by dsimp only; decide +kernel⟩, bins := rfl, binEfficiencies := rfl, background := ⟨rfl, by norm_num⟩,
      noEnergyBins := ⟨rfl, rfl⟩, fresh := rfl, pairs := ⟨rfl, rfl⟩, lowest := by simp [Crystal.minimumElectronEnergy, toInt32],
      highest := by
        simp [Crystal.minimumElectronEnergy, toInt32]
        ring1 }

end Obscura
