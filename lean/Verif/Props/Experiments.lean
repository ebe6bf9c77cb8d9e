import Verif.Lemmas.ExperimentsBuilt
import Verif.Props.Configuration

/-!
# C55 — selecting an experiment
-/

namespace Obscura

open Spec

variable {S : Setup} {rows : List NuclearRow} {cache : List Nucleus}

set_option linter.unusedSimpArgs false

/-- The configured string decides. -/
theorem Config.detector_string {c : Config} {s : String} (hs : c "DD_experiment" = some (.string s)) :
    c.detector S cache = c.selectDetector S cache s := by
  simp [Config.detector, Config.getString, Config.lookup, hs, Setting.toStr]

/-- C55 (units): a kilogram has 1000 grams, a tonne a million, a minute 60 and a day 86400 seconds. -/
theorem C55_units (S : Setup) :
    S.kg = 1000 * S.M.gram ∧ S.tonne = 10 ^ 6 * S.M.gram ∧ S.minute = 60 * S.U.sec ∧ S.day = 86400 * S.U.sec := by
  refine ⟨?_, ?_, ?_, ?_⟩ <;> simp only [Setup.kg, Setup.tonne, Setup.minute, Setup.day] <;> ring

/-- **C55** — the name of a nuclear recoil search selects a nuclear detector that represents this search. -/
theorem C55_nuclear (hI : Installed S rows) (hc : CacheReachable S.U (some rows) cache) {c : Config} {e : RecoilSearch}
    (he : e ∈ recoilSearches) (hn : c "DD_experiment" = some (.string e.name)) :
    ∃ cache' d x, c.detector S cache = .ok (cache', .nuclear d x) ∧ RepresentsRecoils S rows e d x := by
  rw [Config.detector_string hn]
  obtain ⟨i, hi, h⟩ := List.getElem_of_mem he
  have h' : recoilSearches[i]? = some e := by rw [List.getElem?_eq_getElem hi, h]
  simp only [recoilSearches, List.length_cons, List.length_nil] at hi
  interval_cases i
  · obtain ⟨c', d, x, h1, h2⟩ := damicN2011_ok hI hc h'
    simp only [recoilSearches, List.getElem?_cons_zero, List.getElem?_cons_succ, Option.some.injEq] at h'
    subst h'
    exact ⟨c', d, x, by simp [Config.selectDetector, Config.asNuclear, h1], h2⟩
  · obtain ⟨c', d, x, h1, h2⟩ := xenon1TN2017_ok hI hc h'
    simp only [recoilSearches, List.getElem?_cons_zero, List.getElem?_cons_succ, Option.some.injEq] at h'
    subst h'
    exact ⟨c', d, x, by simp [Config.selectDetector, Config.asNuclear, h1], h2⟩
  · obtain ⟨c', d, x, h1, h2⟩ := cresstII_ok hI hc h'
    simp only [recoilSearches, List.getElem?_cons_zero, List.getElem?_cons_succ, Option.some.injEq] at h'
    subst h'
    exact ⟨c', d, x, by simp [Config.selectDetector, Config.asNuclear, h1], h2⟩
  · obtain ⟨c', d, x, h1, h2⟩ := cresstIII_ok hI hc h'
    simp only [recoilSearches, List.getElem?_cons_zero, List.getElem?_cons_succ, Option.some.injEq] at h'
    subst h'
    exact ⟨c', d, x, by simp [Config.selectDetector, Config.asNuclear, h1], h2⟩
  · obtain ⟨c', d, x, h1, h2⟩ := cresstSurface_ok hI hc h'
    simp only [recoilSearches, List.getElem?_cons_zero, List.getElem?_cons_succ, Option.some.injEq] at h'
    subst h'
    exact ⟨c', d, x, by simp [Config.selectDetector, Config.asNuclear, h1], h2⟩

/-- **C55** — the name of an ionization search selects a detector for electron recoils that represents this search. -/
theorem C55_electron_recoil (hI : Installed S rows) (hc : CacheReachable S.U (some rows) cache) {c : Config} {e : IonizationSearch}
    (he : e ∈ ionizationSearches) (hn : c "DD_experiment" = some (.string e.name)) :
    ∃ cache' d x, c.detector S cache = .ok (cache', .electronRecoil d x) ∧ RepresentsIonization S rows e "Electrons" d x := by
  rw [Config.detector_string hn]
  obtain ⟨i, hi, h⟩ := List.getElem_of_mem he
  have h' : ionizationSearches[i]? = some e := by rw [List.getElem?_eq_getElem hi, h]
  simp only [ionizationSearches, List.length_cons, List.length_nil] at hi
  interval_cases i
  · obtain ⟨c', d, x, h1, h2⟩ := xenon10S2_ok hI hc "Electrons" h'
    simp only [ionizationSearches, List.getElem?_cons_zero, List.getElem?_cons_succ, Option.some.injEq] at h'
    subst h'
    exact ⟨c', d, x, by simp [Config.selectDetector, Config.asER, h1], h2⟩
  · obtain ⟨c', d, x, h1, h2⟩ := xenon100S2_ok hI hc "Electrons" h'
    simp only [ionizationSearches, List.getElem?_cons_zero, List.getElem?_cons_succ, Option.some.injEq] at h'
    subst h'
    exact ⟨c', d, x, by simp [Config.selectDetector, Config.asER, h1], h2⟩
  · obtain ⟨c', d, x, h1, h2⟩ := xenon1TS2_ok hI hc "Electrons" h'
    simp only [ionizationSearches, List.getElem?_cons_zero, List.getElem?_cons_succ, Option.some.injEq] at h'
    subst h'
    exact ⟨c', d, x, by simp [Config.selectDetector, Config.asER, h1], h2⟩
  · obtain ⟨c', d, x, h1, h2⟩ := darkSide50S2_ok hI hc "Electrons" h'
    simp only [ionizationSearches, List.getElem?_cons_zero, List.getElem?_cons_succ, Option.some.injEq] at h'
    subst h'
    exact ⟨c', d, x, by simp [Config.selectDetector, Config.asER, h1], h2⟩
  · obtain ⟨c', d, x, h1, h2⟩ := darkSide50S22023_ok hI hc "Electrons" h'
    simp only [ionizationSearches, List.getElem?_cons_zero, List.getElem?_cons_succ, Option.some.injEq] at h'
    subst h'
    exact ⟨c', d, x, by simp [Config.selectDetector, Config.asER, h1], h2⟩
  · obtain ⟨c', d, x, h1, h2⟩ := pandaX4TS2_ok hI hc "Electrons" h'
    simp only [ionizationSearches, List.getElem?_cons_zero, List.getElem?_cons_succ, Option.some.injEq] at h'
    subst h'
    exact ⟨c', d, x, by simp [Config.selectDetector, Config.asER, h1], h2⟩

/-- **C55** — the name of a Migdal search selects a detector for the Migdal effect that represents this search (but carries the name
of the electron recoil search, see `C55_fails_migdal_names`). -/
theorem C55_migdal_partial (hI : Installed S rows) (hc : CacheReachable S.U (some rows) cache) {c : Config} {e : IonizationSearch}
    (he : e ∈ ionizationSearches) (hn : c "DD_experiment" = some (.string e.migdal)) :
    ∃ cache' d x, c.detector S cache = .ok (cache', .migdal d x) ∧ RepresentsIonization S rows e "Nuclei" d x := by
  rw [Config.detector_string hn]
  obtain ⟨i, hi, h⟩ := List.getElem_of_mem he
  have h' : ionizationSearches[i]? = some e := by rw [List.getElem?_eq_getElem hi, h]
  simp only [ionizationSearches, List.length_cons, List.length_nil] at hi
  interval_cases i
  · obtain ⟨c', d, x, h1, h2⟩ := xenon10S2_ok hI hc "Nuclei" h'
    simp only [ionizationSearches, List.getElem?_cons_zero, List.getElem?_cons_succ, Option.some.injEq] at h'
    subst h'
    exact ⟨c', d, x, by simp [Config.selectDetector, Config.asMigdal, h1], h2⟩
  · obtain ⟨c', d, x, h1, h2⟩ := xenon100S2_ok hI hc "Nuclei" h'
    simp only [ionizationSearches, List.getElem?_cons_zero, List.getElem?_cons_succ, Option.some.injEq] at h'
    subst h'
    exact ⟨c', d, x, by simp [Config.selectDetector, Config.asMigdal, h1], h2⟩
  · obtain ⟨c', d, x, h1, h2⟩ := xenon1TS2_ok hI hc "Nuclei" h'
    simp only [ionizationSearches, List.getElem?_cons_zero, List.getElem?_cons_succ, Option.some.injEq] at h'
    subst h'
    exact ⟨c', d, x, by simp [Config.selectDetector, Config.asMigdal, h1], h2⟩
  · obtain ⟨c', d, x, h1, h2⟩ := darkSide50S2_ok hI hc "Nuclei" h'
    simp only [ionizationSearches, List.getElem?_cons_zero, List.getElem?_cons_succ, Option.some.injEq] at h'
    subst h'
    exact ⟨c', d, x, by simp [Config.selectDetector, Config.asMigdal, h1], h2⟩
  · obtain ⟨c', d, x, h1, h2⟩ := darkSide50S22023_ok hI hc "Nuclei" h'
    simp only [ionizationSearches, List.getElem?_cons_zero, List.getElem?_cons_succ, Option.some.injEq] at h'
    subst h'
    exact ⟨c', d, x, by simp [Config.selectDetector, Config.asMigdal, h1], h2⟩
  · obtain ⟨c', d, x, h1, h2⟩ := pandaX4TS2_ok hI hc "Nuclei" h'
    simp only [ionizationSearches, List.getElem?_cons_zero, List.getElem?_cons_succ, Option.some.injEq] at h'
    subst h'
    exact ⟨c', d, x, by simp [Config.selectDetector, Config.asMigdal, h1], h2⟩

/-- **C55** — the name of a search with silicon selects a semiconductor detector that represents this search. -/
theorem C55_crystal (hI : Installed S rows) {c : Config} {e : PairSearch}
    (he : e ∈ pairSearches) (hn : c "DD_experiment" = some (.string e.name)) :
    ∃ cache' d x, c.detector S cache = .ok (cache', .crystal d x) ∧ RepresentsPairs S e d x := by
  rw [Config.detector_string hn]
  obtain ⟨i, hi, h⟩ := List.getElem_of_mem he
  have h' : pairSearches[i]? = some e := by rw [List.getElem?_eq_getElem hi, h]
  simp only [pairSearches, List.length_cons, List.length_nil] at hi
  interval_cases i
  · obtain ⟨d, x, h1, h2⟩ := protoSENSEISurface_ok hI h'
    simp only [pairSearches, List.getElem?_cons_zero, List.getElem?_cons_succ, Option.some.injEq] at h'
    subst h'
    exact ⟨cache, d, x, by simp [Config.selectDetector, Config.asCrystal, h1], h2⟩
  · obtain ⟨d, x, h1, h2⟩ := protoSENSEIMINOS_ok hI h'
    simp only [pairSearches, List.getElem?_cons_zero, List.getElem?_cons_succ, Option.some.injEq] at h'
    subst h'
    exact ⟨cache, d, x, by simp [Config.selectDetector, Config.asCrystal, h1], h2⟩
  · obtain ⟨d, x, h1, h2⟩ := senseiMINOS_ok hI h'
    simp only [pairSearches, List.getElem?_cons_zero, List.getElem?_cons_succ, Option.some.injEq] at h'
    subst h'
    exact ⟨cache, d, x, by simp [Config.selectDetector, Config.asCrystal, h1], h2⟩
  · obtain ⟨d, x, h1, h2⟩ := cdmsHVeV2018_ok hI h'
    simp only [pairSearches, List.getElem?_cons_zero, List.getElem?_cons_succ, Option.some.injEq] at h'
    subst h'
    exact ⟨cache, d, x, by simp [Config.selectDetector, Config.asCrystal, h1], h2⟩
  · obtain ⟨d, x, h1, h2⟩ := cdmsHVeV2020_ok hI h'
    simp only [pairSearches, List.getElem?_cons_zero, List.getElem?_cons_succ, Option.some.injEq] at h'
    subst h'
    exact ⟨cache, d, x, by simp [Config.selectDetector, Config.asCrystal, h1], h2⟩
  · obtain ⟨d, x, h1, h2⟩ := damicM2023_ok hI h'
    simp only [pairSearches, List.getElem?_cons_zero, List.getElem?_cons_succ, Option.some.injEq] at h'
    subst h'
    exact ⟨cache, d, x, by simp [Config.selectDetector, Config.asCrystal, h1], h2⟩

/-- **C55** — any other string ends the program with an error. -/
theorem C55_unknown {c : Config} {s : String} (hs : c "DD_experiment" = some (.string s)) (hu : s ∉ userDefined)
    (hp : s ∉ predefined) : c.detector S cache = .exit := by
  rw [Config.detector_string hs]
  simp [userDefined] at hu
  simp [predefined, recoilSearches, ionizationSearches, pairSearches] at hp
  simp [Config.selectDetector, hu, hp]

/-- A string that is not advertised. -/
example : "XENONnT" ∉ userDefined ∧ "XENONnT" ∉ predefined := by
  simp [userDefined, predefined, recoilSearches, ionizationSearches, pairSearches]

/-- **C55** — the program ends with an error if the setting is missing or is no string. -/
theorem C55_no_string {c : Config} (hs : ∀ s, c "DD_experiment" ≠ some (.string s)) : c.detector S cache = .exit := by
  unfold Config.detector Config.getString Config.lookup
  cases h : c "DD_experiment" with
  | none => simp
  | some v => cases v <;> simp [Setting.toStr] ; all_goals exact absurd h (hs _)

/-- **C55** — the claim fails: the experiment LZ is offered, under both names, but selecting it ends the program with an error, also
if everything is installed. -/
theorem C55_fails_LZ (hI : Installed S rows) (hc : CacheReachable S.U (some rows) cache) {c : Config} {s : String}
    (hs : s = "LZ_S2" ∨ s = "LZ_S2_Migdal") (hn : c "DD_experiment" = some (.string s)) :
    s ∈ predefined ∧ c.detector S cache = .exit := by
  constructor
  · rcases hs with rfl | rfl <;> simp [predefined]
  · rw [Config.detector_string hn]
    rcases hs with rfl | rfl
    · obtain ⟨c', a, h1, -⟩ := makeIonization_ok hI hc (atom := "Ar") (.inr rfl) "LZ_S2" (550 * S.kg * S.day) "Electrons"
      simp [Config.selectDetector, Setup.lzS2, h1, Config.asER]
    · obtain ⟨c', a, h1, -⟩ := makeIonization_ok hI hc (atom := "Ar") (.inr rfl) "LZ_S2" (550 * S.kg * S.day) "Nuclei"
      simp [Config.selectDetector, Setup.lzS2, h1, Config.asMigdal]

/-- **C55** — the claim fails: a detector for the Migdal effect does not carry the name that was configured, but that of the
corresponding search for electron recoils. -/
theorem C55_fails_migdal_names (hI : Installed S rows) (hc : CacheReachable S.U (some rows) cache) {c : Config} {e : IonizationSearch}
    (he : e ∈ ionizationSearches) (hn : c "DD_experiment" = some (.string e.migdal)) :
    ∃ cache' d x, c.detector S cache = .ok (cache', .migdal d x) ∧ d.name = e.name ∧ d.name ≠ e.migdal := by
  obtain ⟨c', d, x, h1, h2⟩ := C55_migdal_partial hI hc he hn
  refine ⟨c', d, x, h1, h2.name, ?_⟩
  rw [h2.name]
  simp only [ionizationSearches, List.mem_cons, List.not_mem_nil, or_false] at he
  rcases he with rfl | rfl | rfl | rfl | rfl | rfl <;> decide

end Obscura
