import Verif.Lemmas.MissingFiles
import Verif.Props.ExperimentsSample

/-!
# C108 — missing data files only ever end the program

A configuration file leads to a detector that depends on the files of the experiment only. If one of them is missing, the program
ends; it never continues with a different detector.
-/

namespace Obscura

open Spec

variable {S : Setup} {F' : DataFiles} {cache : List Nucleus} {c : Config}

theorem sameOrMissing_of {f : DataFile} (h : Same F' S.files f ∨ ¬ Present F' f) : SameOrMissing F' S.files f := by
  cases f <;> simp only [Same, Present, not_not] at h <;> exact h.symm

theorem shell_files {e : IonizationSearch} (H : ∀ f ∈ e.files, SameOrMissing F' S.files f) :
    ∀ s ∈ (atomData e.atom).2.2, ShellTables F'.response S.files.response s.1 := by
  intro s hs r hr
  refine H (.response _) ?_
  simp only [IonizationSearch.files, List.mem_cons, List.mem_append, List.mem_flatMap]
  exact .inr (.inl ⟨s, hs, List.mem_map.2 ⟨r, hr, rfl⟩⟩)

theorem recoil_weaker {e : RecoilSearch} (hk : e ∈ recoilSearches) (H : ∀ f ∈ e.files, SameOrMissing F' S.files f) :
    Weaker (c.selectDetector (withFiles S F') cache e.name) (c.selectDetector S cache e.name) := by
  obtain ⟨i, hi, h⟩ := List.getElem_of_mem hk
  have h' : recoilSearches[i]? = some e := by rw [List.getElem?_eq_getElem hi, h]
  simp only [recoilSearches, List.length_cons, List.length_nil] at hi
  interval_cases i
  · simp only [recoilSearches, List.getElem?_cons_zero, List.getElem?_cons_succ, Option.some.injEq] at h'
    subst h'
    simp only [RecoilSearch.files] at H
    simp [Config.selectDetector]
    exact Weaker.asNuclear (damicN2011_weaker (H _ (by simp)))
  · simp only [recoilSearches, List.getElem?_cons_zero, List.getElem?_cons_succ, Option.some.injEq] at h'
    subst h'
    simp only [RecoilSearch.files] at H
    simp [Config.selectDetector]
    exact Weaker.asNuclear (xenon1TN2017_weaker (H _ (by simp)))
  · simp only [recoilSearches, List.getElem?_cons_zero, List.getElem?_cons_succ, Option.some.injEq] at h'
    subst h'
    simp only [RecoilSearch.files] at H
    simp [Config.selectDetector]
    exact Weaker.asNuclear (cresstII_weaker (H _ (by simp)) (H _ (by simp)) (fun t ht => H _ (List.mem_cons_of_mem _ (List.mem_append_left _ (List.mem_map_of_mem ht)))))
  · simp only [recoilSearches, List.getElem?_cons_zero, List.getElem?_cons_succ, Option.some.injEq] at h'
    subst h'
    simp only [RecoilSearch.files] at H
    simp [Config.selectDetector]
    exact Weaker.asNuclear (cresstIII_weaker (H _ (by simp)) (H _ (by simp)) (fun t ht => H _ (List.mem_cons_of_mem _ (List.mem_append_left _ (List.mem_map_of_mem ht)))))
  · simp only [recoilSearches, List.getElem?_cons_zero, List.getElem?_cons_succ, Option.some.injEq] at h'
    subst h'
    simp only [RecoilSearch.files] at H
    simp [Config.selectDetector]
    exact Weaker.asNuclear (cresstSurface_weaker (H _ (by simp)) (H _ (by simp)))

theorem electronRecoil_weaker {e : IonizationSearch} (hk : e ∈ ionizationSearches) (H : ∀ f ∈ e.files, SameOrMissing F' S.files f) :
    Weaker (c.selectDetector (withFiles S F') cache e.name) (c.selectDetector S cache e.name) := by
  obtain ⟨i, hi, h⟩ := List.getElem_of_mem hk
  have h' : ionizationSearches[i]? = some e := by rw [List.getElem?_eq_getElem hi, h]
  simp only [ionizationSearches, List.length_cons, List.length_nil] at hi
  interval_cases i
  · simp only [ionizationSearches, List.getElem?_cons_zero, List.getElem?_cons_succ, Option.some.injEq] at h'
    subst h'
    have hs : ∀ s ∈ xenon, ShellTables F'.response S.files.response s.1 := shell_files H
    simp only [IonizationSearch.files] at H
    simp [Config.selectDetector]
    exact Weaker.asER (xenon10S2_weaker (H _ (by simp)) hs (H _ (by simp)))
  · simp only [ionizationSearches, List.getElem?_cons_zero, List.getElem?_cons_succ, Option.some.injEq] at h'
    subst h'
    have hs : ∀ s ∈ xenon, ShellTables F'.response S.files.response s.1 := shell_files H
    simp only [IonizationSearch.files] at H
    simp [Config.selectDetector]
    exact Weaker.asER (xenon100S2_weaker (H _ (by simp)) hs (H _ (by simp)) (H _ (by simp)))
  · simp only [ionizationSearches, List.getElem?_cons_zero, List.getElem?_cons_succ, Option.some.injEq] at h'
    subst h'
    have hs : ∀ s ∈ xenon, ShellTables F'.response S.files.response s.1 := shell_files H
    simp only [IonizationSearch.files] at H
    simp [Config.selectDetector]
    exact Weaker.asER (xenon1TS2_weaker (H _ (by simp)) hs)
  · simp only [ionizationSearches, List.getElem?_cons_zero, List.getElem?_cons_succ, Option.some.injEq] at h'
    subst h'
    have hs : ∀ s ∈ argon, ShellTables F'.response S.files.response s.1 := shell_files H
    simp only [IonizationSearch.files] at H
    simp [Config.selectDetector]
    exact Weaker.asER (darkSide50S2_weaker (H _ (by simp)) hs)
  · simp only [ionizationSearches, List.getElem?_cons_zero, List.getElem?_cons_succ, Option.some.injEq] at h'
    subst h'
    have hs : ∀ s ∈ argon, ShellTables F'.response S.files.response s.1 := shell_files H
    simp only [IonizationSearch.files] at H
    simp [Config.selectDetector]
    exact Weaker.asER (darkSide50S22023_weaker (H _ (by simp)) hs)
  · simp only [ionizationSearches, List.getElem?_cons_zero, List.getElem?_cons_succ, Option.some.injEq] at h'
    subst h'
    have hs : ∀ s ∈ xenon, ShellTables F'.response S.files.response s.1 := shell_files H
    simp only [IonizationSearch.files] at H
    simp [Config.selectDetector]
    exact Weaker.asER (pandaX4TS2_weaker (H _ (by simp)) hs)

theorem migdal_weaker {e : IonizationSearch} (hk : e ∈ ionizationSearches) (H : ∀ f ∈ e.files, SameOrMissing F' S.files f) :
    Weaker (c.selectDetector (withFiles S F') cache e.migdal) (c.selectDetector S cache e.migdal) := by
  obtain ⟨i, hi, h⟩ := List.getElem_of_mem hk
  have h' : ionizationSearches[i]? = some e := by rw [List.getElem?_eq_getElem hi, h]
  simp only [ionizationSearches, List.length_cons, List.length_nil] at hi
  interval_cases i
  · simp only [ionizationSearches, List.getElem?_cons_zero, List.getElem?_cons_succ, Option.some.injEq] at h'
    subst h'
    have hs : ∀ s ∈ xenon, ShellTables F'.response S.files.response s.1 := shell_files H
    simp only [IonizationSearch.files] at H
    simp [Config.selectDetector]
    exact Weaker.asMigdal (xenon10S2_weaker (H _ (by simp)) hs (H _ (by simp)))
  · simp only [ionizationSearches, List.getElem?_cons_zero, List.getElem?_cons_succ, Option.some.injEq] at h'
    subst h'
    have hs : ∀ s ∈ xenon, ShellTables F'.response S.files.response s.1 := shell_files H
    simp only [IonizationSearch.files] at H
    simp [Config.selectDetector]
    exact Weaker.asMigdal (xenon100S2_weaker (H _ (by simp)) hs (H _ (by simp)) (H _ (by simp)))
  · simp only [ionizationSearches, List.getElem?_cons_zero, List.getElem?_cons_succ, Option.some.injEq] at h'
    subst h'
    have hs : ∀ s ∈ xenon, ShellTables F'.response S.files.response s.1 := shell_files H
    simp only [IonizationSearch.files] at H
    simp [Config.selectDetector]
    exact Weaker.asMigdal (xenon1TS2_weaker (H _ (by simp)) hs)
  · simp only [ionizationSearches, List.getElem?_cons_zero, List.getElem?_cons_succ, Option.some.injEq] at h'
    subst h'
    have hs : ∀ s ∈ argon, ShellTables F'.response S.files.response s.1 := shell_files H
    simp only [IonizationSearch.files] at H
    simp [Config.selectDetector]
    exact Weaker.asMigdal (darkSide50S2_weaker (H _ (by simp)) hs)
  · simp only [ionizationSearches, List.getElem?_cons_zero, List.getElem?_cons_succ, Option.some.injEq] at h'
    subst h'
    have hs : ∀ s ∈ argon, ShellTables F'.response S.files.response s.1 := shell_files H
    simp only [IonizationSearch.files] at H
    simp [Config.selectDetector]
    exact Weaker.asMigdal (darkSide50S22023_weaker (H _ (by simp)) hs)
  · simp only [ionizationSearches, List.getElem?_cons_zero, List.getElem?_cons_succ, Option.some.injEq] at h'
    subst h'
    have hs : ∀ s ∈ xenon, ShellTables F'.response S.files.response s.1 := shell_files H
    simp only [IonizationSearch.files] at H
    simp [Config.selectDetector]
    exact Weaker.asMigdal (pandaX4TS2_weaker (H _ (by simp)) hs)

theorem pair_weaker {e : PairSearch} (hk : e ∈ pairSearches) (H : ∀ f ∈ [DataFile.crystal "Si"], SameOrMissing F' S.files f) :
    Weaker (c.selectDetector (withFiles S F') cache e.name) (c.selectDetector S cache e.name) := by
  obtain ⟨i, hi, h⟩ := List.getElem_of_mem hk
  have h' : pairSearches[i]? = some e := by rw [List.getElem?_eq_getElem hi, h]
  simp only [pairSearches, List.length_cons, List.length_nil] at hi
  interval_cases i
  · simp only [pairSearches, List.getElem?_cons_zero, List.getElem?_cons_succ, Option.some.injEq] at h'
    subst h'
    simp [Config.selectDetector]
    exact Weaker.asCrystal (protoSENSEISurface_weaker (H _ (by simp)))
  · simp only [pairSearches, List.getElem?_cons_zero, List.getElem?_cons_succ, Option.some.injEq] at h'
    subst h'
    simp [Config.selectDetector]
    exact Weaker.asCrystal (protoSENSEIMINOS_weaker (H _ (by simp)))
  · simp only [pairSearches, List.getElem?_cons_zero, List.getElem?_cons_succ, Option.some.injEq] at h'
    subst h'
    simp [Config.selectDetector]
    exact Weaker.asCrystal (senseiMINOS_weaker (H _ (by simp)))
  · simp only [pairSearches, List.getElem?_cons_zero, List.getElem?_cons_succ, Option.some.injEq] at h'
    subst h'
    simp [Config.selectDetector]
    exact Weaker.asCrystal (cdmsHVeV2018_weaker (H _ (by simp)))
  · simp only [pairSearches, List.getElem?_cons_zero, List.getElem?_cons_succ, Option.some.injEq] at h'
    subst h'
    simp [Config.selectDetector]
    exact Weaker.asCrystal (cdmsHVeV2020_weaker (H _ (by simp)))
  · simp only [pairSearches, List.getElem?_cons_zero, List.getElem?_cons_succ, Option.some.injEq] at h'
    subst h'
    simp [Config.selectDetector]
    exact Weaker.asCrystal (damicM2023_weaker (H _ (by simp)))

/-! ## What success requires -/

theorem recoil_needs {e : RecoilSearch} (hk : e ∈ recoilSearches) {f : DataFile} (hf : f ∈ e.files) :
    Needs (c.selectDetector S [] e.name) (Present S.files f) := by
  obtain ⟨i, hi, h⟩ := List.getElem_of_mem hk
  have h' : recoilSearches[i]? = some e := by rw [List.getElem?_eq_getElem hi, h]
  simp only [recoilSearches, List.length_cons, List.length_nil] at hi
  interval_cases i
  · simp only [recoilSearches, List.getElem?_cons_zero, List.getElem?_cons_succ, Option.some.injEq] at h'
    subst h'
    rw [RecoilSearch.files] at hf
    simp only [Config.selectDetector, reduceIte, String.reduceEq, or_self]
    refine .left ?_
    simp only [List.map_nil, List.append_nil, List.mem_singleton] at hf
    subst hf
    exact .left nuclei_needs
  · simp only [recoilSearches, List.getElem?_cons_zero, List.getElem?_cons_succ, Option.some.injEq] at h'
    subst h'
    rw [RecoilSearch.files] at hf
    simp only [Config.selectDetector, reduceIte, String.reduceEq, or_self]
    refine .left ?_
    simp only [List.map_nil, List.append_nil, List.mem_singleton] at hf
    subst hf
    exact .left nuclei_needs
  · simp only [recoilSearches, List.getElem?_cons_zero, List.getElem?_cons_succ, Option.some.injEq] at h'
    subst h'
    rw [RecoilSearch.files] at hf
    simp only [Config.selectDetector, reduceIte, String.reduceEq, or_self]
    refine .left ?_
    rcases List.mem_cons.1 hf with rfl | hf
    · exact .left nuclei_needs
    rcases List.mem_append.1 hf with hf | hf
    · obtain ⟨t, ht, rfl⟩ := List.mem_map.1 hf
      exact .right fun ⟨_, _⟩ => .right fun ⟨_, _⟩ => .right fun _ => .right fun _ => .left (.collect ht table_needs)
    · obtain rfl := List.mem_singleton.1 hf
      exact .right fun ⟨_, _⟩ => .right fun ⟨_, _⟩ => .left list_needs
  · simp only [recoilSearches, List.getElem?_cons_zero, List.getElem?_cons_succ, Option.some.injEq] at h'
    subst h'
    rw [RecoilSearch.files] at hf
    simp only [Config.selectDetector, reduceIte, String.reduceEq, or_self]
    refine .left ?_
    rcases List.mem_cons.1 hf with rfl | hf
    · exact .left nuclei_needs
    rcases List.mem_append.1 hf with hf | hf
    · obtain ⟨t, ht, rfl⟩ := List.mem_map.1 hf
      exact .right fun ⟨_, _⟩ => .right fun ⟨_, _⟩ => .right fun _ => .right fun _ => .left (.collect ht table_needs)
    · obtain rfl := List.mem_singleton.1 hf
      exact .right fun ⟨_, _⟩ => .right fun ⟨_, _⟩ => .left list_needs
  · simp only [recoilSearches, List.getElem?_cons_zero, List.getElem?_cons_succ, Option.some.injEq] at h'
    subst h'
    rw [RecoilSearch.files] at hf
    simp only [Config.selectDetector, reduceIte, String.reduceEq, or_self]
    refine .left ?_
    rcases List.mem_cons.1 hf with rfl | hf
    · exact .left nuclei_needs
    rcases List.mem_append.1 hf with hf | hf
    · simp at hf
    · obtain rfl := List.mem_singleton.1 hf
      exact .right fun ⟨_, _⟩ => .right fun ⟨_, _⟩ => .left list_needs

theorem electronRecoil_needs {e : IonizationSearch} (hk : e ∈ ionizationSearches) {f : DataFile} (hf : f ∈ e.files) :
    Needs (c.selectDetector S [] e.name) (Present S.files f) := by
  obtain ⟨i, hi, h⟩ := List.getElem_of_mem hk
  have h' : ionizationSearches[i]? = some e := by rw [List.getElem?_eq_getElem hi, h]
  simp only [ionizationSearches, List.length_cons, List.length_nil] at hi
  interval_cases i
  · simp only [ionizationSearches, List.getElem?_cons_zero, List.getElem?_cons_succ, Option.some.injEq] at h'
    subst h'
    rw [IonizationSearch.files] at hf
    simp only [Config.selectDetector, reduceIte, String.reduceEq, or_self]
    refine .left ?_
    rcases List.mem_cons.1 hf with rfl | hf
    · exact .left ionization_needs_nuclear
    rcases List.mem_append.1 hf with hf | hf
    · obtain ⟨s, hs, hf⟩ := List.mem_flatMap.1 hf
      obtain ⟨r, hr, rfl⟩ := List.mem_map.1 hf
      exact .left (ionization_needs_xenon hs hr)
    · obtain rfl := List.mem_singleton.1 hf
      exact .right fun ⟨_, _, _⟩ => .right fun ⟨_, _⟩ => .right fun _ => .left list_needs
  · simp only [ionizationSearches, List.getElem?_cons_zero, List.getElem?_cons_succ, Option.some.injEq] at h'
    subst h'
    rw [IonizationSearch.files] at hf
    simp only [Config.selectDetector, reduceIte, String.reduceEq, or_self]
    refine .left ?_
    rcases List.mem_cons.1 hf with rfl | hf
    · exact .left ionization_needs_nuclear
    rcases List.mem_append.1 hf with hf | hf
    · obtain ⟨s, hs, hf⟩ := List.mem_flatMap.1 hf
      obtain ⟨r, hr, rfl⟩ := List.mem_map.1 hf
      exact .left (ionization_needs_xenon hs hr)
    · rcases List.mem_cons.1 hf with rfl | hf
      · exact .right fun ⟨_, _, _⟩ => .right fun ⟨_, _⟩ => .right fun _ => .left list_needs
      · obtain rfl := List.mem_singleton.1 hf
        exact .right fun ⟨_, _, _⟩ => .right fun ⟨_, _⟩ => .right fun _ => .right fun _ => .right fun _ => .left list_needs
  · simp only [ionizationSearches, List.getElem?_cons_zero, List.getElem?_cons_succ, Option.some.injEq] at h'
    subst h'
    rw [IonizationSearch.files] at hf
    simp only [Config.selectDetector, reduceIte, String.reduceEq, or_self]
    refine .left ?_
    rcases List.mem_cons.1 hf with rfl | hf
    · exact .left ionization_needs_nuclear
    rcases List.mem_append.1 hf with hf | hf
    · obtain ⟨s, hs, hf⟩ := List.mem_flatMap.1 hf
      obtain ⟨r, hr, rfl⟩ := List.mem_map.1 hf
      exact .left (ionization_needs_xenon hs hr)
    · simp at hf
  · simp only [ionizationSearches, List.getElem?_cons_zero, List.getElem?_cons_succ, Option.some.injEq] at h'
    subst h'
    rw [IonizationSearch.files] at hf
    simp only [Config.selectDetector, reduceIte, String.reduceEq, or_self]
    refine .left ?_
    rcases List.mem_cons.1 hf with rfl | hf
    · exact .left ionization_needs_nuclear
    rcases List.mem_append.1 hf with hf | hf
    · obtain ⟨s, hs, hf⟩ := List.mem_flatMap.1 hf
      obtain ⟨r, hr, rfl⟩ := List.mem_map.1 hf
      exact .left (ionization_needs_argon hs hr)
    · simp at hf
  · simp only [ionizationSearches, List.getElem?_cons_zero, List.getElem?_cons_succ, Option.some.injEq] at h'
    subst h'
    rw [IonizationSearch.files] at hf
    simp only [Config.selectDetector, reduceIte, String.reduceEq, or_self]
    refine .left ?_
    rcases List.mem_cons.1 hf with rfl | hf
    · exact .left ionization_needs_nuclear
    rcases List.mem_append.1 hf with hf | hf
    · obtain ⟨s, hs, hf⟩ := List.mem_flatMap.1 hf
      obtain ⟨r, hr, rfl⟩ := List.mem_map.1 hf
      exact .left (ionization_needs_argon hs hr)
    · simp at hf
  · simp only [ionizationSearches, List.getElem?_cons_zero, List.getElem?_cons_succ, Option.some.injEq] at h'
    subst h'
    rw [IonizationSearch.files] at hf
    simp only [Config.selectDetector, reduceIte, String.reduceEq, or_self]
    refine .left ?_
    rcases List.mem_cons.1 hf with rfl | hf
    · exact .left ionization_needs_nuclear
    rcases List.mem_append.1 hf with hf | hf
    · obtain ⟨s, hs, hf⟩ := List.mem_flatMap.1 hf
      obtain ⟨r, hr, rfl⟩ := List.mem_map.1 hf
      exact .left (ionization_needs_xenon hs hr)
    · simp at hf

theorem migdal_needs {e : IonizationSearch} (hk : e ∈ ionizationSearches) {f : DataFile} (hf : f ∈ e.files) :
    Needs (c.selectDetector S [] e.migdal) (Present S.files f) := by
  obtain ⟨i, hi, h⟩ := List.getElem_of_mem hk
  have h' : ionizationSearches[i]? = some e := by rw [List.getElem?_eq_getElem hi, h]
  simp only [ionizationSearches, List.length_cons, List.length_nil] at hi
  interval_cases i
  · simp only [ionizationSearches, List.getElem?_cons_zero, List.getElem?_cons_succ, Option.some.injEq] at h'
    subst h'
    rw [IonizationSearch.files] at hf
    simp only [Config.selectDetector, reduceIte, String.reduceEq, or_self]
    refine .left ?_
    rcases List.mem_cons.1 hf with rfl | hf
    · exact .left ionization_needs_nuclear
    rcases List.mem_append.1 hf with hf | hf
    · obtain ⟨s, hs, hf⟩ := List.mem_flatMap.1 hf
      obtain ⟨r, hr, rfl⟩ := List.mem_map.1 hf
      exact .left (ionization_needs_xenon hs hr)
    · obtain rfl := List.mem_singleton.1 hf
      exact .right fun ⟨_, _, _⟩ => .right fun ⟨_, _⟩ => .right fun _ => .left list_needs
  · simp only [ionizationSearches, List.getElem?_cons_zero, List.getElem?_cons_succ, Option.some.injEq] at h'
    subst h'
    rw [IonizationSearch.files] at hf
    simp only [Config.selectDetector, reduceIte, String.reduceEq, or_self]
    refine .left ?_
    rcases List.mem_cons.1 hf with rfl | hf
    · exact .left ionization_needs_nuclear
    rcases List.mem_append.1 hf with hf | hf
    · obtain ⟨s, hs, hf⟩ := List.mem_flatMap.1 hf
      obtain ⟨r, hr, rfl⟩ := List.mem_map.1 hf
      exact .left (ionization_needs_xenon hs hr)
    · rcases List.mem_cons.1 hf with rfl | hf
      · exact .right fun ⟨_, _, _⟩ => .right fun ⟨_, _⟩ => .right fun _ => .left list_needs
      · obtain rfl := List.mem_singleton.1 hf
        exact .right fun ⟨_, _, _⟩ => .right fun ⟨_, _⟩ => .right fun _ => .right fun _ => .right fun _ => .left list_needs
  · simp only [ionizationSearches, List.getElem?_cons_zero, List.getElem?_cons_succ, Option.some.injEq] at h'
    subst h'
    rw [IonizationSearch.files] at hf
    simp only [Config.selectDetector, reduceIte, String.reduceEq, or_self]
    refine .left ?_
    rcases List.mem_cons.1 hf with rfl | hf
    · exact .left ionization_needs_nuclear
    rcases List.mem_append.1 hf with hf | hf
    · obtain ⟨s, hs, hf⟩ := List.mem_flatMap.1 hf
      obtain ⟨r, hr, rfl⟩ := List.mem_map.1 hf
      exact .left (ionization_needs_xenon hs hr)
    · simp at hf
  · simp only [ionizationSearches, List.getElem?_cons_zero, List.getElem?_cons_succ, Option.some.injEq] at h'
    subst h'
    rw [IonizationSearch.files] at hf
    simp only [Config.selectDetector, reduceIte, String.reduceEq, or_self]
    refine .left ?_
    rcases List.mem_cons.1 hf with rfl | hf
    · exact .left ionization_needs_nuclear
    rcases List.mem_append.1 hf with hf | hf
    · obtain ⟨s, hs, hf⟩ := List.mem_flatMap.1 hf
      obtain ⟨r, hr, rfl⟩ := List.mem_map.1 hf
      exact .left (ionization_needs_argon hs hr)
    · simp at hf
  · simp only [ionizationSearches, List.getElem?_cons_zero, List.getElem?_cons_succ, Option.some.injEq] at h'
    subst h'
    rw [IonizationSearch.files] at hf
    simp only [Config.selectDetector, reduceIte, String.reduceEq, or_self]
    refine .left ?_
    rcases List.mem_cons.1 hf with rfl | hf
    · exact .left ionization_needs_nuclear
    rcases List.mem_append.1 hf with hf | hf
    · obtain ⟨s, hs, hf⟩ := List.mem_flatMap.1 hf
      obtain ⟨r, hr, rfl⟩ := List.mem_map.1 hf
      exact .left (ionization_needs_argon hs hr)
    · simp at hf
  · simp only [ionizationSearches, List.getElem?_cons_zero, List.getElem?_cons_succ, Option.some.injEq] at h'
    subst h'
    rw [IonizationSearch.files] at hf
    simp only [Config.selectDetector, reduceIte, String.reduceEq, or_self]
    refine .left ?_
    rcases List.mem_cons.1 hf with rfl | hf
    · exact .left ionization_needs_nuclear
    rcases List.mem_append.1 hf with hf | hf
    · obtain ⟨s, hs, hf⟩ := List.mem_flatMap.1 hf
      obtain ⟨r, hr, rfl⟩ := List.mem_map.1 hf
      exact .left (ionization_needs_xenon hs hr)
    · simp at hf

theorem pair_needs {e : PairSearch} (hk : e ∈ pairSearches) :
    Needs (c.selectDetector S cache e.name) (Present S.files (.crystal "Si")) := by
  obtain ⟨i, hi, h⟩ := List.getElem_of_mem hk
  have h' : pairSearches[i]? = some e := by rw [List.getElem?_eq_getElem hi, h]
  simp only [pairSearches, List.length_cons, List.length_nil] at hi
  interval_cases i
  all_goals
    simp only [pairSearches, List.getElem?_cons_zero, List.getElem?_cons_succ, Option.some.injEq] at h'
    subst h'
    simp only [Config.selectDetector, reduceIte, String.reduceEq, or_self]
    exact .left (.left crystal_needs)

theorem search_weaker {e : Search} (hk : e.Known) (H : ∀ f ∈ e.files, SameOrMissing F' S.files f) :
    Weaker (c.selectDetector (withFiles S F') cache e.name) (c.selectDetector S cache e.name) := by
  cases e with
  | recoils e => exact recoil_weaker hk H
  | electronRecoils e => exact electronRecoil_weaker hk H
  | migdal e => exact migdal_weaker hk H
  | pairs e => exact pair_weaker hk H

/-! ## The property -/

/-- **C108** — whatever is configured (a predefined search or a user-defined detector): if files are missing, the program ends or
everything is as with a complete installation. -/
theorem C108_no_change (h : ∀ f, Same F' S.files f ∨ ¬ Present F' f) :
    c.detector (withFiles S F') cache = .exit ∨ c.detector (withFiles S F') cache = c.detector S cache :=
  Weaker.bind .rfl fun name => selectDetector_weaker (fun f => sameOrMissing_of (h f)) c name

/-- C108 — the same with only the files of the search: all others may have any content. -/
theorem C108_own_files {e : Search} (hk : e.Known) (hn : c "DD_experiment" = some (.string e.name))
    (h : ∀ f ∈ e.files, Same F' S.files f ∨ ¬ Present F' f) :
    c.detector (withFiles S F') cache = .exit ∨ c.detector (withFiles S F') cache = c.detector S cache := by
  rw [Config.detector_string hn, Config.detector_string hn]
  exact search_weaker hk fun f hf => sameOrMissing_of (h f hf)

/-- C108 — the outcome depends on nothing but the content of the files of the search. -/
theorem C108_determined {e : Search} (hk : e.Known) (hn : c "DD_experiment" = some (.string e.name))
    (h : ∀ f ∈ e.files, Same F' S.files f) : c.detector (withFiles S F') cache = c.detector S cache := by
  have h1 := C108_own_files (cache := cache) hk hn fun f hf => .inl (h f hf)
  have h2 := C108_own_files (S := withFiles S F') (F' := S.files) (cache := cache) hk hn fun f hf => .inl (by
    have := h f hf
    cases f <;> exact this.symm)
  have h3 : withFiles (withFiles S F') S.files = S := rfl
  rw [h3] at h2
  rcases h1 with h1 | h1
  · rcases h2 with h2 | h2
    · rw [h1, h2]
    · exact h2.symm
  · exact h1

/-- C108 — a program that starts and gets a detector has all files of the search. -/
theorem C108_needed {e : Search} (hk : e.Known) (hn : c "DD_experiment" = some (.string e.name)) {r : List Nucleus × AnyDetector}
    (h : c.detector S [] = .ok r) : ∀ f ∈ e.files, Present S.files f := by
  intro f hf
  rw [Config.detector_string hn] at h
  cases e with
  | recoils e => exact recoil_needs hk hf _ h
  | electronRecoils e => exact electronRecoil_needs hk hf _ h
  | migdal e => exact migdal_needs hk hf _ h
  | pairs e =>
    obtain rfl := List.mem_singleton.1 hf
    exact pair_needs hk _ h

theorem without_spec (F : DataFiles) (f g : DataFile) : Same (without F f) F g ∨ ¬ Present (without F f) g := by
  cases f <;> cases g <;> simp only [Same, Present, without, not_not, true_or, or_true]
  all_goals
    split_ifs
    · exact .inr rfl
    · exact .inl rfl

theorem without_missing (F : DataFiles) (f : DataFile) : ¬ Present (without F f) f := by
  cases f <;> simp [Present, without]

/-- C108 — with a complete installation the search is available. If one of its files is taken away, a program that starts ends. -/
theorem C108_removed {rows : List NuclearRow} (hI : Installed S rows) {e : Search} (hk : e.Known)
    (hn : c "DD_experiment" = some (.string e.name)) :
    (∃ r, c.detector S [] = .ok r) ∧ ∀ f ∈ e.files, c.detector (withFiles S (without S.files f)) [] = .exit := by
  have h1 : ∃ r, c.detector S [] = .ok r := by
    cases e with
    | recoils e => obtain ⟨_, _, _, h, -⟩ := C55_nuclear hI .start hk hn; exact ⟨_, h⟩
    | electronRecoils e => obtain ⟨_, _, _, h, -⟩ := C55_electron_recoil hI .start hk hn; exact ⟨_, h⟩
    | migdal e => obtain ⟨_, _, _, h, -⟩ := C55_migdal_partial hI .start hk hn; exact ⟨_, h⟩
    | pairs e => obtain ⟨_, _, _, h, -⟩ := C55_crystal hI (cache := []) hk hn; exact ⟨_, h⟩
  refine ⟨h1, fun f hf => ?_⟩
  rcases C108_no_change (S := S) (c := c) (cache := []) (without_spec S.files f) with h | h
  · exact h
  · obtain ⟨r, hr⟩ := h1
    rw [hr] at h
    exact absurd (C108_needed hk hn h f hf) (without_missing S.files f)

/-- C108 — the nuclear data are read once: when they are loaded, the file is not looked at again. -/
theorem C108_loaded {U : Units} (hc : cache ≠ []) (F F' : Option (List NuclearRow)) (Z : ℕ) :
    getNucleus U F cache Z = getNucleus U F' cache Z := by
  have h : ¬ cache.length = 0 := by simpa using hc
  unfold getNucleus
  simp only [if_neg h]

/-- Non-vacuity: a complete installation, and a program that ends without a table of xenon. -/
example : ∃ (c : Config) (e : Search), e.Known ∧ c "DD_experiment" = some (.string e.name) ∧ DataFile.response "Xe_5p_3" ∈ e.files ∧
    (∃ r, c.detector sampleSetup [] = .ok r) ∧ c.detector (withFiles sampleSetup (without sampleSetup.files (.response "Xe_5p_3"))) [] = .exit := by
  have hk : (Search.migdal ionizationSearches[0]).Known := List.getElem_mem _
  have hf : DataFile.response "Xe_5p_3" ∈ (Search.migdal ionizationSearches[0]).files := by
    simp only [Search.files, IonizationSearch.files, List.mem_cons, List.mem_append, List.mem_flatMap]
    exact .inr (.inl ⟨("Xe_5p", 12.4433, 0), by simp [ionizationSearches, atomData, xenon], List.mem_map.2 ⟨3, by simp, rfl⟩⟩)
  obtain ⟨h1, h2⟩ := C108_removed sampleSetup_installed (c := fun k => if k = "DD_experiment" then some (.string "XENON10_S2_Migdal") else none)
    hk rfl
  exact ⟨_, _, hk, rfl, hf, h1, h2 _ hf⟩

/-- Non-vacuity: the files of CRESST-II, among them three tables and a list. -/
example (e : RecoilSearch) (he : recoilSearches[2]? = some e) : e.files.length = 5 ∧ DataFile.table "data/CRESST-II/Lise_eff_AR_W.dat" ∈ e.files ∧
    DataFile.list "data/CRESST-II/Lise_AR.dat" ∈ e.files := by
  simp only [recoilSearches, List.getElem?_cons_zero, List.getElem?_cons_succ, Option.some.injEq] at he
  subst he
  simp [RecoilSearch.files]

end Obscura
