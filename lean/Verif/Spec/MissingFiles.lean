import Verif.Spec.Experiments

/-!
# Specification for C108 — which data files an experiment needs
-/

namespace Obscura.Spec

/-- A data file: the nuclear data, a table of atomic response functions, a table for a semiconductor, a list of numbers or a table of efficiencies. -/
inductive DataFile where
  | nuclear
  | response (table : String)
  | crystal (target : String)
  | list (name : String)
  | table (name : String)

/-- Is the file installed? -/
def Present (F : DataFiles) : DataFile → Prop
  | .nuclear => F.nuclear ≠ none
  | .response t => F.response t ≠ none
  | .crystal t => F.crystal t ≠ none
  | .list n => F.numbers n ≠ none
  | .table n => F.efficiency n ≠ none

/-- Has the file the same content in both installations (or is it missing in both)? -/
def Same (F' F : DataFiles) : DataFile → Prop
  | .nuclear => F'.nuclear = F.nuclear
  | .response t => F'.response t = F.response t
  | .crystal t => F'.crystal t = F.crystal t
  | .list n => F'.numbers n = F.numbers n
  | .table n => F'.efficiency n = F.efficiency n

/-- The installation without one file. -/
def without (F : DataFiles) : DataFile → DataFiles
  | .nuclear => { F with nuclear := none }
  | .response t => { F with response := fun u => if u = t then none else F.response u }
  | .crystal t => { F with crystal := fun u => if u = t then none else F.crystal u }
  | .list n => { F with numbers := fun u => if u = n then none else F.numbers u }
  | .table n => { F with efficiency := fun u => if u = n then none else F.efficiency u }

/-- The same setup with other files. -/
def withFiles (S : Setup) (F : DataFiles) : Setup := { S with files := F }

/-- The files of a nuclear recoil search: nuclear data, efficiencies and events. -/
def RecoilSearch.files (e : RecoilSearch) : List DataFile :=
  .nuclear :: (e.tables.map .table ++ match e.data with
    | .counted _ => []
    | .listed file => [.list file])

/-- The files of an ionization search: nuclear data, four tables for every shell of the atom, and the efficiencies for photo-electrons. -/
noncomputable def IonizationSearch.files (e : IonizationSearch) : List DataFile :=
  .nuclear :: ((atomData e.atom).2.2.flatMap (fun s => [1, 2, 3, 4].map fun r => DataFile.response (s.1 ++ "_" ++ toString r)) ++
    match e.bins with
    | .electrons _ => []
    | .photoElectrons _ _ _ trigger none => [.list trigger]
    | .photoElectrons _ _ _ trigger (some acceptance) => [.list trigger, .list acceptance])

/-- A predefined search. -/
inductive Search where
  | recoils (e : RecoilSearch)
  | electronRecoils (e : IonizationSearch)
  | migdal (e : IonizationSearch)
  | pairs (e : PairSearch)

/-- Is it one of the published searches? -/
def Search.Known : Search → Prop
  | .recoils e => e ∈ recoilSearches
  | .electronRecoils e => e ∈ ionizationSearches
  | .migdal e => e ∈ ionizationSearches
  | .pairs e => e ∈ pairSearches

/-- The string that selects the search in a configuration file. -/
def Search.name : Search → String
  | .recoils e => e.name
  | .electronRecoils e => e.name
  | .migdal e => e.migdal
  | .pairs e => e.name

/-- The files the search needs. All searches with semiconductors use silicon. -/
noncomputable def Search.files : Search → List DataFile
  | .recoils e => e.files
  | .electronRecoils e => e.files
  | .migdal e => e.files
  | .pairs _ => [.crystal "Si"]

end Obscura.Spec
