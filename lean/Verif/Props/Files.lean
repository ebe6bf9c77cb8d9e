import Verif.Lemmas.Files
import Verif.Lemmas.Configuration

/-!
# C54 — what reading a configuration does to the files
-/

namespace Obscura

open Spec FileSystem

variable {R : Installation} {S : Setup} {N : Numerics} {speeds : String → Option (List ℝ × List ℝ)} {parse : List Char → Option Config}
  {fs : FileSystem} {cache : List Nucleus} {cfgFile : Name} {text : List Char} {c : Config} {ID : String} {top : List Name}

theorem make_files {rank : ℤ} (hr : fs.read R.cwd cfgFile = some text) (hp : parse text = some c) (hID : c "ID" = some (.string ID)) :
    (Configuration.make R S N speeds parse fs cache cfgFile rank).1 =
      Configuration.copyConfigFile R (Configuration.createResultFolder R fs ID.toList rank) cfgFile ID.toList rank := by
  unfold Configuration.make Configuration.initializeResultFolder
  rw [hr, Option.bind_some, hp]
  dsimp only
  rw [Config.getString_eq hID]

/-- C54 (other ranks). Only rank 0 writes. -/
theorem C54_other_ranks {rank : ℤ} (h : rank ≠ 0) : (Configuration.make R S N speeds parse fs cache cfgFile rank).1 = fs := by
  unfold Configuration.make
  split
  · rfl
  · rename_i c _
    have : (Configuration.initializeResultFolder R fs c cfgFile rank).1 = fs := by
      unfold Configuration.initializeResultFolder
      split <;> simp [Configuration.copyConfigFile, Configuration.createResultFolder, h]
    split <;> (rename_i h'; rw [h'] at this; exact this)

/-- C54 (unusable files). If the file cannot be read, cannot be parsed or has no ID, nothing is written and the program stops. -/
theorem C54_unusable_file {rank : ℤ}
    (h : fs.read R.cwd cfgFile = none ∨ ∃ t, fs.read R.cwd cfgFile = some t ∧ (parse t = none ∨ ∃ c, parse t = some c ∧ c "ID" = none)) :
    Configuration.make R S N speeds parse fs cache cfgFile rank = (fs, .exit) := by
  unfold Configuration.make
  rcases h with h | ⟨t, h, h' | ⟨c, h', h''⟩⟩
  · rw [h]; rfl
  · rw [h, Option.bind_some, h']
  · rw [h, Option.bind_some, h']
    simp [Configuration.initializeResultFolder, Config.getString, Config.lookup, h'']

/-- C54 (places that are written). If the ID is a plain name, nothing changes but the folder `results`, the folder `results/ID` and the
file `results/ID/ID.cfg`; no folder is removed or replaced. -/
theorem C54_written_places_partial {rank : ℤ} (hr : fs.read R.cwd cfgFile = some text) (hp : parse text = some c)
    (hID : c "ID" = some (.string ID)) (hn : PlainName ID.toList) (ht : TopAt R fs top) :
    (∀ place, place ≠ resultsPlace top → place ≠ runPlace top ID.toList → place ≠ copyPlace top ID.toList →
      (Configuration.make R S N speeds parse fs cache cfgFile rank).1 place = fs place) ∧
    ∀ place, fs place = some .dir → (Configuration.make R S N speeds parse fs cache cfgFile rank).1 place = some .dir := by
  by_cases h0 : rank = 0
  · subst h0
    rw [make_files hr hp hID]
    obtain ⟨c1, c2, -⟩ := createResultFolder_eq ht hn
    obtain ⟨d1, d2⟩ := copyConfigFile_other ht hn c1 cfgFile
    constructor
    · intro q h1 h2 h3
      rw [d2 q h3, c2 q h1 h2]
    · intro q hq
      by_cases he : q = []
      · subst he
        have w : ([] : List Name) ≠ copyPlace top ID.toList := by simp [copyPlace]
        have w1 : ([] : List Name) ≠ resultsPlace top := by simp [resultsPlace]
        have w2 : ([] : List Name) ≠ runPlace top ID.toList := by simp [runPlace]
        rw [d2 _ w, c2 _ w1 w2, hq]
      · have := d1 q (c1 q (by simp [isDir, hq]))
        simpa [isDir, he] using this
  · rw [C54_other_ranks h0]
    exact ⟨fun _ _ _ _ => rfl, fun _ h => h⟩

/-- C54 (everything is below the results folder). A consequence in other words: what is outside the folder `results` stays as it is. -/
theorem C54_outside_results_partial {rank : ℤ} (hr : fs.read R.cwd cfgFile = some text) (hp : parse text = some c)
    (hID : c "ID" = some (.string ID)) (hn : PlainName ID.toList) (ht : TopAt R fs top) {place : List Name}
    (h : ¬ Below place (resultsPlace top)) : (Configuration.make R S N speeds parse fs cache cfgFile rank).1 place = fs place := by
  refine (C54_written_places_partial hr hp hID hn ht).1 place ?_ ?_ ?_
  · rintro rfl; exact h (List.suffix_refl _)
  · rintro rfl; exact h ⟨[ID.toList], rfl⟩
  · rintro rfl; exact h ⟨[ID.toList ++ ".cfg".toList, ID.toList], rfl⟩

/-- C54 (the input is kept). If the file that is read is not the copy of an earlier run with the same ID, it has the same content
afterwards, and the same path still leads to it. -/
theorem C54_input_kept_partial {rank : ℤ} (hr : fs.read R.cwd cfgFile = some text) (hp : parse text = some c)
    (hID : c "ID" = some (.string ID)) (hn : PlainName ID.toList) (ht : TopAt R fs top)
    (hne : fs.locate R.cwd cfgFile ≠ some (copyPlace top ID.toList)) :
    (Configuration.make R S N speeds parse fs cache cfgFile rank).1.read R.cwd cfgFile = some text := by
  obtain ⟨h1, h2⟩ := C54_written_places_partial (S := S) (N := N) (speeds := speeds) (cache := cache) (rank := rank) hr hp hID hn ht
  have hr' := hr
  unfold FileSystem.read at hr'
  split at hr'
  · cases hr'
  · rename_i place hl
    have hl' := locate_mono (g := (Configuration.make R S N speeds parse fs cache cfgFile rank).1) (fun q hq => by
      by_cases he : q = []
      · simp [isDir, he]
      · simp only [isDir, Bool.or_eq_true, beq_iff_eq, he, false_or] at hq ⊢
        exact h2 q hq) hl
    unfold FileSystem.read
    rw [hl']
    dsimp only
    split at hr' <;> try cases hr'
    rename_i ht'
    by_cases hs : rank = 0
    · have keep : (Configuration.make R S N speeds parse fs cache cfgFile rank).1 place = fs place := by
        by_cases e : place = resultsPlace top ∨ place = runPlace top ID.toList
        · -- a file in the way of a folder is kept: nothing is made there
          subst hs
          rw [make_files hr hp hID]
          have hc3 : place ≠ copyPlace top ID.toList := fun h => hne (by rw [hl, h])
          obtain ⟨c1, c2, -⟩ := createResultFolder_eq ht hn
          rw [(copyConfigFile_other ht hn c1 cfgFile).2 place hc3]
          unfold Configuration.createResultFolder
          rw [if_pos rfl]
          have km : ∀ (g : FileSystem) (p : Name), g place = fs place → g.mkdir R.cwd p place = fs place := by
            intro g p hg
            unfold mkdir
            cases g.locate R.cwd p with
            | none => exact hg
            | some pl =>
              dsimp only
              split_ifs with hz
              · have : place ≠ pl := by rintro rfl; rw [hg, ht'] at hz; cases hz
                rw [Function.update_of_ne this, hg]
              · exact hg
          exact km _ _ (km _ _ rfl)
        · push Not at e
          exact h1 place e.1 e.2 (fun h => hne (by rw [hl, h]))
      rw [keep, ht']
    · rw [C54_other_ranks hs, ht']

/-- C54 (the copy). On rank 0, with nothing in the way, the copy is the header line followed by the text that was read. -/
theorem C54_copy_partial (hr : fs.read R.cwd cfgFile = some text) (hp : parse text = some c) (hID : c "ID" = some (.string ID))
    (hn : PlainName ID.toList) (ht : TopAt R fs top) (hf : FreeToWrite fs top ID.toList)
    (hne : fs.locate R.cwd cfgFile ≠ some (copyPlace top ID.toList)) :
    let after := (Configuration.make R S N speeds parse fs cache cfgFile 0).1
    after (resultsPlace top) = some .dir ∧ after (runPlace top ID.toList) = some .dir ∧
      after (copyPlace top ID.toList) = some (.file (R.header ++ text)) := by
  dsimp only
  have kept := C54_input_kept_partial (S := S) (N := N) (speeds := speeds) (cache := cache) (rank := 0) hr hp hID hn ht hne
  rw [make_files hr hp hID] at kept ⊢
  obtain ⟨c1, c2, c3⟩ := createResultFolder_eq ht hn
  obtain ⟨e1, e2⟩ := c3 hf.1 hf.2.1
  obtain ⟨d1, d2⟩ := copyConfigFile_other ht hn c1 cfgFile
  have n1 : copyPlace top ID.toList ≠ resultsPlace top := by
    intro h; have := congrArg List.length h; simp [copyPlace, runPlace] at this; omega
  have n2 : copyPlace top ID.toList ≠ runPlace top ID.toList := by
    intro h; have := congrArg List.length h; simp [copyPlace] at this
  refine ⟨by rw [d2 _ n1.symm, e1], by rw [d2 _ n2.symm, e2], ?_⟩
  have h3 : Configuration.createResultFolder R fs ID.toList 0 (copyPlace top ID.toList) ≠ some .dir := by
    rw [c2 _ n1 n2]; exact hf.2.2
  rw [copyConfigFile_copy ht hn c1 e1 e2 h3 cfgFile]
  -- the text that is read after the header has been written is the original text
  have hw : FileSystem.read (Function.update (Configuration.createResultFolder R fs ID.toList 0) (copyPlace top ID.toList)
      (some (.file R.header))) R.cwd cfgFile = some text := by
    have hr' := hr
    unfold FileSystem.read at hr'
    split at hr'
    · cases hr'
    · rename_i place hl
      have hc3 : place ≠ copyPlace top ID.toList := fun h => hne (by rw [hl, h])
      have hm : ∀ q, fs.isDir q = true → FileSystem.isDir (Function.update (Configuration.createResultFolder R fs ID.toList 0)
          (copyPlace top ID.toList) (some (.file R.header))) q = true := by
        intro q hq
        have hq' := c1 q hq
        by_cases he : q = []
        · simp [isDir, he]
        · have hd : Configuration.createResultFolder R fs ID.toList 0 q = some .dir := by simpa [isDir, he] using hq'
          have : q ≠ copyPlace top ID.toList := by rintro rfl; exact h3 hd
          simp only [isDir]
          rw [Function.update_of_ne this, hd]; simp
      unfold FileSystem.read
      rw [locate_mono hm hl]
      dsimp only
      rw [Function.update_of_ne hc3]
      have k := kept
      unfold FileSystem.read at k
      rw [locate_mono (fun q hq => d1 q (c1 q hq)) hl] at k
      dsimp only at k
      rw [d2 place hc3] at k
      exact k
  rw [hw]; rfl

/-- C54 (violated when a copy is read). Reading the copy of an earlier run with the same ID destroys it: it then consists of the
header line twice. -/
theorem C54_fails_alias (hr : fs.read R.cwd cfgFile = some text) (hp : parse text = some c) (hID : c "ID" = some (.string ID))
    (hn : PlainName ID.toList) (ht : TopAt R fs top) (hl : fs.locate R.cwd cfgFile = some (copyPlace top ID.toList))
    (hd1 : fs (resultsPlace top) = some .dir) (hd2 : fs (runPlace top ID.toList) = some .dir) :
    (Configuration.make R S N speeds parse fs cache cfgFile 0).1 (copyPlace top ID.toList) = some (.file (R.header ++ R.header)) ∧
    (Configuration.make R S N speeds parse fs cache cfgFile 0).1.read R.cwd cfgFile = some (R.header ++ R.header) := by
  obtain ⟨c1, c2, c3⟩ := createResultFolder_eq ht hn
  obtain ⟨e1, e2⟩ := c3 (.inr hd1) (.inr hd2)
  have n1 : copyPlace top ID.toList ≠ resultsPlace top := by
    intro h; have := congrArg List.length h; simp [copyPlace, runPlace] at this; omega
  have n2 : copyPlace top ID.toList ≠ runPlace top ID.toList := by
    intro h; have := congrArg List.length h; simp [copyPlace] at this
  have hfile : fs (copyPlace top ID.toList) = some (.file text) := by
    unfold FileSystem.read at hr
    rw [hl] at hr
    dsimp only at hr
    split at hr
    · rename_i h; cases hr; exact h
    · cases hr
  have h3 : Configuration.createResultFolder R fs ID.toList 0 (copyPlace top ID.toList) ≠ some .dir := by
    rw [c2 _ n1 n2, hfile]; simp
  have hm : ∀ q, fs.isDir q = true → FileSystem.isDir (Function.update (Configuration.createResultFolder R fs ID.toList 0)
      (copyPlace top ID.toList) (some (.file R.header))) q = true := by
    intro q hq
    have hq' := c1 q hq
    by_cases he : q = []
    · simp [isDir, he]
    · have hd : Configuration.createResultFolder R fs ID.toList 0 q = some .dir := by simpa [isDir, he] using hq'
      have : q ≠ copyPlace top ID.toList := by rintro rfl; exact h3 hd
      simp only [isDir]
      rw [Function.update_of_ne this, hd]; simp
  have hw : FileSystem.read (Function.update (Configuration.createResultFolder R fs ID.toList 0) (copyPlace top ID.toList)
      (some (.file R.header))) R.cwd cfgFile = some R.header := by
    unfold FileSystem.read
    rw [locate_mono hm hl]
    simp
  have key : (Configuration.make R S N speeds parse fs cache cfgFile 0).1 (copyPlace top ID.toList) =
      some (.file (R.header ++ R.header)) := by
    rw [make_files hr hp hID, copyConfigFile_copy ht hn c1 e1 e2 h3 cfgFile, hw]; rfl
  refine ⟨key, ?_⟩
  obtain ⟨-, g2⟩ := C54_written_places_partial (S := S) (N := N) (speeds := speeds) (cache := cache) (rank := 0) hr hp hID hn ht
  unfold FileSystem.read
  rw [locate_mono (fun q hq => by
    by_cases he : q = []
    · simp [isDir, he]
    · simp only [isDir, Bool.or_eq_true, beq_iff_eq, he, false_or] at hq ⊢
      exact g2 q hq) hl]
  dsimp only
  rw [key]

/-! ## A concrete installation -/

/-- The program installed in `/o`, started in `/o`. -/
def sampleInstallation : Installation := ⟨[['o']], ['/', 'o', '/'], ['#', '\n']⟩

/-- `/o` with a configuration file `a`, and a file `b.cfg` of somebody else. -/
def sampleFiles : FileSystem := fun place =>
  if place = [['o']] then some .dir else if place = [['a'], ['o']] then some (.file ['x'])
  else if place = ["b.cfg".toList, ['o']] then some (.file ['y']) else none

theorem sampleTop : TopAt sampleInstallation sampleFiles [['o']] := ⟨['/', 'o'], rfl, by decide⟩

/-- Reading `a` with ID "r": `/o/results/r/r.cfg` is written, and `a` is kept. -/
example (S : Setup) (N : Numerics) (speeds) (cache) (c : Config) (h : c "ID" = some (.string "r")) :
    let after := (Configuration.make sampleInstallation S N speeds (fun _ => some c) sampleFiles cache ['a'] 0).1
    after ["r.cfg".toList, ['r'], "results".toList, ['o']] = some (.file ['#', '\n', 'x']) ∧
      after.read sampleInstallation.cwd ['a'] = some ['x'] := by
  have hn : PlainName "r".toList := by unfold PlainName; decide
  have hr : sampleFiles.read sampleInstallation.cwd ['a'] = some ['x'] := by decide
  have hne : sampleFiles.locate sampleInstallation.cwd ['a'] ≠ some (copyPlace [['o']] "r".toList) := by decide
  exact ⟨(C54_copy_partial hr rfl h hn sampleTop ⟨by decide, by decide, by decide⟩ hne).2.2,
    C54_input_kept_partial hr rfl h hn sampleTop hne⟩

/-- C54 (violated for an ID with dots). With the ID "../b", somebody else's file `b.cfg` next to the folder `results` is
overwritten. -/
theorem C54_fails_traversal (S : Setup) (N : Numerics) (speeds) (cache) (c : Config) (h : c "ID" = some (.string "../b")) :
    sampleFiles ["b.cfg".toList, ['o']] = some (.file ['y']) ∧
    (Configuration.make sampleInstallation S N speeds (fun _ => some c) sampleFiles cache ['a'] 0).1 ["b.cfg".toList, ['o']] =
      some (.file ['#', '\n', 'x']) := by
  refine ⟨by decide, ?_⟩
  rw [make_files (text := ['x']) (by decide) rfl h]
  decide

/-- The folder of an earlier run. -/
def sampleFilesAfter : FileSystem := fun place =>
  if place = [['o']] ∨ place = ["results".toList, ['o']] ∨ place = [['r'], "results".toList, ['o']] then some .dir
  else if place = ["r.cfg".toList, ['r'], "results".toList, ['o']] then some (.file ['z']) else none

/-- The hypotheses of `C54_fails_alias` hold when the copy of an earlier run is given as the configuration file. -/
example (S : Setup) (N : Numerics) (speeds) (cache) (c : Config) (h : c "ID" = some (.string "r")) :
    (Configuration.make sampleInstallation S N speeds (fun _ => some c) sampleFilesAfter cache "results/r/r.cfg".toList 0).1
      ["r.cfg".toList, ['r'], "results".toList, ['o']] = some (.file ['#', '\n', '#', '\n']) :=
  (C54_fails_alias (text := ['z']) (top := [['o']]) (by decide) rfl h (by unfold PlainName; decide) ⟨['/', 'o'], rfl, by decide⟩
    (by decide) (by decide) (by decide)).1

end Obscura
