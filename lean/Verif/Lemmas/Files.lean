import Verif.Spec.Files

/-!
# Paths, places and what is written
-/

namespace Obscura

open Spec

namespace FileSystem

theorem isDir_cons {fs : FileSystem} {n : Name} {p : List Name} : fs.isDir (n :: p) = true ↔ fs (n :: p) = some .dir := by
  simp [isDir]

theorem walk_append (fs : FileSystem) (p : List Name) (a b : List Name) : fs.walk p (a ++ b) = (fs.walk p a).bind fun q => fs.walk q b := by
  induction a generalizing p with
  | nil => simp [walk]
  | cons c cs ih =>
    simp only [List.cons_append, walk]
    split_ifs <;> simp [ih]

theorem walk_plain {fs : FileSystem} {p : List Name} {n : Name} (hn : PlainName n) :
    fs.walk p [n] = if fs.isDir (n :: p) then some (n :: p) else none := by
  simp [walk, hn.1, hn.2.2.1, hn.2.2.2]

theorem walk_mono {fs fs' : FileSystem} (h : ∀ q, fs.isDir q = true → fs'.isDir q = true) {p q : List Name} {cs : List Name}
    (hw : fs.walk p cs = some q) : fs'.walk p cs = some q := by
  induction cs generalizing p with
  | nil => simpa [walk] using hw
  | cons c cs ih =>
    simp only [walk] at hw ⊢
    by_cases h1 : c = [] ∨ c = ['.']
    · rw [if_pos h1] at hw ⊢; exact ih hw
    rw [if_neg h1] at hw ⊢
    by_cases h2 : c = ['.', '.']
    · rw [if_pos h2] at hw ⊢; exact ih hw
    rw [if_neg h2] at hw ⊢
    by_cases h3 : fs.isDir (c :: p) = true
    · rw [if_pos h3] at hw; rw [if_pos (h _ h3)]; exact ih hw
    · rw [if_neg h3] at hw; cases hw

theorem start_append (cwd : List Name) (t n : Name) : start cwd (t ++ '/' :: n) = start cwd (t ++ ['/']) := by
  cases t <;> simp [start]

theorem comps_last {cs : List Name} {n : Name} (hn : n ≠ []) : ((cs ++ [n]).reverse.dropWhile (· == [])).reverse = cs ++ [n] := by
  simp [hn]

/-- The place of a plain name in a directory. -/
theorem locate_child {fs : FileSystem} {cwd : List Name} {t n : Name} (hn : PlainName n) :
    fs.locate cwd (t ++ '/' :: n) = (fs.walk (start cwd (t ++ ['/'])) (t.splitOn '/')).map fun p => n :: p := by
  have e : (t ++ '/' :: n).splitOn '/' = t.splitOn '/' ++ [n] := by
    rw [List.splitOn_append_cons_self, List.splitOn_eq_singleton hn.2.1]
  unfold locate
  rw [e, comps_last hn.1, start_append]
  simp [hn.2.2.1, hn.2.2.2]

/-- The same with a final slash. -/
theorem locate_child_slash {fs : FileSystem} {cwd : List Name} {t n : Name} (hn : PlainName n) :
    fs.locate cwd (t ++ '/' :: (n ++ ['/'])) = (fs.walk (start cwd (t ++ ['/'])) (t.splitOn '/')).map fun p => n :: p := by
  have e : (t ++ '/' :: (n ++ ['/'])).splitOn '/' = t.splitOn '/' ++ [n] ++ [[]] := by
    rw [List.splitOn_append_cons_self, List.splitOn_append_cons_self_of_not_mem hn.2.1]
    simp
  unfold locate
  have d : ((t.splitOn '/' ++ [n] ++ [([] : Name)]).reverse.dropWhile (· == [])).reverse = t.splitOn '/' ++ [n] := by
    rw [List.reverse_append (bs := [([] : Name)])]
    simpa using comps_last (cs := t.splitOn '/') hn.1
  rw [e, d, start_append]
  simp [hn.2.2.1, hn.2.2.2]

theorem mkdir_isDir {fs : FileSystem} {cwd : List Name} {path : Name} (q : List Name) (h : fs.isDir q = true) :
    (fs.mkdir cwd path).isDir q = true := by
  unfold mkdir
  split
  · exact h
  · rename_i place _
    split_ifs with hp
    · by_cases hq : q = place
      · subst hq; simp [isDir]
      · simpa [isDir, Function.update_of_ne hq] using h
    · exact h

theorem write_isDir {fs : FileSystem} {cwd : List Name} {path : Name} {t : List Char} (q : List Name) (h : fs.isDir q = true) :
    (fs.write cwd path t).isDir q = true := by
  unfold write
  split
  · exact h
  · rename_i place _
    split_ifs with hp
    · exact h
    · by_cases hq : q = place
      · subst hq
        have : q = [] := by simpa [isDir, hp] using h
        simp [isDir, this]
      · simpa [isDir, Function.update_of_ne hq] using h

end FileSystem

open FileSystem

theorem results_plain : PlainName "results".toList := by unfold PlainName; decide

theorem copyName_plain {ID : Name} (h : PlainName ID) : PlainName (ID ++ ".cfg".toList) := by
  have e : ".cfg".toList = ['.', 'c', 'f', 'g'] := by decide
  rw [e]
  refine ⟨by simp, by simp [h.2.1], ?_, ?_⟩ <;> intro h' <;> have := congrArg List.length h' <;> simp at this

/-- What `walk` gives for the three directories. -/
theorem topAt_walks {R : Installation} {fs : FileSystem} {top : List Name} (h : TopAt R fs top) : ∃ t, R.top = t ++ ['/'] ∧
    ∀ fs' : FileSystem, (∀ q, fs.isDir q = true → fs'.isDir q = true) →
      fs'.locate R.cwd (R.top ++ "results".toList) = some (resultsPlace top) ∧
      (∀ ID, PlainName ID → (fs'.locate R.cwd (R.top ++ "results/".toList ++ ID ++ "/".toList) =
        if fs' (resultsPlace top) = some .dir then some (runPlace top ID) else none) ∧
        fs'.locate R.cwd (R.top ++ "results/".toList ++ ID ++ "/".toList ++ ID ++ ".cfg".toList) =
        if fs' (resultsPlace top) = some .dir ∧ fs' (runPlace top ID) = some .dir then some (copyPlace top ID) else none) := by
  obtain ⟨t, ht, hw⟩ := h
  refine ⟨t, ht, fun fs' hm => ?_⟩
  have hw' : fs'.walk (start R.cwd (t ++ ['/'])) (t.splitOn '/') = some top := by rw [← ht]; exact walk_mono hm hw
  have e1 : "results/".toList = "results".toList ++ ['/'] := by decide
  have e2 : "/".toList = ['/'] := by decide
  refine ⟨?_, fun ID hID => ⟨?_, ?_⟩⟩
  · rw [ht]
    have := locate_child (fs := fs') (cwd := R.cwd) (t := t) results_plain
    rw [hw'] at this
    simpa [resultsPlace] using this
  · have := locate_child_slash (fs := fs') (cwd := R.cwd) (t := t ++ '/' :: "results".toList) hID
    rw [List.splitOn_append_cons_self, List.splitOn_eq_singleton results_plain.2.1, walk_append] at this
    rw [show t ++ '/' :: "results".toList ++ ['/'] = t ++ '/' :: ("results".toList ++ ['/']) by simp, start_append, hw'] at this
    simp only [Option.bind_some, walk_plain results_plain] at this
    rw [ht, e1, e2]
    rw [show t ++ ['/'] ++ ("results".toList ++ ['/']) ++ ID ++ ['/'] = t ++ '/' :: "results".toList ++ '/' :: (ID ++ ['/']) by simp, this]
    by_cases hd : fs' (resultsPlace top) = some .dir
    · rw [if_pos hd, if_pos (isDir_cons.2 hd)]; rfl
    · rw [if_neg hd, if_neg (fun h => hd (isDir_cons.1 h))]; rfl
  · have := locate_child (fs := fs') (cwd := R.cwd) (t := t ++ '/' :: "results".toList ++ '/' :: ID) (copyName_plain hID)
    rw [List.splitOn_append_cons_self, List.splitOn_append_cons_self, List.splitOn_eq_singleton results_plain.2.1,
      List.splitOn_eq_singleton hID.2.1, walk_append, walk_append] at this
    rw [show t ++ '/' :: "results".toList ++ '/' :: ID ++ ['/'] = t ++ '/' :: ("results".toList ++ '/' :: ID ++ ['/']) by simp,
      start_append, hw'] at this
    simp only [Option.bind_some, walk_plain results_plain] at this
    rw [ht, e1, e2]
    rw [show t ++ ['/'] ++ ("results".toList ++ ['/']) ++ ID ++ ['/'] ++ ID ++ ".cfg".toList =
      t ++ '/' :: "results".toList ++ '/' :: ID ++ '/' :: (ID ++ ".cfg".toList) by simp, this]
    by_cases hd : fs' (resultsPlace top) = some .dir
    · rw [if_pos (isDir_cons.2 hd), Option.bind_some, walk_plain hID]
      by_cases hr : fs' (runPlace top ID) = some .dir
      · rw [if_pos (show fs'.isDir (ID :: "results".toList :: top) = true from isDir_cons.2 hr), if_pos ⟨hd, hr⟩]; rfl
      · rw [if_neg (show ¬ fs'.isDir (ID :: "results".toList :: top) = true from fun h => hr (isDir_cons.1 h)),
          if_neg (fun h => hr h.2)]; rfl
    · rw [if_neg (fun h => hd (isDir_cons.1 h)), if_neg (fun h => hd h.1)]; rfl

/-- The folders after `Create_Result_Folder`. -/
theorem createResultFolder_eq {R : Installation} {fs : FileSystem} {top : List Name} (h : TopAt R fs top) {ID : Name} (hID : PlainName ID) :
    (∀ q, fs.isDir q = true → (Configuration.createResultFolder R fs ID 0).isDir q = true) ∧
    (∀ q, q ≠ resultsPlace top → q ≠ runPlace top ID → Configuration.createResultFolder R fs ID 0 q = fs q) ∧
    ((fs (resultsPlace top) = none ∨ fs (resultsPlace top) = some .dir) → (fs (runPlace top ID) = none ∨ fs (runPlace top ID) = some .dir) →
      Configuration.createResultFolder R fs ID 0 (resultsPlace top) = some .dir ∧
      Configuration.createResultFolder R fs ID 0 (runPlace top ID) = some .dir) := by
  obtain ⟨t, -, hloc⟩ := topAt_walks h
  have ne : runPlace top ID ≠ resultsPlace top := by
    intro h; have := congrArg List.length h; simp [runPlace] at this
  unfold Configuration.createResultFolder
  rw [if_pos rfl]
  refine ⟨fun q hq => mkdir_isDir _ (mkdir_isDir _ hq), fun q h1 h2 => ?_, fun h1 h2 => ?_⟩
  · have e : (fs.mkdir R.cwd (R.top ++ "results".toList)) q = fs q := by
      unfold mkdir
      rw [(hloc fs fun _ h => h).1]
      dsimp only
      split_ifs
      · exact Function.update_of_ne h1 _ _
      · rfl
    rw [← e]
    generalize hg : fs.mkdir R.cwd (R.top ++ "results".toList) = g
    have hm : ∀ q, fs.isDir q = true → g.isDir q = true := fun q h => by rw [← hg]; exact mkdir_isDir _ h
    unfold mkdir
    rw [((hloc g hm).2 ID hID).1]
    by_cases hd : g (resultsPlace top) = some .dir
    · rw [if_pos hd]
      dsimp only
      split_ifs
      · exact Function.update_of_ne h2 _ _
      · rfl
    · rw [if_neg hd]
  · have e1 : (fs.mkdir R.cwd (R.top ++ "results".toList)) (resultsPlace top) = some .dir := by
      unfold mkdir
      rw [(hloc fs fun _ h => h).1]
      dsimp only
      rcases h1 with h1 | h1
      · rw [if_pos h1]; simp
      · rw [if_neg (by rw [h1]; simp)]; exact h1
    have e2 : (fs.mkdir R.cwd (R.top ++ "results".toList)) (runPlace top ID) = fs (runPlace top ID) := by
      unfold mkdir
      rw [(hloc fs fun _ h => h).1]
      dsimp only
      split_ifs
      · exact Function.update_of_ne ne _ _
      · rfl
    generalize hg : fs.mkdir R.cwd (R.top ++ "results".toList) = g at e1 e2
    have hm : ∀ q, fs.isDir q = true → g.isDir q = true := fun q h => by rw [← hg]; exact mkdir_isDir _ h
    have hl := ((hloc g hm).2 ID hID).1
    rw [if_pos e1] at hl
    unfold mkdir
    rw [hl]
    dsimp only
    rcases h2 with h2 | h2
    · rw [if_pos (e2.trans h2)]
      exact ⟨by rw [Function.update_of_ne ne.symm]; exact e1, by simp⟩
    · rw [if_neg (by rw [e2, h2]; simp)]
      exact ⟨e1, e2.trans h2⟩

/-- The file system after `Copy_Config_File`. -/
theorem copyConfigFile_other {R : Installation} {fs g : FileSystem} {top : List Name} (h : TopAt R fs top) {ID : Name} (hID : PlainName ID)
    (hm : ∀ q, fs.isDir q = true → g.isDir q = true) (cfgFile : Name) :
    (∀ q, g.isDir q = true → (Configuration.copyConfigFile R g cfgFile ID 0).isDir q = true) ∧
    ∀ q, q ≠ copyPlace top ID → Configuration.copyConfigFile R g cfgFile ID 0 q = g q := by
  obtain ⟨t, -, hloc⟩ := topAt_walks h
  unfold Configuration.copyConfigFile
  rw [if_pos rfl]
  dsimp only
  generalize hout : R.top ++ "results/".toList ++ ID ++ "/".toList ++ ID ++ ".cfg".toList = out
  have hl : ∀ g' : FileSystem, (∀ q, fs.isDir q = true → g'.isDir q = true) → ∀ t q, q ≠ copyPlace top ID →
      g'.write R.cwd out t q = g' q := by
    intro g' hg' t q hq
    have := ((hloc g' hg').2 ID hID).2
    rw [hout] at this
    unfold write
    rw [this]
    by_cases hc : g' (resultsPlace top) = some .dir ∧ g' (runPlace top ID) = some .dir
    · rw [if_pos hc]
      dsimp only
      split_ifs
      · rfl
      · exact Function.update_of_ne hq _ _
    · rw [if_neg hc]
  constructor
  · intro q hq
    split
    · exact write_isDir _ hq
    · exact write_isDir _ (write_isDir _ hq)
  · intro q hq
    generalize FileSystem.read (g.write R.cwd out R.header) R.cwd cfgFile = r
    cases r
    · exact hl g hm _ q hq
    · dsimp only
      rw [hl _ (fun q h => write_isDir _ (hm q h)) _ q hq, hl g hm _ q hq]

/-- The copy. -/
theorem copyConfigFile_copy {R : Installation} {fs g : FileSystem} {top : List Name} (h : TopAt R fs top) {ID : Name} (hID : PlainName ID)
    (hm : ∀ q, fs.isDir q = true → g.isDir q = true) (h1 : g (resultsPlace top) = some .dir) (h2 : g (runPlace top ID) = some .dir)
    (h3 : g (copyPlace top ID) ≠ some .dir) (cfgFile : Name) :
    Configuration.copyConfigFile R g cfgFile ID 0 (copyPlace top ID) = some (.file (R.header ++
      (FileSystem.read (Function.update g (copyPlace top ID) (some (.file R.header))) R.cwd cfgFile).getD [])) := by
  obtain ⟨t, -, hloc⟩ := topAt_walks h
  have n1 : resultsPlace top ≠ copyPlace top ID := by
    intro h; have := congrArg List.length h; simp [copyPlace, runPlace] at this; omega
  have n2 : runPlace top ID ≠ copyPlace top ID := by
    intro h; have := congrArg List.length h; simp [copyPlace] at this
  unfold Configuration.copyConfigFile
  rw [if_pos rfl]
  generalize hout : R.top ++ "results/".toList ++ ID ++ "/".toList ++ ID ++ ".cfg".toList = out
  have hl := ((hloc g hm).2 ID hID).2
  rw [hout, if_pos ⟨h1, h2⟩] at hl
  have hw : g.write R.cwd out R.header = Function.update g (copyPlace top ID) (some (.file R.header)) := by
    unfold write
    rw [hl]
    dsimp only
    rw [if_neg h3]
  rw [hw]
  generalize hg' : (Function.update g (copyPlace top ID) (some (.file R.header)) : FileSystem) = g'
  change FileSystem at g'
  have hm' : ∀ q, fs.isDir q = true → g'.isDir q = true := fun q hq => by
    rw [← hg', ← hw]; exact write_isDir _ (hm q hq)
  have e1 : g' (resultsPlace top) = some .dir := by rw [← hg', Function.update_of_ne n1, h1]
  have e2 : g' (runPlace top ID) = some .dir := by rw [← hg', Function.update_of_ne n2, h2]
  have e3 : g' (copyPlace top ID) = some (.file R.header) := by rw [← hg']; simp
  have hl' := ((hloc g' hm').2 ID hID).2
  rw [hout, if_pos ⟨e1, e2⟩] at hl'
  cases hr : g'.read R.cwd cfgFile with
  | none => simp [e3]
  | some t =>
    simp only [Option.getD_some]
    unfold write
    rw [hl']
    dsimp only
    rw [if_neg (by rw [e3]; simp)]
    simp

theorem locate_mono {fs g : FileSystem} (hm : ∀ q, fs.isDir q = true → g.isDir q = true) {cwd : List Name} {path : Name} {q : List Name}
    (h : fs.locate cwd path = some q) : g.locate cwd path = some q := by
  unfold locate at h ⊢
  dsimp only at h ⊢
  split at h
  · cases h
  · rename_i c hc
    split_ifs at h ⊢ with hd
    obtain ⟨p, hp, rfl⟩ := Option.map_eq_some_iff.1 h
    rw [walk_mono hm hp]; rfl

end Obscura
