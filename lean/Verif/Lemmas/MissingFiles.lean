import Verif.Spec.MissingFiles
import Verif.Props.Experiments

/-!
# Lemmas about missing data files
-/

namespace Obscura

open Spec

/-- The program ended, or nothing changed. -/
def Weaker {α : Type} (x' x : Outcome α) : Prop := x' = .exit ∨ x' = x

namespace Weaker
variable {α β : Type}

theorem rfl {x : Outcome α} : Weaker x x := .inr (Eq.refl x)

theorem bind {x' x : Outcome α} {f' f : α → Outcome β} (hx : Weaker x' x) (hf : ∀ a, Weaker (f' a) (f a)) : Weaker (x' >>= f') (x >>= f) := by
  rcases hx with h | h
  · subst h
    exact .inl (Eq.refl _)
  · subst h
    cases x' with
    | ok a => exact hf a
    | exit => exact .inl (Eq.refl _)
    | ub => exact .inr (Eq.refl _)
    | nonfinite => exact .inr (Eq.refl _)

theorem collect {f' f : α → Outcome β} {l : List α} (hf : ∀ a ∈ l, Weaker (f' a) (f a)) : Weaker (Obscura.collect f' l) (Obscura.collect f l) := by
  induction l with
  | nil => exact rfl
  | cons a l ih => exact bind (hf a (by simp)) fun _ => bind (ih fun b hb => hf b (by simp [hb])) fun _ => rfl

theorem ite {c : Prop} [Decidable c] {x' x y' y : Outcome α} (h1 : Weaker x' x) (h2 : Weaker y' y) :
    Weaker (if c then x' else y') (if c then x else y) := by
  split_ifs
  · exact h1
  · exact h2

end Weaker

/-- A file that is missing or the same. -/
def Sub {α : Type} (a' a : Option α) : Prop := a' = none ∨ a' = a

/-- A file that is missing or the same in the first installation. -/
def SameOrMissing (F' F : DataFiles) : DataFile → Prop
  | .nuclear => Sub F'.nuclear F.nuclear
  | .response t => Sub (F'.response t) (F.response t)
  | .crystal t => Sub (F'.crystal t) (F.crystal t)
  | .list n => Sub (F'.numbers n) (F.numbers n)
  | .table n => Sub (F'.efficiency n) (F.efficiency n)

variable {S : Setup} {F' : DataFiles} {cache : List Nucleus}

theorem getNucleus_weaker {U : Units} {f' f : Option (List NuclearRow)} (h : Sub f' f) (Z : ℕ) : Weaker (getNucleus U f' cache Z) (getNucleus U f cache Z) := by
  have hi : Weaker (importNuclearData U f') (importNuclearData U f) := by
    rcases h with rfl | rfl
    · exact .inl rfl
    · exact .rfl
  unfold getNucleus
  refine .ite .rfl ?_
  dsimp only
  exact .ite (.bind hi fun _ => .rfl) .rfl

theorem findNucleus_weaker {U : Units} {f' f : Option (List NuclearRow)} (h : Sub f' f) (name : String) (Zs : List ℕ) (cache : List Nucleus) :
    Weaker (findNucleus U f' name Zs cache) (findNucleus U f name Zs cache) := by
  induction Zs generalizing cache with
  | nil => exact .rfl
  | cons Z Zs ih => exact .bind (getNucleus_weaker h Z) fun ⟨_, _⟩ => .ite (getNucleus_weaker h Z) (ih _)

theorem response_weaker {P : Interpolator2D} {t' t : ResponseTables} {name : String} {k0 k1 q0 q1 : ℝ} {r : ℕ}
    (h : Sub (t' (name ++ "_" ++ toString r)) (t (name ++ "_" ++ toString r))) :
    Weaker (AtomicElectron.importResponse P t' name k0 k1 q0 q1 r) (AtomicElectron.importResponse P t name k0 k1 q0 q1 r) := by
  unfold AtomicElectron.importResponse
  rcases h with h | h
  · rw [h]; exact .inl rfl
  · rw [h]; exact .rfl

/-- The tables of a shell. -/
def ShellTables (t' t : ResponseTables) (shell : String) : Prop := ∀ r ∈ [1, 2, 3, 4], Sub (t' (shell ++ "_" ++ toString r)) (t (shell ++ "_" ++ toString r))

theorem electron_weaker {P : Interpolator2D} {t' t : ResponseTables} {element : String} {N L : ℕ} {B k0 k1 q0 q1 : ℝ} {s : ℕ}
    (h : ∀ letter, shellNames[L]? = some letter → ShellTables t' t (element ++ "_" ++ toString N ++ letter)) :
    Weaker (AtomicElectron.make P t' element N L B k0 k1 q0 q1 s) (AtomicElectron.make P t element N L B k0 k1 q0 q1 s) := by
  unfold AtomicElectron.make
  cases hl : shellNames[L]? with
  | none =>
    have : vecGet shellNames L = .ub := by unfold vecGet; rw [hl]
    rw [this]; exact .rfl
  | some letter =>
    have : vecGet shellNames L = .ok letter := by unfold vecGet; rw [hl]
    rw [this]
    simp only [Outcome.bind_ok]
    exact .bind (.collect fun r hr => response_weaker (h letter hl r hr)) fun _ => .rfl

theorem shells_weaker {U : Units} {P : Interpolator2D} {t' t : ResponseTables} {element : String} {kMax : ℝ} {data : List Atom.ShellData}
    {names : List (String × ℝ × ℕ)}
    (hd : (data.map fun s => (element ++ "_" ++ toString s.n ++ shellNames.getD s.l "", s.energy * U.eV, s.secondaries)).reverse =
      names.map fun s => (s.1, s.2.1 * U.eV, s.2.2))
    (h : ∀ s ∈ names, ShellTables t' t s.1) : Weaker (Atom.shells U P t' element kMax data) (Atom.shells U P t element kMax data) := by
  unfold Atom.shells
  refine .bind (.collect fun s hs => electron_weaker fun letter hl => ?_) fun _ => .rfl
  have : (element ++ "_" ++ toString s.n ++ shellNames.getD s.l "", s.energy * U.eV, s.secondaries) ∈ names.map fun s => (s.1, s.2.1 * U.eV, s.2.2) := by
    rw [← hd, List.mem_reverse]
    exact List.mem_map.2 ⟨s, hs, rfl⟩
  obtain ⟨s', hs', he⟩ := List.mem_map.1 this
  have := h s' hs'
  rw [(Prod.ext_iff.1 he).1] at this
  rw [List.getD_eq_getElem?_getD, hl] at this
  simpa using this

theorem atom_weaker {U : Units} {P : Interpolator2D} {t' t : ResponseTables} {f' f : Option (List NuclearRow)} {name : String}
    (hn : Sub f' f) (hx : name = "Xe" ∨ name = "Xenon" → ∀ s ∈ xenon, ShellTables t' t s.1)
    (ha : name = "Ar" ∨ name = "Argon" → ∀ s ∈ argon, ShellTables t' t s.1) :
    Weaker (Atom.make U P t' f' cache name) (Atom.make U P t f cache name) := by
  unfold Atom.make
  refine .bind (findNucleus_weaker hn _ _ _) fun ⟨_, _⟩ => ?_
  dsimp only
  by_cases h : name = "Xe" ∨ name = "Xenon"
  · rw [if_pos h, if_pos h]
    exact .bind (shells_weaker xenonShells_list (hx h)) fun _ => .rfl
  · rw [if_neg h, if_neg h]
    by_cases h : name = "Ar" ∨ name = "Argon"
    · rw [if_pos h, if_pos h]
      exact .bind (shells_weaker argonShells_list (ha h)) fun _ => .rfl
    · rw [if_neg h, if_neg h]
      exact .rfl

theorem ionization_weaker {label target atom : String} {expo : ℝ} (hn : SameOrMissing F' S.files .nuclear)
    (hx : atom = "Xe" ∨ atom = "Xenon" → ∀ s ∈ xenon, ShellTables F'.response S.files.response s.1)
    (ha : atom = "Ar" ∨ atom = "Argon" → ∀ s ∈ argon, ShellTables F'.response S.files.response s.1) :
    Weaker ((withFiles S F').makeIonization cache label expo target atom) (S.makeIonization cache label expo target atom) :=
  .bind (atom_weaker hn hx ha) fun _ => .rfl

theorem list_weaker {n : String} {dim : ℝ} (h : SameOrMissing F' S.files (.list n)) :
    Weaker ((withFiles S F').importList n dim) (S.importList n dim) := by
  unfold Setup.importList
  rcases h with h | h
  · left
    show (match F'.numbers n with | none => _ | some l => _) = _
    rw [h]
  · right
    show (match F'.numbers n with | none => _ | some l => _) = _
    rw [h]
    rfl

theorem table_weaker {n : String} {dim : ℝ} (h : SameOrMissing F' S.files (.table n)) :
    Weaker ((withFiles S F').efficiencyTable dim n) (S.efficiencyTable dim n) := by
  unfold Setup.efficiencyTable
  rcases h with h | h
  · left
    show (match F'.efficiency n with | none => _ | some l => _) = _
    rw [h]
  · right
    show (match F'.efficiency n with | none => _ | some l => _) = _
    rw [h]
    rfl

theorem crystal_weaker {label target : String} {expo : ℝ} (h : SameOrMissing F' S.files (.crystal target)) :
    Weaker ((withFiles S F').makeCrystal label expo target) (S.makeCrystal label expo target) := by
  unfold Setup.makeCrystal
  rcases h with h | h
  · left
    show (match F'.crystal target with | none => _ | some l => _) = _
    rw [h]
  · right
    show (match F'.crystal target with | none => _ | some l => _) = _
    rw [h]
    rfl

theorem nuclei_weaker (h : SameOrMissing F' S.files .nuclear) (Zs : List ℕ) (cache : List Nucleus) :
    Weaker ((withFiles S F').getNuclei Zs cache) (S.getNuclei Zs cache) := by
  induction Zs generalizing cache with
  | nil => exact .rfl
  | cons Z Zs ih => exact .bind (getNucleus_weaker h Z) fun ⟨_, _⟩ => .bind (ih _) fun _ => .rfl

/-! ## User-defined detectors -/

theorem targets_weaker (h : SameOrMissing F' S.files .nuclear) (c : Config) (j n : ℕ) (cache : List Nucleus) :
    Weaker (c.targets (withFiles S F') j n cache) (c.targets S j n cache) := by
  induction n generalizing j cache with
  | zero => exact .rfl
  | succ n ih =>
    exact .bind .rfl fun _ => .bind .rfl fun _ => .bind .rfl fun _ => .bind .rfl fun _ => .bind .rfl fun _ => .bind .rfl fun _ =>
      .bind (getNucleus_weaker h _) fun ⟨_, _⟩ => .bind (ih _ _) fun _ => .rfl

theorem nuclearDetector_weaker (h : SameOrMissing F' S.files .nuclear) (c : Config) :
    Weaker (c.nuclearDetector (withFiles S F') cache) (c.nuclearDetector S cache) := by
  unfold Config.nuclearDetector
  exact .bind .rfl fun _ => .bind (targets_weaker h _ _ _ _) fun _ => .rfl

theorem shellTables_of (h : ∀ f, SameOrMissing F' S.files f) (s : String) : ShellTables F'.response S.files.response s :=
  fun _ _ => h (.response _)

theorem ionizationDetector_weaker (h : ∀ f, SameOrMissing F' S.files f) (c : Config) (kind : String) :
    Weaker (c.ionizationDetector (withFiles S F') kind cache) (c.ionizationDetector S kind cache) := by
  unfold Config.ionizationDetector
  exact .bind .rfl fun _ => .bind .rfl fun _ => .bind .rfl fun _ => .bind .rfl fun _ => .bind .rfl fun _ => .bind .rfl fun _ =>
    .bind (ionization_weaker (h _) (fun _ _ _ => shellTables_of h _) fun _ _ _ => shellTables_of h _) fun _ => .rfl

theorem crystalDetector_weaker (h : ∀ t, SameOrMissing F' S.files (.crystal t)) (c : Config) :
    Weaker (c.crystalDetector (withFiles S F')) (c.crystalDetector S) := by
  unfold Config.crystalDetector
  exact .bind .rfl fun _ => .bind .rfl fun _ => .bind .rfl fun _ => .bind .rfl fun _ => .bind .rfl fun _ => .bind .rfl fun _ =>
    .bind (crystal_weaker (h _)) fun _ => .rfl

/-! ## What success requires -/

/-- Success requires `P`. -/
def Needs {α : Type} (x : Outcome α) (P : Prop) : Prop := ∀ a, x = .ok a → P

namespace Needs
variable {α β : Type} {P : Prop}

theorem left {x : Outcome α} {f : α → Outcome β} (h : Needs x P) : Needs (x >>= f) P := fun b hb => by
  obtain ⟨a, ha, -⟩ := Outcome.bind_eq_ok.1 hb
  exact h a ha

theorem right {x : Outcome α} {f : α → Outcome β} (h : ∀ a, Needs (f a) P) : Needs (x >>= f) P := fun b hb => by
  obtain ⟨a, -, ha⟩ := Outcome.bind_eq_ok.1 hb
  exact h a b ha

theorem collect {f : α → Outcome β} {l : List α} {a : α} (ha : a ∈ l) (h : Needs (f a) P) : Needs (Obscura.collect f l) P := by
  induction l with
  | nil => simp at ha
  | cons b l ih =>
    rcases List.mem_cons.1 ha with rfl | ha
    · exact .left h
    · exact .right fun _ => .left (ih ha)

end Needs

theorem getNucleus_needs {U : Units} {f : Option (List NuclearRow)} {Z : ℕ} : Needs (getNucleus U f [] Z) (f ≠ none) := by
  rintro r hr rfl
  unfold getNucleus at hr
  split_ifs at hr
  · cases hr
  · simp at hr
    cases hr

theorem findNucleus_needs {U : Units} {f : Option (List NuclearRow)} {name : String} {Zs : List ℕ} :
    Needs (findNucleus U f name Zs []) (f ≠ none) := by
  cases Zs with
  | nil => intro a ha; cases ha
  | cons Z Zs => exact .left getNucleus_needs

theorem nuclei_needs {Z : ℕ} {Zs : List ℕ} : Needs (S.getNuclei (Z :: Zs) []) (Present S.files .nuclear) := .left getNucleus_needs

theorem list_needs {n : String} {dim : ℝ} : Needs (S.importList n dim) (Present S.files (.list n)) := by
  intro a ha h
  unfold Setup.importList at ha
  rw [h] at ha
  cases ha

theorem table_needs {n : String} {dim : ℝ} : Needs (S.efficiencyTable dim n) (Present S.files (.table n)) := by
  intro a ha h
  unfold Setup.efficiencyTable at ha
  rw [h] at ha
  cases ha

theorem crystal_needs {label target : String} {expo : ℝ} : Needs (S.makeCrystal label expo target) (Present S.files (.crystal target)) := by
  intro a ha h
  unfold Setup.makeCrystal at ha
  rw [h] at ha
  cases ha

theorem response_needs {P : Interpolator2D} {t : ResponseTables} {name : String} {k0 k1 q0 q1 : ℝ} {r : ℕ} :
    Needs (AtomicElectron.importResponse P t name k0 k1 q0 q1 r) (t (name ++ "_" ++ toString r) ≠ none) := by
  intro a ha h
  unfold AtomicElectron.importResponse at ha
  rw [h] at ha
  cases ha

theorem electron_needs {P : Interpolator2D} {t : ResponseTables} {element : String} {N L : ℕ} {B k0 k1 q0 q1 : ℝ} {s : ℕ} {r : ℕ}
    (hr : r ∈ [1, 2, 3, 4]) :
    Needs (AtomicElectron.make P t element N L B k0 k1 q0 q1 s)
      (t (element ++ "_" ++ toString N ++ shellNames.getD L "" ++ "_" ++ toString r) ≠ none) := by
  unfold AtomicElectron.make
  cases hl : shellNames[L]? with
  | none =>
    have : vecGet shellNames L = .ub := by unfold vecGet; rw [hl]
    rw [this]; intro a ha; cases ha
  | some letter =>
    have : vecGet shellNames L = .ok letter := by unfold vecGet; rw [hl]
    rw [this, List.getD_eq_getElem?_getD, hl]
    simp only [Outcome.bind_ok, Option.getD_some]
    exact .left (.collect hr response_needs)

theorem shells_needs {U : Units} {P : Interpolator2D} {t : ResponseTables} {element : String} {kMax : ℝ} {data : List Atom.ShellData}
    {names : List (String × ℝ × ℕ)}
    (hd : (data.map fun s => (element ++ "_" ++ toString s.n ++ shellNames.getD s.l "", s.energy * U.eV, s.secondaries)).reverse =
      names.map fun s => (s.1, s.2.1 * U.eV, s.2.2)) {s : String × ℝ × ℕ} (hs : s ∈ names) {r : ℕ} (hr : r ∈ [1, 2, 3, 4]) :
    Needs (Atom.shells U P t element kMax data) (t (s.1 ++ "_" ++ toString r) ≠ none) := by
  have : (s.1, s.2.1 * U.eV, s.2.2) ∈ (data.map fun s => (element ++ "_" ++ toString s.n ++ shellNames.getD s.l "", s.energy * U.eV,
      s.secondaries)).reverse := by
    rw [hd]
    exact List.mem_map.2 ⟨s, hs, rfl⟩
  obtain ⟨s', hs', he⟩ := List.mem_map.1 (List.mem_reverse.1 this)
  rw [← (Prod.ext_iff.1 he).1]
  unfold Atom.shells
  exact .left (.collect hs' (electron_needs hr))

theorem ionization_needs_nuclear {label target atom : String} {expo : ℝ} :
    Needs (S.makeIonization [] label expo target atom) (Present S.files .nuclear) := .left (.left findNucleus_needs)

theorem ionization_needs_xenon {label target : String} {expo : ℝ} {s : String × ℝ × ℕ} (hs : s ∈ xenon) {r : ℕ} (hr : r ∈ [1, 2, 3, 4]) :
    Needs (S.makeIonization cache label expo target "Xe") (Present S.files (.response (s.1 ++ "_" ++ toString r))) := by
  refine .left (.right fun ⟨_, _⟩ => ?_)
  dsimp only
  rw [if_pos (Or.inl rfl)]
  exact .left (shells_needs xenonShells_list hs hr)

theorem ionization_needs_argon {label target : String} {expo : ℝ} {s : String × ℝ × ℕ} (hs : s ∈ argon) {r : ℕ} (hr : r ∈ [1, 2, 3, 4]) :
    Needs (S.makeIonization cache label expo target "Ar") (Present S.files (.response (s.1 ++ "_" ++ toString r))) := by
  refine .left (.right fun ⟨_, _⟩ => ?_)
  dsimp only
  rw [if_neg (by decide), if_pos (Or.inl rfl)]
  exact .left (shells_needs argonShells_list hs hr)

/-! ## The predefined experiments -/

theorem ionization_weaker_xenon {label target : String} {expo : ℝ} (hn : SameOrMissing F' S.files .nuclear)
    (h : ∀ s ∈ xenon, ShellTables F'.response S.files.response s.1) :
    Weaker ((withFiles S F').makeIonization cache label expo target "Xe") (S.makeIonization cache label expo target "Xe") :=
  ionization_weaker hn (fun _ => h) (fun h => absurd h (by decide))

theorem ionization_weaker_argon {label target : String} {expo : ℝ} (hn : SameOrMissing F' S.files .nuclear)
    (h : ∀ s ∈ argon, ShellTables F'.response S.files.response s.1) :
    Weaker ((withFiles S F').makeIonization cache label expo target "Ar") (S.makeIonization cache label expo target "Ar") :=
  ionization_weaker hn (fun h => absurd h (by decide)) (fun _ => h)

theorem damicN2011_weaker (hn : SameOrMissing F' S.files .nuclear) : Weaker ((withFiles S F').damicN2011 cache) (S.damicN2011 cache) :=
  .bind (nuclei_weaker hn _ _) fun _ => .rfl

theorem xenon1TN2017_weaker (hn : SameOrMissing F' S.files .nuclear) :
    Weaker ((withFiles S F').xenon1TN2017 cache) (S.xenon1TN2017 cache) :=
  .bind (nuclei_weaker hn _ _) fun _ => .rfl

theorem cresstII_weaker (hn : SameOrMissing F' S.files .nuclear) (hl : SameOrMissing F' S.files (.list "data/CRESST-II/Lise_AR.dat"))
    (ht : ∀ t ∈ ["data/CRESST-II/Lise_eff_AR_O.dat", "data/CRESST-II/Lise_eff_AR_Ca.dat", "data/CRESST-II/Lise_eff_AR_W.dat"],
      SameOrMissing F' S.files (.table t)) : Weaker ((withFiles S F').cresstII cache) (S.cresstII cache) :=
  .bind (nuclei_weaker hn _ _) fun ⟨_, _⟩ => .bind .rfl fun ⟨_, _⟩ => .bind (list_weaker hl) fun _ => .bind .rfl fun _ =>
    .bind (.collect fun t h => table_weaker (ht t h)) fun _ => .rfl

theorem cresstIII_weaker (hn : SameOrMissing F' S.files .nuclear)
    (hl : SameOrMissing F' S.files (.list "data/CRESST-III/C3P1_DetA_AR.dat"))
    (ht : ∀ t ∈ ["data/CRESST-III/C3P1_DetA_eff_AR_O.dat", "data/CRESST-III/C3P1_DetA_eff_AR_Ca.dat",
      "data/CRESST-III/C3P1_DetA_eff_AR_W.dat"], SameOrMissing F' S.files (.table t)) :
    Weaker ((withFiles S F').cresstIII cache) (S.cresstIII cache) :=
  .bind (nuclei_weaker hn _ _) fun ⟨_, _⟩ => .bind .rfl fun ⟨_, _⟩ => .bind (list_weaker hl) fun _ => .bind .rfl fun _ =>
    .bind (.collect fun t h => table_weaker (ht t h)) fun _ => .rfl

theorem cresstSurface_weaker (hn : SameOrMissing F' S.files .nuclear)
    (hl : SameOrMissing F' S.files (.list "data/CRESST-surface/data.txt")) :
    Weaker ((withFiles S F').cresstSurface cache) (S.cresstSurface cache) :=
  .bind (nuclei_weaker hn _ _) fun ⟨_, _⟩ => .bind .rfl fun ⟨_, _⟩ => .bind (list_weaker hl) fun _ => .rfl

theorem xenon10S2_weaker {target : String} (hn : SameOrMissing F' S.files .nuclear)
    (h : ∀ s ∈ xenon, ShellTables F'.response S.files.response s.1)
    (hl : SameOrMissing F' S.files (.list "data/XENON10e/PE_Trigger_Efficiency.txt")) :
    Weaker ((withFiles S F').xenon10S2 target cache) (S.xenon10S2 target cache) :=
  .bind (ionization_weaker_xenon hn h) fun ⟨_, _, _⟩ => .bind .rfl fun ⟨_, _⟩ => .bind .rfl fun _ => .bind (list_weaker hl) fun _ => .rfl

theorem xenon100S2_weaker {target : String} (hn : SameOrMissing F' S.files .nuclear)
    (h : ∀ s ∈ xenon, ShellTables F'.response S.files.response s.1)
    (hl : SameOrMissing F' S.files (.list "data/XENON100e/PE_Trigger_Efficiency.txt"))
    (hl' : SameOrMissing F' S.files (.list "data/XENON100e/PE_Acceptance_Efficiency.txt")) :
    Weaker ((withFiles S F').xenon100S2 target cache) (S.xenon100S2 target cache) :=
  .bind (ionization_weaker_xenon hn h) fun ⟨_, _, _⟩ => .bind .rfl fun ⟨_, _⟩ => .bind .rfl fun _ => .bind (list_weaker hl) fun _ =>
    .bind .rfl fun _ => .bind (list_weaker hl') fun _ => .rfl

theorem xenon1TS2_weaker {target : String} (hn : SameOrMissing F' S.files .nuclear)
    (h : ∀ s ∈ xenon, ShellTables F'.response S.files.response s.1) :
    Weaker ((withFiles S F').xenon1TS2 target cache) (S.xenon1TS2 target cache) := .bind (ionization_weaker_xenon hn h) fun _ => .rfl

theorem pandaX4TS2_weaker {target : String} (hn : SameOrMissing F' S.files .nuclear)
    (h : ∀ s ∈ xenon, ShellTables F'.response S.files.response s.1) :
    Weaker ((withFiles S F').pandaX4TS2 target cache) (S.pandaX4TS2 target cache) := .bind (ionization_weaker_xenon hn h) fun _ => .rfl

theorem darkSide50S2_weaker {target : String} (hn : SameOrMissing F' S.files .nuclear)
    (h : ∀ s ∈ argon, ShellTables F'.response S.files.response s.1) :
    Weaker ((withFiles S F').darkSide50S2 target cache) (S.darkSide50S2 target cache) :=
  .bind (ionization_weaker_argon hn h) fun _ => .rfl

theorem darkSide50S22023_weaker {target : String} (hn : SameOrMissing F' S.files .nuclear)
    (h : ∀ s ∈ argon, ShellTables F'.response S.files.response s.1) :
    Weaker ((withFiles S F').darkSide50S22023 target cache) (S.darkSide50S22023 target cache) :=
  .bind (ionization_weaker_argon hn h) fun _ => .rfl

theorem lzS2_weaker {target : String} (hn : SameOrMissing F' S.files .nuclear)
    (h : ∀ s ∈ argon, ShellTables F'.response S.files.response s.1) :
    Weaker ((withFiles S F').lzS2 target cache) (S.lzS2 target cache) := .bind (ionization_weaker_argon hn h) fun _ => .rfl

section pairs
variable (h : SameOrMissing F' S.files (.crystal "Si"))
include h

theorem protoSENSEISurface_weaker : Weaker (withFiles S F').protoSENSEISurface S.protoSENSEISurface := .bind (crystal_weaker h) fun _ => .rfl
theorem protoSENSEIMINOS_weaker : Weaker (withFiles S F').protoSENSEIMINOS S.protoSENSEIMINOS := .bind (crystal_weaker h) fun _ => .rfl
theorem senseiMINOS_weaker : Weaker (withFiles S F').senseiMINOS S.senseiMINOS := .bind (crystal_weaker h) fun _ => .rfl
theorem cdmsHVeV2018_weaker : Weaker (withFiles S F').cdmsHVeV2018 S.cdmsHVeV2018 := .bind (crystal_weaker h) fun _ => .rfl
theorem cdmsHVeV2020_weaker : Weaker (withFiles S F').cdmsHVeV2020 S.cdmsHVeV2020 := .bind (crystal_weaker h) fun _ => .rfl
theorem damicM2023_weaker : Weaker (withFiles S F').damicM2023 S.damicM2023 := .bind (crystal_weaker h) fun _ => .rfl
end pairs

theorem Weaker.asNuclear {x' x} (h : Weaker x' x) : Weaker (Config.asNuclear x') (Config.asNuclear x) := .bind h fun _ => .rfl
theorem Weaker.asER {x' x} (h : Weaker x' x) : Weaker (Config.asER x') (Config.asER x) := .bind h fun _ => .rfl
theorem Weaker.asMigdal {x' x} (h : Weaker x' x) : Weaker (Config.asMigdal x') (Config.asMigdal x) := .bind h fun _ => .rfl
theorem Weaker.asCrystal {x' x} (h : Weaker x' x) : Weaker (Config.asCrystal cache x') (Config.asCrystal cache x) := .bind h fun _ => .rfl

theorem selectDetector_weaker (h : ∀ f, SameOrMissing F' S.files f) (c : Config) (name : String) :
    Weaker (c.selectDetector (withFiles S F') cache name) (c.selectDetector S cache name) := by
  have hs := fun (s : String × ℝ × ℕ) => shellTables_of h s.1
  unfold Config.selectDetector
  refine .ite (nuclearDetector_weaker (h _) c) (.ite (ionizationDetector_weaker h c _) (.ite (.bind (crystalDetector_weaker (fun _ => h _) c) fun _ => .rfl) ?_))
  refine .ite (damicN2011_weaker (h _)).asNuclear ?_
  refine .ite (xenon1TN2017_weaker (h _)).asNuclear ?_
  refine .ite (cresstII_weaker (h _) (h _) fun _ _ => h _).asNuclear ?_
  refine .ite (cresstSurface_weaker (h _) (h _)).asNuclear ?_
  refine .ite (cresstIII_weaker (h _) (h _) fun _ _ => h _).asNuclear ?_
  refine .ite (xenon10S2_weaker (h _) (fun s _ => hs s) (h _)).asER ?_
  refine .ite (xenon100S2_weaker (h _) (fun s _ => hs s) (h _) (h _)).asER ?_
  refine .ite (xenon1TS2_weaker (h _) (fun s _ => hs s)).asER ?_
  refine .ite (darkSide50S2_weaker (h _) (fun s _ => hs s)).asER ?_
  refine .ite (darkSide50S22023_weaker (h _) (fun s _ => hs s)).asER ?_
  refine .ite (pandaX4TS2_weaker (h _) (fun s _ => hs s)).asER ?_
  refine .ite (lzS2_weaker (h _) (fun s _ => hs s)).asER ?_
  refine .ite (xenon10S2_weaker (h _) (fun s _ => hs s) (h _)).asMigdal ?_
  refine .ite (xenon100S2_weaker (h _) (fun s _ => hs s) (h _) (h _)).asMigdal ?_
  refine .ite (xenon1TS2_weaker (h _) (fun s _ => hs s)).asMigdal ?_
  refine .ite (darkSide50S2_weaker (h _) (fun s _ => hs s)).asMigdal ?_
  refine .ite (darkSide50S22023_weaker (h _) (fun s _ => hs s)).asMigdal ?_
  refine .ite (pandaX4TS2_weaker (h _) (fun s _ => hs s)).asMigdal ?_
  refine .ite (lzS2_weaker (h _) (fun s _ => hs s)).asMigdal ?_
  refine .ite (protoSENSEISurface_weaker (h _)).asCrystal ?_
  refine .ite (protoSENSEIMINOS_weaker (h _)).asCrystal ?_
  refine .ite (senseiMINOS_weaker (h _)).asCrystal ?_
  refine .ite (cdmsHVeV2018_weaker (h _)).asCrystal ?_
  refine .ite (cdmsHVeV2020_weaker (h _)).asCrystal ?_
  exact .ite (damicM2023_weaker (h _)).asCrystal .rfl

end Obscura
