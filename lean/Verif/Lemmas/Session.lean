import Verif.Spec.Session

/-!
# Lemmas about programs which construct many objects
-/

namespace Obscura

open Spec

/-- The same outcome, up to nuclear data that are not loaded or those of the file. -/
def Agree (U : Units) (file : Option (List NuclearRow)) {β : Type} : Outcome (List Nucleus × β) → Outcome (List Nucleus × β) → Prop
  | .ok (c, b), .ok (c', b') => b = b' ∧ (c = [] ∨ importNuclearData U file = .ok c) ∧ (c' = [] ∨ importNuclearData U file = .ok c')
  | .exit, .exit => True
  | .ub, .ub => True
  | .nonfinite, .nonfinite => True
  | _, _ => False

/-- Nuclear data that are not loaded or those of the file. -/
def Loaded (U : Units) (file : Option (List NuclearRow)) (c : List Nucleus) : Prop := c = [] ∨ importNuclearData U file = .ok c

namespace Agree
variable {U : Units} {file : Option (List NuclearRow)} {β γ δ : Type}

theorem ok {c c' : List Nucleus} {b : β} (h : Loaded U file c) (h' : Loaded U file c') : Agree U file (.ok (c, b)) (.ok (c', b)) := ⟨rfl, h, h'⟩

theorem exit : Agree U file (.exit : Outcome (List Nucleus × β)) .exit := trivial

theorem bind {x y : Outcome (List Nucleus × β)} {f g : List Nucleus × β → Outcome (List Nucleus × γ)} (h : Agree U file x y)
    (hf : ∀ c c' b, Loaded U file c → Loaded U file c' → Agree U file (f (c, b)) (g (c', b))) : Agree U file (x >>= f) (y >>= g) := by
  match x, y, h with
  | .ok (c, b), .ok (c', _), ⟨rfl, h1, h2⟩ => exact hf c c' b h1 h2
  | .exit, .exit, _ => trivial
  | .ub, .ub, _ => trivial
  | .nonfinite, .nonfinite, _ => trivial

theorem same {z : Outcome δ} {f g : δ → Outcome (List Nucleus × γ)} (hf : ∀ a, Agree U file (f a) (g a)) :
    Agree U file (z >>= f) (z >>= g) := by
  cases z with
  | ok a => exact hf a
  | exit => trivial
  | ub => trivial
  | nonfinite => trivial

theorem ite {p : Prop} [Decidable p] {x y x' y' : Outcome (List Nucleus × β)} (h1 : Agree U file x y) (h2 : Agree U file x' y') :
    Agree U file (if p then x else x') (if p then y else y') := by
  split_ifs
  · exact h1
  · exact h2

theorem returned {x y : Outcome (List Nucleus × β)} (h : Agree U file x y) :
    (x >>= fun r => Outcome.ok r.2) = (y >>= fun r => Outcome.ok r.2) := by
  match x, y, h with
  | .ok (c, b), .ok (c', _), ⟨rfl, _, _⟩ => rfl
  | .exit, .exit, _ => rfl
  | .ub, .ub, _ => rfl
  | .nonfinite, .nonfinite, _ => rfl

end Agree

variable {U : Units} {file : Option (List NuclearRow)} {P : Interpolator2D} {tables : ResponseTables} {S : Setup} {c c' : List Nucleus}

theorem getNucleus_start (h : Loaded U file c) (Z : ℕ) : getNucleus U file c Z = getNucleus U file [] Z := by
  rcases h with rfl | h
  · rfl
  · unfold getNucleus
    by_cases h1 : Z < 1 ∨ 92 < Z
    · rw [if_pos h1, if_pos h1]
    · rw [if_neg h1, if_neg h1]
      dsimp only
      have h0 : ([] : List Nucleus).length = 0 := rfl
      by_cases h2 : c.length = 0
      · rw [if_pos h2, if_pos h0]
      · rw [if_neg h2, if_pos h0, h]

theorem getNucleus_loaded {Z : ℕ} {n : Nucleus} (h : getNucleus U file [] Z = .ok (c, n)) : Loaded U file c := by
  unfold getNucleus at h
  split_ifs at h with h1 h2
  · rw [Outcome.bind_eq_ok] at h
    obtain ⟨a, ha, h⟩ := h
    obtain ⟨b, -, h⟩ := Outcome.bind_eq_ok.1 h
    cases h
    exact .inr ha
  · simp at h2

theorem getNucleus_agree (h : Loaded U file c) (h' : Loaded U file c') (Z : ℕ) : Agree U file (getNucleus U file c Z) (getNucleus U file c' Z) := by
  rw [getNucleus_start h, getNucleus_start h']
  cases hg : getNucleus U file [] Z with
  | ok r => obtain ⟨a, n⟩ := r; exact .ok (getNucleus_loaded hg) (getNucleus_loaded hg)
  | exit => trivial
  | ub => trivial
  | nonfinite => trivial

theorem findNucleus_agree (name : String) (Zs : List ℕ) {c c' : List Nucleus} (h : Loaded U file c) (h' : Loaded U file c') :
    Agree U file (findNucleus U file name Zs c) (findNucleus U file name Zs c') := by
  induction Zs generalizing c c' with
  | nil => exact .exit
  | cons Z Zs ih => exact .bind (getNucleus_agree h h' Z) fun _ _ _ k k' => .ite (getNucleus_agree k k' Z) (ih k k')

theorem atom_agree (h : Loaded U file c) (h' : Loaded U file c') (name : String) :
    Agree U file (Atom.make U P tables file c name) (Atom.make U P tables file c' name) := by
  unfold Atom.make
  refine .bind (findNucleus_agree _ _ h h') fun _ _ _ k k' => ?_
  dsimp only
  exact .ite (.same fun _ => .ok k k') (.ite (.same fun _ => .ok k k') .exit)

theorem atoms_agree (names : List String) {c c' : List Nucleus} (h : Loaded U file c) (h' : Loaded U file c') :
    Agree U file (IonizationDetector.makeAtoms U P tables file names c) (IonizationDetector.makeAtoms U P tables file names c') := by
  induction names generalizing c c' with
  | nil => exact .ok h h'
  | cons a l ih => exact .bind (atom_agree h h' a) fun _ _ _ k k' => .bind (ih k k') fun _ _ _ k k' => .ok k k'

theorem mixture_agree (h : Loaded U file c) (h' : Loaded U file c') {label target : String} {expo : ℝ} {atoms : List String} {given : List ℝ} :
    Agree U file (IonizationDetector.make U P tables file c label expo target atoms given)
      (IonizationDetector.make U P tables file c' label expo target atoms given) :=
  .bind (atoms_agree _ h h') fun _ _ _ k k' => .same fun _ => .ok k k'

section setup
variable (h : Loaded S.U S.files.nuclear c) (h' : Loaded S.U S.files.nuclear c')
include h h'

theorem ionization_agree {label target atom : String} {expo : ℝ} :
    Agree S.U S.files.nuclear (S.makeIonization c label expo target atom) (S.makeIonization c' label expo target atom) :=
  .bind (atom_agree h h' _) fun _ _ _ k k' => .ok k k'

theorem nuclei_agree (Zs : List ℕ) : Agree S.U S.files.nuclear (S.getNuclei Zs c) (S.getNuclei Zs c') := by
  induction Zs generalizing c c' with
  | nil => exact .ok h h'
  | cons a l ih => exact .bind (getNucleus_agree h h' a) fun _ _ _ k k' => .bind (ih k k') fun _ _ _ k k' => .ok k k'

theorem targets_agree (f : Config) (j n : ℕ) : Agree S.U S.files.nuclear (f.targets S j n c) (f.targets S j n c') := by
  induction n generalizing j c c' with
  | zero => exact .ok h h'
  | succ n ih =>
    exact .same fun _ => .same fun _ => .same fun _ => .same fun _ => .same fun _ => .same fun _ =>
      .bind (getNucleus_agree h h' _) fun _ _ _ k k' => .bind (ih k k' _) fun _ _ _ k k' => .ok k k'

theorem nuclearDetector_agree (f : Config) : Agree S.U S.files.nuclear (f.nuclearDetector S c) (f.nuclearDetector S c') := by
  unfold Config.nuclearDetector
  exact .same fun _ => .bind (targets_agree h h' _ _ _) fun _ _ ⟨_, _⟩ k k' => .same fun _ => .same fun _ => .same fun _ => .same fun _ =>
    .same fun _ => .same fun _ => .same fun _ => .same fun ⟨_, _⟩ => .same fun _ => .same fun _ => .same fun _ => .ok k k'

theorem ionizationDetector_agree (f : Config) (kind : String) :
    Agree S.U S.files.nuclear (f.ionizationDetector S kind c) (f.ionizationDetector S kind c') := by
  unfold Config.ionizationDetector
  exact .same fun _ => .same fun _ => .same fun _ => .same fun _ => .same fun _ => .same fun _ =>
    .bind (ionization_agree h h') fun _ _ ⟨_, _⟩ k k' => .same fun ⟨_, _⟩ => .same fun _ => .same fun _ => .ok k k'

theorem damicN2011_agree : Agree S.U S.files.nuclear (S.damicN2011 c) (S.damicN2011 c') :=
  .bind (nuclei_agree h h' _) fun _ _ _ k k' => .same fun ⟨_, _⟩ => .same fun _ => .same fun _ => .ok k k'

theorem xenon1TN2017_agree : Agree S.U S.files.nuclear (S.xenon1TN2017 c) (S.xenon1TN2017 c') :=
  .bind (nuclei_agree h h' _) fun _ _ _ k k' => .same fun ⟨_, _⟩ => .same fun _ => .same fun _ => .ok k k'

theorem cresstII_agree : Agree S.U S.files.nuclear (S.cresstII c) (S.cresstII c') :=
  .bind (nuclei_agree h h' _) fun _ _ _ k k' => .same fun ⟨_, _⟩ => .same fun _ => .same fun _ => .same fun _ => .ok k k'

theorem cresstIII_agree : Agree S.U S.files.nuclear (S.cresstIII c) (S.cresstIII c') :=
  .bind (nuclei_agree h h' _) fun _ _ _ k k' => .same fun ⟨_, _⟩ => .same fun _ => .same fun _ => .same fun _ => .ok k k'

theorem cresstSurface_agree : Agree S.U S.files.nuclear (S.cresstSurface c) (S.cresstSurface c') :=
  .bind (nuclei_agree h h' _) fun _ _ _ k k' => .same fun ⟨_, _⟩ => .same fun _ => .same fun _ => .ok k k'

variable {target : String}

theorem xenon10S2_agree : Agree S.U S.files.nuclear (S.xenon10S2 target c) (S.xenon10S2 target c') :=
  .bind (ionization_agree h h') fun _ _ ⟨_, _⟩ k k' => .same fun ⟨_, _⟩ => .same fun _ => .same fun _ => .same fun _ => .ok k k'

theorem xenon100S2_agree : Agree S.U S.files.nuclear (S.xenon100S2 target c) (S.xenon100S2 target c') :=
  .bind (ionization_agree h h') fun _ _ ⟨_, _⟩ k k' => .same fun ⟨_, _⟩ => .same fun _ => .same fun _ => .same fun _ => .same fun _ => .same fun _ =>
    .ok k k'

theorem xenon1TS2_agree : Agree S.U S.files.nuclear (S.xenon1TS2 target c) (S.xenon1TS2 target c') :=
  .bind (ionization_agree h h') fun _ _ ⟨_, _⟩ k k' => .same fun ⟨_, _⟩ => .same fun _ => .same fun _ => .ok k k'

theorem darkSide50S2_agree : Agree S.U S.files.nuclear (S.darkSide50S2 target c) (S.darkSide50S2 target c') :=
  .bind (ionization_agree h h') fun _ _ ⟨_, _⟩ k k' => .same fun ⟨_, _⟩ => .same fun _ => .ok k k'

theorem darkSide50S22023_agree : Agree S.U S.files.nuclear (S.darkSide50S22023 target c) (S.darkSide50S22023 target c') :=
  .bind (ionization_agree h h') fun _ _ ⟨_, _⟩ k k' => .same fun ⟨_, _⟩ => .same fun _ => .same fun _ => .ok k k'

theorem pandaX4TS2_agree : Agree S.U S.files.nuclear (S.pandaX4TS2 target c) (S.pandaX4TS2 target c') :=
  .bind (ionization_agree h h') fun _ _ ⟨_, _⟩ k k' => .same fun ⟨_, _⟩ => .same fun _ => .ok k k'

theorem lzS2_agree : Agree S.U S.files.nuclear (S.lzS2 target c) (S.lzS2 target c') :=
  .bind (ionization_agree h h') fun _ _ _ _ _ => .exit

theorem asCrystal_agree (x : Outcome (Detector × CrystalDetector)) : Agree S.U S.files.nuclear (Config.asCrystal c x) (Config.asCrystal c' x) :=
  .same fun ⟨_, _⟩ => .ok h h'

omit h h' in
theorem Agree.asNuclear {x y} (k : Agree U file x y) : Agree U file (Config.asNuclear x) (Config.asNuclear y) :=
  .bind k fun _ _ ⟨_, _⟩ k k' => .ok k k'
omit h h' in
theorem Agree.asER {x y} (k : Agree U file x y) : Agree U file (Config.asER x) (Config.asER y) := .bind k fun _ _ ⟨_, _⟩ k k' => .ok k k'
omit h h' in
theorem Agree.asMigdal {x y} (k : Agree U file x y) : Agree U file (Config.asMigdal x) (Config.asMigdal y) := .bind k fun _ _ ⟨_, _⟩ k k' => .ok k k'

theorem selectDetector_agree (f : Config) (name : String) :
    Agree S.U S.files.nuclear (f.selectDetector S c name) (f.selectDetector S c' name) := by
  unfold Config.selectDetector
  refine .ite (nuclearDetector_agree h h' f) (.ite (ionizationDetector_agree h h' f _) (.ite (.same fun _ => .ok h h') ?_))
  refine .ite (damicN2011_agree h h').asNuclear ?_
  refine .ite (xenon1TN2017_agree h h').asNuclear ?_
  refine .ite (cresstII_agree h h').asNuclear ?_
  refine .ite (cresstSurface_agree h h').asNuclear ?_
  refine .ite (cresstIII_agree h h').asNuclear ?_
  refine .ite (xenon10S2_agree h h').asER ?_
  refine .ite (xenon100S2_agree h h').asER ?_
  refine .ite (xenon1TS2_agree h h').asER ?_
  refine .ite (darkSide50S2_agree h h').asER ?_
  refine .ite (darkSide50S22023_agree h h').asER ?_
  refine .ite (pandaX4TS2_agree h h').asER ?_
  refine .ite (lzS2_agree h h').asER ?_
  refine .ite (xenon10S2_agree h h').asMigdal ?_
  refine .ite (xenon100S2_agree h h').asMigdal ?_
  refine .ite (xenon1TS2_agree h h').asMigdal ?_
  refine .ite (darkSide50S2_agree h h').asMigdal ?_
  refine .ite (darkSide50S22023_agree h h').asMigdal ?_
  refine .ite (pandaX4TS2_agree h h').asMigdal ?_
  refine .ite (lzS2_agree h h').asMigdal ?_
  refine .ite (asCrystal_agree h h' _) ?_
  refine .ite (asCrystal_agree h h' _) ?_
  refine .ite (asCrystal_agree h h' _) ?_
  refine .ite (asCrystal_agree h h' _) ?_
  refine .ite (asCrystal_agree h h' _) ?_
  exact .ite (asCrystal_agree h h' _) .exit

theorem perform_agree (call : Call) : Agree S.U S.files.nuclear (call.perform S c) (call.perform S c') := by
  cases call with
  | nucleus Z => exact .bind (getNucleus_agree h h' Z) fun _ _ _ k k' => .ok k k'
  | nucleusNamed n => exact .bind (findNucleus_agree n _ h h') fun _ _ _ k k' => .ok k k'
  | isotope Z A => exact .bind (.bind (getNucleus_agree h h' Z) fun _ _ _ k k' => .same fun _ => .ok k k') fun _ _ _ k k' => .ok k k'
  | atom n => exact .bind (atom_agree h h' n) fun _ _ _ k k' => .ok k k'
  | customAtom Z W es => exact .bind (.bind (getNucleus_agree h h' Z) fun _ _ _ k k' => .ok k k') fun _ _ _ k k' => .ok k k'
  | nuclearDetector => exact .bind (.bind (getNucleus_agree h h' 54) fun _ _ _ k k' => .ok k k') fun _ _ _ k k' => .ok k k'
  | electronRecoilDetector => exact .bind (.bind (ionization_agree h h') fun _ _ ⟨_, _⟩ k k' => .ok k k') fun _ _ _ k k' => .ok k k'
  | migdalDetector => exact .bind (.bind (ionization_agree h h') fun _ _ ⟨_, _⟩ k k' => .ok k k') fun _ _ _ k k' => .ok k k'
  | ionizationDetector l e t a => exact .bind (ionization_agree h h') fun _ _ ⟨_, _⟩ k k' => .ok k k'
  | electronRecoilMixture l e a f => exact .bind (.bind (mixture_agree h h') fun _ _ ⟨_, _⟩ k k' => .ok k k') fun _ _ _ k k' => .ok k k'
  | migdalMixture l e a f => exact .bind (.bind (mixture_agree h h') fun _ _ ⟨_, _⟩ k k' => .ok k k') fun _ _ _ k k' => .ok k k'
  | configured f => exact .bind (.same fun _ => selectDetector_agree h h' f _) fun _ _ _ k k' => .ok k k'

end setup

theorem perform_loaded (h : Loaded S.U S.files.nuclear c) {call : Call} {p : Product} (hp : call.perform S c = .ok (c', p)) :
    Loaded S.U S.files.nuclear c' := by
  have := perform_agree h h call
  rw [hp] at this
  exact this.2.1

end Obscura
