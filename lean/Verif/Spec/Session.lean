import Verif.Model.Defaults

/-!
# Specification: programs which construct many objects

The calls that read the nuclear data, performed one after the other in the same process, and the result of a call in a process of its own.
-/

namespace Obscura.Spec

open Obscura

/-- The calls of the library which look up nuclear data, directly or in a constructor. -/
inductive Call where
  /-- `Get_Nucleus(Z)` -/
  | nucleus (Z : ℕ)
  /-- `Get_Nucleus(name)` -/
  | nucleusNamed (name : String)
  /-- `Get_Isotope(Z, A)` -/
  | isotope (Z A : ℕ)
  /-- `Atom(name)` -/
  | atom (name : String)
  /-- `Atom(Z, W, electrons)` -/
  | customAtom (Z : ℕ) (W : ℝ) (electrons : List AtomicElectron)
  /-- `DM_Detector_Nucleus()` -/
  | nuclearDetector
  /-- `DM_Detector_Ionization_ER()` -/
  | electronRecoilDetector
  /-- `DM_Detector_Ionization_Migdal()` -/
  | migdalDetector
  /-- `DM_Detector_Ionization_ER(label, exposure, atom)` and `DM_Detector_Ionization_Migdal(label, exposure, atom)` -/
  | ionizationDetector (label : String) (exposure : ℝ) (target atom : String)
  /-- `DM_Detector_Ionization_ER(label, exposure, atoms, mass_fractions)` -/
  | electronRecoilMixture (label : String) (exposure : ℝ) (atoms : List String) (fractions : List ℝ)
  /-- `DM_Detector_Ionization_Migdal(label, exposure, atoms, mass_fractions)` -/
  | migdalMixture (label : String) (exposure : ℝ) (atoms : List String) (fractions : List ℝ)
  /-- `Configuration(file).DM_detector` -/
  | configured (c : Config)

/-- What a call returns. -/
inductive Product where
  | nucleus (n : Nucleus)
  | isotope (i : Isotope)
  | atom (a : Atom)
  | ionization (d : Detector) (x : IonizationDetector)
  | detector (d : AnyDetector)

/-- A call in a process which has already loaded `cache`. -/
noncomputable def Call.perform (S : Setup) (cache : List Nucleus) : Call → Outcome (List Nucleus × Product)
  | .nucleus Z => do let (c, n) ← getNucleus S.U S.files.nuclear cache Z; .ok (c, .nucleus n)
  | .nucleusNamed name => do let (c, n) ← getNucleusByName S.U S.files.nuclear cache name; .ok (c, .nucleus n)
  | .isotope Z A => do let (c, i) ← getIsotope S.U S.files.nuclear cache Z A; .ok (c, .isotope i)
  | .atom name => do let (c, a) ← Atom.make S.U S.P S.files.response S.files.nuclear cache name; .ok (c, .atom a)
  | .customAtom Z W es => do let (c, a) ← Atom.ofShells S.U S.files.nuclear cache Z W es; .ok (c, .atom a)
  | .nuclearDetector => do let (c, d) ← S.defaultNuclear cache; .ok (c, .detector d)
  | .electronRecoilDetector => do let (c, d) ← S.defaultElectronRecoil cache; .ok (c, .detector d)
  | .migdalDetector => do let (c, d) ← S.defaultMigdal cache; .ok (c, .detector d)
  | .ionizationDetector label expo target a => do let (c, d, x) ← S.makeIonization cache label expo target a; .ok (c, .ionization d x)
  | .electronRecoilMixture label expo atoms fr => do let (c, d) ← S.electronRecoilMixture cache label expo atoms fr; .ok (c, .detector d)
  | .migdalMixture label expo atoms fr => do let (c, d) ← S.migdalMixture cache label expo atoms fr; .ok (c, .detector d)
  | .configured c => do let (cache, d) ← c.detector S cache; .ok (cache, .detector d)

/-- What a call returns to the program which has already loaded `cache`. -/
noncomputable def Call.returns (S : Setup) (cache : List Nucleus) (call : Call) : Outcome Product := do
  let r ← call.perform S cache
  .ok r.2

/-- What the call returns as the first one of a program. -/
noncomputable def Call.alone (S : Setup) (call : Call) : Outcome Product := call.returns S []

/-- A program: calls one after the other, with the nuclear data as the earlier calls have left them. -/
noncomputable def session (S : Setup) : List Nucleus → List Call → Outcome (List Nucleus × List Product)
  | cache, [] => .ok (cache, [])
  | cache, call :: calls => do
    let (cache, p) ← call.perform S cache
    let (cache, ps) ← session S cache calls
    .ok (cache, p :: ps)

/-- What a program gets from its calls. -/
noncomputable def results (S : Setup) (calls : List Call) : Outcome (List Product) := do
  let r ← session S [] calls
  .ok r.2

end Obscura.Spec
