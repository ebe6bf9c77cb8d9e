import Verif.Model.Crystal

/-!
# Bound electrons in atoms — `src/Target_Atom.cpp`, `include/obscura/Target_Atom.hpp`

Printed warnings and the flag `have_warned` are in `Model/Warnings`. The root in `Atomic_Response_Function` is total here: the theorems
assume non-negative electron energies.
-/

namespace Obscura

variable (U : Units)

/-- `log10` of `<cmath>`, for positive arguments. Called in `src/Target_Atom.cpp:36-37`. -/
noncomputable def log10 (x : ℝ) : ℝ := Real.log x / Real.log 10

/-- `s_names`, `src/Target_Atom.cpp:20`. -/
def shellNames : List String := ["s", "p", "d", "f", "g"]

/-- `struct Atomic_Electron`, `include/obscura/Target_Atom.hpp:19-36`. -/
structure AtomicElectron where
  name : String
  n : ℕ
  l : ℕ
  binding : ℝ
  secondaries : ℕ
  kMin : ℝ
  kMax : ℝ
  qMin : ℝ
  qMax : ℝ
  dlogk : ℝ
  dlogq : ℝ
  kGrid : List ℝ
  qGrid : List ℝ
  responses : List (ℝ → ℝ → ℝ)

/-- The tables in `data/Atomic_Response_Functions`, by file name without extension and after dropping the three header lines
(`Import_Table(path, {}, 3)`); `none` is a missing file, for which the library terminates the program. -/
abbrev ResponseTables := String → Option (List (List ℝ))

namespace AtomicElectron

/-- One round of the loop in the constructor, `src/Target_Atom.cpp:29-35`: the numbers of rows and columns and the interpolation.
The first row of an empty table is out of bounds. (That the library checks the table against the grids is not modelled.) -/
noncomputable def importResponse (P : Interpolator2D) (tables : ResponseTables) (name : String) (kMin kMax qMin qMax : ℝ) (r : ℕ) :
    Outcome (ℕ × ℕ × (ℝ → ℝ → ℝ)) :=
  match tables (name ++ "_" ++ toString r) with
  | none => .exit
  | some t => do
    let row ← vecGet t 0
    .ok (t.length, row.length, P (logSpace kMin kMax t.length) (logSpace qMin qMax row.length) t)

/-- `Atomic_Electron(element, N, L, Ebinding, kMin, kMax, qMin, qMax, neSecondary)`, `src/Target_Atom.cpp:22-39`. The grids and step
sizes are those of the last of the four tables. -/
noncomputable def make (P : Interpolator2D) (tables : ResponseTables) (element : String) (N L : ℕ) (binding kMin kMax qMin qMax : ℝ)
    (secondaries : ℕ) : Outcome AtomicElectron := do
  let letter ← vecGet shellNames L
  let name := element ++ "_" ++ toString N ++ letter
  let rs ← collect (importResponse P tables name kMin kMax qMin qMax) [1, 2, 3, 4]
  let (nk, nq, _) ← vecGet rs 3
  let dlogk ← fdiv (log10 (kMax / kMin)) ((nk : ℝ) - 1)
  let dlogq ← fdiv (log10 (qMax / qMin)) ((nq : ℝ) - 1)
  .ok { name := name, n := N, l := L, binding := binding, secondaries := secondaries, kMin := kMin, kMax := kMax, qMin := qMin,
        qMax := qMax, dlogk := dlogk, dlogq := dlogq, kGrid := logSpace kMin kMax nk, qGrid := logSpace qMin qMax nq,
        responses := rs.map fun r => r.2.2 }

/-- `Atomic_Response_Function`, `src/Target_Atom.cpp:41-92`. -/
noncomputable def response (a : AtomicElectron) (r : ℤ) (q E : ℝ) : Outcome ℝ :=
  open Classical in
  let k := Real.sqrt (2 * U.mElectron * E)
  if 1.000001 * a.qMax < q ∨ 1.000001 * a.kMax < k ∨ k < 0.999999 * a.kMin then .ok 0
  else if r = 1 then do
    let f ← vecGet a.responses 0
    if a.qMin < q then .ok (f k q) else .ok (q * q / a.qMin / a.qMin * f k a.qMin)
  else if r = 2 ∨ r = 3 ∨ r = 4 then
    if a.qMin < q then do
      let f ← vecGet a.responses (r - 1).toNat
      .ok (f k q)
    else .ok 0
  else .exit

/-- `Ionization_Form_Factor`, `src/Target_Atom.cpp:94-97`. The call cannot fail for a constructed shell (`C66_defined`); the value in
the case of a failure is 0 here. -/
noncomputable def ionizationFormFactor (a : AtomicElectron) (q E : ℝ) : ℝ := (a.response U 1 q E).valueOr0

end AtomicElectron

/-- `struct Atom`, `include/obscura/Target_Atom.hpp:45-49`. -/
structure Atom where
  nucleus : Nucleus
  electrons : List AtomicElectron
  W : ℝ

namespace Atom

/-- One line of the shell tables: `n`, `l`, binding energy in eV, number of secondary electrons. -/
structure ShellData where
  n : ℕ
  l : ℕ
  energy : ℝ
  secondaries : ℕ

/-- The shells of xenon in the order of construction, `src/Target_Atom.cpp:119-129`. -/
noncomputable def xenonShells : List ShellData :=
  [⟨1, 0, 33317.6, 0⟩, ⟨2, 0, 5149.21, 0⟩, ⟨2, 1, 4837.71, 0⟩, ⟨3, 0, 1093.24, 0⟩, ⟨3, 1, 958.43, 0⟩, ⟨3, 2, 710.73, 0⟩,
   ⟨4, 0, 213.781, 3⟩, ⟨4, 1, 163.495, 6⟩, ⟨4, 2, 75.5897, 4⟩, ⟨5, 0, 25.6986, 0⟩, ⟨5, 1, 12.4433, 0⟩]

/-- The shells of argon in the order of construction, `src/Target_Atom.cpp:140-144`. -/
noncomputable def argonShells : List ShellData :=
  [⟨1, 0, 3227.55, 0⟩, ⟨2, 0, 335.303, 0⟩, ⟨2, 1, 260.453, 0⟩, ⟨3, 0, 34.7585, 0⟩, ⟨3, 1, 16.0824, 0⟩]

/-- The shells are constructed one after the other and then listed from the outermost to the innermost,
`src/Target_Atom.cpp:119-132,140-147`. -/
noncomputable def shells (P : Interpolator2D) (tables : ResponseTables) (element : String) (kMax : ℝ) (data : List ShellData) :
    Outcome (List AtomicElectron) := do
  let es ← collect (fun s : ShellData => AtomicElectron.make P tables element s.n s.l (s.energy * U.eV) (0.1 * U.keV) kMax (1 * U.keV)
    (1000 * U.keV) s.secondaries) data
  .ok es.reverse

/-- `Atom(element_name)`, `src/Target_Atom.cpp:110-154`, with the global table of nuclei before and after. -/
noncomputable def make (P : Interpolator2D) (tables : ResponseTables) (file : Option (List NuclearRow)) (cache : List Nucleus)
    (name : String) : Outcome (List Nucleus × Atom) := do
  let (cache, nucleus) ← getNucleusByName U file cache name
  if name = "Xe" ∨ name = "Xenon" then do
    let es ← shells U P tables "Xe" (500 * U.keV) xenonShells
    .ok (cache, { nucleus := nucleus, electrons := es, W := 13.8 * U.eV })
  else if name = "Ar" ∨ name = "Argon" then do
    let es ← shells U P tables "Ar" (100 * U.keV) argonShells
    .ok (cache, { nucleus := nucleus, electrons := es, W := 19.6 * U.eV })
  else .exit

/-- `Atom(z, w, shells)`, `src/Target_Atom.cpp:105-108`. -/
noncomputable def ofShells (file : Option (List NuclearRow)) (cache : List Nucleus) (z : ℕ) (w : ℝ) (es : List AtomicElectron) :
    Outcome (List Nucleus × Atom) := do
  let (cache, nucleus) ← getNucleus U file cache z
  .ok (cache, { nucleus := nucleus, electrons := es, W := w })

/-- `Lowest_Binding_Energy`, `src/Target_Atom.cpp:156-165`. The initial value is the plain number 1. -/
noncomputable def lowestBindingEnergy (a : Atom) : ℝ :=
  open Classical in
  a.electrons.foldl (fun (b : ℝ) e => if |e.binding| < b then |e.binding| else b) 1

/-- `Electron(n, l)`, `src/Target_Atom.cpp:167-176`. -/
def electron (a : Atom) (n l : ℕ) : Outcome AtomicElectron :=
  match a.electrons.find? (fun e => decide (e.n = n ∧ e.l = l)) with
  | some e => .ok e
  | none => .exit

end Atom

/-! ## Cross sections -/

/-- `d2Sigma_dq2_dEe_Ionization`: SI `src/DM_Particle_Standard.cpp:305-308`; the SD class inherits the function of the base class,
`include/obscura/DM_Particle.hpp:68`, which returns 0. -/
noncomputable def DMParticle.d2SigmaIonization (p : DMParticle) (q Ee v : ℝ) (shell : AtomicElectron) : ℝ :=
  match p.interaction with
  | .SI _ _ _ => 1 / 4 / Ee * p.dSigmadq2Electron U q v * shell.ionizationFormFactor U q Ee
  | .SD => 0

/-- `d2Sigma_dER_dEe_Migdal`, `src/DM_Particle.cpp:106-111`. -/
noncomputable def DMParticle.d2SigmaMigdal (p : DMParticle) (ER Ee v : ℝ) (iso : Isotope) (shell : AtomicElectron) : ℝ :=
  let q := Real.sqrt (2 * iso.mass * ER)
  let qe := U.mElectron / iso.mass * q
  1 / 4 / Ee * p.dSigmadERNucleus U ER iso v * shell.ionizationFormFactor U qe Ee

/-! ## Rates -/

/-- The contribution of one momentum transfer to `dRdEe_Ionization_ER`, `src/Direct_Detection_ER.cpp:33-48`. -/
noncomputable def dRdEeERTerm (I : Integrator) (Ee dlnq : ℝ) (p : DMParticle) (h : Distribution) (shell : AtomicElectron) (q : ℝ) :
    Outcome ℝ :=
  open Classical in
  let vMin := vMinimalElectrons q (shell.binding + Ee) p.mass
  if vMin < h.vMax then
    if p.useEtaFunction ∧ h.useEta then do
      let v := (1 / 1000 : ℝ)
      let e ← h.eta vMin
      .ok (2 * dlnq * q * q * p.d2SigmaIonization U q Ee v shell * v * v * h.density / p.mass * e)
    else .ok (2 * dlnq * q * q * I (fun v => h.differentialFlux v p.mass * p.d2SigmaIonization U q Ee v shell) vMin h.vMax)
  else .ok 0

/-- `dRdEe_Ionization_ER` for one shell, `src/Direct_Detection_ER.cpp:13-51`. The logarithm of a non-positive momentum is not
finite. -/
noncomputable def dRdEeER (I : Integrator) (Ee : ℝ) (p : DMParticle) (h : Distribution) (mNucleus : ℝ) (shell : AtomicElectron) :
    Outcome ℝ :=
  open Classical in
  let nT := 1 / mNucleus
  if energeticallyClosed p.mass h.vMax shell.binding then .ok 0
  else
    let qMin := qMinER p.mass h.vMax shell.binding
    let qMax := qMaxER p.mass h.vMax shell.binding
    if shell.qMax < qMin then .ok 0
    else
      let qMax := if shell.qMax < qMax then shell.qMax else qMax
      if qMin ≤ 0 then .nonfinite
      else do
        let grid := logSpace qMin qMax 100
        let q1 ← vecGet grid 1
        let q0 ← vecGet grid 0
        let dlnq := Real.log (q1 / q0)
        let integral ← sumOver (dRdEeERTerm U I Ee dlnq p h shell) grid
        .ok (nT * integral)

/-- `dRdEe_Ionization_ER` for an atom, `src/Direct_Detection_ER.cpp:53-60`. -/
noncomputable def dRdEeERAtom (I : Integrator) (Ee : ℝ) (p : DMParticle) (h : Distribution) (a : Atom) : Outcome ℝ :=
  sumOver (fun e => dRdEeER U I Ee p h a.nucleus.averageMass e) a.electrons

/-- The integrand over recoil energies of `dRdEe_Ionization_Migdal`, `src/Direct_Detection_Migdal.cpp:23-40`. A failing evaluation of
`Eta_Function` is replaced by 0; the theorems assume that it does not fail. -/
noncomputable def migdalIntegrand (I : Integrator) (Ee : ℝ) (p : DMParticle) (h : Distribution) (iso : Isotope) (shell : AtomicElectron)
    (ER : ℝ) : ℝ :=
  open Classical in
  let vMin := if 0 < ER then vMinimalMigdal ER Ee p.mass iso.mass shell.binding else 1 / 10 ^ 20 * U.cm / U.sec
  if h.vMax ≤ vMin then 0
  else if p.useEtaFunction ∧ h.useEta then
    let v := (1 / 1000 : ℝ)
    h.density / p.mass * (h.eta vMin).valueOr0 * p.d2SigmaMigdal U ER Ee v iso shell * v * v
  else I (fun v => h.differentialFlux v p.mass * p.d2SigmaMigdal U ER Ee v iso shell) vMin h.vMax

/-- `dRdEe_Ionization_Migdal` for one isotope and shell, `src/Direct_Detection_Migdal.cpp:19-50`. -/
noncomputable def dRdEeMigdalIsotope (I : Integrator) (Ee : ℝ) (p : DMParticle) (h : Distribution) (iso : Isotope)
    (shell : AtomicElectron) : ℝ :=
  1 / iso.mass * I (migdalIntegrand U I Ee p h iso shell) (erMinMigdal h.vMax iso.mass shell.binding)
    (erMaxMigdal h.vMax p.mass iso.mass)

/-- `dRdEe_Ionization_Migdal` for a nucleus, `src/Direct_Detection_Migdal.cpp:52-58`. -/
noncomputable def dRdEeMigdal (I : Integrator) (Ee : ℝ) (p : DMParticle) (h : Distribution) (n : Nucleus) (shell : AtomicElectron) : ℝ :=
  n.isotopes.foldl (fun (s : ℝ) iso => s + iso.abundance * dRdEeMigdalIsotope U I Ee p h iso shell) 0

/-- `dRdEe_Ionization_Migdal` for an atom, `src/Direct_Detection_Migdal.cpp:60-66`. -/
noncomputable def dRdEeMigdalAtom (I : Integrator) (Ee : ℝ) (p : DMParticle) (h : Distribution) (a : Atom) : ℝ :=
  a.electrons.foldl (fun (s : ℝ) e => s + dRdEeMigdal U I Ee p h a.nucleus e) 0

end Obscura
