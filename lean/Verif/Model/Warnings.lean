import Verif.Model.Atom

/-!
# Warnings about the limits of tables — `src/Target_Atom.cpp:41-92`, `src/Target_Crystal.cpp:57-73`

The same functions as `AtomicElectron.response` and `Crystal.formFactor`, with the flags `have_warned` and what is printed. The numbers
that are printed are kept; their format is not modelled.
-/

namespace Obscura

/-- A printed warning of `Atomic_Response_Function`: the number of the response, the name of the shell, and the lines with `q` and `k`,
each with the limits of its table, in keV. `src/Target_Atom.cpp:48-53,79-81`. -/
structure ShellWarning where
  response : ℤ
  shell : String
  q : Option (ℝ × ℝ × ℝ)
  k : Option (ℝ × ℝ × ℝ)

/-- The result of a call: the flag afterwards, the printed warnings, the returned value. -/
structure Warned (W α : Type) where
  flag : Bool
  printed : List W
  result : α

namespace AtomicElectron

/-- `Atomic_Response_Function` with the member `have_warned` (`include/obscura/Target_Atom.hpp:34`), `src/Target_Atom.cpp:41-92`. -/
noncomputable def responseWarned (U : Units) (a : AtomicElectron) (warned : Bool) (r : ℤ) (q E : ℝ) : Warned ShellWarning (Outcome ℝ) :=
  open Classical in
  let k := Real.sqrt (2 * U.mElectron * E)
  let qLine := (q / U.keV, a.qMin / U.keV, a.qMax / U.keV)
  let kLine := (k / U.keV, a.kMin / U.keV, a.kMax / U.keV)
  if 1.000001 * a.qMax < q ∨ 1.000001 * a.kMax < k ∨ k < 0.999999 * a.kMin then
    if !warned then
      ⟨true, [⟨r, a.name, if 1.000001 * a.qMax < q then some qLine else none,
        if 1.000001 * a.kMax < k ∨ k < 0.999999 * a.kMin then some kLine else none⟩], .ok 0⟩
    else ⟨warned, [], .ok 0⟩
  else if r = 1 then
    if a.qMin < q then ⟨warned, [], do let f ← vecGet a.responses 0; .ok (f k q)⟩
    else ⟨warned, [], do let f ← vecGet a.responses 0; .ok (q * q / a.qMin / a.qMin * f k a.qMin)⟩
  else if r = 2 ∨ r = 3 ∨ r = 4 then
    if a.qMin < q then ⟨warned, [], do let f ← vecGet a.responses (r - 1).toNat; .ok (f k q)⟩
    else if !warned then ⟨true, [⟨r, a.name, some qLine, none⟩], .ok 0⟩
    else ⟨warned, [], .ok 0⟩
  else ⟨warned, [], .exit⟩

end AtomicElectron

namespace Atom

/-- A call of `Atomic_Response_Function` of a shell of an atom. The shell is a reference, from `operator[]`
(`include/obscura/Target_Atom.hpp:60-68`) or as in the loops of the rates (`src/Direct_Detection_ER.cpp:57`), or the copy returned by
`Electron(n, l)`, `src/Target_Atom.cpp:167-176`. -/
inductive ShellCall where
  | reference (i : ℕ) (r : ℤ) (q E : ℝ)
  | copy (n l : ℕ) (r : ℤ) (q E : ℝ)

/-- The index of the shell returned by `Electron(n, l)`, `src/Target_Atom.cpp:169-172`. -/
def electronIndex (a : Atom) (n l : ℕ) : Option ℕ := a.electrons.findIdx? fun e => decide (e.n = n ∧ e.l = l)

/-- One call. The state is the list of the flags of the shells. A copy has the flag of its original and is destroyed after the call. -/
noncomputable def callShell (U : Units) (a : Atom) (flags : List Bool) : ShellCall → Warned ShellWarning (Outcome ℝ) × List Bool
  | .reference i r q E =>
    match a.electrons[i]?, flags[i]? with
    | some e, some b => let w := e.responseWarned U b r q E; (w, flags.set i w.flag)
    | _, _ => (⟨false, [], .ub⟩, flags)
  | .copy n l r q E =>
    match a.electronIndex n l with
    | some i =>
      match a.electrons[i]?, flags[i]? with
      | some e, some b => (e.responseWarned U b r q E, flags)
      | _, _ => (⟨false, [], .ub⟩, flags)
    | none => (⟨false, [], .exit⟩, flags)

/-- A sequence of calls, with all printed warnings and the returned values. It stops at the first call that does not return. -/
noncomputable def callShells (U : Units) (a : Atom) : List ShellCall → List Bool → List ShellWarning × Outcome (List ℝ)
  | [], _ => ([], .ok [])
  | c :: cs, flags =>
    let (w, flags) := a.callShell U flags c
    match w.result with
    | .ok x =>
      let (ws, o) := callShells U a cs flags
      (w.printed ++ ws, do let xs ← o; .ok (x :: xs))
    | .exit => (w.printed, .exit)
    | .ub => (w.printed, .ub)
    | .nonfinite => (w.printed, .nonfinite)

/-- The flags of a new atom, `include/obscura/Target_Atom.hpp:34`. -/
def newFlags (a : Atom) : List Bool := a.electrons.map fun _ => false

end Atom

/-- The warning of `Crystal_Form_Factor`, which does not name the crystal: `q`, and `E`, each with its limits, in keV and eV.
`src/Target_Crystal.cpp:64-67`. -/
structure CrystalWarning where
  q : ℝ × ℝ × ℝ
  E : ℝ × ℝ × ℝ

namespace Crystal

/-- `Crystal_Form_Factor` with the global variable `have_warned`, `src/Target_Crystal.cpp:57-73`. -/
noncomputable def formFactorWarned (U : Units) (c : Crystal) (warned : Bool) (q E : ℝ) : Warned CrystalWarning ℝ :=
  open Classical in
  if q < c.dq ∨ c.qMax < q ∨ E < c.dE ∨ c.eMax < E then
    if !warned ∧ (q < 0.999999 * c.dq ∨ 1.000001 * c.qMax < q ∨ E < 0.999999 * c.dE ∨ 1.000001 * c.eMax < E) then
      ⟨true, [⟨(q / U.keV, c.dq / U.keV, c.qMax / U.keV), (E / U.eV, c.dE / U.eV, c.eMax / U.eV)⟩], 0⟩
    else ⟨warned, [], 0⟩
  else ⟨warned, [], c.interpolation q E⟩

/-- A sequence of calls for any crystals, with the global flag. `src/Target_Crystal.cpp:57-73`. -/
noncomputable def formFactorsWarned (U : Units) : List (Crystal × ℝ × ℝ) → Bool → List CrystalWarning × List ℝ
  | [], _ => ([], [])
  | (c, q, E) :: cs, warned =>
    let w := c.formFactorWarned U warned q E
    let (ws, xs) := formFactorsWarned U cs w.flag
    (w.printed ++ ws, w.result :: xs)

end Crystal

end Obscura
