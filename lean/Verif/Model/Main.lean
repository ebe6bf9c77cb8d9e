import Verif.Model.Summary

/-!
# The program — `src/main.cpp`

Of the terminal output the summary of the configuration is modelled here; the lines with the limits are in `Model/Terminal`.
-/

namespace Obscura

/-- `std::round`: to the nearest integer, halves away from zero. Called in `src/main.cpp:42`. -/
noncomputable def cround (x : ℝ) : ℤ := if 0 ≤ x then ⌊x + 1 / 2⌋ else ⌈x - 1 / 2⌉

/-- What the program runs on: where it is installed, its data files, the numerical routines and the text formats of the libraries.
`parse` is libconfig's parser, `format` the text that `libphysica::Export_Table` writes for a table, and `otherSpace` is
`libphysica::Log_Space` for arguments for which it does not make a logarithmic grid. -/
structure Platform where
  R : Installation
  S : Setup
  N : Numerics
  T : Tools
  speeds : String → Option (List ℝ × List ℝ)
  parse : List Char → Option Config
  format : List (ℝ × ℝ) → List Char
  otherSpace : ℝ → ℝ → ℕ → Outcome (List ℝ)

namespace Program

variable (E : Platform)

/-- The masses, `src/main.cpp:34`. -/
noncomputable def masses (o : Configuration) : Outcome (List ℝ) :=
  open Classical in
  if 0 < o.massMin ∧ 0 < o.massMax ∧ 2 ≤ o.masses then .ok (logSpace o.massMin o.massMax o.masses)
  else E.otherSpace o.massMin o.massMax o.masses

/-- The percentage in the name of the file, `src/main.cpp:42`. -/
noncomputable def percentage (certainty : ℝ) : Outcome ℤ := toIntConv (cround (100 * certainty))

/-- The limits and the percentage, `src/main.cpp:34-42`: the rows are in natural units. -/
noncomputable def limits (o : Configuration) : Outcome (List (ℝ × ℝ) × ℤ) := do
  let ms ← masses E o
  let (_, _, rows) ← o.detector.base.upperLimitCurve E.S.U E.T (o.detector.toClass E.S.U E.T o.distribution) o.particle ms o.certainty
  let cl ← percentage o.certainty
  .ok (rows, cl)

/-- The name of the file, `src/main.cpp:43`. -/
def limitsFile (ID : Name) (cl : ℤ) : Name :=
  E.R.top ++ "results/".toList ++ ID ++ "/DD_Constraints_".toList ++ cl.repr.toList ++ ".txt".toList

/-- `libphysica::Export_Table(path, rows, {GeV, cm²})` (outside `/repo`) as it is called in `src/main.cpp:43`: the columns are divided
by the units; nothing happens if the file cannot be opened. -/
noncomputable def exportLimits (fs : FileSystem) (path : Name) (rows : List (ℝ × ℝ)) : FileSystem :=
  fs.write E.R.cwd path (E.format (rows.map fun r => (r.1 / E.S.U.GeV, r.2 / (E.S.U.cm * E.S.U.cm))))

/-- `main`, `src/main.cpp:16-52`: the files afterwards (also when the program ends early), and how it ends. `args` is `argv` without
the name of the program. Without arguments a string is made of a null pointer. The summary (32) is modelled since it can have undefined
behaviour; the part of the distribution, which always succeeds, is left out. -/
noncomputable def main (args : List Name) (fs : FileSystem) : FileSystem × Outcome Unit :=
  match args with
  | [] => (fs, .ub)
  | cfgFile :: _ =>
    match Configuration.make E.R E.S E.N E.speeds E.parse fs [] cfgFile 0 with
    | (fs, .ok (_, o)) =>
      match o.printSummary E.S [] 0 with
      | .ok _ =>
        match limits E o with
        | .ok (rows, cl) => (exportLimits E fs (limitsFile E o.ID cl) rows, .ok ())
        | .exit => (fs, .exit)
        | .ub => (fs, .ub)
        | .nonfinite => (fs, .nonfinite)
      | .exit => (fs, .exit)
      | .ub => (fs, .ub)
      | .nonfinite => (fs, .nonfinite)
    | (fs, .exit) => (fs, .exit)
    | (fs, .ub) => (fs, .ub)
    | (fs, .nonfinite) => (fs, .nonfinite)

end Program

end Obscura
