import Verif.Model.Main

/-!
# The limits on the terminal — `src/main.cpp`

Of the other output of the program, the date, the logo with the version, and the duration are not modelled; the summary of the
configuration is in `Model/Summary`.
-/

namespace Obscura

namespace Program

/-- One line of the loop, `src/main.cpp:38-40`, for the row with index `i` of `n` rows. -/
noncomputable def limitLine (U : Units) (n i : ℕ) (row : ℝ × ℝ) : List Printed :=
  open Classical in
  [.nat (i + 1), .text "/", .nat n,
   .text "\tmDM = ", .rounded (row.1 / (if row.1 < U.GeV then U.MeV else U.GeV)), .text (if row.1 < U.GeV then " MeV" else " GeV"),
   .text "\tUpper Bound:\t", .rounded (row.2 / (U.cm * U.cm)), .text "\n"]

/-- The loop, `src/main.cpp:37-40`, from the index `i` on. (The index is an `unsigned int`; a list of `2 ^ 32` rows is left out.) -/
noncomputable def limitLoop (U : Units) (n : ℕ) : ℕ → List (ℝ × ℝ) → List Printed
  | _, [] => []
  | i, row :: rows => limitLine U n i row ++ limitLoop U n (i + 1) rows

variable (E : Platform)

/-- What `main` prints between the summary and the end, `src/main.cpp:31-40`: nothing if the program ends before. -/
noncomputable def report (args : List Name) (fs : FileSystem) : List Printed :=
  match args with
  | [] => []
  | cfgFile :: _ =>
    match (Configuration.make E.R E.S E.N E.speeds E.parse fs [] cfgFile 0).2 with
    | .ok (_, o) =>
      match o.printSummary E.S [] 0 with
      | .ok _ =>
        match (do
          let ms ← masses E o
          let (_, _, rows) ← o.detector.base.upperLimitCurve E.S.U E.T (o.detector.toClass E.S.U E.T o.distribution) o.particle ms o.certainty
          .ok rows : Outcome (List (ℝ × ℝ))) with
        | .ok rows => limitLoop E.S.U rows.length 0 rows
        | _ => []
      | _ => []
    | _ => []

end Program

end Obscura
