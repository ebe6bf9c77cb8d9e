import Verif.Model.Configuration

/-!
# Where results may be written
-/

namespace Obscura.Spec

/-- A name of a file or directory, not a path. -/
def PlainName (n : Name) : Prop := n ≠ [] ∧ '/' ∉ n ∧ n ≠ ['.'] ∧ n ≠ ['.', '.']

/-- The directory `top` of the installation exists: the text of `TOP_LEVEL_DIR` ends with a slash and leads there. -/
def TopAt (R : Installation) (fs : FileSystem) (top : List Name) : Prop :=
  ∃ t, R.top = t ++ ['/'] ∧ fs.walk (FileSystem.start R.cwd R.top) (t.splitOn '/') = some top

/-- The directory `results`. -/
def resultsPlace (top : List Name) : List Name := "results".toList :: top

/-- The directory `results/ID`. -/
def runPlace (top : List Name) (ID : Name) : List Name := ID :: resultsPlace top

/-- The file `results/ID/ID.cfg`. -/
def copyPlace (top : List Name) (ID : Name) : List Name := (ID ++ ".cfg".toList) :: runPlace top ID

/-- `place` is below the directory `dir` (or is it). -/
def Below (place dir : List Name) : Prop := dir <:+ place

/-- Nothing is in the way: the results folders exist or can be made, and there is no directory with the name of the copy. -/
def FreeToWrite (fs : FileSystem) (top : List Name) (ID : Name) : Prop :=
  (fs (resultsPlace top) = none ∨ fs (resultsPlace top) = some .dir) ∧ (fs (runPlace top ID) = none ∨ fs (runPlace top ID) = some .dir) ∧
    fs (copyPlace top ID) ≠ some .dir

end Obscura.Spec
