import Verif.Model.Summary

/-!
# Configurations put together by hand
-/

namespace Obscura

/-- The members of a `Configuration` that was not read from a file, `include/obscura/Configuration.hpp:16-54`: `none` is a null pointer or an
uninitialised number. A distribution is given with what it prints. -/
structure ManualConfiguration where
  cfgFile : Name
  ID : Name
  resultsPath : Name
  particle : Option DMParticle
  distribution : Option (Distribution × List Printed)
  detector : Option AnyDetector
  certainty : Option ℝ
  massMin : Option ℝ
  massMax : Option ℝ
  masses : Option ℕ

namespace ManualConfiguration

/-- `Configuration::Configuration()`, `src/Configuration.cpp:25-28`, with the initialisers of `include/obscura/Configuration.hpp:52-54`. -/
def make : ManualConfiguration :=
  ⟨[], "default".toList, [], none, none, none, none, none, none, none⟩

/-- Assignments to the public members, `include/obscura/Configuration.hpp:43-54`. -/
inductive Op where
  | setID (ID : Name)
  | setResultsPath (path : Name)
  | setParticle (p : DMParticle)
  | setDistribution (h : Distribution) (printed : List Printed)
  | setDetector (D : AnyDetector)
  | setCertainty (c : ℝ)
  | setMassMin (m : ℝ)
  | setMassMax (m : ℝ)
  | setMasses (n : ℕ)

/-- One assignment. `include/obscura/Configuration.hpp:43-54`. -/
def apply (o : ManualConfiguration) : Op → ManualConfiguration
  | .setID ID => { o with ID := ID }
  | .setResultsPath path => { o with resultsPath := path }
  | .setParticle p => { o with particle := some p }
  | .setDistribution h printed => { o with distribution := some (h, printed) }
  | .setDetector D => { o with detector := some D }
  | .setCertainty c => { o with certainty := some c }
  | .setMassMin m => { o with massMin := some m }
  | .setMassMax m => { o with massMax := some m }
  | .setMasses n => { o with masses := some n }

/-- A sequence of assignments. `include/obscura/Configuration.hpp:43-54`. -/
def run (o : ManualConfiguration) (ops : List Op) : ManualConfiguration := ops.foldl apply o

/-- `Configuration::Print_Summary_Base`, `src/Configuration.cpp:111-130`, by way of `include/obscura/Configuration.hpp:60`: null pointers are
dereferenced and uninitialised numbers are read. -/
noncomputable def printSummary (S : Setup) (o : ManualConfiguration) (rank : ℤ) : Outcome (List Printed) :=
  if rank = 0 then do
    let p ← readMember o.particle
    let h ← readMember o.distribution
    let D ← readMember o.detector
    let detector ← D.printSummary S rank
    let c ← readMember o.certainty
    let lo ← readMember o.massMin
    let hi ← readMember o.massMax
    let n ← readMember o.masses
    .ok ([.text separator, .text "Summary of obscura configuration", .text "\n", .text "\n",
      .text "Config file:\t", .text (String.ofList o.cfgFile), .text "\n", .text "ID:\t\t", .text (String.ofList o.ID), .text "\n"] ++
      p.printSummary S.U rank ++ h.2 ++ detector ++
      [.text "Direct detection constraints", .text "\n",
       .text "\tCertainty level [%]:\t", .real (100 * c), .text "\n",
       .text "\tMass range [GeV]:\t[", .real lo, .text ",", .real hi, .text "]", .text "\n",
       .text "\tMass steps:\t\t", .nat n, .text separator, .text "\n"])
  else .ok []

end ManualConfiguration

end Obscura
