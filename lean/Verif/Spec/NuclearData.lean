import Verif.Model.NuclearData

/-!
# Specification: the nuclear data
-/

namespace Obscura.Spec

open Obscura

/-- The data file lists isotopes of every element from hydrogen to uranium and of no other element, in the order of `Z`. -/
structure WellFormed (rows : List NuclearRow) : Prop where
  sorted : rows.Pairwise fun r s => r.Z ≤ s.Z
  range : ∀ r ∈ rows, 1 ≤ r.Z ∧ r.Z ≤ 92
  complete : ∀ Z, 1 ≤ Z → Z ≤ 92 → ∃ r ∈ rows, r.Z = Z

/-- The isotope a row describes. -/
noncomputable def isotopeOf (U : Units) (r : NuclearRow) : Isotope :=
  { Z := r.Z, A := r.A, abundance := r.abundance, spin := r.spin, sp := r.sp, sn := r.sn,
    mass := if r.A = 1 then U.mProton else r.A * U.mNucleon }

/-- The element with `Z` protons: all its isotopes in the file, in order, and its name. -/
noncomputable def element (U : Units) (rows : List NuclearRow) (Z : ℕ) : Nucleus :=
  { Z := some Z, isotopes := (rows.filter fun r => r.Z = Z).map (isotopeOf U), name := nucleusNames.getD (Z - 1) "" }

/-- The possible values of the global table during a run of the program: empty at the start, then whatever earlier lookups have
left behind. -/
inductive CacheReachable (U : Units) (file : Option (List NuclearRow)) : List Nucleus → Prop
  | start : CacheReachable U file []
  | lookup {c c' : List Nucleus} {Z : ℕ} {n : Nucleus} :
      CacheReachable U file c → getNucleus U file c Z = .ok (c', n) → CacheReachable U file c'

end Obscura.Spec
