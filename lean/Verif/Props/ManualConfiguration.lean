import Verif.Spec.ManualConfiguration
import Verif.Props.Summary

/-!
# C81: summaries of configurations put together by hand
-/

namespace Obscura

open Spec ManualConfiguration

variable {S : Setup}

/-- Every member holds the value assigned last. -/
theorem manual_run (ops : List ManualConfiguration.Op) :
    ManualConfiguration.make.run ops = ⟨[], (lastAssigned idOf ops).getD "default".toList, (lastAssigned pathOf ops).getD [],
      lastAssigned particleOf ops, lastAssigned distributionOf ops, lastAssigned detectorOf ops, lastAssigned certaintyOf ops,
      lastAssigned massMinOf ops, lastAssigned massMaxOf ops, lastAssigned massesOf ops⟩ := by
  induction ops using List.reverseRecOn with
  | nil => rfl
  | append_singleton ops op ih =>
    unfold ManualConfiguration.run at ih ⊢
    rw [List.foldl_append, ih]
    cases op <;> simp [lastAssigned, ManualConfiguration.apply, idOf, pathOf, particleOf, distributionOf, detectorOf, certaintyOf, massMinOf, massMaxOf, massesOf]

/-- C81 (configurations put together by hand). A configuration made by the constructor without arguments, whose particle, distribution, detector
and parameters were then assigned in any order and any number of times, prints the same summary as the configuration of a file with the values
assigned last, except that the name of the file is empty. -/
theorem C81_manual_partial {ops : List ManualConfiguration.Op} {o : Configuration} {printed : List Printed} (h : PutTogether ops o printed)
    (rank : ℤ) : (ManualConfiguration.make.run ops).printSummary S rank = o.printSummary S printed rank := by
  rw [manual_run]
  unfold ManualConfiguration.printSummary Configuration.printSummary
  simp only [h.particle, h.distribution, h.detector, h.certainty, h.massMin, h.massMax, h.masses, h.ID, h.file, readMember, Outcome.bind_ok]

/-- C81 (failure: incomplete configurations). If the particle, the distribution or the detector was never assigned, printing the summary
dereferences a null pointer on the process with rank 0; the other processes print nothing. -/
theorem C81_fails_incomplete {ops : List ManualConfiguration.Op}
    (h : lastAssigned particleOf ops = none ∨ lastAssigned distributionOf ops = none ∨ lastAssigned detectorOf ops = none) (rank : ℤ) :
    (rank = 0 → (ManualConfiguration.make.run ops).printSummary S rank = .ub) ∧
    (rank ≠ 0 → (ManualConfiguration.make.run ops).printSummary S rank = .ok []) := by
  rw [manual_run]
  refine ⟨fun hr => ?_, fun hr => if_neg hr⟩
  unfold ManualConfiguration.printSummary
  rw [if_pos hr]
  cases hp : lastAssigned particleOf ops with
  | none => rfl
  | some p =>
    cases hh : lastAssigned distributionOf ops with
    | none => rfl
    | some q =>
      cases hD : lastAssigned detectorOf ops with
      | none => rfl
      | some D => simp [hp, hh, hD] at h

/-- C81 (failure: parameters never assigned). With everything but one of the parameters of the limits assigned, the summary reads an uninitialised
number. -/
theorem C81_fails_parameters {ops : List ManualConfiguration.Op} {out : List Printed} {D : AnyDetector} (hD : lastAssigned detectorOf ops = some D)
    (hout : D.printSummary S 0 = .ok out)
    (h : lastAssigned certaintyOf ops = none ∨ lastAssigned massMinOf ops = none ∨ lastAssigned massMaxOf ops = none ∨
      lastAssigned massesOf ops = none) : (ManualConfiguration.make.run ops).printSummary S 0 = .ub := by
  rw [manual_run]
  unfold ManualConfiguration.printSummary
  rw [if_pos rfl]
  cases hp : lastAssigned particleOf ops with
  | none => rfl
  | some p =>
    cases hh : lastAssigned distributionOf ops with
    | none => rfl
    | some q =>
      simp only [hD, readMember, Outcome.bind_ok, hout]
      cases h1 : lastAssigned certaintyOf ops with
      | none => rfl
      | some c =>
        cases h2 : lastAssigned massMinOf ops with
        | none => rfl
        | some lo =>
          cases h3 : lastAssigned massMaxOf ops with
          | none => rfl
          | some hi =>
            cases h4 : lastAssigned massesOf ops with
            | none => rfl
            | some n => simp [h1, h2, h3, h4] at h

/-- Non-vacuity: the constructor alone; and a configuration all of whose members are assigned, the certainty twice. -/
example : (ManualConfiguration.make.run []).printSummary S 0 = .ub := (C81_fails_incomplete (.inl rfl) 0).1 rfl

example (p : DMParticle) (h : Distribution) (D : AnyDetector) (out : List Printed) :
    PutTogether [.setCertainty (1 / 2), .setDetector D, .setParticle p, .setMasses 5, .setDistribution h out, .setMassMax 10, .setMassMin 1,
      .setID ['a'], .setCertainty (9 / 10)] ⟨[], ['a'], [], p, h, D, 9 / 10, 1, 10, 5⟩ out :=
  ⟨rfl, rfl, rfl, rfl, rfl, rfl, rfl, rfl, rfl, rfl⟩

end Obscura
