import Verif.Spec.Summary
import Verif.Lemmas.Configured
import Verif.Props.Detector

/-!
# Lemmas about the summaries
-/

namespace Obscura

open Spec

variable {S : Setup}

/-! ## Lists of entries -/

theorem Shows.refl (l : List Printed) : Shows l l := ⟨[], [], by simp⟩

theorem Shows.left {a b l : List Printed} (h : Shows a l) : Shows (a ++ b) l := by
  obtain ⟨x, y, rfl⟩ := h
  exact ⟨x, y ++ b, by simp⟩

theorem Shows.right {a b l : List Printed} (h : Shows b l) : Shows (a ++ b) l := by
  obtain ⟨x, y, rfl⟩ := h
  exact ⟨a ++ x, y, by simp⟩

theorem shows_iff {out l : List Printed} : Shows out l ↔ l <:+: out := by
  unfold Shows List.IsInfix
  exact exists_congr fun _ => exists_congr fun _ => eq_comm

theorem shows_flatten {rows : List (List Printed)} {row : List Printed} (h : row ∈ rows) : Shows rows.flatten row := by
  obtain ⟨a, b, rfl⟩ := List.append_of_mem h
  exact ⟨a.flatten, b.flatten, by simp⟩

/-! ## When the base class can print -/

/-- The bins whose ranges are printed have ranges. -/
def EnergyRanges (d : Detector) : Prop := d.usingEnergyBins = true → d.binEnergies.length = d.bins + 1

theorem printBin_eq {d : Detector} {i : ℕ} (h1 : i < d.binEfficiencies.length) (h2 : i < d.binObserved.length)
    (h3 : i < d.binBackground.length) :
    d.printBin i = .ok [.text "\t\t", .nat (i + 1), .text "\t", .real (100 * d.binEfficiencies[i]), .text "\t\t", .nat d.binObserved[i],
      .text "\t\t", .real d.binBackground[i], .text "\n"] := by
  simp only [Detector.printBin, vecGet_lt h1, vecGet_lt h2, vecGet_lt h3, Outcome.bind_ok]

theorem printEnergyBin_eq {U : Units} {d : Detector} {i : ℕ} (h : i + 1 < d.binEnergies.length) :
    d.printEnergyBin U i = .ok [.text "\t\t", .nat (i + 1), .text "\t[", .rounded (d.binEnergies[i] / U.keV), .text ",",
      .rounded (d.binEnergies[i + 1] / U.keV), .text ")", .text "\n"] := by
  simp only [Detector.printEnergyBin, vecGet_lt h, vecGet_lt (Nat.lt_of_succ_lt h), Outcome.bind_ok]

theorem collect_exists {α β : Type} {f : α → Outcome β} {l : List α} (h : ∀ a ∈ l, ∃ b, f a = .ok b) : ∃ bs, collect f l = .ok bs := by
  induction l with
  | nil => exact ⟨[], rfl⟩
  | cons a l ih =>
    obtain ⟨b, hb⟩ := h a (by simp)
    obtain ⟨bs, hbs⟩ := ih fun x hx => h x (by simp [hx])
    exact ⟨b :: bs, by simp [collect, hb, hbs]⟩

theorem printBins_ok {d : Detector} (h : OneEntryPerBin d) : ∃ out, d.printBins = .ok out := by
  unfold Detector.printBins
  by_cases ha : d.analysis = .binnedPoisson
  · rw [if_pos ha]
    by_cases he : d.binObserved = []
    · rw [if_pos he]; exact ⟨_, rfl⟩
    · rw [if_neg he]
      obtain ⟨h1, h2, h3⟩ := h ha
      obtain ⟨rows, hr⟩ := collect_exists (f := d.printBin) (l := List.range d.binObserved.length) fun i hi => by
        rw [List.mem_range] at hi
        exact ⟨_, printBin_eq (by omega) hi (by omega)⟩
      rw [hr]; exact ⟨_, rfl⟩
  · rw [if_neg ha]; exact ⟨_, rfl⟩

theorem printEnergyBins_ok {U : Units} {d : Detector} (h : EnergyRanges d) : ∃ out, d.printEnergyBins U = .ok out := by
  unfold Detector.printEnergyBins
  by_cases ha : d.usingEnergyBins = true
  · rw [if_pos ha]
    obtain ⟨rows, hr⟩ := collect_exists (f := d.printEnergyBin U) (l := List.range d.bins) fun i hi => by
      rw [List.mem_range] at hi
      exact ⟨_, printEnergyBin_eq (by rw [h ha]; omega)⟩
    rw [hr]; exact ⟨_, rfl⟩
  · rw [if_neg ha]; exact ⟨_, rfl⟩

theorem printBase_ok {d : Detector} {rank : ℤ} (h1 : OneEntryPerBin d) (h2 : EnergyRanges d) : ∃ out, d.printBase S rank = .ok out := by
  unfold Detector.printBase
  by_cases h0 : rank = 0
  · rw [if_pos h0]
    obtain ⟨a, ha⟩ := printBins_ok h1
    obtain ⟨b, hb⟩ := printEnergyBins_ok (U := S.U) h2
    rw [ha, Outcome.bind_ok, hb]; exact ⟨_, rfl⟩
  · rw [if_neg h0]; exact ⟨_, rfl⟩

/-- What can go wrong in a loop over indices is the access. -/
theorem collect_cases {α β : Type} {f : α → Outcome β} {l : List α} (h : ∀ a ∈ l, (∃ b, f a = .ok b) ∨ f a = .ub) :
    (∃ bs, collect f l = .ok bs) ∨ collect f l = .ub := by
  induction l with
  | nil => exact .inl ⟨[], rfl⟩
  | cons a l ih =>
    rcases h a (by simp) with ⟨b, hb⟩ | hb
    · rcases ih fun x hx => h x (by simp [hx]) with ⟨bs, hbs⟩ | hbs
      · exact .inl ⟨b :: bs, by simp [collect, hb, hbs]⟩
      · exact .inr (by simp [collect, hb, hbs])
    · exact .inr (by simp [collect, hb])

theorem collect_member_ub {α β : Type} {f : α → Outcome β} {l : List α} {a : α} (ha : a ∈ l) (h : ∀ a ∈ l, (∃ b, f a = .ok b) ∨ f a = .ub)
    (hu : f a = .ub) : collect f l = .ub := by
  rcases collect_cases h with ⟨bs, hb⟩ | hb
  · obtain ⟨h1, h2⟩ := collect_eq_ok hb
    obtain ⟨i, hi, rfl⟩ := List.getElem_of_mem ha
    rw [h2 i hi (by rw [h1]; exact hi)] at hu
    cases hu
  · exact hb

theorem vecGet_ok_or_ub {α : Type} (l : List α) (i : ℕ) : (∃ a, vecGet l i = .ok a) ∨ vecGet l i = .ub := by
  by_cases h : i < l.length
  · exact .inl ⟨_, vecGet_lt h⟩
  · exact .inr (vecGet_ge (by omega))

theorem printBins_cases (d : Detector) : (∃ out, d.printBins = .ok out) ∨ d.printBins = .ub := by
  unfold Detector.printBins
  split_ifs
  · exact .inl ⟨_, rfl⟩
  · rcases collect_cases (f := d.printBin) (l := List.range d.binObserved.length) fun i _ => by
      unfold Detector.printBin
      rcases vecGet_ok_or_ub d.binEfficiencies i with ⟨a, ha⟩ | ha
      · rcases vecGet_ok_or_ub d.binObserved i with ⟨b, hb⟩ | hb
        · rcases vecGet_ok_or_ub d.binBackground i with ⟨c, hc⟩ | hc
          · exact .inl ⟨_, by rw [ha, Outcome.bind_ok, hb, Outcome.bind_ok, hc]; rfl⟩
          · exact .inr (by rw [ha, Outcome.bind_ok, hb, Outcome.bind_ok, hc]; rfl)
        · exact .inr (by rw [ha, Outcome.bind_ok, hb]; rfl)
      · exact .inr (by rw [ha]; rfl) with ⟨bs, h⟩ | h
    · exact .inl ⟨_, by rw [h]; rfl⟩
    · exact .inr (by rw [h]; rfl)
  · exact .inl ⟨_, rfl⟩

theorem printBase_cases (d : Detector) (rank : ℤ) : (∃ out, d.printBase S rank = .ok out) ∨ d.printBase S rank = .ub := by
  have h1 := printBins_cases d
  have h2 : (∃ out, d.printEnergyBins S.U = .ok out) ∨ d.printEnergyBins S.U = .ub := by
    unfold Detector.printEnergyBins
    split_ifs
    · rcases collect_cases (f := d.printEnergyBin S.U) (l := List.range d.bins) fun i _ => by
        unfold Detector.printEnergyBin
        rcases vecGet_ok_or_ub d.binEnergies i with ⟨a, ha⟩ | ha
        · rcases vecGet_ok_or_ub d.binEnergies (i + 1) with ⟨b, hb⟩ | hb
          · exact .inl ⟨_, by rw [ha, Outcome.bind_ok, hb]; rfl⟩
          · exact .inr (by rw [ha, Outcome.bind_ok, hb]; rfl)
        · exact .inr (by rw [ha]; rfl) with ⟨bs, h⟩ | h
      · exact .inl ⟨_, by rw [h]; rfl⟩
      · exact .inr (by rw [h]; rfl)
    · exact .inl ⟨_, rfl⟩
  unfold Detector.printBase
  by_cases h0 : rank = 0
  · rw [if_pos h0]
    rcases h1 with ⟨a, ha⟩ | ha
    · rcases h2 with ⟨b, hb⟩ | hb
      · exact .inl ⟨_, by rw [ha, Outcome.bind_ok, hb]; rfl⟩
      · exact .inr (by rw [ha, Outcome.bind_ok, hb]; rfl)
    · exact .inr (by rw [ha]; rfl)
  · rw [if_neg h0]; exact .inl ⟨_, rfl⟩

/-! ## Calls keep the ranges -/

theorem toUInt32_of_pos {n : ℤ} (h0 : 0 < n) (h1 : n < 2 ^ 31) : toUInt32 n = n.toNat ∧ n.toNat + 1 < 2 ^ 32 := by
  unfold toUInt32
  constructor
  · rw [Int.emod_eq_of_lt (by omega) (by omega)]
  · omega

theorem step_energyRanges {d d' : Detector} {op : Detector.Op} (ho : SensibleCall op) (h : EnergyRanges d) (hs : d.step op = .ok d') :
    EnergyRanges d' := by
  cases op <;> simp only [Detector.step] at hs
  case setObserved => unfold Detector.setObserved at hs; split_ifs at hs; cases hs; exact h
  case setBackground => unfold Detector.setBackground at hs; split_ifs at hs; cases hs; exact h
  case setObservedBins => unfold Detector.setObservedBins at hs; split_ifs at hs; cases hs; exact h
  case setBinEfficiencies => unfold Detector.setBinEfficiencies at hs; split_ifs at hs; cases hs; exact h
  case setBackgroundBins => unfold Detector.setBackgroundBins at hs; split_ifs at hs; cases hs; exact h
  case useMaximumGap => unfold Detector.useMaximumGap at hs; dsimp only at hs; split at hs <;> cases hs; exact h
  case setFlatEfficiency => cases hs; exact h
  case useEnergyThreshold => unfold Detector.useEnergyThreshold at hs; split_ifs at hs; cases hs; exact h
  case useEnergyBins a b n =>
    obtain ⟨d1, h1, hs⟩ := Outcome.bind_eq_ok.1 hs
    obtain ⟨-, rfl⟩ := Detector.initializeBinned_ok h1
    split_ifs at hs
    cases hs
    intro _
    obtain ⟨e1, e2⟩ := toUInt32_of_pos ho.2.1 ho.2.2
    simp only [linearSpace, List.length_map, List.length_range, e1]
    exact Nat.mod_eq_of_lt e2

theorem step_noEnergyBins {d d' : Detector} {op : Detector.Op} (ho : binsOf op = none) (hs : d.step op = .ok d') :
    d'.usingEnergyBins = d.usingEnergyBins := by
  cases op <;> simp only [Detector.step] at hs
  case setObserved => unfold Detector.setObserved at hs; split_ifs at hs; cases hs; rfl
  case setBackground => unfold Detector.setBackground at hs; split_ifs at hs; cases hs; rfl
  case setObservedBins => unfold Detector.setObservedBins at hs; split_ifs at hs; cases hs; rfl
  case setBinEfficiencies => unfold Detector.setBinEfficiencies at hs; split_ifs at hs; cases hs; rfl
  case setBackgroundBins => unfold Detector.setBackgroundBins at hs; split_ifs at hs; cases hs; rfl
  case useMaximumGap => unfold Detector.useMaximumGap at hs; dsimp only at hs; split at hs <;> cases hs; rfl
  case setFlatEfficiency => cases hs; rfl
  case useEnergyThreshold => unfold Detector.useEnergyThreshold at hs; split_ifs at hs; cases hs; rfl
  case useEnergyBins => simp [binsOf] at ho

theorem step_bins {d d' : Detector} {op : Detector.Op} (ho : binsOf op = none) (hs : d.step op = .ok d') : d'.bins = d.bins := by
  cases op <;> simp only [Detector.step] at hs
  case setObserved => unfold Detector.setObserved at hs; split_ifs at hs; cases hs; rfl
  case setBackground => unfold Detector.setBackground at hs; split_ifs at hs; cases hs; rfl
  case setObservedBins => unfold Detector.setObservedBins at hs; split_ifs at hs; cases hs; rfl
  case setBinEfficiencies => unfold Detector.setBinEfficiencies at hs; split_ifs at hs; cases hs; rfl
  case setBackgroundBins => unfold Detector.setBackgroundBins at hs; split_ifs at hs; cases hs; rfl
  case useMaximumGap => unfold Detector.useMaximumGap at hs; dsimp only at hs; split at hs <;> cases hs; rfl
  case setFlatEfficiency => cases hs; rfl
  case useEnergyThreshold => unfold Detector.useEnergyThreshold at hs; split_ifs at hs; cases hs; rfl
  case useEnergyBins => simp [binsOf] at ho

/-! ## Ionization detectors -/

/-- Where a history with bins of kind `k` (or none) stays. -/
structure TidyIonization (k : BinKind) (s : Detector × IonizationDetector) : Prop where
  energy : EnergyRanges s.1
  noEnergy : k ≠ .energy → s.1.usingEnergyBins = false
  s2 : s.2.usingS2Bins = true → s.2.s2Bins.length = s.1.bins + 1
  noS2 : k ≠ .photoelectrons → s.2.usingS2Bins = false
  fractions : s.2.fractions.length = s.2.atoms.length

theorem TidyIonization.base {k : BinKind} {d d' : Detector} {x : IonizationDetector} {op : Detector.Op} (h : TidyIonization k (d, x))
    (hk : binsOf op = none ∨ binsOf op = some k) (ho : SensibleCall op) (hs : d.step op = .ok d') : TidyIonization k (d', x) where
  energy := step_energyRanges ho h.energy hs
  noEnergy hne := by
    rcases hk with hk | hk
    · rw [step_noEnergyBins hk hs]; exact h.noEnergy hne
    · cases op <;> simp [binsOf] at hk
      exact absurd hk.symm hne
  s2 hu := by
    rcases hk with hk | hk
    · rw [step_bins hk hs]; exact h.s2 hu
    · have hne : k ≠ .photoelectrons := by
        rintro rfl
        cases op <;> simp [binsOf] at hk
      have := h.noS2 hne
      dsimp only at this hu
      rw [this] at hu; cases hu
  noS2 := h.noS2
  fractions := h.fractions

theorem TidyIonization.step {k : BinKind} {s s' : Detector × IonizationDetector} {op : IonizationDetector.Op} (h : TidyIonization k s)
    (hk : ionizationBinsOf op = none ∨ ionizationBinsOf op = some k) (ho : SensibleIonizationCall op)
    (hs : IonizationDetector.step s op = .ok s') : TidyIonization k s' := by
  obtain ⟨d, x⟩ := s
  cases op <;> simp only [IonizationDetector.step] at hs
  case base op =>
    obtain ⟨d1, h1, hs⟩ := Outcome.bind_eq_ok.1 hs
    cases hs
    exact h.base hk ho h1
  case useElectronThreshold =>
    unfold IonizationDetector.useElectronThreshold at hs
    dsimp only at hs
    split_ifs at hs <;> cases hs <;> exact ⟨h.energy, h.noEnergy, h.s2, h.noS2, h.fractions⟩
  case useElectronBins =>
    rcases hk with hk | hk <;> simp [ionizationBinsOf] at hk
    subst hk
    obtain ⟨d1, h1, hs⟩ := Outcome.bind_eq_ok.1 hs
    obtain ⟨-, rfl⟩ := Detector.initializeBinned_ok h1
    dsimp only at hs
    split_ifs at hs
    cases hs
    have he := h.noEnergy (by decide)
    have hp := h.noS2 (by decide)
    exact ⟨fun hu => absurd (he.symm.trans hu) (by decide), fun _ => he, fun hu => absurd (hp.symm.trans hu) (by decide), fun _ => hp,
      h.fractions⟩
  case usePEThreshold =>
    unfold IonizationDetector.usePEThreshold at hs
    split_ifs at hs
    cases hs; exact ⟨h.energy, h.noEnergy, h.s2, h.noS2, h.fractions⟩
  case usePEBins mu sigma ranges =>
    rcases hk with hk | hk <;> simp [ionizationBinsOf] at hk
    subst hk
    obtain ⟨d1, h1, hs⟩ := Outcome.bind_eq_ok.1 hs
    obtain ⟨-, rfl⟩ := Detector.initializeBinned_ok h1
    cases hs
    have he := h.noEnergy (by decide)
    obtain ⟨ho1, ho2⟩ := ho
    have hlen : 0 < ranges.length := List.length_pos_iff.2 ho1
    refine ⟨fun hu => absurd (he.symm.trans hu) (by decide), fun _ => he, fun _ => ?_, fun hne => absurd rfl hne, h.fractions⟩
    show ranges.length = toUInt32 ((ranges.length : ℤ) - 1) + 1
    unfold toUInt32
    omega
  case importTrigger =>
    obtain ⟨x1, h1, hs⟩ := Outcome.bind_eq_ok.1 hs
    unfold IonizationDetector.importTrigger at h1
    split_ifs at h1
    cases h1; cases hs; exact ⟨h.energy, h.noEnergy, h.s2, h.noS2, h.fractions⟩
  case importAcceptance =>
    obtain ⟨x1, h1, hs⟩ := Outcome.bind_eq_ok.1 hs
    unfold IonizationDetector.importAcceptance at h1
    split_ifs at h1
    cases h1; cases hs; exact ⟨h.energy, h.noEnergy, h.s2, h.noS2, h.fractions⟩

theorem makeAtoms_length {U : Units} {P : Interpolator2D} {tables : ResponseTables} {file : Option (List NuclearRow)} {names : List String}
    {cache c' : List Nucleus} {as : List Atom} (h : IonizationDetector.makeAtoms U P tables file names cache = .ok (c', as)) :
    as.length = names.length := by
  induction names generalizing cache c' as with
  | nil => cases h; rfl
  | cons name names ih =>
    obtain ⟨⟨c1, a⟩, -, h⟩ := Outcome.bind_eq_ok.1 h
    obtain ⟨⟨c2, as'⟩, h2, h⟩ := Outcome.bind_eq_ok.1 h
    cases h
    simp [ih h2]

theorem built_tidyIonization {U : Units} {k : BinKind} {s : Detector × IonizationDetector} (h : BuiltIonization U s) : TidyIonization k s := by
  rcases h with ⟨P, tables, file, cache, label, expo, target, atom, cache', h⟩ | ⟨P, tables, file, cache, label, expo, target, atoms, given, cache', h⟩
  · obtain ⟨⟨c1, a⟩, -, h⟩ := Outcome.bind_eq_ok.1 h
    cases h
    exact ⟨fun h => (by cases h), fun _ => rfl, fun h => (by cases h), fun _ => rfl, rfl⟩
  · obtain ⟨⟨c1, as⟩, h1, h⟩ := Outcome.bind_eq_ok.1 h
    obtain ⟨fr, h2, h⟩ := Outcome.bind_eq_ok.1 h
    cases h
    refine ⟨fun h => (by cases h), fun _ => rfl, fun h => (by cases h), fun _ => rfl, ?_⟩
    show fr.length = as.length
    unfold IonizationDetector.massFractions at h2
    dsimp only at h2
    split_ifs at h2 <;> cases h2
    · simp
    · simp; omega
    · omega

theorem printS2Bin_eq {x : IonizationDetector} {i : ℕ} (h : i + 1 < x.s2Bins.length) :
    x.printS2Bin i = .ok [.text "\t\t", .nat (i + 1), .text "\t[", .nat x.s2Bins[i], .text ",", .nat x.s2Bins[i + 1], .text ")", .text "\n"] := by
  simp only [IonizationDetector.printS2Bin, vecGet_lt h, vecGet_lt (Nat.lt_of_succ_lt h), Outcome.bind_ok]

theorem printAnalysis_ok {d : Detector} {x : IonizationDetector} (h : x.usingS2Bins = true → x.s2Bins.length = d.bins + 1) :
    ∃ out, x.printAnalysis d = .ok out := by
  unfold IonizationDetector.printAnalysis
  split_ifs with h1 h2
  · obtain ⟨rows, hr⟩ := collect_exists (f := x.printS2Bin) (l := List.range d.bins) fun i hi => by
      rw [List.mem_range] at hi
      exact ⟨_, printS2Bin_eq (by rw [h h2]; omega)⟩
    rw [hr]; exact ⟨_, rfl⟩
  · exact ⟨_, rfl⟩
  · exact ⟨_, rfl⟩
  · exact ⟨_, rfl⟩

theorem printIonization_ok {k : BinKind} {s : Detector × IonizationDetector} {rank : ℤ} (h : TidyIonization k s) (he : OneEntryPerBin s.1) :
    ∃ out, s.2.printSummary S s.1 rank = .ok out := by
  obtain ⟨base, hb⟩ := printBase_ok (S := S) (rank := 0) he h.energy
  obtain ⟨an, ha⟩ := printAnalysis_ok h.s2
  unfold IonizationDetector.printSummary
  rw [hb, Outcome.bind_ok, collect_ok (g := fun i => [.text "\t\t\t", .text ((s.2.atoms[i]?.map fun a => a.nucleus.name).getD ""), .text "\t(",
    .rounded (100 * s.2.fractions.getD i 0), .text "%)", .text "\n"]), Outcome.bind_ok, ha]
  · exact ⟨_, rfl⟩
  · intro i hi
    rw [List.mem_range] at hi
    have hi' : i < s.2.fractions.length := by rw [h.fractions]; exact hi
    rw [vecGet_lt hi, Outcome.bind_ok, vecGet_lt hi', Outcome.bind_ok]
    simp [hi, hi']

/-! ## Crystal detectors -/

/-- Where a history with bins of kind `k` (or none) stays. -/
structure TidyCrystal (k : BinKind) (s : Detector × CrystalDetector) : Prop where
  energy : EnergyRanges s.1
  noEnergy : k ≠ .energy → s.1.usingEnergyBins = false

theorem TidyCrystal.step {k : BinKind} {s s' : Detector × CrystalDetector} {op : CrystalDetector.Op} (h : TidyCrystal k s)
    (hk : crystalBinsOf op = none ∨ crystalBinsOf op = some k) (ho : SensibleCrystalCall op)
    (hs : CrystalDetector.step s op = .ok s') : TidyCrystal k s' := by
  obtain ⟨d, x⟩ := s
  cases op <;> simp only [CrystalDetector.step] at hs
  case base op =>
    obtain ⟨d1, h1, hs⟩ := Outcome.bind_eq_ok.1 hs
    cases hs
    refine ⟨step_energyRanges ho h.energy h1, fun hne => ?_⟩
    rcases hk with hk | hk
    · show d1.usingEnergyBins = false
      rw [step_noEnergyBins hk h1]; exact h.noEnergy hne
    · cases op <;> simp [crystalBinsOf, binsOf] at hk
      exact absurd hk.symm hne
  case useQThreshold => cases hs; exact ⟨h.energy, h.noEnergy⟩
  case useQBins =>
    rcases hk with hk | hk <;> simp [crystalBinsOf] at hk
    subst hk
    have he := h.noEnergy (by decide)
    unfold CrystalDetector.useQBins at hs
    dsimp only at hs
    generalize (usub32 _ _ + 1) % 2 ^ 32 = n at hs
    obtain ⟨d1, h1, hs⟩ := Outcome.bind_eq_ok.1 hs
    obtain ⟨-, rfl⟩ := Detector.initializeBinned_ok h1
    cases hs
    exact ⟨fun hu => absurd (he.symm.trans hu) (by decide), fun _ => he⟩

/-- `Use_Q_Threshold` has been called. -/
def HasThreshold (x : CrystalDetector) : Prop := x.usingQThreshold = some true ∧ ∃ Q, x.qThreshold = some Q

theorem threshold_step {s s' : Detector × CrystalDetector} {op : CrystalDetector.Op} (hs : CrystalDetector.step s op = .ok s') :
    (HasThreshold s.2 → HasThreshold s'.2) ∧ ((∃ Q, op = .useQThreshold Q) → HasThreshold s'.2) ∧
    ((∀ Q, op ≠ .useQThreshold Q) → s'.2.usingQThreshold = s.2.usingQThreshold) := by
  cases op <;> simp only [CrystalDetector.step] at hs
  case base op =>
    obtain ⟨d1, h1, hs⟩ := Outcome.bind_eq_ok.1 hs
    cases hs
    exact ⟨id, (by rintro ⟨Q, h⟩; cases h), fun _ => rfl⟩
  case useQThreshold Q =>
    cases hs
    exact ⟨fun _ => ⟨rfl, Q, rfl⟩, fun _ => ⟨rfl, Q, rfl⟩, fun h => absurd rfl (h Q)⟩
  case useQBins Q N =>
    unfold CrystalDetector.useQBins at hs
    dsimp only at hs
    generalize (usub32 _ _ + 1) % 2 ^ 32 = n at hs
    obtain ⟨d1, h1, hs⟩ := Outcome.bind_eq_ok.1 hs
    cases hs
    exact ⟨fun h => ⟨h.1, Q, rfl⟩, (by rintro ⟨Q, h⟩; cases h), fun _ => rfl⟩

theorem printThreshold_ok {x : CrystalDetector} (h : HasThreshold x) : ∃ Q, x.qThreshold = some Q ∧
    x.printThreshold = .ok [.text "\teh pair threshold:\t", .nat Q, .text "\n", .text ruler, .text "\n", .text "\n"] := by
  obtain ⟨h1, Q, h2⟩ := h
  refine ⟨Q, h2, ?_⟩
  unfold CrystalDetector.printThreshold
  rw [h1, h2]; rfl

theorem printCrystal_ok {k : BinKind} {s : Detector × CrystalDetector} {rank : ℤ} (h : TidyCrystal k s) (he : OneEntryPerBin s.1)
    (ht : HasThreshold s.2) : ∃ out, s.2.printSummary S s.1 rank = .ok out := by
  obtain ⟨base, hb⟩ := printBase_ok (S := S) (rank := 0) he h.energy
  obtain ⟨Q, -, hq⟩ := printThreshold_ok ht
  unfold CrystalDetector.printSummary
  rw [hb, Outcome.bind_ok, hq]
  exact ⟨_, rfl⟩

theorem printCrystal_ub {d : Detector} {x : CrystalDetector} {rank : ℤ} (h : x.usingQThreshold = none) : x.printSummary S d rank = .ub := by
  unfold CrystalDetector.printSummary
  rcases printBase_cases (S := S) d 0 with ⟨b, hb⟩ | hb
  · rw [hb, Outcome.bind_ok]
    unfold CrystalDetector.printThreshold
    rw [h]; rfl
  · rw [hb]; rfl

/-! ## Nuclear recoil detectors -/

theorem massFractions_length {nuclei : List Nucleus} {abund fr : List ℝ} (hl : abund = [] ∨ abund.length = nuclei.length)
    (h : NuclearDetector.massFractions nuclei abund = .ok fr) : fr.length = nuclei.length := by
  unfold NuclearDetector.massFractions at h
  by_cases h1 : abund = [] ∨ 1 < abund.foldl (· + ·) 0
  · rw [if_pos h1] at h
    obtain ⟨ms, h2, h⟩ := Outcome.bind_eq_ok.1 h
    rw [(collect_eq_ok h).1, (collect_eq_ok h2).1, List.length_range]
  · rw [if_neg h1] at h
    cases h
    push Not at h1
    exact hl.resolve_left h1.1

theorem printNuclear_ok {d : Detector} {x : NuclearDetector} {rank : ℤ} (he : OneEntryPerBin d) (h : EnergyRanges d)
    (hl : x.fractions.length = x.nuclei.length) : ∃ out, x.printSummary S d rank = .ok out := by
  unfold NuclearDetector.printSummary
  split_ifs
  · obtain ⟨base, hb⟩ := printBase_ok (S := S) (rank := rank) he h
    rw [hb, Outcome.bind_ok, collect_ok (g := fun i => [.text "\t\t", .text ((x.nuclei[i]?.map fun n => n.name).getD ""), .text "\t",
      .rounded (100 * x.fractions.getD i 0), .text "%", .text "\n"])]
    · exact ⟨_, rfl⟩
    · intro i hi
      rw [List.mem_range] at hi
      have hi' : i < x.fractions.length := by rw [hl]; exact hi
      rw [vecGet_lt hi, Outcome.bind_ok, vecGet_lt hi', Outcome.bind_ok]
      simp [hi, hi']
  · exact ⟨_, rfl⟩

theorem TidyCrystal.base {k : BinKind} {s : Detector × CrystalDetector} {op : Detector.Op} {e : Detector}
    (h : TidyCrystal k s) (hk : crystalBinsOf (.base op) = none ∨ crystalBinsOf (.base op) = some k) (ho : SensibleCall op)
    (hs : s.1.step op = .ok e) : TidyCrystal k (e, s.2) :=
  h.step (op := .base op) hk ho (by show (do let e ← s.1.step op; .ok (e, s.2)) = _; rw [hs]; rfl)

/-! ## The detectors of a configuration -/

theorem getNuclei_length {Zs : List ℕ} {cache c' ns : List Nucleus} (h : S.getNuclei Zs cache = .ok (c', ns)) : ns.length = Zs.length := by
  induction Zs generalizing cache c' ns with
  | nil => cases h; rfl
  | cons Z Zs ih =>
    obtain ⟨⟨c1, n⟩, -, h⟩ := Outcome.bind_eq_ok.1 h
    obtain ⟨⟨c2, ns'⟩, h2, h⟩ := Outcome.bind_eq_ok.1 h
    cases h
    simp [ih h2]

/-- A nuclear recoil detector that can be printed. -/
structure TidyNuclear (d : Detector) (x : NuclearDetector) : Prop where
  energy : EnergyRanges d
  fractions : x.fractions.length = x.nuclei.length

theorem TidyNuclear.step {d d' : Detector} {x : NuclearDetector} {op : Detector.Op} (h : TidyNuclear d x) (ho : SensibleCall op)
    (hs : d.step op = .ok d') : TidyNuclear d' x := ⟨step_energyRanges ho h.energy hs, h.fractions⟩

theorem TidyNuclear.made {label : String} {expo : ℝ} {nuclei : List Nucleus} {abund : List ℝ} {d : Detector} {x : NuclearDetector}
    (hl : abund = [] ∨ abund.length = nuclei.length) (h : NuclearDetector.make label expo nuclei abund = .ok (d, x)) : TidyNuclear d x := by
  obtain ⟨fr, h1, h⟩ := Outcome.bind_eq_ok.1 h
  cases h
  exact ⟨fun h => (by cases h), massFractions_length hl h1⟩

theorem importEfficiencies_targets (x : NuclearDetector) (l : List (ℝ → ℝ)) :
    (x.importEfficiencies l).nuclei = x.nuclei ∧ (x.importEfficiencies l).fractions = x.fractions := by
  have key : ∀ (l : List (ℝ → ℝ)) (y : NuclearDetector),
      (l.foldl NuclearDetector.importEfficiency y).nuclei = y.nuclei ∧ (l.foldl NuclearDetector.importEfficiency y).fractions = y.fractions := by
    intro l
    induction l with
    | nil => exact fun _ => ⟨rfl, rfl⟩
    | cons e l ih => exact fun y => ih _
  exact key l _

theorem TidyNuclear.efficiencies {d : Detector} {x : NuclearDetector} (h : TidyNuclear d x) (l : List (ℝ → ℝ)) (r : ℝ) :
    TidyNuclear d ((x.setResolution r).importEfficiencies l) := by
  refine ⟨h.energy, ?_⟩
  rw [(importEfficiencies_targets _ l).1, (importEfficiencies_targets _ l).2]
  exact h.fractions

/-- The object can be printed, or it is a crystal detector whose summary is undefined. -/
def Tidy : AnyDetector → Prop
  | .nuclear d x => TidyNuclear d x
  | .electronRecoil d x => ∃ k, TidyIonization k (d, x)
  | .migdal d x => ∃ k, TidyIonization k (d, x)
  | .crystal d x => (∃ k, TidyCrystal k (d, x)) ∧ HasThreshold x

theorem tidy_ok {D : AnyDetector} {rank : ℤ} (h : Tidy D) (he : OneEntryPerBin D.base) : ∃ out, D.printSummary S rank = .ok out := by
  cases D with
  | nuclear d x => exact printNuclear_ok he h.energy h.fractions
  | electronRecoil d x => obtain ⟨k, h⟩ := h; exact printIonization_ok (rank := rank) h he
  | migdal d x => obtain ⟨k, h⟩ := h; exact printIonization_ok (rank := rank) h he
  | crystal d x => obtain ⟨⟨k, h⟩, ht⟩ := h; exact printCrystal_ok (rank := rank) h he ht

theorem damicN2011_tidy {cache c' : List Nucleus} {d : Detector} {x : NuclearDetector} (h : S.damicN2011 cache = .ok (c', d, x)) :
    TidyNuclear d x := by
  obtain ⟨⟨c1, ns⟩, -, h⟩ := Outcome.bind_eq_ok.1 h
  obtain ⟨⟨d1, x1⟩, h1, h⟩ := Outcome.bind_eq_ok.1 h
  have r := TidyNuclear.made (.inl rfl) h1
  obtain ⟨_, h1, h⟩ := Outcome.bind_eq_ok.1 h
  replace r := r.step (op := .useEnergyThreshold _ _) trivial h1
  obtain ⟨_, h1, h⟩ := Outcome.bind_eq_ok.1 h
  replace r := r.step (op := .setObserved _) trivial h1
  cases h
  exact r

theorem xenon1TN2017_tidy {cache c' : List Nucleus} {d : Detector} {x : NuclearDetector} (h : S.xenon1TN2017 cache = .ok (c', d, x)) :
    TidyNuclear d x := by
  obtain ⟨⟨c1, ns⟩, -, h⟩ := Outcome.bind_eq_ok.1 h
  obtain ⟨⟨d1, x1⟩, h1, h⟩ := Outcome.bind_eq_ok.1 h
  have r := TidyNuclear.made (.inl rfl) h1
  obtain ⟨_, h1, h⟩ := Outcome.bind_eq_ok.1 h
  replace r := (r.step (op := .setFlatEfficiency _) trivial rfl).step (op := .useEnergyThreshold _ _) trivial h1
  obtain ⟨_, h1, h⟩ := Outcome.bind_eq_ok.1 h
  replace r := r.step (op := .setObserved _) trivial h1
  cases h
  exact r

theorem cresstII_tidy {cache c' : List Nucleus} {d : Detector} {x : NuclearDetector} (h : S.cresstII cache = .ok (c', d, x)) :
    TidyNuclear d x := by
  obtain ⟨⟨c1, ns⟩, h0, h⟩ := Outcome.bind_eq_ok.1 h
  obtain ⟨⟨d1, x1⟩, h1, h⟩ := Outcome.bind_eq_ok.1 h
  have r := TidyNuclear.made (.inr (by rw [getNuclei_length h0]; rfl)) h1
  obtain ⟨_, -, h⟩ := Outcome.bind_eq_ok.1 h
  obtain ⟨_, h1, h⟩ := Outcome.bind_eq_ok.1 h
  replace r := r.step (op := .useMaximumGap _) trivial h1
  obtain ⟨_, -, h⟩ := Outcome.bind_eq_ok.1 h
  cases h
  exact r.efficiencies _ _

theorem cresstIII_tidy {cache c' : List Nucleus} {d : Detector} {x : NuclearDetector} (h : S.cresstIII cache = .ok (c', d, x)) :
    TidyNuclear d x := by
  obtain ⟨⟨c1, ns⟩, h0, h⟩ := Outcome.bind_eq_ok.1 h
  obtain ⟨⟨d1, x1⟩, h1, h⟩ := Outcome.bind_eq_ok.1 h
  have r := TidyNuclear.made (.inr (by rw [getNuclei_length h0]; rfl)) h1
  obtain ⟨_, -, h⟩ := Outcome.bind_eq_ok.1 h
  obtain ⟨_, h1, h⟩ := Outcome.bind_eq_ok.1 h
  replace r := (r.step (op := .setFlatEfficiency _) trivial rfl).step (op := .useMaximumGap _) trivial h1
  obtain ⟨_, -, h⟩ := Outcome.bind_eq_ok.1 h
  cases h
  exact r.efficiencies _ _

theorem cresstSurface_tidy {cache c' : List Nucleus} {d : Detector} {x : NuclearDetector} (h : S.cresstSurface cache = .ok (c', d, x)) :
    TidyNuclear d x := by
  obtain ⟨⟨c1, ns⟩, h0, h⟩ := Outcome.bind_eq_ok.1 h
  obtain ⟨⟨d1, x1⟩, h1, h⟩ := Outcome.bind_eq_ok.1 h
  have r := TidyNuclear.made (.inr (by rw [getNuclei_length h0]; rfl)) h1
  obtain ⟨_, -, h⟩ := Outcome.bind_eq_ok.1 h
  obtain ⟨_, h1, h⟩ := Outcome.bind_eq_ok.1 h
  replace r := r.step (op := .useMaximumGap _) trivial h1
  cases h
  exact ⟨r.energy, r.fractions⟩

theorem TidyIonization.made {k : BinKind} {cache c' : List Nucleus} {label target atom : String} {expo : ℝ} {d : Detector}
    {x : IonizationDetector} (h : S.makeIonization cache label expo target atom = .ok (c', d, x)) : TidyIonization k (d, x) :=
  built_tidyIonization (U := S.U) (.inl ⟨_, _, _, _, _, _, _, _, _, h⟩)

theorem TidyIonization.flat {k : BinKind} {d : Detector} {x : IonizationDetector} (h : TidyIonization k (d, x)) (e : ℝ) :
    TidyIonization k (d.setFlatEfficiency e, x) :=
  h.base (op := .setFlatEfficiency e) (.inl rfl) trivial rfl

theorem xenon10S2_tidy {target : String} {cache c' : List Nucleus} {d : Detector} {x : IonizationDetector}
    (h : S.xenon10S2 target cache = .ok (c', d, x)) : ∃ k, TidyIonization k (d, x) := by
  obtain ⟨⟨c1, d1, x1⟩, h1, h⟩ := Outcome.bind_eq_ok.1 h
  have r := TidyIonization.made (k := .photoelectrons) h1
  obtain ⟨⟨_, _⟩, h1, h⟩ := Outcome.bind_eq_ok.1 h
  replace r := (r.flat _).step (op := .usePEBins _ _ _) (.inr rfl) ⟨by simp, by simp⟩ h1
  obtain ⟨_, h1, h⟩ := Outcome.bind_eq_ok.1 h
  replace r := r.base (op := .setObservedBins _) (.inl rfl) trivial h1
  obtain ⟨_, -, h⟩ := Outcome.bind_eq_ok.1 h
  obtain ⟨_, h1, h⟩ := Outcome.bind_eq_ok.1 h
  replace r := r.step (op := .importTrigger _) (.inl rfl) trivial (by simp only [IonizationDetector.step]; rw [h1]; rfl)
  cases h
  exact ⟨_, r⟩

theorem xenon100S2_tidy {target : String} {cache c' : List Nucleus} {d : Detector} {x : IonizationDetector}
    (h : S.xenon100S2 target cache = .ok (c', d, x)) : ∃ k, TidyIonization k (d, x) := by
  obtain ⟨⟨c1, d1, x1⟩, h1, h⟩ := Outcome.bind_eq_ok.1 h
  have r := TidyIonization.made (k := .photoelectrons) h1
  obtain ⟨⟨_, _⟩, h1, h⟩ := Outcome.bind_eq_ok.1 h
  replace r := r.step (op := .usePEBins _ _ _) (.inr rfl) ⟨by simp, by simp⟩ h1
  obtain ⟨_, h1, h⟩ := Outcome.bind_eq_ok.1 h
  replace r := r.base (op := .setObservedBins _) (.inl rfl) trivial h1
  obtain ⟨_, -, h⟩ := Outcome.bind_eq_ok.1 h
  obtain ⟨_, h1, h⟩ := Outcome.bind_eq_ok.1 h
  replace r := r.step (op := .importTrigger _) (.inl rfl) trivial (by simp only [IonizationDetector.step]; rw [h1]; rfl)
  obtain ⟨_, -, h⟩ := Outcome.bind_eq_ok.1 h
  obtain ⟨_, h1, h⟩ := Outcome.bind_eq_ok.1 h
  replace r := r.step (op := .importAcceptance _) (.inl rfl) trivial (by simp only [IonizationDetector.step]; rw [h1]; rfl)
  cases h
  exact ⟨_, r⟩

theorem xenon1TS2_tidy {target : String} {cache c' : List Nucleus} {d : Detector} {x : IonizationDetector}
    (h : S.xenon1TS2 target cache = .ok (c', d, x)) : ∃ k, TidyIonization k (d, x) := by
  obtain ⟨⟨c1, d1, x1⟩, h1, h⟩ := Outcome.bind_eq_ok.1 h
  have r := TidyIonization.made (k := .electrons) h1
  obtain ⟨⟨_, _⟩, h1, h⟩ := Outcome.bind_eq_ok.1 h
  replace r := r.step (op := .useElectronBins _ _) (.inr rfl) trivial h1
  obtain ⟨_, h1, h⟩ := Outcome.bind_eq_ok.1 h
  replace r := r.base (op := .setObservedBins _) (.inl rfl) trivial h1
  obtain ⟨_, h1, h⟩ := Outcome.bind_eq_ok.1 h
  replace r := r.base (op := .setBinEfficiencies _) (.inl rfl) trivial h1
  cases h
  exact ⟨_, r⟩

theorem darkSide50S2_tidy {target : String} {cache c' : List Nucleus} {d : Detector} {x : IonizationDetector}
    (h : S.darkSide50S2 target cache = .ok (c', d, x)) : ∃ k, TidyIonization k (d, x) := by
  obtain ⟨⟨c1, d1, x1⟩, h1, h⟩ := Outcome.bind_eq_ok.1 h
  have r := TidyIonization.made (k := .electrons) h1
  obtain ⟨⟨_, _⟩, h1, h⟩ := Outcome.bind_eq_ok.1 h
  replace r := r.step (op := .useElectronBins _ _) (.inr rfl) trivial h1
  obtain ⟨_, h1, h⟩ := Outcome.bind_eq_ok.1 h
  replace r := r.base (op := .setObservedBins _) (.inl rfl) trivial h1
  cases h
  exact ⟨_, r⟩

theorem darkSide50S22023_tidy {target : String} {cache c' : List Nucleus} {d : Detector} {x : IonizationDetector}
    (h : S.darkSide50S22023 target cache = .ok (c', d, x)) : ∃ k, TidyIonization k (d, x) := by
  obtain ⟨⟨c1, d1, x1⟩, h1, h⟩ := Outcome.bind_eq_ok.1 h
  have r := TidyIonization.made (k := .electrons) h1
  obtain ⟨⟨_, _⟩, h1, h⟩ := Outcome.bind_eq_ok.1 h
  replace r := r.step (op := .useElectronBins _ _) (.inr rfl) trivial h1
  obtain ⟨_, h1, h⟩ := Outcome.bind_eq_ok.1 h
  replace r := r.base (op := .setObservedBins _) (.inl rfl) trivial h1
  obtain ⟨_, h1, h⟩ := Outcome.bind_eq_ok.1 h
  replace r := r.base (op := .setBackgroundBins _) (.inl rfl) trivial h1
  cases h
  exact ⟨_, r⟩

theorem pandaX4TS2_tidy {target : String} {cache c' : List Nucleus} {d : Detector} {x : IonizationDetector}
    (h : S.pandaX4TS2 target cache = .ok (c', d, x)) : ∃ k, TidyIonization k (d, x) := by
  obtain ⟨⟨c1, d1, x1⟩, h1, h⟩ := Outcome.bind_eq_ok.1 h
  have r := TidyIonization.made (k := .electrons) h1
  obtain ⟨⟨_, _⟩, h1, h⟩ := Outcome.bind_eq_ok.1 h
  replace r := r.step (op := .useElectronBins _ _) (.inr rfl) trivial h1
  obtain ⟨_, h1, h⟩ := Outcome.bind_eq_ok.1 h
  replace r := (r.flat _).base (op := .setObservedBins _) (.inl rfl) trivial h1
  cases h
  exact ⟨_, r⟩

theorem lzS2_tidy {target : String} {cache c' : List Nucleus} {d : Detector} {x : IonizationDetector}
    (h : S.lzS2 target cache = .ok (c', d, x)) : ∃ k, TidyIonization k (d, x) := by
  obtain ⟨_, -, h⟩ := Outcome.bind_eq_ok.1 h
  cases h

theorem crystal_made {label target : String} {expo : ℝ} {d : Detector} {x : CrystalDetector}
    (h : S.makeCrystal label expo target = .ok (d, x)) : x.usingQThreshold = none ∧ EnergyRanges d ∧ d.usingEnergyBins = false := by
  unfold Setup.makeCrystal at h
  split at h
  · cases h
  · obtain ⟨c, -, h⟩ := Outcome.bind_eq_ok.1 h
    cases h
    exact ⟨rfl, fun h => (by cases h), rfl⟩

theorem useQBins_unset {d d' : Detector} {x x' : CrystalDetector} {Q N : ℕ} (h0 : x.usingQThreshold = none)
    (h : CrystalDetector.useQBins d x Q N = .ok (d', x')) : x'.usingQThreshold = none :=
  ((threshold_step (s := (d, x)) (op := .useQBins Q N) h).2.2 fun _ h => by cases h).trans h0

theorem protoSENSEISurface_unset {d : Detector} {x : CrystalDetector} (h : S.protoSENSEISurface = .ok (d, x)) : x.usingQThreshold = none := by
  obtain ⟨⟨d1, x1⟩, h1, h⟩ := Outcome.bind_eq_ok.1 h
  obtain ⟨⟨_, _⟩, h2, h⟩ := Outcome.bind_eq_ok.1 h
  obtain ⟨_, -, h⟩ := Outcome.bind_eq_ok.1 h
  obtain ⟨_, -, h⟩ := Outcome.bind_eq_ok.1 h
  cases h
  exact useQBins_unset (crystal_made h1).1 h2

theorem protoSENSEIMINOS_unset {d : Detector} {x : CrystalDetector} (h : S.protoSENSEIMINOS = .ok (d, x)) : x.usingQThreshold = none := by
  obtain ⟨⟨d1, x1⟩, h1, h⟩ := Outcome.bind_eq_ok.1 h
  obtain ⟨⟨_, _⟩, h2, h⟩ := Outcome.bind_eq_ok.1 h
  obtain ⟨_, -, h⟩ := Outcome.bind_eq_ok.1 h
  obtain ⟨_, -, h⟩ := Outcome.bind_eq_ok.1 h
  cases h
  exact useQBins_unset (crystal_made h1).1 h2

theorem senseiMINOS_unset {d : Detector} {x : CrystalDetector} (h : S.senseiMINOS = .ok (d, x)) : x.usingQThreshold = none := by
  obtain ⟨⟨d1, x1⟩, h1, h⟩ := Outcome.bind_eq_ok.1 h
  obtain ⟨⟨_, _⟩, h2, h⟩ := Outcome.bind_eq_ok.1 h
  obtain ⟨_, -, h⟩ := Outcome.bind_eq_ok.1 h
  obtain ⟨_, -, h⟩ := Outcome.bind_eq_ok.1 h
  cases h
  exact useQBins_unset (crystal_made h1).1 h2

theorem cdmsHVeV2018_unset {d : Detector} {x : CrystalDetector} (h : S.cdmsHVeV2018 = .ok (d, x)) : x.usingQThreshold = none := by
  obtain ⟨⟨d1, x1⟩, h1, h⟩ := Outcome.bind_eq_ok.1 h
  obtain ⟨⟨_, _⟩, h2, h⟩ := Outcome.bind_eq_ok.1 h
  obtain ⟨_, -, h⟩ := Outcome.bind_eq_ok.1 h
  obtain ⟨_, -, h⟩ := Outcome.bind_eq_ok.1 h
  cases h
  exact useQBins_unset (crystal_made h1).1 h2

theorem cdmsHVeV2020_unset {d : Detector} {x : CrystalDetector} (h : S.cdmsHVeV2020 = .ok (d, x)) : x.usingQThreshold = none := by
  obtain ⟨⟨d1, x1⟩, h1, h⟩ := Outcome.bind_eq_ok.1 h
  obtain ⟨⟨_, _⟩, h2, h⟩ := Outcome.bind_eq_ok.1 h
  obtain ⟨_, -, h⟩ := Outcome.bind_eq_ok.1 h
  cases h
  exact useQBins_unset (crystal_made h1).1 h2

theorem damicM2023_unset {d : Detector} {x : CrystalDetector} (h : S.damicM2023 = .ok (d, x)) : x.usingQThreshold = none := by
  obtain ⟨⟨d1, x1⟩, h1, h⟩ := Outcome.bind_eq_ok.1 h
  obtain ⟨⟨_, _⟩, h2, h⟩ := Outcome.bind_eq_ok.1 h
  obtain ⟨_, -, h⟩ := Outcome.bind_eq_ok.1 h
  cases h
  exact useQBins_unset (crystal_made h1).1 h2

theorem targets_length {c : Config} {j n : ℕ} {cache c' : List Nucleus} {abunds : List ℝ} {nuclei : List Nucleus}
    (h : c.targets S j n cache = .ok (c', abunds, nuclei)) : abunds.length = nuclei.length := by
  induction n generalizing j cache c' abunds nuclei with
  | zero => cases h; rfl
  | succ n ih =>
    iterate 6 obtain ⟨_, -, h⟩ := Outcome.bind_eq_ok.1 h
    obtain ⟨⟨_, _⟩, -, h⟩ := Outcome.bind_eq_ok.1 h
    obtain ⟨⟨_, _, _⟩, h1, h⟩ := Outcome.bind_eq_ok.1 h
    cases h
    simp [ih h1]

theorem nuclearDetector_tidy {c : Config} {cache c' : List Nucleus} {D : AnyDetector}
    (h : c.nuclearDetector S cache = .ok (c', D)) : Tidy D := by
  obtain ⟨_, -, h⟩ := Outcome.bind_eq_ok.1 h
  obtain ⟨⟨_, _, _⟩, h0, h⟩ := Outcome.bind_eq_ok.1 h
  iterate 7 obtain ⟨_, -, h⟩ := Outcome.bind_eq_ok.1 h
  obtain ⟨⟨d1, x1⟩, h1, h⟩ := Outcome.bind_eq_ok.1 h
  have r := TidyNuclear.made (.inr (targets_length h0)) h1
  obtain ⟨_, h1, h⟩ := Outcome.bind_eq_ok.1 h
  replace r := (r.step (op := .setFlatEfficiency _) trivial rfl).step (op := .useEnergyThreshold _ _) trivial h1
  obtain ⟨_, h1, h⟩ := Outcome.bind_eq_ok.1 h
  replace r := r.step (op := .setObserved _) trivial h1
  obtain ⟨_, h1, h⟩ := Outcome.bind_eq_ok.1 h
  replace r := r.step (op := .setBackground _) trivial h1
  cases h
  refine ⟨r.energy, ?_⟩
  unfold Config.configuredResolution
  split_ifs
  · exact r.fractions
  · exact r.fractions

theorem ionizationDetector_tidy {c : Config} {kind : String} {cache c' : List Nucleus} {D : AnyDetector}
    (h : c.ionizationDetector S kind cache = .ok (c', D)) : Tidy D := by
  unfold Config.ionizationDetector at h
  iterate 6 obtain ⟨_, -, h⟩ := Outcome.bind_eq_ok.1 h
  obtain ⟨⟨_, d1, x1⟩, h1, h⟩ := Outcome.bind_eq_ok.1 h
  have r := TidyIonization.made (k := .electrons) h1
  obtain ⟨⟨_, _⟩, h1, h⟩ := Outcome.bind_eq_ok.1 h
  replace r := (r.flat _).step (op := .useElectronThreshold _ _) (.inl rfl) trivial h1
  obtain ⟨_, h1, h⟩ := Outcome.bind_eq_ok.1 h
  replace r := r.base (op := .setObserved _) (.inl rfl) trivial h1
  obtain ⟨_, h1, h⟩ := Outcome.bind_eq_ok.1 h
  replace r := r.base (op := .setBackground _) (.inl rfl) trivial h1
  cases h
  split_ifs with hk
  · exact ⟨_, r⟩
  · exact ⟨_, r⟩

theorem crystalDetector_tidy {c : Config} {D : AnyDetector} (h : c.crystalDetector S = .ok D) : Tidy D := by
  unfold Config.crystalDetector at h
  iterate 6 obtain ⟨_, -, h⟩ := Outcome.bind_eq_ok.1 h
  obtain ⟨⟨d1, x1⟩, h1, h⟩ := Outcome.bind_eq_ok.1 h
  have r : TidyCrystal .pairs (d1, x1) := ⟨(crystal_made h1).2.1, fun _ => (crystal_made h1).2.2⟩
  have r' : ∀ e q, TidyCrystal .pairs (CrystalDetector.useQThreshold (d1.setFlatEfficiency e) x1 q) ∧
      HasThreshold (CrystalDetector.useQThreshold (d1.setFlatEfficiency e) x1 q).2 := fun e q =>
    ⟨(r.step (op := .base (.setFlatEfficiency e)) (.inl rfl) trivial rfl).step (op := .useQThreshold q) (.inl rfl) trivial rfl, rfl, q, rfl⟩
  obtain ⟨_, h1, h⟩ := Outcome.bind_eq_ok.1 h
  replace r := (r' _ _).1.base (op := .setObserved _) (.inl rfl) trivial h1
  obtain ⟨_, h1, h⟩ := Outcome.bind_eq_ok.1 h
  replace r := r.base (op := .setBackground _) (.inl rfl) trivial h1
  cases h
  exact ⟨⟨_, r⟩, (r' 0 _).2⟩

theorem asNuclear_tidy {r : Outcome (List Nucleus × Detector × NuclearDetector)} {c' : List Nucleus} {D : AnyDetector}
    (hr : ∀ {c' d x}, r = .ok (c', d, x) → TidyNuclear d x) (h : Config.asNuclear r = .ok (c', D)) : Tidy D := by
  obtain ⟨⟨c1, d, x⟩, h1, h⟩ := Outcome.bind_eq_ok.1 h
  cases h
  exact hr h1

theorem asER_tidy {r : Outcome (List Nucleus × Detector × IonizationDetector)} {c' : List Nucleus} {D : AnyDetector}
    (hr : ∀ {c' d x}, r = .ok (c', d, x) → ∃ k, TidyIonization k (d, x)) (h : Config.asER r = .ok (c', D)) : Tidy D := by
  obtain ⟨⟨c1, d, x⟩, h1, h⟩ := Outcome.bind_eq_ok.1 h
  cases h
  exact hr h1

theorem asMigdal_tidy {r : Outcome (List Nucleus × Detector × IonizationDetector)} {c' : List Nucleus} {D : AnyDetector}
    (hr : ∀ {c' d x}, r = .ok (c', d, x) → ∃ k, TidyIonization k (d, x)) (h : Config.asMigdal r = .ok (c', D)) : Tidy D := by
  obtain ⟨⟨c1, d, x⟩, h1, h⟩ := Outcome.bind_eq_ok.1 h
  cases h
  exact hr h1

theorem asCrystal_ub {r : Outcome (Detector × CrystalDetector)} {cache c' : List Nucleus} {D : AnyDetector} {rank : ℤ}
    (hr : ∀ {d x}, r = .ok (d, x) → x.usingQThreshold = none) (h : Config.asCrystal cache r = .ok (c', D)) :
    D.printSummary S rank = .ub := by
  obtain ⟨⟨d, x⟩, h1, h⟩ := Outcome.bind_eq_ok.1 h
  cases h
  exact printCrystal_ub (rank := rank) (hr h1)

theorem selectDetector_tidy {c : Config} {cache c' : List Nucleus} {name : String} {D : AnyDetector} {rank : ℤ}
    (h : c.selectDetector S cache name = .ok (c', D)) :
    (name ∉ semiconductorExperiments → Tidy D) ∧ (name ∈ semiconductorExperiments → D.printSummary S rank = .ub) := by
  by_cases hn : name ∈ semiconductorExperiments
  · refine ⟨fun h => absurd hn h, fun _ => ?_⟩
    simp only [semiconductorExperiments, List.mem_cons, List.not_mem_nil, or_false] at hn
    rcases hn with rfl | rfl | rfl | rfl | rfl | rfl <;> unfold Config.selectDetector at h <;> simp only [String.reduceEq, if_false, if_true, or_self] at h
    · exact asCrystal_ub protoSENSEISurface_unset h
    · exact asCrystal_ub protoSENSEIMINOS_unset h
    · exact asCrystal_ub senseiMINOS_unset h
    · exact asCrystal_ub cdmsHVeV2018_unset h
    · exact asCrystal_ub cdmsHVeV2020_unset h
    · exact asCrystal_ub damicM2023_unset h
  · refine ⟨fun _ => ?_, fun h => absurd h hn⟩
    simp only [semiconductorExperiments, List.mem_cons, List.not_mem_nil, or_false, not_or] at hn
    unfold Config.selectDetector at h
    revert h
    refine ite_ok (fun h => nuclearDetector_tidy h) ?_
    refine ite_ok (fun h => ionizationDetector_tidy h) ?_
    refine ite_ok (fun h => ?_) ?_
    · obtain ⟨d, h1, h⟩ := Outcome.bind_eq_ok.1 h
      cases h
      exact crystalDetector_tidy h1
    refine ite_ok (fun h => asNuclear_tidy damicN2011_tidy h) ?_
    refine ite_ok (fun h => asNuclear_tidy xenon1TN2017_tidy h) ?_
    refine ite_ok (fun h => asNuclear_tidy cresstII_tidy h) ?_
    refine ite_ok (fun h => asNuclear_tidy cresstSurface_tidy h) ?_
    refine ite_ok (fun h => asNuclear_tidy cresstIII_tidy h) ?_
    refine ite_ok (fun h => asER_tidy xenon10S2_tidy h) ?_
    refine ite_ok (fun h => asER_tidy xenon100S2_tidy h) ?_
    refine ite_ok (fun h => asER_tidy xenon1TS2_tidy h) ?_
    refine ite_ok (fun h => asER_tidy darkSide50S2_tidy h) ?_
    refine ite_ok (fun h => asER_tidy darkSide50S22023_tidy h) ?_
    refine ite_ok (fun h => asER_tidy pandaX4TS2_tidy h) ?_
    refine ite_ok (fun h => asER_tidy lzS2_tidy h) ?_
    refine ite_ok (fun h => asMigdal_tidy xenon10S2_tidy h) ?_
    refine ite_ok (fun h => asMigdal_tidy xenon100S2_tidy h) ?_
    refine ite_ok (fun h => asMigdal_tidy xenon1TS2_tidy h) ?_
    refine ite_ok (fun h => asMigdal_tidy darkSide50S2_tidy h) ?_
    refine ite_ok (fun h => asMigdal_tidy darkSide50S22023_tidy h) ?_
    refine ite_ok (fun h => asMigdal_tidy pandaX4TS2_tidy h) ?_
    refine ite_ok (fun h => asMigdal_tidy lzS2_tidy h) ?_
    rw [if_neg hn.1, if_neg hn.2.1, if_neg hn.2.2.1, if_neg hn.2.2.2.1, if_neg hn.2.2.2.2.1, if_neg hn.2.2.2.2.2]
    exact fun h => nomatch h

theorem Config.eq_of_getString {c : Config} {n s : String} (h : c.getString n = .ok s) : c n = some (.string s) := by
  unfold Config.getString Config.lookup at h
  cases hc : c n with
  | none => rw [hc] at h; cases h
  | some v =>
    rw [hc] at h
    change v.toStr = .ok s at h
    cases v <;> cases h
    rfl

/-- The summary of a configured detector. -/
theorem configured_summary {c : Config} {cache c' : List Nucleus} {D : AnyDetector} {rank : ℤ} (h : c.detector S cache = .ok (c', D))
    (hx : ∀ name, c "DD_experiment" = some (.string name) → name ∉ semiconductorExperiments) : ∃ out, D.printSummary S rank = .ok out := by
  have he := C27_one_entry_per_bin (configured_detector h).1
  obtain ⟨name, hname, h⟩ := Outcome.bind_eq_ok.1 h
  exact tidy_ok ((selectDetector_tidy (rank := rank) h).1 (hx name (Config.eq_of_getString hname))) he

/-- The summary of a configured object. -/
theorem configuration_summary {o : Configuration} {halo : List Printed} (h : ∃ out, o.detector.printSummary S 0 = .ok out) :
    ∃ out, o.printSummary S halo 0 = .ok out := by
  obtain ⟨out, h⟩ := h
  unfold Configuration.printSummary
  rw [if_pos rfl, h]
  exact ⟨_, rfl⟩

end Obscura
