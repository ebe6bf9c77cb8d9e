import Verif.Lemmas.Summary
import Verif.Props.Main
import Verif.Props.Crystal
import Verif.Props.Atom

/-!
# C81 — printing summaries
-/

namespace Obscura

open Spec

variable {S : Setup}

/-! ## Only the first process prints -/

/-- C81 (other processes). In a parallel run only the process with rank 0 prints the summaries of particles, distributions, isotopes,
elements, shells, atoms, nuclear recoil detectors and configurations. -/
theorem C81_other_processes {rank : ℤ} (h : rank ≠ 0) {n : ℕ} (hn : n ≠ 0) (U : Units) (I : Integrator) (N : Numerics) (I3 : Integrator3) :
    (∀ p : DMParticle, p.printSummary U rank = []) ∧
    (∀ (s : SHM) (name : String), s.printSummary U I I3 name rank = .ok []) ∧
    (∀ s : SHMpp, s.printSummary U N I3 rank = .ok []) ∧
    (∀ (d : Distribution) (name path : String), d.printImported U I I3 name path rank = .ok []) ∧
    (∀ iso : Isotope, iso.printSummary n = []) ∧
    (∀ nu : Nucleus, nu.printSummary U n = []) ∧
    (∀ e : AtomicElectron, e.printSummary U n = []) ∧
    (∀ a : Atom, a.printSummary U n = .ok []) ∧
    (∀ d : Detector, d.printBase S rank = .ok []) ∧
    (∀ d x, AnyDetector.printSummary S rank (.nuclear d x) = .ok []) ∧
    ∀ (o : Configuration) (halo : List Printed), o.printSummary S halo rank = .ok [] := by
  refine ⟨fun p => ?_, fun s name => if_neg h, fun s => if_neg h, fun d _ _ => if_neg h, fun _ => if_neg hn, fun _ => if_neg hn,
    fun _ => if_neg hn, fun _ => if_neg hn, fun _ => if_neg h, fun d x => if_neg h, fun o _ => if_neg h⟩
  unfold DMParticle.printSummary
  split
  · exact if_neg h
  · exact if_neg h

/-- C81 (failure: ionization and semiconductor detectors). Their summaries are printed by every process. -/
theorem C81_fails_every_process {D : AnyDetector} (hD : ∀ d x, D ≠ .nuclear d x) (rank : ℤ) :
    D.printSummary S rank = D.printSummary S 0 ∧
    ∀ out, D.printSummary S rank = .ok out → Shows out [.text "Experiment summary:\t", .text D.base.name, .text "\n"] := by
  have key : ∀ (d : Detector) out, d.printBase S 0 = .ok out → Shows out [.text "Experiment summary:\t", .text d.name, .text "\n"] := by
    intro d out h
    unfold Detector.printBase at h
    rw [if_pos rfl] at h
    obtain ⟨b, -, h⟩ := Outcome.bind_eq_ok.1 h
    obtain ⟨e, -, h⟩ := Outcome.bind_eq_ok.1 h
    cases h
    refine Shows.left (Shows.left (Shows.left (Shows.left ?_)))
    exact ⟨[.text "\n", .text ruler, .text "\n"], _, rfl⟩
  cases D with
  | nuclear d x => exact absurd rfl (hD d x)
  | electronRecoil d x =>
    refine ⟨rfl, fun out h => ?_⟩
    obtain ⟨b, hb, h⟩ := Outcome.bind_eq_ok.1 h
    obtain ⟨_, -, h⟩ := Outcome.bind_eq_ok.1 h
    obtain ⟨_, -, h⟩ := Outcome.bind_eq_ok.1 h
    cases h
    exact Shows.left (Shows.left (Shows.left (Shows.left (Shows.left (key d b hb)))))
  | migdal d x =>
    refine ⟨rfl, fun out h => ?_⟩
    obtain ⟨b, hb, h⟩ := Outcome.bind_eq_ok.1 h
    obtain ⟨_, -, h⟩ := Outcome.bind_eq_ok.1 h
    obtain ⟨_, -, h⟩ := Outcome.bind_eq_ok.1 h
    cases h
    exact Shows.left (Shows.left (Shows.left (Shows.left (Shows.left (key d b hb)))))
  | crystal d x =>
    refine ⟨rfl, fun out h => ?_⟩
    obtain ⟨b, hb, h⟩ := Outcome.bind_eq_ok.1 h
    obtain ⟨_, -, h⟩ := Outcome.bind_eq_ok.1 h
    cases h
    exact Shows.left (Shows.left (key d b hb))

/-! ## Nuclear recoil detectors -/

theorem tidyNuclear_run {d d' : Detector} {x : NuclearDetector} {ops : List Detector.Op} (h : TidyNuclear d x)
    (hs : ∀ op ∈ ops, SensibleCall op) (hr : d.run ops = .ok d') : TidyNuclear d' x := by
  induction ops generalizing d with
  | nil => cases hr; exact h
  | cons op ops ih =>
    obtain ⟨d1, h1, hr⟩ := Outcome.bind_eq_ok.1 hr
    exact ih (h.step (hs op List.mem_cons_self) h1) (fun o ho => hs o (List.mem_cons_of_mem _ ho)) hr

/-- C81 (nuclear recoils). After any sensible history of configuration calls the summary can be printed, provided that the constructor
got no abundances or as many abundances as elements; the resolution and the imported efficiencies do not matter. -/
theorem C81_nuclear_partial {label : String} {expo : ℝ} {nuclei : List Nucleus} {abund : List ℝ} {d d' : Detector} {x x' : NuclearDetector}
    {ops : List Detector.Op} (h : NuclearDetector.make label expo nuclei abund = .ok (d, x))
    (hl : abund = [] ∨ abund.length = nuclei.length) (hs : ∀ op ∈ ops, SensibleCall op) (hr : d.run ops = .ok d')
    (hx : x'.nuclei = x.nuclei ∧ x'.fractions = x.fractions) (rank : ℤ) : ∃ out, AnyDetector.printSummary S rank (.nuclear d' x') = .ok out := by
  have ht := tidyNuclear_run (TidyNuclear.made hl h) hs hr
  have hb : BuiltDetector d := by
    obtain ⟨_, -, h⟩ := Outcome.bind_eq_ok.1 h
    cases h
    exact ⟨_, _, _, rfl⟩
  exact printNuclear_ok (C27_one_entry_per_bin (.inl ⟨d, ops, hb, hr⟩)) ht.energy (by rw [hx.1, hx.2]; exact ht.fractions)

/-- C81 (failure: too few abundances). With fewer abundances than elements (and a sum of at most 1) the constructor succeeds, and the
summary reads beyond the list of abundances. -/
theorem C81_fails_few_abundances {label : String} {expo : ℝ} {nuclei : List Nucleus} {abund : List ℝ} (h0 : abund ≠ [])
    (h1 : abund.sum ≤ 1) (hl : abund.length < nuclei.length) : ∃ d x, NuclearDetector.make label expo nuclei abund = .ok (d, x) ∧
      AnyDetector.printSummary S 0 (.nuclear d x) = .ub := by
  have hf : NuclearDetector.massFractions nuclei abund = .ok abund := by
    unfold NuclearDetector.massFractions
    rw [if_neg]
    rw [foldl_add_eq_sum]
    push Not
    exact ⟨h0, by linarith⟩
  refine ⟨_, _, by unfold NuclearDetector.make; rw [hf]; rfl, ?_⟩
  show NuclearDetector.printSummary S _ _ 0 = _
  unfold NuclearDetector.printSummary
  rw [if_pos rfl]
  rcases printBase_cases (S := S) (Detector.make label expo "Nuclei") 0 with ⟨b, hb⟩ | hb
  · rw [hb, Outcome.bind_ok]
    dsimp only
    rw [collect_member_ub (a := abund.length) (by simpa using hl)]
    · rfl
    · intro i hi
      rw [List.mem_range] at hi
      rcases vecGet_cases abund i with ⟨a, ha⟩ | ha
      · rw [vecGet_lt hi, Outcome.bind_ok, ha]; exact .inl ⟨_, rfl⟩
      · rw [vecGet_lt hi, Outcome.bind_ok, ha]; exact .inr rfl
    · rw [vecGet_lt hl, Outcome.bind_ok, vecGet_ge le_rfl]; rfl
  · rw [hb]; rfl

example (n : Nucleus) : ∃ d x, NuclearDetector.make "" 1 [n, n] [0.5] = .ok (d, x) ∧ AnyDetector.printSummary S 0 (.nuclear d x) = .ub :=
  C81_fails_few_abundances (by simp) (by norm_num) (by simp)

/-- Non-vacuity of `C81_nuclear_partial`: two elements, energy bins, efficiencies, data. -/
example (n : Nucleus) : ∃ d x d' out, NuclearDetector.make "" 1 [n, n] [0.25, 0.75] = .ok (d, x) ∧
    d.run [.useEnergyBins 1 2 2, .setBinEfficiencies [1, 0.5], .setObservedBins [3, 4]] = .ok d' ∧
    AnyDetector.printSummary S 0 (.nuclear d' (x.setResolution 1)) = .ok out := by
  have hm : NuclearDetector.make "" 1 [n, n] [0.25, 0.75] =
      .ok (Detector.make "" 1 "Nuclei", { nuclei := [n, n], fractions := [0.25, 0.75], resolution := 0, usingTables := false, efficiencies := [] }) := by
    unfold NuclearDetector.make NuclearDetector.massFractions
    rw [if_neg (by norm_num; simp)]
    rfl
  have hr : ∃ d', (Detector.make "" 1 "Nuclei").run [.useEnergyBins 1 2 2, .setBinEfficiencies [1, 0.5], .setObservedBins [3, 4]] = .ok d' := by
    simp only [Detector.run, Detector.step, Detector.useEnergyBins, Detector.initializeBinned, Detector.make, reduceCtorEq, if_false,
      Outcome.bind_ok]
    rw [if_neg (by norm_num), Outcome.bind_ok]
    simp [Detector.setBinEfficiencies, Detector.setObservedBins, toUInt32, Outcome.bind_ok]
  obtain ⟨d', hr⟩ := hr
  obtain ⟨out, ho⟩ := C81_nuclear_partial (S := S) (x' := NuclearDetector.setResolution
    { nuclei := [n, n], fractions := [0.25, 0.75], resolution := 0, usingTables := false, efficiencies := [] } 1) hm (.inr rfl)
    (by simp [SensibleCall]) hr ⟨rfl, rfl⟩ 0
  exact ⟨_, _, d', out, hm, hr, ho⟩

/-! ## Ionization detectors -/

theorem tidyIonization_run {k : BinKind} {s s' : Detector × IonizationDetector} {ops : List IonizationDetector.Op} (h : TidyIonization k s)
    (hk : ∀ op ∈ ops, ionizationBinsOf op = none ∨ ionizationBinsOf op = some k) (hs : ∀ op ∈ ops, SensibleIonizationCall op)
    (hr : IonizationDetector.run s ops = .ok s') : TidyIonization k s' := by
  induction ops generalizing s with
  | nil => cases hr; exact h
  | cons op ops ih =>
    obtain ⟨s1, h1, hr⟩ := Outcome.bind_eq_ok.1 hr
    exact ih (h.step (hk op List.mem_cons_self) (hs op List.mem_cons_self) h1) (fun o ho => hk o (List.mem_cons_of_mem _ ho))
      (fun o ho => hs o (List.mem_cons_of_mem _ ho)) hr

theorem builtIonization_base {U : Units} {s : Detector × IonizationDetector} (h : BuiltIonization U s) : BuiltDetector s.1 := by
  rcases h with ⟨P, tables, file, cache, label, expo, target, atom, cache', h⟩ | ⟨P, tables, file, cache, label, expo, target, atoms, given, cache', h⟩
  · obtain ⟨_, -, h⟩ := Outcome.bind_eq_ok.1 h
    cases h
    exact ⟨_, _, _, rfl⟩
  · obtain ⟨_, -, h⟩ := Outcome.bind_eq_ok.1 h
    obtain ⟨_, -, h⟩ := Outcome.bind_eq_ok.1 h
    cases h
    exact ⟨_, _, _, rfl⟩

/-- C81 (electron recoils, Migdal effect). After any sensible history of configuration calls the summary can be printed, provided that
all bins in the history are of the same kind. -/
theorem C81_ionization_partial {U : Units} {s : Detector × IonizationDetector} {d : Detector} {x : IonizationDetector}
    {ops : List IonizationDetector.Op} (h : BuiltIonization U s) (hr : IonizationDetector.run s ops = .ok (d, x))
    (hs : ∀ op ∈ ops, SensibleIonizationCall op)
    (hk : ∃ k, ∀ op ∈ ops, ionizationBinsOf op = none ∨ ionizationBinsOf op = some k) (rank : ℤ) :
    ∃ out, AnyDetector.printSummary S rank (.electronRecoil d x) = .ok out ∧ AnyDetector.printSummary S rank (.migdal d x) = .ok out := by
  obtain ⟨k, hk⟩ := hk
  have ht := tidyIonization_run (built_tidyIonization h) hk hs hr
  obtain ⟨d0, x0⟩ := s
  have he : OneEntryPerBin d := C27_one_entry_per_bin (.inr (.inl ⟨d0, x0, x, ops, builtIonization_base h, hr⟩))
  obtain ⟨out, ho⟩ := printIonization_ok (S := S) (rank := rank) ht he
  exact ⟨out, ho, ho⟩

/-- Where energy bins are followed by more bins of another kind, the summary reads beyond the list of bin energies. -/
theorem printBase_mixed {d : Detector} (h1 : d.usingEnergyBins = true) (h2 : d.binEnergies.length ≤ d.bins) (h3 : 0 < d.bins) (rank : ℤ)
    (hr : rank = 0) : d.printBase S rank = .ub := by
  have he : d.printEnergyBins S.U = .ub := by
    unfold Detector.printEnergyBins
    rw [if_pos h1, collect_member_ub (a := d.bins - 1) (by simp; omega)]
    · rfl
    · intro i _
      unfold Detector.printEnergyBin
      rcases vecGet_cases d.binEnergies i with ⟨a, ha⟩ | ha
      · rw [ha, Outcome.bind_ok]
        rcases vecGet_cases d.binEnergies (i + 1) with ⟨b, hb⟩ | hb
        · rw [hb]; exact .inl ⟨_, rfl⟩
        · rw [hb]; exact .inr rfl
      · rw [ha]; exact .inr rfl
    · unfold Detector.printEnergyBin
      rcases vecGet_cases d.binEnergies (d.bins - 1) with ⟨a, ha⟩ | ha
      · rw [ha, Outcome.bind_ok, vecGet_ge (by omega)]; rfl
      · rw [ha]; rfl
  unfold Detector.printBase
  rw [if_pos hr]
  rcases printBins_cases d with ⟨b, hb⟩ | hb
  · rw [hb, Outcome.bind_ok, he]; rfl
  · rw [hb]; rfl

/-- C81 (failure: different bins). If `n` energy bins are followed by a threshold for electrons and by more than `n` bins of electrons,
the summary reads beyond the list of bin energies. -/
theorem C81_fails_energy_then_electrons {d : Detector} {x : IonizationDetector} (hd : d.analysis ≠ .binnedPoisson) {lo hi : ℝ} (hE : lo < hi)
    {n m t : ℕ} (hn0 : 0 < n) (hn : n < 2 ^ 31) (hm : n < m) (htm : t + m < 2 ^ 32) (ht' : t ≤ 100) (rank : ℤ) :
    ∃ s', IonizationDetector.run (d, x) [.base (.useEnergyBins lo hi n), .useElectronThreshold t 0, .useElectronBins t m] = .ok s' ∧
      AnyDetector.printSummary S rank (.electronRecoil s'.1 s'.2) = .ub := by
  have hu : toUInt32 (n : ℤ) = n := by unfold toUInt32; omega
  have hr : ∃ s', IonizationDetector.run (d, x) [.base (.useEnergyBins lo hi n), .useElectronThreshold t 0, .useElectronBins t m] = .ok s' ∧
      s'.1.usingEnergyBins = true ∧ s'.1.binEnergies.length = n + 1 ∧ s'.1.bins = m := by
    simp only [IonizationDetector.run, IonizationDetector.step, Detector.step, Detector.useEnergyBins, Detector.initializeBinned, if_neg hd,
      Outcome.bind_ok, if_neg (not_lt.2 hE.le), IonizationDetector.useElectronThreshold, lt_irrefl, false_and, if_false,
      if_neg (not_lt.2 ht'), IonizationDetector.useElectronBins, Detector.initializePoisson, reduceCtorEq]
    have hmax : usub32 ((t + m) % 2 ^ 32) 1 = t + m - 1 := by
      rw [Nat.mod_eq_of_lt htm]; unfold usub32; rw [if_pos (by omega)]
    rw [hmax, if_neg (by omega)]
    refine ⟨_, rfl, rfl, ?_, rfl⟩
    simp only [hu]
    rw [Nat.mod_eq_of_lt (by omega)]
    simp [linearSpace]
  obtain ⟨s', h1, h2, h3, h4⟩ := hr
  refine ⟨s', h1, ?_⟩
  show IonizationDetector.printSummary S _ _ rank = _
  unfold IonizationDetector.printSummary
  rw [printBase_mixed h2 (by omega) (by omega) 0 rfl]
  rfl

/-- C81 (failure: different bins). The same with `n` bins of photoelectrons followed by more than `n` bins of electrons: the summary
reads beyond the ranges of the photoelectrons. -/
theorem C81_fails_photoelectrons_then_electrons {d : Detector} {x : IonizationDetector} (hd : d.analysis ≠ .binnedPoisson) {mu sigma : ℝ}
    {ranges : List ℕ} {m t : ℕ} (hn0 : ranges ≠ []) (hm : ranges.length ≤ m) (htm : t + m < 2 ^ 32) (ht' : t ≤ 100) (rank : ℤ) :
    ∃ s', IonizationDetector.run (d, x) [.usePEBins mu sigma ranges, .useElectronThreshold t 0, .useElectronBins t m] = .ok s' ∧
      AnyDetector.printSummary S rank (.electronRecoil s'.1 s'.2) = .ub := by
  have hlen := List.length_pos_iff.2 hn0
  have hr : ∃ s', IonizationDetector.run (d, x) [.usePEBins mu sigma ranges, .useElectronThreshold t 0, .useElectronBins t m] = .ok s' ∧
      s'.2.usingS2Bins = true ∧ s'.2.s2Bins = ranges ∧ s'.1.bins = m := by
    simp only [IonizationDetector.run, IonizationDetector.step, IonizationDetector.usePEBins, Detector.initializeBinned, if_neg hd,
      Outcome.bind_ok, IonizationDetector.useElectronThreshold, lt_irrefl, false_and, if_false,
      if_neg (not_lt.2 ht'), IonizationDetector.useElectronBins, Detector.initializePoisson, reduceCtorEq]
    have hmax : usub32 ((t + m) % 2 ^ 32) 1 = t + m - 1 := by
      rw [Nat.mod_eq_of_lt htm]; unfold usub32; rw [if_pos (by omega)]
    rw [hmax, if_neg (by omega)]
    exact ⟨_, rfl, rfl, rfl, rfl⟩
  obtain ⟨⟨d', x'⟩, h1, h2, h3, h4⟩ := hr
  refine ⟨_, h1, ?_⟩
  dsimp only at h2 h3 h4 ⊢
  have ha : x'.printAnalysis d' = .ub := by
    unfold IonizationDetector.printAnalysis
    rw [h2, Bool.true_or, if_pos rfl, if_pos rfl, collect_member_ub (a := m - 1) (by simp; omega)]
    · rfl
    · intro i _
      unfold IonizationDetector.printS2Bin
      rcases vecGet_cases x'.s2Bins i with ⟨a, ha⟩ | ha
      · rw [ha, Outcome.bind_ok]
        rcases vecGet_cases x'.s2Bins (i + 1) with ⟨b, hb⟩ | hb
        · rw [hb]; exact .inl ⟨_, rfl⟩
        · rw [hb]; exact .inr rfl
      · rw [ha]; exact .inr rfl
    · unfold IonizationDetector.printS2Bin
      rcases vecGet_cases x'.s2Bins (m - 1) with ⟨a, ha⟩ | ha
      · rw [ha, Outcome.bind_ok, vecGet_ge (by rw [h3]; omega)]; rfl
      · rw [ha]; rfl
  show IonizationDetector.printSummary S _ _ rank = _
  unfold IonizationDetector.printSummary
  rcases printBase_cases (S := S) d' 0 with ⟨b, hb⟩ | hb
  · rw [hb, Outcome.bind_ok]
    rcases collect_cases (f := fun i => do
        let a ← vecGet x'.atoms i
        let f ← vecGet x'.fractions i
        .ok [Printed.text "\t\t\t", .text a.nucleus.name, .text "\t(", .rounded (100 * f), .text "%)", .text "\n"])
        (l := List.range x'.atoms.length) fun i _ => by
      rcases vecGet_cases x'.atoms i with ⟨a, ha⟩ | ha
      · rcases vecGet_cases x'.fractions i with ⟨b, hb⟩ | hb
        · exact .inl ⟨_, by rw [ha, Outcome.bind_ok, hb]; rfl⟩
        · exact .inr (by rw [ha, Outcome.bind_ok, hb]; rfl)
      · exact .inr (by rw [ha]; rfl) with ⟨rows, h⟩ | h
    · rw [h, Outcome.bind_ok, ha]; rfl
    · rw [h]; rfl
  · rw [hb]; rfl

/-- Non-vacuity: a xenon detector with eleven bins of electrons, and the same after three bins of energies. -/
example (U : Units) (P : Interpolator2D) (rank : ℤ) : ∃ s s' s'' out, BuiltIonization U s ∧
    IonizationDetector.run s [.useElectronThreshold 3 0, .useElectronBins 3 11] = .ok s' ∧
    AnyDetector.printSummary S rank (.electronRecoil s'.1 s'.2) = .ok out ∧
    IonizationDetector.run s [.base (.useEnergyBins 1 2 3), .useElectronThreshold 3 0, .useElectronBins 3 11] = .ok s'' ∧
    AnyDetector.printSummary S rank (.electronRecoil s''.1 s''.2) = .ub := by
  obtain ⟨c, xe, _, _, hm, -⟩ := sampleAtoms U P
  have hb : BuiltIonization U (Detector.make "" 1 "Electrons", IonizationDetector.initial [xe] [1]) :=
    .inl ⟨P, _, _, _, "", 1, "Electrons", "Xe", c, by unfold IonizationDetector.makeOne; rw [hm]; rfl⟩
  obtain ⟨s'', h1, h2⟩ := C81_fails_energy_then_electrons (S := S) (d := Detector.make "" 1 "Electrons") (x := IonizationDetector.initial [xe] [1])
    (lo := 1) (hi := 2) (n := 3) (m := 11) (t := 3) (by simp [Detector.make]) one_lt_two (by norm_num) (by norm_num) (by norm_num) (by norm_num)
    (by norm_num) rank
  have hr : ∃ s', IonizationDetector.run (Detector.make "" 1 "Electrons", IonizationDetector.initial [xe] [1])
      [.useElectronThreshold 3 0, .useElectronBins 3 11] = .ok s' := ⟨_, rfl⟩
  obtain ⟨⟨d', x'⟩, hr⟩ := hr
  obtain ⟨out, ho, -⟩ := C81_ionization_partial (S := S) hb hr (by simp [SensibleIonizationCall]) ⟨.electrons, by simp [ionizationBinsOf]⟩ rank
  exact ⟨_, _, s'', out, hb, hr, ho, h1, h2⟩

/-! ## Semiconductor detectors -/

theorem tidyCrystal_run {k : BinKind} {s s' : Detector × CrystalDetector} {ops : List CrystalDetector.Op} (h : TidyCrystal k s)
    (hk : ∀ op ∈ ops, crystalBinsOf op = none ∨ crystalBinsOf op = some k) (hs : ∀ op ∈ ops, SensibleCrystalCall op)
    (hr : CrystalDetector.run s ops = .ok s') : TidyCrystal k s' := by
  induction ops generalizing s with
  | nil => cases hr; exact h
  | cons op ops ih =>
    obtain ⟨s1, h1, hr⟩ := Outcome.bind_eq_ok.1 hr
    exact ih (h.step (hk op List.mem_cons_self) (hs op List.mem_cons_self) h1) (fun o ho => hk o (List.mem_cons_of_mem _ ho))
      (fun o ho => hs o (List.mem_cons_of_mem _ ho)) hr

theorem threshold_run {s s' : Detector × CrystalDetector} {ops : List CrystalDetector.Op} (hr : CrystalDetector.run s ops = .ok s') :
    ((HasThreshold s.2 ∨ ∃ Q, CrystalDetector.Op.useQThreshold Q ∈ ops) → HasThreshold s'.2) ∧
    ((∀ Q, CrystalDetector.Op.useQThreshold Q ∉ ops) → s'.2.usingQThreshold = s.2.usingQThreshold) := by
  induction ops generalizing s with
  | nil => cases hr; simp
  | cons op ops ih =>
    obtain ⟨s1, h1, hr⟩ := Outcome.bind_eq_ok.1 hr
    obtain ⟨a1, a2, a3⟩ := threshold_step h1
    obtain ⟨b1, b2⟩ := ih hr
    refine ⟨fun h => b1 ?_, fun h => ?_⟩
    · rcases h with h | ⟨Q, h⟩
      · exact .inl (a1 h)
      · rcases List.mem_cons.1 h with h | h
        · exact .inl (a2 ⟨Q, h.symm⟩)
        · exact .inr ⟨Q, h⟩
    · rw [b2 fun Q hQ => h Q (List.mem_cons_of_mem _ hQ), a3 fun Q hQ => h Q (hQ ▸ List.mem_cons_self)]

theorem builtCrystalDetector_facts {U : Units} {s : Detector × CrystalDetector} (h : BuiltCrystalDetector U s) :
    BuiltDetector s.1 ∧ s.2.usingQThreshold = none ∧ s.1.usingEnergyBins = false := by
  obtain ⟨P, file, label, expo, crys, h⟩ := h
  obtain ⟨c, -, h⟩ := Outcome.bind_eq_ok.1 h
  cases h
  exact ⟨⟨_, _, _, rfl⟩, rfl, rfl⟩

/-- C81 (semiconductors). After any sensible history of configuration calls the summary can be printed, provided that the history
contains a threshold for electron-hole pairs and that all bins in it are of the same kind. -/
theorem C81_crystal_partial {U : Units} {s : Detector × CrystalDetector} {d : Detector} {x : CrystalDetector}
    {ops : List CrystalDetector.Op} (h : BuiltCrystalDetector U s) (hr : CrystalDetector.run s ops = .ok (d, x))
    (hs : ∀ op ∈ ops, SensibleCrystalCall op)
    (hk : ∃ k, ∀ op ∈ ops, crystalBinsOf op = none ∨ crystalBinsOf op = some k) (hQ : ∃ Q, CrystalDetector.Op.useQThreshold Q ∈ ops)
    (rank : ℤ) : ∃ out, AnyDetector.printSummary S rank (.crystal d x) = .ok out := by
  obtain ⟨k, hk⟩ := hk
  obtain ⟨h1, -, h3⟩ := builtCrystalDetector_facts h
  have ht := tidyCrystal_run (k := k) ⟨fun hu => absurd (h3.symm.trans hu) (by decide), fun _ => h3⟩ hk hs hr
  obtain ⟨d0, x0⟩ := s
  have he : OneEntryPerBin d := C27_one_entry_per_bin (.inr (.inr ⟨d0, x0, x, ops, h1, hr⟩))
  exact printCrystal_ok (rank := rank) ht he ((threshold_run hr).1 (.inr hQ))

/-- C81 (failure: uninitialised member). Without a call of `Use_Q_Threshold` the summary of a semiconductor detector reads a member that
has no value, whatever else was called, in every process. -/
theorem C81_fails_no_q_threshold {U : Units} {s s' : Detector × CrystalDetector} {ops : List CrystalDetector.Op}
    (h : BuiltCrystalDetector U s) (hr : CrystalDetector.run s ops = .ok s') (hQ : ∀ Q, CrystalDetector.Op.useQThreshold Q ∉ ops) (rank : ℤ) :
    AnyDetector.printSummary S rank (.crystal s'.1 s'.2) = .ub :=
  printCrystal_ub (rank := rank) (((threshold_run hr).2 hQ).trans (builtCrystalDetector_facts h).2.1)

/-- Non-vacuity: the same bins with and without a threshold first. -/
example (U : Units) (P : Interpolator2D) (Q N : ℕ) (rank : ℤ) : ∃ s s' s'' out, BuiltCrystalDetector U s ∧
    CrystalDetector.run s [.useQBins Q N] = .ok s' ∧ AnyDetector.printSummary S rank (.crystal s'.1 s'.2) = .ub ∧
    CrystalDetector.run s [.useQThreshold 1, .useQBins Q N] = .ok s'' ∧ AnyDetector.printSummary S rank (.crystal s''.1 s''.2) = .ok out := by
  obtain ⟨c, hc, _⟩ := (C57_construction (U := U) P (fun _ => List.replicate 450000 1) "Si").1 (.inl rfl)
    (by rw [List.length_replicate])
  obtain ⟨s, hs⟩ : ∃ s, CrystalDetector.make U P (fun _ => List.replicate 450000 1) "x" 1 "Si" = .ok s :=
    ⟨_, by unfold CrystalDetector.make; rw [hc]; rfl⟩
  have hb : BuiltCrystalDetector U s := ⟨P, _, "x", 1, "Si", hs⟩
  have ha : s.1.analysis = .poisson := by
    obtain ⟨_, -, h⟩ := Outcome.bind_eq_ok.1 hs
    cases h; rfl
  have h1 : ∃ s', CrystalDetector.run s [.useQBins Q N] = .ok s' := by
    simp only [CrystalDetector.run, CrystalDetector.step, CrystalDetector.useQBins, Detector.initializeBinned, ha, reduceCtorEq, if_false,
      Outcome.bind_ok]
    exact ⟨_, rfl⟩
  have h2 : ∃ s', CrystalDetector.run s [.useQThreshold 1, .useQBins Q N] = .ok s' := by
    simp only [CrystalDetector.run, CrystalDetector.step, CrystalDetector.useQThreshold, CrystalDetector.useQBins, Detector.initializeBinned,
      Detector.initializePoisson, reduceCtorEq, if_false, Outcome.bind_ok]
    exact ⟨_, rfl⟩
  obtain ⟨s', h1⟩ := h1
  obtain ⟨⟨d2, x2⟩, h2⟩ := h2
  obtain ⟨out, ho⟩ := C81_crystal_partial (S := S) hb h2 (by simp [SensibleCrystalCall]) ⟨.pairs, by simp [crystalBinsOf]⟩ ⟨1, by simp⟩ rank
  exact ⟨s, s', _, out, hb, h1, C81_fails_no_q_threshold hb h1 (by simp) rank, h2, ho⟩

/-! ## Configured detectors and complete runs -/

/-- C81 (configurations). The summary of the detector of a configuration file can be printed unless it is one of the predefined
semiconductor experiments. -/
theorem C81_configured_partial {c : Config} {cache c' : List Nucleus} {D : AnyDetector} (h : c.detector S cache = .ok (c', D))
    (hx : ∀ name, c "DD_experiment" = some (.string name) → name ∉ semiconductorExperiments) (rank : ℤ) :
    ∃ out, D.printSummary S rank = .ok out := configured_summary h hx

/-- C81 (failure: predefined semiconductor experiments). The summaries of all six have undefined behaviour. -/
theorem C81_fails_experiments {c : Config} {cache c' : List Nucleus} {D : AnyDetector} {name : String}
    (h : c.detector S cache = .ok (c', D)) (hn : c "DD_experiment" = some (.string name)) (hx : name ∈ semiconductorExperiments) (rank : ℤ) :
    D.printSummary S rank = .ub := by
  obtain ⟨name', hname, h⟩ := Outcome.bind_eq_ok.1 h
  have := hn.symm.trans (Config.eq_of_getString hname)
  cases this
  exact (selectDetector_tidy h).2 hx

/-- C81 (failure: complete runs). No run of the program with one of the predefined semiconductor experiments ends regularly, and none
writes limits: the summary that precedes the computation has undefined behaviour. -/
theorem C81_fails_runs {E : Platform} {fs : FileSystem} {f : Name} {args : List Name} {text : List Char} {c : Config} {name : String}
    (hr : fs.read E.R.cwd f = some text) (hp : E.parse text = some c) (hn : c "DD_experiment" = some (.string name))
    (hx : name ∈ semiconductorExperiments) : (Program.main E (f :: args) fs).2 ≠ .ok () ∧
    (Program.main E (f :: args) fs).1 = (Configuration.make E.R E.S E.N E.speeds E.parse fs [] f 0).1 ∧
    ((∃ r, (Configuration.make E.R E.S E.N E.speeds E.parse fs [] f 0).2 = .ok r) → (Program.main E (f :: args) fs).2 = .ub) := by
  have key : (∃ r, (Configuration.make E.R E.S E.N E.speeds E.parse fs [] f 0).2 = .ok r) → (Program.main E (f :: args) fs).2 = .ub := by
    rintro ⟨⟨c', o⟩, hm⟩
    obtain ⟨t, c₁, ID₁, a1, a2, -, -, -, a3, -⟩ := (C71_object E.R E.S E.N E.speeds E.parse fs [] c' f 0 o).1 hm
    rw [hr] at a1; cases a1
    rw [hp] at a2; cases a2
    have hs : o.printSummary E.S [] 0 = .ub := by
      unfold Configuration.printSummary
      rw [if_pos rfl, C81_fails_experiments a3 hn hx]
      rfl
    simp only [Program.main]
    generalize Configuration.make E.R E.S E.N E.speeds E.parse fs [] f 0 = r' at hm
    obtain ⟨g, r'⟩ := r'
    dsimp only at hm
    subst hm
    dsimp only
    rw [hs]
  rcases main_cases E f args fs with ⟨h1, c', o, rows, cl, h2, -⟩ | ⟨h1, h2⟩
  · rw [key ⟨_, h2⟩] at h1; cases h1
  · exact ⟨h1, h2, key⟩

/-- Non-vacuity of `C81_fails_experiments` and `C81_fails_runs`: a run for SENSEI@MINOS. -/
example (T : Tools) : (Program.main { samplePlatform T with parse := fun _ => some (exampleWith "DD_experiment" "SENSEI@MINOS") } [['a']]
    sampleFiles).2 = .ub := by
  refine (C81_fails_runs (text := ['x']) (c := exampleWith "DD_experiment" "SENSEI@MINOS") (name := "SENSEI@MINOS")
    (by show sampleFiles.read sampleInstallation.cwd ['a'] = _; decide) rfl (by simp [exampleWith]) (by decide)).2.2 ?_
  have hc : DescribesParticle (exampleWith "DD_experiment" "SENSEI@MINOS")
      { mass := 0.1, spin := 0.5, fraction := 1, light := false, interaction := "SI", formFactor := "Contact", mediator := 0, fp := 1,
        fn := 1, sigmaNucleon := 1e-36, sigmaElectron := 1e-36 } := by
    constructor <;> simp [exampleConfig]
  obtain ⟨p, hp, -⟩ := C53_particle_partial (U := sampleSetup.U) hc (.inr ⟨rfl, by simp, by simp⟩) (by norm_num) (by norm_num) (by norm_num)
  have hs : √((0 : ℝ) ^ 2 + 232 ^ 2 + 0 ^ 2) = 232 := by
    rw [show (0 : ℝ) ^ 2 + 232 ^ 2 + 0 ^ 2 = 232 ^ 2 by norm_num]; exact Real.sqrt_sq (by norm_num)
  obtain ⟨h, hh, -⟩ := C69_standard_halo_partial (U := sampleSetup.U) (c := exampleWith "DD_experiment" "SENSEI@MINOS") (s := ⟨0.4, 220, 0, 232, 0, 544⟩)
    Numerics.exact (fun _ => none) (by simp [exampleConfig]) (by constructor <;> simp [exampleConfig]) (by norm_num) (by norm_num)
    (by rw [hs]; norm_num)
  obtain ⟨c', d, x, hD, -⟩ := C55_crystal (cache := []) sampleSetup_installed (c := exampleWith "DD_experiment" "SENSEI@MINOS")
    (e := pairSearches[2]) (List.getElem_mem _) (by simp [exampleWith, pairSearches])
  exact ⟨_, (C71_object sampleInstallation sampleSetup Numerics.exact (fun _ => none) (fun _ => some (exampleWith "DD_experiment" "SENSEI@MINOS"))
    sampleFiles [] c' ['a'] 0
    ⟨['a'], "test".toList, sampleInstallation.top ++ ("results/" ++ "test" ++ "/").toList, p, h, .crystal d x, 0.95, 0.02, 1, 10⟩).2
    ⟨['x'], _, "test", by decide, rfl, by simp [exampleConfig], hp, hh, hD, ⟨10, by constructor <;> simp [exampleConfig], rfl⟩, rfl, rfl, rfl⟩⟩

end Obscura
