import Verif.Spec.Mixture
import Verif.Props.CompositionIonization
import Verif.Props.IonizationSample

/-!
# C92 — an ionization target with several elements is the sum of its components
-/

namespace Obscura

open Spec IonizationDetector

variable {U : Units} {S : ShellRate} {T : Tools} {d : Detector} {p : DMParticle} {h : Distribution} {x : IonizationDetector}

/-! ### Sums over the atoms -/

namespace Mixture

/-- The atoms with their mass fractions. -/
def parts (x : IonizationDetector) : List (Atom × ℝ) := x.atoms.zip x.fractions

theorem withAtoms_parts (hl : x.fractions.length = x.atoms.length) : withAtoms x (parts x) = x := by
  unfold withAtoms parts
  rw [List.map_fst_zip hl.ge, List.map_snd_zip hl.le]

theorem onlyAtom_eq (a : Atom) : onlyAtom x a = withAtoms x [(a, 1)] := rfl

theorem weightedAtoms_parts (s : Atom → ℝ) : weightedAtoms x s = ((parts x).map fun y => y.2 * s y.1).sum := by
  unfold weightedAtoms parts
  generalize x.fractions = ws
  generalize x.atoms = as
  induction ws generalizing as with
  | nil => simp
  | cons w ws ih =>
    cases as with
    | nil => simp
    | cons a as => simp only [List.zipWith_cons_cons, List.zip_cons_cons, List.map_cons, List.sum_cons, ih]

theorem mem_parts {y : Atom × ℝ} (hy : y ∈ parts x) : y.1 ∈ x.atoms := (List.of_mem_zip hy).1

/-- A sum over the atoms, weighted with their mass fractions. -/
noncomputable def atomSum (x : IonizationDetector) (F : Atom → Outcome ℝ) : Outcome ℝ :=
  sumOver (fun i => do
    let a ← vecGet x.atoms i
    let f ← vecGet x.fractions i
    let r ← F a
    .ok (f * r)) (List.range x.atoms.length)

theorem atomSum_withAtoms (l : List (Atom × ℝ)) (F : Atom → Outcome ℝ) : atomSum (withAtoms x l) F = sumOver (fun y => do
    let r ← F y.1
    .ok (y.2 * r)) l :=
  atoms_sum l fun a f => do
    let r ← F a
    .ok (f * r)

theorem atomSum_only {a : Atom} {F : Atom → Outcome ℝ} {r : ℝ} : atomSum (onlyAtom x a) F = .ok r ↔ F a = .ok r := by
  rw [onlyAtom_eq, atomSum_withAtoms]
  cases hF : F a with
  | ok y => simp [sumOver, collect, hF]
  | _ => simp [sumOver, collect, hF]

theorem atomSum_mixed (hl : x.fractions.length = x.atoms.length) {F : Atom → Outcome ℝ} {s : Atom → ℝ} (hs : ∀ a ∈ x.atoms, F a = .ok (s a)) :
    atomSum x F = .ok (weightedAtoms x s) := by
  conv_lhs => rw [← withAtoms_parts hl]
  rw [atomSum_withAtoms, weightedAtoms_parts, sumOver_ok]
  intro y hy
  rw [hs y.1 (mem_parts hy), Outcome.bind_ok]

theorem weightedAtoms_congr {s s' : Atom → ℝ} (hs : ∀ a ∈ x.atoms, s a = s' a) : weightedAtoms x s = weightedAtoms x s' := by
  rw [weightedAtoms_parts, weightedAtoms_parts]
  exact congrArg List.sum (List.map_congr_left fun y hy => by rw [hs y.1 (mem_parts hy)])

theorem weightedAtoms_mul (x : IonizationDetector) (k : ℝ) (s : Atom → ℝ) : weightedAtoms x (fun a => k * s a) = k * weightedAtoms x s := by
  rw [weightedAtoms_parts, weightedAtoms_parts, ← List.sum_map_mul_left]
  refine congrArg List.sum (List.map_congr_left fun y _ => ?_)
  ring

theorem weightedAtoms_sum {ι : Type} (x : IonizationDetector) (ks : List ι) (s : Atom → ι → ℝ) :
    weightedAtoms x (fun a => (ks.map (s a)).sum) = (ks.map fun k => weightedAtoms x fun a => s a k).sum := by
  induction ks with
  | nil =>
    rw [weightedAtoms_parts]
    simp
  | cons k ks ih =>
    simp only [List.map_cons, List.sum_cons]
    rw [← ih, weightedAtoms_parts, weightedAtoms_parts, weightedAtoms_parts, ← List.sum_map_add]
    refine congrArg List.sum (List.map_congr_left fun y _ => ?_)
    ring

theorem rNe_only {a : Atom} {ne : ℕ} {r : ℝ} : (onlyAtom x a).rNe U S d ne p = .ok r ↔ rNeAtom U S d ne p a = .ok r := atomSum_only

theorem collect_inv {α : Type} {f : α → Outcome ℝ} {l : List α} {bs : List ℝ} (h : collect f l = .ok bs) :
    ∃ g : α → ℝ, ∀ a ∈ l, f a = .ok (g a) :=
  ⟨fun a => (f a).valueOr0, fun a ha => by
    induction l generalizing bs with
    | nil => simp at ha
    | cons b l ih =>
      rw [collect] at h
      obtain ⟨y, h1, h2⟩ := Outcome.bind_eq_ok.1 h
      obtain ⟨ys, h3, -⟩ := Outcome.bind_eq_ok.1 h2
      rcases List.mem_cons.1 ha with rfl | ha
      · simp only [h1, Outcome.valueOr0]
      · exact ih h3 ha⟩

theorem sumOver_inv {α : Type} {f : α → Outcome ℝ} {l : List α} {s : ℝ} (h : sumOver f l = .ok s) :
    ∃ g : α → ℝ, (∀ a ∈ l, f a = .ok (g a)) ∧ s = (l.map g).sum := by
  obtain ⟨bs, h1, -⟩ := Outcome.bind_eq_ok.1 h
  obtain ⟨g, hg⟩ := collect_inv h1
  refine ⟨g, hg, ?_⟩
  rw [sumOver_ok hg] at h
  cases h
  rfl

/-- Configuration calls do not look at the atoms. -/
theorem step_atoms (l : List (Atom × ℝ)) (d : Detector) (x : IonizationDetector) (op : IonizationDetector.Op) :
    step (d, withAtoms x l) op = step (d, x) op >>= fun s => .ok (s.1, withAtoms s.2 l) := by
  cases op with
  | base op =>
    simp only [step]
    cases d.step op <;> rfl
  | useElectronThreshold n m =>
    simp only [step, useElectronThreshold]
    split_ifs <;> rfl
  | useElectronBins n bins =>
    simp only [step, useElectronBins]
    cases d.initializeBinned bins with
    | ok d' =>
      simp only [Outcome.bind_ok]
      split_ifs <;> rfl
    | _ => rfl
  | usePEThreshold mu sigma n m =>
    simp only [step, usePEThreshold]
    split_ifs <;> rfl
  | usePEBins mu sigma ranges =>
    simp only [step, usePEBins]
    cases d.initializeBinned (toUInt32 ((ranges.length : ℤ) - 1)) <;> rfl
  | importTrigger t =>
    simp only [step, importTrigger, show (withAtoms x l).usingS2Bins = x.usingS2Bins from rfl,
      show (withAtoms x l).usingS2Threshold = x.usingS2Threshold from rfl]
    by_cases hc : x.usingS2Bins = false ∧ x.usingS2Threshold = false
    · simp only [if_pos hc]; rfl
    · simp only [if_neg hc]; rfl
  | importAcceptance t =>
    simp only [step, importAcceptance, show (withAtoms x l).usingS2Bins = x.usingS2Bins from rfl,
      show (withAtoms x l).usingS2Threshold = x.usingS2Threshold from rfl]
    by_cases hc : x.usingS2Bins = false ∧ x.usingS2Threshold = false
    · simp only [if_pos hc]; rfl
    · simp only [if_neg hc]; rfl

theorem run_withAtoms (l : List (Atom × ℝ)) (ops : List IonizationDetector.Op) (d : Detector) (x : IonizationDetector) :
    run (d, withAtoms x l) ops = run (d, x) ops >>= fun s => .ok (s.1, withAtoms s.2 l) := by
  induction ops generalizing d x with
  | nil => rfl
  | cons op ops ih =>
    rw [run, run, step_atoms]
    cases step (d, x) op with
    | ok s => exact ih s.1 s.2
    | _ => rfl

end Mixture

open Mixture

/-- C92 (ionization, settings). The same calls after construction lead to the same settings, whatever the composition. So the detector with one of
the elements and the same history is `onlyAtom x a`. -/
theorem C92_ionization_history {d₀ : Detector} {atoms : List Atom} {fractions : List ℝ} (hl : fractions.length = atoms.length)
    {ops : List IonizationDetector.Op} (hr : run (d₀, IonizationDetector.initial atoms fractions) ops = .ok (d, x)) :
    x.atoms = atoms ∧ x.fractions = fractions ∧ ∀ a, run (d₀, IonizationDetector.initial [a] [1]) ops = .ok (d, onlyAtom x a) := by
  have e1 : IonizationDetector.initial atoms fractions = withAtoms (IonizationDetector.initial [] []) (atoms.zip fractions) := by
    unfold withAtoms
    rw [List.map_fst_zip hl.ge, List.map_snd_zip hl.le]
    rfl
  rw [e1, run_withAtoms] at hr
  obtain ⟨⟨d', x'⟩, h1, h2⟩ := Outcome.bind_eq_ok.1 hr
  simp only [Outcome.ok.injEq, Prod.mk.injEq] at h2
  obtain ⟨rfl, rfl⟩ := h2
  refine ⟨List.map_fst_zip hl.ge, List.map_snd_zip hl.le, fun a => ?_⟩
  have e2 : IonizationDetector.initial [a] [1] = withAtoms (IonizationDetector.initial [] []) [(a, 1)] := rfl
  rw [e2, run_withAtoms, h1, Outcome.bind_ok]
  rfl

/-- C92 (ionization, spectrum). The rate is the mean of the rates of the elements, weighted with the mass fractions. -/
theorem C92_ionization_spectrum (hl : x.fractions.length = x.atoms.length) {E : ℝ} {s : Atom → ℝ}
    (hs : ∀ a ∈ x.atoms, (onlyAtom x a).dRdE S d E p = .ok (s a)) : x.dRdE S d E p = .ok (weightedAtoms x s) :=
  atomSum_mixed hl fun a ha => atomSum_only.1 (hs a ha)

/-- C92 (ionization, electrons). The same for the rate of events with a number of electrons. -/
theorem C92_ionization_electrons (hl : x.fractions.length = x.atoms.length) {ne : ℕ} {s : Atom → ℝ}
    (hs : ∀ a ∈ x.atoms, (onlyAtom x a).rNe U S d ne p = .ok (s a)) : x.rNe U S d ne p = .ok (weightedAtoms x s) :=
  atomSum_mixed hl fun a ha => rNe_only.1 (hs a ha)

/-- C92 (ionization, photoelectrons). The same for the rate of events with a number of photoelectrons. -/
theorem C92_ionization_photoelectrons (hl : x.fractions.length = x.atoms.length) (hne : x.atoms ≠ []) {n : ℕ} {s : Atom → ℝ}
    (hs : ∀ a ∈ x.atoms, (onlyAtom x a).rS2 U S d n p [] = .ok (s a)) : x.rS2 U S d n p [] = .ok (weightedAtoms x s) := by
  have key : ∀ a ∈ x.atoms, ∃ r : ℕ → ℝ, (∀ ne ∈ List.range' 1 100, (onlyAtom x a).rNe U S d ne p = .ok (r ne)) ∧ x.s2Sigma ≠ 0 ∧
      s a = ((List.range' 1 100).map fun ne : ℕ => pdfGauss n (x.s2Mu * ne) (Real.sqrt ne * x.s2Sigma) * r ne).sum := by
    intro a ha
    have h1 := hs a ha
    unfold rS2 at h1
    simp only [List.isEmpty_nil, if_true] at h1
    obtain ⟨sp, h2, h3⟩ := Outcome.bind_eq_ok.1 h1
    obtain ⟨r, hr⟩ := collect_inv h2
    rw [collect_ok hr] at h2
    cases h2
    refine ⟨r, hr, ?_⟩
    unfold rS2Aux at h3
    obtain ⟨rs, h4, h5⟩ := Outcome.bind_eq_ok.1 h3
    split_ifs at h5 with h0
    have hrs : rs = (List.range' 1 100).map r := by
      rw [collect_ok (g := r)] at h4
      · cases h4; rfl
      · intro ne hne
        have h6 : 1 ≤ ne ∧ ne < 101 := by simpa [List.mem_range'_1] using hne
        rw [vecGet_lt (by simp; omega)]
        simp only [List.getElem_map, List.getElem_range']
        refine congrArg Outcome.ok (congrArg r ?_)
        omega
    refine ⟨h0, ?_⟩
    simp only [Outcome.ok.injEq] at h5
    rw [← h5, hrs, foldl_add_eq_sum, List.zipWith_map_right, List.zipWith_self]
    rfl
  choose! r hr hσ hsum using key
  have hσ : x.s2Sigma ≠ 0 := by
    obtain ⟨a, ha⟩ := List.exists_mem_of_ne_nil _ hne
    exact hσ a ha
  have hmix : ∀ ne ∈ List.range' 1 100, x.rNe U S d ne p = .ok (weightedAtoms x fun a => r a ne) := fun ne hn =>
    C92_ionization_electrons hl fun a ha => hr a ha ne hn
  unfold rS2
  simp only [List.isEmpty_nil, if_true]
  rw [collect_ok hmix, Outcome.bind_ok]
  unfold rS2Aux
  rw [collect_ok (g := fun ne => weightedAtoms x fun a => r a ne), Outcome.bind_ok, if_neg hσ, foldl_add_eq_sum, List.zipWith_map_right,
    List.zipWith_self]
  · refine congrArg Outcome.ok ?_
    rw [weightedAtoms_congr hsum, weightedAtoms_sum]
    refine congrArg List.sum (List.map_congr_left fun ne _ => ?_)
    exact (weightedAtoms_mul x _ fun a => r a ne).symm
  · intro ne hn
    have h6 : 1 ≤ ne ∧ ne < 101 := by simpa [List.mem_range'_1] using hn
    rw [vecGet_lt (by simp; omega)]
    simp only [List.getElem_map, List.getElem_range']
    refine congrArg Outcome.ok ?_
    congr 1
    funext a
    congr 1
    omega

/-- C92 (ionization, bins). Expected events in the bins of numbers of electrons. -/
theorem C92_ionization_bins (hl : x.fractions.length = x.atoms.length) (hne : x.atoms ≠ []) (hb : d.usingEnergyBins = false)
    (he : x.usingElectronBins = true) {s : Atom → ℕ → ℝ}
    (hs : ∀ a ∈ x.atoms, ((onlyAtom x a).toClass U S T h).signalsBinned d p = .ok ((List.range d.bins).map (s a))) :
    (x.toClass U S T h).signalsBinned d p = .ok ((List.range d.bins).map fun i => weightedAtoms x fun a => s a i) := by
  have key : ∀ y : IonizationDetector, y.usingElectronBins = true → (y.toClass U S T h).signalsBinned d p =
      if d.analysis ≠ .binnedPoisson then .exit else collect (fun bin => do
        let r ← y.rNe U S d ((y.neThreshold + bin) % 2 ^ 32) p
        let eff ← vecGet d.binEfficiencies bin
        .ok (eff * d.exposure * r)) (List.range d.bins) := by
    intro y hy
    unfold toClass IonizationDetector.signalsBinned signalsElectronBins
    simp only [hb, hy]
    rfl
  obtain ⟨a₀, ha₀⟩ := List.exists_mem_of_ne_nil _ hne
  have han : ¬ d.analysis ≠ .binnedPoisson := by
    intro hc
    have := hs a₀ ha₀
    rw [key (onlyAtom x a₀) he, if_pos hc] at this
    cases this
  have hpart : ∀ a ∈ x.atoms, ∀ i, i < d.bins → ∃ r, (onlyAtom x a).rNe U S d ((x.neThreshold + i) % 2 ^ 32) p = .ok r ∧
      i < d.binEfficiencies.length ∧ s a i = d.binEfficiencies.getD i 0 * d.exposure * r := by
    intro a ha i hi
    have h1 := hs a ha
    rw [key (onlyAtom x a) he, if_neg han] at h1
    obtain ⟨g, hg⟩ := collect_inv h1
    rw [collect_ok hg] at h1
    have h2 : g i = s a i := by
      simp only [Outcome.ok.injEq] at h1
      exact List.map_inj_left.1 h1 i (List.mem_range.2 hi)
    have h3 := hg i (List.mem_range.2 hi)
    obtain ⟨r, h4, h5⟩ := Outcome.bind_eq_ok.1 h3
    obtain ⟨eff, h6, h7⟩ := Outcome.bind_eq_ok.1 h5
    have hlen : i < d.binEfficiencies.length := by
      by_contra hc
      rw [vecGet_ge (not_lt.1 hc)] at h6
      cases h6
    rw [vecGet_lt hlen] at h6
    cases h6
    simp only [Outcome.ok.injEq] at h7
    exact ⟨r, h4, hlen, by rw [← h2, ← h7]; simp [List.getD_eq_getElem?_getD, hlen]⟩
  choose! r hr hlen hv using hpart
  rw [key x he, if_neg han]
  refine collect_ok fun i hi => ?_
  have hi := List.mem_range.1 hi
  rw [C92_ionization_electrons hl fun a ha => hr a ha i hi, Outcome.bind_ok, vecGet_lt (hlen a₀ ha₀ i hi), Outcome.bind_ok]
  refine congrArg Outcome.ok ?_
  rw [weightedAtoms_congr fun a ha => hv a ha i hi, weightedAtoms_mul]
  simp [List.getD_eq_getElem?_getD, hlen a₀ ha₀ i hi]

/-- C92 (ionization, events). Expected events with numbers of electrons in a window, or with energies above a threshold. -/
theorem C92_ionization_events (hl : x.fractions.length = x.atoms.length) (ha : d.analysis ≠ .binnedPoisson)
    (hu : x.usingElectronThreshold = true ∨ d.usingEnergyThreshold = true) {s : Atom → ℝ}
    (hs : ∀ a ∈ x.atoms, ((onlyAtom x a).toClass U S T h).signalsTotal d p = .ok (s a)) :
    (x.toClass U S T h).signalsTotal d p = .ok (weightedAtoms x s) := by
  by_cases he : x.usingElectronThreshold = true
  · have key : ∀ y : IonizationDetector, y.usingElectronThreshold = true → (y.toClass U S T h).signalsTotal d p = sumOver (fun ne => do
        let r ← y.rNe U S d ne p
        .ok (d.exposure * r)) (List.range' y.neThreshold (y.neMax + 1 - y.neThreshold)) := by
      intro y hy
      unfold toClass IonizationDetector.signalsTotal
      simp only [if_neg ha, hy, if_true]
    have hpart : ∀ a ∈ x.atoms, ∃ r : ℕ → ℝ, (∀ ne ∈ List.range' x.neThreshold (x.neMax + 1 - x.neThreshold),
        (onlyAtom x a).rNe U S d ne p = .ok (r ne)) ∧
        s a = ((List.range' x.neThreshold (x.neMax + 1 - x.neThreshold)).map fun ne => d.exposure * r ne).sum := by
      intro a ha
      have h1 := hs a ha
      rw [key (onlyAtom x a) he] at h1
      obtain ⟨g, hg, h2⟩ := sumOver_inv h1
      have hg' : ∀ ne ∈ List.range' x.neThreshold (x.neMax + 1 - x.neThreshold), ∃ r, (onlyAtom x a).rNe U S d ne p = .ok r ∧ g ne = d.exposure * r := by
        intro ne hne
        obtain ⟨r, h3, h4⟩ := Outcome.bind_eq_ok.1 (hg ne hne)
        simp only [Outcome.ok.injEq] at h4
        exact ⟨r, h3, h4.symm⟩
      choose! r hr hgr using hg'
      exact ⟨r, hr, by rw [h2]; exact congrArg List.sum (List.map_congr_left hgr)⟩
    choose! r hr hsum using hpart
    rw [key x he, sumOver_ok (g := fun ne => d.exposure * weightedAtoms x fun a => r a ne)]
    · refine congrArg Outcome.ok ?_
      rw [weightedAtoms_congr hsum, weightedAtoms_sum]
      refine congrArg List.sum (List.map_congr_left fun ne _ => ?_)
      exact (weightedAtoms_mul x _ fun a => r a ne).symm
    · intro ne hne
      rw [C92_ionization_electrons hl fun a ha => hr a ha ne hne, Outcome.bind_ok]
  · have hE := hu.resolve_left he
    have key : ∀ l : List (Atom × ℝ), ((withAtoms x l).toClass U S T h).signalsTotal d p =
        sumOver (fun y => sumOver (fun e => .ok (thresholdSignal U S T d p y.1.nucleus y.2 e)) y.1.electrons) l := by
      intro l
      unfold toClass IonizationDetector.signalsTotal
      simp only [if_neg ha, show (withAtoms x l).usingElectronThreshold = x.usingElectronThreshold from rfl, if_neg he, hE, if_true]
      unfold Obscura.sumOver
      rw [show (withAtoms x l).atoms.length = l.length by simp [withAtoms], collect_range l _ fun y =>
        Obscura.sumOver (fun e => .ok (thresholdSignal U S T d p y.1.nucleus y.2 e)) y.1.electrons]
      · rfl
      · intro i hi
        rw [show vecGet (withAtoms x l).atoms i = .ok l[i].1 by rw [vecGet_lt (by simpa [withAtoms] using hi)]; simp [withAtoms], Outcome.bind_ok]
        simp only [show vecGet (withAtoms x l).fractions i = .ok l[i].2 by rw [vecGet_lt (by simpa [withAtoms] using hi)]; simp [withAtoms],
          Outcome.bind_ok]
        rfl
    have hval : ∀ l : List (Atom × ℝ), ((withAtoms x l).toClass U S T h).signalsTotal d p =
        .ok ((l.map fun y => y.2 * (y.1.electrons.map fun e => thresholdSignal U S T d p y.1.nucleus 1 e).sum).sum) := by
      intro l
      rw [key, sumOver_ok (g := fun y => (y.1.electrons.map fun e => thresholdSignal U S T d p y.1.nucleus y.2 e).sum)]
      · refine congrArg Outcome.ok (congrArg List.sum (List.map_congr_left fun y _ => ?_))
        rw [← List.sum_map_mul_left]
        refine congrArg List.sum (List.map_congr_left fun e _ => ?_)
        unfold thresholdSignal
        dsimp only
        by_cases hc : d.energyThreshold < e.kMax * e.kMax / 2 / U.mElectron
        · rw [if_pos hc, if_pos hc]; ring
        · rw [if_neg hc, if_neg hc]; ring
      · intro y _
        exact sumOver_ok fun e _ => rfl
    conv_lhs => rw [← withAtoms_parts hl]
    rw [hval, weightedAtoms_parts]
    refine congrArg Outcome.ok (congrArg List.sum (List.map_congr_left fun y hy => ?_))
    have := hs y.1 (mem_parts hy)
    rw [onlyAtom_eq, hval] at this
    simp only [List.map_cons, List.map_nil, List.sum_cons, List.sum_nil, one_mul, add_zero, Outcome.ok.injEq] at this
    rw [this]

/-- The rates of the single elements are defined for all atoms from the data files and rates of the shells that are defined and not negative
(`C68_electron_recoil`, `C68_migdal`). -/
theorem Mixture.only_defined (hU : U.keV ≤ U.mElectron) (ha : ∀ a ∈ x.atoms, BuiltAtom U a) (hS : NonnegShells S d p x) :
    ∀ a ∈ x.atoms, (∀ E, 0 < E → ∃ r, (onlyAtom x a).dRdE S d E p = .ok r ∧ 0 ≤ r) ∧
      ∀ ne, ne < 2 ^ 32 → ∃ r, (onlyAtom x a).rNe U S d ne p = .ok r ∧ 0 ≤ r := by
  intro a hax
  have h1 : NonnegShells S d p (onlyAtom x a) := fun b hb => by
    obtain rfl : b = a := by simpa [onlyAtom] using hb
    exact hS b hax
  have h2 : ∀ b ∈ (onlyAtom x a).atoms, BuiltAtom U b := fun b hb => by
    obtain rfl : b = a := by simpa [onlyAtom] using hb
    exact ha b hax
  exact ⟨fun E hE => C68_dRdE rfl (by simp [onlyAtom]) h1 hE, fun ne hne => C68_spectrum hU rfl (by simp [onlyAtom]) h2 h1 hne⟩

/-- A detector with a quarter and three quarters of xenon sees single electrons; the conditions of the theorems hold for it. -/
example {I : Integrator} (hI : I.Exact) : ∃ (x : IonizationDetector) (d : Detector) (p : DMParticle) (s : Atom → ℝ),
    x.fractions = [1 / 4, 3 / 4] ∧ x.atoms.length = 2 ∧
    (∀ a ∈ x.atoms, (onlyAtom x a).rNe Units.sample (shellRateER Units.sample I sampleHalo) d 1 p = .ok (s a) ∧ 0 < s a) ∧
    x.rNe Units.sample (shellRateER Units.sample I sampleHalo) d 1 p = .ok (weightedAtoms x s) ∧ 0 < weightedAtoms x s := by
  obtain ⟨P, tables, c, t, p, r, h1, h2, h3, h4, h5, h6⟩ := ionization_positive hI 1
  unfold makeOne at h1
  obtain ⟨⟨c', a⟩, e1, e2⟩ := Outcome.bind_eq_ok.1 h1
  cases e2
  set x := withAtoms (IonizationDetector.initial [a] [1]) [(a, 1 / 4), (a, 3 / 4)] with hx
  have hmem : ∀ b ∈ x.atoms, b = a := by
    intro b hb
    simpa [hx, withAtoms] using hb
  have hs : ∀ b ∈ x.atoms, (onlyAtom x b).rNe Units.sample (shellRateER Units.sample I sampleHalo) (Detector.make "" 1 "Electrons") 1 p = .ok r := by
    intro b hb
    rw [hmem b hb]
    exact h4
  have hw : weightedAtoms x (fun _ => r) = r := by
    simp only [weightedAtoms, hx, withAtoms, List.map_cons, List.map_nil, List.zipWith_cons_cons, List.zipWith_nil_left, List.sum_cons, List.sum_nil]
    ring
  refine ⟨x, _, p, fun _ => r, rfl, rfl, fun b hb => ⟨hs b hb, h5⟩, C92_ionization_electrons rfl hs, by rw [hw]; exact h5⟩

end Obscura
