import Verif.Spec.Mixture
import Verif.Props.Composition
import Verif.Spec.CrossSections
import Mathlib.Analysis.SpecialFunctions.Integrals.Basic

/-!
# C92 — a mixture is the sum of its components
-/

open MeasureTheory

namespace Obscura

open Spec NuclearDetector

variable {U : Units} {T : Tools} {I : Integrator} {p : DMParticle} {h : Distribution} {d : Detector}

namespace Mixture

theorem pure_eq {n : Nucleus} {c : NuclearDetector} (hc : Alone n c) : c = compound [(n, 1)] 0 none := by
  obtain ⟨label, expo, d, hc⟩ := hc
  unfold NuclearDetector.make massFractions at hc
  rw [if_pos (.inl rfl)] at hc
  by_cases hm : n.averageMass = 0
  · simp [collect, vecGet, hm, fdiv, List.range_succ] at hc
  · simp [collect, vecGet, hm, fdiv, List.range_succ] at hc
    rw [← hc.2]
    rfl

theorem mixed_eq {l : List (Nucleus × ℝ)} {label : String} {expo : ℝ} {e : Detector} {nd : NuclearDetector}
    (hm : NuclearDetector.make label expo (l.map Prod.fst) (l.map Prod.snd) = .ok (e, nd)) :
    nd = compound (l.map fun x => (x.1, share l x)) 0 none := by
  classical
  rw [make_pairs] at hm
  split_ifs at hm
  cases hm
  rfl

theorem equipped_compound (l : List (Nucleus × ℝ)) (res : ℝ) (table : Option (ℝ → ℝ)) : equipped (compound l 0 none) res table = compound l res table := by
  cases table <;> rfl

theorem weighted_compound (l : List (Nucleus × ℝ)) (res : ℝ) (table : Option (ℝ → ℝ)) (r : Nucleus → ℝ) :
    weighted (compound l res table) r = (l.map fun x => x.2 * r x.1).sum := by
  unfold weighted compound
  simp only
  induction l with
  | nil => rfl
  | cons a l ih => simp only [List.map_cons, List.zipWith_cons_cons, List.sum_cons, ih]

/-- The rate of one element, from the rate of the detector that consists of it. -/
theorem rate_of_pure {n : Nucleus} {table : Option (ℝ → ℝ)} {res E ER r : ℝ}
    (h1 : (compound [(n, 1)] res table).theoryRate U I d E ER p h = .ok r) :
    ∃ x, dRdERNucleus U I ER p h n = .ok x ∧ r = table.elim 1 (fun f => f E) * d.flatEfficiency * x := by
  rw [theoryRate_compound] at h1
  simp only [sumOver, collect] at h1
  obtain ⟨xs, h1, h2⟩ := Outcome.bind_eq_ok.1 h1
  obtain ⟨y, h3, h4⟩ := Outcome.bind_eq_ok.1 h1
  obtain ⟨x, h5, h6⟩ := Outcome.bind_eq_ok.1 h3
  cases h6
  cases h4
  cases h2
  exact ⟨x, h5, by simp⟩

theorem theoryRate_mixed {l : List (Nucleus × ℝ)} {table : Option (ℝ → ℝ)} {res E ER : ℝ} {r : Nucleus → ℝ}
    (h1 : ∀ x ∈ l, (compound [(x.1, 1)] res table).theoryRate U I d E ER p h = .ok (r x.1)) :
    (compound l res table).theoryRate U I d E ER p h = .ok ((l.map fun x => x.2 * r x.1).sum) := by
  rw [theoryRate_compound, sumOver_ok (g := fun x => x.2 * r x.1)]
  intro x hx
  obtain ⟨y, h2, h3⟩ := rate_of_pure (h1 x hx)
  rw [h2, Outcome.bind_ok, h3]
  exact congrArg Outcome.ok (by ring)

theorem dRdE_small {l : List (Nucleus × ℝ)} {table : Option (ℝ → ℝ)} {res E : ℝ} (hres : res < 1 / 10 ^ 6 * U.eV) :
    (compound l res table).dRdE U I d E p h = (compound l res table).theoryRate U I d E E p h := by
  unfold dRdE
  rw [show (compound l res table).resolution = res from rfl, if_pos hres]

/-- Sums of integrals. -/
theorem integral_weighted {l : List (Nucleus × ℝ)} {f : Nucleus → ℝ → ℝ} {a b : ℝ} (hi : ∀ x ∈ l, IntervalIntegrable (f x.1) volume a b) :
    IntervalIntegrable (fun E => (l.map fun x => x.2 * f x.1 E).sum) volume a b ∧
    ∫ E in a..b, (l.map fun x => x.2 * f x.1 E).sum = (l.map fun x => x.2 * ∫ E in a..b, f x.1 E).sum := by
  induction l with
  | nil => simp
  | cons y l ih =>
    obtain ⟨h1, h2⟩ := ih fun x hx => hi x (by simp [hx])
    have h3 := (hi y (by simp)).const_mul y.2
    simp only [List.map_cons, List.sum_cons]
    refine ⟨h3.add h1, ?_⟩
    rw [intervalIntegral.integral_add h3 h1, h2, intervalIntegral.integral_const_mul]

end Mixture

open Mixture

variable {l : List (Nucleus × ℝ)} {label : String} {expo : ℝ} {e : Detector} {nd : NuclearDetector} {c : Nucleus → NuclearDetector}

/-- C92 (spectrum). The rate of a compound is the mean of the rates of its elements, weighted with the mass fractions, with the same table of
efficiencies or none. -/
theorem C92_spectrum (hm : NuclearDetector.make label expo (l.map Prod.fst) (l.map Prod.snd) = .ok (e, nd)) (hp : ∀ n ∈ l.map Prod.fst, Alone n (c n))
    {res : ℝ} (hres : res < 1 / 10 ^ 6 * U.eV) (table : Option (ℝ → ℝ)) {E : ℝ} {r : Nucleus → ℝ}
    (hr : ∀ n ∈ l.map Prod.fst, (equipped (c n) res table).dRdE U I d E p h = .ok (r n)) :
    (equipped nd res table).dRdE U I d E p h = .ok (weighted nd r) := by
  rw [mixed_eq hm, equipped_compound, dRdE_small hres, theoryRate_mixed (r := r), weighted_compound]
  intro x hx
  obtain ⟨y, hy, rfl⟩ := List.mem_map.1 hx
  have := hr y.1 (List.mem_map_of_mem hy)
  rwa [pure_eq (hp y.1 (List.mem_map_of_mem hy)), equipped_compound, dRdE_small hres] at this

/-- C92 (resolution). The same for spectra smeared by the resolution, if the integrals are exact and the spectra of the elements without
resolution can be integrated. -/
theorem C92_resolution (hI : I.Exact) (hm : NuclearDetector.make label expo (l.map Prod.fst) (l.map Prod.snd) = .ok (e, nd))
    (hp : ∀ n ∈ l.map Prod.fst, Alone n (c n)) (hd : ∀ n ∈ l.map Prod.fst, SpectrumDefined U I d p h (c n))
    {res : ℝ} (hres : 1 / 10 ^ 6 * U.eV ≤ res) (table : Option (ℝ → ℝ)) {E : ℝ} (hE : 0 ≤ E) :
    ∃ r : Nucleus → ℝ, (∀ n ∈ l.map Prod.fst, (equipped (c n) res table).dRdE U I d E p h = .ok (r n)) ∧
      (equipped nd res table).dRdE U I d E p h = .ok (weighted nd r) := by
  have hres0 : 0 < res := lt_of_lt_of_le (by have := U.eV_pos; positivity) hres
  set a := max (max (E - 6 * res) (d.energyThreshold - 3 * res)) (2 * res) with ha
  set b := E + 6 * res with hb
  have ha0 : 0 < a := lt_of_lt_of_le (by positivity) (le_max_right _ _)
  have hb0 : 0 < b := by positivity
  choose! f hf hi using hd
  set k : ℝ := table.elim 1 fun g => g E with hk
  have hf' : ∀ x ∈ l, ∀ ER, 0 < ER → ∃ y, dRdERNucleus U I ER p h x.1 = .ok y ∧ f x.1 ER = d.flatEfficiency * y := by
    intro x hx ER hER
    have := hf x.1 (List.mem_map_of_mem hx) ER hER
    rw [pure_eq (hp x.1 (List.mem_map_of_mem hx)), dRdE_small (by have := U.eV_pos; positivity)] at this
    obtain ⟨y, h1, h2⟩ := rate_of_pure this
    exact ⟨y, h1, by simpa using h2⟩
  -- the theoretical rate of any list of the elements
  have ht : ∀ l' : List (Nucleus × ℝ), (∀ x ∈ l', x.1 ∈ l.map Prod.fst) → ∀ ER, 0 < ER →
      (compound l' res table).theoryRate U I d E ER p h = .ok ((l'.map fun x => x.2 * (k * f x.1 ER)).sum) := by
    intro l' hl' ER hER
    rw [theoryRate_compound, sumOver_ok (g := fun x => x.2 * (k * f x.1 ER))]
    intro x hx
    obtain ⟨y, hy, hxy⟩ := List.mem_map.1 (hl' x hx)
    obtain ⟨z, h1, h2⟩ := hf' y hy ER hER
    rw [← hxy, h1, Outcome.bind_ok, h2]
    exact congrArg Outcome.ok (by ring)
  have hcont : Continuous fun ER => pdfGauss E ER res := by
    unfold pdfGauss
    fun_prop
  have hg : ∀ n ∈ l.map Prod.fst, IntervalIntegrable (fun ER => pdfGauss E ER res * (k * f n ER)) volume a b := fun n hn =>
    ((hi n hn a b ha0 hb0).const_mul k).continuousOn_mul hcont.continuousOn
  have hval : ∀ l' : List (Nucleus × ℝ), (∀ x ∈ l', x.1 ∈ l.map Prod.fst) → (compound l' res table).dRdE U I d E p h =
      .ok ((l'.map fun x => x.2 * ∫ ER in a..b, pdfGauss E ER res * (k * f x.1 ER)).sum) := by
    intro l' hl'
    unfold dRdE
    rw [show (compound l' res table).resolution = res from rfl, if_neg (not_lt.2 hres)]
    dsimp only
    rw [hI]
    refine congrArg Outcome.ok ?_
    rw [← (integral_weighted (f := fun n ER => pdfGauss E ER res * (k * f n ER)) fun x hx => hg x.1 (hl' x hx)).2]
    refine intervalIntegral.integral_congr fun ER hER => ?_
    have hER0 : 0 < ER := lt_of_lt_of_le (lt_min ha0 hb0) hER.1
    simp only [ht l' hl' ER hER0, Outcome.valueOr0]
    rw [← List.sum_map_mul_left]
    refine congrArg List.sum (List.map_congr_left fun x _ => ?_)
    ring
  refine ⟨fun n => ∫ ER in a..b, pdfGauss E ER res * (k * f n ER), fun n hn => ?_, ?_⟩
  · rw [pure_eq (hp n hn), equipped_compound, hval _ (by simpa using hn)]
    simp
  · rw [mixed_eq hm, equipped_compound, hval _ fun x hx => ?_, weighted_compound]
    obtain ⟨y, hy, rfl⟩ := List.mem_map.1 hx
    exact List.mem_map.2 ⟨y, hy, rfl⟩

namespace Mixture

/-- Spectra at positive energies, with or without resolution. -/
theorem spectra (hT : T.integrate.Exact) (hm : NuclearDetector.make label expo (l.map Prod.fst) (l.map Prod.snd) = .ok (e, nd))
    (hp : ∀ n ∈ l.map Prod.fst, Alone n (c n)) {res : ℝ} (table : Option (ℝ → ℝ))
    (hs : ∀ n ∈ l.map Prod.fst, SpectrumDefined U T.integrate d p h (equipped (c n) res table))
    (hd : 1 / 10 ^ 6 * U.eV ≤ res → ∀ n ∈ l.map Prod.fst, SpectrumDefined U T.integrate d p h (c n)) :
    ∃ f : Nucleus → ℝ → ℝ,
      (∀ n ∈ l.map Prod.fst, ∀ E, 0 < E → ((equipped (c n) res table).toClass U T h).dRdE d E p = f n E) ∧
      (∀ n ∈ l.map Prod.fst, ∀ a b, 0 < a → 0 < b → IntervalIntegrable (f n) volume a b) ∧
      ∀ E, 0 < E → ((equipped nd res table).toClass U T h).dRdE d E p = weighted nd fun n => f n E := by
  choose! f hf hi using hs
  refine ⟨f, fun n hn E hE => ?_, hi, fun E hE => ?_⟩
  · exact congrArg Outcome.valueOr0 (hf n hn E hE)
  · have key : (equipped nd res table).dRdE U T.integrate d E p h = .ok (weighted nd fun n => f n E) := by
      by_cases hres : res < 1 / 10 ^ 6 * U.eV
      · exact C92_spectrum hm hp hres table fun n hn => hf n hn E hE
      · obtain ⟨r, h1, h2⟩ := C92_resolution hT hm hp (hd (not_lt.1 hres)) (not_lt.1 hres) table hE.le
        rw [h2]
        refine congrArg Outcome.ok ?_
        rw [mixed_eq hm, weighted_compound, weighted_compound]
        refine congrArg List.sum (List.map_congr_left fun x hx => ?_)
        obtain ⟨y, hy, rfl⟩ := List.mem_map.1 hx
        have := (h1 y.1 (List.mem_map_of_mem hy)).symm.trans (hf y.1 (List.mem_map_of_mem hy) E hE)
        simp only [Outcome.ok.injEq] at this
        simp only [this]
    exact congrArg Outcome.valueOr0 key

theorem integral_mixed (hm : NuclearDetector.make label expo (l.map Prod.fst) (l.map Prod.snd) = .ok (e, nd)) {f : Nucleus → ℝ → ℝ} {a b : ℝ}
    (hi : ∀ n ∈ l.map Prod.fst, IntervalIntegrable (f n) volume a b) :
    ∫ E in a..b, weighted nd (fun n => f n E) = weighted nd fun n => ∫ E in a..b, f n E := by
  rw [mixed_eq hm]
  simp only [weighted_compound]
  refine (integral_weighted fun x hx => ?_).2
  obtain ⟨y, hy, rfl⟩ := List.mem_map.1 hx
  exact hi y.1 (List.mem_map_of_mem hy)

theorem weighted_mul (nd : NuclearDetector) (k : ℝ) (r : Nucleus → ℝ) : weighted nd (fun n => k * r n) = k * weighted nd r := by
  unfold weighted
  generalize nd.fractions = ws
  generalize nd.nuclei = ns
  induction ws generalizing ns with
  | nil => simp
  | cons w ws ih =>
    cases ns with
    | nil => simp
    | cons n ns =>
      simp only [List.zipWith_cons_cons, List.sum_cons, ih]
      ring

theorem getD_lt {ys : List ℝ} {i : ℕ} (hi : i < ys.length) : ys.getD i 0 = ys[i] := by
  simp [List.getD_eq_getElem?_getD, hi]

theorem total_value {nd : NuclearDetector} (ha : d.analysis ≠ .binnedPoisson) (h0 : 0 < d.energyThreshold) (h1 : d.energyThreshold ≤ d.energyMax)
    (hT : InterpolatedExactly U T d p h nd) : (nd.toClass U T h).signalsTotal d p =
      .ok (d.exposure * ∫ E in d.energyThreshold..d.energyMax, (nd.toClass U T h).dRdE d E p) := by
  rw [← hT]
  unfold toClass DetectorClass.base Detector.baseSignalsTotal
  dsimp only
  rw [if_neg ha, if_neg (by
    rintro (h | h)
    · exact absurd h0 (not_lt.2 h)
    · exact absurd (lt_of_lt_of_le h0 h1) (not_lt.2 h))]

end Mixture

/-- C92 (events). The number of events expected in a window of energies is the weighted mean of those in detectors with one of the elements, the
same exposure and the same window, if integrals and interpolations are exact. -/
theorem C92_events (hT : T.integrate.Exact) (hm : NuclearDetector.make label expo (l.map Prod.fst) (l.map Prod.snd) = .ok (e, nd))
    (hp : ∀ n ∈ l.map Prod.fst, Alone n (c n)) {res : ℝ} (table : Option (ℝ → ℝ))
    (hs : ∀ n ∈ l.map Prod.fst, SpectrumDefined U T.integrate d p h (equipped (c n) res table))
    (hd : 1 / 10 ^ 6 * U.eV ≤ res → ∀ n ∈ l.map Prod.fst, SpectrumDefined U T.integrate d p h (c n))
    (ha : d.analysis ≠ .binnedPoisson) (h0 : 0 < d.energyThreshold) (h1 : d.energyThreshold ≤ d.energyMax)
    (hx : InterpolatedExactly U T d p h (equipped nd res table))
    (hx' : ∀ n ∈ l.map Prod.fst, InterpolatedExactly U T d p h (equipped (c n) res table)) :
    ∃ s : Nucleus → ℝ, (∀ n ∈ l.map Prod.fst, ((equipped (c n) res table).toClass U T h).signalsTotal d p = .ok (s n)) ∧
      ((equipped nd res table).toClass U T h).signalsTotal d p = .ok (weighted nd s) := by
  obtain ⟨f, hf, hi, hmix⟩ := spectra hT hm hp table hs hd
  have hpos : ∀ E ∈ Set.uIcc d.energyThreshold d.energyMax, 0 < E := fun E hE => lt_of_lt_of_le (lt_min h0 (h0.trans_le h1)) hE.1
  refine ⟨fun n => d.exposure * ∫ E in d.energyThreshold..d.energyMax, f n E, fun n hn => ?_, ?_⟩
  · rw [total_value ha h0 h1 (hx' n hn), intervalIntegral.integral_congr fun E hE => hf n hn E (hpos E hE)]
  · rw [total_value ha h0 h1 hx, intervalIntegral.integral_congr fun E hE => hmix E (hpos E hE),
      integral_mixed hm fun n hn => hi n hn _ _ h0 (h0.trans_le h1), weighted_mul]

/-- C92 (bins). The same in every bin of energies. -/
theorem C92_bins (hT : T.integrate.Exact) (hm : NuclearDetector.make label expo (l.map Prod.fst) (l.map Prod.snd) = .ok (e, nd))
    (hp : ∀ n ∈ l.map Prod.fst, Alone n (c n)) {res : ℝ} (table : Option (ℝ → ℝ))
    (hs : ∀ n ∈ l.map Prod.fst, SpectrumDefined U T.integrate d p h (equipped (c n) res table))
    (hd : 1 / 10 ^ 6 * U.eV ≤ res → ∀ n ∈ l.map Prod.fst, SpectrumDefined U T.integrate d p h (c n))
    (ha : d.analysis = .binnedPoisson) (hb : d.usingEnergyBins = true) (hl : d.binEnergies.length = d.bins + 1) (hl' : d.binEfficiencies.length = d.bins)
    (h0 : ∀ E ∈ d.binEnergies, 0 < E) :
    ∃ s : Nucleus → ℕ → ℝ,
      (∀ n ∈ l.map Prod.fst, ((equipped (c n) res table).toClass U T h).signalsBinned d p = .ok ((List.range d.bins).map (s n))) ∧
      ((equipped nd res table).toClass U T h).signalsBinned d p = .ok ((List.range d.bins).map fun i => weighted nd fun n => s n i) := by
  obtain ⟨f, hf, hi, hmix⟩ := spectra hT hm hp table hs hd
  have hlo : ∀ i, i < d.bins → d.binEnergies.getD i 0 ∈ d.binEnergies ∧ d.binEnergies.getD (i + 1) 0 ∈ d.binEnergies := by
    intro i hi
    rw [getD_lt (by omega), getD_lt (by omega)]
    exact ⟨List.getElem_mem _, List.getElem_mem _⟩
  have hval : ∀ k : NuclearDetector, (k.toClass U T h).signalsBinned d p = .ok ((List.range d.bins).map fun i =>
      d.binEfficiencies.getD i 0 * (d.exposure * ∫ E in (d.binEnergies.getD i 0)..(d.binEnergies.getD (i + 1) 0), (k.toClass U T h).dRdE d E p)) := by
    intro k
    unfold toClass DetectorClass.base Detector.baseSignalsBinned Detector.signalsEnergyBins
    dsimp only
    rw [if_neg (not_not.2 ha), if_pos hb, if_neg (by simp [hb])]
    refine collect_ok fun i hi => ?_
    have hi : i < d.bins := List.mem_range.1 hi
    rw [vecGet_lt (by omega), Outcome.bind_ok, vecGet_lt (by omega), Outcome.bind_ok, vecGet_lt (by omega), Outcome.bind_ok, hT,
      getD_lt (by omega), getD_lt (by omega), getD_lt (by omega)]
  have hpos : ∀ i, i < d.bins → ∀ E ∈ Set.uIcc (d.binEnergies.getD i 0) (d.binEnergies.getD (i + 1) 0), 0 < E := fun i hi E hE =>
    lt_of_lt_of_le (lt_min (h0 _ (hlo i hi).1) (h0 _ (hlo i hi).2)) hE.1
  refine ⟨fun n i => d.binEfficiencies.getD i 0 * (d.exposure * ∫ E in (d.binEnergies.getD i 0)..(d.binEnergies.getD (i + 1) 0), f n E),
    fun n hn => ?_, ?_⟩
  · rw [hval]
    refine congrArg Outcome.ok (List.map_congr_left fun i hi => ?_)
    rw [intervalIntegral.integral_congr fun E hE => hf n hn E (hpos i (List.mem_range.1 hi) E hE)]
  · rw [hval]
    refine congrArg Outcome.ok (List.map_congr_left fun i hi' => ?_)
    have hib := List.mem_range.1 hi'
    rw [intervalIntegral.integral_congr fun E hE => hmix E (hpos i hib E hE),
      integral_mixed hm fun n hn => hi n hn _ _ (h0 _ (hlo i hib).1) (h0 _ (hlo i hib).2), weighted_mul, weighted_mul]

end Obscura
