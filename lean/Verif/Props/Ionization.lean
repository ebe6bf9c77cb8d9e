import Verif.Props.Atom
import Verif.Props.Crystal

/-!
# Properties C38, C39, C47, C48, C49, C65 for ionization detectors
-/

namespace Obscura

open Spec MeasureTheory

variable {U : Units} {S : ShellRate} {T : Tools} {p : DMParticle} {h : Distribution} {e : AtomicElectron} {a : Atom}

/-! ## C47 — the number of electrons -/

theorem pdfNe_eq {ne sec : ℕ} {E W : ℝ} (hE : 0 ≤ E) (hW : 0 < W) (hmax : (sec : ℝ) + E / W < 2 ^ 32 - 1) (hne : ne < 2 ^ 32) :
    pdfNe ne E W sec = .ok (releaseProbability (sec + ⌊E / W⌋₊) ne) := by
  have hx : 0 ≤ E / W := by positivity
  have hs : (0 : ℝ) ≤ sec := by positivity
  unfold pdfNe
  dsimp only
  rw [fdiv_ok hW.ne', Outcome.bind_ok]
  have h1 : (sec : ℝ) + ⌊E / W⌋ = ((sec + ⌊E / W⌋₊ : ℕ) : ℝ) := by
    rw [← Int.natCast_floor_eq_floor hx]; push_cast; rfl
  have h2 : ((sec + ⌊E / W⌋₊ : ℕ) : ℝ) < 2 ^ 32 - 1 := by
    have := Nat.floor_le hx
    push_cast; linarith
  have h3 : sec + ⌊E / W⌋₊ < 2 ^ 32 - 1 := by
    have : ((sec + ⌊E / W⌋₊ : ℕ) : ℝ) + 1 < ((2 ^ 32 : ℕ) : ℝ) := by push_cast at h2 ⊢; linarith
    have : sec + ⌊E / W⌋₊ + 1 < 2 ^ 32 := by exact_mod_cast this
    omega
  rw [h1]
  generalize sec + ⌊E / W⌋₊ = N at *
  have h4 : toUIntConv (N : ℝ) = .ok N := by
    unfold toUIntConv
    rw [if_neg (by push Not; exact ⟨by have : (0 : ℝ) ≤ N := by positivity
                                       linarith, by linarith⟩), Nat.floor_natCast]
  rw [h4, Outcome.bind_ok, Outcome.ok.injEq]
  unfold pmfBinomial
  cases ne with
  | zero =>
    have : usub32 0 1 = 2 ^ 32 - 1 := by rw [usub32_lt (by omega)]; omega
    rw [this, Nat.choose_eq_zero_of_lt h3]
    simp [releaseProbability]
  | succ n =>
    rw [usub32_le (by omega), Nat.add_sub_cancel]
    simp only [releaseProbability]
    norm_num

theorem releaseProbability_nonneg (N n : ℕ) : 0 ≤ releaseProbability N n := by
  cases n with
  | zero => exact le_rfl
  | succ n => unfold releaseProbability; positivity

theorem releaseProbability_zero {N n : ℕ} (hn : N + 1 < n) : releaseProbability N n = 0 := by
  cases n with
  | zero => rfl
  | succ n => simp only [releaseProbability]; rw [Nat.choose_eq_zero_of_lt (by omega)]; simp

theorem releaseProbability_sum {N M : ℕ} (hM : N + 1 ≤ M) : ∑ n ∈ Finset.Icc 1 M, releaseProbability N n = 1 := by
  have h1 : ∑ n ∈ Finset.Icc 1 M, releaseProbability N n = ∑ n ∈ Finset.Icc 1 (N + 1), releaseProbability N n := by
    symm
    refine Finset.sum_subset (Finset.Icc_subset_Icc_right hM) fun n hn hn' => releaseProbability_zero ?_
    simp only [Finset.mem_Icc, not_and, not_le] at hn hn'
    exact hn' hn.1
  rw [h1]
  have h2 := (add_pow (5 / 6 : ℝ) (1 / 6) N).symm
  norm_num at h2
  have h3 : Finset.Icc 1 (N + 1) = (Finset.range (N + 1)).map (addRightEmbedding 1) := by
    ext n
    simp only [Finset.mem_Icc, Finset.mem_map, Finset.mem_range, addRightEmbedding_apply]
    exact ⟨fun h => ⟨n - 1, by omega, by omega⟩, fun ⟨k, h, h'⟩ => by omega⟩
  rw [h3, Finset.sum_map, ← h2]
  refine Finset.sum_congr rfl fun n _ => ?_
  simp only [addRightEmbedding_apply, releaseProbability]
  norm_num
  ring

/-- C47: for every energy and work function the numbers of electrons have a probability distribution: nothing is negative, the
probabilities of `1, …, N + 1` electrons add up to one and there is nothing else. `N` counts the secondary electrons of the shell and the
multiples of the work function in the energy. -/
theorem C47_distribution {sec : ℕ} {E W : ℝ} (hE : 0 ≤ E) (hW : 0 < W) (hmax : (sec : ℝ) + E / W < 2 ^ 32 - 1) :
    ∃ P : ℕ → ℝ, (∀ ne < 2 ^ 32, pdfNe ne E W sec = .ok (P ne)) ∧ (∀ ne, 0 ≤ P ne) ∧
      (∑ ne ∈ Finset.Icc 1 (sec + ⌊E / W⌋₊ + 1), P ne) = 1 ∧ P 0 = 0 ∧ ∀ ne, sec + ⌊E / W⌋₊ + 1 < ne → P ne = 0 :=
  ⟨releaseProbability (sec + ⌊E / W⌋₊), fun _ h => pdfNe_eq hE hW hmax h, releaseProbability_nonneg _, releaseProbability_sum le_rfl, rfl,
    fun _ h => releaseProbability_zero h⟩

/-- C47 (which distribution): each of the `N` electrons besides the primary one is released with probability 5/6. -/
theorem C47_binomial {sec n : ℕ} {E W : ℝ} (hE : 0 ≤ E) (hW : 0 < W) (hmax : (sec : ℝ) + E / W < 2 ^ 32 - 1) (hn : n + 1 < 2 ^ 32) :
    pdfNe (n + 1) E W sec =
      .ok ((sec + ⌊E / W⌋₊).choose n * (5 / 6) ^ n * (1 / 6) ^ (sec + ⌊E / W⌋₊ - n)) :=
  pdfNe_eq hE hW hmax hn

/-- C47 (failures): a vanishing work function or an energy of more than `2^32` work functions. -/
theorem C47_failures (ne sec : ℕ) (E W : ℝ) :
    pdfNe ne E 0 sec = .nonfinite ∧ (0 < W → 2 ^ 32 + 1 ≤ E / W → pdfNe ne E W sec = .ub) := by
  constructor
  · unfold pdfNe; simp [fdiv]
  · intro hW hE
    unfold pdfNe
    dsimp only
    rw [fdiv_ok hW.ne', Outcome.bind_ok]
    have h1 := Int.lt_floor_add_one (E / W)
    have hs : (0 : ℝ) ≤ sec := by positivity
    unfold toUIntConv
    rw [if_pos (.inr (by linarith))]
    rfl

/-- Non-vacuity: 30 eV of energy in xenon. -/
example : pdfNe 2 30 13.8 4 = .ok ((6 : ℕ).choose 1 * (5 / 6) ^ 1 * (1 / 6) ^ 5) := by
  have h : ⌊(30 : ℝ) / 13.8⌋₊ = 2 := by rw [Nat.floor_eq_iff (by norm_num)]; norm_num
  have := C47_binomial (sec := 4) (n := 1) (E := 30) (W := 13.8) (by norm_num) (by norm_num) (by norm_num) (by norm_num)
  rw [h] at this
  exact this

/-! ## C65 — the electron spectrum -/

theorem log10_weight (hb : BuiltShell e) : Real.log 10 * e.dlogk = Real.log (e.kMax / e.kMin) / ((e.kGrid.length : ℝ) - 1) := by
  obtain ⟨P, t, el, N, L, B, k0, k1, q0, q1, s, h1, h2, _, _, hm⟩ := hb
  obtain ⟨_, _, _, _, _, _, _, _, _, _, e1, e2, _, _, nk, nq, _, _, _, _, e3, _, e4, _⟩ := AtomicElectron.make_eq hm
  rw [e1, e2, e3, e4, logSpace_length]
  unfold log10
  have : Real.log 10 ≠ 0 := by
    have := Real.log_pos (show (1 : ℝ) < 10 by norm_num)
    exact this.ne'
  field_simp

/-- The values of `R_ne` for a shell. -/
theorem rNeShell_eq {d : Detector} {n : Nucleus} {W : ℝ} (hb : BuiltShell e) (hW : 0 < W) {ne : ℕ} (hne : ne < 2 ^ 32) {g : ℝ → ℝ}
    (hmax : ∀ k ∈ e.kGrid, (e.secondaries : ℝ) + k ^ 2 / (2 * U.mElectron) / W < 2 ^ 32 - 1)
    (hg : ∀ k ∈ e.kGrid, S d (k ^ 2 / (2 * U.mElectron)) p n e = .ok (g (k ^ 2 / (2 * U.mElectron)))) :
    IonizationDetector.rNeShell U S d ne p W n e =
      .ok (spectrumSum U e fun E => releaseProbability (extraElectrons e W E) ne * g E) := by
  have hme := U.mElectron_pos
  unfold IonizationDetector.rNeShell spectrumSum
  refine sumOver_ok fun k hk => ?_
  have hE : k * k / 2 / U.mElectron = k ^ 2 / (2 * U.mElectron) := by rw [div_div, sq]
  dsimp only
  rw [hE, pdfNe_eq (by positivity) hW (hmax k hk) hne, Outcome.bind_ok, hg k hk, Outcome.bind_ok, Outcome.ok.injEq, ← log10_weight hb]
  unfold extraElectrons
  ring

/-- C65: `R_ne` of a shell is the integral over the electron energy of the energy spectrum weighted with the probability to release `ne`
electrons; summed over the numbers of electrons it is the integral of the energy spectrum itself: no event is lost and none is counted
twice. -/
theorem C65_shell {d : Detector} {n : Nucleus} {W : ℝ} (hb : BuiltShell e) (hW : 0 < W) {g : ℝ → ℝ}
    (hg : ∀ k ∈ e.kGrid, S d (k ^ 2 / (2 * U.mElectron)) p n e = .ok (g (k ^ 2 / (2 * U.mElectron)))) {M : ℕ} (hM : M < 2 ^ 32)
    (hmax : ∀ k ∈ e.kGrid, (e.secondaries : ℝ) + k ^ 2 / (2 * U.mElectron) / W ≤ (M : ℝ) - 1) :
    ∃ r : ℕ → ℝ, (∀ ne < 2 ^ 32, IonizationDetector.rNeShell U S d ne p W n e = .ok (r ne)) ∧
      (∀ ne, r ne = spectrumSum U e fun E => releaseProbability (extraElectrons e W E) ne * g E) ∧
      ∑ ne ∈ Finset.Icc 1 M, r ne = spectrumSum U e g := by
  have hme := U.mElectron_pos
  have hM' : (M : ℝ) < 2 ^ 32 := by exact_mod_cast hM
  refine ⟨fun ne => spectrumSum U e fun E => releaseProbability (extraElectrons e W E) ne * g E, fun ne hne =>
    rNeShell_eq hb hW hne (fun k hk => by have := hmax k hk; linarith) hg, fun _ => rfl, ?_⟩
  unfold spectrumSum
  have hswap : ∀ (l : List ℝ) (f : ℕ → ℝ → ℝ), ∑ ne ∈ Finset.Icc 1 M, (l.map (f ne)).sum = (l.map fun k => ∑ ne ∈ Finset.Icc 1 M, f ne k).sum := by
    intro l f
    induction l with
    | nil => simp
    | cons k l ih => simp [Finset.sum_add_distrib, ih]
  rw [hswap]
  congr 1
  refine List.map_congr_left fun k hk => ?_
  rw [← Finset.sum_mul, ← Finset.sum_mul, ← Finset.sum_mul, releaseProbability_sum, one_mul]
  have h1 := hmax k hk
  have h2 := Nat.floor_le (show 0 ≤ k ^ 2 / (2 * U.mElectron) / W by positivity)
  have h3 : ((e.secondaries + ⌊k ^ 2 / (2 * U.mElectron) / W⌋₊ : ℕ) : ℝ) + 1 ≤ M := by push_cast; linarith
  unfold extraElectrons
  exact_mod_cast h3

namespace IonizationDetector

variable {d d' : Detector} {x x' : IonizationDetector}

/-- C65 (detector): the spectrum of the detector is the sum over atoms, weighted with their mass fractions, and over shells. -/
theorem C65_detector {ne : ℕ} {r : Atom → AtomicElectron → ℝ} (hl : x.fractions.length = x.atoms.length)
    (hr : ∀ a ∈ x.atoms, ∀ e ∈ a.electrons, rNeShell U S d ne p a.W a.nucleus e = .ok (r a e)) :
    x.rNe U S d ne p =
      .ok (∑ i : Fin x.atoms.length, x.fractions.getD i 0 * (x.atoms[i].electrons.map fun e => r x.atoms[i] e).sum) := by
  unfold rNe
  rw [sumOver_ok (g := fun i => if hi : i < x.atoms.length then x.fractions.getD i 0 * (x.atoms[i].electrons.map fun e => r x.atoms[i] e).sum
    else 0)]
  · rw [range_sum, Finset.sum_range, Outcome.ok.injEq]
    refine Finset.sum_congr rfl fun i _ => ?_
    rw [dif_pos i.2]
    rfl
  · intro i hi
    have hi := List.mem_range.1 hi
    rw [vecGet_lt hi, Outcome.bind_ok, Detector.vecGet_getD (show i < x.fractions.length by omega) 0, Outcome.bind_ok, dif_pos hi]
    unfold rNeAtom
    rw [sumOver_ok (g := fun e => r x.atoms[i] e) fun e he => hr _ (List.getElem_mem hi) e he]
    rfl

/-- C65 (energy spectrum): the same for `dRdE`. -/
theorem C65_energy_spectrum {E : ℝ} {r : Atom → AtomicElectron → ℝ} (hl : x.fractions.length = x.atoms.length)
    (hr : ∀ a ∈ x.atoms, ∀ e ∈ a.electrons, S d E p a.nucleus e = .ok (r a e)) :
    x.dRdE S d E p =
      .ok (∑ i : Fin x.atoms.length, x.fractions.getD i 0 * (x.atoms[i].electrons.map fun e => r x.atoms[i] e).sum) := by
  unfold dRdE
  rw [sumOver_ok (g := fun i => if hi : i < x.atoms.length then x.fractions.getD i 0 * (x.atoms[i].electrons.map fun e => r x.atoms[i] e).sum
    else 0)]
  · rw [range_sum, Finset.sum_range, Outcome.ok.injEq]
    refine Finset.sum_congr rfl fun i _ => ?_
    rw [dif_pos i.2]
    rfl
  · intro i hi
    have hi := List.mem_range.1 hi
    rw [vecGet_lt hi, Outcome.bind_ok, Detector.vecGet_getD (show i < x.fractions.length by omega) 0, Outcome.bind_ok, dif_pos hi]
    unfold dRdEAtom
    rw [sumOver_ok (g := fun e => r x.atoms[i] e) fun e he => hr _ (List.getElem_mem hi) e he]
    rfl

/-! ## C39 — mass fractions -/

/-- C39 (ionization detectors): without mass fractions all atoms have the same share; given ones are kept if they add up to at most one
and are scaled to add up to one otherwise; a list of the wrong length ends the program. -/
theorem C39_ionization (n : ℕ) (given : List ℝ) :
    (given = [] → massFractions n given = .ok (List.replicate n (1 / (n : ℝ))) ∧ (0 < n → (List.replicate n (1 / (n : ℝ))).sum = 1)) ∧
    (given ≠ [] → given.length ≠ n → massFractions n given = .exit) ∧
    (given ≠ [] → given.length = n → given.sum ≤ 1 → massFractions n given = .ok given) ∧
    (given.length = n → 1 < given.sum → ∃ fr, massFractions n given = .ok fr ∧ fr.sum = 1 ∧ fr.length = n ∧
      ∀ i, fr.getD i 0 = given.getD i 0 / given.sum) := by
  unfold massFractions
  refine ⟨?_, ?_, ?_, ?_⟩
  · rintro rfl
    refine ⟨by simp, fun hn => ?_⟩
    have : (0 : ℝ) < n := by exact_mod_cast hn
    simp [this.ne']
  · intro h1 h2
    rw [if_neg (by simpa using h1), if_pos h2]
  · intro h1 h2 h3
    rw [if_neg (by simpa using h1), if_neg (by simpa using h2)]
    dsimp only
    rw [foldl_add_eq_sum, if_neg (not_lt.2 h3)]
  · intro h2 h3
    have h1 : given ≠ [] := by rintro rfl; simp at h3; linarith
    rw [if_neg (by simpa using h1), if_neg (by simpa using h2)]
    dsimp only
    rw [foldl_add_eq_sum, if_pos h3]
    refine ⟨_, rfl, ?_, by simpa using h2, fun i => ?_⟩
    · have : ∀ (l : List ℝ) (c : ℝ), (l.map fun y => y / c).sum = l.sum / c := fun l c => by
        induction l with
        | nil => simp
        | cons a l ih => simp [ih, add_div]
      rw [this, div_self (by linarith)]
    · rw [List.getD_eq_getElem?_getD, List.getD_eq_getElem?_getD, List.getElem?_map]
      cases given[i]? <;> simp

/-- A detector from the constructor has a fraction for every atom, and nothing chosen yet. -/
theorem built_facts {s : Detector × IonizationDetector} (hs : BuiltIonization U s) :
    s.2.fractions.length = s.2.atoms.length ∧ (∀ a ∈ s.2.atoms, BuiltAtom U a) ∧
    s.2.usingElectronThreshold = false ∧ s.2.usingElectronBins = false ∧ s.2.usingS2Threshold = false ∧ s.2.usingS2Bins = false ∧
    s.1.usingEnergyThreshold = false ∧ s.1.usingEnergyBins = false ∧ s.1.analysis = .poisson := by
  rcases hs with ⟨P, tb, f, c, l, ex, t, at', c', hs⟩ | ⟨P, tb, f, c, l, ex, t, ats, given, c', hs⟩
  · obtain ⟨⟨c1, a⟩, h1, h2⟩ := Outcome.bind_eq_ok.1 hs
    cases h2
    refine ⟨rfl, ?_, rfl, rfl, rfl, rfl, rfl, rfl, rfl⟩
    intro b hb
    simp only [initial, List.mem_singleton] at hb
    subst hb
    exact ⟨P, tb, f, c, at', _, h1⟩
  · obtain ⟨⟨c1, as⟩, h1, h2⟩ := Outcome.bind_eq_ok.1 hs
    obtain ⟨fr, h3, h4⟩ := Outcome.bind_eq_ok.1 h2
    cases h4
    refine ⟨?_, ?_, rfl, rfl, rfl, rfl, rfl, rfl, rfl⟩
    · change fr.length = as.length
      unfold massFractions at h3
      dsimp only at h3
      split_ifs at h3 with h5 h6 h7
      · cases h3; simp
      · cases h3; simpa using h6
      · cases h3; simpa using h6
    · change ∀ a ∈ as, BuiltAtom U a
      clear hs h2 h3
      induction ats generalizing c c' as with
      | nil => cases h1; simp
      | cons n ns ih =>
        obtain ⟨⟨c2, a⟩, h5, h6⟩ := Outcome.bind_eq_ok.1 h1
        obtain ⟨⟨c3, as'⟩, h7, h8⟩ := Outcome.bind_eq_ok.1 h6
        cases h8
        intro b hb
        rcases List.mem_cons.1 hb with rfl | hb
        · exact ⟨P, tb, f, c, n, _, h5⟩
        · exact ih _ _ _ h7 b hb

theorem useElectronThreshold_ok {n m : ℕ} (hu : useElectronThreshold d x n m = .ok (d', x')) :
    n ≤ (if 0 < m ∧ n < m then m else 100) ∧ d' = { d.initializePoisson with usingEnergyThreshold := false } ∧
    x' = { x with usingElectronThreshold := true, usingS2Threshold := false, neThreshold := n, neMax := if 0 < m ∧ n < m then m else 100 } := by
  unfold useElectronThreshold at hu
  dsimp only at hu
  generalize (if 0 < m ∧ n < m then m else 100) = k at *
  split_ifs at hu with h1
  cases hu
  exact ⟨not_lt.1 h1, rfl, rfl⟩

theorem useElectronBins_ok {n N : ℕ} (hu : useElectronBins d x n N = .ok (d', x')) :
    d.analysis ≠ .binnedPoisson ∧ d'.analysis = .binnedPoisson ∧ d'.bins = N ∧ d'.binEfficiencies = List.replicate N 1 ∧
    d'.usingEnergyBins = d.usingEnergyBins ∧ d'.usingEnergyThreshold = d.usingEnergyThreshold ∧ d'.exposure = d.exposure ∧
    d'.energyThreshold = d.energyThreshold ∧ d'.binEnergies = d.binEnergies ∧
    ∃ k, x' = { x with usingElectronBins := true, neThreshold := n, neMax := k } := by
  unfold useElectronBins Detector.initializeBinned at hu
  by_cases h1 : d.analysis = .binnedPoisson
  · rw [if_pos h1] at hu; cases hu
  · rw [if_neg h1, Outcome.bind_ok] at hu
    dsimp only at hu
    split_ifs at hu
    cases hu
    exact ⟨h1, rfl, rfl, rfl, rfl, rfl, rfl, rfl, rfl, _, rfl⟩

theorem usePEThreshold_ok {mu sigma : ℝ} {n m : ℕ} (hu : usePEThreshold d x mu sigma n m = .ok (d', x')) :
    n ≤ m ∧ d' = { d.initializePoisson with usingEnergyThreshold := false } ∧
    x' = { x with usingS2Threshold := true, usingElectronThreshold := false, s2Mu := mu, s2Sigma := sigma, peThreshold := n, peMax := m } := by
  unfold usePEThreshold at hu
  split_ifs at hu with h1
  cases hu
  exact ⟨not_lt.1 h1, rfl, rfl⟩

theorem usePEBins_ok {mu sigma : ℝ} {ranges : List ℕ} (hu : usePEBins d x mu sigma ranges = .ok (d', x')) :
    d.analysis ≠ .binnedPoisson ∧ d'.analysis = .binnedPoisson ∧ d'.bins = toUInt32 ((ranges.length : ℤ) - 1) ∧
    d'.binEfficiencies = List.replicate d'.bins 1 ∧ d'.usingEnergyBins = d.usingEnergyBins ∧ d'.exposure = d.exposure ∧
    x' = { x with usingS2Bins := true, s2Mu := mu, s2Sigma := sigma, s2Bins := ranges } := by
  unfold usePEBins Detector.initializeBinned at hu
  by_cases h1 : d.analysis = .binnedPoisson
  · rw [if_pos h1] at hu; cases hu
  · rw [if_neg h1, Outcome.bind_ok] at hu
    cases hu
    exact ⟨h1, rfl, rfl, rfl, rfl, rfl, rfl⟩

/-- No configuration call changes the targets. -/
theorem run_atoms {s s' : Detector × IonizationDetector} {ops : List Op} (hr : run s ops = .ok s') :
    s'.2.atoms = s.2.atoms ∧ s'.2.fractions = s.2.fractions := by
  induction ops generalizing s with
  | nil => cases hr; exact ⟨rfl, rfl⟩
  | cons op ops ih =>
    obtain ⟨s₁, h1, h2⟩ := Outcome.bind_eq_ok.1 hr
    obtain ⟨h3, h4⟩ := ih h2
    rw [h3, h4]
    cases op with
    | base op =>
      obtain ⟨d₁, _, h3⟩ := Outcome.bind_eq_ok.1 h1
      cases h3; exact ⟨rfl, rfl⟩
    | useElectronThreshold n m =>
      have := (useElectronThreshold_ok (d' := s₁.1) (x' := s₁.2) h1).2.2
      rw [this]; exact ⟨rfl, rfl⟩
    | useElectronBins n m =>
      obtain ⟨_, _, _, _, _, _, _, _, _, k, this⟩ := useElectronBins_ok (d' := s₁.1) (x' := s₁.2) h1
      rw [this]; exact ⟨rfl, rfl⟩
    | usePEThreshold _ _ n m =>
      have := (usePEThreshold_ok (d' := s₁.1) (x' := s₁.2) h1).2.2
      rw [this]; exact ⟨rfl, rfl⟩
    | usePEBins _ _ l =>
      obtain ⟨_, _, _, _, _, _, this⟩ := usePEBins_ok (d' := s₁.1) (x' := s₁.2) h1
      rw [this]; exact ⟨rfl, rfl⟩
    | importTrigger l =>
      obtain ⟨x₁, h5, h6⟩ := Outcome.bind_eq_ok.1 h1
      cases h6
      unfold IonizationDetector.importTrigger at h5
      split_ifs at h5
      cases h5; exact ⟨rfl, rfl⟩
    | importAcceptance l =>
      obtain ⟨x₁, h5, h6⟩ := Outcome.bind_eq_ok.1 h1
      cases h6
      unfold IonizationDetector.importAcceptance at h5
      split_ifs at h5
      cases h5; exact ⟨rfl, rfl⟩

/-- What holds for every detector that can be reached. -/
theorem reachable_facts {s : Detector × IonizationDetector} (hs : ReachableIonization U s) :
    s.2.fractions.length = s.2.atoms.length ∧ ∀ a ∈ s.2.atoms, BuiltAtom U a := by
  obtain ⟨s₀, ops, hb, hr⟩ := hs
  obtain ⟨h1, h2⟩ := run_atoms hr
  obtain ⟨h3, h4, _⟩ := built_facts hb
  rw [h1, h2]
  exact ⟨h3, h4⟩

/-! ## C49 — the electron threshold -/

theorem range'_sum (f : ℕ → ℝ) (n m : ℕ) : ((List.range' n (m + 1 - n)).map f).sum = ∑ k ∈ Finset.Icc n m, f k := rfl

/-- The signals after `Use_Electron_Threshold`. -/
theorem threshold_signals {n m : ℕ} (hu : useElectronThreshold d x n m = .ok (d', x')) {r : ℕ → ℝ}
    (hr : ∀ ne, n ≤ ne → ne ≤ max m 100 → x'.rNe U S d' ne p = .ok (r ne)) :
    x'.signalsTotal U S T d' p h = .ok (d.exposure * ∑ ne ∈ Finset.Icc n (if 0 < m ∧ n < m then m else 100), r ne) := by
  obtain ⟨_, h2, h3⟩ := useElectronThreshold_ok hu
  unfold signalsTotal
  rw [if_neg (by rw [h2]; simp [Detector.initializePoisson]), if_pos (by rw [h3]), sumOver_ok (g := fun ne => d.exposure * r ne)]
  · rw [h3]
    dsimp only
    rw [range'_sum, Finset.mul_sum]
  · intro ne hne
    rw [h3, List.mem_range'_1] at hne
    dsimp only at hne
    rw [hr ne (by omega) (by split_ifs at hne <;> omega), h2]
    rfl

/-- C49 (guarded): `Use_Electron_Threshold(n, m)` with `m > n` counts exactly the events with `n, …, m` electrons, and without a second
argument those with `n, …, 100` electrons, whatever was chosen before. -/
theorem C49_window_partial {n m : ℕ} (hu : useElectronThreshold d x n m = .ok (d', x')) {r : ℕ → ℝ}
    (hr : ∀ ne, n ≤ ne → ne ≤ max m 100 → x'.rNe U S d' ne p = .ok (r ne)) :
    (n < m → x'.signalsTotal U S T d' p h = .ok (d.exposure * ∑ ne ∈ Finset.Icc n m, r ne)) ∧
    (m = 0 → x'.signalsTotal U S T d' p h = .ok (d.exposure * ∑ ne ∈ Finset.Icc n 100, r ne)) := by
  constructor
  · intro hm
    have := threshold_signals (T := T) (h := h) hu hr
    rwa [if_pos ⟨by omega, hm⟩] at this
  · intro hm
    have := threshold_signals (T := T) (h := h) hu hr
    rwa [if_neg (by omega)] at this

/-- C49 (acceptance): a window is accepted unless it is empty; without an upper end that means a threshold above 100. -/
theorem C49_accepted (d : Detector) (x : IonizationDetector) (n m : ℕ) :
    (n < m → ∃ s, useElectronThreshold d x n m = .ok s) ∧ (m = 0 → n ≤ 100 → ∃ s, useElectronThreshold d x n m = .ok s) ∧
    (m = 0 → 100 < n → useElectronThreshold d x n m = .exit) := by
  unfold useElectronThreshold
  dsimp only
  refine ⟨fun hm => ?_, fun hm hn => ?_, fun hm hn => ?_⟩
  · rw [if_pos (show 0 < m ∧ n < m by omega), if_neg (by omega)]; exact ⟨_, rfl⟩
  · rw [if_neg (show ¬(0 < m ∧ n < m) by omega), if_neg (by omega)]; exact ⟨_, rfl⟩
  · rw [if_neg (show ¬(0 < m ∧ n < m) by omega), if_pos (by omega)]

/-- C49 fails when exactly one number of electrons is asked for: `Use_Electron_Threshold(n, n)` counts everything up to 100 electrons, and
ends the program for `n` above 100. -/
theorem C49_fails_single {n : ℕ} :
    (∀ d' x' (r : ℕ → ℝ), useElectronThreshold d x n n = .ok (d', x') →
      (∀ ne, n ≤ ne → ne ≤ 100 → x'.rNe U S d' ne p = .ok (r ne)) →
      x'.signalsTotal U S T d' p h = .ok (d.exposure * ∑ ne ∈ Finset.Icc n 100, r ne)) ∧
    (100 < n → useElectronThreshold d x n n = .exit) ∧ (n ≤ 100 → ∃ s, useElectronThreshold d x n n = .ok s) := by
  refine ⟨fun d' x' r hu hr => ?_, fun hn => ?_, fun hn => ?_⟩
  · have hn : n ≤ 100 := by
      by_contra hn
      unfold useElectronThreshold at hu
      dsimp only at hu
      rw [if_neg (show ¬(0 < n ∧ n < n) by omega), if_pos (by omega)] at hu
      cases hu
    have := threshold_signals (T := T) (h := h) hu fun ne h1 h2 => hr ne h1 (by omega)
    rwa [if_neg (by omega)] at this
  · unfold useElectronThreshold
    dsimp only
    rw [if_neg (show ¬(0 < n ∧ n < n) by omega), if_pos hn]
  · unfold useElectronThreshold
    dsimp only
    rw [if_neg (show ¬(0 < n ∧ n < n) by omega), if_neg (by omega)]
    exact ⟨_, rfl⟩

/-! ## C38 — the last analysis choice -/

/-- C38 (electron bins), guarded: if no energy bins were ever chosen, after `Use_Electron_Bins(n, N)` the signals are those with
`n, …, n + N - 1` electrons, each with its efficiency. -/
theorem C38_electron_bins_partial {n N : ℕ} (hb : d.usingEnergyBins = false) (hN : n + N ≤ 2 ^ 32)
    (hu : useElectronBins d x n N = .ok (d', x')) {eff : List ℝ} {d'' : Detector} (he : d'.setBinEfficiencies eff = .ok d'') {r : ℕ → ℝ}
    (hr : ∀ ne, x'.rNe U S d'' ne p = .ok (r ne)) :
    eff.length = N ∧ x'.signalsBinned U S T d'' p h =
      .ok ((List.range N).map fun i : ℕ => d.exposure * eff.getD i 0 * r (n + i)) := by
  obtain ⟨_, h2, h3, h4, h5, _, h7, _, _, k, h10⟩ := useElectronBins_ok hu
  unfold Detector.setBinEfficiencies at he
  rw [if_neg (by rw [h2]; simp)] at he
  split_ifs at he with hl
  have hl : eff.length = N := by rw [← h3]; exact not_not.1 hl
  subst h3
  cases he
  refine ⟨hl, ?_⟩
  unfold signalsBinned
  dsimp only
  rw [if_neg (by rw [h2]; simp), if_neg (by rw [h5, hb]; simp), if_pos (by rw [h10])]
  unfold signalsElectronBins
  rw [if_neg (by rw [h10]; simp)]
  refine collect_ok fun i hi => ?_
  dsimp only
  have hi : i < d'.bins := List.mem_range.1 hi
  have hn : x'.neThreshold = n := by rw [h10]
  rw [hn, Nat.mod_eq_of_lt (show n + i < 2 ^ 32 by omega), hr, Outcome.bind_ok, Detector.vecGet_getD (show i < eff.length by omega) 0,
    Outcome.bind_ok, h7, Outcome.ok.injEq]
  ring

/-- C38 fails (electron bins): after energy bins have been used, changing to an electron threshold and then to electron bins still
computes the signals in the old energy bins. -/
theorem C38_fails_electron_bins {n m n' N : ℕ} {d₁ : Detector} {x₁ : IonizationDetector} (hb : d.usingEnergyBins = true)
    (h1 : useElectronThreshold d x n' m = .ok (d₁, x₁)) (hu : useElectronBins d₁ x₁ n N = .ok (d', x')) :
    x'.signalsBinned U S T d' p h = d'.signalsEnergyBins T (x'.toClass U S T h) p ∧ d'.binEnergies = d.binEnergies := by
  obtain ⟨_, h2, h3, h4, h5, _, h7, _, h9, k, h10⟩ := useElectronBins_ok hu
  obtain ⟨_, e2, e3⟩ := useElectronThreshold_ok h1
  have h5 : d'.usingEnergyBins = true := by rw [h5, e2]; exact hb
  refine ⟨?_, by rw [h9, e2]; rfl⟩
  unfold signalsBinned
  rw [if_neg (by rw [h2]; simp), if_pos h5]
  rfl

/-- The chain of calls of `C38_fails_electron_bins` is accepted. -/
example {s : Detector × IonizationDetector} (hs : BuiltIonization U s) : ∃ s' s'',
    run s [.base (.useEnergyBins 0 1 3), .useElectronThreshold 3 0] = .ok s' ∧ s'.1.usingEnergyBins = true ∧
    useElectronBins s'.1 s'.2 3 4 = .ok s'' := by
  obtain ⟨_, _, _, _, _, _, _, _, h⟩ := built_facts hs
  simp only [run, step, Detector.step, Detector.useEnergyBins, Detector.initializeBinned, h, reduceCtorEq, if_false, Outcome.bind_ok,
    not_lt.2 (zero_le_one (α := ℝ)), useElectronThreshold]
  exact ⟨_, _, rfl, rfl, rfl⟩

/-- C38 (energy bins): whatever was chosen before, after `Use_Energy_Bins` the signals are those in the energy bins. -/
theorem C38_ionization_energy_bins {a b : ℝ} {n : ℤ} (hu : d.useEnergyBins a b n = .ok d') :
    x.signalsBinned U S T d' p h = d'.signalsEnergyBins T (x.toClass U S T h) p ∧
    d'.binEnergies = linearSpace a b ((toUInt32 n + 1) % 2 ^ 32) ∧ d'.bins = toUInt32 n := by
  unfold Detector.useEnergyBins Detector.initializeBinned at hu
  by_cases h1 : d.analysis = .binnedPoisson
  · rw [if_pos h1] at hu; cases hu
  · rw [if_neg h1, Outcome.bind_ok] at hu
    split_ifs at hu
    cases hu
    refine ⟨?_, rfl, rfl⟩
    unfold signalsBinned
    simp
    rfl

/-- C38 (energy threshold), guarded: if no electron threshold is active, after `Use_Energy_Threshold(a, b)` the signals are the events
above `a` in every shell, up to the end of its table. -/
theorem C38_ionization_energy_threshold_partial {a b : ℝ} (he : x.usingElectronThreshold = false)
    (hl : x.fractions.length = x.atoms.length) (hu : d.useEnergyThreshold a b = .ok d') :
    x.signalsTotal U S T d' p h = .ok (∑ i : Fin x.atoms.length, (x.atoms[i].electrons.map fun e =>
      if a < e.kMax ^ 2 / (2 * U.mElectron) then x.fractions.getD i 0 *
        T.integrate (fun E => d.exposure * (S d' E p x.atoms[i].nucleus e).valueOr0) a (e.kMax ^ 2 / (2 * U.mElectron)) else 0).sum) := by
  unfold Detector.useEnergyThreshold at hu
  dsimp only at hu
  split_ifs at hu
  cases hu
  unfold signalsTotal
  rw [if_neg (by simp [Detector.initializePoisson]), if_neg (by simp [he]), if_pos rfl,
    sumOver_ok (g := fun i => if hi : i < x.atoms.length then (x.atoms[i].electrons.map fun e =>
      if a < e.kMax ^ 2 / (2 * U.mElectron) then x.fractions.getD i 0 *
        T.integrate (fun E => d.exposure * (S { d.initializePoisson with usingEnergyThreshold := true, energyThreshold := a, energyMax := b } E p
          x.atoms[i].nucleus e).valueOr0) a (e.kMax ^ 2 / (2 * U.mElectron)) else 0).sum else 0)]
  · rw [range_sum, Finset.sum_range, Outcome.ok.injEq]
    refine Finset.sum_congr rfl fun i _ => ?_
    rw [dif_pos i.2]
    rfl
  · intro i hi
    have hi := List.mem_range.1 hi
    rw [vecGet_lt hi, Outcome.bind_ok, dif_pos hi]
    refine sumOver_ok fun e _ => ?_
    rw [Detector.vecGet_getD (show i < x.fractions.length by omega) 0, Outcome.bind_ok, Outcome.ok.injEq]
    unfold thresholdSignal
    have hE : e.kMax * e.kMax / 2 / U.mElectron = e.kMax ^ 2 / (2 * U.mElectron) := by rw [div_div, sq]
    simp only [hE, Detector.initializePoisson]

/-- C38 fails (energy threshold): after an electron threshold has been used, `Use_Energy_Threshold` is accepted but the signals are
still those above the electron threshold. -/
theorem C38_fails_ionization_threshold {n m : ℕ} {d₁ : Detector} {x₁ : IonizationDetector} {a b : ℝ}
    (h1 : useElectronThreshold d x n m = .ok (d₁, x₁)) (hu : d₁.useEnergyThreshold a b = .ok d') {r : ℕ → ℝ}
    (hr : ∀ ne, x₁.rNe U S d' ne p = .ok (r ne)) :
    x₁.signalsTotal U S T d' p h = .ok (d.exposure * ∑ ne ∈ Finset.Icc n (if 0 < m ∧ n < m then m else 100), r ne) := by
  obtain ⟨_, h2, h3⟩ := useElectronThreshold_ok h1
  unfold Detector.useEnergyThreshold at hu
  dsimp only at hu
  split_ifs at hu
  cases hu
  unfold signalsTotal
  rw [if_neg (by simp [Detector.initializePoisson]), if_pos (by rw [h3]), sumOver_ok (g := fun ne => d.exposure * r ne)]
  · rw [h3]
    dsimp only
    rw [range'_sum, Finset.mul_sum]
  · intro ne _
    rw [hr, h2]
    rfl

/-- C38 (nothing chosen): a detector fresh from the constructor predicts no signals. -/
theorem C38_ionization_no_choice {s : Detector × IonizationDetector} (hs : BuiltIonization U s) :
    s.2.signalsTotal U S T s.1 p h = .ok 0 ∧ s.2.signalsBinned U S T s.1 p h = .exit := by
  obtain ⟨_, _, h1, _, h3, _, h5, h6, h7⟩ := built_facts hs
  unfold signalsTotal signalsBinned
  simp [h1, h3, h5, h7]

/-! ## C48 — photo-electrons -/

theorem rS2Aux_eq {nPE : ℕ} {mu sigma : ℝ} {sp : List ℝ} {r : ℕ → ℝ} (hs : sigma ≠ 0)
    (hsp : ∀ ne, 1 ≤ ne → ne ≤ 100 → sp[ne - 1]? = some (r ne)) : rS2Aux nPE mu sigma sp =
      .ok (∑ ne ∈ Finset.Icc (1 : ℕ) 100, pdfGauss nPE (mu * ne) (Real.sqrt ne * sigma) * r ne) := by
  unfold rS2Aux
  rw [collect_ok (g := r)]
  · rw [Outcome.bind_ok, if_neg hs, foldl_add_eq_sum, List.zipWith_map_right, List.zipWith_self]
    rfl
  · intro ne hne
    obtain ⟨h1, h2⟩ := List.mem_range'_1.1 hne
    unfold vecGet
    rw [hsp ne h1 (by omega)]

theorem spectrum_get {r : ℕ → ℝ} {N : ℕ} (ne : ℕ) (h1 : 1 ≤ ne) (h2 : ne ≤ N) : ((List.range' 1 N).map r)[ne - 1]? = some (r ne) := by
  rw [List.getElem?_map, List.getElem?_range' (by omega)]
  simp
  congr 1
  omega

/-- C48 (guarded): `R_S2` called directly, without a spectrum or with one of at least 100 entries, stays in bounds: it is the sum over 1 to
100 electrons of their rate times the probability of the number of photo-electrons. -/
theorem C48_direct_partial {nPE : ℕ} {spectrum : List ℝ} {r : ℕ → ℝ} (hs : x.s2Sigma ≠ 0)
    (hr : spectrum = [] → ∀ ne, x.rNe U S d ne p = .ok (r ne))
    (hl : spectrum ≠ [] → ∀ ne, 1 ≤ ne → ne ≤ 100 → spectrum[ne - 1]? = some (r ne)) :
    x.rS2 U S d nPE p spectrum =
      .ok (∑ ne ∈ Finset.Icc (1 : ℕ) 100, pdfGauss nPE (x.s2Mu * ne) (Real.sqrt ne * x.s2Sigma) * r ne) := by
  unfold rS2
  by_cases h1 : spectrum = []
  · subst h1
    simp only [List.isEmpty_nil, if_true]
    rw [collect_ok (g := r) fun ne _ => hr rfl ne, Outcome.bind_ok]
    exact rS2Aux_eq hs spectrum_get
  · dsimp only
    rw [if_neg (by simpa using h1), Outcome.bind_ok]
    exact rS2Aux_eq hs (hl h1)

/-- C48 (guarded): the same for one shell and for one atom. -/
theorem C48_direct_shell_partial {nPE : ℕ} {r : ℕ → ℝ} (hs : x.s2Sigma ≠ 0) :
    (∀ W n e, (∀ ne, rNeShell U S d ne p W n e = .ok (r ne)) → x.rS2Shell U S d nPE p W n e [] =
      .ok (∑ ne ∈ Finset.Icc (1 : ℕ) 100, pdfGauss nPE (x.s2Mu * ne) (Real.sqrt ne * x.s2Sigma) * r ne)) ∧
    (∀ a, (∀ ne, rNeAtom U S d ne p a = .ok (r ne)) → x.rS2Atom U S d nPE p a [] =
      .ok (∑ ne ∈ Finset.Icc (1 : ℕ) 100, pdfGauss nPE (x.s2Mu * ne) (Real.sqrt ne * x.s2Sigma) * r ne)) := by
  constructor
  · intro W n e hr
    unfold rS2Shell
    simp only [List.isEmpty_nil, if_true]
    rw [collect_ok (g := r) fun ne _ => hr ne, Outcome.bind_ok]
    exact rS2Aux_eq hs spectrum_get
  · intro a hr
    unfold rS2Atom
    simp only [List.isEmpty_nil, if_true]
    rw [collect_ok (g := r) fun ne _ => hr ne, Outcome.bind_ok]
    exact rS2Aux_eq hs spectrum_get

/-- C48 (guarded): with an electron spectrum of at least 100 entries, and efficiencies for all numbers of photo-electrons of a bin, the
rate in the bin is in bounds: the rates of the numbers of photo-electrons in the bin, each with its efficiency. -/
theorem C48_bin_partial {lo hi : ℕ} {spectrum : List ℝ} {r eff : ℕ → ℝ} (hs : x.s2Sigma ≠ 0)
    (hl : ∀ ne, 1 ≤ ne → ne ≤ 100 → spectrum[ne - 1]? = some (r ne)) (he : ∀ n, lo ≤ n → n ≤ hi → x.peEfficiency n = .ok (eff n)) :
    x.rS2Bin U S d lo hi p spectrum = .ok (∑ n ∈ Finset.Icc lo hi, eff n *
      ∑ ne ∈ Finset.Icc (1 : ℕ) 100, pdfGauss n (x.s2Mu * ne) (Real.sqrt ne * x.s2Sigma) * r ne) := by
  have h1 : spectrum ≠ [] := by rintro rfl; simpa using hl 1 le_rfl (by omega)
  unfold rS2Bin
  dsimp only
  rw [if_neg (by simpa using h1), Outcome.bind_ok]
  refine sumOver_ok fun n hn => ?_
  obtain ⟨h2, h3⟩ := List.mem_range'_1.1 hn
  rw [he n h2 (by omega), Outcome.bind_ok, C48_direct_partial hs (fun h => absurd h h1) fun _ => hl, Outcome.bind_ok]

/-- C48 (width): a width of zero makes the rate undefined. -/
theorem C48_zero_width {nPE : ℕ} {r : ℕ → ℝ} (hs : x.s2Sigma = 0) (hr : ∀ ne, x.rNe U S d ne p = .ok (r ne)) :
    x.rS2 U S d nPE p [] = .nonfinite := by
  unfold rS2
  simp only [List.isEmpty_nil, if_true]
  rw [collect_ok (g := r) fun ne _ => hr ne, Outcome.bind_ok]
  unfold rS2Aux
  rw [collect_ok (g := r), Outcome.bind_ok, if_pos hs]
  intro ne hne
  obtain ⟨h1, h2⟩ := List.mem_range'_1.1 hne
  unfold vecGet
  rw [spectrum_get ne h1 (by omega)]

/-- C48 (import): efficiencies can be imported while a photo-electron analysis is in use and end the program otherwise. -/
theorem C48_import (x : IonizationDetector) (l : List ℝ) :
    ((x.usingS2Bins = true ∨ x.usingS2Threshold = true) →
      (∃ x', importTrigger x l = .ok x' ∧ x'.trigger = l ∧ x'.acceptance = x.acceptance ∧ x' = { x with trigger := l }) ∧
      (∃ x', importAcceptance x l = .ok x' ∧ x'.acceptance = l ∧ x'.trigger = x.trigger ∧ x' = { x with acceptance := l })) ∧
    (x.usingS2Bins = false → x.usingS2Threshold = false → importTrigger x l = .exit ∧ importAcceptance x l = .exit) := by
  unfold importTrigger importAcceptance
  refine ⟨fun h => ?_, fun h1 h2 => ?_⟩
  · have hc : ¬ (x.usingS2Bins = false ∧ x.usingS2Threshold = false) := by rcases h with h | h <;> simp [h]
    exact ⟨⟨_, if_neg hc, rfl, rfl, rfl⟩, ⟨_, if_neg hc, rfl, rfl, rfl⟩⟩
  · exact ⟨if_pos ⟨h1, h2⟩, if_pos ⟨h1, h2⟩⟩

/-- A spectrum of 99 entries is read past its end. -/
theorem rS2Aux_short {nPE : ℕ} {mu sigma : ℝ} {sp : List ℝ} (hl : sp.length = 99) : rS2Aux nPE mu sigma sp = .ub := by
  unfold rS2Aux
  have : List.range' 1 100 = List.range' 1 99 ++ [100] := rfl
  rw [this, collect_ub]
  · rfl
  · intro ne hne
    obtain ⟨h1, h2⟩ := List.mem_range'_1.1 hne
    exact ⟨_, vecGet_lt (by omega)⟩
  · exact vecGet_ge (by omega)

theorem rS2Bin_ub {lo hi : ℕ} (hlo : lo ≤ hi) (hr : ∀ ne, ∃ r, x.rNe U S d ne p = .ok r) {eff : ℝ} (he : x.peEfficiency lo = .ok eff) :
    x.rS2Bin U S d lo hi p [] = .ub ∧ ∀ sp : List ℝ, sp.length = 99 → x.rS2Bin U S d lo hi p sp = .ub := by
  have key : ∀ sp : List ℝ, sp.length = 99 → sumOver (fun nPE => do
      let eff ← x.peEfficiency nPE
      let r ← x.rS2 U S d nPE p sp
      .ok (eff * r)) (List.range' lo (hi + 1 - lo)) = .ub := by
    intro sp hsp
    rw [show hi + 1 - lo = (hi - lo) + 1 by omega, List.range'_succ]
    unfold sumOver
    rw [collect]
    unfold rS2
    dsimp only
    rw [if_neg (by simp; rintro rfl; simp at hsp), he, Outcome.bind_ok, Outcome.bind_ok, rS2Aux_short hsp]
    rfl
  choose r hr using hr
  constructor
  · unfold rS2Bin
    simp only [List.isEmpty_nil, if_true]
    rw [collect_ok (g := r) fun ne _ => hr ne, Outcome.bind_ok]
    exact key _ (by simp)
  · intro sp hsp
    unfold rS2Bin
    rw [if_neg (by simp; rintro rfl; simp at hsp), Outcome.bind_ok]
    exact key sp hsp

/-- C48 fails: with a photo-electron threshold every prediction of the total signal reads past the end of the electron spectrum: 99
rates are computed and 100 are read. -/
theorem C48_fails_threshold {mu sigma : ℝ} {n m : ℕ} (hu : usePEThreshold d x mu sigma n m = .ok (d', x'))
    (hr : ∀ ne, ∃ r, x'.rNe U S d' ne p = .ok r) {eff : ℝ} (he : x'.peEfficiency n = .ok eff) :
    x'.signalsTotal U S T d' p h = .ub := by
  obtain ⟨h1, h2, h3⟩ := usePEThreshold_ok hu
  unfold signalsTotal
  rw [if_neg (by rw [h2]; simp [Detector.initializePoisson]), if_neg (by rw [h3]; simp), if_neg (by rw [h2]; simp), if_pos (by rw [h3])]
  have e1 : x'.peThreshold = n := by rw [h3]
  have e2 : x'.peMax = m := by rw [h3]
  rw [e1, e2, (rS2Bin_ub h1 hr he).1]
  rfl

/-- C48 fails: the same with photo-electron bins. -/
theorem C48_fails_bins {mu sigma : ℝ} {lo hi : ℕ} {rest : List ℕ} (hb : d.usingEnergyBins = false) (hx : x.usingElectronBins = false)
    (hlo : lo < hi) (hlen : rest.length + 1 < 2 ^ 32) (hu : usePEBins d x mu sigma (lo :: hi :: rest) = .ok (d', x'))
    (hr : ∀ ne, ∃ r, x'.rNe U S d' ne p = .ok r) {eff : ℝ} (he : x'.peEfficiency lo = .ok eff) :
    x'.signalsBinned U S T d' p h = .ub := by
  obtain ⟨_, h2, h3, _, h5, _, h7⟩ := usePEBins_ok hu
  have hbins : d'.bins = rest.length + 1 := by
    rw [h3]; unfold toUInt32
    simp only [List.length_cons]; omega
  unfold signalsBinned
  rw [if_neg (by rw [h2]; simp), if_neg (by rw [h5, hb]; simp), if_neg (by rw [h7]; simp [hx]), if_pos (by rw [h7])]
  unfold signalsPEBins
  rw [if_neg (by rw [h7]; simp)]
  have hr' := hr
  choose r hr' using hr'
  rw [collect_ok (g := r) fun ne _ => hr' ne, Outcome.bind_ok, hbins, List.range_succ_eq_map, collect]
  have e1 : x'.s2Bins = lo :: hi :: rest := by rw [h7]
  rw [e1]
  have v0 : vecGet (lo :: hi :: rest) 0 = .ok lo := rfl
  have v1 : vecGet (lo :: hi :: rest) (0 + 1) = .ok hi := rfl
  rw [v0, v1, Outcome.bind_ok, Outcome.bind_ok, usub32_le (show 1 ≤ hi by omega),
    (rS2Bin_ub (show lo ≤ hi - 1 by omega) hr he).2 _ (by simp)]
  rfl

/-- C48 (efficiencies): the efficiency for `n` photo-electrons is the product of the `n`-th entries of the imported lists (a list that was
not imported counts as one); `n = 0` and numbers beyond the lists are read out of bounds. -/
theorem C48_efficiency (x : IonizationDetector) {n : ℕ} (hn : n < 2 ^ 32) (ht : x.trigger.length < 2 ^ 32)
    (ha : x.acceptance.length < 2 ^ 32) :
    (1 ≤ n → (x.trigger = [] ∨ n ≤ x.trigger.length) → (x.acceptance = [] ∨ n ≤ x.acceptance.length) →
      x.peEfficiency n = .ok (x.trigger.getD (n - 1) 1 * x.acceptance.getD (n - 1) 1)) ∧
    ((n = 0 ∨ x.trigger.length < n) → x.trigger ≠ [] → x.peEfficiency n = .ub) ∧
    ((n = 0 ∨ x.acceptance.length < n) → (x.trigger = [] ∨ 1 ≤ n ∧ n ≤ x.trigger.length) → x.acceptance ≠ [] → x.peEfficiency n = .ub) := by
  have hsub : n = 0 → usub32 n 1 = 2 ^ 32 - 1 := by rintro rfl; rw [usub32_lt (by omega)]; omega
  have hsub' : 1 ≤ n → usub32 n 1 = n - 1 := fun h => usub32_le h
  have hok : ∀ l : List ℝ, 1 ≤ n → (l = [] ∨ n ≤ l.length) →
      (if l.isEmpty = false then vecGet l (usub32 n 1) else Outcome.ok 1) = .ok (l.getD (n - 1) 1) := by
    intro l h1 h2
    rw [hsub' h1]
    by_cases h3 : l = []
    · subst h3; simp
    · have h4 : n ≤ l.length := h2.resolve_left h3
      rw [if_pos (by simpa using h3), Detector.vecGet_getD (by omega) 1]
  have hub : ∀ l : List ℝ, l.length < 2 ^ 32 → (n = 0 ∨ l.length < n) → l ≠ [] →
      (if l.isEmpty = false then vecGet l (usub32 n 1) else Outcome.ok 1) = .ub := by
    intro l h0 h1 h2
    rw [if_pos (by simpa using h2), vecGet_ge]
    rcases Nat.eq_zero_or_pos n with h3 | h3
    · rw [hsub h3]; omega
    · rw [hsub' h3]; omega
  have hdef : x.peEfficiency n = ((if x.trigger.isEmpty = false then vecGet x.trigger (usub32 n 1) else Outcome.ok 1) >>= fun t =>
      (if x.acceptance.isEmpty = false then vecGet x.acceptance (usub32 n 1) else Outcome.ok 1) >>= fun a => .ok (1 * t * a)) := by
    unfold peEfficiency
    dsimp only
    split_ifs <;> rfl
  rw [hdef]
  refine ⟨fun h1 h2 h3 => ?_, fun h1 h2 => ?_, fun h1 h2 h3 => ?_⟩
  · rw [hok _ h1 h2, hok _ h1 h3, Outcome.bind_ok, Outcome.bind_ok, one_mul]
  · rw [hub _ ht h1 h2]; rfl
  · rw [hub _ ha h1 h3]
    rcases h2 with h2 | h2
    · rw [h2]; rfl
    · rw [hok _ h2.1 (.inr h2.2)]; rfl

end IonizationDetector
end Obscura
