import Verif.Props.ExperimentsSample
import Verif.Lemmas.NoUB
import Verif.Props.MaximumGap

/-!
# C56 — predefined experiments are consistent and their signals are defined
-/

namespace Obscura

open Spec

variable {S : Setup} {rows : List NuclearRow} {cache : List Nucleus}

/-! ## Consistency -/

theorem kgday_pos : 0 < S.kg ∧ 0 < S.day ∧ 0 < S.minute ∧ 0 < S.tonne := by
  have := S.M.gram_pos
  have := S.U.sec_pos
  unfold Setup.day Setup.minute Setup.tonne Setup.kg
  refine ⟨?_, ?_, ?_, ?_⟩ <;> positivity

theorem consistent_recoils {e : RecoilSearch} {d : Detector} {x : NuclearDetector} (he : e ∈ recoilSearches)
    (hI : Installed S rows) (h : RepresentsRecoils S rows e d x) : Consistent d := by
  have hev := S.U.eV_pos
  have hg := S.M.gram_pos
  obtain ⟨hkg, hday, -, -⟩ := kgday_pos (S := S)
  have hw : 0 < d.energyThreshold ∧ d.energyThreshold < d.energyMax := by
    rw [h.lowest, h.highest]
    simp only [recoilSearches, List.mem_cons, List.not_mem_nil, or_false] at he
    rcases he with rfl | rfl | rfl | rfl | rfl <;> dsimp only <;> constructor <;> nlinarith
  refine ⟨?_, ?_, fun _ => hw, fun hb => ?_, fun hb => ?_⟩
  · rw [h.exposure]
    simp only [recoilSearches, List.mem_cons, List.not_mem_nil, or_false] at he
    rcases he with rfl | rfl | rfl | rfl | rfl <;> dsimp only <;> positivity
  · rw [h.efficiency]
    simp only [recoilSearches, List.mem_cons, List.not_mem_nil, or_false] at he
    rcases he with rfl | rfl | rfl | rfl | rfl <;> norm_num
  · exfalso
    cases hd : e.data with
    | counted n => have := (h.counted n hd).1; rw [hb] at this; cases this
    | listed f => have := (h.listed f hd).1; rw [hb] at this; cases this
  · cases hd : e.data with
    | counted n => have := (h.counted n hd).1; rw [hb] at this; cases this
    | listed f =>
      obtain ⟨-, h1, events, h2, h3⟩ := h.listed f hd
      obtain ⟨events', h2', h4⟩ := hI.events e he f hd
      rw [h2] at h2'; cases h2'
      have hk : S.U.keV = 1000 * S.U.eV := rfl
      refine ⟨hw.1, hw.2, h1, ?_, ?_, fun E hE => ?_⟩
      · rw [h.lowest]; exact h3.mem_iff.2 (by simp)
      · rw [h.highest]; exact h3.mem_iff.2 (by simp)
      · have := h3.mem_iff.1 hE
        simp only [List.mem_cons, List.mem_map] at this
        rcases this with rfl | rfl | ⟨E', hE', rfl⟩
        · rw [h.lowest]; exact ⟨le_rfl, by rw [← h.lowest]; exact hw.2.le⟩
        · rw [← h.highest]; exact ⟨hw.2.le, le_rfl⟩
        · obtain ⟨a, b⟩ := h4 E' hE'
          rw [h.lowest, h.highest, hk]
          constructor <;> nlinarith

theorem consistent_ionization {e : IonizationSearch} {t : String} {d : Detector} {x : IonizationDetector} (he : e ∈ ionizationSearches)
    (h : RepresentsIonization S rows e t d x) : Consistent d := by
  obtain ⟨hkg, hday, -, ht⟩ := kgday_pos (S := S)
  have hy := S.M.year_pos
  refine ⟨?_, ?_, fun hb => ?_, fun _ => ?_, fun hb => ?_⟩
  · rw [h.exposure]
    simp only [ionizationSearches, List.mem_cons, List.not_mem_nil, or_false] at he
    rcases he with rfl | rfl | rfl | rfl | rfl | rfl <;> dsimp only <;> positivity
  · rw [h.efficiency]
    simp only [ionizationSearches, List.mem_cons, List.not_mem_nil, or_false] at he
    rcases he with rfl | rfl | rfl | rfl | rfl | rfl <;> norm_num
  · have := h.analysis; rw [hb] at this; cases this
  · rw [h.observed.1, h.binEfficiencies, h.background.1, h.bins, h.background.2, h.observed.2]
    simp only [ionizationSearches, List.mem_cons, List.not_mem_nil, or_false] at he
    rcases he with rfl | rfl | rfl | rfl | rfl | rfl <;> simp <;> norm_num
  · have := h.analysis; rw [hb] at this; cases this

theorem consistent_pairs {e : PairSearch} {d : Detector} {x : CrystalDetector} (he : e ∈ pairSearches)
    (h : RepresentsPairs S e d x) : Consistent d := by
  have hg := S.M.gram_pos
  obtain ⟨hkg, hday, hmin, ht⟩ := kgday_pos (S := S)
  refine ⟨?_, ?_, fun hb => ?_, fun _ => ?_, fun hb => ?_⟩
  · rw [h.exposure]
    simp only [pairSearches, List.mem_cons, List.not_mem_nil, or_false] at he
    rcases he with rfl | rfl | rfl | rfl | rfl | rfl <;> dsimp only <;> positivity
  · rw [h.efficiency]
    simp only [pairSearches, List.mem_cons, List.not_mem_nil, or_false] at he
    rcases he with rfl | rfl | rfl | rfl | rfl | rfl <;> norm_num
  · have := h.analysis; rw [hb] at this; cases this
  · rw [h.observed.1, h.binEfficiencies, h.background.1, h.bins, h.background.2, h.observed.2]
    simp only [pairSearches, List.mem_cons, List.not_mem_nil, or_false] at he
    rcases he with rfl | rfl | rfl | rfl | rfl | rfl <;> simp <;> norm_num
  · have := h.analysis; rw [hb] at this; cases this

/-- **C56** — with the data files installed, every predefined experiment but LZ can be constructed without error, and bin counts,
observed events, efficiencies and thresholds fit together. Missing: LZ (`C55_fails_LZ`). -/
theorem C56_construction_partial (hI : Installed S rows) (hc : CacheReachable S.U (some rows) cache) {c : Config} {s : String}
    (hs : s ∈ predefined) (hLZ : s ≠ "LZ_S2" ∧ s ≠ "LZ_S2_Migdal") (hn : c "DD_experiment" = some (.string s)) :
    ∃ cache' D, c.detector S cache = .ok (cache', D) ∧ Consistent D.base := by
  simp only [predefined, List.mem_append, List.mem_map, List.mem_cons, List.not_mem_nil, or_false] at hs
  rcases hs with (((⟨e, he, rfl⟩ | ⟨e, he, rfl⟩) | ⟨e, he, rfl⟩) | ⟨e, he, rfl⟩) | h | h
  · obtain ⟨c', d, x, h1, h2⟩ := C55_nuclear hI hc he hn
    exact ⟨c', _, h1, consistent_recoils he hI h2⟩
  · obtain ⟨c', d, x, h1, h2⟩ := C55_electron_recoil hI hc he hn
    exact ⟨c', _, h1, consistent_ionization he h2⟩
  · obtain ⟨c', d, x, h1, h2⟩ := C55_migdal_partial hI hc he hn
    exact ⟨c', _, h1, consistent_ionization he h2⟩
  · obtain ⟨c', d, x, h1, h2⟩ := C55_crystal (cache := cache) hI he hn
    exact ⟨c', _, h1, consistent_pairs he h2⟩
  · exact absurd h hLZ.1
  · exact absurd h hLZ.2

/-! ## Signals -/

section Signals

variable {T : Tools} {C : DetectorClass} {d : Detector} {p : DMParticle} {U : Units} {h : Distribution}

/-- A binned analysis. -/
theorem wellBehaved_binned (ha : d.analysis = .binnedPoisson) (hd : Consistent d) (hf : d.usingFiducial = false)
    (hs : C.signalsBinned d p ≠ .ub) (hl : ∀ ss, C.signalsBinned d p = .ok ss → ss.length = d.bins)
    (ht : C.signalsTotal d p ≠ .ub) : WellBehaved U T C d p := by
  obtain ⟨hb1, ho, he, hb, -⟩ := hd.bins ha
  have hll := NoUB.logLikelihood_binned (T := T) ha hs hl ho hb
  refine ⟨hs, ht, NoUB.bind ht fun _ _ => NoUB.fdiv _ _, hll, NoUB.bind hll fun _ _ => NoUB.ok _, ?_⟩
  unfold Detector.pValue
  simp only [ha, hf, Bool.false_eq_true, if_false]
  refine NoUB.bind hs fun ss hss => NoUB.bind (NoUB.collect fun i hi => ?_) fun ps hps => ?_
  · rw [List.mem_range] at hi
    exact NoUB.bind (NoUB.vecGet (by rw [hl ss hss]; exact hi)) fun _ _ => NoUB.bind (NoUB.vecGet (by omega)) fun _ _ =>
      NoUB.bind (NoUB.vecGet (by omega)) fun _ _ => NoUB.ok _
  · have := NoUB.length_collect hps
    rw [List.length_range] at this
    cases ps with
    | nil => simp at this; omega
    | cons a l => exact nofun

/-- A search that counts events. -/
theorem wellBehaved_counted {x : NuclearDetector} (ha : d.analysis = .poisson) (hf : d.usingFiducial = false) :
    WellBehaved U T (x.toClass U T h) d p := by
  have hb : (x.toClass U T h).signalsBinned d p ≠ .ub := by
    simp [NuclearDetector.toClass, DetectorClass.base, Detector.baseSignalsBinned, ha]
  have ht : (x.toClass U T h).signalsTotal d p ≠ .ub := by
    simp only [NuclearDetector.toClass, DetectorClass.base, Detector.baseSignalsTotal, ha]
    split_ifs <;> simp_all
  have hl : d.logLikelihood T (x.toClass U T h) p ≠ .ub := by
    unfold Detector.logLikelihood
    rw [ha]
    exact NoUB.bind ht fun _ _ => NoUB.flogLikelihood _ _ _
  refine ⟨hb, ht, NoUB.bind ht fun _ _ => NoUB.fdiv _ _, hl, NoUB.bind hl fun _ _ => NoUB.ok _, ?_⟩
  unfold Detector.pValue
  simp only [ha, hf, Bool.false_eq_true, if_false]
  exact NoUB.bind ht fun _ _ => NoUB.ok _

theorem gapLoop_ne_ub (x mu : ℝ) (n k : ℕ) (s : ℝ) : Detector.gapLoop x mu n k s ≠ .ub := by
  induction n generalizing k s with
  | zero => exact nofun
  | succ n ih =>
    unfold Detector.gapLoop
    refine NoUB.bind ?_ fun t _ => ?_
    · unfold Detector.gapTerm
      exact NoUB.bind (NoUB.fdiv _ _) fun _ _ => NoUB.ok _
    · split_ifs
      · exact NoUB.ok _
      · exact ih _ _

theorem cdf_ne_ub {x mu : ℝ} {n : ℕ} (hx : 0 ≤ x) (h0 : 0 ≤ mu) (h1 : mu ≤ n * x) (hn : n < 2 ^ 31) :
    Detector.cdfMaximumGap x mu ≠ .ub := by
  unfold Detector.cdfMaximumGap
  split_ifs with h2 h3 h4 h5
  · exact nofun
  · subst h3
    exact absurd (le_antisymm h0 (by simpa using h1)) h2
  · have hx' : 0 < x := lt_of_le_of_ne hx (Ne.symm h3)
    have h6 : mu / x ≤ n := by rw [div_le_iff₀ hx']; exact h1
    have h7 : (n : ℝ) < 2147483648 := by exact_mod_cast hn
    have h8 : 0 ≤ mu / x := by positivity
    rcases h4 with h | h <;> norm_num at h <;> linarith
  · exact nofun
  · exact gapLoop_ne_ub _ _ _ _ _

theorem foldl_max_mem (l : List ℝ) (a : ℝ) : a ≤ l.foldl max a ∧ ∀ g ∈ l, g ≤ l.foldl max a := by
  induction l generalizing a with
  | nil => simp
  | cons b l ih =>
    obtain ⟨h1, h2⟩ := ih (max a b)
    exact ⟨(le_max_left _ _).trans h1, fun g hg => by
      rcases List.mem_cons.1 hg with rfl | hg
      · exact (le_max_right _ _).trans h1
      · exact h2 g hg⟩

theorem zipWith_nonneg {f : ℝ → ℝ → ℝ} (hf : ∀ a b, a ≤ b → 0 ≤ f a b) {l : List ℝ} (hl : l.Pairwise (· ≤ ·)) :
    ∀ g ∈ List.zipWith f l l.tail, 0 ≤ g := by
  induction l with
  | nil => simp
  | cons a l ih =>
    cases l with
    | nil => simp
    | cons b l =>
      intro g hg
      simp only [List.tail_cons, List.zipWith_cons_cons, List.mem_cons] at hg
      rcases hg with rfl | hg
      · exact hf _ _ ((List.pairwise_cons.1 hl).1 b (by simp))
      · exact ih (List.pairwise_cons.1 hl).2 g hg

theorem sum_le_length {l : List ℝ} {M : ℝ} (h : ∀ g ∈ l, g ≤ M) : l.sum ≤ l.length * M := by
  induction l with
  | nil => simp
  | cons a l ih =>
    have h1 := ih fun g hg => h g (by simp [hg])
    have h2 := h a (by simp)
    simp only [List.sum_cons, List.length_cons]
    push_cast
    linarith

/-- A search with the maximum gap method. -/
theorem wellBehaved_listed {x : NuclearDetector} (ha : d.analysis = .maximumGap) (hd : Consistent d)
    (hT : PositiveInterpolation T) (hlen : d.gapData.length < 2 ^ 31)
    (hr : ∀ E, d.energyThreshold ≤ E → 0 ≤ (x.toClass U T h).dRdE d E p)
    (hm : (x.toClass U T h).maximumEnergyDeposit p ≠ .ub)
    (hE : ∀ Edep, (x.toClass U T h).maximumEnergyDeposit p = .ok Edep → d.energyThreshold < Edep) :
    WellBehaved U T (x.toClass U T h) d p := by
  obtain ⟨ht0, ht1, hsort, hlo, hhi, -⟩ := hd.gaps ha
  have hb : (x.toClass U T h).signalsBinned d p ≠ .ub := by
    simp [NuclearDetector.toClass, DetectorClass.base, Detector.baseSignalsBinned, ha]
  have ht : (x.toClass U T h).signalsTotal d p ≠ .ub := by
    simp only [NuclearDetector.toClass, DetectorClass.base, Detector.baseSignalsTotal, ha]
    split_ifs <;> simp_all
  have hp : d.pValueMaximumGap T (x.toClass U T h) p ≠ .ub := by
    unfold Detector.pValueMaximumGap
    refine NoUB.bind hm fun Edep hdep => ?_
    obtain ⟨xs, hxs, -, hpw, hhead, -⟩ := MaximumGap.table ht1 (hE Edep hdep)
    dsimp only
    rw [hxs]
    have hxs0 : ∀ E ∈ xs, d.energyThreshold ≤ E := by
      intro E hEm
      cases xs with
      | nil => simp at hEm
      | cons y ys =>
        cases hhead
        rcases List.mem_cons.1 hEm with rfl | h
        · exact le_rfl
        · exact ((List.pairwise_cons.1 hpw).1 E h).le
    have hpos : ∀ a b, a ≤ b → 0 ≤ T.interpolationIntegral xs (xs.map fun E => d.exposure * (x.toClass U T h).dRdE d E p) a b := by
      intro a b hab
      refine hT _ _ _ _ hpw (fun y hy => ?_) hab
      obtain ⟨E, hEm, rfl⟩ := List.mem_map.1 hy
      exact mul_nonneg hd.exposure.le (hr E (hxs0 E hEm))
    revert hpos
    generalize T.interpolationIntegral xs (xs.map fun E => d.exposure * (x.toClass U T h).dRdE d E p) = f
    intro hpos
    revert hsort hlo hhi hlen
    generalize d.gapData = data
    intro hlen hsort hlo hhi
    cases data with
    | nil => simp at hlo
    | cons a l =>
      simp only [Detector.gapSizes, Outcome.bind_ok]
      have hnn := zipWith_nonneg hpos hsort
      rw [List.tail_cons] at hnn
      have hl0 : l ≠ [] := by
        rintro rfl
        simp only [List.mem_singleton] at hlo hhi
        linarith
      have hne : List.zipWith f (a :: l) l ≠ [] := by
        cases l with
        | nil => exact absurd rfl hl0
        | cons b l => simp
      have hlen2 : (List.zipWith f (a :: l) l).length < 2 ^ 31 := by
        simp only [List.length_zipWith, List.length_cons] at hlen ⊢
        omega
      revert hnn hne hlen2
      generalize List.zipWith f (a :: l) l = gs
      intro hnn hne hlen2
      cases gs with
      | nil => exact absurd rfl hne
      | cons g gs =>
        simp only [maxElement, Outcome.bind_ok]
        obtain ⟨h1, h2⟩ := foldl_max_mem gs g
        refine NoUB.bind (cdf_ne_ub (n := (g :: gs).length) ((hnn g (by simp)).trans h1) ?_ ?_ hlen2) fun _ _ => NoUB.ok _
        · rw [foldl_add_eq_sum]
          simpa using List.sum_nonneg hnn
        · rw [foldl_add_eq_sum]
          simpa using sum_le_length (l := g :: gs) (M := gs.foldl max g) fun y hy => by
            rcases List.mem_cons.1 hy with rfl | h
            · exact h1
            · exact h2 y h
  have hl : d.logLikelihood T (x.toClass U T h) p ≠ .ub := by
    unfold Detector.logLikelihood
    rw [ha]
    refine NoUB.bind hp fun y _ => ?_
    split_ifs <;> exact nofun
  refine ⟨hb, ht, NoUB.bind ht fun _ _ => NoUB.fdiv _ _, hl, NoUB.bind hl fun _ _ => NoUB.ok _, ?_⟩
  unfold Detector.pValue
  simp only [ha]
  exact hp

theorem deposit_ne_ub {x : NuclearDetector} : (x.toClass U T h).maximumEnergyDeposit p ≠ .ub := by
  have hs : ∀ iso v, p.sigmaTotalNucleus U T.integrate iso v ≠ .ub := fun iso v => by
    unfold DMParticle.sigmaTotalNucleus
    cases p.interaction with
    | SI ff qRef mMed =>
      dsimp only
      split_ifs
      · exact nofun
      · exact nofun
      · refine NoUB.bind ?_ fun _ _ => NoUB.ok _
        exact NoUB.bind (NoUB.fdiv _ _) fun _ _ => NoUB.bind (NoUB.fdiv _ _) fun _ _ => NoUB.fdiv _ _
      · exact nofun
    | SD =>
      dsimp only
      split_ifs <;> exact nofun
  refine NoUB.bind ?_ fun _ _ => NoUB.ok _
  generalize (0 : ℝ) = E
  generalize x.isotopes = l
  induction l generalizing E with
  | nil => exact nofun
  | cons iso l ih =>
    unfold NuclearDetector.depositLoop
    dsimp only
    split_ifs
    · refine NoUB.bind (hs _ _) fun _ _ => ?_
      split_ifs <;> exact ih _
    · exact ih _

/-- **C56** — with the data files installed, the signals, likelihoods and p-values of a predefined semiconductor experiment have no
undefined behaviour, for every particle and every halo whose inverse mean speed has none. -/
theorem C56_signals_crystal (hI : Installed S rows) {c : Config} {e : PairSearch} (he : e ∈ pairSearches)
    (hn : c "DD_experiment" = some (.string e.name)) :
    ∃ cache' D, c.detector S cache = .ok (cache', D) ∧
      ∀ (T : Tools) (h : Distribution) (p : DMParticle), (∀ v, h.eta v ≠ .ub) → WellBehaved S.U T (D.toClass S.U T h) D.base p := by
  obtain ⟨c', d, x, h1, h2⟩ := C55_crystal (cache := cache) hI he hn
  refine ⟨c', _, h1, fun T h p heta => ?_⟩
  have hd := consistent_pairs he h2
  obtain ⟨-, -, h3, -⟩ := hd.bins h2.analysis
  have hN : d.bins ≤ 1000000 := by
    rw [h2.bins]
    simp only [pairSearches, List.mem_cons, List.not_mem_nil, or_false] at he
    rcases he with rfl | rfl | rfl | rfl | rfl | rfl <;> simp
  obtain ⟨h4, h5⟩ := NoUB.pairBins (T := T) (p := p) heta h2.crystal.2 h2.analysis h2.noEnergyBins.1 h2.pairs.1 h2.pairs.2 hN h3
  refine wellBehaved_binned (d := d) h2.analysis hd h2.fresh h4 h5 ?_
  simp only [AnyDetector.toClass, CrystalDetector.toClass, CrystalDetector.signalsTotal]
  rw [if_pos h2.analysis]
  exact NoUB.bind h4 fun _ _ => NoUB.ok _

theorem wellBehaved_electrons {R : ShellRate} {e : IonizationSearch} {t : String} {d : Detector} {x : IonizationDetector} {n : ℕ}
    (hU : S.U.keV ≤ S.U.mElectron) (he : e ∈ ionizationSearches) (h2 : RepresentsIonization S rows e t d x)
    (hb : e.bins = .electrons n) (hR : ∀ E nuc s, R d E p nuc s ≠ .ub) : WellBehaved S.U T (x.toClass S.U R T h) d p := by
  have hd := consistent_ionization he h2
  obtain ⟨-, -, h3, -⟩ := hd.bins h2.analysis
  obtain ⟨a, ha, hf, hat, -⟩ := h2.atom
  obtain ⟨h4, h5⟩ := NoUB.electronBins (T := T) (p := p) (S := R) (h := h) hU (by rw [ha, hf]; rfl)
    (by rw [ha]; simpa using hat) (fun _ _ _ _ _ => hR _ _ _) h2.analysis h2.noEnergyBins.1 (h2.electrons n hb).1 h3
  refine wellBehaved_binned (d := d) h2.analysis hd h2.fresh h4 h5 ?_
  simp only [IonizationDetector.toClass, IonizationDetector.signalsTotal]
  rw [if_pos h2.analysis]
  exact NoUB.bind h4 fun _ _ => NoUB.ok _

/-- **C56** — the same for the ionization experiments that count electrons, for electron recoils and for the Migdal effect. Missing:
the experiments that count photo-electrons (`C56_fails_photoelectrons`). -/
theorem C56_signals_electrons_partial (hI : Installed S rows) (hc : CacheReachable S.U (some rows) cache)
    (hU : S.U.keV ≤ S.U.mElectron) {c : Config} {e : IonizationSearch} {n : ℕ} (he : e ∈ ionizationSearches)
    (hb : e.bins = .electrons n)
    (hn : c "DD_experiment" = some (.string e.name) ∨ c "DD_experiment" = some (.string e.migdal)) :
    ∃ cache' D, c.detector S cache = .ok (cache', D) ∧
      ∀ (T : Tools) (h : Distribution) (p : DMParticle), (∀ v, h.eta v ≠ .ub) → WellBehaved S.U T (D.toClass S.U T h) D.base p := by
  rcases hn with hn | hn
  · obtain ⟨c', d, x, h1, h2⟩ := C55_electron_recoil hI hc he hn
    exact ⟨c', _, h1, fun T h p heta => wellBehaved_electrons hU he h2 hb fun E nuc s => NoUB.shellRateER heta E nuc s⟩
  · obtain ⟨c', d, x, h1, h2⟩ := C55_migdal_partial hI hc he hn
    exact ⟨c', _, h1, fun T h p heta => wellBehaved_electrons hU he h2 hb fun E nuc s => NoUB.shellRateMigdal E nuc s⟩

/-- **C56** — the same for the nuclear recoil experiments, including the spectrum. With a list of events it takes a particle that can
deposit more than the threshold, spectra that are not negative (`C40_nonneg`) and an interpolation that keeps this, and fewer than
2³¹ − 2 events. -/
theorem C56_signals_nuclear (hI : Installed S rows) (hc : CacheReachable S.U (some rows) cache) {c : Config} {e : RecoilSearch}
    (he : e ∈ recoilSearches) (hn : c "DD_experiment" = some (.string e.name)) :
    ∃ cache' d x, c.detector S cache = .ok (cache', .nuclear d x) ∧
      ∀ (T : Tools) (h : Distribution) (p : DMParticle), (∀ v, h.eta v ≠ .ub) →
        (∀ E, x.dRdE S.U T.integrate d E p h ≠ .ub ∧ ∀ ER, x.theoryRate S.U T.integrate d E ER p h ≠ .ub) ∧
        ((∃ n, e.data = .counted n) → WellBehaved S.U T (x.toClass S.U T h) d p) ∧
        ∀ file events, e.data = .listed file → S.files.numbers file = some events → events.length < 2 ^ 31 - 2 →
          PositiveInterpolation T → (∀ E, d.energyThreshold ≤ E → 0 ≤ (x.toClass S.U T h).dRdE d E p) →
          (∀ Edep, (x.toClass S.U T h).maximumEnergyDeposit p = .ok Edep → e.lowest * S.U.eV < Edep) →
          WellBehaved S.U T (x.toClass S.U T h) d p := by
  obtain ⟨c', d, x, h1, h2⟩ := C55_nuclear hI hc he hn
  have hd := consistent_recoils he hI h2
  refine ⟨c', d, x, h1, fun T h p heta => ⟨fun E => ?_, fun ⟨n, hn⟩ => ?_, fun file events hf hev hlen hT hr hE => ?_⟩⟩
  · have hl : x.fractions.length = x.nuclei.length := by rw [h2.fractions, h2.nuclei]; simp [massShares]
    have ht := fun ER => NoUB.theoryRate (U := S.U) (I := T.integrate) (d := d) (p := p) heta hl E ER
    refine ⟨?_, ht⟩
    unfold NuclearDetector.dRdE
    split_ifs
    · exact ht E
    · exact nofun
  · exact wellBehaved_counted (h2.counted n hn).1 h2.fresh
  · obtain ⟨ha, -, events', he', hp⟩ := h2.listed file hf
    rw [hev] at he'
    cases he'
    refine wellBehaved_listed ha hd hT ?_ hr deposit_ne_ub fun Edep h => ?_
    · rw [hp.length_eq]; simp only [List.length_cons, List.length_map]; omega
    · rw [h2.lowest]; exact hE Edep h

/-! ## Photo-electrons -/

theorem vecGet_cases {α : Type} (l : List α) (i : ℕ) : (∃ a, vecGet l i = .ok a) ∨ vecGet l i = .ub := by
  unfold vecGet
  cases l[i]? <;> simp

/-- The efficiency of a number of photo-electrons is in the table or read out of bounds. -/
theorem peEfficiency_cases (x : IonizationDetector) (n : ℕ) : (∃ eff, x.peEfficiency n = .ok eff) ∨ x.peEfficiency n = .ub := by
  have h1 := vecGet_cases x.trigger (usub32 n 1)
  have h2 := vecGet_cases x.acceptance (usub32 n 1)
  unfold IonizationDetector.peEfficiency
  dsimp only
  rcases h1 with ⟨a, h1⟩ | h1 <;> rcases h2 with ⟨b, h2⟩ | h2 <;> rw [h1, h2] <;> split_ifs <;> simp

theorem photoelectrons_ub {R : ShellRate} {e : IonizationSearch} {t : String} {d : Detector} {x : IonizationDetector}
    {mean spread : ℝ} {edges : List ℕ} {trigger : String} {acceptance : Option String} (he : e ∈ ionizationSearches)
    (h2 : RepresentsIonization S rows e t d x) (hb : e.bins = .photoElectrons mean spread edges trigger acceptance)
    (hr : ∀ ne, ∃ r, x.rNe S.U R d ne p = .ok r) : x.signalsBinned S.U R T d p h = .ub := by
  obtain ⟨h3, h4, -, -, h5, h6, -⟩ := h2.photoElectrons _ _ _ _ _ hb
  have hl : ∃ lo hi rest, edges = lo :: hi :: rest ∧ lo ≤ usub32 hi 1 ∧ 1 ≤ d.bins := by
    rw [h2.bins]
    simp only [ionizationSearches, List.mem_cons, List.not_mem_nil, or_false] at he
    rcases he with rfl | rfl | rfl | rfl | rfl | rfl <;> simp at hb
    · obtain ⟨-, -, rfl, -⟩ := hb
      exact ⟨_, _, _, rfl, by decide, by simp⟩
    · obtain ⟨-, -, rfl, -⟩ := hb
      exact ⟨_, _, _, rfl, by decide, by simp⟩
  obtain ⟨lo, hi, rest, rfl, hlo, hbins⟩ := hl
  unfold IonizationDetector.signalsBinned
  simp only [h2.analysis, ne_eq, not_true_eq_false, if_false, h2.noEnergyBins.1, Bool.false_eq_true, h4, h3, if_true]
  unfold IonizationDetector.signalsPEBins
  simp only [h3, Bool.true_eq_false, if_false]
  have hr' := hr
  choose r hr using hr
  rw [collect_ok (g := r) fun ne _ => hr ne, Outcome.bind_ok]
  obtain ⟨b, hb'⟩ : ∃ b, d.bins = b + 1 := ⟨d.bins - 1, by omega⟩
  rw [hb', List.range_succ_eq_map, collect, h5]
  simp only [vecGet, List.getElem?_cons_zero, List.getElem?_cons_succ, zero_add, Outcome.bind_ok]
  have key : x.rS2Bin S.U R d lo (usub32 hi 1) p (List.map r (List.range' 1 99)) = .ub := by
    rcases peEfficiency_cases x lo with ⟨eff, heff⟩ | hub
    · exact (IonizationDetector.rS2Bin_ub hlo hr' heff).2 _ (by simp)
    · unfold IonizationDetector.rS2Bin
      rw [if_neg (by simp [List.range'_succ]), Outcome.bind_ok, show usub32 hi 1 + 1 - lo = (usub32 hi 1 - lo) + 1 by omega,
        List.range'_succ]
      unfold sumOver
      simp only [collect, hub]
      rfl
  rw [key]
  rfl

/-- **C56** — the claim fails for XENON10 and XENON100, for electron recoils and for the Migdal effect: as soon as the rates of
electrons are defined, the prediction of the signals reads past the end of the electron spectrum (see `C48_fails_bins`), and so do
the likelihood and the p-value. -/
theorem C56_fails_photoelectrons (hI : Installed S rows) (hc : CacheReachable S.U (some rows) cache) {c : Config} {e : IonizationSearch}
    (he : e ∈ ionizationSearches) (hb : e.name = "XENON10_S2" ∨ e.name = "XENON100_S2")
    (hn : c "DD_experiment" = some (.string e.name) ∨ c "DD_experiment" = some (.string e.migdal)) :
    ∃ cache' D, c.detector S cache = .ok (cache', D) ∧ ∀ (T : Tools) (h : Distribution) (p : DMParticle),
      (∀ ne, match D with
        | .electronRecoil d x => ∃ r, x.rNe S.U (shellRateER S.U T.integrate h) d ne p = .ok r
        | .migdal d x => ∃ r, x.rNe S.U (shellRateMigdal S.U T.integrate h) d ne p = .ok r
        | _ => False) →
      (D.toClass S.U T h).signalsBinned D.base p = .ub ∧ (D.toClass S.U T h).signalsTotal D.base p = .ub ∧
        D.base.logLikelihood T (D.toClass S.U T h) p = .ub ∧ D.base.pValue S.U T (D.toClass S.U T h) p = .ub := by
  obtain ⟨mean, spread, edges, trigger, acceptance, hb⟩ : ∃ mean spread edges trigger acceptance,
      e.bins = .photoElectrons mean spread edges trigger acceptance := by
    simp only [ionizationSearches, List.mem_cons, List.not_mem_nil, or_false] at he
    rcases he with rfl | rfl | rfl | rfl | rfl | rfl <;> simp at hb ⊢
  rcases hn with hn | hn
  · obtain ⟨c', d, x, h1, h2⟩ := C55_electron_recoil hI hc he hn
    refine ⟨c', _, h1, fun T h p hr => ?_⟩
    have h3 := photoelectrons_ub (T := T) (h := h) he h2 hb hr
    refine ⟨h3, ?_, ?_, ?_⟩
    · simp [AnyDetector.toClass, AnyDetector.base, IonizationDetector.toClass, IonizationDetector.signalsTotal, h2.analysis, h3]
    · simp [AnyDetector.toClass, AnyDetector.base, IonizationDetector.toClass, Detector.logLikelihood, h2.analysis, h3]
    · simp [AnyDetector.toClass, AnyDetector.base, IonizationDetector.toClass, Detector.pValue, h2.analysis, h2.fresh, h3]
  · obtain ⟨c', d, x, h1, h2⟩ := C55_migdal_partial hI hc he hn
    refine ⟨c', _, h1, fun T h p hr => ?_⟩
    have h3 := photoelectrons_ub (T := T) (h := h) he h2 hb hr
    refine ⟨h3, ?_, ?_, ?_⟩
    · simp [AnyDetector.toClass, AnyDetector.base, IonizationDetector.toClass, IonizationDetector.signalsTotal, h2.analysis, h3]
    · simp [AnyDetector.toClass, AnyDetector.base, IonizationDetector.toClass, Detector.logLikelihood, h2.analysis, h3]
    · simp [AnyDetector.toClass, AnyDetector.base, IonizationDetector.toClass, Detector.pValue, h2.analysis, h2.fresh, h3]

/-- **C56** — the claim fails without the silicon table, which is not among the data files of the repository: selecting any of the
semiconductor experiments ends the program. -/
theorem C56_fails_missing_silicon (hS : S.files.crystal "Si" = none) {c : Config} {e : PairSearch} (he : e ∈ pairSearches)
    (hn : c "DD_experiment" = some (.string e.name)) : c.detector S cache = .exit := by
  rw [Config.detector_string hn]
  simp only [pairSearches, List.mem_cons, List.not_mem_nil, or_false] at he
  rcases he with rfl | rfl | rfl | rfl | rfl | rfl <;>
    simp [Config.selectDetector, Config.asCrystal, Setup.protoSENSEISurface, Setup.protoSENSEIMINOS, Setup.senseiMINOS,
      Setup.cdmsHVeV2018, Setup.cdmsHVeV2020, Setup.damicM2023, Setup.makeCrystal, hS]

theorem sumOver_defined {α : Type} {f : α → Outcome ℝ} {l : List α} (hf : ∀ a ∈ l, ∃ r, f a = .ok r) : ∃ r, sumOver f l = .ok r := by
  unfold sumOver
  obtain ⟨bs, hbs⟩ : ∃ bs, collect f l = .ok bs := by
    induction l with
    | nil => exact ⟨[], rfl⟩
    | cons a l ih =>
      obtain ⟨r, hr⟩ := hf a (by simp)
      obtain ⟨bs, hbs⟩ := ih fun b hb => hf b (by simp [hb])
      exact ⟨r :: bs, by simp [collect, hr, hbs]⟩
  exact ⟨_, by rw [hbs]; rfl⟩

/-- The electron spectrum is defined if the rates of all shells are. -/
theorem rNe_defined {R : ShellRate} {x : IonizationDetector} (hU : U.keV ≤ U.mElectron) (hl : x.fractions.length = x.atoms.length)
    (ha : ∀ a ∈ x.atoms, BuiltAtom U a) (hR : ∀ E n s, ∃ r, R d E p n s = .ok r) (ne : ℕ) : ∃ r, x.rNe U R d ne p = .ok r := by
  have hme := U.mElectron_pos
  refine sumOver_defined fun i hi => ?_
  rw [List.mem_range] at hi
  have hi' : i < x.fractions.length := by omega
  rw [vecGet_lt hi, Outcome.bind_ok, vecGet_lt hi', Outcome.bind_ok]
  have hb := ha _ (List.getElem_mem hi)
  have hW : 0 < x.atoms[i].W := (atom_bindings hb).choose_spec.2.2.2.1
  obtain ⟨r, hr⟩ : ∃ r, IonizationDetector.rNeAtom U R d ne p x.atoms[i] = .ok r := by
    refine sumOver_defined fun e he => sumOver_defined fun k hk => ?_
    obtain ⟨hk0, -⟩ := kGrid_bounds hb he hk
    have hlt := kGrid_electrons hU hb he hk
    have e1 : k * k / 2 / U.mElectron = k ^ 2 / (2 * U.mElectron) := by rw [div_div, sq]
    obtain ⟨w, hw⟩ : ∃ w, pdfNe ne (k * k / 2 / U.mElectron) x.atoms[i].W e.secondaries = .ok w := by
      unfold pdfNe
      dsimp only
      rw [fdiv_ok hW.ne', Outcome.bind_ok]
      have h0 : 0 ≤ k * k / 2 / U.mElectron / x.atoms[i].W := by positivity
      have h1 : (0 : ℝ) ≤ ⌊k * k / 2 / U.mElectron / x.atoms[i].W⌋ := by exact_mod_cast Int.floor_nonneg.2 h0
      have h2 := Int.floor_le (k * k / 2 / U.mElectron / x.atoms[i].W)
      have hs : (0 : ℝ) ≤ e.secondaries := by positivity
      rw [← e1] at hlt
      norm_num at hlt
      unfold toUIntConv
      rw [if_neg (by norm_num; constructor <;> linarith)]
      exact ⟨_, rfl⟩
    obtain ⟨r, hr⟩ := hR (k * k / 2 / U.mElectron) x.atoms[i].nucleus e
    dsimp only
    rw [hw, Outcome.bind_ok, hr, Outcome.bind_ok]
    exact ⟨_, rfl⟩
  rw [hr]
  exact ⟨_, rfl⟩

/-- **C56** — for the Migdal effect in XENON10 and XENON100 this happens for every particle and every halo. -/
theorem C56_fails_photoelectrons_migdal (hI : Installed S rows) (hc : CacheReachable S.U (some rows) cache)
    (hU : S.U.keV ≤ S.U.mElectron) {c : Config} {e : IonizationSearch} (he : e ∈ ionizationSearches)
    (hb : e.name = "XENON10_S2" ∨ e.name = "XENON100_S2") (hn : c "DD_experiment" = some (.string e.migdal)) :
    ∃ cache' D, c.detector S cache = .ok (cache', D) ∧ ∀ (T : Tools) (h : Distribution) (p : DMParticle),
      (D.toClass S.U T h).signalsBinned D.base p = .ub ∧ (D.toClass S.U T h).signalsTotal D.base p = .ub ∧
        D.base.logLikelihood T (D.toClass S.U T h) p = .ub ∧ D.base.pValue S.U T (D.toClass S.U T h) p = .ub := by
  obtain ⟨c', d, x, h1, h2⟩ := C55_migdal_partial hI hc he hn
  obtain ⟨c'', D, h1', h3⟩ := C56_fails_photoelectrons hI hc he hb (.inr hn)
  rw [h1] at h1'
  cases h1'
  refine ⟨c', _, h1, fun T h p => h3 T h p fun ne => ?_⟩
  obtain ⟨a, ha, hf, hat, -⟩ := h2.atom
  exact rNe_defined hU (by rw [ha, hf]; rfl) (by rw [ha]; simpa using hat) (fun _ _ _ => ⟨_, rfl⟩) ne

/-- The halo models have no undefined behaviour in the inverse mean speed: the standard halo model, SHM++ and imported tables. -/
theorem C56_halo_models (s : SHM) (s' : SHMpp) {N : Numerics} (v : ℝ) :
    (Distribution.ofSHM s).eta v ≠ .ub ∧ (Distribution.ofSHMpp N s').eta v ≠ .ub ∧
      ∀ {I P b rho xs ys D}, Distribution.imported I P b rho xs ys = .ok D → D.eta v ≠ .ub := by
  refine ⟨nofun, ?_, fun {I P b rho xs ys D} h => ?_⟩
  · simp only [Distribution.ofSHMpp, SHMpp.eta]
    split_ifs <;> exact nofun
  · unfold Distribution.imported at h
    split at h
    · cases h
      simp only [Distribution.importedEta]
      split_ifs <;> exact nofun
    · cases h

/-- Non-vacuity: the files are installed (`sampleSetup_installed`), a Migdal experiment with undefined behaviour. -/
example : ∃ c : Config, ∃ cache' D, c.detector sampleSetup [] = .ok (cache', D) ∧
    D.base.pValue sampleSetup.U flatTools (D.toClass sampleSetup.U flatTools sampleHalo) (DMParticle.standard sampleSetup.U 1 1 .SD) = .ub := by
  obtain ⟨cache', D, h1, h2⟩ := C56_fails_photoelectrons_migdal sampleSetup_installed (cache := []) .start
    (by norm_num [sampleSetup, Units.sample, Units.keV])
    (c := fun k => if k = "DD_experiment" then some (.string "XENON10_S2_Migdal") else none)
    (e := { name := "XENON10_S2", migdal := "XENON10_S2_Migdal", exposure := fun S => 15 * (S.kg * S.day), atom := "Xe",
            bins := .photoElectrons 27 6.7 [14, 41, 68, 95, 122, 149, 176, 203] "data/XENON10e/PE_Trigger_Efficiency.txt" none,
            observed := [126, 60, 12, 3, 2, 0, 2], efficiency := 0.92, binEfficiencies := [1, 1, 1, 1, 1, 1, 1],
            binBackground := [0, 0, 0, 0, 0, 0, 0] }) (by simp [ionizationSearches]) (.inl rfl) rfl
  exact ⟨_, cache', D, h1, (h2 _ _ _).2.2.2⟩

/-- Non-vacuity: a semiconductor experiment. -/
example : ∃ c : Config, ∃ cache' D, c.detector sampleSetup [] = .ok (cache', D) ∧
    WellBehaved sampleSetup.U flatTools (D.toClass sampleSetup.U flatTools sampleHalo) D.base (DMParticle.standard sampleSetup.U 1 1 .SD) := by
  obtain ⟨cache', D, h1, h2⟩ := C56_signals_crystal sampleSetup_installed (cache := [])
    (c := fun k => if k = "DD_experiment" then some (.string "DAMIC-M_2023") else none)
    (e := { name := "DAMIC-M_2023", exposure := fun S => 0.4 * (85.23 * (S.M.gram * S.day)), observed := [4216354, 11345, 19],
            efficiency := 1, binEfficiencies := [1, 1, 1] }) (by simp [pairSearches]) rfl
  exact ⟨_, cache', D, h1, h2 _ _ _ fun v => nofun⟩

end Signals

end Obscura
