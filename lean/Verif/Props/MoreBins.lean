import Verif.Spec.MoreBins
import Verif.Props.LimitTrendsBinned
import Verif.Props.Statistics
import Verif.Props.Ionization
import Verif.Props.Crystal
import Verif.Lemmas.Composition

/-!
# C107 — further bins can only exclude more, and bins agree with windows
-/

namespace Obscura

open Spec DMParticle Detector

variable {U : Units} {T : Tools} {h : Distribution} {D D' : AnyDetector} {p : DMParticle} {c0 cert s : ℝ} {ss ss' : List ℝ}

theorem SeesInBins.getD_nonneg (hS : SeesInBins U T h D p c0 ss) : ∀ s ∈ ss, 0 ≤ s := by
  intro s hs
  obtain ⟨i, hi, rfl⟩ := List.mem_iff_getElem.1 hs
  have := hS.visible i (by rw [← hS.complete]; exact hi)
  rw [List.getD_eq_getElem?_getD, List.getElem?_eq_getElem hi] at this
  exact this.le

theorem SeesInBins.background_nonneg (hS : SeesInBins U T h D p c0 ss) : ∀ b ∈ D.base.binBackground, 0 ≤ b := by
  intro b hb
  obtain ⟨i, hi, rfl⟩ := List.mem_iff_getElem.1 hb
  have := hS.background i (by rw [← ((reachable_sound hS.detector).entries hS.binned).2.1]; exact hi)
  rwa [List.getD_eq_getElem?_getD, List.getElem?_eq_getElem hi] at this

/-! ## Further bins -/

/-- C107 (p-value). An analysis with further bins never finds a particle more compatible with the data: the p-value does not increase. -/
theorem C107_p_value (hS : SeesInBins U T h D p c0 ss) (hS' : SeesInBins U T h D' p c0 ss') (hM : MoreBins D.base D'.base)
    (hs : ∀ i < D.base.bins, ss'.getD i 0 = ss.getD i 0) :
    ∃ x x', D.base.pValue U T (D.toClass U T h) p = .ok x ∧ D'.base.pValue U T (D'.toClass U T h) p = .ok x' ∧ x' ≤ x := by
  obtain ⟨x, h1, ⟨i, hi, e⟩, -⟩ := C29_binned_value (U := U) (T := T) hS.detector hS.binned hS.bins hS.signal hS.complete
    (SeesInBins.getD_nonneg hS) (SeesInBins.background_nonneg hS)
  obtain ⟨x', h2, -, h3⟩ := C29_binned_value (U := U) (T := T) hS'.detector hS'.binned hS'.bins hS'.signal hS'.complete
    (SeesInBins.getD_nonneg hS') (SeesInBins.background_nonneg hS')
  refine ⟨x, x', h1, h2, h3 ⟨i, hi.trans_le hM.bins, ?_⟩⟩
  rw [hs i hi, hM.observed i hi, hM.background i hi, e]

/-- C107 (limit). The upper limit of an analysis with further bins is at least as strong. -/
theorem C107_limit (hS : SeesInBins U T h D p c0 ss) (hS' : SeesInBins U T h D' p c0 ss') (hM : MoreBins D.base D'.base)
    (hs : ∀ i < D.base.bins, ss'.getD i 0 = ss.getD i 0) (hR : T.findRoot.Exact) {r r' : Detector × DMParticle × ℝ}
    (h1 : D.base.upperLimit U T (D.toClass U T h) p cert = .ok r) (h2 : D'.base.upperLimit U T (D'.toClass U T h) p cert = .ok r')
    (hx : 0 < r.2.2) (hx' : 0 < r'.2.2) : r'.2.2 ≤ r.2.2 := by
  obtain ⟨p1, y, g1, k1⟩ := C87_value_binned hS hR cert
  obtain ⟨p2, y', g2, k2⟩ := C87_value_binned hS' hR cert
  rw [g1] at h1; cases h1
  rw [g2] at h2; cases h2
  have hx : 0 < y := hx
  obtain ⟨i, hi, e⟩ := (k1.pos hx).1
  have e2 := k2.pos hx'
  by_contra hlt
  have hlt : y < y' := not_le.1 hlt
  have hi' := hi.trans_le hM.bins
  have l1 := binProb_lt (d := D'.base) hS'.positive hx.le hlt (hS'.visible i hi') (hS'.background i hi')
  -- the bin which decided the first limit excludes at least as much in the second analysis
  have l2 : binProb D'.base ss' c0 y i = binProb D.base ss c0 y i := by
    unfold binProb
    rw [hs i hi, hM.observed i hi, hM.background i hi]
  -- the smallest p-value of the second analysis at its own limit
  have l3 : 1 - cert ≤ binProb D'.base ss' c0 y' i := e2.2 ⟨i, hi', rfl⟩
  linarith

/-! ## One bin -/

/-- C107 (one bin, p-value and likelihood). A binned analysis with a single bin gives the p-value and the log-likelihood of counting the events. -/
theorem C107_single_bin (hS : SeesInBins U T h D p c0 [s]) (hS' : Sees U T h D' p c0 s) (hC : CountsTheBin D.base D'.base) :
    (∃ x, D.base.pValue U T (D.toClass U T h) p = .ok x ∧ D'.base.pValue U T (D'.toClass U T h) p = .ok x) ∧
    (∃ l, D.base.logLikelihood T (D.toClass U T h) p = .ok l ∧ D'.base.logLikelihood T (D'.toClass U T h) p = .ok l) := by
  have hb0 := hS'.background
  have hs := hS'.visible
  constructor
  · obtain ⟨x, h1, ⟨i, hi, e⟩, -⟩ := C29_binned_value (U := U) (T := T) hS.detector hS.binned hS.bins hS.signal hS.complete
      (SeesInBins.getD_nonneg hS) (SeesInBins.background_nonneg hS)
    have h2 := C29_poisson_value (U := U) (T := T) hS'.detector hS'.counting hS'.signal hs.le hb0
    refine ⟨x, h1, h2.trans ?_⟩
    rw [hC.bins] at hi
    obtain rfl : i = 0 := by omega
    rw [e, hC.observed, hC.background]
    rfl
  · obtain ⟨e1, e2, -⟩ := (reachable_sound hS.detector).entries hS.binned
    rw [hC.bins] at e1 e2
    obtain ⟨n, hn⟩ := List.length_eq_one_iff.1 e1
    obtain ⟨b, hb⟩ := List.length_eq_one_iff.1 e2
    have hn' : D'.base.observed = n := by rw [hC.observed, hn]; rfl
    have hb' : D'.base.background = b := by rw [hC.background, hb]; rfl
    have hgt : 0 < s + profiledBackground s n b := by
      unfold profiledBackground
      split_ifs with hc
      · linarith [hc.2]
      · linarith
    refine ⟨logLikelihoodPoisson s n (profiledBackground s n b), ?_, ?_⟩
    · unfold logLikelihood
      rw [hS.binned]
      simp only [hS.signal, Outcome.bind_ok, hn, hb]
      simp [collect, vecGet, flogLikelihood, not_le.2 hgt]
    · unfold logLikelihood
      rw [hS'.counting]
      simp only [hS'.signal, Outcome.bind_ok, hn', hb', flogLikelihood, if_neg (not_le.2 hgt)]

/-- C107 (one bin, limit). The upper limit is that of counting the events. -/
theorem C107_single_bin_limit (hS : SeesInBins U T h D p c0 [s]) (hS' : Sees U T h D' p c0 s) (hC : CountsTheBin D.base D'.base)
    (hR : T.findRoot.Exact) (cert : ℝ) :
    ∃ q q' x, D.base.upperLimit U T (D.toClass U T h) p cert = .ok (D.base, q, x) ∧
      D'.base.upperLimit U T (D'.toClass U T h) p cert = .ok (D'.base, q', x) := by
  have hb0 := hS'.background
  have hs := hS'.visible
  have h0 := hS.positive
  obtain ⟨q, x, g1, k1⟩ := C87_value_binned hS hR cert
  obtain ⟨q', x', g2, k2⟩ := C87_value hS' hR cert
  have hsame : ∀ c, binProb D.base [s] c0 c 0 = probAtMost (c / c0 * s + D'.base.background) D'.base.observed := fun c => by
    unfold binProb
    rw [hC.observed, hC.background]
    rfl
  have hone : ∀ c y, SmallestP D.base [s] c0 c y ↔ probAtMost (c / c0 * s + D'.base.background) D'.base.observed = y := fun c y => by
    unfold SmallestP
    rw [hC.bins, ← hsame]
    constructor
    · rintro ⟨⟨i, hi, e⟩, -⟩
      obtain rfl : i = 0 := by omega
      exact e.symm
    · rintro rfl
      refine ⟨⟨0, one_pos, rfl⟩, ?_⟩
      rintro y ⟨i, hi, rfl⟩
      obtain rfl : i = 0 := by omega
      exact le_rfl
  have e : x = x' := by
    rcases k1 with ⟨rfl, m1⟩ | ⟨m1, m2⟩ <;> rcases k2 with ⟨rfl, n1⟩ | ⟨n1, n2⟩
    · rfl
    · exact absurd ((hone _ _).2 n2) (m1 _ n1)
    · exact absurd ((hone _ _).1 m2) (n1 _ m1)
    · have m2 := (hone _ _).1 m2
      have p1 : 0 ≤ x := (ten_pow_pos _).le.trans m1.1
      have p2 : 0 ≤ x' := (ten_pow_pos _).le.trans n1.1
      rcases lt_trichotomy x x' with l | l | l
      · have : x / c0 * s < x' / c0 * s := by gcongr
        have := probAtMost_lt (x := x / c0 * s + D'.base.background) (y := x' / c0 * s + D'.base.background) (by positivity) (by linarith) D'.base.observed
        linarith
      · exact l
      · have : x' / c0 * s < x / c0 * s := by gcongr
        have := probAtMost_lt (x := x' / c0 * s + D'.base.background) (y := x / c0 * s + D'.base.background) (by positivity) (by linarith) D'.base.observed
        linarith
  subst e
  exact ⟨q, q', x, g1, g2⟩

/-! ## Bins of the concrete classes -/

theorem getD_of_collect {α : Type} {f : α → Outcome ℝ} {l : List α} {bs : List ℝ} (h : collect f l = .ok bs) {i : ℕ} (hi : i < l.length) :
    f l[i] = .ok (bs.getD i 0) := by
  obtain ⟨h1, h2⟩ := collect_eq_ok h
  rw [h2 i hi (h1 ▸ hi), List.getD_eq_getElem?_getD, List.getElem?_eq_getElem (h1 ▸ hi)]
  rfl

section ionization
open IonizationDetector

variable {d d₁ d₂ : Detector} {x x₁ x₂ : IonizationDetector} {n k k' : ℕ}

/-- The rates of a shell look at the detector only through its flat efficiency. -/
def OnlyEfficiency (S : ShellRate) : Prop := ∀ d d' : Detector, d'.flatEfficiency = d.flatEfficiency → S d' = S d

theorem onlyEfficiency_er : OnlyEfficiency (shellRateER U T.integrate h) := fun d d' e => by
  funext E p n s
  unfold shellRateER
  rw [e]

theorem onlyEfficiency_migdal : OnlyEfficiency (shellRateMigdal U T.integrate h) := fun d d' e => by
  funext E p n s
  unfold shellRateMigdal
  rw [e]

theorem rNe_same {S : ShellRate} (hS : OnlyEfficiency S) {d d' : Detector} {x x' : IonizationDetector} (ha : x'.atoms = x.atoms)
    (hf : x'.fractions = x.fractions) (he : d'.flatEfficiency = d.flatEfficiency) (ne : ℕ) : x'.rNe U S d' ne p = x.rNe U S d ne p := by
  have hsh : ∀ W nu sh, rNeShell U S d' ne p W nu sh = rNeShell U S d ne p W nu sh := fun W nu sh => by
    unfold rNeShell
    rw [hS d d' he]
  have hat : ∀ a, rNeAtom U S d' ne p a = rNeAtom U S d ne p a := fun a => by
    unfold rNeAtom
    simp only [hsh]
  unfold rNe
  rw [ha, hf]
  simp only [hat]

theorem electronBins_shape (hu : useElectronBins d x n k = .ok (d₁, x₁)) :
    d₁.analysis = .binnedPoisson ∧ d₁.bins = k ∧ d₁.binEfficiencies = List.replicate k 1 ∧ d₁.usingEnergyBins = d.usingEnergyBins ∧
    d₁.exposure = d.exposure ∧ d₁.flatEfficiency = d.flatEfficiency ∧ x₁.atoms = x.atoms ∧ x₁.fractions = x.fractions ∧
    x₁.usingElectronBins = true ∧ x₁.neThreshold = n := by
  unfold useElectronBins Detector.initializeBinned at hu
  by_cases h1 : d.analysis = .binnedPoisson
  · rw [if_pos h1] at hu; cases hu
  · rw [if_neg h1, Outcome.bind_ok] at hu
    dsimp only at hu
    split_ifs at hu
    cases hu
    exact ⟨rfl, rfl, rfl, rfl, rfl, rfl, rfl, rfl, rfl, rfl⟩

/-- The signals in the bins after `Use_Electron_Bins`. -/
theorem electronBins_signals {S : ShellRate} (hS : OnlyEfficiency S) (hb : d.usingEnergyBins = false)
    (hu : useElectronBins d x n k = .ok (d₁, x₁)) :
    x₁.signalsBinned U S T d₁ p h = collect (fun i => do
      let r ← x.rNe U S d ((n + i) % 2 ^ 32) p
      .ok (d.exposure * r)) (List.range k) := by
  obtain ⟨e1, e2, e3, e4, e5, e6, e7, e8, e9, e10⟩ := electronBins_shape hu
  unfold signalsBinned signalsElectronBins
  rw [if_neg (by rw [e1]; simp), if_neg (by rw [e4, hb]; simp), if_pos e9, if_neg (by rw [e9]; simp), e2, e3, e10]
  refine collect_congr fun i hi => ?_
  rw [rNe_same hS e7 e8 e6, vecGet_getD (a := (1 : ℝ)) (by rw [List.length_replicate]; exact List.mem_range.1 hi), e5]
  have : (List.replicate k (1 : ℝ)).getD i 1 = 1 := by
    rw [List.getD_eq_getElem?_getD, List.getElem?_replicate]; split_ifs <;> rfl
  rw [this]
  simp

/-- A noble gas experiment of either class. -/
def IonizationClass (mk : Detector → IonizationDetector → AnyDetector) : Prop := mk = .electronRecoil ∨ mk = .migdal

/-- C107 (electron bins). Further bins with more electrons leave the predictions for the others as they are: two analyses with bins from `n` electrons
on, set up on the same detector, predict the same in the bins they share. -/
theorem C107_electron_bins {mk : Detector → IonizationDetector → AnyDetector} (hmk : IonizationClass mk) (hb : d.usingEnergyBins = false)
    (hu : useElectronBins d x n k = .ok (d₁, x₁)) (hu' : useElectronBins d x n k' = .ok (d₂, x₂)) (hk : k ≤ k')
    (h1 : ((mk d₁ x₁).toClass U T h).signalsBinned d₁ p = .ok ss) (h2 : ((mk d₂ x₂).toClass U T h).signalsBinned d₂ p = .ok ss') :
    ss.length = k ∧ ss'.length = k' ∧ ∀ i < k, ss'.getD i 0 = ss.getD i 0 := by
  have key : ∀ S : ShellRate, OnlyEfficiency S → x₁.signalsBinned U S T d₁ p h = .ok ss → x₂.signalsBinned U S T d₂ p h = .ok ss' →
      ss.length = k ∧ ss'.length = k' ∧ ∀ i < k, ss'.getD i 0 = ss.getD i 0 := by
    intro S hS g1 g2
    rw [electronBins_signals hS hb hu] at g1
    rw [electronBins_signals hS hb hu'] at g2
    refine ⟨by simpa using (collect_eq_ok g1).1, by simpa using (collect_eq_ok g2).1, fun i hi => ?_⟩
    have k1 := getD_of_collect g1 (i := i) (by simpa using hi)
    have k2 := getD_of_collect g2 (i := i) (by simpa using hi.trans_le hk)
    simp only [List.getElem_range] at k1 k2
    rw [k1] at k2
    exact (Outcome.ok.inj k2).symm
  rcases hmk with rfl | rfl
  · exact key _ onlyEfficiency_er h1 h2
  · exact key _ onlyEfficiency_migdal h1 h2

/-- C107 (electron window). The expected number of events in all bins from `n` to `n + k - 1` electrons is that of counting the events in this window
(for at least two bins: a window of a single number of electrons cannot be chosen, see C49). -/
theorem C107_electron_window_partial {mk : Detector → IonizationDetector → AnyDetector} (hmk : IonizationClass mk) (hb : d.usingEnergyBins = false)
    (hk : 2 ≤ k) (hnk : n + k ≤ 2 ^ 32) (hu : useElectronBins d x n k = .ok (d₁, x₁)) (hu' : useElectronThreshold d x n (n + k - 1) = .ok (d₂, x₂)) :
    ((mk d₁ x₁).toClass U T h).signalsTotal d₁ p = ((mk d₂ x₂).toClass U T h).signalsTotal d₂ p := by
  have key : ∀ S : ShellRate, OnlyEfficiency S → x₁.signalsTotal U S T d₁ p h = x₂.signalsTotal U S T d₂ p h := by
    intro S hS
    obtain ⟨e1, -⟩ := electronBins_shape hu
    obtain ⟨-, f2, f3⟩ := useElectronThreshold_ok hu'
    rw [if_pos ⟨by omega, by omega⟩] at f3
    have hfl : d₂.flatEfficiency = d.flatEfficiency := by rw [f2]; rfl
    unfold signalsTotal
    rw [if_pos e1, if_neg (by rw [f2]; simp [Detector.initializePoisson]), if_pos (by rw [f3]), electronBins_signals hS hb hu]
    unfold sumOver
    have hn : x₂.neThreshold = n := by rw [f3]
    have hm : x₂.neMax = n + k - 1 := by rw [f3]
    have hx : d₂.exposure = d.exposure := by rw [f2]; rfl
    rw [hn, hm, show n + k - 1 + 1 - n = k by omega, List.range'_eq_map_range, collect_of_map]
    congr 1
    refine collect_congr fun i hi => ?_
    have hi := List.mem_range.1 hi
    rw [rNe_same hS (x := x) (d := d) (by rw [f3]) (by rw [f3]) hfl, hx, Nat.mod_eq_of_lt (by omega)]
  rcases hmk with rfl | rfl
  · exact key _ onlyEfficiency_er
  · exact key _ onlyEfficiency_migdal

end ionization

section crystal
open CrystalDetector

variable {d d₁ d₂ d₃ : Detector} {x x₁ x₂ x₃ : CrystalDetector} {N N' : ℕ}

theorem qBins_signals (hN : 1 ≤ N) (hN' : N ≤ 50000000) (hb : d.usingEnergyBins = false) (hu : useQBins d x 1 N = .ok (d₁, x₁)) :
    x₁.signalsBinned U T d₁ p h = collect (fun i : ℕ => do
      let r ← rQCrystal U T.integrate ((1 + i : ℕ) : ℤ) p h x.crystal
      .ok (d.exposure * d.flatEfficiency * r)) (List.range N) := by
  obtain ⟨_, h2, h3, h4, h5, h6, h7, rfl, _⟩ := useQBins_ok hu
  rw [bins_eq hN (by omega)] at h3
  unfold signalsBinned
  simp only [h2, ne_eq, not_true_eq_false, if_false, h5, hb, Bool.false_eq_true, readMember, Outcome.bind_ok, if_true]
  unfold signalsQBins
  simp only [readMember, Outcome.bind_ok, Bool.true_eq_false, if_false, h3]
  rw [show (1 + N) % 2 ^ 32 - 1 = N by omega, List.range'_eq_map_range, collect_of_map]
  refine collect_congr fun i hi => ?_
  have hi := List.mem_range.1 hi
  have ht : toInt32 ((1 + i : ℕ) : ℤ) = ((1 + i : ℕ) : ℤ) := by unfold toInt32; omega
  rw [usub32_le (by omega), h4, h3, vecGet_getD (a := (1 : ℝ)) (by rw [List.length_replicate]; omega), ht, h6, h7]
  have : (List.replicate N (1 : ℝ)).getD (1 + i - 1) 1 = 1 := by
    rw [List.getD_eq_getElem?_getD, List.getElem?_replicate]; split_ifs <;> rfl
  rw [this]
  simp

/-- C107 (Q-bins). The same for the bins of crystals. -/
theorem C107_q_bins (hN : 1 ≤ N) (hNN : N ≤ N') (hN' : N' ≤ 50000000) (hb : d.usingEnergyBins = false)
    (hu : useQBins d x 1 N = .ok (d₁, x₁)) (hu' : useQBins d x 1 N' = .ok (d₂, x₂))
    (h1 : ((AnyDetector.crystal d₁ x₁).toClass U T h).signalsBinned d₁ p = .ok ss)
    (h2 : ((AnyDetector.crystal d₂ x₂).toClass U T h).signalsBinned d₂ p = .ok ss') :
    ss.length = N ∧ ss'.length = N' ∧ ∀ i < N, ss'.getD i 0 = ss.getD i 0 := by
  have g1 : x₁.signalsBinned U T d₁ p h = .ok ss := h1
  have g2 : x₂.signalsBinned U T d₂ p h = .ok ss' := h2
  rw [qBins_signals hN (by omega) hb hu] at g1
  rw [qBins_signals (by omega) hN' hb hu'] at g2
  refine ⟨by simpa using (collect_eq_ok g1).1, by simpa using (collect_eq_ok g2).1, fun i hi => ?_⟩
  have k1 := getD_of_collect g1 (i := i) (by simpa using hi)
  have k2 := getD_of_collect g2 (i := i) (by simpa using hi.trans_le hNN)
  simp only [List.getElem_range] at k1 k2
  rw [k1] at k2
  exact (Outcome.ok.inj k2).symm

/-- C107 (pairs window). The expected number of events in the bins from one to `N` pairs is that with at least one pair less that with more than `N`. -/
theorem C107_q_window {rate : ℝ → ℝ} (hN : 1 ≤ N) (hN' : N + 1 ≤ 50000000) (hb : d.usingEnergyBins = false) (ht : d.usingEnergyThreshold = false)
    (hc : BuiltCrystal U x.crystal) (hr : ∀ j < x.crystal.nE, dRdEeCrystal U T.integrate (gridEnergy x.crystal j) p h x.crystal =
      .ok (rate (gridEnergy x.crystal j)))
    (hu : useQBins d x 1 N = .ok (d₁, x₁)) (h1 : useQThreshold d x 1 = (d₂, x₂)) (h2 : useQThreshold d x (N + 1) = (d₃, x₃)) :
    ∃ s a b, ((AnyDetector.crystal d₁ x₁).toClass U T h).signalsTotal d₁ p = .ok s ∧
      ((AnyDetector.crystal d₂ x₂).toClass U T h).signalsTotal d₂ p = .ok a ∧
      ((AnyDetector.crystal d₃ x₃).toClass U T h).signalsTotal d₃ p = .ok b ∧ s = a - b := by
  obtain ⟨rs, a, b, k1, k2, k3, k4⟩ := C44_partition (U := U) (I := T.integrate) (p := p) (h := h) hc (Q := 1) (n := N) le_rfl (by omega) hr
  have hthr : ∀ Q : ℕ, Q ≤ 50000000 → ∀ r, rTotalCrystal U T.integrate (Q : ℤ) p h x.crystal = .ok r → ∀ d' x', useQThreshold d x Q = (d', x') →
      ((AnyDetector.crystal d' x').toClass U T h).signalsTotal d' p = .ok (d.exposure * d.flatEfficiency * r) := by
    intro Q hQ r hr d' x' hu
    show CrystalDetector.signalsTotal U T x' d' p h = _
    unfold useQThreshold at hu
    cases hu
    have hq : toInt32 (Q : ℤ) = (Q : ℤ) := by unfold toInt32; omega
    unfold signalsTotal
    rw [if_neg (by simp [Detector.initializePoisson]), if_neg (by simp [Detector.initializePoisson, ht])]
    simp only [readMember, Outcome.bind_ok, if_true, hq, hr, Detector.initializePoisson]
  have hs : x₁.signalsBinned U T d₁ p h = .ok (rs.map fun r => d.exposure * d.flatEfficiency * r) := by
    rw [qBins_signals hN (by omega) hb hu]
    have : ∀ (l : List ℕ) (rs : List ℝ), collect (fun i : ℕ => rQCrystal U T.integrate ((1 + i : ℕ) : ℤ) p h x.crystal) l = .ok rs →
        collect (fun i : ℕ => do
          let r ← rQCrystal U T.integrate ((1 + i : ℕ) : ℤ) p h x.crystal
          .ok (d.exposure * d.flatEfficiency * r)) l = .ok (rs.map fun r => d.exposure * d.flatEfficiency * r) := by
      intro l
      induction l with
      | nil => intro rs hrs; cases hrs; rfl
      | cons i l ih =>
        intro rs hrs
        obtain ⟨r, g1, hrs⟩ := Outcome.bind_eq_ok.1 hrs
        obtain ⟨rs', g2, hrs⟩ := Outcome.bind_eq_ok.1 hrs
        cases hrs
        simp only [collect, g1, Outcome.bind_ok, ih rs' g2, List.map_cons]
    exact this _ _ k1
  refine ⟨(rs.map fun r => d.exposure * d.flatEfficiency * r).sum, _, _, ?_, hthr 1 (by omega) a k2 _ _ h1, hthr (N + 1) hN' b (by rw [show N + 1 = 1 + N by omega]; exact k3) _ _ h2, ?_⟩
  · show CrystalDetector.signalsTotal U T x₁ d₁ p h = _
    unfold signalsTotal
    rw [if_pos (useQBins_ok hu).2.1, hs, Outcome.bind_ok, foldl_add_eq_sum]
  · rw [List.sum_map_mul_left, List.map_id', k4]
    ring

end crystal

/-! ## Concrete cases -/

/-- There is a particle which a hydrogen target sees at the same rate at all energies up to two. -/
theorem hydrogen_rate (U : Units) (T : Tools) : ∃ v p r, Reachable U p ∧ p.getInteractionParameter U "Nuclei" = .ok 1 ∧ 0 < r ∧
    ∀ d : Detector, d.flatEfficiency = 1 → ∀ E : ℝ, E ≤ 2 → (hydrogenTarget U).dRdE U T.integrate d E p (flatHalo v) = .ok r := by
  obtain ⟨f, -, hf, hp, hfs⟩ := makeSI_eq (U := U) (m := 1) (s := 1) one_pos zero_le_one
  have hf := hf one_pos
  set p : DMParticle := { standard U 1 1 (.SI .contact (U.aEM * U.mElectron) 0) with fp := f, fn := f, lowMass := true } with hpd
  have hval : ∀ op ∈ [DMParticle.Op.setLowMassMode true], ValidOp op := fun op ho => by
    simp only [List.mem_cons, List.not_mem_nil, or_false] at ho
    rcases ho with rfl; trivial
  have hreach : Reachable U p := ⟨_, [.setLowMassMode true], .inl ⟨1, 1, one_pos, hp⟩, hval, rfl⟩
  have hM : 0 < (Isotope.default U).mass := by simp [Isotope.default, U.mProton_pos]
  set v := vMinimalNucleus 2 p.mass (Isotope.default U).mass with hv
  have hdS : ∀ E, p.dSigmadERNucleus U E (Isotope.default U) (1 / 1000) =
      2 * (Isotope.default U).mass * (1 / 4 / Real.pi / (1 / 1000) / (1 / 1000) * f ^ 2) := by
    intro E
    unfold dSigmadERNucleus
    congr 1
    simp [dSigmadq2Nucleus, p, standard, formFactor2, Isotope.default, Isotope.neutrons, usub32]
  have hiso : ∀ E ≤ 2, dRdERIsotope U T.integrate E p (flatHalo v) (Isotope.default U) =
      .ok (1 / (Isotope.default U).mass * (1 * 1) / p.mass * ((1 / 1000 : ℝ) * (1 / 1000) *
        (2 * (Isotope.default U).mass * (1 / 4 / Real.pi / (1 / 1000) / (1 / 1000) * f ^ 2))) * 1) := by
    intro E hE
    have hle : vMinimalNucleus E p.mass (Isotope.default U).mass ≤ v := by
      rw [hv]
      unfold vMinimalNucleus
      gcongr
    unfold dRdERIsotope
    rw [if_neg (by simpa [flatHalo] using hle), if_pos ⟨rfl, rfl⟩]
    dsimp only
    rw [hdS]
    rfl
  have hpi := Real.pi_pos
  have hm : 0 < p.mass := one_pos
  generalize hr0 : 1 / (Isotope.default U).mass * (1 * 1) / p.mass * ((1 / 1000 : ℝ) * (1 / 1000) *
    (2 * (Isotope.default U).mass * (1 / 4 / Real.pi / (1 / 1000) / (1 / 1000) * f ^ 2))) * 1 = r0 at hiso
  refine ⟨v, p, r0, hreach, ?_, by rw [← hr0]; positivity, fun d hd E hE => ?_⟩
  · simp [getInteractionParameter, p, standard, sigmaProton] at *
    exact hfs
  unfold NuclearDetector.dRdE
  rw [if_pos (by have := U.eV_pos; simp only [hydrogenTarget]; positivity)]
  unfold NuclearDetector.theoryRate dRdERNucleus
  have hab : (Isotope.default U).abundance = 1 := rfl
  simp [hydrogenTarget, sumOver, collect, vecGet, NuclearDetector.efficiency, hiso E hE, hab, hd]

/-- The hydrogen detector with only the first of the two bins of `binnedHydrogen`. -/
noncomputable def oneBinHydrogen (U : Units) : AnyDetector :=
  .nuclear { Detector.make "x" 1 "Nuclei" with analysis := .binnedPoisson, bins := 1, binObserved := [3], binBackground := [1],
                                               binEfficiencies := [1], usingEnergyBins := true, energyThreshold := 1, energyMax := 3 / 2,
                                               binEnergies := [1, 3 / 2], observed := 3, background := 1 }
    (hydrogenTarget U)

/-- The hydrogen detector counting the events in that bin. -/
noncomputable def countingHydrogen (U : Units) : AnyDetector :=
  .nuclear { Detector.make "x" 1 "Nuclei" with usingEnergyThreshold := true, energyThreshold := 1, energyMax := 3 / 2, observed := 3, background := 1 }
    (hydrogenTarget U)

/-- Non-vacuity: a particle which is seen in both bins, in the first bin alone and by counting the events of the first bin. -/
theorem more_bins_example (U : Units) {T : Tools} (hT : T.integrate.Exact) (hT' : T.interpolationIntegral = flatTools.interpolationIntegral) :
    ∃ v p s, SeesInBins U T (flatHalo v) (binnedHydrogen U) p 1 [s, s] ∧ SeesInBins U T (flatHalo v) (oneBinHydrogen U) p 1 [s] ∧
      Sees U T (flatHalo v) (countingHydrogen U) p 1 s ∧ MoreBins (oneBinHydrogen U).base (binnedHydrogen U).base ∧
      CountsTheBin (oneBinHydrogen U).base (countingHydrogen U).base := by
  obtain ⟨v, p, r, hreach, hpar, hr0, hr⟩ := hydrogen_rate U T
  have hint : ∀ d : Detector, d.flatEfficiency = 1 → ∀ a b : ℝ, a ≤ b → b ≤ 2 →
      T.integrate (fun E => ((hydrogenTarget U).dRdE U T.integrate d E p (flatHalo v)).valueOr0) a b = r * (b - a) := by
    intro d hd a b hab hb
    rw [hT, intervalIntegral.integral_congr (g := fun _ => r)]
    · simp [mul_comm]
    · intro E hE
      rw [Set.uIcc_of_le hab] at hE
      simp only [hr d hd E (hE.2.trans hb), Outcome.valueOr0]
  have hd2 : ReachableDetector (binnedHydrogen U).base := .inl ⟨_, [.useEnergyBins 1 2 2, .setObservedBins [3, 1], .setBackgroundBins [1, 0]],
    ⟨"x", 1, "Nuclei", rfl⟩, by
      have hl : linearSpace 1 2 3 = [1, 3 / 2, 2] := by
        simp [linearSpace, List.range_succ]; norm_num
      have ht : toUInt32 2 = 2 := by decide
      have ha : toUInt64 (accumulateInt [3, 1]) = 4 := by decide
      simp [Detector.run, Detector.step, setObservedBins, setBackgroundBins, make, useEnergyBins, initializeBinned, binnedHydrogen,
        AnyDetector.base, ht, hl, ha]⟩
  have hd1 : ReachableDetector (oneBinHydrogen U).base := .inl ⟨_, [.useEnergyBins 1 (3 / 2) 1, .setObservedBins [3], .setBackgroundBins [1]],
    ⟨"x", 1, "Nuclei", rfl⟩, by
      have hl : linearSpace 1 (3 / 2) 2 = [1, 3 / 2] := by
        simp [linearSpace, List.range_succ]; norm_num
      have ht : toUInt32 1 = 1 := by decide
      have ha : toUInt64 (accumulateInt [3]) = 3 := by decide
      have hlt : ¬ (3 / 2 : ℝ) < 1 := by norm_num
      simp [Detector.run, Detector.step, setObservedBins, setBackgroundBins, make, useEnergyBins, initializeBinned, oneBinHydrogen,
        AnyDetector.base, ht, hl, ha, hlt]⟩
  have hd0 : ReachableDetector (countingHydrogen U).base := .inl ⟨_, [.useEnergyThreshold 1 (3 / 2), .setObserved 3, .setBackground 1],
    ⟨"x", 1, "Nuclei", rfl⟩, by
      have hlt : ¬ (3 / 2 : ℝ) < 1 := by norm_num
      simp [Detector.run, Detector.step, setObserved, setBackground, make, useEnergyThreshold, initializePoisson, countingHydrogen,
        AnyDetector.base, hlt]⟩
  refine ⟨v, p, r / 2, ⟨hd2, rfl, two_pos, ?_, hreach, hpar, one_pos, ?_, rfl, ?_⟩, ⟨hd1, rfl, one_pos, ?_, hreach, hpar, one_pos, ?_, rfl, ?_⟩,
    ⟨hd0, rfl, zero_le_one, hreach, hpar, one_pos, ?_, by positivity⟩, ⟨one_le_two, ?_, ?_⟩, ⟨rfl, rfl, rfl⟩⟩
  · intro i hi
    have hi : i < 2 := hi
    interval_cases i <;> simp [binnedHydrogen, AnyDetector.base]
  · have h1 := hint (binnedHydrogen U).base rfl 1 (3 / 2) (by norm_num) (by norm_num)
    have h2 := hint (binnedHydrogen U).base rfl (3 / 2) 2 (by norm_num) (by norm_num)
    simp only [binnedHydrogen, AnyDetector.toClass, AnyDetector.base, NuclearDetector.toClass, DetectorClass.base] at h1 h2 ⊢
    have key : ∀ G : ℝ → ℝ → ℝ, G 1 (3 / 2) = r * (3 / 2 - 1) → G (3 / 2) 2 = r * (2 - 3 / 2) →
        collect (fun i => do
          let lo ← vecGet [1, 3 / 2, (2 : ℝ)] i
          let hi ← vecGet [1, 3 / 2, (2 : ℝ)] (i + 1)
          let eff ← vecGet [1, (1 : ℝ)] i
          .ok (eff * ((1 : ℝ) * G lo hi))) (List.range 2) = .ok [r / 2, r / 2] := by
      intro G g1 g2
      simp [collect, List.range_succ, vecGet, g1, g2]
      norm_num
      ring
    unfold Detector.baseSignalsBinned signalsEnergyBins
    rw [if_neg (by simp), if_pos rfl, if_neg (by simp)]
    exact key (fun a b => T.integrate _ a b) h1 h2
  · intro i hi
    have hi : i < 2 := hi
    interval_cases i <;> simp [hr0]
  · intro i hi
    have hi : i < 1 := hi
    interval_cases i; simp [oneBinHydrogen, AnyDetector.base]
  · have h1 := hint (oneBinHydrogen U).base rfl 1 (3 / 2) (by norm_num) (by norm_num)
    simp only [oneBinHydrogen, AnyDetector.toClass, AnyDetector.base, NuclearDetector.toClass, DetectorClass.base] at h1 ⊢
    have key : ∀ G : ℝ → ℝ → ℝ, G 1 (3 / 2) = r * (3 / 2 - 1) →
        collect (fun i => do
          let lo ← vecGet [1, (3 / 2 : ℝ)] i
          let hi ← vecGet [1, (3 / 2 : ℝ)] (i + 1)
          let eff ← vecGet [(1 : ℝ)] i
          .ok (eff * ((1 : ℝ) * G lo hi))) (List.range 1) = .ok [r / 2] := by
      intro G g1
      simp [collect, List.range_succ, vecGet, g1]
      ring
    unfold Detector.baseSignalsBinned signalsEnergyBins
    rw [if_neg (by simp), if_pos rfl, if_neg (by simp)]
    exact key (fun a b => T.integrate _ a b) h1
  · intro i hi
    have hi : i < 1 := hi
    interval_cases i; simp [hr0]
  · have h1 := hr (countingHydrogen U).base rfl 1 (by norm_num)
    simp only [countingHydrogen, AnyDetector.toClass, AnyDetector.base, NuclearDetector.toClass, DetectorClass.base] at h1 ⊢
    unfold Detector.baseSignalsTotal
    rw [if_neg (by simp [make]), if_neg (by simp), hT']
    have hl : logSpace 1 (3 / 2) 200 = 1 :: (logSpace 1 (3 / 2) 200).tail := by
      have : ∀ l : List ℝ, l.head? = some 1 → l = 1 :: l.tail := fun l hl => by cases l <;> simp_all
      apply this
      unfold logSpace
      rw [List.range_succ_eq_map (n := 199)]
      simp
    dsimp only
    rw [hl, List.map_cons]
    simp only [flatTools, List.headD_cons]
    rw [h1]
    simp only [Outcome.valueOr0, make]
    norm_num
    ring
  · intro i hi
    have hi : i < 1 := hi
    interval_cases i; rfl
  · intro i hi
    have hi : i < 1 := hi
    interval_cases i; rfl

/-- Non-vacuity of the chains of calls: bins and window on the same noble gas detector. -/
example {s : Detector × IonizationDetector} (hs : BuiltIonization U s) : ∃ s₁ s₂ s₃,
    IonizationDetector.useElectronBins s.1 s.2 3 4 = .ok s₁ ∧ IonizationDetector.useElectronBins s.1 s.2 3 6 = .ok s₂ ∧
    IonizationDetector.useElectronThreshold s.1 s.2 3 (3 + 4 - 1) = .ok s₃ ∧ s.1.usingEnergyBins = false := by
  obtain ⟨_, _, _, _, _, _, _, h8, h9⟩ := IonizationDetector.built_facts hs
  simp only [IonizationDetector.useElectronBins, Detector.initializeBinned, h9, reduceCtorEq, if_false, Outcome.bind_ok,
    IonizationDetector.useElectronThreshold]
  exact ⟨_, _, _, rfl, rfl, rfl, h8⟩

/-- The p-value, the likelihood and the limits of the three hydrogen analyses. -/
example (U : Units) : ∃ (T : Tools) (v : ℝ) (p : DMParticle),
    (∃ x x', (oneBinHydrogen U).base.pValue U T ((oneBinHydrogen U).toClass U T (flatHalo v)) p = .ok x ∧
      (binnedHydrogen U).base.pValue U T ((binnedHydrogen U).toClass U T (flatHalo v)) p = .ok x' ∧ x' ≤ x) ∧
    (∃ x, (oneBinHydrogen U).base.pValue U T ((oneBinHydrogen U).toClass U T (flatHalo v)) p = .ok x ∧
      (countingHydrogen U).base.pValue U T ((countingHydrogen U).toClass U T (flatHalo v)) p = .ok x) ∧
    (∃ q q' x, (oneBinHydrogen U).base.upperLimit U T ((oneBinHydrogen U).toClass U T (flatHalo v)) p (9 / 10) = .ok ((oneBinHydrogen U).base, q, x) ∧
      (countingHydrogen U).base.upperLimit U T ((countingHydrogen U).toClass U T (flatHalo v)) p (9 / 10) = .ok ((countingHydrogen U).base, q', x)) := by
  obtain ⟨R, hR⟩ := exists_exact_rootFinder
  obtain ⟨v, p, s, h1, h2, h3, h4, h5⟩ := more_bins_example U (T := { flatTools with findRoot := R }) exactIntegrator_exact rfl
  exact ⟨_, v, p, C107_p_value h2 h1 h4 fun i hi => by
      have hi : i < 1 := hi
      interval_cases i; rfl, (C107_single_bin h2 h3 h5).1, C107_single_bin_limit h2 h3 h5 hR _⟩

end Obscura
