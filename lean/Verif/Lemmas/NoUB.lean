import Verif.Props.IonizationRates
import Verif.Props.Crystal

/-!
# Computations without undefined behaviour

Lemmas for `x ≠ .ub`, along the structure of the model functions.
-/

namespace Obscura

open Spec

namespace NoUB

variable {α β : Type}

theorem ok (a : α) : (Outcome.ok a) ≠ .ub := nofun

theorem exit : (Outcome.exit : Outcome α) ≠ .ub := nofun

theorem bind {x : Outcome α} {f : α → Outcome β} (hx : x ≠ .ub) (hf : ∀ a, x = .ok a → f a ≠ .ub) : (x >>= f) ≠ .ub := by
  cases x with
  | ok a => exact hf a rfl
  | exit => exact nofun
  | ub => exact absurd rfl hx
  | nonfinite => exact nofun

theorem collect {f : α → Outcome β} {l : List α} (hf : ∀ a ∈ l, f a ≠ .ub) : Obscura.collect f l ≠ .ub := by
  induction l with
  | nil => exact nofun
  | cons a l ih =>
    exact bind (hf a (by simp)) fun _ _ => bind (ih fun b hb => hf b (by simp [hb])) fun _ _ => ok _

theorem sumOver {f : α → Outcome ℝ} {l : List α} (hf : ∀ a ∈ l, f a ≠ .ub) : Obscura.sumOver f l ≠ .ub :=
  bind (collect hf) fun _ _ => ok _

theorem fdiv (a b : ℝ) : Obscura.fdiv a b ≠ .ub := by unfold Obscura.fdiv; split_ifs <;> exact nofun

theorem vecGet {l : List α} {i : ℕ} (h : i < l.length) : Obscura.vecGet l i ≠ .ub := by rw [vecGet_lt h]; exact nofun

theorem length_collect {f : α → Outcome β} {l : List α} {bs : List β} (h : Obscura.collect f l = .ok bs) : bs.length = l.length := by
  induction l generalizing bs with
  | nil => cases h; rfl
  | cons a l ih =>
    rw [Obscura.collect] at h
    obtain ⟨b, -, h⟩ := Outcome.bind_eq_ok.1 h
    obtain ⟨cs, h1, h⟩ := Outcome.bind_eq_ok.1 h
    cases h
    simp [ih h1]

theorem flogLikelihood (s : ℝ) (n : ℕ) (b : ℝ) : Detector.flogLikelihood s n b ≠ .ub := by
  unfold Detector.flogLikelihood; split_ifs <;> exact nofun

variable {U : Units} {T : Tools} {C : DetectorClass} {h : Distribution} {p : DMParticle} {d : Detector}

/-- The log-likelihood of a binned analysis, if the signals fit the data. -/
theorem logLikelihood_binned (ha : d.analysis = .binnedPoisson) (hs : C.signalsBinned d p ≠ .ub)
    (hl : ∀ ss, C.signalsBinned d p = .ok ss → ss.length = d.bins) (ho : d.binObserved.length = d.bins)
    (hb : d.binBackground.length = d.bins) : d.logLikelihood T C p ≠ .ub := by
  unfold Detector.logLikelihood
  rw [ha]
  refine bind hs fun ss hss => bind (collect fun i hi => ?_) fun _ _ => ok _
  rw [hb, List.mem_range] at hi
  exact bind (vecGet (by rw [hl ss hss]; exact hi)) fun _ _ => bind (vecGet (by omega)) fun _ _ => bind (vecGet (by omega)) fun _ _ =>
    flogLikelihood _ _ _

/-! ## Electron recoils and Migdal effect -/

theorem shellRateER {I : Integrator} (heta : ∀ v, h.eta v ≠ .ub) (E : ℝ) (n : Nucleus) (e : AtomicElectron) :
    Obscura.shellRateER U I h d E p n e ≠ .ub := by
  unfold Obscura.shellRateER
  refine bind ?_ fun _ _ => ok _
  unfold dRdEeER
  dsimp only
  split_ifs
  · exact nofun
  · exact nofun
  all_goals try (intro hh; cases hh)
  all_goals
    refine bind (vecGet (by rw [logSpace_length]; norm_num)) fun _ _ => bind (vecGet (by rw [logSpace_length]; norm_num)) fun _ _ =>
      bind (sumOver fun q _ => ?_) fun _ _ => ok _
    unfold dRdEeERTerm
    dsimp only
    split_ifs
    · exact bind (heta _) fun _ _ => ok _
    · exact nofun
    · exact nofun

theorem shellRateMigdal {I : Integrator} (E : ℝ) (n : Nucleus) (e : AtomicElectron) :
    Obscura.shellRateMigdal U I h d E p n e ≠ .ub := nofun

variable {S : ShellRate} {x : IonizationDetector}

theorem pdfNe {ne : ℕ} {E W : ℝ} {s : ℕ} (hE : 0 ≤ E) (hW : 0 < W) (hlt : (s : ℝ) + E / W < 2 ^ 32) : Obscura.pdfNe ne E W s ≠ .ub := by
  unfold Obscura.pdfNe
  dsimp only
  refine bind (fdiv _ _) fun y hy => bind ?_ fun _ _ => ok _
  rw [fdiv_ok hW.ne'] at hy
  cases hy
  have h0 : 0 ≤ E / W := by positivity
  have h1 : (0 : ℝ) ≤ ⌊E / W⌋ := by exact_mod_cast Int.floor_nonneg.2 h0
  have h2 := Int.floor_le (E / W)
  unfold toUIntConv
  have hs : (0 : ℝ) ≤ s := by positivity
  rw [if_neg (by push Not; constructor <;> linarith)]
  exact nofun

theorem rNe (hU : U.keV ≤ U.mElectron) (hl : x.fractions.length = x.atoms.length) (ha : ∀ a ∈ x.atoms, BuiltAtom U a)
    (hS : ∀ a ∈ x.atoms, ∀ e ∈ a.electrons, ∀ E, S d E p a.nucleus e ≠ .ub) (ne : ℕ) : x.rNe U S d ne p ≠ .ub := by
  have hme := U.mElectron_pos
  refine sumOver fun i hi => ?_
  rw [List.mem_range] at hi
  refine bind (vecGet hi) fun a haa => bind (vecGet (by omega)) fun _ _ => bind (sumOver fun e he => sumOver fun k hk => ?_) fun _ _ => ok _
  rw [vecGet_lt hi] at haa
  cases haa
  have hm := List.getElem_mem hi
  have hb := ha _ hm
  obtain ⟨hk0, -⟩ := kGrid_bounds hb he hk
  have hlt := kGrid_electrons hU hb he hk
  have hW : 0 < x.atoms[i].W := (atom_bindings hb).choose_spec.2.2.2.1
  have e1 : k * k / 2 / U.mElectron = k ^ 2 / (2 * U.mElectron) := by rw [div_div, sq]
  refine bind (pdfNe (by positivity) hW ?_) fun _ _ => bind (hS _ hm e he _) fun _ _ => ok _
  rw [e1]
  norm_num at hlt ⊢
  linarith

/-- Electron bins. -/
theorem electronBins (hU : U.keV ≤ U.mElectron) (hl : x.fractions.length = x.atoms.length) (ha : ∀ a ∈ x.atoms, BuiltAtom U a)
    (hS : ∀ a ∈ x.atoms, ∀ e ∈ a.electrons, ∀ E, S d E p a.nucleus e ≠ .ub) (hana : d.analysis = .binnedPoisson)
    (he : d.usingEnergyBins = false) (hx : x.usingElectronBins = true) (hb : d.binEfficiencies.length = d.bins) :
    x.signalsBinned U S T d p h ≠ .ub ∧ ∀ ss, x.signalsBinned U S T d p h = .ok ss → ss.length = d.bins := by
  unfold IonizationDetector.signalsBinned
  simp only [hana, ne_eq, not_true_eq_false, if_false, he, Bool.false_eq_true, hx, if_true]
  unfold IonizationDetector.signalsElectronBins
  simp only [hx, Bool.true_eq_false, if_false]
  refine ⟨collect fun i hi => ?_, fun ss h => by rw [length_collect h, List.length_range]⟩
  rw [List.mem_range] at hi
  exact bind (rNe hU hl ha hS _) fun _ _ => bind (vecGet (by omega)) fun _ _ => ok _

/-! ## Semiconductors -/

variable {c : Crystal}

theorem dRdEeCrystal {I : Integrator} (heta : ∀ v, h.eta v ≠ .ub) (E : ℝ) : Obscura.dRdEeCrystal U I E p h c ≠ .ub := by
  unfold Obscura.dRdEeCrystal
  split_ifs
  · exact nofun
  · refine bind (sumOver fun q _ => ?_) fun _ _ => ok _
    unfold dRdEeCrystalTerm
    dsimp only
    split_ifs
    · exact nofun
    · exact bind (heta _) fun _ _ => ok _
    · exact nofun

theorem rQCrystal {I : Integrator} (heta : ∀ v, h.eta v ≠ .ub) (hc : BuiltCrystal U c) {Q : ℤ} (hQ : 1 ≤ Q) (hQ' : Q ≤ 1000000) :
    Obscura.rQCrystal U I Q p h c ≠ .ub := by
  have hev := U.eV_pos
  have hf := CrystalFacts.of_built hc
  unfold Obscura.rQCrystal
  dsimp only
  refine bind ?_ fun _ _ => sumOver fun i _ => bind (dRdEeCrystal heta _) fun _ _ => ok _
  have hQ1 : (1 : ℝ) ≤ Q := by exact_mod_cast hQ
  have hQ2 : (Q : ℝ) ≤ 1000000 := by exact_mod_cast hQ'
  have hdE : 0 < c.dE := by rw [hf.dE]; positivity
  have h0 : 0 ≤ c.minimumElectronEnergy Q ∧ c.minimumElectronEnergy Q ≤ 10000000 * U.eV := by
    unfold Crystal.minimumElectronEnergy
    rcases hf.target with ⟨_, h1, h2, _⟩ | ⟨_, h1, h2, _⟩ <;> rw [h1, h2] <;> constructor <;> nlinarith
  rw [toIntConv_ok (div_nonneg h0.1 hdE.le)]
  · exact nofun
  · rw [div_lt_iff₀ hdE, hf.dE]
    nlinarith

/-- Bins in the number of electron-hole pairs, from one pair on. -/
theorem pairBins {x : CrystalDetector} (heta : ∀ v, h.eta v ≠ .ub) (hc : BuiltCrystal U x.crystal) (hana : d.analysis = .binnedPoisson)
    (he : d.usingEnergyBins = false) (hx : x.usingQBins = some true) (hx' : x.qThreshold = some 1) (hN : d.bins ≤ 1000000)
    (hb : d.binEfficiencies.length = d.bins) :
    x.signalsBinned U T d p h ≠ .ub ∧ ∀ ss, x.signalsBinned U T d p h = .ok ss → ss.length = d.bins := by
  unfold CrystalDetector.signalsBinned
  simp only [hana, ne_eq, not_true_eq_false, if_false, he, Bool.false_eq_true, hx, readMember, Outcome.bind_ok, if_true]
  unfold CrystalDetector.signalsQBins
  simp only [hx, hx', readMember, Outcome.bind_ok, Bool.true_eq_false, if_false]
  have hm : (1 + d.bins) % 2 ^ 32 - 1 = d.bins := by omega
  rw [hm]
  refine ⟨collect fun Q hQ => ?_, fun ss h => by rw [length_collect h, List.length_range']⟩
  rw [List.mem_range'_1] at hQ
  rw [usub32_of_le hQ.1, toInt32_small (by omega)]
  exact bind (vecGet (by omega)) fun _ _ => bind (rQCrystal heta hc (by omega) (by omega)) fun _ _ => ok _

/-! ## Nuclear recoils -/

theorem dRdERNucleus {I : Integrator} (heta : ∀ v, h.eta v ≠ .ub) (ER : ℝ) (n : Nucleus) : Obscura.dRdERNucleus U I ER p h n ≠ .ub := by
  refine sumOver fun iso _ => bind ?_ fun _ _ => ok _
  unfold dRdERIsotope
  dsimp only
  split_ifs
  · exact nofun
  · exact bind (heta _) fun _ _ => ok _
  · exact nofun

theorem theoryRate {I : Integrator} (heta : ∀ v, h.eta v ≠ .ub) {nd : NuclearDetector} (hl : nd.fractions.length = nd.nuclei.length)
    (E ER : ℝ) : nd.theoryRate U I d E ER p h ≠ .ub := by
  refine sumOver fun i hi => ?_
  rw [List.mem_range] at hi
  refine bind (vecGet hi) fun _ _ => bind ?_ fun _ _ => bind (vecGet (by omega)) fun _ _ => bind (dRdERNucleus heta _ _) fun _ _ => ok _
  unfold NuclearDetector.efficiency
  split_ifs with h1 h2 h3
  · exact bind (vecGet (by omega)) fun _ _ => ok _
  · exact bind (vecGet (by omega)) fun _ _ => ok _
  · exact nofun
  · exact nofun

end NoUB

end Obscura
