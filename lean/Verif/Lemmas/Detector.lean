import Verif.Spec.Detector

/-!
# Helper lemmas about detectors
-/

namespace Obscura

open Spec

theorem collect_ok {α β : Type} {f : α → Outcome β} {g : α → β} {l : List α} (h : ∀ a ∈ l, f a = .ok (g a)) :
    collect f l = .ok (l.map g) := by
  induction l with
  | nil => rfl
  | cons a l ih =>
    simp [collect, h a (by simp), ih fun b hb => h b (by simp [hb])]

theorem collect_eq_ok {α β : Type} {f : α → Outcome β} {l : List α} {bs : List β} (h : collect f l = .ok bs) :
    bs.length = l.length ∧ ∀ i (h1 : i < l.length) (h2 : i < bs.length), f l[i] = .ok bs[i] := by
  induction l generalizing bs with
  | nil => cases h; simp
  | cons a l ih =>
    obtain ⟨b, hb, h⟩ := Outcome.bind_eq_ok.1 h
    obtain ⟨cs, hc, h⟩ := Outcome.bind_eq_ok.1 h
    cases h
    obtain ⟨h1, h2⟩ := ih hc
    refine ⟨by simp [h1], ?_⟩
    rintro (_ | i) hi hj
    · exact hb
    · exact h2 i (by simpa using hi) (by simpa using hj)

theorem foldl_add_eq_sum (l : List ℝ) : l.foldl (· + ·) 0 = l.sum := List.sum_eq_foldl.symm

theorem vecGet_eq_ok {α : Type} {l : List α} {i : ℕ} {a : α} (h : vecGet l i = .ok a) : ∃ hi : i < l.length, a = l[i] := by
  unfold vecGet at h
  split at h
  · rename_i b hb
    obtain ⟨hi, rfl⟩ := List.getElem?_eq_some_iff.1 hb
    cases h
    exact ⟨hi, rfl⟩
  · cases h

theorem getD_nonneg {l : List ℝ} (h : ∀ x ∈ l, 0 ≤ x) (i : ℕ) : 0 ≤ l.getD i 0 := by
  by_cases hi : i < l.length
  · simpa [List.getD, hi] using h _ (List.getElem_mem hi)
  · simp [List.getD, not_lt.1 hi]

/-! ### Integer conversions -/

theorem toInt32_emod (z : ℤ) : (toInt32 z) % 2 ^ 32 = z % 2 ^ 32 := by unfold toInt32; omega

theorem toInt32_congr {y z : ℤ} (h : y % 2 ^ 32 = z % 2 ^ 32) : toInt32 y = toInt32 z := by unfold toInt32; omega

theorem toInt32_of_small {z : ℤ} (h1 : -2 ^ 31 ≤ z) (h2 : z < 2 ^ 31) : toInt32 z = z := by unfold toInt32; omega

theorem toUInt64_emod (z : ℤ) : ((toUInt64 z : ℕ) : ℤ) % 2 ^ 32 = z % 2 ^ 32 := by unfold toUInt64; omega

theorem accumulate_aux (l : List ℕ) (acc : ℤ) (a : ℤ) (h : acc = toInt32 a) :
    l.foldl (fun (acc : ℤ) (n : ℕ) => toInt32 (toUInt64 ((toUInt64 acc : ℤ) + n))) acc = toInt32 (a + (l.sum : ℕ)) := by
  induction l generalizing acc a with
  | nil => simpa using h
  | cons n l ih =>
    rw [List.foldl_cons, ih _ (a + n)]
    · congr 1; push_cast [List.sum_cons]; ring
    · apply toInt32_congr
      have h1 := toUInt64_emod (toUInt64 acc + n)
      have h2 := toUInt64_emod acc
      have h3 := toInt32_emod a
      rw [← h] at h3
      omega

/-- The accumulated value is the exact sum, converted to `int`. -/
theorem accumulateInt_eq (l : List ℕ) : accumulateInt l = toInt32 (l.sum : ℕ) := by
  unfold accumulateInt
  rw [accumulate_aux l 0 0 rfl]; simp

namespace Detector

/-! ### Invariants of the configuration -/

/-- What holds for every reachable detector. -/
structure Sound (d : Detector) : Prop where
  entries : OneEntryPerBin d
  fiducial : d.usingFiducial = false ∧ d.fiducialCoupling = 0 ∧ d.fiducialSignals = 0 ∧ d.fiducialSpectrum = []

/-- What holds for every detector configured with the calls of the base class. -/
structure Inv (d : Detector) : Prop where
  entries : OneEntryPerBin d
  energies : d.analysis = .binnedPoisson → d.usingEnergyBins = true ∧ d.binEnergies = linearSpace d.energyThreshold d.energyMax ((d.bins + 1) % 2 ^ 32) ∧ d.energyThreshold ≤ d.energyMax ∧ d.bins < 2 ^ 32
  fiducial : d.usingFiducial = false ∧ d.fiducialCoupling = 0 ∧ d.fiducialSignals = 0 ∧ d.fiducialSpectrum = []

theorem inv_make (l : String) (e : ℝ) (t : String) : Inv (make l e t) :=
  ⟨fun h => by simp [make] at h, fun h => by simp [make] at h, by simp [make]⟩

theorem initializeBinned_ok {d d' : Detector} {n : ℕ} (h : d.initializeBinned n = .ok d') :
    d.analysis ≠ .binnedPoisson ∧ d' =
      { d with analysis := .binnedPoisson, bins := n, binObserved := List.replicate n 0,
               binBackground := List.replicate n 0, binEfficiencies := List.replicate n 1 } := by
  unfold initializeBinned at h
  split_ifs at h with h1
  cases h
  exact ⟨h1, rfl⟩

theorem Inv.step {d d' : Detector} {op : Op} (h : Inv d) (hs : d.step op = .ok d') : Inv d' := by
  cases op with
  | setObserved n =>
    simp only [Detector.step, setObserved] at hs
    split_ifs at hs with h1
    cases hs; exact ⟨h.entries, h.energies, h.fiducial⟩
  | setBackground n =>
    simp only [Detector.step, setBackground] at hs
    split_ifs at hs with h1
    cases hs; exact ⟨h.entries, h.energies, h.fiducial⟩
  | setObservedBins N =>
    simp only [Detector.step, setObservedBins] at hs
    split_ifs at hs with h1 h2
    cases hs
    exact ⟨fun hb => ⟨not_not.1 h2, (h.entries hb).2⟩, h.energies, h.fiducial⟩
  | setBinEfficiencies N =>
    simp only [Detector.step, setBinEfficiencies] at hs
    split_ifs at hs with h1 h2
    cases hs
    exact ⟨fun hb => ⟨(h.entries hb).1, (h.entries hb).2.1, not_not.1 h2⟩, h.energies, h.fiducial⟩
  | setBackgroundBins N =>
    simp only [Detector.step, setBackgroundBins] at hs
    split_ifs at hs with h1 h2
    cases hs
    exact ⟨fun hb => ⟨(h.entries hb).1, not_not.1 h2, (h.entries hb).2.2⟩, h.energies, h.fiducial⟩
  | useMaximumGap es =>
    simp only [Detector.step, useMaximumGap] at hs
    split at hs
    · cases hs
      exact ⟨fun hb => by simp at hb, fun hb => by simp at hb, h.fiducial⟩
    · cases hs
  | setFlatEfficiency e =>
    cases hs; exact ⟨h.entries, h.energies, h.fiducial⟩
  | useEnergyThreshold a b =>
    simp only [Detector.step, useEnergyThreshold] at hs
    split_ifs at hs with h1
    cases hs
    exact ⟨fun hb => by simp [initializePoisson] at hb, fun hb => by simp [initializePoisson] at hb, h.fiducial⟩
  | useEnergyBins a b n =>
    simp only [Detector.step, useEnergyBins] at hs
    obtain ⟨d₁, h1, hs⟩ := Outcome.bind_eq_ok.1 hs
    obtain ⟨_, rfl⟩ := initializeBinned_ok h1
    split_ifs at hs with h2
    cases hs
    refine ⟨fun _ => by simp, fun _ => ⟨rfl, rfl, not_lt.1 h2, ?_⟩, h.fiducial⟩
    simp only [toUInt32]
    omega

theorem Inv.run {ops : List Op} {d d' : Detector} (h : Inv d) (hs : d.run ops = .ok d') : Inv d' := by
  induction ops generalizing d with
  | nil => cases hs; exact h
  | cons op ops ih =>
    obtain ⟨e, he, hs⟩ := Outcome.bind_eq_ok.1 hs
    exact ih (h.step he) hs

theorem baseReachable_inv {d : Detector} (h : BaseReachable d) : Inv d := by
  obtain ⟨d₀, ops, ⟨l, e, t, rfl⟩, h⟩ := h
  exact (inv_make l e t).run h

theorem Inv.sound {d : Detector} (h : Inv d) : Sound d := ⟨h.entries, h.fiducial⟩

theorem Sound.step {d d' : Detector} {op : Op} (h : Sound d) (hs : d.step op = .ok d') : Sound d' := by
  cases op with
  | setObserved n =>
    simp only [Detector.step, setObserved] at hs
    split_ifs at hs with h1
    cases hs; exact ⟨h.entries, h.fiducial⟩
  | setBackground n =>
    simp only [Detector.step, setBackground] at hs
    split_ifs at hs with h1
    cases hs; exact ⟨h.entries, h.fiducial⟩
  | setObservedBins N =>
    simp only [Detector.step, setObservedBins] at hs
    split_ifs at hs with h1 h2
    cases hs
    exact ⟨fun hb => ⟨not_not.1 h2, (h.entries hb).2⟩, h.fiducial⟩
  | setBinEfficiencies N =>
    simp only [Detector.step, setBinEfficiencies] at hs
    split_ifs at hs with h1 h2
    cases hs
    exact ⟨fun hb => ⟨(h.entries hb).1, (h.entries hb).2.1, not_not.1 h2⟩, h.fiducial⟩
  | setBackgroundBins N =>
    simp only [Detector.step, setBackgroundBins] at hs
    split_ifs at hs with h1 h2
    cases hs
    exact ⟨fun hb => ⟨(h.entries hb).1, not_not.1 h2, (h.entries hb).2.2⟩, h.fiducial⟩
  | useMaximumGap es =>
    simp only [Detector.step, useMaximumGap] at hs
    split at hs
    · cases hs
      exact ⟨fun hb => by simp at hb, h.fiducial⟩
    · cases hs
  | setFlatEfficiency e =>
    cases hs; exact ⟨h.entries, h.fiducial⟩
  | useEnergyThreshold a b =>
    simp only [Detector.step, useEnergyThreshold] at hs
    split_ifs at hs with h1
    cases hs
    exact ⟨fun hb => by simp [initializePoisson] at hb, h.fiducial⟩
  | useEnergyBins a b n =>
    simp only [Detector.step, useEnergyBins] at hs
    obtain ⟨d₁, h1, hs⟩ := Outcome.bind_eq_ok.1 hs
    obtain ⟨_, rfl⟩ := initializeBinned_ok h1
    split_ifs at hs with h2
    cases hs
    exact ⟨fun _ => by simp, h.fiducial⟩

theorem Sound.ionizationStep {d d' : Detector} {x x' : IonizationDetector} {op : IonizationDetector.Op} (h : Sound d)
    (hs : IonizationDetector.step (d, x) op = .ok (d', x')) : Sound d' := by
  cases op with
  | base op =>
    obtain ⟨d₁, h1, hs⟩ := Outcome.bind_eq_ok.1 hs
    cases hs; exact h.step h1
  | useElectronThreshold n m =>
    simp only [IonizationDetector.step, IonizationDetector.useElectronThreshold] at hs
    split_ifs at hs <;> (cases hs; exact ⟨fun hb => by simp [initializePoisson] at hb, h.fiducial⟩)
  | usePEThreshold mu sigma n m =>
    simp only [IonizationDetector.step, IonizationDetector.usePEThreshold] at hs
    split_ifs at hs
    cases hs; exact ⟨fun hb => by simp [initializePoisson] at hb, h.fiducial⟩
  | useElectronBins n bins =>
    simp only [IonizationDetector.step, IonizationDetector.useElectronBins] at hs
    obtain ⟨d₁, h1, hs⟩ := Outcome.bind_eq_ok.1 hs
    obtain ⟨_, rfl⟩ := initializeBinned_ok h1
    split_ifs at hs
    cases hs; exact ⟨fun _ => by simp, h.fiducial⟩
  | usePEBins mu sigma ranges =>
    simp only [IonizationDetector.step, IonizationDetector.usePEBins] at hs
    obtain ⟨d₁, h1, hs⟩ := Outcome.bind_eq_ok.1 hs
    obtain ⟨_, rfl⟩ := initializeBinned_ok h1
    cases hs; exact ⟨fun _ => by simp, h.fiducial⟩
  | importTrigger l =>
    obtain ⟨_, _, hs⟩ := Outcome.bind_eq_ok.1 hs
    cases hs; exact h
  | importAcceptance l =>
    obtain ⟨_, _, hs⟩ := Outcome.bind_eq_ok.1 hs
    cases hs; exact h

theorem Sound.crystalStep {d d' : Detector} {x x' : CrystalDetector} {op : CrystalDetector.Op} (h : Sound d)
    (hs : CrystalDetector.step (d, x) op = .ok (d', x')) : Sound d' := by
  cases op with
  | base op =>
    obtain ⟨d₁, h1, hs⟩ := Outcome.bind_eq_ok.1 hs
    cases hs; exact h.step h1
  | useQThreshold Q =>
    cases hs; exact ⟨fun hb => by simp [initializePoisson] at hb, h.fiducial⟩
  | useQBins Q N =>
    simp only [CrystalDetector.step, CrystalDetector.useQBins] at hs
    obtain ⟨d₁, h1, hs⟩ := Outcome.bind_eq_ok.1 hs
    obtain ⟨_, rfl⟩ := initializeBinned_ok h1
    cases hs; exact ⟨fun _ => by simp, h.fiducial⟩

theorem reachable_sound {d : Detector} (h : ReachableDetector d) : Sound d := by
  rcases h with h | ⟨d₀, x₀, x, ops, ⟨l, e, t, rfl⟩, h⟩ | ⟨d₀, x₀, x, ops, ⟨l, e, t, rfl⟩, h⟩
  · exact (baseReachable_inv h).sound
  · have key : ∀ (ops : List IonizationDetector.Op) (d' : Detector) (x' : IonizationDetector), Sound d' →
        IonizationDetector.run (d', x') ops = .ok (d, x) → Sound d := by
      intro ops
      induction ops with
      | nil => intro d' x' hd' h; cases h; exact hd'
      | cons op ops ih =>
        intro d' x' hd' h
        obtain ⟨⟨d₁, x₁⟩, h1, h⟩ := Outcome.bind_eq_ok.1 h
        exact ih d₁ x₁ (hd'.ionizationStep h1) h
    exact key ops _ x₀ (inv_make l e t).sound h
  · have key : ∀ (ops : List CrystalDetector.Op) (d' : Detector) (x' : CrystalDetector), Sound d' →
        CrystalDetector.run (d', x') ops = .ok (d, x) → Sound d := by
      intro ops
      induction ops with
      | nil => intro d' x' hd' h; cases h; exact hd'
      | cons op ops ih =>
        intro d' x' hd' h
        obtain ⟨⟨d₁, x₁⟩, h1, h⟩ := Outcome.bind_eq_ok.1 h
        exact ih d₁ x₁ (hd'.crystalStep h1) h
    exact key ops _ x₀ (inv_make l e t).sound h

end Detector
end Obscura
