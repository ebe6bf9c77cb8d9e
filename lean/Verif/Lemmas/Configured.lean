import Verif.Lemmas.Files
import Verif.Lemmas.LimitSearch
import Verif.Props.Configuration

/-!
# Particles and detectors of a configuration are reachable by public calls
-/

namespace Obscura

open Spec

/-! ## No call changes the kind of target -/

theorem step_targets {d d' : Detector} {op : Detector.Op} (h : d.step op = .ok d') : d'.targets = d.targets := by
  cases op <;> simp only [Detector.step] at h
  case setObserved => unfold Detector.setObserved at h; split_ifs at h; cases h; rfl
  case setBackground => unfold Detector.setBackground at h; split_ifs at h; cases h; rfl
  case setObservedBins => unfold Detector.setObservedBins at h; split_ifs at h; cases h; rfl
  case setBinEfficiencies => unfold Detector.setBinEfficiencies at h; split_ifs at h; cases h; rfl
  case setBackgroundBins => unfold Detector.setBackgroundBins at h; split_ifs at h; cases h; rfl
  case useMaximumGap => unfold Detector.useMaximumGap at h; dsimp only at h; split at h <;> cases h; rfl
  case setFlatEfficiency => cases h; rfl
  case useEnergyThreshold => unfold Detector.useEnergyThreshold at h; split_ifs at h; cases h; rfl
  case useEnergyBins =>
    obtain ⟨d1, h1, h⟩ := Outcome.bind_eq_ok.1 h
    unfold Detector.initializeBinned at h1
    split_ifs at h1 h
    cases h1; cases h; rfl

theorem ionizationStep_targets {s s' : Detector × IonizationDetector} {op : IonizationDetector.Op}
    (h : IonizationDetector.step s op = .ok s') : s'.1.targets = s.1.targets := by
  have hb : ∀ {d d' : Detector} {n}, d.initializeBinned n = .ok d' → d'.targets = d.targets := by
    intro d d' n h
    unfold Detector.initializeBinned at h
    split_ifs at h
    cases h; rfl
  cases op <;> simp only [IonizationDetector.step] at h
  case base => obtain ⟨d1, h1, h⟩ := Outcome.bind_eq_ok.1 h; cases h; exact step_targets h1
  case useElectronThreshold => unfold IonizationDetector.useElectronThreshold at h; dsimp only at h; split_ifs at h <;> cases h <;> rfl
  case useElectronBins =>
    obtain ⟨d1, h1, h⟩ := Outcome.bind_eq_ok.1 h
    dsimp only at h
    split_ifs at h
    cases h; exact hb h1
  case usePEThreshold => unfold IonizationDetector.usePEThreshold at h; split_ifs at h; cases h; rfl
  case usePEBins => obtain ⟨d1, h1, h⟩ := Outcome.bind_eq_ok.1 h; cases h; exact hb h1
  case importTrigger => obtain ⟨d1, h1, h⟩ := Outcome.bind_eq_ok.1 h; cases h; rfl
  case importAcceptance => obtain ⟨d1, h1, h⟩ := Outcome.bind_eq_ok.1 h; cases h; rfl

theorem crystalStep_targets {s s' : Detector × CrystalDetector} {op : CrystalDetector.Op}
    (h : CrystalDetector.step s op = .ok s') : s'.1.targets = s.1.targets := by
  cases op <;> simp only [CrystalDetector.step] at h
  case base => obtain ⟨d1, h1, h⟩ := Outcome.bind_eq_ok.1 h; cases h; exact step_targets h1
  case useQThreshold => cases h; rfl
  case useQBins =>
    unfold CrystalDetector.useQBins at h
    dsimp only at h
    generalize (usub32 _ _ + 1) % 2 ^ 32 = n at h
    obtain ⟨d1, h1, h⟩ := Outcome.bind_eq_ok.1 h
    unfold Detector.initializeBinned at h1
    split_ifs at h1
    cases h1
    cases h
    rfl

/-! ## Histories grow -/

theorem Spec.BaseReachable.step {d d' : Detector} {op : Detector.Op} (h : BaseReachable d) (hs : d.step op = .ok d') :
    BaseReachable d' := by
  obtain ⟨d₀, ops, hb, h⟩ := h
  refine ⟨d₀, ops ++ [op], hb, ?_⟩
  clear hb
  induction ops generalizing d₀ with
  | nil => cases h; simp [Detector.run, hs]
  | cons o ops ih =>
    obtain ⟨e, he, h⟩ := Outcome.bind_eq_ok.1 h
    show (do let e ← d₀.step o; Detector.run e (ops ++ [op])) = _
    rw [he, Outcome.bind_ok]; exact ih _ h

/-- A nuclear recoil detector after construction and some calls. -/
def NuclearReachable (d : Detector) : Prop := BaseReachable d ∧ d.targets = "Nuclei"

theorem NuclearReachable.step {d d' : Detector} {op : Detector.Op} (h : NuclearReachable d) (hs : d.step op = .ok d') :
    NuclearReachable d' := ⟨h.1.step hs, (step_targets hs).trans h.2⟩

theorem NuclearReachable.flat {d : Detector} (h : NuclearReachable d) (e : ℝ) : NuclearReachable (d.setFlatEfficiency e) :=
  h.step (op := .setFlatEfficiency e) rfl

/-- An ionization detector after construction and some calls. -/
def IonizationReachable (t : String) (s : Detector × IonizationDetector) : Prop :=
  (∃ d₀ x₀ ops, BuiltDetector d₀ ∧ IonizationDetector.run (d₀, x₀) ops = .ok s) ∧ s.1.targets = t

theorem IonizationReachable.step {s s' : Detector × IonizationDetector} {t : String} {op : IonizationDetector.Op}
    (h : IonizationReachable t s) (hs : IonizationDetector.step s op = .ok s') : IonizationReachable t s' := by
  obtain ⟨⟨d₀, x₀, ops, hb, h⟩, ht⟩ := h
  refine ⟨⟨d₀, x₀, ops ++ [op], hb, ?_⟩, (ionizationStep_targets hs).trans ht⟩
  clear hb
  generalize (d₀, x₀) = s₀ at h ⊢
  induction ops generalizing s₀ with
  | nil => cases h; simp [IonizationDetector.run, hs]
  | cons o ops ih =>
    obtain ⟨e, he, h⟩ := Outcome.bind_eq_ok.1 h
    show (do let e ← IonizationDetector.step s₀ o; IonizationDetector.run e (ops ++ [op])) = _
    rw [he, Outcome.bind_ok]; exact ih _ h

theorem IonizationReachable.base {d d' : Detector} {x : IonizationDetector} {op : Detector.Op} (h : IonizationReachable t (d, x))
    (hs : d.step op = .ok d') : IonizationReachable t (d', x) :=
  h.step (op := .base op) (by show (do let e ← d.step op; .ok (e, x)) = _; rw [hs]; rfl)

theorem IonizationReachable.flat {d : Detector} {x : IonizationDetector} (h : IonizationReachable t (d, x)) (e : ℝ) :
    IonizationReachable t (d.setFlatEfficiency e, x) :=
  h.base (op := .setFlatEfficiency e) rfl

theorem IonizationReachable.detector {d : Detector} {x : IonizationDetector} (h : IonizationReachable t (d, x)) : ReachableDetector d := by
  obtain ⟨⟨d₀, x₀, ops, hb, h⟩, -⟩ := h
  exact .inr (.inl ⟨d₀, x₀, x, ops, hb, h⟩)

/-- A crystal detector after construction and some calls. -/
def CrystalReachable (s : Detector × CrystalDetector) : Prop :=
  (∃ d₀ x₀ ops, BuiltDetector d₀ ∧ CrystalDetector.run (d₀, x₀) ops = .ok s) ∧ s.1.targets = "Electrons"

theorem CrystalReachable.step {s s' : Detector × CrystalDetector} {op : CrystalDetector.Op} (h : CrystalReachable s)
    (hs : CrystalDetector.step s op = .ok s') : CrystalReachable s' := by
  obtain ⟨⟨d₀, x₀, ops, hb, h⟩, ht⟩ := h
  refine ⟨⟨d₀, x₀, ops ++ [op], hb, ?_⟩, (crystalStep_targets hs).trans ht⟩
  clear hb
  generalize (d₀, x₀) = s₀ at h ⊢
  induction ops generalizing s₀ with
  | nil => cases h; simp [CrystalDetector.run, hs]
  | cons o ops ih =>
    obtain ⟨e, he, h⟩ := Outcome.bind_eq_ok.1 h
    show (do let e ← CrystalDetector.step s₀ o; CrystalDetector.run e (ops ++ [op])) = _
    rw [he, Outcome.bind_ok]; exact ih _ h

theorem CrystalReachable.base {d d' : Detector} {x : CrystalDetector} {op : Detector.Op} (h : CrystalReachable (d, x))
    (hs : d.step op = .ok d') : CrystalReachable (d', x) :=
  h.step (op := .base op) (by show (do let e ← d.step op; .ok (e, x)) = _; rw [hs]; rfl)

theorem CrystalReachable.flat {d : Detector} {x : CrystalDetector} (h : CrystalReachable (d, x)) (e : ℝ) :
    CrystalReachable (d.setFlatEfficiency e, x) :=
  h.base (op := .setFlatEfficiency e) rfl

theorem CrystalReachable.detector {d : Detector} {x : CrystalDetector} (h : CrystalReachable (d, x)) : ReachableDetector d := by
  obtain ⟨⟨d₀, x₀, ops, hb, h⟩, -⟩ := h
  exact .inr (.inr ⟨d₀, x₀, x, ops, hb, h⟩)

/-! ## Constructors -/

variable {S : Setup}

theorem nuclear_built {label : String} {expo : ℝ} {nuclei : List Nucleus} {abund : List ℝ} {d : Detector} {x : NuclearDetector}
    (h : NuclearDetector.make label expo nuclei abund = .ok (d, x)) : NuclearReachable d := by
  obtain ⟨fr, -, h⟩ := Outcome.bind_eq_ok.1 h
  cases h
  exact ⟨⟨_, [], ⟨_, _, _, rfl⟩, rfl⟩, rfl⟩

theorem ionization_built {cache c' : List Nucleus} {label target atom : String} {expo : ℝ} {d : Detector} {x : IonizationDetector}
    (h : S.makeIonization cache label expo target atom = .ok (c', d, x)) : IonizationReachable target (d, x) := by
  obtain ⟨⟨c1, a⟩, -, h⟩ := Outcome.bind_eq_ok.1 h
  cases h
  exact ⟨⟨_, _, [], ⟨_, _, _, rfl⟩, rfl⟩, rfl⟩

theorem crystal_built {label target : String} {expo : ℝ} {d : Detector} {x : CrystalDetector}
    (h : S.makeCrystal label expo target = .ok (d, x)) : CrystalReachable (d, x) := by
  unfold Setup.makeCrystal at h
  split at h
  · cases h
  · obtain ⟨c, -, h⟩ := Outcome.bind_eq_ok.1 h
    cases h
    exact ⟨⟨_, _, [], ⟨_, _, _, rfl⟩, rfl⟩, rfl⟩

/-! ## The predefined experiments -/

theorem damicN2011_reachable {cache c' : List Nucleus} {d : Detector} {x : NuclearDetector} (h : S.damicN2011 cache = .ok (c', d, x)) :
    NuclearReachable d := by
  obtain ⟨⟨c1, ns⟩, -, h⟩ := Outcome.bind_eq_ok.1 h
  obtain ⟨⟨d1, x1⟩, h1, h⟩ := Outcome.bind_eq_ok.1 h
  have r := nuclear_built h1
  obtain ⟨_, h1, h⟩ := Outcome.bind_eq_ok.1 h
  replace r := r.step (op := .useEnergyThreshold _ _) h1
  obtain ⟨_, h1, h⟩ := Outcome.bind_eq_ok.1 h
  replace r := r.step (op := .setObserved _) h1
  cases h
  exact r

theorem xenon1TN2017_reachable {cache c' : List Nucleus} {d : Detector} {x : NuclearDetector} (h : S.xenon1TN2017 cache = .ok (c', d, x)) :
    NuclearReachable d := by
  obtain ⟨⟨c1, ns⟩, -, h⟩ := Outcome.bind_eq_ok.1 h
  obtain ⟨⟨d1, x1⟩, h1, h⟩ := Outcome.bind_eq_ok.1 h
  have r := nuclear_built h1
  obtain ⟨_, h1, h⟩ := Outcome.bind_eq_ok.1 h
  replace r := (r.flat _).step (op := .useEnergyThreshold _ _) h1
  obtain ⟨_, h1, h⟩ := Outcome.bind_eq_ok.1 h
  replace r := r.step (op := .setObserved _) h1
  cases h
  exact r

theorem cresstII_reachable {cache c' : List Nucleus} {d : Detector} {x : NuclearDetector} (h : S.cresstII cache = .ok (c', d, x)) :
    NuclearReachable d := by
  obtain ⟨⟨c1, ns⟩, -, h⟩ := Outcome.bind_eq_ok.1 h
  obtain ⟨⟨d1, x1⟩, h1, h⟩ := Outcome.bind_eq_ok.1 h
  have r := nuclear_built h1
  obtain ⟨_, -, h⟩ := Outcome.bind_eq_ok.1 h
  obtain ⟨_, h1, h⟩ := Outcome.bind_eq_ok.1 h
  replace r := r.step (op := .useMaximumGap _) h1
  obtain ⟨_, -, h⟩ := Outcome.bind_eq_ok.1 h
  cases h
  exact r

theorem cresstIII_reachable {cache c' : List Nucleus} {d : Detector} {x : NuclearDetector} (h : S.cresstIII cache = .ok (c', d, x)) :
    NuclearReachable d := by
  obtain ⟨⟨c1, ns⟩, -, h⟩ := Outcome.bind_eq_ok.1 h
  obtain ⟨⟨d1, x1⟩, h1, h⟩ := Outcome.bind_eq_ok.1 h
  have r := nuclear_built h1
  obtain ⟨_, -, h⟩ := Outcome.bind_eq_ok.1 h
  obtain ⟨_, h1, h⟩ := Outcome.bind_eq_ok.1 h
  replace r := (r.flat _).step (op := .useMaximumGap _) h1
  obtain ⟨_, -, h⟩ := Outcome.bind_eq_ok.1 h
  cases h
  exact r

theorem cresstSurface_reachable {cache c' : List Nucleus} {d : Detector} {x : NuclearDetector} (h : S.cresstSurface cache = .ok (c', d, x)) :
    NuclearReachable d := by
  obtain ⟨⟨c1, ns⟩, -, h⟩ := Outcome.bind_eq_ok.1 h
  obtain ⟨⟨d1, x1⟩, h1, h⟩ := Outcome.bind_eq_ok.1 h
  have r := nuclear_built h1
  obtain ⟨_, -, h⟩ := Outcome.bind_eq_ok.1 h
  obtain ⟨_, h1, h⟩ := Outcome.bind_eq_ok.1 h
  replace r := r.step (op := .useMaximumGap _) h1
  cases h
  exact r

theorem xenon10S2_reachable {target : String} {cache c' : List Nucleus} {d : Detector} {x : IonizationDetector}
    (h : S.xenon10S2 target cache = .ok (c', d, x)) : IonizationReachable target (d, x) := by
  obtain ⟨⟨c1, d1, x1⟩, h1, h⟩ := Outcome.bind_eq_ok.1 h
  have r := ionization_built h1
  obtain ⟨⟨_, _⟩, h1, h⟩ := Outcome.bind_eq_ok.1 h
  replace r := (r.flat _).step (op := .usePEBins _ _ _) h1
  obtain ⟨_, h1, h⟩ := Outcome.bind_eq_ok.1 h
  replace r := r.base (op := .setObservedBins _) h1
  obtain ⟨_, -, h⟩ := Outcome.bind_eq_ok.1 h
  obtain ⟨_, h1, h⟩ := Outcome.bind_eq_ok.1 h
  replace r := r.step (op := .importTrigger _) (by simp only [IonizationDetector.step]; rw [h1]; rfl)
  cases h
  exact r

theorem xenon100S2_reachable {target : String} {cache c' : List Nucleus} {d : Detector} {x : IonizationDetector}
    (h : S.xenon100S2 target cache = .ok (c', d, x)) : IonizationReachable target (d, x) := by
  obtain ⟨⟨c1, d1, x1⟩, h1, h⟩ := Outcome.bind_eq_ok.1 h
  have r := ionization_built h1
  obtain ⟨⟨_, _⟩, h1, h⟩ := Outcome.bind_eq_ok.1 h
  replace r := r.step (op := .usePEBins _ _ _) h1
  obtain ⟨_, h1, h⟩ := Outcome.bind_eq_ok.1 h
  replace r := r.base (op := .setObservedBins _) h1
  obtain ⟨_, -, h⟩ := Outcome.bind_eq_ok.1 h
  obtain ⟨_, h1, h⟩ := Outcome.bind_eq_ok.1 h
  replace r := r.step (op := .importTrigger _) (by simp only [IonizationDetector.step]; rw [h1]; rfl)
  obtain ⟨_, -, h⟩ := Outcome.bind_eq_ok.1 h
  obtain ⟨_, h1, h⟩ := Outcome.bind_eq_ok.1 h
  replace r := r.step (op := .importAcceptance _) (by simp only [IonizationDetector.step]; rw [h1]; rfl)
  cases h
  exact r

theorem xenon1TS2_reachable {target : String} {cache c' : List Nucleus} {d : Detector} {x : IonizationDetector}
    (h : S.xenon1TS2 target cache = .ok (c', d, x)) : IonizationReachable target (d, x) := by
  obtain ⟨⟨c1, d1, x1⟩, h1, h⟩ := Outcome.bind_eq_ok.1 h
  have r := ionization_built h1
  obtain ⟨⟨_, _⟩, h1, h⟩ := Outcome.bind_eq_ok.1 h
  replace r := r.step (op := .useElectronBins _ _) h1
  obtain ⟨_, h1, h⟩ := Outcome.bind_eq_ok.1 h
  replace r := r.base (op := .setObservedBins _) h1
  obtain ⟨_, h1, h⟩ := Outcome.bind_eq_ok.1 h
  replace r := r.base (op := .setBinEfficiencies _) h1
  cases h
  exact r

theorem darkSide50S2_reachable {target : String} {cache c' : List Nucleus} {d : Detector} {x : IonizationDetector}
    (h : S.darkSide50S2 target cache = .ok (c', d, x)) : IonizationReachable target (d, x) := by
  obtain ⟨⟨c1, d1, x1⟩, h1, h⟩ := Outcome.bind_eq_ok.1 h
  have r := ionization_built h1
  obtain ⟨⟨_, _⟩, h1, h⟩ := Outcome.bind_eq_ok.1 h
  replace r := r.step (op := .useElectronBins _ _) h1
  obtain ⟨_, h1, h⟩ := Outcome.bind_eq_ok.1 h
  replace r := r.base (op := .setObservedBins _) h1
  cases h
  exact r

theorem darkSide50S22023_reachable {target : String} {cache c' : List Nucleus} {d : Detector} {x : IonizationDetector}
    (h : S.darkSide50S22023 target cache = .ok (c', d, x)) : IonizationReachable target (d, x) := by
  obtain ⟨⟨c1, d1, x1⟩, h1, h⟩ := Outcome.bind_eq_ok.1 h
  have r := ionization_built h1
  obtain ⟨⟨_, _⟩, h1, h⟩ := Outcome.bind_eq_ok.1 h
  replace r := r.step (op := .useElectronBins _ _) h1
  obtain ⟨_, h1, h⟩ := Outcome.bind_eq_ok.1 h
  replace r := r.base (op := .setObservedBins _) h1
  obtain ⟨_, h1, h⟩ := Outcome.bind_eq_ok.1 h
  replace r := r.base (op := .setBackgroundBins _) h1
  cases h
  exact r

theorem pandaX4TS2_reachable {target : String} {cache c' : List Nucleus} {d : Detector} {x : IonizationDetector}
    (h : S.pandaX4TS2 target cache = .ok (c', d, x)) : IonizationReachable target (d, x) := by
  obtain ⟨⟨c1, d1, x1⟩, h1, h⟩ := Outcome.bind_eq_ok.1 h
  have r := ionization_built h1
  obtain ⟨⟨_, _⟩, h1, h⟩ := Outcome.bind_eq_ok.1 h
  replace r := r.step (op := .useElectronBins _ _) h1
  obtain ⟨_, h1, h⟩ := Outcome.bind_eq_ok.1 h
  replace r := (r.flat _).base (op := .setObservedBins _) h1
  cases h
  exact r

theorem lzS2_reachable {target : String} {cache c' : List Nucleus} {d : Detector} {x : IonizationDetector}
    (h : S.lzS2 target cache = .ok (c', d, x)) : IonizationReachable target (d, x) := by
  obtain ⟨_, -, h⟩ := Outcome.bind_eq_ok.1 h
  cases h

theorem protoSENSEISurface_reachable {d : Detector} {x : CrystalDetector} (h : S.protoSENSEISurface = .ok (d, x)) : CrystalReachable (d, x) := by
  obtain ⟨⟨d1, x1⟩, h1, h⟩ := Outcome.bind_eq_ok.1 h
  have r := crystal_built h1
  obtain ⟨⟨_, _⟩, h1, h⟩ := Outcome.bind_eq_ok.1 h
  replace r := r.step (op := .useQBins _ _) h1
  obtain ⟨_, h1, h⟩ := Outcome.bind_eq_ok.1 h
  replace r := r.base (op := .setObservedBins _) h1
  obtain ⟨_, h1, h⟩ := Outcome.bind_eq_ok.1 h
  replace r := r.base (op := .setBinEfficiencies _) h1
  cases h
  exact r

theorem protoSENSEIMINOS_reachable {d : Detector} {x : CrystalDetector} (h : S.protoSENSEIMINOS = .ok (d, x)) : CrystalReachable (d, x) := by
  obtain ⟨⟨d1, x1⟩, h1, h⟩ := Outcome.bind_eq_ok.1 h
  have r := crystal_built h1
  obtain ⟨⟨_, _⟩, h1, h⟩ := Outcome.bind_eq_ok.1 h
  replace r := r.step (op := .useQBins _ _) h1
  obtain ⟨_, h1, h⟩ := Outcome.bind_eq_ok.1 h
  replace r := r.base (op := .setObservedBins _) h1
  obtain ⟨_, h1, h⟩ := Outcome.bind_eq_ok.1 h
  replace r := r.base (op := .setBinEfficiencies _) h1
  cases h
  exact r

theorem senseiMINOS_reachable {d : Detector} {x : CrystalDetector} (h : S.senseiMINOS = .ok (d, x)) : CrystalReachable (d, x) := by
  obtain ⟨⟨d1, x1⟩, h1, h⟩ := Outcome.bind_eq_ok.1 h
  have r := crystal_built h1
  obtain ⟨⟨_, _⟩, h1, h⟩ := Outcome.bind_eq_ok.1 h
  replace r := r.step (op := .useQBins _ _) h1
  obtain ⟨_, h1, h⟩ := Outcome.bind_eq_ok.1 h
  replace r := r.base (op := .setObservedBins _) h1
  obtain ⟨_, h1, h⟩ := Outcome.bind_eq_ok.1 h
  replace r := r.base (op := .setBinEfficiencies _) h1
  cases h
  exact r

theorem cdmsHVeV2018_reachable {d : Detector} {x : CrystalDetector} (h : S.cdmsHVeV2018 = .ok (d, x)) : CrystalReachable (d, x) := by
  obtain ⟨⟨d1, x1⟩, h1, h⟩ := Outcome.bind_eq_ok.1 h
  have r := crystal_built h1
  obtain ⟨⟨_, _⟩, h1, h⟩ := Outcome.bind_eq_ok.1 h
  replace r := (r.flat _).step (op := .useQBins _ _) h1
  obtain ⟨_, h1, h⟩ := Outcome.bind_eq_ok.1 h
  replace r := r.base (op := .setObservedBins _) h1
  obtain ⟨_, h1, h⟩ := Outcome.bind_eq_ok.1 h
  replace r := r.base (op := .setBinEfficiencies _) h1
  cases h
  exact r

theorem cdmsHVeV2020_reachable {d : Detector} {x : CrystalDetector} (h : S.cdmsHVeV2020 = .ok (d, x)) : CrystalReachable (d, x) := by
  obtain ⟨⟨d1, x1⟩, h1, h⟩ := Outcome.bind_eq_ok.1 h
  have r := crystal_built h1
  obtain ⟨⟨_, _⟩, h1, h⟩ := Outcome.bind_eq_ok.1 h
  replace r := r.step (op := .useQBins _ _) h1
  obtain ⟨_, h1, h⟩ := Outcome.bind_eq_ok.1 h
  replace r := r.base (op := .setObservedBins _) h1
  cases h
  exact r

theorem damicM2023_reachable {d : Detector} {x : CrystalDetector} (h : S.damicM2023 = .ok (d, x)) : CrystalReachable (d, x) := by
  obtain ⟨⟨d1, x1⟩, h1, h⟩ := Outcome.bind_eq_ok.1 h
  have r := crystal_built h1
  obtain ⟨⟨_, _⟩, h1, h⟩ := Outcome.bind_eq_ok.1 h
  replace r := r.step (op := .useQBins _ _) h1
  obtain ⟨_, h1, h⟩ := Outcome.bind_eq_ok.1 h
  replace r := r.base (op := .setObservedBins _) h1
  cases h
  exact r

/-! ## The detector of a configuration -/

/-- The object results from public calls and has the targets of its class. -/
def Typed (D : AnyDetector) : Prop :=
  ReachableDetector D.base ∧ match D with
    | .nuclear d _ => d.targets = "Nuclei"
    | .electronRecoil d _ => d.targets = "Electrons"
    | .migdal d _ => d.targets = "Nuclei"
    | .crystal d _ => d.targets = "Electrons"

theorem asNuclear_reachable {r : Outcome (List Nucleus × Detector × NuclearDetector)} {c' : List Nucleus} {D : AnyDetector}
    (hr : ∀ {c' d x}, r = .ok (c', d, x) → NuclearReachable d) (h : Config.asNuclear r = .ok (c', D)) : Typed D := by
  obtain ⟨⟨c1, d, x⟩, h1, h⟩ := Outcome.bind_eq_ok.1 h
  cases h
  exact ⟨.inl (hr h1).1, (hr h1).2⟩

theorem asER_reachable {r : Outcome (List Nucleus × Detector × IonizationDetector)} {c' : List Nucleus} {D : AnyDetector}
    (hr : ∀ {c' d x}, r = .ok (c', d, x) → IonizationReachable "Electrons" (d, x)) (h : Config.asER r = .ok (c', D)) : Typed D := by
  obtain ⟨⟨c1, d, x⟩, h1, h⟩ := Outcome.bind_eq_ok.1 h
  cases h
  exact ⟨(hr h1).detector, (hr h1).2⟩

theorem asMigdal_reachable {r : Outcome (List Nucleus × Detector × IonizationDetector)} {c' : List Nucleus} {D : AnyDetector}
    (hr : ∀ {c' d x}, r = .ok (c', d, x) → IonizationReachable "Nuclei" (d, x)) (h : Config.asMigdal r = .ok (c', D)) :
    Typed D := by
  obtain ⟨⟨c1, d, x⟩, h1, h⟩ := Outcome.bind_eq_ok.1 h
  cases h
  exact ⟨(hr h1).detector, (hr h1).2⟩

theorem asCrystal_reachable {r : Outcome (Detector × CrystalDetector)} {cache c' : List Nucleus} {D : AnyDetector}
    (hr : ∀ {d x}, r = .ok (d, x) → CrystalReachable (d, x)) (h : Config.asCrystal cache r = .ok (c', D)) :
    Typed D := by
  obtain ⟨⟨d, x⟩, h1, h⟩ := Outcome.bind_eq_ok.1 h
  cases h
  exact ⟨(hr h1).detector, (hr h1).2⟩

theorem nuclearDetector_reachable {c : Config} {cache c' : List Nucleus} {D : AnyDetector}
    (h : c.nuclearDetector S cache = .ok (c', D)) : Typed D := by
  obtain ⟨_, -, h⟩ := Outcome.bind_eq_ok.1 h
  obtain ⟨⟨_, _, _⟩, -, h⟩ := Outcome.bind_eq_ok.1 h
  iterate 7 obtain ⟨_, -, h⟩ := Outcome.bind_eq_ok.1 h
  obtain ⟨⟨d1, x1⟩, h1, h⟩ := Outcome.bind_eq_ok.1 h
  have r := nuclear_built h1
  obtain ⟨_, h1, h⟩ := Outcome.bind_eq_ok.1 h
  replace r := (r.flat _).step (op := .useEnergyThreshold _ _) h1
  obtain ⟨_, h1, h⟩ := Outcome.bind_eq_ok.1 h
  replace r := r.step (op := .setObserved _) h1
  obtain ⟨_, h1, h⟩ := Outcome.bind_eq_ok.1 h
  replace r := r.step (op := .setBackground _) h1
  cases h
  exact ⟨.inl r.1, r.2⟩

theorem ionizationDetector_reachable {c : Config} {kind : String} {cache c' : List Nucleus} {D : AnyDetector}
    (h : c.ionizationDetector S kind cache = .ok (c', D)) : Typed D := by
  unfold Config.ionizationDetector at h
  iterate 6 obtain ⟨_, -, h⟩ := Outcome.bind_eq_ok.1 h
  obtain ⟨⟨_, d1, x1⟩, h1, h⟩ := Outcome.bind_eq_ok.1 h
  have r := ionization_built h1
  obtain ⟨⟨_, _⟩, h1, h⟩ := Outcome.bind_eq_ok.1 h
  replace r := (r.flat _).step (op := .useElectronThreshold _ _) h1
  obtain ⟨_, h1, h⟩ := Outcome.bind_eq_ok.1 h
  replace r := r.base (op := .setObserved _) h1
  obtain ⟨_, h1, h⟩ := Outcome.bind_eq_ok.1 h
  replace r := r.base (op := .setBackground _) h1
  cases h
  have ht := r.2
  dsimp only at ht
  split_ifs with hk
  · rw [if_pos hk] at ht; exact ⟨r.detector, ht⟩
  · rw [if_neg hk] at ht; exact ⟨r.detector, ht⟩

theorem crystalDetector_reachable {c : Config} {D : AnyDetector} (h : c.crystalDetector S = .ok D) : Typed D := by
  unfold Config.crystalDetector at h
  iterate 6 obtain ⟨_, -, h⟩ := Outcome.bind_eq_ok.1 h
  obtain ⟨⟨d1, x1⟩, h1, h⟩ := Outcome.bind_eq_ok.1 h
  have r := crystal_built h1
  have r' : ∀ e q, CrystalReachable (CrystalDetector.useQThreshold (d1.setFlatEfficiency e) x1 q) := fun e q =>
    (r.flat e).step (op := .useQThreshold q) rfl
  obtain ⟨_, h1, h⟩ := Outcome.bind_eq_ok.1 h
  replace r := (r' _ _).base (op := .setObserved _) h1
  obtain ⟨_, h1, h⟩ := Outcome.bind_eq_ok.1 h
  replace r := r.base (op := .setBackground _) h1
  cases h
  exact ⟨r.detector, r.2⟩

theorem ite_ok {α : Type} {p : Prop} [Decidable p] {a b : Outcome α} {r : α} {Q : Prop} (ha : a = .ok r → Q) (hb : b = .ok r → Q)
    (h : (if p then a else b) = .ok r) : Q := by
  split at h
  · exact ha h
  · exact hb h

/-- Every detector that a configuration file gives results from public calls. -/
theorem configured_detector {c : Config} {cache c' : List Nucleus} {D : AnyDetector} (h : c.detector S cache = .ok (c', D)) :
    Typed D := by
  obtain ⟨name, -, h⟩ := Outcome.bind_eq_ok.1 h
  unfold Config.selectDetector at h
  revert h
  refine ite_ok (fun h => nuclearDetector_reachable h) ?_
  refine ite_ok (fun h => ionizationDetector_reachable h) ?_
  refine ite_ok (fun h => ?_) ?_
  · obtain ⟨d, h1, h⟩ := Outcome.bind_eq_ok.1 h
    cases h
    exact crystalDetector_reachable h1
  refine ite_ok (fun h => asNuclear_reachable damicN2011_reachable h) ?_
  refine ite_ok (fun h => asNuclear_reachable xenon1TN2017_reachable h) ?_
  refine ite_ok (fun h => asNuclear_reachable cresstII_reachable h) ?_
  refine ite_ok (fun h => asNuclear_reachable cresstSurface_reachable h) ?_
  refine ite_ok (fun h => asNuclear_reachable cresstIII_reachable h) ?_
  refine ite_ok (fun h => asER_reachable xenon10S2_reachable h) ?_
  refine ite_ok (fun h => asER_reachable xenon100S2_reachable h) ?_
  refine ite_ok (fun h => asER_reachable xenon1TS2_reachable h) ?_
  refine ite_ok (fun h => asER_reachable darkSide50S2_reachable h) ?_
  refine ite_ok (fun h => asER_reachable darkSide50S22023_reachable h) ?_
  refine ite_ok (fun h => asER_reachable pandaX4TS2_reachable h) ?_
  refine ite_ok (fun h => asER_reachable lzS2_reachable h) ?_
  refine ite_ok (fun h => asMigdal_reachable xenon10S2_reachable h) ?_
  refine ite_ok (fun h => asMigdal_reachable xenon100S2_reachable h) ?_
  refine ite_ok (fun h => asMigdal_reachable xenon1TS2_reachable h) ?_
  refine ite_ok (fun h => asMigdal_reachable darkSide50S2_reachable h) ?_
  refine ite_ok (fun h => asMigdal_reachable darkSide50S22023_reachable h) ?_
  refine ite_ok (fun h => asMigdal_reachable pandaX4TS2_reachable h) ?_
  refine ite_ok (fun h => asMigdal_reachable lzS2_reachable h) ?_
  refine ite_ok (fun h => asCrystal_reachable protoSENSEISurface_reachable h) ?_
  refine ite_ok (fun h => asCrystal_reachable protoSENSEIMINOS_reachable h) ?_
  refine ite_ok (fun h => asCrystal_reachable senseiMINOS_reachable h) ?_
  refine ite_ok (fun h => asCrystal_reachable cdmsHVeV2018_reachable h) ?_
  refine ite_ok (fun h => asCrystal_reachable cdmsHVeV2020_reachable h) ?_
  refine ite_ok (fun h => asCrystal_reachable damicM2023_reachable h) ?_
  exact fun h => nomatch h

/-! ## The particle of a configuration -/

variable {U : Units}

open DMParticle

/-- Every particle that a configuration file with a positive mass gives results from public calls that avoid the defects of C02, C03 and
C05. -/
theorem configured_particle {c : Config} {p : DMParticle} (h : c.particle U = .ok p)
    (hm : ∀ m, c "DM_mass" = some (.float m) → 0 < m) : Regular U p ∧ p.fixedRelation = true := by
  rw [particle_eq] at h
  obtain ⟨m, h0, h⟩ := Outcome.bind_eq_ok.1 h
  obtain ⟨spin, -, h⟩ := Outcome.bind_eq_ok.1 h
  obtain ⟨fraction, -, h⟩ := Outcome.bind_eq_ok.1 h
  obtain ⟨light, -, h⟩ := Outcome.bind_eq_ok.1 h
  obtain ⟨i, -, h⟩ := Outcome.bind_eq_ok.1 h
  obtain ⟨p4, h1, h⟩ := Outcome.bind_eq_ok.1 h
  obtain ⟨p5, h2, h⟩ := Outcome.bind_eq_ok.1 h
  cases h
  have hm0 : 0 < m * U.GeV := by
    refine mul_pos (hm m ?_) U.GeV_pos
    unfold Config.getDouble Config.lookup at h0
    split at h0
    · rename_i s hs
      rw [Outcome.bind_ok] at h0
      unfold Setting.toDouble at h0
      split at h0
      · cases h0; exact hs
      · cases h0
    · cases h0
  split_ifs at h1 with hi
  rw [particleStandard_eq] at h1
  obtain ⟨p1, h3, h1⟩ := Outcome.bind_eq_ok.1 h1
  obtain ⟨⟨a, b⟩, -, h1⟩ := Outcome.bind_eq_ok.1 h1
  obtain ⟨p2, h4, h1⟩ := Outcome.bind_eq_ok.1 h1
  obtain ⟨s, -, h1⟩ := Outcome.bind_eq_ok.1 h1
  obtain ⟨p3, h5, h1⟩ := Outcome.bind_eq_ok.1 h1
  obtain ⟨se, -, h1⟩ := Outcome.bind_eq_ok.1 h1
  cases h1
  -- the beginning: a built particle, perhaps with another form factor
  have start : ∃ p₀ ops, Built U p₀ ∧ (∀ op ∈ ops, ValidOp op) ∧ (∀ op ∈ ops, requestedBy op = none) ∧ p₀.run U ops = .ok p1 ∧
      p1.sigmaProton U ≠ 0 := by
    have hG : 0 < 10 * U.GeV := by have := U.GeV_pos; positivity
    have hσ : ∀ p : DMParticle, 0 < p.mass → 0 < p.prefactor → p.fp ≠ 0 → p.sigmaProton U ≠ 0 := by
      intro p h1 h2 h3
      have hmu := reducedMass_pos h1 U.mProton_pos
      have := Real.pi_pos
      unfold sigmaProton
      positivity
    split_ifs at h3 with hSI
    · obtain ⟨x, hx, he⟩ := makeSI1_start (U := U)
      unfold Config.particleSI at h3
      rw [he, Outcome.bind_ok] at h3
      obtain ⟨ff, -, h3⟩ := Outcome.bind_eq_ok.1 h3
      have h3' : ∃ mMed, setFormFactorDM { standard U (10 * U.GeV) 1 (.SI .contact (U.aEM * U.mElectron) 0) with fp := x, fn := x } ff mMed
          = .ok p1 := by
        dsimp only at h3
        split_ifs at h3
        · obtain ⟨_, -, h3⟩ := Outcome.bind_eq_ok.1 h3
          split_ifs at h3
          · cases h3
          · exact ⟨_, h3⟩
        · exact ⟨_, h3⟩
      obtain ⟨mMed, h3'⟩ := h3'
      refine ⟨_, [.setFormFactorDM ff mMed], .inl ⟨_, _, hG, he⟩, by simp [ValidOp], by simp [requestedBy], ?_, ?_⟩
      · simp [DMParticle.run, DMParticle.step, h3']
      · unfold setFormFactorDM at h3'
        split at h3'
        · cases h3'
        · split at h3'
          · cases h3'
          · cases h3'
            exact hσ _ hG (by simp [standard]) hx
    · obtain ⟨x, hx, he⟩ := makeSD1_start (U := U)
      rw [he] at h3
      cases h3
      refine ⟨_, [], .inr ⟨_, _, hG, he⟩, by simp, by simp, rfl, ?_⟩
      exact hσ _ hG (by simp [standard]) hx
  obtain ⟨p₀, ops, hb, hv, hq, hr, hσ⟩ := start
  have hfix : p5.fixedRelation = true := by
    obtain ⟨_, x, y, rfl, _⟩ := fixCouplingRatio_shape h4
    have h5' : p3.fixedRelation = true := by
      unfold setInteractionParameter at h5
      rw [if_pos rfl] at h5
      split_ifs at h5
      · obtain ⟨_, _, rfl, _⟩ := setSigmaProton_shape h5; rfl
      · obtain ⟨_, _, rfl, _⟩ := setSigmaNeutron_shape h5; rfl
    obtain ⟨_, _, rfl⟩ := setMass_shape h2
    exact h5'
  refine ⟨.inl ⟨⟨_, p₀, ops ++ [.fixCouplingRatio a b, .setInteractionParameter (s * (U.cm * U.cm)) "Nuclei",
    .setSigmaElectron (se * (U.cm * U.cm)), .setMass (m * U.GeV), .setSpin spin, .setFractionalDensity fraction, .setLowMassMode light],
    hb, ?_, ?_, ?_, rfl⟩, hfix⟩, hfix⟩
  · intro op hop
    rcases List.mem_append.1 hop with h | h
    · exact hv op h
    · simp only [List.mem_cons, List.not_mem_nil, or_false] at h
      rcases h with rfl | rfl | rfl | rfl | rfl | rfl | rfl <;> simp [ValidOp, hm0]
  · clear hb
    induction ops generalizing p₀ with
    | nil =>
      cases hr
      refine ⟨fun _ => hσ, fun p' _ => ?_⟩
      simp [CleanFrom, requestedBy]
    | cons o ops ih =>
      obtain ⟨e, he, hr⟩ := Outcome.bind_eq_ok.1 hr
      refine ⟨fun h => by simp [hq o (by simp)] at h, fun p' hp' => ?_⟩
      rw [he] at hp'
      cases hp'
      exact ih _ (fun o ho => hv o (by simp [ho])) (fun o ho => hq o (by simp [ho])) hr
  · clear hb hv hq
    induction ops generalizing p₀ with
    | nil =>
      cases hr
      simp [DMParticle.run, DMParticle.step, h4, h5, h2]
    | cons o ops ih =>
      obtain ⟨e, he, hr⟩ := Outcome.bind_eq_ok.1 hr
      show (do let e ← DMParticle.step U p₀ o; DMParticle.run U e _) = _
      rw [he, Outcome.bind_ok]
      exact ih _ hr

end Obscura
