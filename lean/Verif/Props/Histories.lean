import Verif.Spec.Histories
import Verif.Props.Crystal
import Verif.Props.Ionization
import Verif.Props.Detector

/-!
# Properties C38 (histories) and C79: data, analysis choices and predictions
-/

namespace Obscura
open Spec IonizationDetector

variable {U : Units} {T : Tools} {h : Distribution} {p : DMParticle}

/-! ## C79 — entering data -/

/-- The state after a call that enters data. -/
theorem data_step {d d' : Detector} {op : Detector.Op} (ho : EntersData op) (hs : d.step op = .ok d') :
    ∃ n b N B, d' = { d with observed := n, background := b, binObserved := N, binBackground := B } := by
  cases op with
  | setObserved n =>
    simp only [Detector.step, Detector.setObserved] at hs
    split_ifs at hs; cases hs; exact ⟨_, _, _, _, rfl⟩
  | setBackground B =>
    simp only [Detector.step, Detector.setBackground] at hs
    split_ifs at hs; cases hs; exact ⟨_, _, _, _, rfl⟩
  | setObservedBins N =>
    simp only [Detector.step, Detector.setObservedBins] at hs
    split_ifs at hs; cases hs; exact ⟨_, _, _, _, rfl⟩
  | setBackgroundBins B =>
    simp only [Detector.step, Detector.setBackgroundBins] at hs
    split_ifs at hs; cases hs; exact ⟨_, _, _, _, rfl⟩
  | setBinEfficiencies e => exact ho.elim
  | useMaximumGap e => exact ho.elim
  | setFlatEfficiency e => exact ho.elim
  | useEnergyThreshold a b => exact ho.elim
  | useEnergyBins a b n => exact ho.elim

/-- The state after a sequence of calls that enter data. -/
theorem data_run {d d' : Detector} {ops : List Detector.Op} (ho : ∀ op ∈ ops, EntersData op) (hr : d.run ops = .ok d') :
    ∃ n b N B, d' = { d with observed := n, background := b, binObserved := N, binBackground := B } := by
  induction ops generalizing d with
  | nil => cases hr; exact ⟨_, _, _, _, rfl⟩
  | cons op ops ih =>
    obtain ⟨d₁, h1, h2⟩ := Outcome.bind_eq_ok.1 hr
    obtain ⟨n, b, N, B, rfl⟩ := data_step (ho op (by simp)) h1
    obtain ⟨n', b', N', B', rfl⟩ := ih (fun o h => ho o (by simp [h])) h2
    exact ⟨_, _, _, _, rfl⟩

/-- C79 (predictions do not depend on the data). For detectors of all classes, entering observed events and backgrounds, in any number of
calls, changes none of the predictions: total signals, signals per bin, spectrum, lightest mass, largest deposit. -/
theorem C79_predictions (a : AnyDetector) {ops : List Detector.Op} (ho : ∀ op ∈ ops, EntersData op) {d' : Detector}
    (hr : a.base.run ops = .ok d') :
    (a.toClass U T h).signalsTotal d' p = (a.toClass U T h).signalsTotal a.base p ∧
    (a.toClass U T h).signalsBinned d' p = (a.toClass U T h).signalsBinned a.base p ∧
    (∀ E, (a.toClass U T h).dRdE d' E p = (a.toClass U T h).dRdE a.base E p) ∧
    (a.toClass U T h).minimumDMMass d' p = (a.toClass U T h).minimumDMMass a.base p := by
  obtain ⟨n, b, N, B, rfl⟩ := data_run ho hr
  cases a with
  | nuclear d x => exact ⟨rfl, rfl, fun _ => rfl, rfl⟩
  | electronRecoil d x => exact ⟨rfl, rfl, fun _ => rfl, rfl⟩
  | migdal d x => exact ⟨rfl, rfl, fun _ => rfl, rfl⟩
  | crystal d x => exact ⟨rfl, rfl, fun _ => rfl, rfl⟩

/-- C79 (order of the calls). Two calls that set different quantities can be exchanged: the same state results, or both orders are refused. -/
theorem C79_order (d : Detector) {o₁ o₂ : Detector.Op} {q₁ q₂ : Quantity} (h₁ : quantity o₁ = some q₁) (h₂ : quantity o₂ = some q₂)
    (hne : q₁ ≠ q₂) : d.run [o₁, o₂] = d.run [o₂, o₁] := by
  cases o₁ <;> simp only [quantity, reduceCtorEq, Option.some.injEq] at h₁ <;>
  cases o₂ <;> simp only [quantity, reduceCtorEq, Option.some.injEq] at h₂ <;>
  subst h₁ h₂ <;> first | exact absurd rfl hne | skip
  all_goals
    simp only [Detector.run, Detector.step, Detector.setObserved, Detector.setBackground, Detector.setObservedBins, Detector.setBackgroundBins,
      Detector.setBinEfficiencies, Detector.setFlatEfficiency]
    repeat' split
    all_goals simp_all

/-- C79 (last value): of two values given for the same quantity the second one counts. -/
theorem C79_last_value {d d' : Detector} {o₁ o₂ : Detector.Op} {q : Quantity} (h₁ : quantity o₁ = some q) (h₂ : quantity o₂ = some q)
    (hr : d.run [o₁, o₂] = .ok d') : d.run [o₂] = .ok d' := by
  cases o₁ <;> simp only [quantity, reduceCtorEq, Option.some.injEq] at h₁ <;>
  cases o₂ <;> simp only [quantity, reduceCtorEq, Option.some.injEq] at h₂ <;>
  subst h₁ <;> cases h₂
  all_goals
    simp only [Detector.run, Detector.step, Detector.setObserved, Detector.setBackground, Detector.setObservedBins, Detector.setBackgroundBins,
      Detector.setBinEfficiencies, Detector.setFlatEfficiency] at hr ⊢
    repeat' split at hr
    all_goals simp_all

/-! ## C38 — binned and unbinned analyses, detectors of all classes -/

/-- C38 (binned signals need bins). As long as the last choice was not a set of bins, asking for the signals per bin is refused. -/
theorem C38_not_binned (a : AnyDetector) (hb : a.base.analysis ≠ .binnedPoisson) :
    (a.toClass U T h).signalsBinned a.base p = .exit := by
  cases a with
  | nuclear d x => exact if_pos hb
  | electronRecoil d x => exact if_pos hb
  | migdal d x => exact if_pos hb
  | crystal d x => exact if_pos hb

/-- C38 (total of a binned analysis): the total signals are the sum over the bins. -/
theorem C38_total_of_bins (a : AnyDetector) (hb : a.base.analysis = .binnedPoisson) {l : List ℝ}
    (hl : (a.toClass U T h).signalsBinned a.base p = .ok l) : (a.toClass U T h).signalsTotal a.base p = .ok l.sum := by
  have key : ∀ x : Outcome (List ℝ), x = .ok l → (x >>= fun l => Outcome.ok (l.foldl (· + ·) 0)) = .ok l.sum := by
    intro x hx
    rw [hx, Outcome.bind_ok, foldl_add_eq_sum]
  cases a with
  | nuclear d x => exact (if_pos hb).trans (key _ hl)
  | electronRecoil d x => exact (if_pos hb).trans (key _ hl)
  | migdal d x => exact (if_pos hb).trans (key _ hl)
  | crystal d x => exact (if_pos hb).trans (key _ hl)

/-! ## C38 — maximum gap -/

/-- C38 (crystals, maximum gap): whatever was chosen before, after `Use_Maximum_Gap` the total signals are the events between the smallest and
the largest of the energies. -/
theorem C38_crystal_maximum_gap {d d' : Detector} {cd : CrystalDetector} {es : List ℝ} (hu : d.useMaximumGap es = .ok d') :
    ∃ a b, a ∈ es ∧ b ∈ es ∧ (∀ e ∈ es, a ≤ e ∧ e ≤ b) ∧ cd.signalsTotal U T d' p h =
      .ok (d.exposure * T.integrate (fun E => (cd.dRdE U T.integrate d E p h).valueOr0) a b) := by
  have hne : es ≠ [] := by rintro rfl; simp [Detector.useMaximumGap] at hu
  obtain ⟨d₁, h1, h2, _, _, h5, h6, h7⟩ := C27_use_maximum_gap d hne
  obtain rfl : d₁ = d' := by rw [h1] at hu; injection hu
  refine ⟨_, _, h5, h6, h7, ?_⟩
  have h8 : d₁.exposure = d.exposure ∧ d₁.flatEfficiency = d.flatEfficiency := by
    unfold Detector.useMaximumGap at h1
    dsimp only at h1
    split at h1
    · cases h1; exact ⟨rfl, rfl⟩
    · cases h1
  unfold CrystalDetector.signalsTotal
  rw [if_neg (by rw [h2]; simp), if_pos (.inr h2), h8.1]
  simp only [CrystalDetector.dRdE, h8.2]

/-- C38 fails (ionization, maximum gap): for ionization detectors the total signals ignore `Use_Maximum_Gap`. On a new detector they are zero
whatever the rate. -/
theorem C38_fails_ionization_maximum_gap {S : ShellRate} {s : Detector × IonizationDetector} (hs : BuiltIonization U s) {es : List ℝ}
    {d' : Detector} (hu : s.1.useMaximumGap es = .ok d') : s.2.signalsTotal U S T d' p h = .ok 0 := by
  obtain ⟨_, _, h1, _, h3, _, h5, _, _⟩ := built_facts hs
  have h8 : d'.analysis = .maximumGap ∧ d'.usingEnergyThreshold = false := by
    unfold Detector.useMaximumGap at hu
    dsimp only at hu
    split at hu
    · cases hu; exact ⟨rfl, h5⟩
    · cases hu
  unfold IonizationDetector.signalsTotal
  simp [h8, h1, h3]

/-! ## C38 — histories of calls -/

/-- A base class call other than `Use_Energy_Threshold` does not touch the energy threshold flag. -/
theorem step_usingEnergyThreshold {d d' : Detector} {op : Detector.Op} (ho : ∀ a b, op ≠ .useEnergyThreshold a b)
    (hs : d.step op = .ok d') : d'.usingEnergyThreshold = d.usingEnergyThreshold ∧ d'.exposure = d.exposure := by
  cases op with
  | useEnergyThreshold a b => exact absurd rfl (ho a b)
  | useMaximumGap es =>
    simp only [Detector.step, Detector.useMaximumGap] at hs
    split at hs
    · cases hs; exact ⟨rfl, rfl⟩
    · cases hs
  | useEnergyBins a b n =>
    simp only [Detector.step, Detector.useEnergyBins, Detector.initializeBinned] at hs
    split at hs
    · cases hs
    · rw [Outcome.bind_ok] at hs
      split at hs
      · cases hs
      · cases hs; exact ⟨rfl, rfl⟩
  | _ =>
    simp only [Detector.step, Detector.setObserved, Detector.setBackground, Detector.setObservedBins, Detector.setBackgroundBins,
      Detector.setBinEfficiencies, Detector.setFlatEfficiency] at hs
    try split_ifs at hs
    cases hs; exact ⟨rfl, rfl⟩

/-- A base class call other than `Use_Energy_Bins` does not touch the energy bins flag. -/
theorem step_usingEnergyBins {d d' : Detector} {op : Detector.Op} (ho : ∀ a b n, op ≠ .useEnergyBins a b n)
    (hs : d.step op = .ok d') : d'.usingEnergyBins = d.usingEnergyBins ∧ d'.exposure = d.exposure := by
  cases op with
  | useEnergyBins a b n => exact absurd rfl (ho a b n)
  | useMaximumGap es =>
    simp only [Detector.step, Detector.useMaximumGap] at hs
    split at hs
    · cases hs; exact ⟨rfl, rfl⟩
    · cases hs
  | useEnergyThreshold a b =>
    simp only [Detector.step, Detector.useEnergyThreshold] at hs
    split at hs
    · cases hs
    · cases hs; exact ⟨rfl, rfl⟩
  | _ =>
    simp only [Detector.step, Detector.setObserved, Detector.setBackground, Detector.setObservedBins, Detector.setBackgroundBins,
      Detector.setBinEfficiencies, Detector.setFlatEfficiency] at hs
    try split_ifs at hs
    cases hs; exact ⟨rfl, rfl⟩

namespace CrystalDetector

theorem run_append {s : Detector × CrystalDetector} {ops ops' : List Op} :
    run s (ops ++ ops') = run s ops >>= fun s' => run s' ops' := by
  induction ops generalizing s with
  | nil => rfl
  | cons op ops ih =>
    simp only [List.cons_append, run]
    cases step s op with
    | ok s₁ => exact ih
    | exit => rfl
    | ub => rfl
    | nonfinite => rfl

theorem run_flags {s s' : Detector × CrystalDetector} {ops : List Op} (hr : run s ops = .ok s') :
    ((∀ a b, Op.base (.useEnergyThreshold a b) ∉ ops) → s'.1.usingEnergyThreshold = s.1.usingEnergyThreshold) ∧
    ((∀ a b n, Op.base (.useEnergyBins a b n) ∉ ops) → s'.1.usingEnergyBins = s.1.usingEnergyBins) ∧
    s'.1.exposure = s.1.exposure := by
  induction ops generalizing s with
  | nil => cases hr; exact ⟨fun _ => rfl, fun _ => rfl, rfl⟩
  | cons op ops ih =>
    obtain ⟨s₁, h1, h2⟩ := Outcome.bind_eq_ok.1 hr
    obtain ⟨i1, i2, i3⟩ := ih h2
    cases op with
    | base op =>
      obtain ⟨d₁, h3, h4⟩ := Outcome.bind_eq_ok.1 h1
      cases h4
      refine ⟨fun ho => ?_, fun ho => ?_, ?_⟩
      · rw [i1 fun a b h => ho a b (by simp [h])]
        exact (step_usingEnergyThreshold (fun a b h => ho a b (by simp [h])) h3).1
      · rw [i2 fun a b n h => ho a b n (by simp [h])]
        exact (step_usingEnergyBins (fun a b n h => ho a b n (by simp [h])) h3).1
      · rw [i3]
        by_cases ho : ∀ a b, op ≠ .useEnergyThreshold a b
        · exact (step_usingEnergyThreshold ho h3).2
        · push Not at ho
          obtain ⟨a, b, rfl⟩ := ho
          exact (step_usingEnergyBins (fun a b n h => by cases h) h3).2
    | useQThreshold Q =>
      cases h1
      exact ⟨fun ho => i1 fun a b h => ho a b (by simp [h]), fun ho => i2 fun a b n h => ho a b n (by simp [h]), i3⟩
    | useQBins Q N =>
      have h1 : useQBins s.1 s.2 Q N = .ok (s₁.1, s₁.2) := h1
      have hb := useQBins_ok h1
      have ht : s₁.1.usingEnergyThreshold = s.1.usingEnergyThreshold := by
        unfold useQBins Detector.initializeBinned at h1
        dsimp only at h1
        rw [if_neg hb.1] at h1
        injection h1 with h1
        rw [← (Prod.ext_iff.1 h1).1]
      exact ⟨fun ho => (i1 fun a b h => ho a b (by simp [h])).trans ht,
        fun ho => (i2 fun a b n h => ho a b n (by simp [h])).trans hb.2.2.2.2.1, i3.trans hb.2.2.2.2.2.1⟩

/-- C38 (crystals, histories, Q threshold), guarded. Take any detector from a constructor and any history of calls without
`Use_Energy_Threshold` that ends with `Use_Q_Threshold(Q)`: the signals are exposure times efficiency times the rate of events with at
least `Q` pairs. Missing: histories with an energy threshold (`C38_fails_crystal_threshold`). -/
theorem C38_crystal_history_q_threshold_partial {s s' : Detector × CrystalDetector} (hs : BuiltCrystalDetector U s) {ops : List Op}
    (ho : ∀ a b, Op.base (.useEnergyThreshold a b) ∉ ops) {Q : ℕ} (hQ : Q < 2 ^ 31) (hr : run s (ops ++ [.useQThreshold Q]) = .ok s') :
    s'.2.signalsTotal U T s'.1 p h =
      rTotalCrystal U T.integrate Q p h s.2.crystal >>= fun r => .ok (s.1.exposure * s'.1.flatEfficiency * r) := by
  rw [run_append] at hr
  obtain ⟨s₁, h1, h2⟩ := Outcome.bind_eq_ok.1 hr
  obtain ⟨f1, _, f3⟩ := run_flags h1
  have f0 : s.1.usingEnergyThreshold = false := by
    obtain ⟨P, file, l, e, c, hs⟩ := hs
    obtain ⟨c', hc, hs⟩ := Outcome.bind_eq_ok.1 hs
    cases hs
    rfl
  have h2 : useQThreshold s₁.1 s₁.2 Q = s' := by
    obtain ⟨s₂, h3, h4⟩ := Outcome.bind_eq_ok.1 h2
    cases h4
    injection h3
  subst h2
  rw [C38_crystal_q_threshold_partial ((f1 ho).trans f0) hQ, run_inv h1, f3]
  rfl

/-- C38 (crystals, histories, Q bins), guarded: the same for `Use_Q_Bins` after a history without `Use_Energy_Bins`. -/
theorem C38_crystal_history_q_bins_partial {s s' : Detector × CrystalDetector} (hs : BuiltCrystalDetector U s) {ops : List Op}
    (ho : ∀ a b n, Op.base (.useEnergyBins a b n) ∉ ops) {Q N : ℕ} (hr : run s (ops ++ [.useQBins Q N]) = .ok s') :
    s'.2.signalsBinned U T s'.1 p h = s'.2.signalsQBins U T.integrate s'.1 p h ∧ s'.2.qThreshold = some Q ∧
    s'.2.crystal = s.2.crystal ∧ s'.1.exposure = s.1.exposure := by
  have hc := run_inv hr
  have he := (run_flags hr).2.2
  rw [run_append] at hr
  obtain ⟨s₁, h1, h2⟩ := Outcome.bind_eq_ok.1 hr
  obtain ⟨_, f2, _⟩ := run_flags h1
  have f0 : s.1.usingEnergyBins = false := by
    obtain ⟨P, file, l, e, c, hs⟩ := hs
    obtain ⟨c', hc, hs⟩ := Outcome.bind_eq_ok.1 hs
    cases hs
    rfl
  have h2 : useQBins s₁.1 s₁.2 Q N = .ok s' := by
    obtain ⟨s₂, h3, h4⟩ := Outcome.bind_eq_ok.1 h2
    cases h4
    exact h3
  obtain ⟨g1, g2⟩ := C38_crystal_q_bins_partial (U := U) (T := T) (p := p) (h := h) ((f2 ho).trans f0) (d' := s'.1) (cd' := s'.2) h2
  exact ⟨g1, g2, hc, he⟩

/-- C38 (crystals, histories, energy threshold and energy bins): whatever calls came before. -/
theorem C38_crystal_history_energy {s s' : Detector × CrystalDetector} {ops : List Op} :
    (∀ a b, run s (ops ++ [.base (.useEnergyThreshold a b)]) = .ok s' → s'.2.signalsTotal U T s'.1 p h =
      .ok (s.1.exposure * T.integrate (fun E => (s.2.dRdE U T.integrate s'.1 E p h).valueOr0) a b)) ∧
    (∀ a b n, run s (ops ++ [.base (.useEnergyBins a b n)]) = .ok s' → s'.2.signalsBinned U T s'.1 p h =
      s'.1.signalsEnergyBins T (s'.2.toClass U T h) p ∧ s'.1.binEnergies = linearSpace a b ((toUInt32 n + 1) % 2 ^ 32) ∧
      s'.1.bins = toUInt32 n ∧ s'.1.exposure = s.1.exposure) := by
  constructor
  · intro a b hr
    rw [run_append] at hr
    obtain ⟨s₁, h1, h2⟩ := Outcome.bind_eq_ok.1 hr
    obtain ⟨s₂, h3, h4⟩ := Outcome.bind_eq_ok.1 h2
    cases h4
    obtain ⟨d', h5, h6⟩ := Outcome.bind_eq_ok.1 h3
    cases h6
    have h5 : s₁.1.useEnergyThreshold a b = .ok d' := h5
    rw [C38_crystal_energy_threshold h5, (run_flags h1).2.2]
    have hf : d'.flatEfficiency = s₁.1.flatEfficiency := by
      unfold Detector.useEnergyThreshold at h5
      dsimp only at h5
      split_ifs at h5
      cases h5
      rfl
    simp only [CrystalDetector.dRdE, hf, run_inv h1]
  · intro a b n hr
    have he := (run_flags hr).2.2
    rw [run_append] at hr
    obtain ⟨s₁, h1, h2⟩ := Outcome.bind_eq_ok.1 hr
    obtain ⟨s₂, h3, h4⟩ := Outcome.bind_eq_ok.1 h2
    cases h4
    obtain ⟨d', h5, h6⟩ := Outcome.bind_eq_ok.1 h3
    cases h6
    obtain ⟨g1, g2, g3⟩ := C38_crystal_energy_bins (U := U) (T := T) (p := p) (h := h) (cd := s₁.2) h5
    exact ⟨g1, g2, g3, he⟩

/-- Non-vacuity of the history theorems: any number of observed events, an efficiency, bins, then the choice. -/
example (P : Interpolator2D) (Q N n : ℕ) (eff : ℝ) : ∃ s s', BuiltCrystalDetector U s ∧
    run s ([.base (.setObserved n), .base (.setFlatEfficiency eff), .useQBins 1 N] ++ [.useQThreshold Q]) = .ok s' ∧
    s'.1.flatEfficiency = eff := by
  obtain ⟨c, hc, _⟩ := (C57_construction (U := U) P (fun _ => List.replicate 450000 1) "Si").1 (.inl rfl)
    (by rw [List.length_replicate])
  refine ⟨_, _, ⟨P, _, "x", 1, "Si", by unfold make; rw [hc]; rfl⟩, rfl, rfl⟩

end CrystalDetector

namespace IonizationDetector

variable {S : ShellRate}

theorem run_append {s : Detector × IonizationDetector} {ops ops' : List Op} :
    run s (ops ++ ops') = run s ops >>= fun s' => run s' ops' := by
  induction ops generalizing s with
  | nil => rfl
  | cons op ops ih =>
    simp only [List.cons_append, run]
    cases step s op with
    | ok s₁ => exact ih
    | exit => rfl
    | ub => rfl
    | nonfinite => rfl

theorem run_one {s s' : Detector × IonizationDetector} {op : Op} (hr : run s [op] = .ok s') : step s op = .ok s' := by
  obtain ⟨s₂, h3, h4⟩ := Outcome.bind_eq_ok.1 hr
  cases h4
  exact h3

theorem run_flags {s s' : Detector × IonizationDetector} {ops : List Op} (hr : run s ops = .ok s') :
    ((∀ a b n, Op.base (.useEnergyBins a b n) ∉ ops) → s'.1.usingEnergyBins = s.1.usingEnergyBins) ∧
    ((∀ n N, Op.useElectronBins n N ∉ ops) → s'.2.usingElectronBins = s.2.usingElectronBins) ∧
    ((∀ n m, Op.useElectronThreshold n m ∉ ops) → s.2.usingElectronThreshold = false → s'.2.usingElectronThreshold = false) ∧
    s'.1.exposure = s.1.exposure := by
  induction ops generalizing s with
  | nil => cases hr; exact ⟨fun _ => rfl, fun _ => rfl, fun _ h => h, rfl⟩
  | cons op ops ih =>
    obtain ⟨s₁, h1, h2⟩ := Outcome.bind_eq_ok.1 hr
    obtain ⟨i1, i2, i3, i4⟩ := ih h2
    have j1 : (∀ a b n, Op.base (.useEnergyBins a b n) ∉ op :: ops) → s'.1.usingEnergyBins = s₁.1.usingEnergyBins :=
      fun ho => i1 fun a b n h => ho a b n (by simp [h])
    have j2 : (∀ n N, Op.useElectronBins n N ∉ op :: ops) → s'.2.usingElectronBins = s₁.2.usingElectronBins :=
      fun ho => i2 fun a b h => ho a b (by simp [h])
    have j3 : (∀ n m, Op.useElectronThreshold n m ∉ op :: ops) → s₁.2.usingElectronThreshold = false →
        s'.2.usingElectronThreshold = false := fun ho => i3 fun a b h => ho a b (by simp [h])
    cases op with
    | base op =>
      obtain ⟨d₁, h3, h4⟩ := Outcome.bind_eq_ok.1 h1
      cases h4
      refine ⟨fun ho => (j1 ho).trans (step_usingEnergyBins (fun a b n h => ho a b n (by simp [h])) h3).1, j2, j3, i4.trans ?_⟩
      by_cases ho : ∀ a b, op ≠ .useEnergyThreshold a b
      · exact (step_usingEnergyThreshold ho h3).2
      · push Not at ho
        obtain ⟨a, b, rfl⟩ := ho
        exact (step_usingEnergyBins (fun a b n h => by cases h) h3).2
    | useElectronThreshold n m =>
      obtain ⟨_, e2, e3⟩ := useElectronThreshold_ok (d' := s₁.1) (x' := s₁.2) h1
      refine ⟨fun ho => ?_, fun ho => ?_, fun ho => absurd (List.mem_cons_self) (ho n m), ?_⟩
      · rw [j1 ho, e2]; rfl
      · rw [j2 ho, e3]
      · rw [i4, e2]; rfl
    | useElectronBins n N =>
      obtain ⟨_, _, _, _, e5, _, e7, _, _, k, e10⟩ := useElectronBins_ok (d' := s₁.1) (x' := s₁.2) h1
      refine ⟨fun ho => ?_, fun ho => absurd (List.mem_cons_self) (ho n N), fun ho hs => j3 ho ?_, ?_⟩
      · rw [j1 ho, e5]
      · rw [e10]; exact hs
      · rw [i4, e7]
    | usePEThreshold mu sigma n m =>
      obtain ⟨_, e2, e3⟩ := usePEThreshold_ok (d' := s₁.1) (x' := s₁.2) h1
      refine ⟨fun ho => ?_, fun ho => ?_, fun ho _ => j3 ho ?_, ?_⟩
      · rw [j1 ho, e2]; rfl
      · rw [j2 ho, e3]
      · rw [e3]
      · rw [i4, e2]; rfl
    | usePEBins mu sigma ranges =>
      obtain ⟨_, _, _, _, e5, e6, e7⟩ := usePEBins_ok (d' := s₁.1) (x' := s₁.2) h1
      refine ⟨fun ho => ?_, fun ho => ?_, fun ho hs => j3 ho ?_, ?_⟩
      · rw [j1 ho, e5]
      · rw [j2 ho, e7]
      · rw [e7]; exact hs
      · rw [i4, e6]
    | importTrigger l =>
      obtain ⟨x, h3, h4⟩ := Outcome.bind_eq_ok.1 h1
      cases h4
      unfold importTrigger at h3
      split_ifs at h3
      cases h3
      exact ⟨j1, j2, j3, i4⟩
    | importAcceptance l =>
      obtain ⟨x, h3, h4⟩ := Outcome.bind_eq_ok.1 h1
      cases h4
      unfold importAcceptance at h3
      split_ifs at h3
      cases h3
      exact ⟨j1, j2, j3, i4⟩

/-- C38 (ionization, histories, electron threshold): whatever calls came before, after `Use_Electron_Threshold(n, m)` the signals are the
events with `n` to `m` electrons (to 100, if there is no upper end). -/
theorem C38_ionization_history_electron_threshold {s s' : Detector × IonizationDetector} {ops : List Op} {n m : ℕ}
    (hr : run s (ops ++ [.useElectronThreshold n m]) = .ok s') {r : ℕ → ℝ}
    (hrate : ∀ ne, n ≤ ne → ne ≤ max m 100 → s'.2.rNe U S s'.1 ne p = .ok (r ne)) :
    (n < m → s'.2.signalsTotal U S T s'.1 p h = .ok (s.1.exposure * ∑ ne ∈ Finset.Icc n m, r ne)) ∧
    (m = 0 → s'.2.signalsTotal U S T s'.1 p h = .ok (s.1.exposure * ∑ ne ∈ Finset.Icc n 100, r ne)) := by
  rw [run_append] at hr
  obtain ⟨s₁, h1, h2⟩ := Outcome.bind_eq_ok.1 hr
  rw [← (run_flags h1).2.2.2]
  exact C49_window_partial (d' := s'.1) (x' := s'.2) (run_one h2) hrate

/-- C38 (ionization, histories, photo-electron threshold): whatever calls came before, after `Use_PE_Threshold` the signals are exposure times
the rate of the requested number of photo-electrons, with the given gain and width. -/
theorem C38_ionization_history_pe_threshold {s s' : Detector × IonizationDetector} {ops : List Op} {mu sigma : ℝ} {n m : ℕ}
    (hr : run s (ops ++ [.usePEThreshold mu sigma n m]) = .ok s') :
    s'.2.signalsTotal U S T s'.1 p h = s'.2.rS2Bin U S s'.1 n m p [] >>= (fun r => .ok (s.1.exposure * r)) ∧
    s'.2.s2Mu = mu ∧ s'.2.s2Sigma = sigma ∧ s'.2.atoms = s.2.atoms ∧ s'.2.fractions = s.2.fractions := by
  have ha := run_atoms hr
  have he := (run_flags hr).2.2.2
  rw [run_append] at hr
  obtain ⟨s₁, h1, h2⟩ := Outcome.bind_eq_ok.1 hr
  obtain ⟨_, e2, e3⟩ := usePEThreshold_ok (d' := s'.1) (x' := s'.2) (run_one h2)
  refine ⟨?_, by rw [e3], by rw [e3], ha⟩
  unfold signalsTotal
  rw [if_neg (by rw [e2]; simp [Detector.initializePoisson]), if_neg (by rw [e3]; simp), if_neg (by rw [e2]; simp), if_pos (by rw [e3]), he]
  have f1 : s'.2.peThreshold = n := by rw [e3]
  have f2 : s'.2.peMax = m := by rw [e3]
  rw [f1, f2]

/-- C38 (ionization, histories, electron bins), guarded: after a history without `Use_Energy_Bins` that ends with `Use_Electron_Bins(n, N)` the
signals per bin are the events with `n, n + 1, …, n + N - 1` electrons. Missing: histories with energy bins
(`C38_fails_electron_bins`). -/
theorem C38_ionization_history_electron_bins_partial {s s' : Detector × IonizationDetector} (hs : BuiltIonization U s) {ops : List Op}
    (ho : ∀ a b n, Op.base (.useEnergyBins a b n) ∉ ops) {n N : ℕ} (hN : n + N ≤ 2 ^ 32)
    (hr : run s (ops ++ [.useElectronBins n N]) = .ok s') {r : ℕ → ℝ} (hrate : ∀ ne, s'.2.rNe U S s'.1 ne p = .ok (r ne)) :
    s'.2.signalsBinned U S T s'.1 p h = .ok ((List.range N).map fun i : ℕ => s.1.exposure * r (n + i)) := by
  rw [run_append] at hr
  obtain ⟨s₁, h1, h2⟩ := Outcome.bind_eq_ok.1 hr
  obtain ⟨f1, _, _, f4⟩ := run_flags h1
  have h2 : useElectronBins s₁.1 s₁.2 n N = .ok (s'.1, s'.2) := run_one h2
  obtain ⟨_, e2, e3, e4, _⟩ := useElectronBins_ok h2
  have he : s'.1.setBinEfficiencies (List.replicate N 1) = .ok s'.1 := by
    unfold Detector.setBinEfficiencies
    rw [if_neg (by rw [e2]; simp), if_neg (by rw [e3]; simp), ← e4]
  obtain ⟨_, g⟩ := C38_electron_bins_partial (U := U) (S := S) (T := T) (h := h) ((f1 ho).trans (built_facts hs).2.2.2.2.2.2.2.1) hN h2 he hrate
  rw [g, f4]
  congr 1
  refine List.map_congr_left fun i hi => ?_
  rw [List.getD_eq_getElem?_getD, List.getElem?_replicate, if_pos (List.mem_range.1 hi), Option.getD_some, mul_one]

/-- C38 (ionization, histories, photo-electron bins), guarded: after a history without `Use_Energy_Bins` and `Use_Electron_Bins` that ends with
`Use_PE_Bins` the signals are those in the photo-electron bins. -/
theorem C38_ionization_history_pe_bins_partial {s s' : Detector × IonizationDetector} (hs : BuiltIonization U s) {ops : List Op}
    (ho : ∀ a b n, Op.base (.useEnergyBins a b n) ∉ ops) (ho' : ∀ n N, Op.useElectronBins n N ∉ ops) {mu sigma : ℝ} {ranges : List ℕ}
    (hr : run s (ops ++ [.usePEBins mu sigma ranges]) = .ok s') :
    s'.2.signalsBinned U S T s'.1 p h = s'.2.signalsPEBins U S s'.1 p ∧ s'.2.s2Mu = mu ∧ s'.2.s2Sigma = sigma ∧
    s'.2.s2Bins = ranges ∧ s'.1.exposure = s.1.exposure ∧ s'.2.atoms = s.2.atoms := by
  have ha := run_atoms hr
  have he := (run_flags hr).2.2.2
  rw [run_append] at hr
  obtain ⟨s₁, h1, h2⟩ := Outcome.bind_eq_ok.1 hr
  obtain ⟨f1, f2, _⟩ := run_flags h1
  obtain ⟨_, _, _, b1, _, _, _, b2, _⟩ := built_facts hs
  obtain ⟨_, e2, _, _, e5, _, e7⟩ := usePEBins_ok (d' := s'.1) (x' := s'.2) (run_one h2)
  refine ⟨?_, by rw [e7], by rw [e7], by rw [e7], he, ha.1⟩
  unfold signalsBinned
  rw [if_neg (by rw [e2]; simp), if_neg (by rw [e5, f1 ho, b2]; simp), if_neg (by rw [e7]; simp [f2 ho', b1]), if_pos (by rw [e7])]

/-- C38 (ionization, histories, energy threshold), guarded: after a history without `Use_Electron_Threshold` that ends with
`Use_Energy_Threshold(a, b)` the signals are the events above `a` in every shell, up to the end of its table. Missing: histories with an
electron threshold (`C38_fails_ionization_threshold`) and the upper end `b` (`C67_fails_ionization`). -/
theorem C38_ionization_history_energy_threshold_partial {s s' : Detector × IonizationDetector} (hs : BuiltIonization U s) {ops : List Op}
    (ho : ∀ n m, Op.useElectronThreshold n m ∉ ops) {a b : ℝ} (hr : run s (ops ++ [.base (.useEnergyThreshold a b)]) = .ok s') :
    s'.2.signalsTotal U S T s'.1 p h = .ok (∑ i : Fin s'.2.atoms.length, (s'.2.atoms[i].electrons.map fun e =>
      if a < e.kMax ^ 2 / (2 * U.mElectron) then s'.2.fractions.getD i 0 *
        T.integrate (fun E => s.1.exposure * (S s'.1 E p s'.2.atoms[i].nucleus e).valueOr0) a (e.kMax ^ 2 / (2 * U.mElectron)) else 0).sum) ∧
    s'.2.atoms = s.2.atoms ∧ s'.2.fractions = s.2.fractions := by
  have ha := run_atoms hr
  rw [run_append] at hr
  obtain ⟨s₁, h1, h2⟩ := Outcome.bind_eq_ok.1 hr
  obtain ⟨_, _, f3, f4⟩ := run_flags h1
  obtain ⟨d', h5, h6⟩ := Outcome.bind_eq_ok.1 (run_one h2)
  cases h6
  refine ⟨?_, ha⟩
  have b := built_facts hs
  have hl : s₁.2.fractions.length = s₁.2.atoms.length := by
    rw [(run_atoms h1).1, (run_atoms h1).2, b.1]
  rw [← f4]
  exact C38_ionization_energy_threshold_partial (f3 ho b.2.2.1) hl h5

/-- C38 (ionization, histories, energy bins): whatever calls came before. -/
theorem C38_ionization_history_energy_bins {s s' : Detector × IonizationDetector} {ops : List Op} {a b : ℝ} {n : ℤ}
    (hr : run s (ops ++ [.base (.useEnergyBins a b n)]) = .ok s') :
    s'.2.signalsBinned U S T s'.1 p h = s'.1.signalsEnergyBins T (s'.2.toClass U S T h) p ∧
    s'.1.binEnergies = linearSpace a b ((toUInt32 n + 1) % 2 ^ 32) ∧ s'.1.bins = toUInt32 n ∧ s'.1.exposure = s.1.exposure := by
  have he := (run_flags hr).2.2.2
  rw [run_append] at hr
  obtain ⟨s₁, h1, h2⟩ := Outcome.bind_eq_ok.1 hr
  obtain ⟨d', h5, h6⟩ := Outcome.bind_eq_ok.1 (run_one h2)
  cases h6
  obtain ⟨g1, g2, g3⟩ := C38_ionization_energy_bins (U := U) (S := S) (T := T) (p := p) (h := h) (x := s₁.2) h5
  exact ⟨g1, g2, g3, he⟩

/-- Non-vacuity of the history theorems: an electron threshold, observed events, then a photo-electron threshold. -/
example (s : Detector × IonizationDetector) (mu sigma : ℝ) (k : ℕ) : ∃ s',
    run s ([.useElectronThreshold 3 0, .base (.setObserved k)] ++ [.usePEThreshold mu sigma 10 20]) = .ok s' := by
  refine ⟨_, rfl⟩

end IonizationDetector

end Obscura
