import Verif.Spec.Targets
import Verif.Props.LowMassElectrons

/-!
# C121: electrons and nuclei are independent targets
-/

namespace Obscura

open Spec DMParticle

variable {U : Units} {T : Tools} {h : Distribution} {D : AnyDetector} {p p' : DMParticle} {ops : List DMParticle.Op}

theorem nuclear_step {op : DMParticle.Op} (ho : ConcernsNuclei op) (hs : p.step U op = .ok p') :
    ∃ a b f r r' l s, p' = { p with fp := a, fn := b, fixedRelation := f, fpRel := r, fnRel := r', lowMass := l, spin := s } := by
  have hP : ∀ (s : ℝ), p.setSigmaProton U s = .ok p' → ∃ a b, p' = { p with fp := a, fn := b } := fun s hs => by
    unfold DMParticle.setSigmaProton at hs
    split_ifs at hs
    · cases hs; exact ⟨_, _, rfl⟩
    · obtain ⟨x, -, hs⟩ := Outcome.bind_eq_ok.1 hs
      obtain ⟨y, -, hs⟩ := Outcome.bind_eq_ok.1 hs
      cases hs; exact ⟨_, _, rfl⟩
    · obtain ⟨x, -, hs⟩ := Outcome.bind_eq_ok.1 hs
      cases hs; exact ⟨_, _, rfl⟩
  have hN : ∀ (s : ℝ), p.setSigmaNeutron U s = .ok p' → ∃ a b, p' = { p with fp := a, fn := b } := fun s hs => by
    unfold DMParticle.setSigmaNeutron at hs
    split_ifs at hs
    · cases hs; exact ⟨_, _, rfl⟩
    · obtain ⟨x, -, hs⟩ := Outcome.bind_eq_ok.1 hs
      obtain ⟨y, -, hs⟩ := Outcome.bind_eq_ok.1 hs
      cases hs; exact ⟨_, _, rfl⟩
    · obtain ⟨x, -, hs⟩ := Outcome.bind_eq_ok.1 hs
      cases hs; exact ⟨_, _, rfl⟩
  cases op with
  | setSigmaProton s => obtain ⟨a, b, rfl⟩ := hP s hs; exact ⟨_, _, _, _, _, _, _, rfl⟩
  | setSigmaNeutron s => obtain ⟨a, b, rfl⟩ := hN s hs; exact ⟨_, _, _, _, _, _, _, rfl⟩
  | setSpin s => cases hs; exact ⟨_, _, _, _, _, _, _, rfl⟩
  | setLowMassMode b => cases hs; exact ⟨_, _, _, _, _, _, _, rfl⟩
  | unfixCouplingRatios => cases hs; exact ⟨_, _, _, _, _, _, _, rfl⟩
  | setInteractionParameter x t =>
    have ht : t = "Nuclei" := ho
    subst ht
    have hs : p.setInteractionParameter U x "Nuclei" = .ok p' := hs
    unfold setInteractionParameter at hs
    rw [if_pos rfl] at hs
    split_ifs at hs
    · obtain ⟨a, b, rfl⟩ := hP x hs; exact ⟨_, _, _, _, _, _, _, rfl⟩
    · obtain ⟨a, b, rfl⟩ := hN x hs; exact ⟨_, _, _, _, _, _, _, rfl⟩
  | fixCouplingRatio a b =>
    have hs : p.fixCouplingRatio a b = .ok p' := hs
    unfold fixCouplingRatio at hs
    obtain ⟨x, -, hs⟩ := Outcome.bind_eq_ok.1 hs
    obtain ⟨y, -, hs⟩ := Outcome.bind_eq_ok.1 hs
    dsimp only at hs
    split_ifs at hs
    · cases hs; exact ⟨_, _, _, _, _, _, _, rfl⟩
    · cases hs; exact ⟨_, _, _, _, _, _, _, rfl⟩
    · obtain ⟨z, -, hs⟩ := Outcome.bind_eq_ok.1 hs
      cases hs; exact ⟨_, _, _, _, _, _, _, rfl⟩
    · obtain ⟨z, -, hs⟩ := Outcome.bind_eq_ok.1 hs
      cases hs; exact ⟨_, _, _, _, _, _, _, rfl⟩
  | fixFnOverFp a =>
    have hs : p.fixFnOverFp a = .ok p' := hs
    unfold fixFnOverFp at hs
    obtain ⟨x, -, hs⟩ := Outcome.bind_eq_ok.1 hs
    obtain ⟨y, -, hs⟩ := Outcome.bind_eq_ok.1 hs
    dsimp only at hs
    split_ifs at hs
    · obtain ⟨z, -, hs⟩ := Outcome.bind_eq_ok.1 hs
      cases hs; exact ⟨_, _, _, _, _, _, _, rfl⟩
    · obtain ⟨z, -, hs⟩ := Outcome.bind_eq_ok.1 hs
      cases hs; exact ⟨_, _, _, _, _, _, _, rfl⟩
  | fixFpOverFn a =>
    have hs : p.fixFpOverFn a = .ok p' := hs
    unfold fixFpOverFn at hs
    dsimp only at hs
    split_ifs at hs
    · cases hs; exact ⟨_, _, _, _, _, _, _, rfl⟩
    · obtain ⟨z, -, hs⟩ := Outcome.bind_eq_ok.1 hs
      cases hs; exact ⟨_, _, _, _, _, _, _, rfl⟩
    · obtain ⟨z, -, hs⟩ := Outcome.bind_eq_ok.1 hs
      cases hs; exact ⟨_, _, _, _, _, _, _, rfl⟩
  | _ => exact absurd ho id

theorem nuclear_run : ∀ (ops : List DMParticle.Op) (p : DMParticle), (∀ op ∈ ops, ConcernsNuclei op) → p.run U ops = .ok p' →
    ∃ a b f r r' l s, p' = { p with fp := a, fn := b, fixedRelation := f, fpRel := r, fnRel := r', lowMass := l, spin := s }
  | [], p, _, hr => by cases hr; exact ⟨_, _, _, _, _, _, _, rfl⟩
  | op :: ops, p, ho, hr => by
    obtain ⟨q, h1, h2⟩ := Outcome.bind_eq_ok.1 hr
    obtain ⟨a, b, f, r, r', l, s, rfl⟩ := nuclear_step (ho op (by simp)) h1
    obtain ⟨a, b, f, r, r', l, s, rfl⟩ := nuclear_run ops _ (fun o hm => ho o (by simp [hm])) h2
    exact ⟨_, _, _, _, _, _, _, rfl⟩

theorem electron_run : ∀ (ops : List DMParticle.Op) (p : DMParticle), (∀ op ∈ ops, ConcernsElectrons op) → p.run U ops = .ok p' →
    ∃ x s, p' = { p with sigmaElectronRef := x, spin := s }
  | [], p, _, hr => by cases hr; exact ⟨_, _, rfl⟩
  | op :: ops, p, ho, hr => by
    obtain ⟨q, h1, h2⟩ := Outcome.bind_eq_ok.1 hr
    have hq : ∃ x s, q = { p with sigmaElectronRef := x, spin := s } := by
      have ho := ho op (by simp)
      cases op with
      | setSigmaElectron s => cases h1; exact ⟨_, _, rfl⟩
      | setSpin s => cases h1; exact ⟨_, _, rfl⟩
      | setInteractionParameter x t =>
        have ht : t = "Electrons" := ho
        subst ht
        have h1 : p.setInteractionParameter U x "Electrons" = .ok q := h1
        unfold setInteractionParameter at h1
        rw [if_neg (by decide), if_pos rfl] at h1
        cases h1; exact ⟨_, _, rfl⟩
      | _ => exact absurd ho id
    obtain ⟨x, s, rfl⟩ := hq
    obtain ⟨x, s, rfl⟩ := electron_run ops _ (fun o hm => ho o (by simp [hm])) h2
    exact ⟨_, _, rfl⟩

/-- C121 (electrons). Whatever calls that concern the nuclei are made, in any number and order: the rate, the total signal and the signals in the bins of
a search for electron recoils stay the same, and so does the cross section with electrons. -/
theorem C121_electrons (hD : ElectronSearch D) (ho : ∀ op ∈ ops, ConcernsNuclei op) (hr : p.run U ops = .ok p') (d : Detector) :
    p'.sigmaElectron = p.sigmaElectron ∧ (∀ E, (D.toClass U T h).dRdE d E p' = (D.toClass U T h).dRdE d E p) ∧
    (D.toClass U T h).signalsTotal d p' = (D.toClass U T h).signalsTotal d p ∧
    (D.toClass U T h).signalsBinned d p' = (D.toClass U T h).signalsBinned d p := by
  obtain ⟨a, b, f, r, r', l, s, rfl⟩ := nuclear_run ops p ho hr
  rcases hD with ⟨d', x, rfl⟩ | ⟨d', x, rfl⟩
  · exact ⟨rfl, fun _ => rfl, rfl, rfl⟩
  · exact ⟨rfl, fun _ => rfl, rfl, rfl⟩

/-- C121 (nuclei). Whatever calls that concern the electrons are made: a search for nuclear recoils, or for the electrons they release, sees no difference,
and the cross sections with nucleons stay the same. -/
theorem C121_nuclei (hD : NuclearSearch D) (ho : ∀ op ∈ ops, ConcernsElectrons op) (hr : p.run U ops = .ok p') (d : Detector) :
    (p'.sigmaProton U = p.sigmaProton U ∧ p'.sigmaNeutron U = p.sigmaNeutron U) ∧ (∀ E, (D.toClass U T h).dRdE d E p' = (D.toClass U T h).dRdE d E p) ∧
    (D.toClass U T h).signalsTotal d p' = (D.toClass U T h).signalsTotal d p ∧
    (D.toClass U T h).signalsBinned d p' = (D.toClass U T h).signalsBinned d p := by
  obtain ⟨x, s, rfl⟩ := electron_run ops p ho hr
  rcases hD with ⟨d', x, rfl⟩ | ⟨d', x, rfl⟩
  · exact ⟨⟨rfl, rfl⟩, fun _ => rfl, rfl, rfl⟩
  · exact ⟨⟨rfl, rfl⟩, fun _ => rfl, rfl, rfl⟩

theorem reachable_calls : ∀ (ops : List DMParticle.Op) (p : DMParticle), Reachable U p → (∀ op ∈ ops, ValidOp op) → p.run U ops = .ok p' → Reachable U p'
  | [], p, hp, _, hr => by cases hr; exact hp
  | op :: ops, p, hp, ho, hr => by
    obtain ⟨q, h1, h2⟩ := Outcome.bind_eq_ok.1 hr
    exact reachable_calls ops q (reachable_step hp (ho op (by simp)) h1) (fun o hm => ho o (by simp [hm])) h2

/-- The calls of a search's other target. -/
theorem other_target (hT : Typed D) (ho : (ElectronSearch D ∧ ∀ op ∈ ops, ConcernsNuclei op) ∨ (NuclearSearch D ∧ ∀ op ∈ ops, ConcernsElectrons op))
    (hp : Reachable U p) (hr : p.run U ops = .ok p') (d : Detector) : Reachable U p' ∧
    p'.getInteractionParameter U D.base.targets = p.getInteractionParameter U D.base.targets ∧
    (D.toClass U T h).signalsTotal d p' = (D.toClass U T h).signalsTotal d p ∧
    (D.toClass U T h).signalsBinned d p' = (D.toClass U T h).signalsBinned d p := by
  rcases ho with ⟨hD, ho⟩ | ⟨hD, ho⟩
  · refine ⟨reachable_calls ops p hp (fun op hm => ?_) hr, ?_, (C121_electrons hD ho hr d).2.2⟩
    · have := ho op hm
      cases op <;> trivial
    · have ht : D.base.targets = "Electrons" := by
        rcases hD with ⟨d', x, rfl⟩ | ⟨d', x, rfl⟩ <;> exact hT.2
      rw [ht]
      simp [getInteractionParameter, (C121_electrons (T := T) (h := h) hD ho hr d).1]
  · refine ⟨reachable_calls ops p hp (fun op hm => ?_) hr, ?_, (C121_nuclei hD ho hr d).2.2⟩
    · have := ho op hm
      cases op <;> trivial
    · have ht : D.base.targets = "Nuclei" := by
        rcases hD with ⟨d', x, rfl⟩ | ⟨d', x, rfl⟩ <;> exact hT.2
      obtain ⟨x, s, rfl⟩ := electron_run ops p ho hr
      rw [ht]
      rfl

/-- C121 (limits). The calls that concern the other target change no limit of a counting analysis. -/
theorem C121_limit {c s cert : ℝ} (hT : Typed D) (hR : T.findRoot.Exact)
    (ho : (ElectronSearch D ∧ ∀ op ∈ ops, ConcernsNuclei op) ∨ (NuclearSearch D ∧ ∀ op ∈ ops, ConcernsElectrons op)) (hr : p.run U ops = .ok p')
    (hS : Sees U T h D p c s) {r r' : Detector × DMParticle × ℝ} (g : D.base.upperLimit U T (D.toClass U T h) p cert = .ok r)
    (g' : D.base.upperLimit U T (D.toClass U T h) p' cert = .ok r') (hx : 0 < r.2.2) (hx' : 0 < r'.2.2) : r'.2.2 = r.2.2 := by
  obtain ⟨k1, k2, k3, -⟩ := other_target (T := T) (h := h) hT ho hS.particle hr D.base
  have hS' : Sees U T h D p' c s :=
    { detector := hS.detector
      counting := hS.counting
      background := hS.background
      particle := k1
      parameter := k2.trans hS.parameter
      positive := hS.positive
      signal := k3.trans hS.signal
      visible := hS.visible }
  have := C87_comparison hS hS' hR hR rfl rfl g g' hx hx'
  exact (mul_right_cancel₀ (div_pos hS.visible hS.positive).ne' this).symm

/-- C121 (limits of binned analyses). -/
theorem C121_limit_binned {c cert : ℝ} {ss : List ℝ} (hT : Typed D) (hR : T.findRoot.Exact)
    (ho : (ElectronSearch D ∧ ∀ op ∈ ops, ConcernsNuclei op) ∨ (NuclearSearch D ∧ ∀ op ∈ ops, ConcernsElectrons op)) (hr : p.run U ops = .ok p')
    (hS : SeesInBins U T h D p c ss) {r r' : Detector × DMParticle × ℝ} (g : D.base.upperLimit U T (D.toClass U T h) p cert = .ok r)
    (g' : D.base.upperLimit U T (D.toClass U T h) p' cert = .ok r') (hx : 0 < r.2.2) (hx' : 0 < r'.2.2) : r'.2.2 = r.2.2 := by
  obtain ⟨k1, k2, -, k3⟩ := other_target (T := T) (h := h) hT ho hS.particle hr D.base
  have hS' : SeesInBins U T h D p' c ss :=
    { detector := hS.detector
      binned := hS.binned
      bins := hS.bins
      background := hS.background
      particle := k1
      parameter := k2.trans hS.parameter
      positive := hS.positive
      signal := k3.trans hS.signal
      complete := hS.complete
      visible := hS.visible }
  have k1 := C87_comparison_binned (k := 1) hS hS' hR hR rfl (fun _ _ => rfl) (fun _ _ => rfl) (fun i _ => (one_mul _).ge) g g' hx hx'
  have k2 := C87_comparison_binned (k := 1) hS' hS hR hR rfl (fun _ _ => rfl) (fun _ _ => rfl) (fun i _ => (one_mul _).ge) g' g hx' hx
  rw [one_mul] at k1 k2
  exact le_antisymm k2 k1

/-- Non-vacuity: hydrogen with two energy bins, after two changes of the cross section with electrons. -/
example (hI : T.integrate.Exact) (hR : T.findRoot.Exact) : ∃ (v : ℝ) (p p' : DMParticle) (ss : List ℝ),
    p.run U [.setSigmaElectron 2, .setInteractionParameter 3 "Electrons"] = .ok p' ∧ p'.sigmaElectron = 3 ∧
    SeesInBins U T (flatHalo v) (binnedHydrogen U) p 1 ss ∧ ∀ cert r r',
      (binnedHydrogen U).base.upperLimit U T ((binnedHydrogen U).toClass U T (flatHalo v)) p cert = .ok r →
      (binnedHydrogen U).base.upperLimit U T ((binnedHydrogen U).toClass U T (flatHalo v)) p' cert = .ok r' → 0 < r.2.2 → 0 < r'.2.2 → r'.2.2 = r.2.2 := by
  obtain ⟨v, p, ss, ⟨hT, -, -, hS⟩, -⟩ := sees_bins_point U hI
  have hr : p.run U [.setSigmaElectron 2, .setInteractionParameter 3 "Electrons"] = .ok { p with sigmaElectronRef := 3 } := by
    simp [DMParticle.run, DMParticle.step, setInteractionParameter, setSigmaElectron]
  exact ⟨v, p, _, ss, hr, rfl, hS, fun cert r r' g g' => C121_limit_binned hT hR (.inr ⟨.inl ⟨_, _, rfl⟩, by simp [ConcernsElectrons]⟩) hr hS g g'⟩

/-- Non-vacuity: silicon, after the cross section with protons was set, in the low-mass mode and with free couplings. -/
example (hI : T.integrate.Exact) (hR : T.findRoot.Exact) : ∃ (v : ℝ) (D : AnyDetector) (p p' : DMParticle) (c s : ℝ),
    p.run U [.setSigmaProton 5, .setLowMassMode true, .unfixCouplingRatios] = .ok p' ∧ Sees U T (flatHalo v) D p c s ∧ ∀ cert r r',
      D.base.upperLimit U T (D.toClass U T (flatHalo v)) p cert = .ok r →
      D.base.upperLimit U T (D.toClass U T (flatHalo v)) p' cert = .ok r' → 0 < r.2.2 → 0 < r'.2.2 → r'.2.2 = r.2.2 := by
  obtain ⟨v, -, p, cd, c, s, -, -, -, -, -, hS⟩ := sees_silicon U hI
  have hb := reachable_inv hS.particle
  obtain ⟨q, hq⟩ : ∃ q, p.setSigmaProton U 5 = .ok q := by
    unfold DMParticle.setSigmaProton
    split_ifs with h1 h2
    · exact ⟨_, rfl⟩
    · rw [couplingOf_ok hb.pre hb.mass (by norm_num), fdiv_ok h2]
      exact ⟨_, rfl⟩
    · rw [couplingOf_ok hb.pre hb.mass (by norm_num)]
      exact ⟨_, rfl⟩
  have hr : p.run U [.setSigmaProton 5, .setLowMassMode true, .unfixCouplingRatios] = .ok { q with lowMass := true, fixedRelation := false } := by
    simp [DMParticle.run, DMParticle.step, hq, setLowMassMode, unfixCouplingRatios]
  exact ⟨v, _, p, _, c, s, hr, hS, fun cert r r' g g' => C121_limit ⟨hS.detector, rfl⟩ hR (.inl ⟨.inr ⟨_, _, rfl⟩, by simp [ConcernsNuclei]⟩) hr hS g g'⟩

end Obscura
