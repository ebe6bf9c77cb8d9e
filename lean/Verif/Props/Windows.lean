import Verif.Props.IonizationRates
import Verif.Props.Histories
import Verif.Props.NuclearRange
import Verif.Props.IonizationSample
import Verif.Props.EtaBounds
import Verif.Props.MaximumGap

/-!
# C91 — a narrower selection never predicts more events

Both selections are made from the same state, by calls that succeed. "Not more" means that both predictions are defined and ordered.
-/

open MeasureTheory

namespace Obscura

open Spec

variable {U : Units} {T : Tools} {p : DMParticle} {h : Distribution} {d : Detector}

/-- `b` is defined and not more than `a`, which is defined as well. -/
def NotMore (b a : Outcome ℝ) : Prop := ∃ y x, b = .ok y ∧ a = .ok x ∧ y ≤ x

/-- Integrals of a non-negative function over a part of the interval. -/
theorem integral_part_le {f : ℝ → ℝ} {a a' b' b : ℝ} (h1 : a ≤ a') (h2 : a' ≤ b') (h3 : b' ≤ b) (hf : IntervalIntegrable f volume a b)
    (h0 : ∀ E, a < E → E ≤ b → 0 ≤ f E) : ∫ E in a'..b', f E ≤ ∫ E in a..b, f E := by
  rw [intervalIntegral.integral_of_le h2, intervalIntegral.integral_of_le (h1.trans (h2.trans h3))]
  refine setIntegral_mono_set ((intervalIntegrable_iff_integrableOn_Ioc_of_le (h1.trans (h2.trans h3))).1 hf) ?_
    (Set.Ioc_subset_Ioc h1 h3).eventuallyLE
  exact (ae_restrict_iff' measurableSet_Ioc).2 (Filter.Eventually.of_forall fun E hE => h0 E hE.1 hE.2)

namespace IonizationDetector

variable {S : ShellRate} {x : IonizationDetector}

private theorem useElectron_base {n m n' m' : ℕ} {s s' : Detector × IonizationDetector} (hs : useElectronThreshold d x n m = .ok s)
    (hs' : useElectronThreshold d x n' m' = .ok s') (ne : ℕ) : s'.1 = s.1 ∧ s'.2.rNe U S s'.1 ne p = s.2.rNe U S s.1 ne p ∧
      s.2.rNe U S s.1 ne p = x.rNe U S s.1 ne p := by
  unfold useElectronThreshold at hs hs'
  dsimp only at hs hs'
  split_ifs at hs hs' <;> cases hs <;> cases hs' <;> exact ⟨rfl, rfl, rfl⟩

/-- The numbers of electrons have rates that are not negative. -/
private theorem rates (hU : U.keV ≤ U.mElectron) (hl : x.fractions.length = x.atoms.length) (hfr : ∀ f ∈ x.fractions, 0 ≤ f)
    (ha : ∀ a ∈ x.atoms, BuiltAtom U a) (hS : NonnegShells S d p x) :
    ∃ r : ℕ → ℝ, ∀ ne, ne < 2 ^ 32 → x.rNe U S d ne p = .ok (r ne) ∧ 0 ≤ r ne := by
  have : ∀ ne : ℕ, ∃ r : ℝ, ne < 2 ^ 32 → x.rNe U S d ne p = .ok r ∧ 0 ≤ r := by
    intro ne
    by_cases hne : ne < 2 ^ 32
    · obtain ⟨r, e1, e2⟩ := C68_spectrum (x := x) (S := S) (d := d) (p := p) hU hl hfr ha hS hne
      exact ⟨r, fun _ => ⟨e1, e2⟩⟩
    · exact ⟨0, fun h => absurd h hne⟩
  choose r hr using this
  exact ⟨r, hr⟩

/-- C91 (electrons). A window of electron numbers inside another one does not predict more events, provided the windows contain more than one number
(`C91_fails_electrons`). -/
theorem C91_electrons_partial (hU : U.keV ≤ U.mElectron) (hl : x.fractions.length = x.atoms.length) (hfr : ∀ f ∈ x.fractions, 0 ≤ f)
    (ha : ∀ a ∈ x.atoms, BuiltAtom U a) (he : 0 ≤ d.exposure) {n m n' m' : ℕ} (hw : n < m) (hw' : n' < m') (hn : n ≤ n') (hm : m' ≤ m) (h32 : m < 2 ^ 32)
    {s s' : Detector × IonizationDetector} (hs : useElectronThreshold d x n m = .ok s) (hs' : useElectronThreshold d x n' m' = .ok s')
    (hS : NonnegShells S s.1 p x) :
    NotMore (s'.2.signalsTotal U S T s'.1 p h) (s.2.signalsTotal U S T s.1 p h) := by
  obtain ⟨r, hr⟩ := rates hU hl hfr ha hS
  have b := useElectron_base (U := U) (S := S) (p := p) hs hs'
  refine ⟨_, _, (C49_window_partial (r := r) hs' fun ne _ h2 => ?_).1 hw', (C49_window_partial (r := r) hs fun ne _ h2 => ?_).1 hw, mul_le_mul_of_nonneg_left ?_ he⟩
  · rw [(b ne).2.1, (b ne).2.2, (hr ne (by omega)).1]
  · rw [(b ne).2.2, (hr ne (by omega)).1]
  · refine Finset.sum_le_sum_of_subset_of_nonneg (Finset.Icc_subset_Icc hn hm) fun ne hne _ => ?_
    rw [Finset.mem_Icc] at hne
    exact (hr ne (by omega)).2

/-- C91 (electrons, without upper end). A higher threshold does not predict more events. -/
theorem C91_electron_threshold (hU : U.keV ≤ U.mElectron) (hl : x.fractions.length = x.atoms.length) (hfr : ∀ f ∈ x.fractions, 0 ≤ f)
    (ha : ∀ a ∈ x.atoms, BuiltAtom U a) (he : 0 ≤ d.exposure) {n n' : ℕ} (hn : n ≤ n') {s s' : Detector × IonizationDetector}
    (hs : useElectronThreshold d x n 0 = .ok s) (hs' : useElectronThreshold d x n' 0 = .ok s') (hS : NonnegShells S s.1 p x) :
    NotMore (s'.2.signalsTotal U S T s'.1 p h) (s.2.signalsTotal U S T s.1 p h) := by
  obtain ⟨r, hr⟩ := rates hU hl hfr ha hS
  have b := useElectron_base (U := U) (S := S) (p := p) hs hs'
  refine ⟨_, _, (C49_window_partial (r := r) hs' fun ne _ h2 => ?_).2 rfl, (C49_window_partial (r := r) hs fun ne _ h2 => ?_).2 rfl, mul_le_mul_of_nonneg_left ?_ he⟩
  · rw [(b ne).2.1, (b ne).2.2, (hr ne (by omega)).1]
  · rw [(b ne).2.2, (hr ne (by omega)).1]
  · refine Finset.sum_le_sum_of_subset_of_nonneg (Finset.Icc_subset_Icc hn le_rfl) fun ne hne _ => ?_
    rw [Finset.mem_Icc] at hne
    exact (hr ne (by omega)).2

/-- C91 fails for a single number of electrons: the window from `n` to `n` predicts more events than the one from `n` to `n + 1`, as soon as there are
events with `n + 2` electrons. -/
theorem C91_fails_electrons {n : ℕ} (hn : n + 2 ≤ 100) (he : 0 < d.exposure) {r : ℕ → ℝ}
    (hr : ∀ s, useElectronThreshold d x n n = .ok s → ∀ ne, n ≤ ne → ne ≤ 100 → s.2.rNe U S s.1 ne p = .ok (r ne) ∧ 0 ≤ r ne) (h2 : 0 < r (n + 2)) :
    ∃ s s' a b, useElectronThreshold d x n (n + 1) = .ok s ∧ useElectronThreshold d x n n = .ok s' ∧
      s.2.signalsTotal U S T s.1 p h = .ok a ∧ s'.2.signalsTotal U S T s'.1 p h = .ok b ∧ a < b := by
  obtain ⟨s', hs'⟩ := (C49_fails_single (U := U) (S := S) (T := T) (p := p) (h := h) (d := d) (x := x) (n := n)).2.2 (by omega)
  obtain ⟨s, hs⟩ := (C49_accepted d x n (n + 1)).1 (by omega)
  have b := useElectron_base (U := U) (S := S) (p := p) hs' hs
  refine ⟨s, s', _, _, hs, hs', (C49_window_partial hs (r := r) fun ne k1 k2 => ?_).1 (by omega),
    C49_fails_single.1 _ _ r hs' fun ne k1 k2 => (hr s' hs' ne k1 k2).1, mul_lt_mul_of_pos_left ?_ he⟩
  · rw [(b ne).2.1]
    exact (hr s' hs' ne k1 (by omega)).1
  refine Finset.sum_lt_sum_of_subset (i := n + 2) (Finset.Icc_subset_Icc le_rfl (by omega)) ?_ ?_ h2 fun ne hne _ => ?_
  · rw [Finset.mem_Icc]; omega
  · rw [Finset.mem_Icc]; omega
  · rw [Finset.mem_Icc] at hne
    exact (hr s' hs' ne hne.1 hne.2).2

/-- A xenon detector and a particle that gives events with one electron: the windows 1 to 5 and 2 to 4, and the thresholds 1 and 2. -/
example {I : Integrator} (hI : I.Exact) : ∃ (d : Detector) (x : IonizationDetector) (p : DMParticle) (s s' t t' : Detector × IonizationDetector) (r : ℝ),
    useElectronThreshold d x 1 5 = .ok s ∧ useElectronThreshold d x 2 4 = .ok s' ∧ useElectronThreshold d x 1 0 = .ok t ∧
    useElectronThreshold d x 2 0 = .ok t' ∧ s.2.rNe Units.sample (shellRateER Units.sample I sampleHalo) s.1 1 p = .ok r ∧ 0 < r ∧
    NotMore (s'.2.signalsTotal Units.sample (shellRateER Units.sample I sampleHalo) T s'.1 p sampleHalo)
      (s.2.signalsTotal Units.sample (shellRateER Units.sample I sampleHalo) T s.1 p sampleHalo) ∧
    NotMore (t'.2.signalsTotal Units.sample (shellRateER Units.sample I sampleHalo) T t'.1 p sampleHalo)
      (t.2.signalsTotal Units.sample (shellRateER Units.sample I sampleHalo) T t.1 p sampleHalo) := by
  obtain ⟨P, tables, c, s, p, r, h1, h2, h3, h4, h5, h6⟩ := ionization_positive hI 1
  have hmk : s.1.exposure = 1 ∧ s.2.fractions.length = s.2.atoms.length ∧ (∀ f ∈ s.2.fractions, 0 ≤ f) ∧
      ∀ a ∈ s.2.atoms, BuiltAtom Units.sample a := by
    unfold makeOne at h1
    obtain ⟨⟨c', a⟩, e1, e2⟩ := Outcome.bind_eq_ok.1 h1
    cases e2
    refine ⟨rfl, rfl, by simp [initial], fun b hb => ?_⟩
    obtain rfl : b = a := by simpa [initial] using hb
    exact ⟨_, _, _, _, _, _, e1⟩
  obtain ⟨g1, g2, g3, g4⟩ := hmk
  have hU : Units.sample.keV ≤ Units.sample.mElectron := by norm_num [Units.sample, Units.keV]
  have hS : ∀ d' : Detector, d'.flatEfficiency = s.1.flatEfficiency → NonnegShells (shellRateER Units.sample I sampleHalo) d' p s.2 := by
    intro d' hd a ha e he E hE
    rw [(shellRates_detector d' s.1 E p a.nucleus e hd).1]
    exact h6 a ha e he E hE
  refine ⟨s.1, s.2, p, _, _, _, _, r, rfl, rfl, rfl, rfl, ?_, h5, ?_, ?_⟩
  · rw [← h4]
    exact rNe_detector (fun E n e => (shellRates_detector _ _ E p n e rfl).1) 1
  · exact C91_electrons_partial hU g2 g3 g4 (by rw [g1]; norm_num) (n := 1) (m := 5) (n' := 2) (m' := 4) (by norm_num) (by norm_num) (by norm_num)
      (by norm_num) (by norm_num) rfl rfl (hS _ rfl)
  · exact C91_electron_threshold hU g2 g3 g4 (by rw [g1]; norm_num) (n := 1) (n' := 2) (by norm_num) rfl rfl (hS _ rfl)

/-- A detector counting `n` to `m` photoelectrons. -/
private def peWindow (x : IonizationDetector) (mu sigma : ℝ) (n m : ℕ) : IonizationDetector :=
  { x with usingS2Threshold := true, usingElectronThreshold := false, s2Mu := mu, s2Sigma := sigma, peThreshold := n, peMax := m }

/-- The base class of a detector counting photoelectrons. -/
private def peBase (d : Detector) : Detector := { d.initializePoisson with usingEnergyThreshold := false }

private theorem usePE_ok {mu sigma : ℝ} {n m : ℕ} {s : Detector × IonizationDetector} (h : usePEThreshold d x mu sigma n m = .ok s) :
    s = (peBase d, peWindow x mu sigma n m) ∧ n ≤ m := by
  unfold usePEThreshold at h
  split_ifs at h with c
  cases h
  exact ⟨rfl, not_lt.1 c⟩

/-- C91 (photoelectrons). The same for windows of photoelectrons, whatever efficiencies are in use. -/
theorem C91_photoelectrons {n m n' m' : ℕ} (hn : n ≤ n') (hm : m' ≤ m) {mu sigma : ℝ} {s s' : Detector × IonizationDetector}
    (hs : usePEThreshold d x mu sigma n m = .ok s) (hs' : usePEThreshold d x mu sigma n' m' = .ok s') (he : 0 ≤ d.exposure)
    {sp : List ℝ} (hsp : collect (fun ne => s.2.rNe U S s.1 ne p) (List.range' 1 99) = .ok sp)
    (hr : ∀ nPE, n ≤ nPE → nPE ≤ m → ∃ f r, s.2.peEfficiency nPE = .ok f ∧ s.2.rS2 U S s.1 nPE p sp = .ok r ∧ 0 ≤ f ∧ 0 ≤ r) :
    NotMore (s'.2.signalsTotal U S T s'.1 p h) (s.2.signalsTotal U S T s.1 p h) := by
  obtain ⟨rfl, hnm⟩ := usePE_ok hs
  obtain ⟨rfl, hnm'⟩ := usePE_ok hs'
  dsimp only at hsp hr ⊢
  choose f r e1 e2 e3 e4 using hr
  classical
  have hg : ∃ g : ℕ → ℝ, ∀ k (h1 : n ≤ k) (h2 : k ≤ m), g k = f k h1 h2 * r k h1 h2 :=
    ⟨fun k => if hk : n ≤ k ∧ k ≤ m then f k hk.1 hk.2 * r k hk.1 hk.2 else 0, fun k h1 h2 => dif_pos ⟨h1, h2⟩⟩
  obtain ⟨g, hg⟩ := hg
  have total : ∀ a b, n ≤ a → b ≤ m → (peWindow x mu sigma a b).signalsTotal U S T (peBase d) p h = .ok (d.exposure * ∑ k ∈ Finset.Icc a b, g k) := by
    intro a b h1 h2
    unfold signalsTotal
    rw [if_neg (by simp [peBase, Detector.initializePoisson]), if_neg (by simp [peWindow]), if_neg (by simp [peBase]), if_pos (by rfl)]
    unfold rS2Bin
    simp only [List.isEmpty_nil, if_true]
    rw [show (fun ne => (peWindow x mu sigma a b).rNe U S (peBase d) ne p) = fun ne => (peWindow x mu sigma n m).rNe U S (peBase d) ne p from rfl,
      hsp, Outcome.bind_ok, show (peWindow x mu sigma a b).peThreshold = a from rfl, show (peWindow x mu sigma a b).peMax = b from rfl,
      sumOver_ok (g := g), Outcome.bind_ok]
    · have : ((List.range' a (b + 1 - a)).map g).sum = ∑ k ∈ Finset.Icc a b, g k := by
        rw [← List.sum_toFinset _ List.nodup_range']
        congr 1
        ext k
        simp only [List.mem_toFinset, List.mem_range'_1, Finset.mem_Icc]
        omega
      rw [this]
      rfl
    · intro k hk
      rw [List.mem_range'_1] at hk
      have k1 : n ≤ k := by omega
      have k2 : k ≤ m := by omega
      rw [show (peWindow x mu sigma a b).peEfficiency k = (peWindow x mu sigma n m).peEfficiency k from rfl, e1 k k1 k2, Outcome.bind_ok,
        show (peWindow x mu sigma a b).rS2 U S (peBase d) k p sp = (peWindow x mu sigma n m).rS2 U S (peBase d) k p sp from rfl, e2 k k1 k2, Outcome.bind_ok, hg k k1 k2]
  refine ⟨_, _, total n' m' hn hm, total n m le_rfl le_rfl, mul_le_mul_of_nonneg_left ?_ he⟩
  refine Finset.sum_le_sum_of_subset_of_nonneg (Finset.Icc_subset_Icc hn hm) fun k hk _ => ?_
  rw [Finset.mem_Icc] at hk
  rw [hg k hk.1 hk.2]
  exact mul_nonneg (e3 _ _ _) (e4 _ _ _)

/-- C91 (deposited energy). A higher energy threshold does not predict more events in an ionization detector, for exact quadrature. -/
theorem C91_ionization_energy (hT : T.integrate.Exact) (hx : x.usingElectronThreshold = false) (hl : x.fractions.length = x.atoms.length)
    (hfr : ∀ f ∈ x.fractions, 0 ≤ f) (hex : 0 ≤ d.exposure) {a a' b b' : ℝ} (ha : 0 ≤ a) (haa : a ≤ a') {d₁ d₂ : Detector}
    (h1 : d.useEnergyThreshold a b = .ok d₁) (h2 : d.useEnergyThreshold a' b' = .ok d₂) (hS : NonnegShells S d₁ p x)
    (hd : ∀ E n e, S d₂ E p n e = S d₁ E p n e)
    (hi : ∀ at' ∈ x.atoms, ∀ e ∈ at'.electrons, ∀ E, IntervalIntegrable (fun E => (S d₁ E p at'.nucleus e).valueOr0) volume a E) :
    NotMore (x.signalsTotal U S T d₂ p h) (x.signalsTotal U S T d₁ p h) := by
  refine ⟨_, _, C38_ionization_energy_threshold_partial hx hl h2, C38_ionization_energy_threshold_partial hx hl h1, Finset.sum_le_sum fun i _ => ?_⟩
  refine List.sum_le_sum fun e hee => ?_
  have hnn : ∀ E, a < E → 0 ≤ d.exposure * (S d₁ E p x.atoms[i].nucleus e).valueOr0 := by
    intro E hE
    refine mul_nonneg hex ?_
    obtain ⟨r, e1, e2⟩ := hS _ (List.getElem_mem i.2) e hee E (lt_of_le_of_lt ha hE)
    have : S d₁ E p x.atoms[i].nucleus e = .ok r := e1
    rw [this]
    exact e2
  simp only [hd, hT _ _ _]
  split_ifs with c1 c2 c2
  · refine mul_le_mul_of_nonneg_left ?_ (getD_nonneg hfr _)
    exact integral_part_le haa c1.le le_rfl ((hi _ (List.getElem_mem i.2) e hee _).const_mul _) fun E hE _ => hnn E hE
  · exact absurd (lt_of_le_of_lt haa c1) c2
  · refine mul_nonneg (getD_nonneg hfr _) ?_
    rw [intervalIntegral.integral_of_le c2.le]
    exact setIntegral_nonneg measurableSet_Ioc fun E hE => hnn E hE.1
  · exact le_rfl

end IonizationDetector

namespace CrystalDetector

variable {cd : CrystalDetector}

/-- C91 (crystals, electron-hole pairs). Asking for more electron-hole pairs does not predict more events. -/
theorem C91_crystal_pairs (hc : BuiltCrystal U cd.crystal) (hb : d.usingEnergyThreshold = false) {Q Q' : ℕ} (h1 : 1 ≤ Q) (hQ : Q ≤ Q') (h2 : Q' ≤ 50000000)
    (hex : 0 ≤ d.exposure) (hfl : 0 ≤ d.flatEfficiency)
    (hr : ∀ j < cd.crystal.nE, ∃ r, dRdEeCrystal U T.integrate (gridEnergy cd.crystal j) p h cd.crystal = .ok r ∧ 0 ≤ r) :
    NotMore ((useQThreshold d cd Q').2.signalsTotal U T (useQThreshold d cd Q').1 p h)
      ((useQThreshold d cd Q).2.signalsTotal U T (useQThreshold d cd Q).1 p h) := by
  classical
  have hrate : ∃ rate : ℝ → ℝ, ∀ j < cd.crystal.nE, dRdEeCrystal U T.integrate (gridEnergy cd.crystal j) p h cd.crystal = .ok (rate (gridEnergy cd.crystal j)) ∧
      0 ≤ rate (gridEnergy cd.crystal j) := by
    refine ⟨fun E => (dRdEeCrystal U T.integrate E p h cd.crystal).valueOr0, fun j hj => ?_⟩
    obtain ⟨r, e1, e2⟩ := hr j hj
    simp only [e1]
    exact ⟨rfl, e2⟩
  obtain ⟨rate, hrate⟩ := hrate
  have hd := (CrystalFacts.of_built hc).dE_pos
  have e1 := (C44_contents (I := T.integrate) (p := p) (h := h) hc (by omega : 1 ≤ Q) (by omega) fun j hj => (hrate j hj).1).2
  have e2 := (C44_contents (I := T.integrate) (p := p) (h := h) hc (by omega : 1 ≤ Q') h2 fun j hj => (hrate j hj).1).2
  refine ⟨_, _, by rw [C38_crystal_q_threshold_partial hb (by omega), e2, Outcome.bind_ok], by rw [C38_crystal_q_threshold_partial hb (by omega), e1, Outcome.bind_ok],
    mul_le_mul_of_nonneg_left ?_ (mul_nonneg hex hfl)⟩
  unfold gridSum
  refine Finset.sum_le_sum_of_subset_of_nonneg (fun j hj => ?_) fun j hj _ => ?_
  · rw [Finset.mem_filter] at hj ⊢
    obtain ⟨n, hn, hle⟩ := hj.2
    exact ⟨hj.1, n, hn, hQ.trans hle⟩
  · rw [Finset.mem_filter, Finset.mem_range] at hj
    exact mul_nonneg hd.le (hrate j hj.1).2

/-- C91 (crystals, deposited energy). An energy window inside another one does not predict more events, for exact quadrature. -/
theorem C91_crystal_energy (hT : T.integrate.Exact) (hex : 0 ≤ d.exposure) {a a' b b' : ℝ} (haa : a ≤ a') (hbb : b' ≤ b) {d₁ d₂ : Detector}
    (h1 : d.useEnergyThreshold a b = .ok d₁) (h2 : d.useEnergyThreshold a' b' = .ok d₂)
    (h0 : ∀ E, a < E → E ≤ b → 0 ≤ ((cd.toClass U T h).dRdE d₁ E p))
    (hi : IntervalIntegrable (fun E => (cd.toClass U T h).dRdE d₁ E p) volume a b) :
    NotMore (cd.signalsTotal U T d₂ p h) (cd.signalsTotal U T d₁ p h) := by
  unfold Detector.useEnergyThreshold at h1 h2
  dsimp only at h1 h2
  split_ifs at h1 h2 with c1 c2
  cases h1
  cases h2
  unfold signalsTotal
  rw [if_neg (by simp [Detector.initializePoisson]), if_pos (.inl rfl), if_neg (by simp [Detector.initializePoisson]), if_pos (.inl rfl), hT, hT]
  refine ⟨_, _, rfl, rfl, mul_le_mul_of_nonneg_left ?_ hex⟩
  exact integral_part_le haa (not_lt.1 (by assumption)) hbb hi h0

/-- A silicon crystal, a constructed particle and a halo: two or three electron-hole pairs. -/
example (hT : T.integrate.Exact) : ∃ (cd : CrystalDetector) (p : DMParticle), BuiltCrystal Units.sample cd.crystal ∧ Reachable Units.sample p ∧
    NotMore ((useQThreshold (Detector.make "Si" 1 "Electrons") cd 3).2.signalsTotal Units.sample T (useQThreshold (Detector.make "Si" 1 "Electrons") cd 3).1 p sampleHalo)
      ((useQThreshold (Detector.make "Si" 1 "Electrons") cd 2).2.signalsTotal Units.sample T (useQThreshold (Detector.make "Si" 1 "Electrons") cd 2).1 p sampleHalo) := by
  obtain ⟨c, hc, _, hint⟩ := builtCrystal_exists Units.sample
  obtain ⟨x, hx0, hx, hmk, _⟩ := makeSI_eq (U := Units.sample) (m := 1) (s := 1) one_pos zero_le_one
  have hf := CrystalFacts.of_built hc
  refine ⟨{ crystal := c, usingQThreshold := none, usingQBins := none, qThreshold := none }, _, hc, ⟨_, [], makeSI_built one_pos hmk, by simp, rfl⟩,
    C91_crystal_pairs hc rfl (by norm_num) (by norm_num) (by norm_num) zero_le_one zero_le_one fun j _ => ?_⟩
  have hdE := hf.dE_pos
  refine C68_crystal hT hc one_pos (by unfold gridEnergy; positivity) zero_le_one (fun q v => ?_) (fun hn => absurd ⟨rfl, rfl⟩ hn)
    fun _ _ v _ hv => ⟨_, rfl, by have : v ≤ 1 := hv; rw [if_pos this]; linarith⟩
  unfold DMParticle.d2SigmaCrystal
  by_cases hq : q < c.dq
  · unfold Crystal.formFactor
    simp [hq, DMParticle.standard]
  · have hq0 : 0 < q := lt_of_lt_of_le hf.dq_pos (not_lt.1 hq)
    have hff : 0 ≤ c.formFactor q (gridEnergy c j) := by
      unfold Crystal.formFactor
      split_ifs
      · exact le_rfl
      · rw [hint]; exact zero_le_one
    have h1 := reducedMass_pos (one_pos) Units.sample.mElectron_pos
    have h2 := Units.sample.cm_pos
    have h3 := Units.sample.aEM_pos
    have h4 := Units.sample.mElectron_pos
    simp only [DMParticle.standard, DMParticle.dSigmadq2Electron, DMParticle.formFactor2]
    positivity

end CrystalDetector

namespace NuclearDetector

variable {nd : NuclearDetector}

/-- C91 (nuclear recoils). An energy window inside another one does not predict more events, for a detector without finite resolution, if the
interpolation of the spectrum by 200 points is exact in both windows. -/
theorem C91_nuclear_partial (hres : nd.resolution < 1 / 10 ^ 6 * U.eV) (hex : 0 ≤ d.exposure) {a a' b b' : ℝ} (ha : 0 < a) (haa : a ≤ a') (hbb : b' ≤ b)
    {d₁ d₂ : Detector} (h1 : d.useEnergyThreshold a b = .ok d₁) (h2 : d.useEnergyThreshold a' b' = .ok d₂)
    (hT : ∀ a b, T.interpolationIntegral (logSpace a b 200) ((logSpace a b 200).map fun E => (nd.toClass U T h).dRdE d₁ E p) a b =
      ∫ E in a..b, (nd.toClass U T h).dRdE d₁ E p)
    (h0 : ∀ E, a < E → E ≤ b → 0 ≤ ((nd.toClass U T h).dRdE d₁ E p))
    (hi : IntervalIntegrable (fun E => (nd.toClass U T h).dRdE d₁ E p) volume a b) :
    NotMore ((nd.toClass U T h).signalsTotal d₂ p) ((nd.toClass U T h).signalsTotal d₁ p) := by
  have hd : ∀ E, (nd.toClass U T h).dRdE d₂ E p = (nd.toClass U T h).dRdE d₁ E p := by
    intro E
    unfold Detector.useEnergyThreshold at h1 h2
    dsimp only at h1 h2
    split_ifs at h1 h2
    cases h1
    cases h2
    change (NuclearDetector.dRdE U _ nd _ E p h).valueOr0 = (NuclearDetector.dRdE U _ nd _ E p h).valueOr0
    unfold NuclearDetector.dRdE
    rw [if_pos hres, if_pos hres]
    rfl
  have total : ∀ {e : Detector} {x y : ℝ}, 0 < x → d.useEnergyThreshold x y = .ok e → (∀ E, (nd.toClass U T h).dRdE e E p = (nd.toClass U T h).dRdE d₁ E p) →
      x ≤ y ∧ (nd.toClass U T h).signalsTotal e p = .ok (d.exposure * ∫ E in x..y, (nd.toClass U T h).dRdE d₁ E p) := by
    intro e x y hx hu he
    unfold Detector.useEnergyThreshold at hu
    dsimp only at hu
    split_ifs at hu with c
    cases hu
    refine ⟨not_lt.1 c, ?_⟩
    unfold toClass DetectorClass.base Detector.baseSignalsTotal
    dsimp only
    rw [if_neg (by simp [Detector.initializePoisson]), if_neg (by
      rintro (h | h)
      · exact absurd hx (not_lt.2 h)
      · exact absurd (lt_of_lt_of_le hx (not_lt.1 c)) (not_lt.2 h))]
    refine congrArg Outcome.ok (congrArg (d.exposure * ·) ((congrArg (fun l => T.interpolationIntegral (logSpace x y 200) l x y)
      (List.map_congr_left fun E _ => he E)).trans (hT x y)))
  obtain ⟨_, e1⟩ := total ha h1 fun _ => rfl
  obtain ⟨g2, e2⟩ := total (lt_of_lt_of_le ha haa) h2 hd
  exact ⟨_, _, e2, e1, mul_le_mul_of_nonneg_left (integral_part_le haa g2 hbb hi h0) hex⟩

/-- Any detector with a spectrum that can be integrated has exact interpolations; the two windows are accepted. -/
example : ∃ (T : Tools) (d₁ d₂ : Detector), (Detector.make "H" 1 "Nuclei").useEnergyThreshold 1 3 = .ok d₁ ∧
    (Detector.make "H" 1 "Nuclei").useEnergyThreshold 1.5 2 = .ok d₂ ∧
    (∀ a b, T.interpolationIntegral (logSpace a b 200) ((logSpace a b 200).map fun E => (nd.toClass U T h).dRdE d₁ E p) a b =
      ∫ E in a..b, (nd.toClass U T h).dRdE d₁ E p) := by
  classical
  obtain ⟨d₁, h1⟩ : ∃ d₁, (Detector.make "H" 1 "Nuclei").useEnergyThreshold 1 3 = .ok d₁ := ⟨_, by unfold Detector.useEnergyThreshold; rw [if_neg (by norm_num)]⟩
  let T : Tools := { flatTools with interpolationIntegral := fun _ _ a b => ∫ E in a..b, (nd.toClass U flatTools h).dRdE d₁ E p }
  exact ⟨T, d₁, _, h1, by unfold Detector.useEnergyThreshold; rw [if_neg (by norm_num)], fun a b => rfl⟩

end NuclearDetector

end Obscura
