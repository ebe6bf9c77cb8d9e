import Verif.Props.Ionization

/-!
# Properties C42, C46, C50, C63, C64, C67 and C68 for ionization detectors
-/

namespace Obscura

open Spec MeasureTheory

variable {U : Units} {I : Integrator} {S : ShellRate} {T : Tools} {p : DMParticle} {h : Distribution} {e : AtomicElectron} {a : Atom}

/-! ## C42 — both ways to compute the rate -/

/-- C42 (electron recoils): the rate of a shell is the textbook integral over speeds and momentum transfers, no matter whether it is
computed with the eta function or by integrating the flux. -/
theorem C42_electron_recoil (hI : I.Exact) {d : Detector} {n : Nucleus} (hm : 0 < p.mass) (hv : 0 < h.vMax) (hB : 0 < e.binding)
    {E lo hi : ℝ} (hE : 0 < E) (hlo : IsLeast {q | CanTransfer p.mass h.vMax q e.binding} lo)
    (hhi : IsGreatest {q | CanTransfer p.mass h.vMax q e.binding} hi) (htab : lo ≤ e.qMax)
    (heta : p.useEtaFunction = true → h.useEta = true → ∀ v, 0 < v → v ≤ h.vMax → EtaAt h v) :
    shellRateER U I h d E p n e = .ok (d.flatEfficiency * ionizationRate U p h n.averageMass e lo (min hi e.qMax) E) := by
  obtain ⟨_, _, _, hlo0, _⟩ := qMinER_eq hm hv hB hlo hhi
  unfold shellRateER
  rw [dRdEeER_eq hI hm hv hB hlo hhi htab fun h1 h2 q hq _ hle => heta h1 h2 _ ?_ hle, Outcome.bind_ok]
  have : 0 < q := hlo0.trans_le hq
  unfold vMinimalElectrons
  positivity

/-- C42 (electron recoils, closed shell): if no momentum transfer gives the binding energy, or none of the tabulated ones, there is no
rate. -/
theorem C42_electron_recoil_closed {d : Detector} {n : Nucleus} (hm : 0 < p.mass) (hv : 0 < h.vMax) (hB : 0 < e.binding) {E : ℝ} :
    ((∀ q, ¬ CanTransfer p.mass h.vMax q e.binding) → shellRateER U I h d E p n e = .ok 0) ∧
    (∀ lo hi, IsLeast {q | CanTransfer p.mass h.vMax q e.binding} lo → IsGreatest {q | CanTransfer p.mass h.vMax q e.binding} hi →
      e.qMax < lo → shellRateER U I h d E p n e = .ok 0) := by
  unfold shellRateER dRdEeER
  dsimp only
  constructor
  · intro hc
    rw [if_pos ((closed_iff hm).2 hc), Outcome.bind_ok, mul_zero]
  · intro lo hi hlo hhi htab
    obtain ⟨ho, e1, _⟩ := qMinER_eq hm hv hB hlo hhi
    rw [if_neg ho, e1, if_pos htab, Outcome.bind_ok, mul_zero]

/-- C42 (Migdal): the rate of a shell is the abundance weighted sum over isotopes of the textbook integral over recoil energies and
speeds, with either method. -/
theorem C42_migdal (hI : I.Exact) {d : Detector} {n : Nucleus} {E : ℝ} (hm : 0 < p.mass) (hM : ∀ iso ∈ n.isotopes, 0 < iso.mass)
    (hv : 0 < h.vMax) (hB : 0 < e.binding) (hE : 0 < E)
    (heta : p.useEtaFunction = true → h.useEta = true → ∀ v, 0 < v → v ≤ h.vMax → EtaAt h v) :
    shellRateMigdal U I h d E p n e =
      .ok (d.flatEfficiency * (n.isotopes.map fun iso => iso.abundance * migdalRate U p h iso e E).sum) := by
  unfold shellRateMigdal dRdEeMigdal
  rw [← List.foldl_map (f := fun iso : Isotope => iso.abundance * dRdEeMigdalIsotope U I E p h iso e), foldl_add_eq_sum]
  congr 3
  refine List.map_congr_left fun iso hiso => ?_
  have hM := hM iso hiso
  rw [dRdEeMigdalIsotope_eq hI hm hM hv hB hE.le fun h1 h2 ER hER hle => heta h1 h2 _ ?_ hle]
  rw [vMinimalMigdal_eq hm hM hER]
  unfold vMinimalElectrons
  have : 0 < Real.sqrt (2 * iso.mass * ER) := Real.sqrt_pos.2 (by positivity)
  positivity

/-- C42 (functions for whole atoms): the sum over the shells. -/
theorem C42_atoms {E : ℝ} {r : AtomicElectron → ℝ} (hr : ∀ e ∈ a.electrons, dRdEeER U I E p h a.nucleus.averageMass e = .ok (r e)) :
    dRdEeERAtom U I E p h a = .ok (a.electrons.map r).sum ∧
    dRdEeMigdalAtom U I E p h a = (a.electrons.map fun e => dRdEeMigdal U I E p h a.nucleus e).sum := by
  constructor
  · exact sumOver_ok hr
  · unfold dRdEeMigdalAtom
    rw [← List.foldl_map (f := fun e => dRdEeMigdal U I E p h a.nucleus e), foldl_add_eq_sum]

/-! ## C46 — the DM fraction -/

/-- C46 fails for ionization by electron recoils and by the Migdal effect: no rate depends on the fractional density. -/
theorem C46_fails_ionization (f E : ℝ) (d : Detector) (p : DMParticle) (n : Nucleus) (e : AtomicElectron) :
    shellRateER U I h d E (p.setFractionalDensity f) n e = shellRateER U I h d E p n e ∧
    shellRateMigdal U I h d E (p.setFractionalDensity f) n e = shellRateMigdal U I h d E p n e := ⟨rfl, rfl⟩

/-! ## C68 — signs -/

theorem d2SigmaIonization_nonneg (hs : 0 ≤ p.sigmaElectron) (hF : ∀ q E, 0 ≤ e.ionizationFormFactor U q E) {E : ℝ} (hE : 0 ≤ E) (q v : ℝ) :
    0 ≤ p.d2SigmaIonization U q E v e := by
  unfold DMParticle.d2SigmaIonization
  split
  · have h1 := (C09_dsigma_nonneg (U := U) (p := p) (iso := ⟨1, 1, 1, 0, 0, 0, 1⟩) (q := q) (v := v) le_rfl).2 hs
    have h2 := hF q E
    positivity
  · exact le_rfl

theorem d2SigmaMigdal_nonneg {iso : Isotope} (hs : PhysicalIsotope iso) (hF : ∀ q E, 0 ≤ e.ionizationFormFactor U q E) {E : ℝ} (hE : 0 ≤ E)
    (ER v : ℝ) : 0 ≤ migdalCrossSection U p iso e ER E v := by
  unfold migdalCrossSection DMParticle.dSigmadERNucleus
  have h1 := (C09_dsigma_nonneg (U := U) (p := p) (iso := iso) (q := Real.sqrt (2 * iso.mass * ER)) (v := v) hs.2.1).1
  have h2 := hF (U.mElectron / iso.mass * Real.sqrt (2 * iso.mass * ER)) E
  have h3 := hs.1
  positivity

theorem speed_integral_nonneg {m q B : ℝ} (hq : 0 < q) (hm : 0 < m) (hB : 0 < B) (hpdf : ∀ v, 0 ≤ v → 0 ≤ h.pdfSpeed v) {cs : ℝ → ℝ}
    (hcs : ∀ v, 0 ≤ cs v) : 0 ≤ ∫ v in {v : ℝ | v ≤ h.vMax ∧ CanTransfer m v q B}, v * h.pdfSpeed v * cs v := by
  rw [canTransfer_set hq hm]
  refine setIntegral_nonneg measurableSet_Icc fun v hv => ?_
  have hv : 0 ≤ v := le_trans (by unfold vMinimalElectrons; positivity) hv.1
  have h1 := hpdf v hv
  have h2 := hcs v
  positivity

/-- C68 (electron recoils): the rate of a shell is defined and not negative. -/
theorem C68_electron_recoil (hI : I.Exact) {d : Detector} {n : Nucleus} (hm : 0 < p.mass) (hv : 0 < h.vMax) (hB : 0 < e.binding)
    (hM : 0 < n.averageMass) {E : ℝ} (hE : 0 < E) (hs : 0 ≤ p.sigmaElectron)
    (hF : ∀ q E, 0 ≤ e.ionizationFormFactor U q E) (hdens : 0 ≤ h.density) (hpdf : ∀ v, 0 ≤ v → 0 ≤ h.pdfSpeed v)
    (hflat : 0 ≤ d.flatEfficiency)
    (heta : p.useEtaFunction = true → h.useEta = true → ∀ v, 0 < v → v ≤ h.vMax → EtaAt h v) :
    ∃ r, shellRateER U I h d E p n e = .ok r ∧ 0 ≤ r := by
  by_cases ho : energeticallyClosed p.mass h.vMax e.binding
  · exact ⟨0, (C42_electron_recoil_closed hm hv hB).1 ((closed_iff hm).1 ho), le_rfl⟩
  have hset : {q | CanTransfer p.mass h.vMax q e.binding} = Set.Icc (qMinER p.mass h.vMax e.binding) (qMaxER p.mass h.vMax e.binding) := by
    ext q; exact reachable_momenta hm hv hB ho q
  have hle : qMinER p.mass h.vMax e.binding ≤ qMaxER p.mass h.vMax e.binding := by
    unfold qMinER qMaxER
    have := Real.sqrt_nonneg (p.mass * p.mass * h.vMax * h.vMax - 2 * p.mass * e.binding)
    linarith
  have hlo : IsLeast {q | CanTransfer p.mass h.vMax q e.binding} (qMinER p.mass h.vMax e.binding) := by
    rw [hset]; exact isLeast_Icc hle
  have hhi : IsGreatest {q | CanTransfer p.mass h.vMax q e.binding} (qMaxER p.mass h.vMax e.binding) := by
    rw [hset]; exact isGreatest_Icc hle
  obtain ⟨_, _, _, hlo0, _⟩ := qMinER_eq hm hv hB hlo hhi
  by_cases htab : e.qMax < qMinER p.mass h.vMax e.binding
  · exact ⟨0, (C42_electron_recoil_closed hm hv hB).2 _ _ hlo hhi htab, le_rfl⟩
  refine ⟨_, C42_electron_recoil hI hm hv hB hE hlo hhi (not_lt.1 htab) heta, mul_nonneg hflat ?_⟩
  have hmin : qMinER p.mass h.vMax e.binding ≤ min (qMaxER p.mass h.vMax e.binding) e.qMax := le_min hle (not_lt.1 htab)
  unfold ionizationRate
  refine mul_nonneg (by positivity) (Finset.sum_nonneg fun i _ => mul_nonneg (mul_nonneg (by positivity) ?_) ?_)
  · exact div_nonneg (Real.log_nonneg ((one_le_div hlo0).2 hmin)) (by norm_num)
  · refine speed_integral_nonneg (by have := hlo0.trans_le hmin; positivity) hm (by positivity) hpdf fun v => ?_
    rw [ionization_eq]
    exact d2SigmaIonization_nonneg hs hF hE.le _ _

/-- C68 (Migdal): the rate of a shell is defined and not negative. -/
theorem C68_migdal (hI : I.Exact) {d : Detector} {n : Nucleus} (hm : 0 < p.mass) (hv : 0 < h.vMax) (hB : 0 < e.binding)
    (hM : ∀ iso ∈ n.isotopes, PhysicalIsotope iso) {E : ℝ} (hE : 0 < E)
    (hF : ∀ q E, 0 ≤ e.ionizationFormFactor U q E) (hdens : 0 ≤ h.density) (hpdf : ∀ v, 0 ≤ v → 0 ≤ h.pdfSpeed v)
    (hflat : 0 ≤ d.flatEfficiency)
    (heta : p.useEtaFunction = true → h.useEta = true → ∀ v, 0 < v → v ≤ h.vMax → EtaAt h v) :
    ∃ r, shellRateMigdal U I h d E p n e = .ok r ∧ 0 ≤ r := by
  refine ⟨_, C42_migdal hI hm (fun iso hiso => (hM iso hiso).1) hv hB hE heta, mul_nonneg hflat (List.sum_nonneg fun x hx => ?_)⟩
  obtain ⟨iso, hiso, rfl⟩ := List.mem_map.1 hx
  have h1 := hM iso hiso
  have h2 := h1.1
  refine mul_nonneg h1.2.2 ?_
  unfold migdalRate
  refine mul_nonneg (by positivity) (setIntegral_nonneg measurableSet_Ioi fun ER hER => ?_)
  have hER : 0 < ER := hER
  exact speed_integral_nonneg (Real.sqrt_pos.2 (by positivity)) (by positivity) (by positivity) hpdf
    fun v => d2SigmaMigdal_nonneg h1 hF hE.le _ _

theorem sumOver_nonneg {α : Type} {f : α → Outcome ℝ} {l : List α} (hf : ∀ y ∈ l, ∃ r, f y = .ok r ∧ 0 ≤ r) :
    ∃ r, sumOver f l = .ok r ∧ 0 ≤ r ∧ ((∃ y ∈ l, ∃ r, f y = .ok r ∧ 0 < r) → 0 < r) := by
  induction l with
  | nil => exact ⟨0, rfl, le_rfl, by simp⟩
  | cons y l ih =>
    obtain ⟨r, h1, h2⟩ := hf y (by simp)
    obtain ⟨s, h3, h4, h5⟩ := ih fun z hz => hf z (by simp [hz])
    refine ⟨r + s, ?_, by linarith, ?_⟩
    · unfold sumOver at h3 ⊢
      obtain ⟨xs, h6, h7⟩ := Outcome.bind_eq_ok.1 h3
      rw [collect, h1, h6]
      simp only [Outcome.bind_ok]
      rw [foldl_add_eq_sum, List.sum_cons]
      rw [foldl_add_eq_sum] at h7
      cases h7; rfl
    · rintro ⟨z, hz, r', h6, h7⟩
      rcases List.mem_cons.1 hz with rfl | hz
      · rw [h1] at h6; cases h6; linarith
      · have := h5 ⟨z, hz, r', h6, h7⟩; linarith

/-- Tabulated momenta of the shells of constructed atoms. -/
theorem kGrid_bounds (ha : BuiltAtom U a) (he : e ∈ a.electrons) {k : ℝ} (hk : k ∈ e.kGrid) : 0 < k ∧ k ≤ 500 * U.keV := by
  have hkv := U.keV_pos
  obtain ⟨h1, _⟩ := atom_electrons ha
  obtain ⟨⟨P, t, el, N, L, B, k0, k1, q0, q1, s, h2, h3, _, _, hm⟩, _⟩ := h1 e he
  obtain ⟨_, _, _, _, _, _, _, _, _, _, e1, e2, _, _, nk, nq, _, _, hnk, _, e3, _, _, _⟩ := AtomicElectron.make_eq hm
  have hkm : e.kMax ≤ 500 * U.keV := by
    rcases atom_momenta ha with ⟨_, h⟩ | ⟨_, h⟩
    · exact (h e he).le
    · rw [h e he]; linarith
  rw [e3] at hk
  rw [e2] at hkm
  refine ⟨logSpace_pos h2 (h2.trans h3) hk, ?_⟩
  obtain ⟨i, hi⟩ := List.getElem?_of_mem hk
  have hlt : i < nk := by
    have := List.getElem?_eq_some_iff.1 hi
    obtain ⟨h4, _⟩ := this
    rwa [logSpace_length] at h4
  exact (logSpace_le h2 h3 (by omega) hi).2.1.trans hkm

theorem grid_weight_pos (hb : BuiltShell e) {k : ℝ} (hk : k ∈ e.kGrid) : 0 < Real.log (e.kMax / e.kMin) / ((e.kGrid.length : ℝ) - 1) := by
  obtain ⟨P, t, el, N, L, B, k0, k1, q0, q1, s, h2, h3, _, _, hm⟩ := hb
  obtain ⟨_, _, _, _, _, _, _, _, _, _, e1, e2, _, _, nk, nq, _, _, hnk, _, e3, _, _, _⟩ := AtomicElectron.make_eq hm
  rw [e3] at hk ⊢
  rw [e1, e2, logSpace_length]
  have h4 := List.length_pos_of_mem hk
  rw [logSpace_length] at h4
  have h5 : (2 : ℝ) ≤ nk := by exact_mod_cast (show 2 ≤ nk by omega)
  exact div_pos (Real.log_pos ((one_lt_div h2).2 h3)) (by linarith)

/-- The number of electrons is never too large for an `unsigned int`. -/
theorem kGrid_electrons (hU : U.keV ≤ U.mElectron) (ha : BuiltAtom U a) (he : e ∈ a.electrons) {k : ℝ} (hk : k ∈ e.kGrid) :
    (e.secondaries : ℝ) + k ^ 2 / (2 * U.mElectron) / a.W < 10 ^ 7 := by
  obtain ⟨h1, h2⟩ := kGrid_bounds ha he hk
  obtain ⟨_, _, _, _, hW, _, hall⟩ := atom_bindings ha
  have hsec : (e.secondaries : ℝ) ≤ 6 := by exact_mod_cast (hall e he).2.2.1
  have hev := U.eV_pos
  have hme := U.mElectron_pos
  have hkeV : U.keV = 1000 * U.eV := rfl
  have hW' : 13.8 * U.eV ≤ a.W := by
    rcases atom_momenta ha with ⟨h, _⟩ | ⟨h, _⟩ <;> linarith
  have : k ^ 2 / (2 * U.mElectron) / a.W ≤ 250000000 / 27.6 := by
    rw [div_div, div_le_div_iff₀ (by positivity) (by norm_num)]
    have h3 : k ^ 2 ≤ 250000 * U.keV ^ 2 := by nlinarith
    have h4 : U.keV ^ 2 ≤ U.mElectron * (1000 * U.eV) := by rw [sq]; nlinarith
    have h5 : U.mElectron * (13.8 * U.eV) ≤ U.mElectron * a.W := by nlinarith
    nlinarith
  have : (250000000 : ℝ) / 27.6 < 10 ^ 7 - 6 := by norm_num
  linarith

namespace IonizationDetector

variable {d d' : Detector} {x x' : IonizationDetector}

/-- The rates of all shells are defined and not negative, as `C68_electron_recoil` and `C68_migdal` show for the two classes. -/
def NonnegShells (S : ShellRate) (d : Detector) (p : DMParticle) (x : IonizationDetector) : Prop :=
  ∀ a ∈ x.atoms, ∀ e ∈ a.electrons, ∀ E, 0 < E → ∃ r, S d E p a.nucleus e = .ok r ∧ 0 ≤ r

/-- C68 (energy spectrum). -/
theorem C68_dRdE (hl : x.fractions.length = x.atoms.length) (hfr : ∀ f ∈ x.fractions, 0 ≤ f) (hS : NonnegShells S d p x) {E : ℝ}
    (hE : 0 < E) : ∃ r, x.dRdE S d E p = .ok r ∧ 0 ≤ r := by
  obtain ⟨r, h1, h2, _⟩ := sumOver_nonneg (f := fun i => do
    let a ← vecGet x.atoms i
    let f ← vecGet x.fractions i
    let r ← dRdEAtom S d E p a
    .ok (f * r)) (l := List.range x.atoms.length) fun i hi => by
      have hi := List.mem_range.1 hi
      obtain ⟨r, h1, h2, _⟩ := sumOver_nonneg (f := fun e => S d E p x.atoms[i].nucleus e) (l := x.atoms[i].electrons)
        fun e he => hS _ (List.getElem_mem hi) e he E hE
      have hi' : i < x.fractions.length := by omega
      rw [vecGet_lt hi, Outcome.bind_ok, vecGet_lt hi', Outcome.bind_ok]
      unfold dRdEAtom
      rw [h1, Outcome.bind_ok]
      exact ⟨_, rfl, mul_nonneg (hfr _ (List.getElem_mem hi')) h2⟩
  exact ⟨r, h1, h2⟩

/-- C68 (electron spectrum): `R_ne` is defined and not negative for every number of electrons. -/
theorem C68_spectrum (hU : U.keV ≤ U.mElectron) (hl : x.fractions.length = x.atoms.length) (hfr : ∀ f ∈ x.fractions, 0 ≤ f)
    (ha : ∀ a ∈ x.atoms, BuiltAtom U a) (hS : NonnegShells S d p x) {ne : ℕ} (hne : ne < 2 ^ 32) :
    ∃ r, x.rNe U S d ne p = .ok r ∧ 0 ≤ r := by
  have hme := U.mElectron_pos
  obtain ⟨r, h1, h2, _⟩ := sumOver_nonneg (f := fun i => do
    let a ← vecGet x.atoms i
    let f ← vecGet x.fractions i
    let r ← rNeAtom U S d ne p a
    .ok (f * r)) (l := List.range x.atoms.length) fun i hi => by
      have hi := List.mem_range.1 hi
      have hai := ha _ (List.getElem_mem hi)
      have hW : 0 < x.atoms[i].W := (atom_bindings hai).choose_spec.2.2.2.1
      obtain ⟨r, h1, h2, _⟩ := sumOver_nonneg (f := fun e => rNeShell U S d ne p x.atoms[i].W x.atoms[i].nucleus e)
        (l := x.atoms[i].electrons) fun e he => by
          have hsh : ∀ E, ∃ r, 0 < E → S d E p x.atoms[i].nucleus e = .ok r ∧ 0 ≤ r := fun E => by
            by_cases hE : 0 < E
            · obtain ⟨r, hr⟩ := hS _ (List.getElem_mem hi) e he E hE; exact ⟨r, fun _ => hr⟩
            · exact ⟨0, fun h => absurd h hE⟩
          choose g hg using hsh
          have hb := ((atom_electrons hai).1 e he).1
          refine ⟨_, rNeShell_eq (g := g) hb hW hne (fun k hk => ?_) (fun k hk => (hg _ ?_).1), ?_⟩
          · have := kGrid_electrons hU hai he hk; linarith
          · have := (kGrid_bounds hai he hk).1; positivity
          · unfold spectrumSum
            refine List.sum_nonneg fun y hy => ?_
            obtain ⟨k, hk, rfl⟩ := List.mem_map.1 hy
            have hk0 := (kGrid_bounds hai he hk).1
            have h3 := (hg (k ^ 2 / (2 * U.mElectron)) (by positivity)).2
            have h4 := releaseProbability_nonneg (extraElectrons e x.atoms[i].W (k ^ 2 / (2 * U.mElectron))) ne
            have h5 := grid_weight_pos hb hk
            positivity
      have hi' : i < x.fractions.length := by omega
      rw [vecGet_lt hi, Outcome.bind_ok, vecGet_lt hi', Outcome.bind_ok]
      unfold rNeAtom
      rw [h1, Outcome.bind_ok]
      exact ⟨_, rfl, mul_nonneg (hfr _ (List.getElem_mem hi')) h2⟩
  exact ⟨r, h1, h2⟩

/-- C68 (electron threshold): the total signal is not negative. -/
theorem C68_electron_threshold (hU : U.keV ≤ U.mElectron) (hl : x.fractions.length = x.atoms.length) (hfr : ∀ f ∈ x.fractions, 0 ≤ f)
    (ha : ∀ a ∈ x.atoms, BuiltAtom U a) (hex : 0 ≤ d.exposure) {n m : ℕ} (hm : m < 2 ^ 32)
    (hu : useElectronThreshold d x n m = .ok (d', x')) (hS : NonnegShells S d' p x) :
    ∃ s, x'.signalsTotal U S T d' p h = .ok s ∧ 0 ≤ s := by
  obtain ⟨h1, h2, h3⟩ := useElectronThreshold_ok hu
  have hr : ∀ ne, ∃ r, (ne < 2 ^ 32 → x'.rNe U S d' ne p = .ok r) ∧ 0 ≤ r := fun ne => by
    by_cases hne : ne < 2 ^ 32
    · obtain ⟨r, e1, e2⟩ := C68_spectrum (x := x') (S := S) (d := d') (p := p) hU (by rw [h3]; exact hl) (by rw [h3]; exact hfr)
        (by rw [h3]; exact ha) (by rw [h3]; exact hS) hne
      exact ⟨r, fun _ => e1, e2⟩
    · exact ⟨0, fun h => absurd h hne, le_rfl⟩
  choose r hr using hr
  unfold signalsTotal
  rw [if_neg (by rw [h2]; simp [Detector.initializePoisson]), if_pos (by rw [h3])]
  obtain ⟨s, e1, e2, _⟩ := sumOver_nonneg (f := fun ne => do
      let r ← x'.rNe U S d' ne p
      .ok (d'.exposure * r)) (l := List.range' x'.neThreshold (x'.neMax + 1 - x'.neThreshold)) fun ne hne => by
    obtain ⟨h4, h5⟩ := List.mem_range'_1.1 hne
    have h6 : x'.neThreshold = n := by rw [h3]
    have h7 : x'.neMax = if 0 < m ∧ n < m then m else 100 := by rw [h3]
    rw [h6, h7] at h5
    rw [h6] at h4
    have : ne < 2 ^ 32 := by split_ifs at h1 h5 <;> omega
    rw [(hr ne).1 this]
    refine ⟨_, rfl, mul_nonneg ?_ (hr ne).2⟩
    rw [h2]; exact hex
  exact ⟨s, e1, e2⟩

/-- C68 (energy threshold): the total signal is not negative. -/
theorem C68_energy_threshold (hT : T.integrate.Exact) (he : x.usingElectronThreshold = false) (hl : x.fractions.length = x.atoms.length)
    (hfr : ∀ f ∈ x.fractions, 0 ≤ f) (hex : 0 ≤ d.exposure) {b₀ b : ℝ} (hb : 0 ≤ b₀)
    (hu : d.useEnergyThreshold b₀ b = .ok d') (hS : NonnegShells S d' p x) :
    ∃ s, x.signalsTotal U S T d' p h = .ok s ∧ 0 ≤ s := by
  refine ⟨_, C38_ionization_energy_threshold_partial he hl hu, Finset.sum_nonneg fun i _ => List.sum_nonneg fun y hy => ?_⟩
  obtain ⟨e, hee, rfl⟩ := List.mem_map.1 hy
  split_ifs with h1
  · refine mul_nonneg (getD_nonneg hfr _) ?_
    rw [hT]
    rw [intervalIntegral.integral_of_le h1.le]
    refine setIntegral_nonneg measurableSet_Ioc fun E hE => mul_nonneg hex ?_
    obtain ⟨r, e1, e2⟩ := hS _ (List.getElem_mem i.2) e hee E (lt_of_le_of_lt hb hE.1)
    have : S d' E p x.atoms[i].nucleus e = .ok r := e1
    rw [this]
    exact e2
  · exact le_rfl

/-! ## C50 — the minimum mass -/

theorem energyGap_le (ha : a ∈ x.atoms) : x.energyGap ≤ a.lowestBindingEnergy := by
  unfold energyGap
  have := (foldl_min_spec (fun a : Atom => a.lowestBindingEnergy) x.atoms (10 ^ 10)).2.1 a ha
  convert this

theorem lowestW_le (ha : a ∈ x.atoms) : x.lowestW ≤ a.W := by
  unfold lowestW
  have := (foldl_min_spec (fun a : Atom => a.W) x.atoms (10 ^ 10)).2.1 a ha
  convert this

/-- The energy gap is at most the binding energy minus the energy of the secondary electrons, for every shell. -/
theorem gap_le_binding (ha : BuiltAtom U a) (hax : a ∈ x.atoms) (he : e ∈ a.electrons) :
    x.energyGap ≤ e.binding - e.secondaries * a.W ∧ x.energyGap ≤ e.binding := by
  obtain ⟨B₀, h1, _, ⟨e₀, he₀, hB⟩, hW, _, hall⟩ := atom_bindings ha
  have hev := U.eV_pos
  have h2 := lowest_le a he₀
  rw [hB, abs_of_nonneg (by linarith)] at h2
  have h3 := energyGap_le hax
  obtain ⟨h4, h5, _⟩ := hall e he
  exact ⟨by linarith, by linarith⟩

/-- The rates of all shells are defined. -/
def DefinedShells (S : ShellRate) (d : Detector) (p : DMParticle) (x : IonizationDetector) : Prop :=
  ∀ a ∈ x.atoms, ∀ e ∈ a.electrons, ∀ E, 0 < E → ∃ r, S d E p a.nucleus e = .ok r

/-- If the fastest particles cannot release `n` electrons, there are no events with `n` or more electrons. -/
theorem rNe_zero (hU : U.keV ≤ U.mElectron) (hl : x.fractions.length = x.atoms.length) (ha : ∀ a ∈ x.atoms, BuiltAtom U a)
    (hK : ∀ a ∈ x.atoms, Kinematic S h a) (hS : DefinedShells S d p x) (hm : 0 < p.mass) {n ne : ℕ} (hn : 1 ≤ n) (hne : n ≤ ne)
    (hne' : ne < 2 ^ 32) (hlow : p.mass / 2 * h.vMax ^ 2 < x.energyGap + ((n : ℝ) - 1) * x.lowestW) : x.rNe U S d ne p = .ok 0 := by
  have hme := U.mElectron_pos
  have hsum : ∀ (l : List ℝ), (∀ y ∈ l, y = 0) → l.sum = 0 := fun l hl => List.sum_eq_zero hl
  have key : x.rNe U S d ne p = .ok ((List.range x.atoms.length).map fun _ => (0 : ℝ)).sum := by
    refine sumOver_ok fun i hi => ?_
    have hi := List.mem_range.1 hi
    have hmem := List.getElem_mem hi
    have hai := ha _ hmem
    have hW : 0 < x.atoms[i].W := (atom_bindings hai).choose_spec.2.2.2.1
    have hi' : i < x.fractions.length := by omega
    rw [vecGet_lt hi, Outcome.bind_ok, vecGet_lt hi', Outcome.bind_ok]
    have hat : rNeAtom U S d ne p x.atoms[i] = .ok 0 := by
      have : rNeAtom U S d ne p x.atoms[i] = .ok (x.atoms[i].electrons.map fun _ => (0 : ℝ)).sum := by
        refine sumOver_ok fun e he => ?_
        have hsh : ∀ E, ∃ r, 0 < E → S d E p x.atoms[i].nucleus e = .ok r := fun E => by
          by_cases hE : 0 < E
          · obtain ⟨r, hr⟩ := hS _ hmem e he E hE; exact ⟨r, fun _ => hr⟩
          · exact ⟨0, fun h => absurd h hE⟩
        choose g hg using hsh
        have hb := ((atom_electrons hai).1 e he).1
        rw [rNeShell_eq (g := g) hb hW hne' (fun k hk => by have := kGrid_electrons hU hai he hk; linarith)
          (fun k hk => hg _ (by have := (kGrid_bounds hai he hk).1; positivity)), Outcome.ok.injEq]
        refine hsum _ fun y hy => ?_
        obtain ⟨k, hk, rfl⟩ := List.mem_map.1 hy
        have hk0 := (kGrid_bounds hai he hk).1
        have hE : 0 < k ^ 2 / (2 * U.mElectron) := by positivity
        by_cases hc : p.mass / 2 * h.vMax ^ 2 < e.binding + k ^ 2 / (2 * U.mElectron)
        · have h1 := hK _ hmem d _ p hm e he hc
          rw [hg _ hE] at h1
          have h1 := Outcome.ok.inj h1
          simp only
          rw [h1]
          simp
        · have h1 := (gap_le_binding hai hmem he).1
          have h2 := lowestW_le hmem
          have hn' : (1 : ℝ) ≤ n := by exact_mod_cast hn
          have h3 : k ^ 2 / (2 * U.mElectron) < ((n : ℝ) - 1 - e.secondaries) * x.atoms[i].W := by nlinarith
          have h4 : k ^ 2 / (2 * U.mElectron) / x.atoms[i].W < (n : ℝ) - 1 - e.secondaries := by rwa [div_lt_iff₀ hW]
          have h5 := Nat.floor_le (show 0 ≤ k ^ 2 / (2 * U.mElectron) / x.atoms[i].W by positivity)
          have h6 : extraElectrons e x.atoms[i].W (k ^ 2 / (2 * U.mElectron)) + 1 < ne := by
            have : ((extraElectrons e x.atoms[i].W (k ^ 2 / (2 * U.mElectron)) + 1 : ℕ) : ℝ) < n := by
              unfold extraElectrons; push_cast; linarith
            have : extraElectrons e x.atoms[i].W (k ^ 2 / (2 * U.mElectron)) + 1 < n := by exact_mod_cast this
            omega
          simp only
          rw [releaseProbability_zero h6]
          simp
      rw [this]; simp
    rw [hat]
    simp
  rw [key]; simp

/-- The kinematic contract of C50 holds for electron recoils. -/
theorem kinematic_ER (ha : BuiltAtom U a) (hv : 0 < h.vMax) : Kinematic (shellRateER U I h) h a := by
  intro d E p hm e he hlow
  obtain ⟨B₀, h1, _, _, _, _, hall⟩ := atom_bindings ha
  have hev := U.eV_pos
  have hB := (hall e he).2.1
  unfold shellRateER
  rw [dRdEeER_zero hm hv (by linarith) hlow]
  simp

/-- The kinematic contract of C50 holds for the Migdal effect. -/
theorem kinematic_Migdal (hI : I.Exact) (hM : ∀ iso ∈ a.nucleus.isotopes, 0 < iso.mass) : Kinematic (shellRateMigdal U I h) h a := by
  intro d E p hm e he hlow
  unfold shellRateMigdal
  rw [dRdEeMigdal_zero hI hm hM hlow, mul_zero]

theorem lt_minimum {m₀ : ℝ} (hd : x.minimumDMMass d h = .ok m₀) (hlt : p.mass < m₀) :
    p.mass / 2 * h.vMax ^ 2 < (if d.usingEnergyThreshold = true then d.energyThreshold
      else if x.usingElectronBins = true ∨ x.usingElectronThreshold = true then x.energyGap + ((x.neThreshold : ℝ) - 1) * x.lowestW
      else x.energyGap) := by
  unfold minimumDMMass fdiv at hd
  dsimp only at hd
  generalize (if d.usingEnergyThreshold = true then d.energyThreshold
      else if x.usingElectronBins = true ∨ x.usingElectronThreshold = true then x.energyGap + ((x.neThreshold : ℝ) - 1) * x.lowestW
      else x.energyGap) = eMin at *
  split_ifs at hd with h0
  cases hd
  have hv2 : 0 < h.vMax * h.vMax := lt_of_le_of_ne (mul_self_nonneg _) (Ne.symm h0)
  rw [lt_div_iff₀ hv2] at hlt
  rw [sq]
  linarith

/-- C50 (electron threshold): whatever was chosen before, after `Use_Electron_Threshold(n, m)` a particle lighter than
`Minimum_DM_Mass` gives no signal. -/
theorem C50_electron_threshold (hU : U.keV ≤ U.mElectron) (hl : x.fractions.length = x.atoms.length) (ha : ∀ a ∈ x.atoms, BuiltAtom U a)
    (hK : ∀ a ∈ x.atoms, Kinematic S h a) (hm : 0 < p.mass) {n m : ℕ} (hn : 1 ≤ n) (hm' : m < 2 ^ 32)
    (hu : useElectronThreshold d x n m = .ok (d', x')) (hS : DefinedShells S d' p x) {m₀ : ℝ} (hd : x'.minimumDMMass d' h = .ok m₀)
    (hlt : p.mass < m₀) : x'.signalsTotal U S T d' p h = .ok 0 := by
  obtain ⟨h1, h2, h3⟩ := useElectronThreshold_ok hu
  have hlow := lt_minimum hd hlt
  rw [if_neg (by rw [h2]; simp), if_pos (by rw [h3]; simp)] at hlow
  have e1 : x'.neThreshold = n := by rw [h3]
  have e2 : x'.neMax = if 0 < m ∧ n < m then m else 100 := by rw [h3]
  rw [e1] at hlow
  unfold signalsTotal
  rw [if_neg (by rw [h2]; simp [Detector.initializePoisson]), if_pos (by rw [h3]), sumOver_ok (g := fun _ => 0)]
  · simp
  · intro ne hne
    obtain ⟨h4, h5⟩ := List.mem_range'_1.1 hne
    rw [e1, e2] at h5
    rw [e1] at h4
    have : ne < 2 ^ 32 := by split_ifs at h1 h5 <;> omega
    rw [rNe_zero hU (by rw [h3]; exact hl) (by rw [h3]; exact ha) (by rw [h3]; exact hK) (by rw [h3]; exact hS) hm hn h4 this hlow]
    simp

/-- If the fastest particles cannot ionize, there is no rate at any energy. -/
theorem dRdE_zero (hl : x.fractions.length = x.atoms.length) (ha : ∀ a ∈ x.atoms, BuiltAtom U a) (hK : ∀ a ∈ x.atoms, Kinematic S h a)
    (hm : 0 < p.mass) {E : ℝ} (hlow : p.mass / 2 * h.vMax ^ 2 < x.energyGap + E) : x.dRdE S d E p = .ok 0 := by
  rw [C65_energy_spectrum hl (r := fun _ _ => 0)]
  · simp
  · intro a hax e he
    exact hK a hax d E p hm e he (by have := (gap_le_binding (ha a hax) hax he).2; linarith)

/-- C50 (energy threshold), guarded: if no electron threshold is active, after `Use_Energy_Threshold(a, b)` a particle lighter than
`Minimum_DM_Mass` gives no signal. -/
theorem C50_energy_threshold_partial (hT : T.integrate.Exact) (he : x.usingElectronThreshold = false)
    (hl : x.fractions.length = x.atoms.length) (ha : ∀ a ∈ x.atoms, BuiltAtom U a) (hK : ∀ a ∈ x.atoms, Kinematic S h a)
    (hm : 0 < p.mass) {b₀ b : ℝ} (hu : d.useEnergyThreshold b₀ b = .ok d') {m₀ : ℝ} (hd : x.minimumDMMass d' h = .ok m₀)
    (hlt : p.mass < m₀) : x.signalsTotal U S T d' p h = .ok 0 := by
  have hlow := lt_minimum hd hlt
  rw [C38_ionization_energy_threshold_partial he hl hu, Outcome.ok.injEq]
  unfold Detector.useEnergyThreshold at hu
  dsimp only at hu
  split_ifs at hu
  cases hu
  rw [if_pos rfl] at hlow
  have hlow : p.mass / 2 * h.vMax ^ 2 < b₀ := hlow
  refine Finset.sum_eq_zero fun i _ => List.sum_eq_zero fun y hy => ?_
  obtain ⟨e, hee, rfl⟩ := List.mem_map.1 hy
  split_ifs with h1
  · have hmem : x.atoms[i] ∈ x.atoms := List.getElem_mem i.2
    have hev := U.eV_pos
    have hB : 0 < e.binding := by
      obtain ⟨B₀, h2, _, _, _, _, hall⟩ := atom_bindings (ha _ hmem)
      have := (hall e hee).2.1
      linarith
    rw [hT, intervalIntegral.integral_of_le h1.le, setIntegral_congr_fun (g := fun _ => (0 : ℝ)) measurableSet_Ioc]
    · simp
    · intro E hE
      dsimp only
      rw [hK _ hmem _ E p hm e hee (by have := hE.1; linarith)]
      simp [Outcome.valueOr0]
  · rfl

/-- C50 (electron bins), guarded: if energy thresholds and energy bins were never chosen, after `Use_Electron_Bins` a particle lighter than
`Minimum_DM_Mass` gives no signal in any bin. -/
theorem C50_electron_bins_partial (hU : U.keV ≤ U.mElectron) (hl : x.fractions.length = x.atoms.length)
    (ha : ∀ a ∈ x.atoms, BuiltAtom U a) (hK : ∀ a ∈ x.atoms, Kinematic S h a) (hm : 0 < p.mass) {n N : ℕ} (hn : 1 ≤ n)
    (hN : n + N ≤ 2 ^ 32) (hb : d.usingEnergyBins = false) (ht : d.usingEnergyThreshold = false)
    (hu : useElectronBins d x n N = .ok (d', x')) (hS : DefinedShells S d' p x) {m₀ : ℝ} (hd : x'.minimumDMMass d' h = .ok m₀)
    (hlt : p.mass < m₀) : x'.signalsBinned U S T d' p h = .ok (List.replicate N 0) := by
  obtain ⟨_, h2, h3, h4, h5, h6, h7, _, _, k, h10⟩ := useElectronBins_ok hu
  have hlow := lt_minimum hd hlt
  rw [if_neg (by rw [h6, ht]; simp), if_pos (by rw [h10]; simp)] at hlow
  have e1 : x'.neThreshold = n := by rw [h10]
  rw [e1] at hlow
  unfold signalsBinned
  rw [if_neg (by rw [h2]; simp), if_neg (by rw [h5, hb]; simp), if_pos (by rw [h10])]
  unfold signalsElectronBins
  rw [if_neg (by rw [h10]; simp), collect_ok (g := fun _ => (0 : ℝ))]
  · rw [h3, List.map_const', List.length_range]
  · intro i hi
    have hi : i < N := by rw [← h3]; exact List.mem_range.1 hi
    rw [e1, Nat.mod_eq_of_lt (show n + i < 2 ^ 32 by omega), rNe_zero hU (by rw [h10]; exact hl) (by rw [h10]; exact ha)
      (by rw [h10]; exact hK) (by rw [h10]; exact hS) hm hn (show n ≤ n + i by omega) (by omega) hlow, Outcome.bind_ok,
      Detector.vecGet_getD (by rw [h4, List.length_replicate]; exact hi) 0, Outcome.bind_ok, mul_zero]

/-- C50 (energy bins), guarded: if no threshold and no electron analysis was ever chosen, after `Use_Energy_Bins` a particle lighter than
`Minimum_DM_Mass` gives no signal in any bin. -/
theorem C50_energy_bins_partial (hT : T.integrate.Exact) (hl : x.fractions.length = x.atoms.length)
    (ha : ∀ a ∈ x.atoms, BuiltAtom U a) (hK : ∀ a ∈ x.atoms, Kinematic S h a) (hm : 0 < p.mass) (he : x.usingElectronThreshold = false)
    (hb : x.usingElectronBins = false) (ht : d.usingEnergyThreshold = false) {lo hi : ℝ} {n : ℤ} (hlo : 0 ≤ lo) (hn : 0 ≤ n)
    (hn' : n + 1 < 2 ^ 32) (hu : d.useEnergyBins lo hi n = .ok d') {m₀ : ℝ} (hd : x.minimumDMMass d' h = .ok m₀) (hlt : p.mass < m₀) :
    x.signalsBinned U S T d' p h = .ok (List.replicate n.toNat 0) := by
  have hlow := lt_minimum hd hlt
  obtain ⟨h1, h2, h3⟩ := C38_ionization_energy_bins (U := U) (S := S) (T := T) (p := p) (h := h) (x := x) hu
  have hN : toUInt32 n = n.toNat := by unfold toUInt32; rw [Int.emod_eq_of_lt hn (by omega)]
  rw [hN, Nat.mod_eq_of_lt (by omega)] at h2
  rw [hN] at h3
  have hedge : ∀ i, i < n.toNat + 1 → 1 ≤ n.toNat → ∃ z, vecGet d'.binEnergies i = .ok z ∧ (lo ≤ hi → 0 ≤ z) := fun i hi₀ hpos => by
    rw [h2, vecGet_lt (by simp [linearSpace]; omega)]
    refine ⟨_, rfl, fun hlh => ?_⟩
    simp only [linearSpace, List.getElem_map, List.getElem_range]
    have : (1 : ℝ) ≤ n.toNat := by exact_mod_cast hpos
    push_cast
    have : 0 ≤ (hi - lo) / ((n.toNat : ℝ) + 1 - 1) := div_nonneg (by linarith) (by linarith)
    positivity
  have hfacts : d'.usingEnergyThreshold = false ∧ d'.usingEnergyBins = true ∧ d'.binEfficiencies = List.replicate n.toNat 1 ∧ lo ≤ hi := by
    unfold Detector.useEnergyBins Detector.initializeBinned at hu
    by_cases h1 : d.analysis = .binnedPoisson
    · rw [if_pos h1] at hu; cases hu
    · rw [if_neg h1, Outcome.bind_ok] at hu
      split_ifs at hu with h4
      cases hu
      exact ⟨ht, rfl, by rw [hN], not_lt.1 h4⟩
  obtain ⟨f1, f2, f3, f4⟩ := hfacts
  rw [if_neg (by simp [f1]), if_neg (by simp [he, hb])] at hlow
  rw [h1]
  unfold Detector.signalsEnergyBins
  rw [if_neg (by simp [f2]), h3, collect_ok (g := fun _ => (0 : ℝ))]
  · rw [List.map_const', List.length_range]
  · intro i hi'
    have hi' := List.mem_range.1 hi'
    obtain ⟨y, e1, e2⟩ := hedge i (by omega) (by omega)
    obtain ⟨z, e3, e4⟩ := hedge (i + 1) (by omega) (by omega)
    rw [e1, Outcome.bind_ok, e3, Outcome.bind_ok, Detector.vecGet_getD (by rw [f3, List.length_replicate]; exact hi') 0, Outcome.bind_ok, hT,
      intervalIntegral.integral_congr (g := fun _ => (0 : ℝ))]
    · simp
    · intro E hE
      have hE : 0 ≤ E := le_trans (le_min (e2 f4) (e4 f4)) hE.1
      change (x.dRdE S d' E p).valueOr0 = 0
      rw [dRdE_zero hl ha hK hm (by linarith)]
      rfl

/-- The class of electron recoil detectors: the statements above for the two derived classes. -/
theorem C50_electron_recoil (hU : U.keV ≤ U.mElectron) {s : Detector × IonizationDetector} (hs : ReachableIonization U s)
    (hv : 0 < h.vMax) (hm : 0 < p.mass) (hS : ∀ d, DefinedShells (shellRateER U I h) d p s.2) {n m : ℕ} (hn : 1 ≤ n) (hm' : m < 2 ^ 32)
    (hu : useElectronThreshold s.1 s.2 n m = .ok (d', x')) {m₀ : ℝ} (hd : x'.minimumDMMass d' h = .ok m₀)
    (hlt : p.mass < m₀) : x'.signalsTotal U (shellRateER U I h) T d' p h = .ok 0 := by
  obtain ⟨h1, h2⟩ := reachable_facts hs
  exact C50_electron_threshold hU h1 h2 (fun a ha => kinematic_ER (h2 a ha) hv) hm hn hm' hu (hS _) hd hlt

/-- The same for Migdal detectors, whose rates are always defined. -/
theorem C50_migdal (hU : U.keV ≤ U.mElectron) {s : Detector × IonizationDetector} (hs : ReachableIonization U s) (hI : I.Exact)
    (hM : ∀ a ∈ s.2.atoms, ∀ iso ∈ a.nucleus.isotopes, 0 < iso.mass) (hm : 0 < p.mass) {n m : ℕ} (hn : 1 ≤ n) (hm' : m < 2 ^ 32)
    (hu : useElectronThreshold s.1 s.2 n m = .ok (d', x')) {m₀ : ℝ} (hd : x'.minimumDMMass d' h = .ok m₀)
    (hlt : p.mass < m₀) : x'.signalsTotal U (shellRateMigdal U I h) T d' p h = .ok 0 := by
  obtain ⟨h1, h2⟩ := reachable_facts hs
  exact C50_electron_threshold hU h1 h2 (fun a ha => kinematic_Migdal hI (hM a ha)) hm hn hm' hu (fun _ _ _ _ _ _ => ⟨_, rfl⟩) hd hlt

theorem rNe_detector {d₁ : Detector} (hS : ∀ E n e, S d₁ E p n e = S d E p n e) (ne : ℕ) : x.rNe U S d₁ ne p = x.rNe U S d ne p := by
  unfold rNe rNeAtom rNeShell
  simp only [hS]

theorem signalsTotal_congr {d₁ : Detector} (h1 : d₁.analysis = .poisson) (h2 : d.analysis = .poisson)
    (hS : ∀ E n e, S d₁ E p n e = S d E p n e) (he : d₁.exposure = d.exposure)
    (ht : x.usingElectronThreshold = true ∨
      d₁.usingEnergyThreshold = true ∧ d.usingEnergyThreshold = true ∧ d₁.energyThreshold = d.energyThreshold) :
    x.signalsTotal U S T d₁ p h = x.signalsTotal U S T d p h := by
  unfold signalsTotal
  have n1 : ¬d₁.analysis = .binnedPoisson := by rw [h1]; decide
  have n2 : ¬d.analysis = .binnedPoisson := by rw [h2]; decide
  rw [if_neg n1, if_neg n2]
  by_cases hx : x.usingElectronThreshold = true
  · rw [if_pos hx, if_pos hx, he]
    exact sumOver_congr fun ne _ => by rw [rNe_detector hS]
  · obtain ⟨h3, h4, h5⟩ := ht.resolve_left hx
    rw [if_neg hx, if_neg hx, if_pos h3, if_pos h4]
    unfold thresholdSignal
    simp only [hS, he, h5]

/-- C50 fails when an energy threshold is chosen after an electron threshold: `Minimum_DM_Mass` follows the energy threshold, the signals
still follow the electron threshold. So every particle that gives a signal is below the minimum mass for a suitable energy threshold. -/
theorem C50_fails_stale_threshold {n m : ℕ} (hu : useElectronThreshold d x n m = .ok (d', x')) (hv : h.vMax ≠ 0)
    (hS : ∀ d d' E p n e, d.flatEfficiency = d'.flatEfficiency → S d E p n e = S d' E p n e) {s : ℝ}
    (hsig : x'.signalsTotal U S T d' p h = .ok s) :
    ∃ b₀ d'', d'.useEnergyThreshold b₀ (b₀ + 1) = .ok d'' ∧ (∃ m₀, x'.minimumDMMass d'' h = .ok m₀ ∧ p.mass < m₀) ∧
      x'.signalsTotal U S T d'' p h = .ok s := by
  obtain ⟨_, h2, h3⟩ := useElectronThreshold_ok hu
  have hv2 : h.vMax * h.vMax ≠ 0 := mul_ne_zero hv hv
  obtain ⟨b₀, hb⟩ : ∃ b₀, b₀ = (p.mass + 1) * (h.vMax * h.vMax) / 2 := ⟨_, rfl⟩
  have hu2 : d'.useEnergyThreshold b₀ (b₀ + 1) = .ok { d'.initializePoisson with
      usingEnergyThreshold := true, energyThreshold := b₀, energyMax := b₀ + 1 } := by
    unfold Detector.useEnergyThreshold
    rw [if_neg (by linarith)]
  refine ⟨b₀, _, hu2, ⟨p.mass + 1, ?_, by linarith⟩, ?_⟩
  · unfold minimumDMMass
    dsimp only
    rw [if_pos rfl, fdiv_ok hv2, Outcome.ok.injEq, hb]
    field_simp
  · rw [← hsig]
    have e1 : d'.analysis = .poisson := by rw [h2]; rfl
    have e2 : x'.usingElectronThreshold = true := by rw [h3]
    exact signalsTotal_congr rfl e1 (fun E n e => hS _ d' E p n e rfl) rfl (.inl e2)

/-! ## C63 — kinematic range -/

/-- C63 (ionization, energies): electrons with more than `Maximum_Energy_Deposit` minus the gap are not produced. -/
theorem C63_ionization_above_deposit (hl : x.fractions.length = x.atoms.length) (ha : ∀ a ∈ x.atoms, BuiltAtom U a)
    (hK : ∀ a ∈ x.atoms, Kinematic S h a) (hm : 0 < p.mass) {E Emax : ℝ} (hd : maximumEnergyDeposit p h = .ok Emax)
    (hE : Emax < x.energyGap + E) : x.dRdE S d E p = .ok 0 := by
  cases hd
  exact dRdE_zero hl ha hK hm (by rw [sq, ← mul_assoc]; exact hE)

/-- C63 (ionization, energies, sharp): the deposit is the largest energy the fastest particle can transfer. -/
theorem C63_ionization_deposit_attained (hm : 0 < p.mass) {Emax : ℝ} (hd : maximumEnergyDeposit p h = .ok Emax) :
    IsGreatest {E | ∃ q, CanTransfer p.mass h.vMax q E} Emax := by
  cases hd
  have key : ∀ q, q * h.vMax - q ^ 2 / (2 * p.mass) = p.mass / 2 * h.vMax * h.vMax - (q - p.mass * h.vMax) ^ 2 / (2 * p.mass) := fun q => by
    field_simp; ring
  constructor
  · exact ⟨p.mass * h.vMax, by unfold CanTransfer; rw [key]; simp⟩
  · rintro E ⟨q, hq⟩
    unfold CanTransfer at hq
    rw [key] at hq
    have : 0 ≤ (q - p.mass * h.vMax) ^ 2 / (2 * p.mass) := by positivity
    linarith

theorem energyGap_pos (hG : U.GeV = 1) (ha : ∀ a ∈ x.atoms, BuiltAtom U a) : 0 < x.energyGap := by
  unfold energyGap
  rcases (foldl_min_spec (fun a : Atom => a.lowestBindingEnergy) x.atoms (10 ^ 10)).2.2 with h1 | ⟨a, hax, h1⟩
  · have : (0 : ℝ) < 10 ^ 10 := by positivity
    rw [← h1] at this
    convert this
  · have hev := U.eV_pos
    have : 0 < a.lowestBindingEnergy := by
      obtain ⟨_, _, _, h2 | h2⟩ := C52_lowest_energies hG (ha a hax) <;> rw [h2] <;> positivity
    rw [← h1] at this
    convert this

/-- C63 (ionization, gap): the energy gap is the binding energy of the most weakly bound electron of all targets, and the lowest work
function is the smallest one. -/
theorem C63_ionization_gap (hG : U.GeV = 1) (ha : ∀ a ∈ x.atoms, BuiltAtom U a) (hne : x.atoms ≠ []) :
    IsLeast {B | ∃ a ∈ x.atoms, ∃ e ∈ a.electrons, B = e.binding} x.energyGap ∧ IsLeast {W | ∃ a ∈ x.atoms, W = a.W} x.lowestW := by
  have hev : U.eV = 1 / 10 ^ 9 := by unfold Units.GeV at hG; linarith
  obtain ⟨a₀, ha₀⟩ := List.exists_mem_of_ne_nil _ hne
  constructor
  · constructor
    · have h1 := foldl_min_spec (fun a : Atom => a.lowestBindingEnergy) x.atoms (10 ^ 10)
      have h2 : x.energyGap = 10 ^ 10 ∨ ∃ a ∈ x.atoms, x.energyGap = a.lowestBindingEnergy := by
        unfold energyGap; convert h1.2.2
      rcases h2 with h2 | ⟨a, hax, h2⟩
      · have h3 := energyGap_le ha₀
        obtain ⟨_, _, _, h4 | h4⟩ := C52_lowest_energies hG (ha a₀ ha₀) <;> rw [h2, h4, hev] at h3 <;> norm_num at h3
      · obtain ⟨e, h3, h4, _⟩ := C52_lowest_energies hG (ha a hax)
        exact ⟨a, hax, e, List.mem_of_mem_head? h3, by rw [h2, h4]⟩
    · rintro B ⟨a, hax, e, he, rfl⟩
      exact (gap_le_binding (ha a hax) hax he).2
  · constructor
    · have h1 := foldl_min_spec (fun a : Atom => a.W) x.atoms (10 ^ 10)
      have h2 : x.lowestW = 10 ^ 10 ∨ ∃ a ∈ x.atoms, x.lowestW = a.W := by
        unfold lowestW; convert h1.2.2
      rcases h2 with h2 | h2
      · have h3 := lowestW_le ha₀
        obtain ⟨_, _, _, _, _, h4, _⟩ := atom_bindings (ha a₀ ha₀)
        rw [hev] at h4
        rw [h2] at h3
        norm_num at h3 h4
        linarith
      · exact h2
    · rintro W ⟨a, hax, rfl⟩
      exact lowestW_le hax

/-- C63 (ionization, speeds): exactly the particles with at least `Minimum_DM_Speed` can transfer the energy gap. -/
theorem C63_ionization_minimum_speed (hG : U.GeV = 1) (ha : ∀ a ∈ x.atoms, BuiltAtom U a) (hm : 0 < p.mass) :
    ∃ v₀, x.minimumDMSpeed p = .ok v₀ ∧ ∀ v, 0 ≤ v → ((∃ q, CanTransfer p.mass v q x.energyGap) ↔ v₀ ≤ v) := by
  have hg := energyGap_pos hG ha
  unfold minimumDMSpeed
  rw [fdiv_ok hm.ne', Outcome.bind_ok, fsqrt_ok (by positivity)]
  refine ⟨_, rfl, fun v hv => ?_⟩
  have key : ∀ q, q * v - q ^ 2 / (2 * p.mass) = p.mass / 2 * v ^ 2 - (q - p.mass * v) ^ 2 / (2 * p.mass) := fun q => by
    field_simp; ring
  rw [Real.sqrt_le_left hv, div_le_iff₀ hm]
  constructor
  · rintro ⟨q, hq⟩
    unfold CanTransfer at hq
    rw [key] at hq
    have : 0 ≤ (q - p.mass * v) ^ 2 / (2 * p.mass) := by positivity
    linarith
  · intro hle
    refine ⟨p.mass * v, ?_⟩
    unfold CanTransfer
    rw [key, sub_self]
    simp
    linarith

/-- C63 (ionization, masses): what `Minimum_DM_Mass` is: the mass for which the fastest particle just has the required energy. -/
theorem C63_ionization_minimum_mass {m₀ : ℝ} (hd : x.minimumDMMass d h = .ok m₀) :
    (d.usingEnergyThreshold = true → m₀ / 2 * h.vMax ^ 2 = d.energyThreshold) ∧
    (d.usingEnergyThreshold = false → (x.usingElectronBins = true ∨ x.usingElectronThreshold = true) →
      m₀ / 2 * h.vMax ^ 2 = x.energyGap + ((x.neThreshold : ℝ) - 1) * x.lowestW) ∧
    (d.usingEnergyThreshold = false → x.usingElectronBins = false → x.usingElectronThreshold = false →
      m₀ / 2 * h.vMax ^ 2 = x.energyGap) := by
  unfold minimumDMMass fdiv at hd
  dsimp only at hd
  have h0 : h.vMax * h.vMax ≠ 0 := by
    intro h0
    rw [if_pos h0] at hd
    cases hd
  rw [if_neg h0] at hd
  have key : ∀ E, m₀ = 2 * E / (h.vMax * h.vMax) → m₀ / 2 * h.vMax ^ 2 = E := by
    rintro E rfl
    have := left_ne_zero_of_mul h0
    field_simp
  have hd := (Outcome.ok.inj hd).symm
  refine ⟨fun h1 => key _ ?_, fun h1 h2 => key _ ?_, fun h1 h2 h3 => key _ ?_⟩
  · rw [hd, if_pos h1]
  · rw [hd, if_neg (by simp [h1]), if_pos h2]
  · rw [hd, if_neg (by simp [h1]), if_neg (by simp [h2, h3])]

/-! ## C64 — proportionality -/

/-- C64 (ionization): every signal is proportional to the cross section on electrons, or for the Migdal effect on nuclei. -/
theorem C64_ionization (hT : T.integrate.Homogeneous) (hI : I.Homogeneous) :
    LinearClass U (x.toClass U (shellRateER U I h) T h) "Electrons" ∧ LinearClass U (x.toClass U (shellRateMigdal U I h) T h) "Nuclei" :=
  ⟨linearClass hT (shellRateER_linear hI), linearClass hT (shellRateMigdal_linear hI)⟩

/-! ## C67 — the energy window -/

/-- C67 (guarded): if no electron threshold is active, after `Use_Energy_Threshold(a, b)` the signals of an ionization detector are the
events above `a` — for every shell up to the end of its table, not up to `b`. -/
theorem C67_ionization_partial {b₀ b : ℝ} (he : x.usingElectronThreshold = false) (hl : x.fractions.length = x.atoms.length)
    (hu : d.useEnergyThreshold b₀ b = .ok d') :
    x.signalsTotal U S T d' p h = .ok (∑ i : Fin x.atoms.length, (x.atoms[i].electrons.map fun e =>
      if b₀ < e.kMax ^ 2 / (2 * U.mElectron) then x.fractions.getD i 0 *
        T.integrate (fun E => d.exposure * (S d' E p x.atoms[i].nucleus e).valueOr0) b₀ (e.kMax ^ 2 / (2 * U.mElectron)) else 0).sum) :=
  C38_ionization_energy_threshold_partial he hl hu

/-- C67 fails for ionization detectors: the upper end of the window has no influence on the signals. -/
theorem C67_fails_ionization {b₀ b b' : ℝ} {d'' : Detector} (hu : d.useEnergyThreshold b₀ b = .ok d')
    (hu' : d.useEnergyThreshold b₀ b' = .ok d'')
    (hS : ∀ d d' E p n e, d.flatEfficiency = d'.flatEfficiency → S d E p n e = S d' E p n e) :
    x.signalsTotal U S T d' p h = x.signalsTotal U S T d'' p h := by
  unfold Detector.useEnergyThreshold at hu hu'
  dsimp only at hu hu'
  split_ifs at hu hu'
  cases hu
  cases hu'
  exact signalsTotal_congr rfl rfl (fun E n e => hS _ _ E p n e rfl) rfl (.inr ⟨rfl, rfl, rfl⟩)

/-- The two classes meet the hypothesis of `C50_fails_stale_threshold` and `C67_fails_ionization`. -/
theorem shellRates_detector (d d' : Detector) (E : ℝ) (p : DMParticle) (n : Nucleus) (e : AtomicElectron)
    (hd : d.flatEfficiency = d'.flatEfficiency) : shellRateER U I h d E p n e = shellRateER U I h d' E p n e ∧
      shellRateMigdal U I h d E p n e = shellRateMigdal U I h d' E p n e := by
  unfold shellRateER shellRateMigdal
  rw [hd]
  exact ⟨rfl, rfl⟩

end IonizationDetector

end Obscura
